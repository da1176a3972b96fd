import Verif.Spec.ManyAccounts
import Verif.Lemmas.Startup
/-! Lemmas for C83: an account does not depend on its gate except through the gate's answers. -/
namespace Jq
variable {γ ν μ : Type} [PyNum ν]

/-- The account with another gate. -/
def Acct.at (a : Acct γ ν) (g : γ) : Acct γ ν := { a with gate := g }

omit [PyNum ν] in
theorem at_self (a : Acct γ ν) : a.at a.gate = a := rfl

/-- The same with the outcome. -/
def atGate {α : Type} (r : Acct γ ν × Py α) (g : γ) : Acct γ ν × Py α := (r.1.at g, r.2)

omit [PyNum ν] in
theorem onCreated_at (a : Acct γ ν) (g : γ) (o : Order ν) : (a.at g).onCreated o = (a.onCreated o).at g := by
  simp only [Acct.onCreated, Acct.at]
  split <;> rfl

omit [PyNum ν] in
theorem onCreated_gate (a : Acct γ ν) (o : Order ν) : (a.onCreated o).gate = a.gate := by
  simp only [Acct.onCreated]
  split <;> rfl

omit [PyNum ν] in
theorem putPos_at (a : Acct γ ν) (g : γ) (p : Pos ν) : (a.at g).putPos p = (a.putPos p).at g := by
  simp only [Acct.putPos, Acct.at]
  split <;> rfl

omit [PyNum ν] in
theorem loadPositions_at (ps : List (PosInfo ν)) (a : Acct γ ν) (g : γ) :
    Acct.loadPositions ps (a.at g) = atGate (Acct.loadPositions ps a) g := by
  induction ps generalizing a with
  | nil => rfl
  | cons i is ih =>
    simp only [Acct.loadPositions]
    cases Pos.load i with
    | error e => rfl
    | ok p => simp only [putPos_at, ih]

theorem applyBalance_at (info : BalInfo ν) (a : Acct γ ν) (g : γ) : (a.at g).applyBalance info = atGate (a.applyBalance info) g := by
  simp only [Acct.applyBalance]
  cases info.cash with
  | none => rfl
  | some c =>
    cases info.positions with
    | none => rfl
    | some ps => exact loadPositions_at ps { a with
        total := orOld c.total a.total
        avail := orOld c.avail a.avail
        locked := orOld c.locked a.locked
        long := []
        short := [] } g

theorem mergeOrder_at (i : OrderInfo ν) (a : Acct γ ν) (g : γ) : (a.at g).mergeOrder i = atGate (a.mergeOrder i) g := by
  simp only [Acct.mergeOrder]
  cases i.orderId with
  | none => rfl
  | some id =>
    cases Order.load i with
    | error e => rfl
    | ok r =>
      have : (a.at g).find id = a.find id := rfl
      simp only [this]
      cases a.find id with
      | none => rfl
      | some l => by_cases h : r.pyEq l = true <;> simp only [h] <;> rfl

theorem mergeOrders_at (is : List (OrderInfo ν)) (a : Acct γ ν) (g : γ) : Acct.mergeOrders is (a.at g) = atGate (Acct.mergeOrders is a) g := by
  induction is generalizing a with
  | nil => rfl
  | cons i is ih =>
    simp only [Acct.mergeOrders, mergeOrder_at]
    cases h : a.mergeOrder i with
    | mk b r =>
      cases r with
      | error e => rfl
      | ok u => simp only [atGate]; exact ih b

theorem applyBalance_gate (info : BalInfo ν) (a : Acct γ ν) : (a.applyBalance info).1.gate = a.gate := by
  have := applyBalance_at info a a.gate
  rw [at_self] at this
  rw [this]; rfl

theorem mergeOrders_gate (is : List (OrderInfo ν)) (a : Acct γ ν) : (Acct.mergeOrders is a).1.gate = a.gate := by
  have := mergeOrders_at is a a.gate
  rw [at_self] at this
  rw [this]; rfl

/-- Same accounts with the same outcomes. -/
def SameRes {α : Type} (R : γ → γ → Prop) (r s : Acct γ ν × Py α) : Prop := SameBut R r.1 s.1 ∧ r.2 = s.2

omit [PyNum ν] in
theorem sameBut_at {R : γ → γ → Prop} (a : Acct γ ν) {g h : γ} (hr : R g h) : SameBut R (a.at g) (a.at h) := ⟨hr, rfl⟩

omit [PyNum ν] in
theorem sameBut_iff {R : γ → γ → Prop} {a b : Acct γ ν} : SameBut R a b ↔ R a.gate b.gate ∧ b = a.at b.gate := Iff.rfl

omit [PyNum ν] in
theorem sameRes_try {α : Type} {R : γ → γ → Prop} {r s : Acct γ ν × Py α} (d : α) (h : SameRes R r s) : SameRes R (tryExcept d r) (tryExcept d s) := by
  obtain ⟨a, r⟩ := r
  obtain ⟨b, s⟩ := s
  obtain ⟨h1, h2⟩ := h
  simp only at h2
  subst h2
  cases r <;> exact ⟨h1, rfl⟩

omit [PyNum ν] in
theorem sameRes_map {α β : Type} {R : γ → γ → Prop} {r s : Acct γ ν × Py α} (f : α → β) (h : SameRes R r s) :
    SameRes R (r.1, r.2.map f) (s.1, s.2.map f) := ⟨h.1, by rw [h.2]⟩

/-- The operation of a synchronisation. -/
def syncOp (orders : Bool) : AOp ν := if orders then .syncOrders else .syncBalance

theorem sync_same {G : Gate γ ν} {R : γ → γ → Prop} (H : PollingIsHarmless G R) (orders : Bool) {a b : Acct γ ν} (h : SameBut R a b) :
    SameRes R (a.step G (syncOp orders)) (b.step G (syncOp orders)) := by
  obtain ⟨hr, hb⟩ := h
  generalize b.gate = g at hr hb
  subst hb
  cases orders with
  | false =>
    refine sameRes_map _ (sameRes_try _ ?_)
    obtain ⟨h1, h2⟩ := H.balance a.gate g hr
    simp only [Acct.syncBalanceBody]
    cases e1 : G.balance a.gate with
    | mk g1 r1 =>
      cases e2 : G.balance g with
      | mk g2 r2 =>
        rw [e1, e2] at h1 h2
        simp only at h1 h2
        subst h2
        cases r1 with
        | error e => exact ⟨⟨h1, rfl⟩, rfl⟩
        | ok info =>
          have e := applyBalance_at info a
          refine ⟨?_, ?_⟩
          · have h3 := sameBut_at (a.applyBalance info).1 h1
            have k1 : ((a.at g1).applyBalance info).1 = (a.applyBalance info).1.at g1 := congrArg Prod.fst (e g1)
            have k2 : ((a.at g2).applyBalance info).1 = (a.applyBalance info).1.at g2 := congrArg Prod.fst (e g2)
            rw [← k1, ← k2] at h3
            exact h3
          · exact (congrArg Prod.snd (e g1)).trans (congrArg Prod.snd (e g2)).symm
  | true =>
    refine sameRes_map _ (sameRes_try _ ?_)
    obtain ⟨h1, h2⟩ := H.orders a.gate g hr
    simp only [Acct.syncOrdersBody]
    cases e1 : G.orders a.gate with
    | mk g1 r1 =>
      cases e2 : G.orders g with
      | mk g2 r2 =>
        rw [e1, e2] at h1 h2
        simp only at h1 h2
        subst h2
        cases r1 with
        | error e => exact ⟨⟨h1, rfl⟩, rfl⟩
        | ok infos =>
          have e := mergeOrders_at infos a
          simp only
          rw [show ({ a with gate := g1 } : Acct γ ν) = a.at g1 from rfl, show ({ a with gate := g2 } : Acct γ ν) = a.at g2 from rfl, e, e]
          cases Acct.mergeOrders infos a with
          | mk b r =>
            cases r with
            | error e => exact ⟨sameBut_at _ h1, rfl⟩
            | ok u => exact ⟨⟨h1, rfl⟩, rfl⟩

theorem step_same {G : Gate γ ν} {R : γ → γ → Prop} (H : AskingIsHarmless G R) (op : AOp ν) {a b : Acct γ ν} (h : SameBut R a b) :
    SameRes R (a.step G op) (b.step G op) := by
  cases op with
  | syncBalance => exact sync_same H.toPollingIsHarmless false h
  | syncOrders => exact sync_same H.toPollingIsHarmless true h
  | order idn now code amount style side =>
    obtain ⟨hr, hb⟩ := h
    generalize b.gate = g at hr hb
    subst hb
    simp only [Acct.step, Acct.order]
    cases Order.load (newOrderInfo (natStr idn) now code amount style) with
    | error e => exact ⟨⟨hr, rfl⟩, rfl⟩
    | ok o =>
      refine sameRes_try _ ?_
      obtain ⟨h1, h2⟩ := H.order a.gate g o hr
      simp only [Acct.orderBody, Acct.putOrder]
      cases e1 : G.order a.gate o with
      | mk g1 r1 =>
        cases e2 : G.order g o with
        | mk g2 r2 =>
          rw [e1, e2] at h1 h2
          simp only at h1 h2
          subst h2
          cases r1 with
          | error e => exact ⟨⟨h1, rfl⟩, rfl⟩
          | ok u =>
            have := onCreated_at ({ a with oheap := a.oheap ++ [o], orders := dset a.orders (natStr idn) a.oheap.length } : Acct γ ν)
            refine ⟨?_, rfl⟩
            have h3 := sameBut_at (({ a with oheap := a.oheap ++ [o], orders := dset a.orders (natStr idn) a.oheap.length } : Acct γ ν).onCreated o) h1
            rw [← this g1 o, ← this g2 o] at h3
            exact h3
  | cancel id =>
    obtain ⟨hr, hb⟩ := h
    generalize b.gate = g at hr hb
    subst hb
    refine sameRes_map _ (sameRes_try _ ?_)
    obtain ⟨h1, h2⟩ := H.cancel a.gate g id hr
    simp only [Acct.cancelBody]
    split
    · exact ⟨⟨h1, rfl⟩, h2⟩
    · exact ⟨⟨hr, rfl⟩, rfl⟩
/-- Asking the gate leaves a gate that is as good. -/
theorem step_asks {G : Gate γ ν} {R : γ → γ → Prop} (H : PollingIsHarmless G R) (orders : Bool) (a : Acct γ ν) (hr : R a.gate a.gate) :
    R a.gate (a.step G (syncOp orders)).1.gate := by
  cases orders with
  | true =>
    have : (a.step G .syncOrders).1.gate = (G.orders a.gate).1 := by
      simp only [Acct.step, Acct.syncOrders, Acct.syncOrdersBody]
      cases G.orders a.gate with
      | mk g r =>
        cases r with
        | error e => rfl
        | ok infos =>
          have := mergeOrders_gate infos (a.at g)
          simp only
          rw [show ({ a with gate := g } : Acct γ ν) = a.at g from rfl]
          cases h : Acct.mergeOrders infos (a.at g) with
          | mk b r => rw [h] at this; cases r <;> exact this
    simp only [syncOp, if_true]
    rw [this]; exact H.askOrders _ hr
  | false =>
    have : (a.step G .syncBalance).1.gate = (G.balance a.gate).1 := by
      simp only [Acct.step, Acct.syncBalance, Acct.syncBalanceBody]
      cases G.balance a.gate with
      | mk g r =>
        cases r with
        | error e => rfl
        | ok info =>
          have := applyBalance_gate info (a.at g)
          simp only
          rw [show ({ a with gate := g } : Acct γ ν) = a.at g from rfl]
          cases h : (a.at g).applyBalance info with
          | mk b r => rw [h] at this; cases r <;> exact this
    simp only [syncOp, Bool.false_eq_true, if_false]
    rw [this]; exact H.askBalance _ hr

theorem old_same {G : Gate γ ν} {R : γ → γ → Prop} (H : PollingIsHarmless G R) (n : Nat) (o : Bool) (x : Accts γ ν) (b : Acct γ ν)
    (h : SameBut R x.cur b) : SameBut R (x.step G (.old n o)).cur b := by
  simp only [Accts.step]
  split
  · exact h
  · rename_i c _
    obtain ⟨hr, hb⟩ := h
    have hg : R x.cur.gate x.cur.gate := H.trans _ _ _ hr (H.symm _ _ hr)
    have := step_asks H o ({ c with gate := x.cur.gate } : Acct γ ν) hg
    exact ⟨H.trans _ _ _ (H.symm _ _ this) hr, hb⟩

/-! ## The API and the user's functions -/

/-- Contexts with the same accounts. -/
def SameCtx (R : γ → γ → Prop) (x y : Ctx γ ν) : Prop := ∃ a b, x = ⟨true, some a⟩ ∧ y = ⟨true, some b⟩ ∧ SameBut R a b

def SameCtxRes {α : Type} (R : γ → γ → Prop) (r s : Ctx γ ν × Py α) : Prop := SameCtx R r.1 s.1 ∧ r.2 = s.2

theorem ctx_order_same {G : Gate γ ν} {R : γ → γ → Prop} (H : AskingIsHarmless G R) (udig : Char → Bool) (idn : Nat) (now : DT) (code : Str)
    (amount : AmtArg) (style : StyleArg ν) (side : SideArg) {x y : Ctx γ ν} (h : SameCtx R x y) :
    SameCtxRes R (x.order G udig idn now code amount style side) (y.order G udig idn now code amount style side) := by
  simp only [Ctx.order]
  cases checkRequest udig code amount style side with
  | error e => exact ⟨h, rfl⟩
  | ok r =>
    obtain ⟨n, st, sd⟩ := r
    obtain ⟨a, b, rfl, rfl, h⟩ := h
    have := step_same H (.order idn now code n st sd) h
    exact ⟨⟨_, _, rfl, rfl, this.1⟩, this.2⟩

theorem ctx_cancel_same {G : Gate γ ν} {R : γ → γ → Prop} (H : AskingIsHarmless G R) (id : Str) {x y : Ctx γ ν} (h : SameCtx R x y) :
    SameCtxRes R (x.cancel G id) (y.cancel G id) := by
  obtain ⟨a, b, rfl, rfl, h⟩ := h
  have := step_same H (.cancel id) h
  refine ⟨⟨_, _, rfl, rfl, this.1⟩, ?_⟩
  exact (Acct.cancel_ok G a id).trans (Acct.cancel_ok G b id).symm

theorem ctx_batchCancel_same {G : Gate γ ν} {R : γ → γ → Prop} (H : AskingIsHarmless G R) (ids : List Str) {x y : Ctx γ ν} (h : SameCtx R x y) :
    SameCtxRes R (x.batchCancel G ids) (y.batchCancel G ids) := by
  induction ids generalizing x y with
  | nil => exact ⟨h, rfl⟩
  | cons id ids ih =>
    have := ctx_cancel_same H id h
    simp only [Ctx.batchCancel]
    cases e1 : x.cancel G id with
    | mk x' r =>
      cases e2 : y.cancel G id with
      | mk y' r' =>
        rw [e1, e2] at this
        obtain ⟨h1, h2⟩ := this
        simp only at h2
        subst h2
        cases r with
        | error e => exact ⟨h1, rfl⟩
        | ok u => exact ih h1

theorem ctx_batch_same {G : Gate γ ν} {R : γ → γ → Prop} (H : AskingIsHarmless G R) (udig : Char → Bool) (es : List (BatchEntry ν))
    {x y : Ctx γ ν} (h : SameCtx R x y) : SameCtx R (x.batch G udig es).1 (y.batch G udig es).1 ∧ (x.batch G udig es).2 = (y.batch G udig es).2 := by
  induction es generalizing x y with
  | nil => exact ⟨h, rfl⟩
  | cons e es ih =>
    have h1 : SameCtx R (x.batchOne G udig e).1 (y.batchOne G udig e).1 ∧ (x.batchOne G udig e).2 = (y.batchOne G udig e).2 := by
      simp only [Ctx.batchOne]
      cases e.code with
      | none => exact ⟨h, rfl⟩
      | some code =>
        cases e.amount with
        | none => exact ⟨h, rfl⟩
        | some amount =>
          have := ctx_order_same H udig e.idn e.now code amount e.style e.side h
          simp only
          cases e1 : x.order G udig e.idn e.now code amount e.style e.side with
          | mk x' r =>
            cases e2 : y.order G udig e.idn e.now code amount e.style e.side with
            | mk y' r' =>
              rw [e1, e2] at this
              obtain ⟨h1, h2⟩ := this
              simp only at h2
              subst h2
              cases r <;> exact ⟨h1, rfl⟩
    obtain ⟨h2, h3⟩ := ih h1.1
    simp only [Ctx.batch]
    exact ⟨h2, by rw [h3, h1.2]⟩

theorem ctx_call_same {G : Gate γ ν} {R : γ → γ → Prop} (H : AskingIsHarmless G R) (udig : Char → Bool) (c : ApiCall ν)
    {x y : Ctx γ ν} (h : SameCtx R x y) : SameCtxRes R (x.call G udig c) (y.call G udig c) := by
  cases c with
  | order i n c a st sd =>
    have := ctx_order_same H udig i n c a st sd h
    exact ⟨this.1, by simp only [Ctx.call]; rw [this.2]⟩
  | cancel id =>
    have := ctx_cancel_same H id h
    exact ⟨this.1, by simp only [Ctx.call]; rw [this.2]⟩
  | batchSubmit es =>
    have := ctx_batch_same H udig es h
    exact ⟨this.1, by simp only [Ctx.call]; rw [this.2]⟩
  | batchCancel ids =>
    have := ctx_batchCancel_same H ids h
    exact ⟨this.1, by simp only [Ctx.call]; rw [this.2]⟩
  | syncBalance =>
    obtain ⟨a, b, rfl, rfl, h⟩ := h
    have := step_same H .syncBalance h
    refine ⟨⟨_, _, rfl, rfl, this.1⟩, ?_⟩
    exact congrArg (Except.map _) ((Acct.syncBalance_ok G a).trans (Acct.syncBalance_ok G b).symm)
  | syncOrders =>
    obtain ⟨a, b, rfl, rfl, h⟩ := h
    have := step_same H .syncOrders h
    refine ⟨⟨_, _, rfl, rfl, this.1⟩, ?_⟩
    exact congrArg (Except.map _) ((Acct.syncOrders_ok G a).trans (Acct.syncOrders_ok G b).symm)

theorem prog_same {G : Gate γ ν} {R : γ → γ → Prop} (H : AskingIsHarmless G R) (udig : Char → Bool) (p : Prog γ ν μ) (hp : p.Blind R)
    {x y : Ctx γ ν} (h : SameCtx R x y) : SameCtx R (p.run G udig x).1 (p.run G udig y).1 ∧ (p.run G udig x).2 = (p.run G udig y).2 := by
  induction p generalizing x y with
  | done m e => exact ⟨h, rfl⟩
  | call c next ih =>
    obtain ⟨h1, h2⟩ := ctx_call_same H udig c h
    simp only [Prog.run]
    obtain ⟨a, b, ea, eb, hab⟩ := h1
    rw [ea, eb, ← h2]
    obtain ⟨k1, k2⟩ := hp a b (x.call G udig c).2 hab
    rw [← k1]
    exact ih _ _ k2 ⟨a, b, rfl, rfl, hab⟩

end Jq
