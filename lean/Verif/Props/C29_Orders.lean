import Verif.Props.C26_Positions
import Verif.Lemmas.NatStr
set_option linter.unusedSectionVars false
/-! # C29, C30, C31, C33, C56 and the account's part of C19, C21: orders in the account -/
namespace Jq
variable {γ ν : Type} [PyNum ν]

/-! ## C29 -/

private theorem status_get_name {s : Str} {t : Status} (h : Status.get s = .ok t) : t.name = s := by
  simp only [Status.get] at h
  split at h
  · rename_i y hy
    injection h with h
    subst h
    simpa using List.find?_some hy
  · cases h

theorem load_shows {i : OrderInfo ν} {r : Order ν} (h : Order.load i = .ok r) {id : Str} (hid : i.orderId = some id) :
    r.ShowsReport i := by
  have hro := load_orderId h
  simp only [Order.load, bind, Except.bind, pure, Except.pure] at h
  have hst : ∃ st, optParse Status.get (optStr i.status) = .ok st ∧ r.status = st ∧ r.confirmId = i.confirmId ∧
      r.filled = i.filled.getD 0 ∧ r.canceled = i.canceled.getD 0 ∧ r.dealBalance = i.dealBalance.getD PyNum.zero ∧
      r.commission = i.commission.getD PyNum.zero ∧ r.avgCost = i.avgCost := by
    repeat' (split at h <;> try cases h)
    all_goals exact ⟨_, by assumption, rfl, rfl, rfl, rfl, rfl, rfl, rfl⟩
  obtain ⟨st, h1, h2, h3, h4, h5, h6, h7, h8⟩ := hst
  refine ⟨by rw [hro, hid]; rfl, ?_, h3, h4, h5, .inl h6, .inl h7, ?_⟩
  · rw [h2]
    cases hs : i.status with
    | none => rw [hs] at h1; simp only [optStr, optParse, Option.bind_none, Except.ok.injEq] at h1; exact .inl ⟨h1.symm, .inl rfl⟩
    | some s =>
      rw [hs] at h1
      by_cases he : s = []
      · subst he; simp only [optStr, Option.bind_some, if_pos, optParse, Except.ok.injEq] at h1; exact .inl ⟨h1.symm, .inr rfl⟩
      · simp only [optStr, Option.bind_some, if_neg he, optParse] at h1
        cases hg : Status.get s with
        | error e => rw [hg] at h1; cases h1
        | ok t =>
          rw [hg] at h1
          simp only [Except.map, Except.ok.injEq] at h1
          exact .inr ⟨t, h1.symm, by rw [status_get_name hg]⟩
  · rw [h8]
    cases hc : i.avgCost with
    | none => exact .inl ⟨rfl, rfl⟩
    | some x => exact .inr ⟨x, x, rfl, rfl, .inl rfl⟩

private theorem pyEq_shows {l r : Order ν} {i : OrderInfo ν} (hi : l.orderId = r.orderId) (hr : r.ShowsReport i)
    (hl : Order.load i = .ok r) (h : r.pyEq l = true) : l.ShowsReport i := by
  simp only [Order.pyEq, Bool.and_eq_true, decide_eq_true_eq] at h
  obtain ⟨⟨⟨⟨⟨⟨h1, h2⟩, h3⟩, h4⟩, h5⟩, h6⟩, h7⟩ := h
  have hf : r.dealBalance = i.dealBalance.getD PyNum.zero ∧ r.commission = i.commission.getD PyNum.zero ∧ r.avgCost = i.avgCost := by
    simp only [Order.load, bind, Except.bind, pure, Except.pure] at hl
    repeat' (split at hl <;> try cases hl)
    all_goals exact ⟨rfl, rfl, rfl⟩
  refine ⟨hi ▸ hr.hId, h1 ▸ hr.hStatus, h2 ▸ hr.hConfirm, h3 ▸ hr.hFilled, h4 ▸ hr.hCanceled, ?_, ?_, ?_⟩
  · exact .inr (hf.1 ▸ h5)
  · exact .inr (hf.2.1 ▸ h7)
  · rw [← hf.2.2]
    cases ha : r.avgCost with
    | none =>
      cases hb : l.avgCost with
      | none => exact .inl ⟨rfl, rfl⟩
      | some y => rw [ha, hb] at h6; cases h6
    | some x =>
      cases hb : l.avgCost with
      | none => rw [ha, hb] at h6; cases h6
      | some y => rw [ha, hb] at h6; exact .inr ⟨y, x, rfl, rfl, .inr h6⟩

theorem mergeOrder_find {a : Acct γ ν} (hwf : a.WF) {i : OrderInfo ν} {id : Str} (hid : i.orderId = some id) {r : Order ν}
    (hl : Order.load i = .ok r) : (a.mergeOrder i).2 = .ok () ∧ (∃ o, (a.mergeOrder i).1.find id = some o ∧ o.ShowsReport i ∧
      o.status = r.status) ∧ ∀ id', id' ≠ id → (a.mergeOrder i).1.find id' = a.find id' := by
  have hsh := load_shows hl hid
  have hro : r.orderId = id := by rw [load_orderId hl, hid]; rfl
  simp only [Acct.mergeOrder, hid, hl]
  cases hf : a.find id with
  | none =>
    refine ⟨rfl, ⟨r, ?_, hsh, rfl⟩, fun id' hne => ?_⟩
    · simp only; rw [find_putOrder hwf, if_pos rfl]
    · simp only; rw [find_putOrder hwf, if_neg (fun e => hne e.symm)]
  | some l =>
    simp only
    split
    · rename_i he
      have hst : l.status = r.status := by
        simp only [Order.pyEq, Bool.and_eq_true, decide_eq_true_eq] at he; exact he.1.1.1.1.1.1.symm
      exact ⟨rfl, ⟨l, hf, pyEq_shows (by rw [find_id hwf hf, hro]) hsh hl he, hst⟩, fun _ _ => rfl⟩
    · refine ⟨rfl, ⟨r, ?_, hsh, rfl⟩, fun id' hne => ?_⟩
      · exact (find_congr (b := a.putOrder id r) rfl rfl _).trans (by rw [find_putOrder hwf, if_pos rfl])
      · exact (find_congr (b := a.putOrder id r) rfl rfl _).trans (by rw [find_putOrder hwf, if_neg (fun e => hne e.symm)])

/-- A report whose entries have an id and can be loaded. -/
def WellFormedReport (infos : List (OrderInfo ν)) : Prop :=
  ∀ i ∈ infos, (∃ id, i.orderId = some id) ∧ ∃ r, Order.load i = .ok r

theorem mergeOrders_append (l1 l2 : List (OrderInfo ν)) (a : Acct γ ν) (h : (a.mergeOrders l1).2 = .ok ()) :
    a.mergeOrders (l1 ++ l2) = (a.mergeOrders l1).1.mergeOrders l2 := by
  induction l1 generalizing a with
  | nil => rfl
  | cons i l1 ih =>
    simp only [List.cons_append, Acct.mergeOrders] at h ⊢
    cases hm : a.mergeOrder i with
    | mk b r =>
      rw [hm] at h
      cases r with
      | error e => cases h
      | ok u => exact ih b h

theorem mergeOrders_ok {infos : List (OrderInfo ν)} (hw : WellFormedReport infos) {a : Acct γ ν} (hwf : a.WF) :
    (a.mergeOrders infos).2 = .ok () ∧
    ∀ id, (∀ i ∈ infos, i.orderId ≠ some id) → (a.mergeOrders infos).1.find id = a.find id := by
  induction infos generalizing a with
  | nil => exact ⟨rfl, fun _ _ => rfl⟩
  | cons i is ih =>
    obtain ⟨⟨id0, hid0⟩, r, hr⟩ := hw i (by simp)
    obtain ⟨h1, _, h3⟩ := mergeOrder_find hwf hid0 hr
    have hwf' := wf_mergeOrder hwf i
    simp only [Acct.mergeOrders]
    cases hm : a.mergeOrder i with
    | mk b v =>
      rw [hm] at h1 h3 hwf'
      simp only at h1
      subst h1
      obtain ⟨h4, h5⟩ := ih (fun j hj => hw j (by simp [hj])) hwf'
      refine ⟨h4, fun id hid => ?_⟩
      rw [h5 id (fun j hj => hid j (by simp [hj]))]
      exact h3 id (fun e => hid i (by simp) (by rw [hid0, e]))

theorem syncOrders_find (G : Gate γ ν) (a : Acct γ ν) (g : γ) (infos : List (OrderInfo ν))
    (hG : G.orders a.gate = (g, .ok infos)) (id : Str) :
    (a.syncOrders G).1.find id = (({ a with gate := g } : Acct γ ν).mergeOrders infos).1.find id := by
  simp only [Acct.syncOrders, tryExcept_fst, Acct.syncOrdersBody, hG]
  cases hm : ({ a with gate := g } : Acct γ ν).mergeOrders infos with
  | mk b v => cases v <;> rfl

/-- After a synchronisation with a well-formed report, the order of every reported id shows the state of the last
report entry with that id. -/
theorem c29_reported_present (G : Gate γ ν) (a : Acct γ ν) (hwf : a.WF) (g : γ) (l1 l2 : List (OrderInfo ν)) (i : OrderInfo ν)
    (hG : G.orders a.gate = (g, .ok (l1 ++ i :: l2))) (hw : WellFormedReport (l1 ++ i :: l2))
    (hlast : ∀ j ∈ l2, j.orderId ≠ i.orderId) :
    ∃ id o, i.orderId = some id ∧ (a.syncOrders G).1.find id = some o ∧ o.ShowsReport i := by
  obtain ⟨⟨id, hid⟩, r, hr⟩ := hw i (by simp)
  have hwf0 : ({ a with gate := g } : Acct γ ν).WF := wf_gate hwf g
  have h1 := mergeOrders_ok (infos := l1) (fun j hj => hw j (by simp [hj])) hwf0
  have hwf1 : (({ a with gate := g } : Acct γ ν).mergeOrders l1).1.WF := wf_mergeOrders hwf0
  obtain ⟨h2, ⟨o, h3, h4, _⟩, _⟩ := mergeOrder_find hwf1 hid hr
  have hwf2 := wf_mergeOrder hwf1 i
  refine ⟨id, o, hid, ?_, h4⟩
  rw [syncOrders_find G a g _ hG, mergeOrders_append _ _ _ h1.1]
  simp only [Acct.mergeOrders]
  cases hm : (({ a with gate := g } : Acct γ ν).mergeOrders l1).1.mergeOrder i with
  | mk b v =>
    rw [hm] at h2 h3 hwf2
    simp only at h2
    subst h2
    rw [← h3]
    exact (mergeOrders_ok (fun j hj => hw j (by simp [hj])) hwf2).2 id (fun j hj => hid ▸ hlast j hj)

/-- Orders not in the report are unchanged, and nothing else of the account but the gate, the flag and the
notifications changes. -/
theorem c29_others_unchanged (G : Gate γ ν) (a : Acct γ ν) (hwf : a.WF) (g : γ) (infos : List (OrderInfo ν))
    (hG : G.orders a.gate = (g, .ok infos)) (hw : WellFormedReport infos) (id : Str) (hid : ∀ i ∈ infos, i.orderId ≠ some id) :
    (a.syncOrders G).1.find id = a.find id ∧ (a.syncOrders G).1.pheap = a.pheap ∧ (a.syncOrders G).1.long = a.long ∧
    (a.syncOrders G).1.short = a.short := by
  have := syncOrders_pos G a
  refine ⟨?_, this.1, this.2.1, this.2.2.1⟩
  rw [syncOrders_find G a g _ hG, (mergeOrders_ok hw (wf_gate hwf g)).2 id hid]
  rfl

private theorem mergeOrder_keeps {a : Acct γ ν} (i : OrderInfo ν) {id : Str} (h : id ∈ dkeys a.orders) :
    id ∈ dkeys (a.mergeOrder i).1.orders := by
  have put : ∀ k o, id ∈ dkeys (a.putOrder k o).orders := by
    intro k o
    simp only [Acct.putOrder, dkeys_dset]
    split
    · exact h
    · simp [h]
  simp only [Acct.mergeOrder]
  split
  · exact h
  · split
    · exact h
    · split
      · exact put _ _
      · split
        · exact h
        · rename_i r _ _ _ _ _
          exact put _ r

private theorem mergeOrders_keeps {infos : List (OrderInfo ν)} {a : Acct γ ν} {id : Str} (h : id ∈ dkeys a.orders) :
    id ∈ dkeys (a.mergeOrders infos).1.orders := by
  induction infos generalizing a with
  | nil => exact h
  | cons i is ih =>
    have := mergeOrder_keeps i h
    simp only [Acct.mergeOrders]
    cases hm : a.mergeOrder i with
    | mk b v =>
      rw [hm] at this
      cases v with
      | error e => exact this
      | ok u => exact ih this

/-- No order ever disappears, whatever the gate does. -/
theorem c29_none_disappears (G : Gate γ ν) (a : Acct γ ν) (hwf : a.WF) (ops : List (AOp ν)) (id : Str)
    (h : (a.find id).isSome) : ((a.run G ops).find id).isSome := by
  rw [find_isSome hwf] at h
  rw [find_isSome (wf_run hwf G ops)]
  clear hwf
  induction ops generalizing a with
  | nil => exact h
  | cons op ops ih =>
    refine ih (a.step G op).1 ?_
    cases op with
    | cancel i => simp only [Acct.step, (cancel_fields G i a).2.1]; exact h
    | syncBalance => simp only [Acct.step, (syncBalance_orders G a).2.1]; exact h
    | order idn now c amount style side =>
      have put : ∀ o : Order ν, id ∈ dkeys (dset a.orders (natStr idn) a.oheap.length) := by
        intro o; rw [dkeys_dset]; split
        · exact h
        · simp [h]
      simp only [Acct.step]
      rcases order_cases G idn now c amount style side a with ⟨g, e, _, h2⟩ | ⟨g, _, h2⟩
      · rw [h2]; exact put (newOrder (natStr idn) now c amount style)
      · rw [h2, (onCreated_orders _ _).2.1]; exact put (newOrder (natStr idn) now c amount style)
    | syncOrders =>
      simp only [Acct.step, Acct.syncOrders, tryExcept_fst, Acct.syncOrdersBody]
      split
      · exact h
      · rename_i g infos _
        have := mergeOrders_keeps (infos := infos) (a := { a with gate := g }) h
        cases hm : ({ a with gate := g } : Acct γ ν).mergeOrders infos with
        | mk b v => rw [hm] at this; cases v <;> exact this

/-- A report entry. -/
def orderEntry (id status : Str) (filled : Int) : OrderInfo Int :=
  { code := some c!"000001.XSHE", price := some 1, amount := some 100, action := some c!"open", orderId := some id
    status := some status, style := some (.name c!"limit"), createTime := some (.str t0.full), side := some c!"long"
    filled := some filled }

/-- A gate that reports lists of orders one after the other (the last one again and again). -/
def reportGate : Gate (List (List (OrderInfo Int))) Int :=
  ⟨fun g _ => (g, .ok ()), fun g _ => (g, .ok ()), fun g => (g, .ok {}),
    fun g => match g with | [] => ([], .ok []) | r :: rs => (rs, .ok r)⟩

/-- Non-vacuity: a report updates one of two orders and brings a new one. -/
example : WellFormedReport [orderEntry c!"1" c!"filling" 30, orderEntry c!"9" c!"open" 0, orderEntry c!"1" c!"filling" 60] ∧
    ((((Acct.init [[orderEntry c!"1" c!"filling" 30, orderEntry c!"9" c!"open" 0, orderEntry c!"1" c!"filling" 60]] : Acct _ Int).run reportGate
      [.order 1 t0 c!"000001.XSHE" 100 (.limit 1) .long, .syncOrders]).find c!"1").map (·.filled)) = some 60 := by
  refine ⟨?_, by decide +kernel⟩
  intro i hi
  simp only [List.mem_cons, List.not_mem_nil, or_false] at hi
  rcases hi with rfl | rfl | rfl <;>
    exact ⟨⟨_, rfl⟩, by
      simp only [Order.load, orderEntry, bind, Except.bind, pure, Except.pure, needArg, optParse, optStr, optStyle, optDt]
      exact ⟨_, rfl⟩⟩

/-! ## C30 -/

/-- The order under `id` has a finished status. -/
def FinishedIn (a : Acct γ ν) (id : Str) : Prop := ∃ o s, a.find id = some o ∧ o.status = some s ∧ s.finished = true

/-- In the course of the operations the order never leaves a finished status. -/
def StaysFinished (G : Gate γ ν) (id : Str) : Acct γ ν → List (AOp ν) → Prop
  | _, [] => True
  | a, op :: ops => (FinishedIn a id → FinishedIn (a.step G op).1 id) ∧ StaysFinished G id (a.step G op).1 ops

/-- A gate that reports every order at most once per poll. -/
def ReportsOnce (G : Gate γ ν) : Prop :=
  ∀ g g' infos, G.orders g = (g', .ok infos) → (infos.map (·.orderId)).Nodup

/-- The notifications about an order. -/
def notesOf (id : Str) (l : List Note) : List Note := l.filter fun n => decide (n.orderId = id)

private theorem notify_facts (l r : Order ν) : (∀ n ∈ notify l r, n.orderId = r.orderId) ∧ (notify l r).length ≤ 1 ∧
    (l.hasFinished = true → notify l r = []) ∧ (∀ n ∈ notify l r, n.kind.final = true → r.hasFinished = true) := by
  have hfin : l.hasFinished = true → l.status ≠ some .new ∧ l.status ≠ some .filling := by
    intro h
    simp only [Order.hasFinished] at h
    constructor <;> · intro e; rw [e] at h; cases h
  simp only [notify]
  by_cases hne : l.status ≠ r.status
  · rw [if_pos hne]
    cases hr : r.status with
    | none => simp
    | some s =>
      cases hl : l.hasFinished with
      | true =>
        have := (hfin hl).1
        cases s <;> simp [this]
      | false =>
        cases s <;> simp [NoteKind.final, Order.hasFinished, hr, Status.finished]
        split <;> simp
  · rw [if_neg hne]
    have hne : l.status = r.status := Classical.not_not.1 hne
    by_cases hf : r.status = some .filling
    · rw [if_pos hf]
      cases hl : l.hasFinished with
      | true => exact absurd (hne.trans hf) (hfin hl).2
      | false => simp [hf, NoteKind.final]
    · rw [if_neg hf]; simp

/-- What one merge does to the notifications and to an order. -/
theorem mergeOrder_notes {a : Acct γ ν} (hwf : a.WF) (i : OrderInfo ν) (id : Str) :
    ∃ ns, (a.mergeOrder i).1.notes = a.notes ++ ns ∧ (∀ n ∈ ns, i.orderId = some n.orderId) ∧ ns.length ≤ 1 ∧
      (i.orderId ≠ some id → (a.mergeOrder i).1.find id = a.find id) ∧
      (i.orderId = some id → FinishedIn a id → ns = []) ∧
      (i.orderId = some id → ∀ n ∈ ns, n.kind.final = true → FinishedIn (a.mergeOrder i).1 id) := by
  have same : ∃ ns, a.notes = a.notes ++ ns ∧ (∀ n ∈ ns, i.orderId = some n.orderId) ∧ ns.length ≤ 1 ∧
      (i.orderId ≠ some id → a.find id = a.find id) ∧ (i.orderId = some id → FinishedIn a id → ns = []) ∧
      (i.orderId = some id → ∀ n ∈ ns, n.kind.final = true → FinishedIn a id) :=
    ⟨[], by simp, by simp, by simp, fun _ => rfl, fun _ _ => rfl, by simp⟩
  cases hid : i.orderId with
  | none => rw [hid] at same; simpa only [Acct.mergeOrder, hid] using same
  | some k =>
    rw [hid] at same
    simp only [Acct.mergeOrder, hid]
    cases hl : Order.load i with
    | error e => exact same
    | ok r =>
      have hro : r.orderId = k := by rw [load_orderId hl, hid]; rfl
      simp only
      cases hf : a.find k with
      | none =>
        refine ⟨[], by simp [Acct.putOrder], by simp, by simp, fun hne => ?_, fun _ _ => rfl, by simp⟩
        simp only
        rw [find_putOrder hwf, if_neg (fun e => hne (by rw [e]))]
      | some l =>
        simp only
        split
        · exact same
        · obtain ⟨n1, n2, n3, n4⟩ := notify_facts l r
          refine ⟨notify l r, rfl, fun n hn => by rw [n1 n hn, hro], n2, fun hne => ?_, ?_, ?_⟩
          · exact (find_congr (b := a.putOrder k r) rfl rfl _).trans (by rw [find_putOrder hwf, if_neg (fun e => hne (by rw [e]))])
          · intro e h
            injection e with e
            subst e
            obtain ⟨o, s, h1, h2, h3⟩ := h
            rw [hf] at h1
            injection h1 with h1
            subst h1
            exact n3 (by simp [Order.hasFinished, h2, h3])
          · intro e n hn hfin
            injection e with e
            subst e
            have := n4 n hn hfin
            simp only [Order.hasFinished, Option.any_eq_true] at this
            obtain ⟨s, h1, h2⟩ := this
            refine ⟨r, s, ?_, h1, h2⟩
            exact (find_congr (b := a.putOrder k r) rfl rfl _).trans (by rw [find_putOrder hwf, if_pos rfl])

private theorem finishedIn_congr {a b : Acct γ ν} {id : Str} (h : a.find id = b.find id) : FinishedIn a id ↔ FinishedIn b id := by
  simp only [FinishedIn, h]

theorem notesOf_none {id : Str} {ns : List Note} {k : Option Str} (h : ∀ n ∈ ns, k = some n.orderId) (hne : k ≠ some id) :
    notesOf id ns = [] := by
  simp only [notesOf, List.filter_eq_nil_iff, decide_eq_true_eq]
  intro n hn e
  exact hne (e ▸ h n hn)

/-- One poll: at most one notification about an order, none if it was finished, and after a final one it is. -/
private theorem mergeOrders_notes {infos : List (OrderInfo ν)} (hnd : (infos.map (·.orderId)).Nodup) {a : Acct γ ν} (hwf : a.WF)
    (id : Str) : ∃ ns, (a.mergeOrders infos).1.notes = a.notes ++ ns ∧ (notesOf id ns).length ≤ 1 ∧
      (FinishedIn a id → notesOf id ns = []) ∧
      (∀ n ∈ notesOf id ns, n.kind.final = true → FinishedIn (a.mergeOrders infos).1 id) ∧
      (some id ∉ infos.map (·.orderId) → notesOf id ns = [] ∧ (a.mergeOrders infos).1.find id = a.find id) := by
  induction infos generalizing a with
  | nil => exact ⟨[], by simp [Acct.mergeOrders], by simp [notesOf], fun _ => rfl, by simp [notesOf], fun _ => ⟨rfl, rfl⟩⟩
  | cons i is ih =>
    rw [List.map_cons, List.nodup_cons] at hnd
    obtain ⟨n1, h1, h2, h3, h4, h5, h6⟩ := mergeOrder_notes hwf i id
    have hwf' := wf_mergeOrder hwf i
    simp only [Acct.mergeOrders]
    cases hm : a.mergeOrder i with
    | mk b v =>
      rw [hm] at h1 h4 h6 hwf'
      simp only at h1 h4 h6 hwf'
      have hone : ∀ l : List Note, l.length ≤ 1 → (notesOf id l).length ≤ 1 := by
        intro l hl; exact Nat.le_trans (List.length_filter_le ..) hl
      cases v with
      | error e =>
        refine ⟨n1, h1, hone _ h3, fun hf => ?_, fun n hn hfin => ?_, fun hn => ?_⟩
        · by_cases hi : i.orderId = some id
          · rw [h5 hi hf]; rfl
          · exact notesOf_none h2 hi
        · by_cases hi : i.orderId = some id
          · exact h6 hi n (List.mem_filter.1 hn).1 hfin
          · rw [notesOf_none h2 hi] at hn; simp at hn
        · have hi : i.orderId ≠ some id := fun e => hn (by simp [e])
          exact ⟨notesOf_none h2 hi, h4 hi⟩
      | ok u =>
        obtain ⟨n2, g1, g2, g3, g4, g5⟩ := ih hnd.2 hwf'
        refine ⟨n1 ++ n2, by simp only [g1, h1, List.append_assoc], ?_, fun hf => ?_, fun n hn hfin => ?_, fun hn => ?_⟩
        · simp only [notesOf, List.filter_append, List.length_append]
          by_cases hi : i.orderId = some id
          · have := (g5 (hi ▸ hnd.1)).1
            simp only [notesOf] at this
            rw [this]
            have := hone _ h3
            simp only [notesOf] at this
            simpa using this
          · have := notesOf_none h2 hi
            simp only [notesOf] at this g2
            rw [this]
            simpa using g2
        · simp only [notesOf, List.filter_append, List.append_eq_nil_iff]
          by_cases hi : i.orderId = some id
          · rw [h5 hi hf]; exact ⟨rfl, (g5 (hi ▸ hnd.1)).1⟩
          · exact ⟨notesOf_none h2 hi, g3 ((finishedIn_congr (h4 hi)).2 hf)⟩
        · simp only [notesOf, List.filter_append, List.mem_append] at hn
          rcases hn with hn | hn
          · by_cases hi : i.orderId = some id
            · exact (finishedIn_congr (g5 (hi ▸ hnd.1)).2).2 (h6 hi n (List.mem_filter.1 hn).1 hfin)
            · have := notesOf_none h2 hi
              simp only [notesOf] at this
              rw [this] at hn; simp at hn
          · exact g4 n hn hfin
        · have hi : i.orderId ≠ some id := fun e => hn (by simp [e])
          have hn' : some id ∉ is.map (·.orderId) := fun h => hn (by simp [List.mem_map.1 h])
          simp only [notesOf, List.filter_append, List.append_eq_nil_iff]
          exact ⟨⟨notesOf_none h2 hi, (g5 hn').1⟩, (g5 hn').2.trans (h4 hi)⟩

private theorem step_notes (G : Gate γ ν) (hG : ReportsOnce G) {a : Acct γ ν} (hwf : a.WF) (op : AOp ν) (id : Str) :
    ∃ ns, (a.step G op).1.notes = a.notes ++ ns ∧ (notesOf id ns).length ≤ 1 ∧
      (FinishedIn a id → notesOf id ns = []) ∧
      (∀ n ∈ notesOf id ns, n.kind.final = true → FinishedIn (a.step G op).1 id) := by
  have quiet : ∀ b : Acct γ ν, b.notes = a.notes → ∃ ns, b.notes = a.notes ++ ns ∧ (notesOf id ns).length ≤ 1 ∧
      (FinishedIn a id → notesOf id ns = []) ∧ (∀ n ∈ notesOf id ns, n.kind.final = true → FinishedIn b id) :=
    fun b hb => ⟨[], by simp [hb], by simp [notesOf], fun _ => rfl, by simp [notesOf]⟩
  cases op with
  | cancel i => exact quiet _ (cancel_fields G i a).2.2.2.2.2
  | syncBalance => exact quiet _ (syncBalance_orders G a).2.2.1
  | order idn now c amount style side => exact quiet _ (order_oheap G idn now c amount style side a).2.2.2
  | syncOrders =>
    simp only [Acct.step, Acct.syncOrders, tryExcept_fst, Acct.syncOrdersBody]
    split
    · exact quiet _ rfl
    · rename_i g infos hr
      obtain ⟨ns, h1, h2, h3, h4, _⟩ := mergeOrders_notes (hG _ _ _ hr) (wf_gate hwf g) id
      cases hm : ({ a with gate := g } : Acct γ ν).mergeOrders infos with
      | mk b v =>
        rw [hm] at h1 h4
        cases v <;> exact ⟨ns, h1, h2, h3, h4⟩

/-- If the order never leaves a finished status, nothing is logged about it after a final notification. -/
theorem c30_nothing_after_final (G : Gate γ ν) (hG : ReportsOnce G) (a : Acct γ ν) (hwf : a.WF) (id : Str) (ops : List (AOp ν))
    (hst : StaysFinished G id a ops) :
    ∃ ns, (a.run G ops).notes = a.notes ++ ns ∧ (FinishedIn a id → notesOf id ns = []) ∧
      ∀ before n after, notesOf id ns = before ++ n :: after → n.kind.final = true → after = [] := by
  induction ops generalizing a with
  | nil => exact ⟨[], by simp [Acct.run], fun _ => rfl, fun b n c h => by simp [notesOf] at h⟩
  | cons op ops ih =>
    obtain ⟨hs1, hs2⟩ := hst
    obtain ⟨n1, h1, h2, h3, h4⟩ := step_notes G hG hwf op id
    obtain ⟨n2, g1, g2, g3⟩ := ih _ (wf_step hwf G op) hs2
    refine ⟨n1 ++ n2, ?_, fun hf => ?_, ?_⟩
    · rw [show a.run G (op :: ops) = (a.step G op).1.run G ops from rfl, g1, h1, List.append_assoc]
    · simp only [notesOf, List.filter_append, List.append_eq_nil_iff]
      exact ⟨h3 hf, g2 (hs1 hf)⟩
    · intro before n after he hfin
      have happ : notesOf id (n1 ++ n2) = notesOf id n1 ++ notesOf id n2 := by simp [notesOf, List.filter_append]
      rw [happ] at he
      match hn1 : notesOf id n1, h2 with
      | [], _ => rw [hn1, List.nil_append] at he; exact g3 before n after he hfin
      | [m], _ =>
        rw [hn1] at he
        cases before with
        | nil =>
          simp only [List.singleton_append, List.nil_append, List.cons.injEq] at he
          obtain ⟨rfl, rfl⟩ := he
          exact g2 (h4 m (by rw [hn1]; simp) hfin)
        | cons x before =>
          simp only [List.cons_append, List.nil_append, List.cons.injEq] at he
          exact g3 before n after he.2 hfin

/-- Hence at most one final notification. -/
theorem c30_at_most_one_final (G : Gate γ ν) (hG : ReportsOnce G) (a : Acct γ ν) (hwf : a.WF) (id : Str) (ops : List (AOp ν))
    (hst : StaysFinished G id a ops) :
    ∃ ns, (a.run G ops).notes = a.notes ++ ns ∧ ((notesOf id ns).filter fun n => n.kind.final).length ≤ 1 := by
  obtain ⟨ns, h1, _, h3⟩ := c30_nothing_after_final G hG a hwf id ops hst
  refine ⟨ns, h1, ?_⟩
  match hf : (notesOf id ns).filter fun n => n.kind.final with
  | [] => rw [hf]; simp
  | [_] => rw [hf]; simp
  | m :: n :: rest =>
    exfalso
    obtain ⟨l1, l2, e, _, hm, hr⟩ := List.filter_eq_cons_iff.1 hf
    have := h3 l1 m l2 e hm
    subst this
    simp at hr

/-- The hypothesis is needed: an order reported filled, then filling, then filled is announced filled twice. -/
theorem c30_reopened_witness :
    (((Acct.init [[orderEntry c!"1" c!"filled" 100], [orderEntry c!"1" c!"filling" 60], [orderEntry c!"1" c!"filled" 100]] : Acct _ Int).run reportGate
      [.order 1 t0 c!"000001.XSHE" 100 (.limit 1) .long, .syncOrders, .syncOrders, .syncOrders]).notes)
      = [⟨.deal, c!"1"⟩, ⟨.deal, c!"1"⟩] := by decide +kernel

/-- A gate that reports one order at a time. -/
def oneGate : Gate (List (OrderInfo Int)) Int :=
  ⟨fun g _ => (g, .ok ()), fun g _ => (g, .ok ()), fun g => (g, .ok {}),
    fun g => match g with | [] => ([], .ok []) | r :: rs => (rs, .ok [r])⟩

instance (a : Acct γ ν) (id : Str) : Decidable (FinishedIn a id) :=
  decidable_of_iff ((a.find id).any (·.hasFinished) = true) (by
    simp only [Option.any_eq_true, FinishedIn, Order.hasFinished]
    constructor
    · rintro ⟨o, h1, s, h2, h3⟩; exact ⟨o, s, h1, h2, h3⟩
    · rintro ⟨o, s, h1, h2, h3⟩; exact ⟨o, h1, s, h2, h3⟩)

/-- Non-vacuity: the hypotheses hold of a history with a partial and a final fill. -/
example : ReportsOnce oneGate ∧ StaysFinished oneGate c!"1"
    (Acct.init [orderEntry c!"1" c!"filling" 60, orderEntry c!"1" c!"filled" 100, orderEntry c!"1" c!"filled" 100] : Acct _ Int)
    [.order 1 t0 c!"000001.XSHE" 100 (.limit 1) .long, .syncOrders, .syncOrders, .syncOrders] := by
  refine ⟨?_, ?_⟩
  · intro g g' infos h
    cases g <;> (simp only [oneGate, Prod.mk.injEq, Except.ok.injEq] at h; obtain ⟨_, rfl⟩ := h; simp)
  · simp only [StaysFinished]; decide +kernel
example : (((Acct.init [[orderEntry c!"1" c!"filling" 60], [orderEntry c!"1" c!"filled" 100], [orderEntry c!"1" c!"filled" 100]] : Acct _ Int).run reportGate
      [.order 1 t0 c!"000001.XSHE" 100 (.limit 1) .long, .syncOrders, .syncOrders, .syncOrders]).notes)
      = [⟨.partDeal, c!"1"⟩, ⟨.deal, c!"1"⟩] := by decide +kernel

/-! ## C31 -/

/-- A `UserOrder` returned by `get_orders` never changes, whatever the gate does. -/
theorem c31_snapshot (G : Gate γ ν) (udig : Char → Bool) (orderId code status : Option Str) (x : Ctx γ ν) (a : Acct γ ν)
    (ha : x.acct = some a) (hwf : a.WF) (d : Dict Str Nat) (h : x.getOrders udig orderId code status = .ok d)
    (id : Str) (addr : Nat) (hd : dget d id = some addr) (ops : List (AOp ν)) :
    ∃ o, a.find id = some o ∧ a.userOrder addr = some o ∧ (a.run G ops).userOrder addr = some o := by
  obtain ⟨h1, o, h2, _⟩ := (c25_exactly_matching udig orderId code status x a ha hwf d h id addr).1 hd
  have h3 : a.oheap[addr]? = some o := by simpa [Acct.find, h1] using h2
  exact ⟨o, h2, h3, getElem?_of_prefix (run_oheap G a ops) h3⟩

/-- Non-vacuity: a snapshot keeps the status `new` while the account's order gets `filled`. -/
example : (((Acct.init [[orderEntry c!"1" c!"filled" 100]] : Acct _ Int).run reportGate
      [.order 1 t0 c!"000001.XSHE" 100 (.limit 1) .long, .syncOrders]).userOrder 0).map (·.status) = some (some .new) ∧
    (((Acct.init [[orderEntry c!"1" c!"filled" 100]] : Acct _ Int).run reportGate
      [.order 1 t0 c!"000001.XSHE" 100 (.limit 1) .long, .syncOrders]).find c!"1").map (·.status) = some (some .filled) := by
  decide +kernel

/-! ## C33 -/

theorem full_ne_nil (d : DT) : d.full ≠ [] := by
  simp only [DT.full]; intro h; simp at h

/-- Loading the JSON form of an order gives the order back, in every field. -/
theorem c33_round_trip (o : Order ν) (i : OrderInfo ν) (h : o.json = .ok i) (hc : ∀ d, o.createTime = some d → d.ok)
    (he : ∀ d, o.entrustTime = some d → d.ok) (hp : ∀ s, o.style = some s → s.price = o.price) :
    Order.load i = .ok o := by
  obtain ⟨code, price, amount, action, orderId, status, style, createTime, entrustTime, side, confirmId, filled, canceled,
    dealBalance, avgCost, commission, errMsg⟩ := o
  simp only [Order.json, bind, Except.bind, pure, Except.pure] at h
  cases status with
  | none => cases h
  | some status =>
  cases style with
  | none => cases h
  | some style =>
  cases createTime with
  | none => cases h
  | some ct =>
  cases side with
  | none => cases h
  | some side =>
  simp only [needAttr, Except.ok.injEq] at h
  subst h
  have hc := hc ct rfl
  have hp := hp style rfl
  simp only at hp
  have ha : Action.get action.name = .ok action := by cases action <;> rfl
  have hs : optParse Status.get (optStr (some status.name)) = .ok (some status) := by cases status <;> rfl
  have hst : optParse (fun v => Style.get v price) (optStyle (some (.name style.name))) = .ok (some style) := by
    cases style <;> (subst hp; rfl)
  have hisSome : (optStyle (some (.name style.name) : Option (StyleVal ν))).isSome = true := by cases style <;> rfl
  have hside : (Side.get side.name).map some = .ok (some side) := by cases side <;> rfl
  have hdt : ∀ d : DT, d.ok → optParse parseDt (optDt (some (.str d.full))) = .ok (some d) := by
    intro d hd
    have : optDt (some (.str d.full)) = some (.str d.full) := by
      simp only [optDt]
      split
      · rename_i e; simp only [Option.some.injEq, DtVal.str.injEq] at e; exact absurd e (full_ne_nil d)
      · rfl
    rw [this]
    simp only [optParse, parseDt, parseDtStr_full hd.1 hd.2, Except.map]
  have hent : optParse parseDt (optDt (entrustTime.map fun d => .str d.full)) = .ok entrustTime := by
    cases entrustTime with
    | none => rfl
    | some d => exact hdt d (he d rfl)
  simp only [Order.load, bind, Except.bind, pure, Except.pure, needArg, ha, hs, hst, hdt ct hc, hent, Option.getD_some, hisSome, if_true, hside]

/-- The JSON form exists when the order has a status, a style, a creation time and a side. -/
theorem c33_json_total (o : Order ν) (h1 : o.status.isSome) (h2 : o.style.isSome) (h3 : o.createTime.isSome) (h4 : o.side.isSome) :
    ∃ i, o.json = .ok i := by
  obtain ⟨s, hs⟩ := Option.isSome_iff_exists.1 h1
  obtain ⟨t, ht⟩ := Option.isSome_iff_exists.1 h2
  obtain ⟨u, hu⟩ := Option.isSome_iff_exists.1 h3
  obtain ⟨v, hv⟩ := Option.isSome_iff_exists.1 h4
  simp only [Order.json, bind, Except.bind, pure, Except.pure, needAttr, hs, ht, hu, hv]
  exact ⟨_, rfl⟩

/-- Orders made by `order()` meet the conditions. -/
theorem c33_new_orders (G : Gate γ ν) (a : Acct γ ν) (hwf : a.WF) (idn : Nat) (now : DT) (code : Str) (amount : Int)
    (style : Style ν) (side : Side) (hnow : now.ok) :
    ∃ o i, (a.order G idn now code amount style side).1.find (natStr idn) = some o ∧ o.json = .ok i ∧ Order.load i = .ok o := by
  refine ⟨newOrder (natStr idn) now code amount style, ?_⟩
  obtain ⟨i, hi⟩ := c33_json_total (newOrder (natStr idn) now code amount style) rfl rfl rfl rfl
  refine ⟨i, by rw [order_find hwf, if_pos rfl], hi, c33_round_trip _ i hi ?_ ?_ ?_⟩
  · intro d hd; simp only [newOrder, Option.some.injEq] at hd; exact hd ▸ hnow
  · intro d hd; simp [newOrder] at hd
  · intro s hs; simp only [newOrder, Option.some.injEq] at hs; subst hs; rfl

/-- Orders loaded from a report with a style by name have the style's price. -/
theorem c33_loaded_style_price (i : OrderInfo ν) (o : Order ν) (s : Str) (hs : i.style = some (.name s)) (h : Order.load i = .ok o) :
    ∀ st, o.style = some st → st.price = o.price := by
  simp only [Order.load, bind, Except.bind, pure, Except.pure, hs] at h
  have : ∃ p st, i.price = some p ∧ optParse (fun v => Style.get v p) (optStyle (some (.name s))) = .ok st ∧ o.style = st ∧ o.price = p := by
    cases hp : i.price with
    | none => rw [hp] at h; simp only [needArg] at h; repeat' (split at h <;> try cases h)
    | some p =>
      rw [hp] at h
      simp only [needArg] at h
      repeat' (split at h <;> try cases h)
      all_goals exact ⟨_, _, rfl, by assumption, rfl, rfl⟩
  obtain ⟨p, st, _, h2, h3, h4⟩ := this
  intro st' hst'
  rw [h3] at hst'
  subst hst'
  rw [h4]
  cases s with
  | nil => simp [optStyle, optParse] at h2
  | cons c s =>
    simp only [optStyle, optParse, Style.get] at h2
    split at h2
    · simp only [Except.map, Except.ok.injEq, Option.some.injEq] at h2; subst h2; rfl
    · split at h2
      · simp only [Except.map, Except.ok.injEq, Option.some.injEq] at h2; subst h2; rfl
      · cases h2

/-- The datetimes that a trade gate reports as text: with a fraction of one to six digits (`.5` is half a second) and
without one, they are read as the datetimes they denote. -/
theorem c33_reads_fraction (d : DT) (hd : d.ok) (ds : Str) (h0 : 0 < ds.length) (h6 : ds.length ≤ 6) (hdig : ds.all isDig = true)
    (hus : d.us = natOfDigits ds * 10 ^ (6 - ds.length)) : parseDt (.str (d.secs ++ '.' :: ds)) = .ok d :=
  parseDtStr_frac hd.1 hd.2 ds h0 h6 hdig hus

theorem c33_reads_seconds (d : DT) (hd : d.ok) (hus : d.us = 0) : parseDt (.str d.secs) = .ok d :=
  parseDtStr_secs hd.1 hd.2 hus

example : parseDt (.str c!"2024-01-02 09:30:01.25") = .ok ⟨2024, 1, 2, 9, 30, 1, 250000⟩ ∧
    parseDt (.str c!"2024-01-02 09:30:01") = .ok ⟨2024, 1, 2, 9, 30, 1, 0⟩ ∧
    c!"2024-01-02 09:30:01.25" = DT.secs ⟨2024, 1, 2, 9, 30, 1, 250000⟩ ++ c!".25" ∧
    DT.ok ⟨2024, 1, 2, 9, 30, 1, 250000⟩ ∧ 250000 = natOfDigits c!"25" * 10 ^ (6 - c!"25".length) := by
  refine ⟨by decide +kernel, by decide +kernel, by decide +kernel, ⟨by decide, by decide⟩, by decide⟩

/-- Outside years of four digits it fails (`%Y` is not padded on Linux): an order created in the year 999. -/
theorem c33_year_999_refuted :
    ∃ (o : Order Int) (i : OrderInfo Int), o.createTime = some ⟨999, 3, 4, 9, 31, 0, 0⟩ ∧ DT.valid ⟨999, 3, 4, 9, 31, 0, 0⟩ = true ∧
      o.json = .ok i ∧ Order.load i = .error .valueError :=
  ⟨newOrder c!"1" ⟨999, 3, 4, 9, 31, 0, 0⟩ c!"000001.XSHE" 100 (.limit 1), _, rfl, by decide, rfl, by decide +kernel⟩

/-- An order whose style has another price comes back with the style's price changed. -/
theorem c33_style_price_refuted :
    ∃ (o o' : Order Int) (i : OrderInfo Int), o.json = .ok i ∧ Order.load i = .ok o' ∧ o' ≠ o :=
  ⟨{ newOrder c!"1" t0 c!"000001.XSHE" 100 (.limit 1) with price := 2 },
    { newOrder c!"1" t0 c!"000001.XSHE" 100 (.limit 2) with price := 2 }, _, rfl, by decide +kernel, by decide +kernel⟩

/-- Non-vacuity. -/
example : t0.ok ∧ (∃ i, (newOrder c!"7" t0 c!"600000.XSHG" (-5) (.limit (3 : Int))).json = .ok i ∧
    Order.load i = .ok (newOrder c!"7" t0 c!"600000.XSHG" (-5) (.limit 3))) :=
  ⟨⟨by decide, by decide⟩, _, rfl, by decide +kernel⟩

/-! ## C56 -/

/-- Orders with ids that are new and different from each other: no order is lost or changed. -/
theorem c56_fresh_ids_partial (G : Gate γ ν) (a : Acct γ ν) (hwf : a.WF) (reqs : List (Nat × DT × Str × Int × Style ν × Side))
    (hfresh : ∀ r ∈ reqs, a.find (natStr r.1) = none) (id : Str) (o : Order ν) (h : a.find id = some o) :
    (a.run G (reqs.map fun r => .order r.1 r.2.1 r.2.2.1 r.2.2.2.1 r.2.2.2.2.1 r.2.2.2.2.2)).find id = some o := by
  have key : ∀ (reqs : List (Nat × DT × Str × Int × Style ν × Side)) (b : Acct γ ν), b.WF → b.find id = some o →
      (∀ r ∈ reqs, natStr r.1 ≠ id) →
      (b.run G (reqs.map fun r => .order r.1 r.2.1 r.2.2.1 r.2.2.2.1 r.2.2.2.2.1 r.2.2.2.2.2)).find id = some o := by
    intro reqs
    induction reqs with
    | nil => intro b _ hb _; exact hb
    | cons r reqs ih =>
      intro b hw hb hne
      refine ih _ (wf_step hw G _) ?_ (fun r' hr' => hne r' (by simp [hr']))
      simp only [Acct.step]
      rw [order_find hw, if_neg (hne r (by simp))]
      exact hb
  exact key reqs a hwf h (fun r hr e => by rw [← e, hfresh r hr] at h; cases h)

/-- All orders placed with distinct numbers are there afterwards. -/
theorem c56_all_present_partial (G : Gate γ ν) (a : Acct γ ν) (hwf : a.WF) (reqs : List (Nat × DT × Str × Int × Style ν × Side))
    (hnd : (reqs.map (·.1)).Nodup) (r : Nat × DT × Str × Int × Style ν × Side) (hr : r ∈ reqs) :
    ∃ o, (a.run G (reqs.map fun r => .order r.1 r.2.1 r.2.2.1 r.2.2.2.1 r.2.2.2.2.1 r.2.2.2.2.2)).find (natStr r.1) = some o ∧
      o.SaysRequest (natStr r.1) r.2.2.1 r.2.2.2.1 r.2.2.2.2.1 := by
  induction reqs generalizing a with
  | nil => simp at hr
  | cons q reqs ih =>
    rw [List.map_cons, List.nodup_cons] at hnd
    rcases List.mem_cons.1 hr with rfl | hr
    · refine ⟨newOrder (natStr r.1) r.2.1 r.2.2.1 r.2.2.2.1 r.2.2.2.2.1, ?_, ?_⟩
      · have key : ∀ (l : List (Nat × DT × Str × Int × Style ν × Side)) (b : Acct γ ν), b.WF → r.1 ∉ l.map (·.1) →
            (b.run G (l.map fun r => .order r.1 r.2.1 r.2.2.1 r.2.2.2.1 r.2.2.2.2.1 r.2.2.2.2.2)).find (natStr r.1) = b.find (natStr r.1) := by
          intro l
          induction l with
          | nil => intro b _ _; rfl
          | cons q l ih2 =>
            intro b hb hq
            simp only [List.map_cons, List.mem_cons, not_or] at hq
            have := ih2 (b.step G (.order q.1 q.2.1 q.2.2.1 q.2.2.2.1 q.2.2.2.2.1 q.2.2.2.2.2)).1 (wf_step hb G _) hq.2
            refine this.trans ?_
            simp only [Acct.step]
            rw [order_find hb, if_neg (fun e => hq.1 (natStr_inj e).symm)]
        refine (key reqs _ (wf_step hwf G _) hnd.1).trans ?_
        simp only [Acct.step]
        rw [order_find hwf, if_pos rfl]
      · refine ⟨rfl, rfl, ?_, rfl, rfl, rfl, rfl, rfl, rfl, rfl, rfl, rfl⟩
        simp only [newOrder]; split <;> omega
    · exact ih _ (wf_step hwf G _) hnd.2 hr

/-- If the number drawn (32 random bits) is the id of an order of the account, that order is gone, whatever
the gate does with the new one. -/
theorem c56_collision_refuted (G : Gate γ ν) (a : Acct γ ν) (hwf : a.WF) (idn : Nat) (now : DT) (code : Str) (amount : Int)
    (style : Style ν) (side : Side) (o : Order ν) (h : a.find (natStr idn) = some o) (hne : o.createTime ≠ some now) :
    ∀ id, (a.order G idn now code amount style side).1.find id ≠ some o := by
  intro id e
  rw [order_find hwf] at e
  split at e
  · injection e with e
    exact hne (e ▸ rfl)
  · rename_i hid
    exact hid (by rw [← find_id hwf e, find_id hwf h])

/-- Non-vacuity: two orders with the same number. -/
example : (((Acct.init () : Acct Unit Int).run okGate [.order 5 t0 c!"000001.XSHE" 100 (.market 0) .long,
    .order 5 t0 c!"600000.XSHG" 7 (.market 0) .long]).find c!"5").map (·.code) = some c!"600000.XSHG" := by decide

/-! ## C21 (the account's part) -/

/-- When the gate refuses an order, `order()` returns `None` but the order stays in the account as a new order. -/
theorem c21_failed_order_stays_refuted (G : Gate γ ν) (a : Acct γ ν) (hwf : a.WF) (idn : Nat) (now : DT) (code : Str)
    (amount : Int) (style : Style ν) (side : Side) (_h : (a.order G idn now code amount style side).2 = .ok none) :
    ∃ o, (a.order G idn now code amount style side).1.find (natStr idn) = some o ∧
      o.SaysRequest (natStr idn) code amount style := by
  refine ⟨_, by rw [order_find hwf, if_pos rfl], rfl, rfl, ?_, rfl, rfl, rfl, rfl, rfl, rfl, rfl, rfl, rfl⟩
  simp only [newOrder]; split <;> omega

/-- … but positions and all other orders are untouched. -/
theorem c21_failed_order_partial (G : Gate γ ν) (a : Acct γ ν) (hwf : a.WF) (idn : Nat) (now : DT) (code : Str)
    (amount : Int) (style : Style ν) (side : Side) (h : (a.order G idn now code amount style side).2 = .ok none) :
    (∀ id, id ≠ natStr idn → (a.order G idn now code amount style side).1.find id = a.find id) ∧
    (∀ c, (a.order G idn now code amount style side).1.findLong c = a.findLong c) ∧
    (∀ c, (a.order G idn now code amount style side).1.findShort c = a.findShort c) := by
  rcases order_cases G idn now code amount style side a with ⟨g, e, _, h2⟩ | ⟨g, _, h2⟩
  · refine ⟨fun id hne => by rw [order_find hwf, if_neg (fun e => hne e.symm)], fun c => by rw [h2]; rfl, fun c => by rw [h2]; rfl⟩
  · rw [h2] at h; simp at h

example : (((Acct.init () : Acct Unit Int).order badGate 5 t0 c!"000001.XSHE" 100 (.market 0) .long).1.find c!"5").map (·.status)
    = some (some .new) := by decide

/-! ## C19 (the account's part) -/

/-- The side is dropped: an order with `side='short'` reaches every gate as the same order with `side='long'`. -/
theorem c19_side_dropped_refuted (G : Gate γ ν) (a : Acct γ ν) (idn : Nat) (now : DT) (code : Str) (amount : Int) (style : Style ν) :
    a.order G idn now code amount style .short = a.order G idn now code amount style .long ∧
    ∃ o, o.side = some .long ∧ o.SaysRequest (natStr idn) code amount style ∧
      (a.order G idn now code amount style .short).1.gate = (G.order a.gate o).1 := by
  refine ⟨rfl, newOrder (natStr idn) now code amount style, rfl, ⟨rfl, rfl, ?_, rfl, rfl, rfl, rfl, rfl, rfl, rfl, rfl, rfl⟩, ?_⟩
  · simp only [newOrder]; split <;> omega
  · rcases order_cases G idn now code amount style .short a with ⟨g, e, h1, h2⟩ | ⟨g, h1, h2⟩
    · rw [h2, h1]
    · rw [h2, h1]; exact (onCreated_orders _ _).2.2.2.2.2

end Jq
