import Verif.Spec.GateSetup
import Verif.Lemmas.Account
import Verif.Lemmas.Dict
import Verif.Lemmas.Office
/-! Lemmas for C96. -/
namespace Jq

theorem inForce_iff {o : GOpts} (h : DictOk o) (key : Str) (dflt v : OptVal) : InForce o key dflt v ↔ o.get key dflt = v := by
  simp only [InForce, GOpts.get]
  constructor
  · rintro (hm | ⟨hn, rfl⟩)
    · rw [dget_of_mem h hm]; rfl
    · cases hd : dget o key with
      | none => rfl
      | some w => exact absurd ((mem_iff_dget h).2 hd) (hn w)
  · rintro rfl
    cases hd : dget o key with
    | none => exact .inr ⟨fun w hw => (by rw [dget_of_mem h hw] at hd; cases hd), rfl⟩
    | some w => exact .inl ((mem_iff_dget h).2 hd)

/-! ### Two gates that behave alike -/

section
variable {γ γ' ν : Type}

/-- The account with another gate. -/
def Acct.regate (a : Acct γ ν) (h : γ') : Acct γ' ν :=
  { gate := h, oheap := a.oheap, orders := a.orders, pheap := a.pheap, long := a.long, short := a.short, total := a.total
    avail := a.avail, locked := a.locked, synced := a.synced, notes := a.notes }

/-- The calls of the gates have the same outcomes and lead to related states. -/
structure GateSim (G : Gate γ ν) (G' : Gate γ' ν) (R : γ → γ' → Prop) : Prop where
  order : ∀ g h o, R g h → R (G.order g o).1 (G'.order h o).1 ∧ (G.order g o).2 = (G'.order h o).2
  cancel : ∀ g h id, R g h → R (G.cancel g id).1 (G'.cancel h id).1 ∧ (G.cancel g id).2 = (G'.cancel h id).2
  balance : ∀ g h, R g h → R (G.balance g).1 (G'.balance h).1 ∧ (G.balance g).2 = (G'.balance h).2
  orders : ∀ g h, R g h → R (G.orders g).1 (G'.orders h).1 ∧ (G.orders g).2 = (G'.orders h).2

theorem onCreated_regate (a : Acct γ ν) (h : γ') (o : Order ν) : (a.regate h).onCreated o = (a.onCreated o).regate h := by
  simp only [Acct.onCreated, Acct.regate]
  split <;> simp

theorem loadPositions_regate (is : List (PosInfo ν)) (a : Acct γ ν) (h : γ') :
    Acct.loadPositions is (a.regate h) = ((Acct.loadPositions is a).1.regate h, (Acct.loadPositions is a).2) ∧
      (Acct.loadPositions is a).1.gate = a.gate := by
  induction is generalizing a with
  | nil => exact ⟨rfl, rfl⟩
  | cons i is ih =>
    simp only [Acct.loadPositions]
    cases Pos.load i with
    | error e => exact ⟨rfl, rfl⟩
    | ok p =>
      have e1 : (a.regate h).putPos p = (a.putPos p).regate h := by
        simp only [Acct.putPos, Acct.regate]
        cases p.side <;> rfl
      have e2 : (a.putPos p).gate = a.gate := by
        simp only [Acct.putPos]
        cases p.side <;> rfl
      have := ih (a.putPos p)
      simp only [e1, this.1, this.2, e2, and_self]

variable [PyNum ν]

theorem mergeOrders_regate (is : List (OrderInfo ν)) (a : Acct γ ν) (h : γ') :
    Acct.mergeOrders is (a.regate h) = ((Acct.mergeOrders is a).1.regate h, (Acct.mergeOrders is a).2) ∧
      (Acct.mergeOrders is a).1.gate = a.gate := by
  have one : ∀ (i : OrderInfo ν) (a : Acct γ ν), (a.regate h).mergeOrder i = ((a.mergeOrder i).1.regate h, (a.mergeOrder i).2) ∧
      (a.mergeOrder i).1.gate = a.gate := by
    intro i a
    simp only [Acct.mergeOrder]
    cases i.orderId with
    | none => exact ⟨rfl, rfl⟩
    | some id =>
      cases hl : Order.load i with
      | error e => exact ⟨rfl, rfl⟩
      | ok r =>
        have : (a.regate h).find id = a.find id := rfl
        simp only [this]
        cases a.find id with
        | none => exact ⟨rfl, rfl⟩
        | some l =>
          by_cases hq : r.pyEq l = true
          · simp [hq]
          · simp only [hq]; exact ⟨rfl, rfl⟩
  induction is generalizing a with
  | nil => exact ⟨rfl, rfl⟩
  | cons i is ih =>
    simp only [Acct.mergeOrders]
    obtain ⟨h1, h2⟩ := one i a
    rw [h1]
    rcases hm : a.mergeOrder i with ⟨a', r⟩
    rw [hm] at h2
    cases r with
    | error e => exact ⟨rfl, h2⟩
    | ok _ =>
      have := ih a'
      simp only [this.1, this.2]
      exact ⟨trivial, h2⟩

/-- One operation. -/
theorem step_sim {G : Gate γ ν} {G' : Gate γ' ν} {R : γ → γ' → Prop} (H : GateSim G G' R) (a : Acct γ ν) (h : γ') (hR : R a.gate h) (op : AOp ν) :
    ∃ h', R (a.step G op).1.gate h' ∧ (a.regate h).step G' op = ((a.step G op).1.regate h', (a.step G op).2) := by
  cases op with
  | order idn now code amount style side =>
    simp only [Acct.step, Acct.order]
    cases hl : Order.load (newOrderInfo (natStr idn) now code amount style) with
    | error e => exact ⟨h, hR, rfl⟩
    | ok o =>
      have hs := H.order a.gate h o hR
      have e1 : (a.putOrder (natStr idn) o).gate = a.gate := rfl
      have e2 : ((a.regate h).putOrder (natStr idn) o).gate = h := rfl
      simp only [Acct.orderBody, e1, e2]
      rcases hg : G.order a.gate o with ⟨g, r⟩
      rcases hg' : G'.order h o with ⟨g', r'⟩
      rw [hg, hg'] at hs
      obtain ⟨hs1, rfl⟩ := hs
      cases r with
      | error e => exact ⟨g', hs1, rfl⟩
      | ok _ =>
        refine ⟨g', ?_, ?_⟩
        · have : (({ a.putOrder (natStr idn) o with gate := g } : Acct γ ν).onCreated o).gate = g := by
            simp only [Acct.onCreated]; split <;> rfl
          simp only [tryExcept, this]; exact hs1
        · simp only [tryExcept]
          rw [← onCreated_regate]
          rfl
  | cancel id =>
    simp only [Acct.step, Acct.cancel]
    by_cases hm : id ∈ dkeys a.orders
    · have hs := H.cancel a.gate h id hR
      have x1 : a.cancelBody G id = ({ a with gate := (G.cancel a.gate id).1 }, (G.cancel a.gate id).2) := by
        simp [Acct.cancelBody, hm]
      have x2 : (a.regate h).cancelBody G' id = (a.regate (G'.cancel h id).1, (G.cancel a.gate id).2) := by
        rw [hs.2]
        have : (a.regate h).orders = a.orders := rfl
        simp only [Acct.cancelBody, this, hm, if_true]
        rfl
      rw [x1, x2]
      cases (G.cancel a.gate id).2 <;> exact ⟨(G'.cancel h id).1, hs.1, rfl⟩
    · have x1 : a.cancelBody G id = (a, .ok ()) := by simp [Acct.cancelBody, hm]
      have x2 : (a.regate h).cancelBody G' id = (a.regate h, .ok ()) := by
        have : (a.regate h).orders = a.orders := rfl
        simp [Acct.cancelBody, this, hm]
      rw [x1, x2]
      exact ⟨h, hR, rfl⟩
  | syncBalance =>
    have hs := H.balance a.gate h hR
    have e2 : (a.regate h).gate = h := rfl
    simp only [Acct.step, Acct.syncBalance, Acct.syncBalanceBody, e2]
    rcases hg : G.balance a.gate with ⟨g, r⟩
    rcases hg' : G'.balance h with ⟨g', r'⟩
    rw [hg, hg'] at hs
    obtain ⟨hs1, rfl⟩ := hs
    cases r with
    | error e => exact ⟨g', hs1, rfl⟩
    | ok info =>
      simp only [Acct.applyBalance]
      cases info.cash with
      | none => exact ⟨g', hs1, rfl⟩
      | some c =>
        cases info.positions with
        | none => exact ⟨g', hs1, rfl⟩
        | some ps =>
          have := loadPositions_regate ps { a with
            gate := g
            total := orOld c.total a.total
            avail := orOld c.avail a.avail
            locked := orOld c.locked a.locked
            long := []
            short := [] } g'
          simp only [Acct.regate] at this ⊢
          refine ⟨g', ?_, ?_⟩
          · rcases hq : Acct.loadPositions ps { a with
              gate := g
              total := orOld c.total a.total
              avail := orOld c.avail a.avail
              locked := orOld c.locked a.locked
              long := []
              short := [] } with ⟨a', r⟩
            rw [hq] at this
            cases r <;> (simp only [tryExcept]; rw [this.2]; exact hs1)
          · rw [this.1]
            rcases hq : Acct.loadPositions ps { a with
              gate := g
              total := orOld c.total a.total
              avail := orOld c.avail a.avail
              locked := orOld c.locked a.locked
              long := []
              short := [] } with ⟨a', r⟩
            cases r <;> rfl
  | syncOrders =>
    have hs := H.orders a.gate h hR
    have e2 : (a.regate h).gate = h := rfl
    simp only [Acct.step, Acct.syncOrders, Acct.syncOrdersBody, e2]
    rcases hg : G.orders a.gate with ⟨g, r⟩
    rcases hg' : G'.orders h with ⟨g', r'⟩
    rw [hg, hg'] at hs
    obtain ⟨hs1, rfl⟩ := hs
    cases r with
    | error e => exact ⟨g', hs1, rfl⟩
    | ok infos =>
      have := mergeOrders_regate infos { a with gate := g } g'
      have e3 : ({ a.regate h with gate := g' } : Acct γ' ν) = ({ a with gate := g } : Acct γ ν).regate g' := rfl
      simp only [e3, this.1]
      rcases hq : Acct.mergeOrders infos { a with gate := g } with ⟨a', r⟩
      rw [hq] at this
      have hg2 : a'.gate = g := this.2
      cases r with
      | error e => exact ⟨g', by simpa [tryExcept, hg2] using hs1, rfl⟩
      | ok _ => exact ⟨g', by simpa [tryExcept, hg2] using hs1, rfl⟩

theorem run_sim {G : Gate γ ν} {G' : Gate γ' ν} {R : γ → γ' → Prop} (H : GateSim G G' R) (ops : List (AOp ν)) (a : Acct γ ν) (h : γ') (hR : R a.gate h) :
    ∃ h', R (a.run G ops).gate h' ∧ (a.regate h).run G' ops = (a.run G ops).regate h' := by
  induction ops generalizing a h with
  | nil => exact ⟨h, hR, rfl⟩
  | cons op ops ih =>
    obtain ⟨h1, r1, e1⟩ := step_sim H a h hR op
    obtain ⟨h2, r2, e2⟩ := ih (a.step G op).1 h1 r1
    refine ⟨h2, r2, ?_⟩
    show ((a.regate h).step G' op).1.run G' ops = _
    rw [e1]
    exact e2

end

/-! ### A gate whose `setup` returned -/

section
variable {ν : Type} [CellNum ν] [Store ν]

/-- The configuration of a gate that is set up. -/
def GateSt.conf (s : GateSt ν) (o : GOpts) (day : Str) (win : Bool) : AXConf where
  acctNo := if (o.get c!"account_no" .none).truth then some (o.get c!"account_no" .none).text else none
  acctType := if o.get c!"account_type" (.str c!"STOCK") = .str c!"STOCK" then c!"STOCK" else []
  counter := s.counter.text
  algo := s.algo.text
  ignoreErr := s.ignoreErr.truth
  maxAttempts := s.wraps
  dataDay := day
  win := win

/-- It has options, a directory, a data file, and `_read_csv` is wrapped. -/
structure GateSt.Up (s : GateSt ν) (o : GOpts) (day : Str) : Prop where
  options : s.options = some o
  dir : ∃ d, s.orderDir = .str d
  file : ∃ p t, s.dataFile = some (p, t, day)
  wrapped : s.wraps ≠ []

/-- The gate of `Model/TradeGate`. -/
def GateSt.toAX (s : GateSt ν) (o : GOpts) (day : Str) (win : Bool) (fs : Files) : AX ν where
  conf := s.conf o day win
  book := s.book
  resOff := s.resOff
  updOff := s.updOff
  synced := s.synced
  files := fs

omit [Store ν] [CellNum ν] in
theorem text_ne_nil {v : OptVal} (h : v.truth = true) : v.text ≠ [] := by
  cases v with
  | none => simp [OptVal.text]
  | bool b => cases b <;> simp [OptVal.text]
  | int n =>
    simp only [OptVal.text, intStr]
    split
    · simp
    · exact natStr_ne_nil _
  | float us c s => simp [OptVal.text]
  | str s => simpa [OptVal.text, OptVal.truth] using h
  | dict d s => simp [OptVal.text]

omit [Store ν] in
theorem fields_up {s : GateSt ν} {o : GOpts} {day : Str} (h : s.Up o day) (win : Bool) (now : DT) (r : Order ν) :
    s.fields now r = orderFields (s.conf o day win) now r := by
  simp only [GateSt.fields, orderFields, GateSt.option, h.options, AXConf.account, GateSt.conf]
  cases ht : (o.get c!"account_no" .none).truth with
  | false => simp [ht, bind, Except.bind]
  | true =>
    have hn := text_ne_nil ht
    by_cases hy : o.get c!"account_type" (.str c!"STOCK") = .str c!"STOCK"
    · simp [ht, hn, hy, bind, Except.bind]
    · simp [ht, hn, hy, bind, Except.bind]

omit [CellNum ν] in
theorem save_up {s : GateSt ν} {o : GOpts} {day : Str} (h : s.Up o day) (s' : GateSt ν) (h' : s'.dataFile = s.dataFile) (env : Env) (fs : Files) :
    s'.save env fs = saveOrders day env s'.book fs := by
  obtain ⟨p, t, hp⟩ := h.file
  simp only [GateSt.save, h', hp]

theorem order_up {s : GateSt ν} {o : GOpts} {day : Str} (h : s.Up o day) (win : Bool) (env : Env) (r : Order ν) (fs : Files) :
    ∃ s' fs', s.order win env r fs = ((s', fs'), ((s.toAX o day win fs).order env r).2) ∧ s'.Up o day ∧
      ((s.toAX o day win fs).order env r).1 = s'.toAX o day win fs' := by
  obtain ⟨d, hd⟩ := h.dir
  have hpath : s.orderDir.path = .ok d := by rw [hd]; rfl
  have hsave := save_up h
  simp only [GateSt.order, AX.order, GateSt.toAX, fields_up h win, hpath]
  cases orderFields (s.conf o day win) env.now r with
  | error e => exact ⟨s, fs, rfl, h, rfl⟩
  | ok items =>
    have hw : (s.conf o day win).win = win := rfl
    simp only [hw]
    rcases appendLine win env.write (.orders env.day) orderHeader (joinWith c!"," items ++ linesep win) fs with ⟨fs', w⟩
    cases w with
    | error e => exact ⟨s, fs', rfl, h, rfl⟩
    | ok _ =>
      simp only [AX.remember]
      cases r.json with
      | error e => exact ⟨s, fs', rfl, h, rfl⟩
      | ok info =>
        have hday : (s.conf o day win).dataDay = day := rfl
        simp only
        rw [hsave { s with book := dset s.book r.orderId info } rfl]
        simp only [hday]
        exact ⟨{ s with book := dset s.book r.orderId info }, _, rfl, ⟨h.options, h.dir, h.file, h.wrapped⟩, rfl⟩

omit [Store ν] [CellNum ν] in
theorem cancel_up {s : GateSt ν} {o : GOpts} {day : Str} (h : s.Up o day) (win : Bool) (env : Env) (id : Str) (fs : Files) :
    ∃ s' fs', s.cancel win env id fs = ((s', fs'), ((s.toAX o day win fs).cancel env id).2) ∧ s'.Up o day ∧
      ((s.toAX o day win fs).cancel env id).1 = s'.toAX o day win fs' := by
  obtain ⟨d, hd⟩ := h.dir
  have hpath : s.orderDir.path = .ok d := by rw [hd]; rfl
  simp only [GateSt.cancel, AX.cancel, GateSt.toAX, hpath]
  exact ⟨s, _, rfl, h, rfl⟩

omit [Store ν] in
theorem balance_up {s : GateSt ν} {o : GOpts} {day : Str} (h : s.Up o day) (win : Bool) (env : Env) (fs : Files) :
    s.balance env = (s.toAX o day win fs).balance env := by
  obtain ⟨d, hd⟩ := h.dir
  have hpath : s.orderDir.path = .ok d := by rw [hd]; rfl
  simp only [GateSt.balance, AX.balance, GateSt.toAX, hpath, GateSt.option, h.options, balanceOf, checkThere, GateSt.conf]
  cases env.assetsThere with
  | false => rfl
  | true =>
    cases ht : (o.get c!"account_no" .none).truth with
    | false => simp [bind, Except.bind]
    | true => simp [text_ne_nil ht, h.wrapped, bind, Except.bind]

theorem syncOrders_up {s : GateSt ν} {o : GOpts} {day : Str} (h : s.Up o day) (win : Bool) (env : Env) (fs : Files) :
    ∃ s' fs', s.syncOrders env fs = ((s', fs'), ((s.toAX o day win fs).syncOrders env).2) ∧ s'.Up o day ∧
      ((s.toAX o day win fs).syncOrders env).1 = s'.toAX o day win fs' := by
  obtain ⟨d, hd⟩ := h.dir
  have hpath : s.orderDir.path = .ok d := by rw [hd]; rfl
  have hsave := save_up h
  simp only [GateSt.syncOrders, AX.syncOrders, GateSt.toAX, hpath]
  cases fs (.updates env.day) with
  | none => exact ⟨s, fs, rfl, h, rfl⟩
  | some u =>
    cases fs (.results env.day) with
    | none => exact ⟨s, fs, rfl, h, rfl⟩
    | some r =>
      have hi : (s.conf o day win).ignoreErr = s.ignoreErr.truth := rfl
      have hday : (s.conf o day win).dataDay = day := rfl
      simp only [hi, hday]
      rcases pollBoth s.ignoreErr.truth r u ⟨s.book, s.resOff, s.updOff⟩ with ⟨t, w⟩
      cases w with
      | error e =>
        exact ⟨{ s with book := t.book, resOff := t.resOff, updOff := t.updOff }, fs, rfl, ⟨h.options, h.dir, h.file, h.wrapped⟩, rfl⟩
      | ok _ =>
        simp only
        rw [hsave { s with book := t.book, resOff := t.resOff, updOff := t.updOff, synced := true } rfl]
        simp only
        rcases saveOrders day env t.book fs with ⟨fs', w⟩
        cases w <;> exact ⟨{ s with book := t.book, resOff := t.resOff, updOff := t.updOff, synced := true }, fs', rfl,
          ⟨h.options, h.dir, h.file, h.wrapped⟩, rfl⟩

/-- The same gate in the same environment. -/
def SameUp (o : GOpts) (day : Str) (win : Bool) (g : GateIn ν) (h : AXG ν) : Prop :=
  g.st.Up o day ∧ g.win = win ∧ h = ⟨g.st.toAX o day win g.files, g.env, g.n⟩

theorem sim_up (o : GOpts) (day : Str) (win : Bool) : GateSim (gateIn ν) (axGate ν) (SameUp o day win) := by
  constructor
  · rintro g h r ⟨hu, rfl, rfl⟩
    obtain ⟨s', fs', e1, e2, e3⟩ := order_up hu g.win (g.env g.n) r g.cur
    have er : (AXG.ready ⟨g.st.toAX o day g.win g.files, g.env, g.n⟩ : AX ν) = g.st.toAX o day g.win g.cur := rfl
    have ec : (AXG.cur ⟨g.st.toAX o day g.win g.files, g.env, g.n⟩ : Env) = g.env g.n := rfl
    simp only [gateIn, axGate, er, ec, e1, AXG.next]
    exact ⟨⟨e2, rfl, by rw [e3]⟩, trivial⟩
  · rintro g h id ⟨hu, rfl, rfl⟩
    obtain ⟨s', fs', e1, e2, e3⟩ := cancel_up hu g.win (g.env g.n) id g.cur
    have er : (AXG.ready ⟨g.st.toAX o day g.win g.files, g.env, g.n⟩ : AX ν) = g.st.toAX o day g.win g.cur := rfl
    have ec : (AXG.cur ⟨g.st.toAX o day g.win g.files, g.env, g.n⟩ : Env) = g.env g.n := rfl
    simp only [gateIn, axGate, er, ec, e1, AXG.next]
    exact ⟨⟨e2, rfl, by rw [e3]⟩, trivial⟩
  · rintro g h ⟨hu, rfl, rfl⟩
    exact ⟨⟨hu, rfl, rfl⟩, balance_up hu g.win (g.env g.n) g.cur⟩
  · rintro g h ⟨hu, rfl, rfl⟩
    obtain ⟨s', fs', e1, e2, e3⟩ := syncOrders_up hu g.win (g.env g.n) g.cur
    have er : (AXG.ready ⟨g.st.toAX o day g.win g.files, g.env, g.n⟩ : AX ν) = g.st.toAX o day g.win g.cur := rfl
    have ec : (AXG.cur ⟨g.st.toAX o day g.win g.files, g.env, g.n⟩ : Env) = g.env g.n := rfl
    simp only [gateIn, axGate, er, ec, e1, AXG.next]
    exact ⟨⟨e2, rfl, by rw [e3]⟩, trivial⟩

end

end Jq
