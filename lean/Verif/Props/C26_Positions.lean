import Verif.Props.C17_Api
set_option linter.unusedSectionVars false
/-! # C26, C27, C28, C32, C58: balance synchronisation and positions -/
namespace Jq
variable {γ ν : Type} [PyNum ν]

/-! ## C26 -/

private theorem side_get_name (s : Side) : Side.get s.name = .ok s := by cases s <;> rfl

theorem pos_load_says (i : PosInfo ν) (p : Pos ν) : Pos.load i = .ok p ↔ i.Says p := by
  constructor
  · intro h
    simp only [Pos.load, bind, Except.bind, pure, Except.pure, needKey] at h
    split at h
    · cases h
    · rename_i ss hss
      split at hss
      · rename_i ss' e1
        injection hss with hss; subst hss
        split at h
        · cases h
        · rename_i sd hsd
          have hname : ss' = sd.name := by
            simp only [Side.get] at hsd
            split at hsd
            · injection hsd with hsd; subst hsd; assumption
            · split at hsd
              · injection hsd with hsd; subst hsd; assumption
              · cases hsd
          obtain ⟨i1, i2, i3, i4, i5, i6, i7⟩ := i
          cases i2 <;> cases i3 <;> cases i4 <;> cases i5 <;> simp only at h <;> try cases h
          subst hname
          exact ⟨e1, rfl, rfl, rfl, rfl, rfl, rfl⟩
      · cases hss
  · rintro ⟨h1, h2, h3, h4, h5, h6, h7⟩
    simp only [Pos.load, h1, h2, h3, h4, h5, h6, h7, needKey, bind, Except.bind, pure, Except.pure, side_get_name]

private theorem findLong_putPos {a : Acct γ ν} (h : a.WF) (p : Pos ν) (code : Str) :
    (a.putPos p).findLong code = if p.side = .long ∧ p.code = code then some p else a.findLong code := by
  have old : ∀ {d : Dict Str Nat}, d = a.long → (dget d code).bind ((a.pheap ++ [p])[·]?) = (dget a.long code).bind (a.pheap[·]?) := by
    rintro d rfl
    cases hg : dget a.long code with
    | none => rfl
    | some n =>
      obtain ⟨q, h1, _⟩ := h.long code n hg
      simp only [Option.bind_some, h1]
      exact getElem?_append_some h1
  simp only [Acct.putPos, Acct.findLong]
  cases hs : p.side with
  | long =>
    simp only [dget_dset]
    by_cases hc : p.code = code
    · simp [hc]
    · simp only [hc, if_false, and_false]
      exact old rfl
  | short => simp only [reduceCtorEq, false_and, if_false]; exact old rfl

private theorem findShort_putPos {a : Acct γ ν} (h : a.WF) (p : Pos ν) (code : Str) :
    (a.putPos p).findShort code = if p.side = .short ∧ p.code = code then some p else a.findShort code := by
  have old : ∀ {d : Dict Str Nat}, d = a.short → (dget d code).bind ((a.pheap ++ [p])[·]?) = (dget a.short code).bind (a.pheap[·]?) := by
    rintro d rfl
    cases hg : dget a.short code with
    | none => rfl
    | some n =>
      obtain ⟨q, h1, _⟩ := h.short code n hg
      simp only [Option.bind_some, h1]
      exact getElem?_append_some h1
  simp only [Acct.putPos, Acct.findShort]
  cases hs : p.side with
  | short =>
    simp only [dget_dset]
    by_cases hc : p.code = code
    · simp [hc]
    · simp only [hc, if_false, and_false]
      exact old rfl
  | long => simp only [reduceCtorEq, false_and, if_false]; exact old rfl

private theorem getLast?_filter_append {α : Type} (l : List α) (x : α) (p : α → Bool) :
    ((l ++ [x]).filter p).getLast? = if p x then some x else (l.filter p).getLast? := by
  rw [List.filter_append]
  cases hp : p x <;> simp [hp]

/-- Positions loaded so far are those reported so far. -/
private def Shows (a : Acct γ ν) (ps : List (Pos ν)) : Prop :=
  ∀ code, a.findLong code = reported ps .long code ∧ a.findShort code = reported ps .short code

private theorem shows_putPos {a : Acct γ ν} (h : a.WF) {ps : List (Pos ν)} (hs : Shows a ps) (p : Pos ν) :
    Shows (a.putPos p) (ps ++ [p]) := by
  intro code
  rw [findLong_putPos h, findShort_putPos h, (hs code).1, (hs code).2]
  simp only [reported, getLast?_filter_append, decide_eq_true_eq, and_self]

/-- Loading a list of entries, the first part of which is well-formed. -/
private theorem loadPositions_shows {is : List (PosInfo ν)} {ps : List (Pos ν)} (hr : AllRel PosInfo.Says is ps)
    (rest : List (PosInfo ν)) (hrest : rest = [] ∨ ∃ bad rest', rest = bad :: rest' ∧ ∀ p, ¬ bad.Says p)
    {a : Acct γ ν} (h : a.WF) {qs : List (Pos ν)} (hs : Shows a qs) :
    Shows (a.loadPositions (is ++ rest)).1 (qs ++ ps) ∧ ((a.loadPositions (is ++ rest)).2 = .ok () ↔ rest = []) := by
  induction hr generalizing a qs with
  | nil =>
    rw [List.append_nil, List.nil_append]
    rcases hrest with rfl | ⟨bad, rest', rfl, hbad⟩
    · exact ⟨hs, by simp [Acct.loadPositions]⟩
    · simp only [Acct.loadPositions]
      cases hl : Pos.load bad with
      | ok p => exact absurd ((pos_load_says bad p).1 hl) (hbad p)
      | error e => exact ⟨hs, by simp⟩
  | cons hab _ ih =>
    rename_i i p is ps _
    simp only [List.cons_append, Acct.loadPositions, (pos_load_says i p).2 hab]
    rw [show qs ++ p :: ps = (qs ++ [p]) ++ ps by simp]
    exact ih (wf_putPos h p) (shows_putPos h hs p)

/-- A well-formed report: positions are exactly the reported ones; nothing of the previous ones remains. -/
theorem c26_positions_are_reported (G : Gate γ ν) (a : Acct γ ν) (hwf : a.WF) (g : γ) (cash : CashInfo ν)
    (is : List (PosInfo ν)) (ps : List (Pos ν)) (hG : G.balance a.gate = (g, .ok ⟨some cash, some is⟩))
    (hr : AllRel PosInfo.Says is ps) (code : Str) :
    (a.syncBalance G).1.findLong code = reported ps .long code ∧
    (a.syncBalance G).1.findShort code = reported ps .short code := by
  simp only [Acct.syncBalance, tryExcept_fst, Acct.syncBalanceBody, hG, Acct.applyBalance]
  have := (loadPositions_shows hr [] (.inl rfl)
    (a := { a with gate := g, total := orOld cash.total a.total, avail := orOld cash.avail a.avail
                   locked := orOld cash.locked a.locked, long := [], short := [] })
    (qs := []) ⟨hwf.ordersOk, hwf.orders, by simp [DictOk, dkeys], by simp [DictOk, dkeys], by simp, by simp⟩
    (fun code => ⟨rfl, rfl⟩)).1 code
  rw [List.append_nil, List.nil_append] at this
  exact this

/-- The keys of the positions are the reported codes. -/
theorem c26_position_codes (G : Gate γ ν) (a : Acct γ ν) (hwf : a.WF) (g : γ) (cash : CashInfo ν)
    (is : List (PosInfo ν)) (ps : List (Pos ν)) (hG : G.balance a.gate = (g, .ok ⟨some cash, some is⟩))
    (hr : AllRel PosInfo.Says is ps) (code : Str) :
    (code ∈ dkeys (a.syncBalance G).1.long ↔ ∃ p ∈ ps, p.side = .long ∧ p.code = code) ∧
    (code ∈ dkeys (a.syncBalance G).1.short ↔ ∃ p ∈ ps, p.side = .short ∧ p.code = code) := by
  have hw := wf_syncBalance hwf G
  obtain ⟨h1, h2⟩ := c26_positions_are_reported G a hwf g cash is ps hG hr code
  have rep : ∀ s, (reported ps s code).isSome ↔ ∃ p ∈ ps, p.side = s ∧ p.code = code := by
    intro s
    simp only [reported]
    constructor
    · intro h
      obtain ⟨p, hp⟩ := Option.isSome_iff_exists.1 h
      obtain ⟨h1, h2⟩ := List.mem_filter.1 (List.mem_of_getLast? hp)
      exact ⟨p, h1, by simpa using h2⟩
    · rintro ⟨p, hp, h⟩
      rw [Option.isSome_iff_ne_none, ne_eq, List.getLast?_eq_none_iff]
      intro hn
      have : p ∈ ps.filter fun p => decide (p.side = s ∧ p.code = code) := List.mem_filter.2 ⟨hp, by simpa using h⟩
      rw [hn] at this
      simp at this
  rw [← rep, ← rep, ← h1, ← h2, mem_dkeys_iff, mem_dkeys_iff]
  constructor
  · simp only [Acct.findLong]
    cases hg : dget (a.syncBalance G).1.long code with
    | none => simp
    | some n => obtain ⟨p, hp, _⟩ := hw.long code n hg; simp [hp]
  · simp only [Acct.findShort]
    cases hg : dget (a.syncBalance G).1.short code with
    | none => simp
    | some n => obtain ⟨p, hp, _⟩ := hw.short code n hg; simp [hp]

/-- When the gate fails or returns no cash or no positions, only the gate's own state may change. -/
theorem c26_failure_changes_nothing (G : Gate γ ν) (a : Acct γ ν) (g : γ) (r : Py (BalInfo ν)) (hG : G.balance a.gate = (g, r))
    (hr : (∃ e, r = .error e) ∨ ∃ info, r = .ok info ∧ (info.cash = none ∨ info.positions = none)) :
    (a.syncBalance G).1 = { a with gate := g } := by
  simp only [Acct.syncBalance, tryExcept_fst, Acct.syncBalanceBody, hG]
  rcases hr with ⟨e, rfl⟩ | ⟨info, rfl, h | h⟩
  · rfl
  · simp [Acct.applyBalance, h]
  · simp only [Acct.applyBalance, h]; split <;> rfl

/-- A malformed entry: the positions before it in the report are taken over, the rest of the report and all
previous positions are lost. -/
theorem c26_malformed_prefix (G : Gate γ ν) (a : Acct γ ν) (hwf : a.WF) (g : γ) (cash : CashInfo ν)
    (is rest : List (PosInfo ν)) (bad : PosInfo ν) (ps : List (Pos ν))
    (hG : G.balance a.gate = (g, .ok ⟨some cash, some (is ++ bad :: rest)⟩))
    (hr : AllRel PosInfo.Says is ps) (hbad : ∀ p, ¬ bad.Says p) (code : Str) :
    (a.syncBalance G).1.findLong code = reported ps .long code ∧
    (a.syncBalance G).1.findShort code = reported ps .short code := by
  simp only [Acct.syncBalance, tryExcept_fst, Acct.syncBalanceBody, hG, Acct.applyBalance]
  have := (loadPositions_shows hr (bad :: rest) (.inr ⟨bad, rest, rfl, hbad⟩)
    (a := { a with gate := g, total := orOld cash.total a.total, avail := orOld cash.avail a.avail
                   locked := orOld cash.locked a.locked, long := [], short := [] })
    (qs := []) ⟨hwf.ordersOk, hwf.orders, by simp [DictOk, dkeys], by simp [DictOk, dkeys], by simp, by simp⟩
    (fun code => ⟨rfl, rfl⟩)).1 code
  rw [List.nil_append] at this
  exact this

/-- A gate that reports a fixed balance. -/
def balGate (info : BalInfo Int) : Gate Unit Int :=
  ⟨fun g _ => (g, .ok ()), fun g _ => (g, .ok ()), fun g => (g, .ok info), fun g => (g, .ok [])⟩

/-- A complete entry. -/
def posEntry (code : Str) (side : Str) (amount avail : Int) : PosInfo Int :=
  { side := some side, code := some code, amount := some amount, avail := some avail, avgCost := some 10 }

/-- The documentation calls the `side` of a reported position optional; a position without it is lost with all
the following ones, although the position was held before and is reported. -/
theorem c26_missing_side_refuted :
    ∃ a : Acct Unit Int, a.WF ∧ (a.findLong c!"000001.XSHE").isSome ∧
      ((a.syncBalance (balGate ⟨some {}, some [{ posEntry c!"000001.XSHE" [] 100 100 with side := none }]⟩)).1.findLong
        c!"000001.XSHE") = none :=
  ⟨((Acct.init () : Acct Unit Int).syncBalance (balGate ⟨some {}, some [posEntry c!"000001.XSHE" c!"long" 100 100]⟩)).1,
    wf_syncBalance (wf_init ()) _, by decide, by decide⟩

/-- Non-vacuity: two entries for one code, one on the other side. -/
example : AllRel PosInfo.Says [posEntry c!"000001.XSHE" c!"long" 100 50, posEntry c!"000001.XSHE" c!"long" 7 7, posEntry c!"9" c!"short" 3 1]
      [⟨c!"000001.XSHE", 100, 50, 10, .long, none, none⟩, ⟨c!"000001.XSHE", 7, 7, 10, .long, none, none⟩, ⟨c!"9", 3, 1, 10, .short, none, none⟩] ∧
    (((Acct.init () : Acct Unit Int).syncBalance (balGate ⟨some {}, some [posEntry c!"000001.XSHE" c!"long" 100 50,
      posEntry c!"000001.XSHE" c!"long" 7 7, posEntry c!"9" c!"short" 3 1]⟩)).1.findLong c!"000001.XSHE").map (·.amount) = some 7 :=
  ⟨.cons ⟨rfl, rfl, rfl, rfl, rfl, rfl, rfl⟩ (.cons ⟨rfl, rfl, rfl, rfl, rfl, rfl, rfl⟩ (.cons ⟨rfl, rfl, rfl, rfl, rfl, rfl, rfl⟩ .nil)),
    by decide⟩

/-! ## C27 -/

theorem loadPositions_cash (is : List (PosInfo ν)) (a : Acct γ ν) :
    (a.loadPositions is).1.total = a.total ∧ (a.loadPositions is).1.avail = a.avail ∧ (a.loadPositions is).1.locked = a.locked := by
  induction is generalizing a with
  | nil => exact ⟨rfl, rfl, rfl⟩
  | cons i is ih =>
    simp only [Acct.loadPositions]
    split
    · exact ⟨rfl, rfl, rfl⟩
    · rename_i p _
      have h := ih (a.putPos p)
      have hp : (a.putPos p).total = a.total ∧ (a.putPos p).avail = a.avail ∧ (a.putPos p).locked = a.locked := by
        simp only [Acct.putPos]; split <;> exact ⟨rfl, rfl, rfl⟩
      exact ⟨h.1.trans hp.1, h.2.1.trans hp.2.1, h.2.2.trans hp.2.2⟩

/-- What becomes of a cash figure: the reported value unless it is absent or counts as false (0). -/
theorem c27_cash_partial (G : Gate γ ν) (a : Acct γ ν) (g : γ) (t v l : ν) (is : List (PosInfo ν))
    (hG : G.balance a.gate = (g, .ok ⟨some ⟨some t, some v, some l⟩, some is⟩)) :
    (PyNum.truthy t = true → (a.syncBalance G).1.total = t) ∧ (PyNum.truthy v = true → (a.syncBalance G).1.avail = v) ∧
    (PyNum.truthy l = true → (a.syncBalance G).1.locked = l) := by
  simp only [Acct.syncBalance, tryExcept_fst, Acct.syncBalanceBody, hG, Acct.applyBalance, loadPositions_cash, orOld]
  exact ⟨fun h => if_pos h, fun h => if_pos h, fun h => if_pos h⟩

/-- Exactly when a figure is the reported one: when it counts as true, or when it was there already. -/
theorem c27_cash_iff (G : Gate γ ν) (a : Acct γ ν) (g : γ) (t v l : ν) (is : List (PosInfo ν))
    (hG : G.balance a.gate = (g, .ok ⟨some ⟨some t, some v, some l⟩, some is⟩)) :
    ((a.syncBalance G).1.total = t ↔ PyNum.truthy t = true ∨ a.total = t) ∧
    ((a.syncBalance G).1.avail = v ↔ PyNum.truthy v = true ∨ a.avail = v) ∧
    ((a.syncBalance G).1.locked = l ↔ PyNum.truthy l = true ∨ a.locked = l) := by
  simp only [Acct.syncBalance, tryExcept_fst, Acct.syncBalanceBody, hG, Acct.applyBalance, loadPositions_cash, orOld]
  refine ⟨?_, ?_, ?_⟩ <;> split <;> simp_all

/-- A reported value that counts as false is ignored: the old figure stays, whatever it is. -/
theorem c27_zero_ignored_refuted (G : Gate γ ν) (a : Acct γ ν) (g : γ) (t v l : Option ν) (is : List (PosInfo ν))
    (hG : G.balance a.gate = (g, .ok ⟨some ⟨t, v, l⟩, some is⟩)) :
    (t = some PyNum.zero → PyNum.truthy (PyNum.zero : ν) = false → (a.syncBalance G).1.total = a.total) ∧
    (v = some PyNum.zero → PyNum.truthy (PyNum.zero : ν) = false → (a.syncBalance G).1.avail = a.avail) ∧
    (l = some PyNum.zero → PyNum.truthy (PyNum.zero : ν) = false → (a.syncBalance G).1.locked = a.locked) := by
  simp only [Acct.syncBalance, tryExcept_fst, Acct.syncBalanceBody, hG, Acct.applyBalance, loadPositions_cash]
  refine ⟨?_, ?_, ?_⟩ <;> · rintro rfl hz; simp [orOld, hz]

/-- All cash is spent and the broker says so; the account still shows 500. -/
theorem c27_spent_cash_witness :
    ((((Acct.init () : Acct Unit Int).syncBalance (balGate ⟨some ⟨some 900, some 500, some 0⟩, some []⟩)).1.syncBalance
      (balGate ⟨some ⟨some 900, some 0, some 500⟩, some []⟩)).1.avail) = 500 := by decide

example : ((Acct.init () : Acct Unit Int).syncBalance (balGate ⟨some ⟨some 900, some 500, some 1⟩, some []⟩)).1.locked = 1 := by decide

/-! ## C28 -/

/-- No operation of the list is a balance synchronisation. -/
def NoBalanceSync (ops : List (AOp ν)) : Prop := ∀ op ∈ ops, op ≠ .syncBalance

/-- The call returned an id. -/
def returnedId : Py (Option Str) → Bool
  | .ok (some _) => true
  | _ => false

/-- The amounts of the sell orders for `code` that succeed in the course of the operations. -/
def sells (G : Gate γ ν) (code : Str) : Acct γ ν → List (AOp ν) → List Int
  | _, [] => []
  | a, op :: ops =>
    (match op with
      | .order _ _ c amount _ _ =>
        bif decide (c = code) && decide (amount < 0) && returnedId (a.step G op).2 then [-amount] else []
      | _ => []) ++ sells G code (a.step G op).1 ops

private theorem step_positions (G : Gate γ ν) (a : Acct γ ν) (hwf : a.WF) (op : AOp ν) (hop : op ≠ .syncBalance) (code : Str) :
    (a.step G op).1.long = a.long ∧ (a.step G op).1.short = a.short ∧
    ((a.step G op).1.findShort code = a.findShort code) ∧
    ∃ s, (sells G code a [op] = s) ∧ ((s = [] ∧ (a.step G op).1.findLong code = a.findLong code) ∨
      ∃ n, 0 < n ∧ s = [n] ∧ (a.step G op).1.findLong code = (a.findLong code).map fun p => { p with avail := max (p.avail - n) 0 }) := by
  cases op with
  | syncBalance => exact absurd rfl hop
  | cancel id =>
    have h := cancel_fields G id a
    refine ⟨h.2.2.2.1, h.2.2.2.2.1, ?_, [], rfl, .inl ⟨rfl, ?_⟩⟩
    · simp only [Acct.step, Acct.findShort, h.2.2.1, h.2.2.2.2.1]
    · simp only [Acct.step, Acct.findLong, h.2.2.1, h.2.2.2.1]
  | syncOrders =>
    have h := syncOrders_pos G a
    refine ⟨h.2.1, h.2.2.1, ?_, [], rfl, .inl ⟨rfl, ?_⟩⟩
    · simp only [Acct.step, Acct.findShort, h.1, h.2.2.1]
    · simp only [Acct.step, Acct.findLong, h.1, h.2.1]
  | order idn now c amount style side =>
    have ho := order_oheap G idn now c amount style side a
    refine ⟨ho.2.1, ho.2.2.1, ?_, ?_⟩
    · simp only [Acct.step, Acct.findShort, ho.2.2.1]
      rcases order_cases G idn now c amount style side a with ⟨g, e, _, h2⟩ | ⟨g, _, h2⟩
      · rw [h2]; rfl
      · rw [h2]
        simp only [Acct.onCreated, newOrder, if_pos]
        cases hg : dget a.short code with
        | none => rfl
        | some n =>
          obtain ⟨p, hp, _, hps⟩ := hwf.short code n hg
          simp only [Option.bind_some]
          cases hl : dget (a.putOrder (natStr idn) (newOrder (natStr idn) now c amount style)).long c with
          | none => simp only [newOrder] at hl; simp only [hl]; rfl
          | some m =>
            obtain ⟨q, hq, _, hqs⟩ := hwf.long c m hl
            have hne : m ≠ n := by
              rintro rfl
              rw [hp] at hq
              injection hq with hq
              subst hq
              rw [hps] at hqs; cases hqs
            simp only [newOrder] at hl
            simp only [hl, modify_getElem?, if_neg hne]
            rfl
    · simp only [sells, List.append_nil, Acct.step, Acct.findLong, ho.2.1]
      rcases order_cases G idn now c amount style side a with ⟨g, e, _, h2⟩ | ⟨g, _, h2⟩
      · rw [h2]
        refine ⟨[], ?_, .inl ⟨rfl, rfl⟩⟩
        simp [returnedId]
      · rw [h2]
        simp only [Acct.onCreated, newOrder, if_pos, returnedId, Bool.and_true]
        by_cases hc : c = code
        · subst hc
          by_cases hm : amount < 0
          · refine ⟨_, rfl, .inr ⟨-amount, by omega, by simp [hm], ?_⟩⟩
            cases hg : dget a.long c with
            | none => rfl
            | some n =>
              have hl : dget (a.putOrder (natStr idn) (newOrder (natStr idn) now c amount style)).long c = some n := hg
              simp only [newOrder] at hl
              simp only [hl, modify_getElem?, Option.bind_some, if_pos]
              simp only [Acct.putOrder, Pos.onCreated, if_pos hm]
              congr 1
              funext p
              simp only [if_pos]
              rw [show ((amount.natAbs : Nat) : Int) = -amount by omega]
          · refine ⟨_, rfl, .inl ⟨by simp [hm], ?_⟩⟩
            cases hg : dget a.long c with
            | none => rfl
            | some n =>
              obtain ⟨p, hp, _⟩ := hwf.long c n hg
              have hl : dget (a.putOrder (natStr idn) (newOrder (natStr idn) now c amount style)).long c = some n := hg
              simp only [newOrder] at hl
              simp only [hl, modify_getElem?, Option.bind_some, if_pos]
              simp only [Acct.putOrder, Pos.onCreated, if_neg hm, hp]
              rfl
        · refine ⟨_, rfl, .inl ⟨by simp [hc], ?_⟩⟩
          cases hg : dget a.long code with
          | none => rfl
          | some n =>
            obtain ⟨p, hp, hpc, _⟩ := hwf.long code n hg
            simp only [Option.bind_some]
            cases hl : dget (a.putOrder (natStr idn) (newOrder (natStr idn) now c amount style)).long c with
            | none => simp only [newOrder] at hl; simp only [hl]; rfl
            | some m =>
              obtain ⟨q, hq, hqc, _⟩ := hwf.long c m hl
              have hne : m ≠ n := by
                rintro rfl
                rw [hp] at hq
                injection hq with hq
                subst hq
                exact hc (hqc.symm.trans hpc)
              simp only [newOrder] at hl
              simp only [hl, modify_getElem?, if_neg hne]
              rfl

theorem sells_cons (G : Gate γ ν) (code : Str) (a : Acct γ ν) (op : AOp ν) (ops : List (AOp ν)) :
    sells G code a (op :: ops) = sells G code a [op] ++ sells G code (a.step G op).1 ops := by
  simp only [sells, List.append_nil]

theorem sells_pos (G : Gate γ ν) (code : Str) (a : Acct γ ν) (ops : List (AOp ν)) : ∀ n ∈ sells G code a ops, 0 < n := by
  induction ops generalizing a with
  | nil => simp [sells]
  | cons op ops ih =>
    intro n hn
    simp only [sells, List.mem_append] at hn
    rcases hn with hn | hn
    · split at hn
      · rename_i idn now c amount style side
        cases hb : (decide (c = code) && decide (amount < 0) && returnedId (a.step G (.order idn now c amount style side)).2) with
        | false => rw [hb] at hn; simp at hn
        | true =>
          rw [hb] at hn
          simp only [Bool.and_eq_true, decide_eq_true_eq] at hb
          simp only [cond_true, List.mem_singleton] at hn
          omega
      · simp at hn
    · exact ih _ n hn

theorem sum_nonneg {l : List Int} (h : ∀ n ∈ l, 0 < n) : 0 ≤ l.sum := by
  induction l with
  | nil => simp
  | cons a l ih =>
    have := ih (fun n hn => h n (by simp [hn]))
    have := h a (by simp)
    simp only [List.sum_cons]; omega

/-- Between two balance synchronisations the closeable amount of a long position accounts for exactly the
successful sell orders of its code; nothing else about the position changes. -/
theorem c28_closeable_partial (G : Gate γ ν) (a : Acct γ ν) (hwf : a.WF) (ops : List (AOp ν)) (hops : NoBalanceSync ops)
    (code : Str) :
    (a.run G ops).findLong code =
      (a.findLong code).map fun p => { p with avail := closeable p.avail (sells G code a ops) } := by
  induction ops generalizing a with
  | nil => simp only [Acct.run, List.foldl_nil, sells, closeable, if_pos]; cases a.findLong code <;> rfl
  | cons op ops ih =>
    have hop : op ≠ .syncBalance := hops op (by simp)
    have h := step_positions G a hwf op hop code
    rw [show a.run G (op :: ops) = (a.step G op).1.run G ops from rfl,
      ih _ (wf_step hwf G op) (fun o ho => hops o (by simp [ho])), sells_cons]
    obtain ⟨_, _, _, s, hs, h⟩ := h
    rw [hs]
    have hpos := sum_nonneg (sells_pos G code (a.step G op).1 ops)
    rcases h with ⟨rfl, h⟩ | ⟨n, hn, rfl, h⟩
    · rw [h]; rfl
    · rw [h]
      cases a.findLong code with
      | none => rfl
      | some p =>
        simp only [Option.map_some, closeable, List.singleton_append, List.sum_cons, reduceCtorEq, if_false]
        congr 2
        split
        · rename_i he; rw [he]; simp
        · omega

/-- The closeable amount is never negative once the reported one is not. -/
theorem c28_never_negative (G : Gate γ ν) (a : Acct γ ν) (hwf : a.WF) (ops : List (AOp ν)) (hops : NoBalanceSync ops)
    (code : Str) (p : Pos ν) (hp : a.findLong code = some p) (hv : 0 ≤ p.avail) :
    ∃ p', (a.run G ops).findLong code = some p' ∧ 0 ≤ p'.avail ∧ p'.avail ≤ p.avail := by
  rw [c28_closeable_partial G a hwf ops hops code, hp]
  refine ⟨_, rfl, ?_⟩
  have hpos := sum_nonneg (sells_pos G code a ops)
  simp only [closeable]
  split <;> omega

/-- Short positions are never adjusted. -/
theorem c28_short_unchanged (G : Gate γ ν) (a : Acct γ ν) (hwf : a.WF) (ops : List (AOp ν)) (hops : NoBalanceSync ops)
    (code : Str) : (a.run G ops).findShort code = a.findShort code := by
  induction ops generalizing a with
  | nil => rfl
  | cons op ops ih =>
    rw [show a.run G (op :: ops) = (a.step G op).1.run G ops from rfl,
      ih _ (wf_step hwf G op) (fun o ho => hops o (by simp [ho]))]
    exact (step_positions G a hwf op (hops op (by simp)) code).2.2.1

/-- `on_order_created` called with any order object: the position of the order's own side and code is adjusted, by a
closing order only; the other side and the other codes stay. -/
theorem c28_created_own_side (a : Acct γ ν) (hwf : a.WF) (o : Order ν) (code : Str) :
    (a.onCreated o).findLong code =
      (if o.side = some .long ∧ o.action = .close ∧ o.code = code then
        (a.findLong code).map fun p => { p with avail := max (p.avail - o.amount) 0 } else a.findLong code) ∧
    (a.onCreated o).findShort code =
      (if o.side ≠ some .long ∧ o.action = .close ∧ o.code = code then
        (a.findShort code).map fun p => { p with avail := max (p.avail - o.amount) 0 } else a.findShort code) := by
  have dLS : ∀ c c' n, dget a.long c = some n → dget a.short c' = some n → False := by
    intro c c' n h1 h2
    obtain ⟨q, e1, _, e2⟩ := hwf.long c n h1
    obtain ⟨q', e3, _, e4⟩ := hwf.short c' n h2
    rw [e1] at e3
    cases e3
    rw [e2] at e4
    cases e4
  have dL : ∀ c c' n, dget a.long c = some n → dget a.long c' = some n → c = c' := by
    intro c c' n h1 h2
    obtain ⟨q, e1, e2, _⟩ := hwf.long c n h1
    obtain ⟨q', e3, e4, _⟩ := hwf.long c' n h2
    rw [e1] at e3
    cases e3
    rw [← e2, ← e4]
  have dS : ∀ c c' n, dget a.short c = some n → dget a.short c' = some n → c = c' := by
    intro c c' n h1 h2
    obtain ⟨q, e1, e2, _⟩ := hwf.short c n h1
    obtain ⟨q', e3, e4, _⟩ := hwf.short c' n h2
    rw [e1] at e3
    cases e3
    rw [← e2, ← e4]
  simp only [Acct.onCreated, Acct.findLong, Acct.findShort]
  by_cases hs : o.side = some .long
  · cases hl : dget a.long o.code with
    | none =>
      simp only [hs, if_true, hl, true_and, ne_eq, not_true, false_and, if_false, and_true]
      split
      · rename_i h; rw [← h.2, hl]; rfl
      · rfl
    | some n =>
      simp only [hs, if_true, hl, true_and, ne_eq, not_true, false_and, if_false]
      constructor
      · cases hc : dget a.long code with
        | none => simp
        | some m =>
          simp only [Option.bind_some, modify_getElem?, Pos.onCreated]
          by_cases hnm : n = m
          · subst hnm
            have := dL _ _ _ hl hc
            by_cases ha : o.action = .close <;> simp [ha, this]
          · have : o.code ≠ code := by intro h; rw [h, hc] at hl; exact hnm (Option.some.inj hl).symm
            simp [hnm, this]
      · cases hc : dget a.short code with
        | none => simp
        | some m =>
          have : n ≠ m := by intro h; subst h; exact dLS _ _ _ hl hc
          simp [modify_getElem?, this]
  · cases hl : dget a.short o.code with
    | none =>
      simp only [hs, if_false, hl, true_and, ne_eq, not_false_eq_true, false_and]
      split
      · rename_i h; rw [← h.2, hl]; rfl
      · rfl
    | some n =>
      simp only [hs, if_false, hl, true_and, ne_eq, not_false_eq_true, false_and]
      constructor
      · cases hc : dget a.long code with
        | none => simp
        | some m =>
          have : n ≠ m := by intro h; subst h; exact dLS _ _ _ hc hl
          simp [modify_getElem?, this]
      · cases hc : dget a.short code with
        | none => simp
        | some m =>
          simp only [Option.bind_some, modify_getElem?, Pos.onCreated]
          by_cases hnm : n = m
          · subst hnm
            have := dS _ _ _ hl hc
            by_cases ha : o.action = .close <;> simp [ha, this]
          · have : o.code ≠ code := by intro h; rw [h, hc] at hl; exact hnm (Option.some.inj hl).symm
            simp [hnm, this]

/-- An account with a long and a short position of one code. -/
def twoSides : Acct Unit Int := ((Acct.init () : Acct Unit Int).syncBalance (balGate ⟨some {},
  some [posEntry c!"000001.XSHE" c!"long" 100 100, posEntry c!"000001.XSHE" c!"short" 80 80]⟩)).1

/-- Closing a short position: the order is accepted, the closeable amount of the short position stays, that of
the long position goes down. -/
theorem c28_short_side_refuted :
    (twoSides.order okGate 3 t0 c!"000001.XSHE" (-30) (.market 0) .short).2 = .ok (some c!"3") ∧
    ((twoSides.order okGate 3 t0 c!"000001.XSHE" (-30) (.market 0) .short).1.findShort c!"000001.XSHE").map (·.avail) = some 80 ∧
    ((twoSides.order okGate 3 t0 c!"000001.XSHE" (-30) (.market 0) .short).1.findLong c!"000001.XSHE").map (·.avail) = some 70 := by
  decide

/-- Non-vacuity: an order object of the short side, closing 30. -/
example : ∀ o : Order Int, o.side = some .short → o.action = .close → o.code = c!"000001.XSHE" → o.amount = 30 →
    ((twoSides.onCreated o).findShort c!"000001.XSHE").map (·.avail) = some 50 ∧
    ((twoSides.onCreated o).findLong c!"000001.XSHE").map (·.avail) = some 100 := by
  intro o h1 h2 h3 h4
  have hw : twoSides.WF := wf_step (wf_init ()) (balGate ⟨some {},
    some [posEntry c!"000001.XSHE" c!"long" 100 100, posEntry c!"000001.XSHE" c!"short" 80 80]⟩) .syncBalance
  obtain ⟨hl, hr⟩ := c28_created_own_side twoSides hw o c!"000001.XSHE"
  rw [hl, hr]
  simp only [h1, h2, h3, h4]
  decide

/-- Non-vacuity: a buy, a cancel and two sells. -/
example : NoBalanceSync [.order 1 t0 c!"000001.XSHE" 10 (.market 0) .long, .order 2 t0 c!"000001.XSHE" (-30) (.market 0) .long,
      .cancel c!"2", .syncOrders, .order 3 t0 c!"000001.XSHE" (-90) (.limit (5 : Int)) .long] ∧
    sells okGate c!"000001.XSHE" twoSides [.order 1 t0 c!"000001.XSHE" 10 (.market 0) .long,
      .order 2 t0 c!"000001.XSHE" (-30) (.market 0) .long, .cancel c!"2", .syncOrders,
      .order 3 t0 c!"000001.XSHE" (-90) (.limit (5 : Int)) .long] = [30, 90] ∧ closeable 100 [30, 90] = 0 := by
  refine ⟨?_, by decide, by decide⟩
  intro op hop
  simp only [List.mem_cons, List.not_mem_nil, or_false] at hop
  rcases hop with rfl | rfl | rfl | rfl | rfl <;> simp

/-! ## C32 -/

private theorem run_long (G : Gate γ ν) (a : Acct γ ν) (hwf : a.WF) (ops : List (AOp ν)) (hops : NoBalanceSync ops) :
    (a.run G ops).long = a.long := by
  induction ops generalizing a with
  | nil => rfl
  | cons op ops ih =>
    rw [show a.run G (op :: ops) = (a.step G op).1.run G ops from rfl,
      ih _ (wf_step hwf G op) (fun o ho => hops o (by simp [ho]))]
    exact (step_positions G a hwf op (hops op (by simp)) []).1

/-- A `UserPosition` obtained earlier (the address `addr`) shows, until the next balance synchronisation, what the
account's position is then: the sells since are subtracted from the closeable amount. -/
theorem c32_live_until_sync (G : Gate γ ν) (a : Acct γ ν) (hwf : a.WF) (code : Str) (addr : Nat)
    (haddr : dget a.long code = some addr) (ops : List (AOp ν)) (hops : NoBalanceSync ops) :
    ∃ p, a.userPosition addr = some p ∧
      (a.run G ops).userPosition addr = some { p with avail := closeable p.avail (sells G code a ops) } ∧
      (a.run G ops).userPosition addr = (a.run G ops).findLong code := by
  obtain ⟨p, hp, _⟩ := hwf.long code addr haddr
  have h := c28_closeable_partial G a hwf ops hops code
  have h1 : a.findLong code = some p := by simp [Acct.findLong, haddr, hp]
  have h2 : (a.run G ops).findLong code = (a.run G ops).userPosition addr := by
    simp [Acct.findLong, run_long G a hwf ops hops, haddr, Acct.userPosition]
  rw [h1, h2] at h
  exact ⟨p, hp, h, h2.symm⟩

/-- The object at `addr` is not among the account's positions. -/
def Detached (a : Acct γ ν) (addr : Nat) : Prop :=
  addr < a.pheap.length ∧ (∀ c, dget a.long c ≠ some addr) ∧ (∀ c, dget a.short c ≠ some addr)

private theorem detached_putPos {a : Acct γ ν} {addr : Nat} (h : Detached a addr) (p : Pos ν) :
    Detached (a.putPos p) addr ∧ (a.putPos p).pheap[addr]? = a.pheap[addr]? := by
  obtain ⟨h1, h2, h3⟩ := h
  have hset : ∀ d : Dict Str Nat, (∀ c, dget d c ≠ some addr) → ∀ c, dget (dset d p.code a.pheap.length) c ≠ some addr := by
    intro d hd c hc
    rw [dget_dset] at hc
    split at hc
    · injection hc with hc; omega
    · exact hd c hc
  simp only [Acct.putPos, Detached]
  split <;> simp only [List.length_append, List.length_singleton]
  · exact ⟨⟨by omega, hset _ h2, h3⟩, List.getElem?_append_left h1⟩
  · exact ⟨⟨by omega, h2, hset _ h3⟩, List.getElem?_append_left h1⟩

private theorem detached_loadPositions {is : List (PosInfo ν)} {a : Acct γ ν} {addr : Nat} (h : Detached a addr) :
    Detached (a.loadPositions is).1 addr ∧ (a.loadPositions is).1.pheap[addr]? = a.pheap[addr]? := by
  induction is generalizing a with
  | nil => exact ⟨h, rfl⟩
  | cons i is ih =>
    simp only [Acct.loadPositions]
    split
    · exact ⟨h, rfl⟩
    · rename_i p _
      have h1 := detached_putPos h p
      have h2 := ih h1.1
      exact ⟨h2.1, h2.2.trans h1.2⟩

private theorem detached_step (G : Gate γ ν) {a : Acct γ ν} {addr : Nat} (h : Detached a addr) (op : AOp ν) :
    Detached (a.step G op).1 addr ∧ (a.step G op).1.pheap[addr]? = a.pheap[addr]? := by
  cases op with
  | cancel id =>
    have hc := cancel_fields G id a
    exact ⟨⟨by simp only [Acct.step, hc.2.2.1]; exact h.1, by simp only [Acct.step, hc.2.2.2.1]; exact h.2.1,
      by simp only [Acct.step, hc.2.2.2.2.1]; exact h.2.2⟩, by simp only [Acct.step, hc.2.2.1]⟩
  | syncOrders =>
    have hc := syncOrders_pos G a
    exact ⟨⟨by simp only [Acct.step, hc.1]; exact h.1, by simp only [Acct.step, hc.2.1]; exact h.2.1,
      by simp only [Acct.step, hc.2.2.1]; exact h.2.2⟩, by simp only [Acct.step, hc.1]⟩
  | order idn now c amount style side =>
    have ho := order_oheap G idn now c amount style side a
    have hp : (a.order G idn now c amount style side).1.pheap.length = a.pheap.length ∧
        (a.order G idn now c amount style side).1.pheap[addr]? = a.pheap[addr]? := by
      rcases order_cases G idn now c amount style side a with ⟨g, e, _, h2⟩ | ⟨g, _, h2⟩
      · rw [h2]; exact ⟨rfl, rfl⟩
      · rw [h2]
        simp only [Acct.onCreated]
        split
        · exact ⟨rfl, rfl⟩
        · rename_i m hm
          have hne : m ≠ addr := by
            rintro rfl
            simp only [newOrder, if_pos] at hm
            exact h.2.1 c hm
          simp only [List.length_modify, modify_getElem?, if_neg hne]
          exact ⟨rfl, rfl⟩
    exact ⟨⟨by simp only [Acct.step, hp.1]; exact h.1, by simp only [Acct.step, ho.2.1]; exact h.2.1,
      by simp only [Acct.step, ho.2.2.1]; exact h.2.2⟩, by simp only [Acct.step, hp.2]⟩
  | syncBalance =>
    simp only [Acct.step, Acct.syncBalance, tryExcept_fst, Acct.syncBalanceBody]
    split
    · exact ⟨h, rfl⟩
    · simp only [Acct.applyBalance]
      split
      · exact ⟨h, rfl⟩
      · split
        · exact ⟨h, rfl⟩
        · exact detached_loadPositions (a := { a with gate := _, total := _, avail := _, locked := _, long := [], short := [] })
            ⟨h.1, by simp, by simp⟩

/-- After a balance synchronisation that delivered cash and positions, every earlier `UserPosition` is frozen: it
shows for ever what it showed just before. -/
theorem c32_frozen_after_sync (G : Gate γ ν) (a : Acct γ ν) (addr : Nat) (p : Pos ν) (hp : a.userPosition addr = some p)
    (g : γ) (cash : CashInfo ν) (is : List (PosInfo ν)) (hG : G.balance a.gate = (g, .ok ⟨some cash, some is⟩))
    (ops : List (AOp ν)) : ((a.syncBalance G).1.run G ops).userPosition addr = some p := by
  have hlt : addr < a.pheap.length := (List.getElem?_eq_some_iff.1 hp).1
  have hd : Detached (a.syncBalance G).1 addr ∧ (a.syncBalance G).1.pheap[addr]? = a.pheap[addr]? := by
    simp only [Acct.syncBalance, tryExcept_fst, Acct.syncBalanceBody, hG, Acct.applyBalance]
    exact detached_loadPositions (a := { a with gate := _, total := _, avail := _, locked := _, long := [], short := [] })
      ⟨hlt, by simp, by simp⟩
  have key : ∀ (ops : List (AOp ν)) (b : Acct γ ν), Detached b addr → (b.run G ops).pheap[addr]? = b.pheap[addr]? := by
    intro ops
    induction ops with
    | nil => intro b _; rfl
    | cons op ops ih =>
      intro b hb
      have h1 := detached_step G hb op
      exact (ih _ h1.1).trans h1.2
  simp only [Acct.userPosition] at hp ⊢
  rw [key ops _ hd.1, hd.2, hp]

/-- A code without a position reads as an all-zero position. -/
theorem c32_missing_is_zero (a : Acct γ ν) (code : Str) :
    (a.findLong code = none → (a.longPosition code).code = code ∧ (a.longPosition code).amount = 0 ∧
      (a.longPosition code).avail = 0 ∧ (a.longPosition code).avgCost = PyNum.zero ∧
      (a.longPosition code).lastPrice = some PyNum.zero ∧ (a.longPosition code).value = some PyNum.zero ∧
      (a.longPosition code).side = .long) ∧
    (a.findShort code = none → (a.shortPosition code).code = code ∧ (a.shortPosition code).amount = 0 ∧
      (a.shortPosition code).avail = 0 ∧ (a.shortPosition code).avgCost = PyNum.zero ∧
      (a.shortPosition code).lastPrice = some PyNum.zero ∧ (a.shortPosition code).value = some PyNum.zero ∧
      (a.shortPosition code).side = .short) := by
  constructor
  · intro h; simp [Acct.longPosition, h, emptyPos]
  · intro h; simp [Acct.shortPosition, h, emptyPos]

/-- Non-vacuity: a position object seen before a sell, after it, and after a synchronisation and another sell. -/
example : (twoSides.userPosition 0).map (·.avail) = some 100 ∧
    ((twoSides.run okGate [.order 2 t0 c!"000001.XSHE" (-30) (.market 0) .long]).userPosition 0).map (·.avail) = some 70 ∧
    (((twoSides.run (balGate ⟨some {}, some [posEntry c!"000001.XSHE" c!"long" 100 55]⟩)
      [.order 2 t0 c!"000001.XSHE" (-30) (.market 0) .long, .syncBalance, .order 3 t0 c!"000001.XSHE" (-30) (.market 0) .long]).userPosition
      0).map (·.avail)) = some 70 := by decide

/-! ## C58 -/

/-- `portfolio.position_value` is 0 without long positions and raises `AttributeError` as soon as there is one. -/
theorem c58_position_value_refuted (a : Acct γ ν) (hwf : a.WF) :
    (a.positionValue = .ok PyNum.zero ↔ ∀ code, a.findLong code = none) ∧
    (a.positionValue = .error .attributeError ↔ ∃ code p, a.findLong code = some p) := by
  simp only [Acct.positionValue]
  cases hl : a.long with
  | nil =>
    simp [dkeys, Acct.findLong, hl]
  | cons e d =>
    have hg : dget a.long e.1 = some e.2 := by rw [hl]; simp [dget]
    obtain ⟨p, hp, _⟩ := hwf.long _ _ hg
    have hf : a.findLong e.1 = some p := by simp [Acct.findLong, hg, hp]
    simp only [dkeys, List.map_cons, reduceCtorEq, false_iff, true_iff]
    exact ⟨fun h => (by rw [h] at hf; cases hf), e.1, p, hf⟩

/-- The largest true part: without long positions it is the sum (0). -/
theorem c58_no_positions_partial (a : Acct γ ν) (hwf : a.WF) (h : ∀ code, a.findLong code = none) :
    a.positionValue = .ok PyNum.zero := (c58_position_value_refuted a hwf).1.2 h

example : twoSides.positionValue = .error .attributeError ∧ (Acct.init () : Acct Unit Int).positionValue = .ok 0 := by decide

end Jq
