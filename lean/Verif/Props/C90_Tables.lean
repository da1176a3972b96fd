import Verif.Props.C90_Refusals
import Verif.Spec.Tables
/-! # C90: which exception a broker's table that cannot be used raises -/
namespace Jq
variable {ν : Type} [CellNum ν]

private theorem col_ok {t : Csv} {row : List (Option Str)} {n : Str} {c : Option Str} : t.col row n = .ok c ↔ t.Cell row n c := by
  unfold Csv.col Csv.Cell
  cases h : t.header.findIdx? (fun h => decide (h = n)) with
  | none =>
    simp only [reduceCtorEq, false_iff, not_exists, not_and]
    intro i hi
    rw [List.findIdx?_eq_none_iff] at h
    have := h n (List.mem_of_getElem? hi)
    simp at this
  | some i =>
    rw [List.findIdx?_eq_some_iff_getElem] at h
    obtain ⟨h1, h2, h3⟩ := h
    constructor
    · intro hc
      injection hc with hc
      refine ⟨i, ?_, ?_, hc⟩
      · rw [List.getElem?_eq_getElem h1]; simpa using h2
      · intro j hj
        rw [List.getElem?_eq_getElem (by omega)]
        have := h3 j hj
        simpa using this
    · rintro ⟨k, k1, k2, k3⟩
      have : k = i := by
        rcases Nat.lt_trichotomy k i with hl | hl | hl
        · have := h3 k hl
          rw [List.getElem?_eq_getElem (by omega)] at k1
          simp at k1 this
          exact absurd k1 this
        · exact hl
        · have := k2 i hl
          rw [List.getElem?_eq_getElem h1] at this
          simp at this h2
          exact absurd h2 this
      subst this
      simp only [k3]

private theorem col_err {t : Csv} {row : List (Option Str)} {n : Str} {e : PyErr} : t.col row n = .error e ↔ n ∉ t.header ∧ e = .attributeError := by
  unfold Csv.col
  cases h : t.header.findIdx? (fun h => decide (h = n)) with
  | none =>
    rw [List.findIdx?_eq_none_iff] at h
    constructor
    · intro he; injection he with he; exact ⟨fun hn => by simpa using h n hn, he.symm⟩
    · rintro ⟨_, rfl⟩; rfl
  | some i =>
    rw [List.findIdx?_eq_some_iff_getElem] at h
    obtain ⟨h1, h2, _⟩ := h
    simp only [reduceCtorEq, false_iff, not_and]
    intro hn
    simp only [decide_eq_true_eq] at h2
    exact absurd (h2 ▸ List.getElem_mem h1) hn

private theorem num_err {t : Csv} {row : List (Option Str)} {n : Str} {e : PyErr} :
    (t.num row n : Py ν) = .error e ↔ BadField ν t row (n, false) e := by
  unfold Csv.num BadField
  cases h : t.col row n with
  | error x =>
    obtain ⟨h1, rfl⟩ := col_err.1 h
    constructor
    · intro he; injection he with he; exact .inl ⟨h1, he.symm⟩
    · rintro (⟨_, rfl⟩ | ⟨c, hc, _⟩)
      · rfl
      · rw [← col_ok, h] at hc; cases hc
  | ok c =>
    simp only
    constructor
    · intro he
      cases hn : (CellNum.num (t.column n) c : Option ν) with
      | none => rw [hn] at he; exact .inr ⟨c, col_ok.1 h, by injection he with he; exact he.symm, by simpa using hn⟩
      | some v => rw [hn] at he; cases he
    · rintro (⟨hn, _⟩ | ⟨c', hc, rfl, hn⟩)
      · rw [(col_err (row := row) (e := .attributeError)).2 ⟨hn, rfl⟩] at h; cases h
      · rw [← col_ok, h] at hc
        injection hc with hc
        subst hc
        simp only [Bool.false_eq_true, if_false] at hn
        rw [hn]; rfl

private theorem int_err {t : Csv} {row : List (Option Str)} {n : Str} {e : PyErr} :
    t.int ν row n = .error e ↔ BadField ν t row (n, true) e := by
  unfold Csv.int BadField
  cases h : t.col row n with
  | error x =>
    obtain ⟨h1, rfl⟩ := col_err.1 h
    constructor
    · intro he; injection he with he; exact .inl ⟨h1, he.symm⟩
    · rintro (⟨_, rfl⟩ | ⟨c, hc, _⟩)
      · rfl
      · rw [← col_ok, h] at hc; cases hc
  | ok c =>
    simp only
    constructor
    · intro he
      cases hn : CellNum.int ν (t.column n) c with
      | none => rw [hn] at he; exact .inr ⟨c, col_ok.1 h, by injection he with he; exact he.symm, by simpa using hn⟩
      | some v => rw [hn] at he; cases he
    · rintro (⟨hn, _⟩ | ⟨c', hc, rfl, hn⟩)
      · rw [(col_err (row := row) (e := .attributeError)).2 ⟨hn, rfl⟩] at h; cases h
      · rw [← col_ok, h] at hc
        injection hc with hc
        subst hc
        simp only [if_true] at hn
        rw [hn]; rfl

private theorem firstBad_cons {t : Csv} {row : List (Option Str)} {f : Str × Bool} {fs : List (Str × Bool)} {e : PyErr} :
    FirstBad ν t row (f :: fs) e ↔ BadField ν t row f e ∨ (∀ e', ¬ BadField ν t row f e') ∧ FirstBad ν t row fs e := by
  constructor
  · rintro ⟨pre, g, post, h, h1, h2⟩
    cases pre with
    | nil => injection h with h _; subst h; exact .inl h2
    | cons x pre =>
      injection h with h h'
      subst h
      exact .inr ⟨h1 _ (by simp), pre, g, post, h', fun g hg => h1 g (by simp [hg]), h2⟩
  · rintro (h | ⟨h, pre, g, post, rfl, h1, h2⟩)
    · exact ⟨[], f, fs, rfl, by simp, h⟩
    · refine ⟨f :: pre, g, post, rfl, ?_, h2⟩
      intro x hx
      rcases List.mem_cons.1 hx with rfl | hx
      · exact h
      · exact h1 x hx

private theorem firstBad_nil {t : Csv} {row : List (Option Str)} {e : PyErr} : ¬ FirstBad ν t row [] e := by
  rintro ⟨pre, f, post, h, _⟩
  cases pre <;> cases h

private theorem bindErr {α β : Type} (x : Py α) (f : α → Py β) (e : PyErr) :
    (x >>= f) = .error e ↔ x = .error e ∨ ∃ a, x = .ok a ∧ f a = .error e := by
  cases x <;> simp [bind, Except.bind]

private theorem num_good {t : Csv} {row : List (Option Str)} {n : Str} (h : ∃ x : ν, t.num row n = .ok x) (e : PyErr) : ¬ BadField ν t row (n, false) e := by
  obtain ⟨x, h⟩ := h
  intro hb
  rw [← num_err, h] at hb
  cases hb

private theorem num_fine {t : Csv} {row : List (Option Str)} {n : Str} (h : ∀ e, ¬ BadField ν t row (n, false) e) : ∃ x : ν, t.num row n = .ok x := by
  cases hn : (t.num row n : Py ν) with
  | ok x => exact ⟨x, rfl⟩
  | error e => exact absurd (num_err.1 hn) (h e)

private theorem int_good {t : Csv} {row : List (Option Str)} {n : Str} (h : ∃ x, t.int ν row n = .ok x) (e : PyErr) : ¬ BadField ν t row (n, true) e := by
  obtain ⟨x, h⟩ := h
  intro hb
  rw [← int_err, h] at hb
  cases hb

private theorem int_fine {t : Csv} {row : List (Option Str)} {n : Str} (h : ∀ e, ¬ BadField ν t row (n, true) e) : ∃ x, t.int ν row n = .ok x := by
  cases hn : t.int ν row n with
  | ok x => exact ⟨x, rfl⟩
  | error e => exact absurd (int_err.1 hn) (h e)

private theorem cashOfRow_err {t : Csv} {row : List (Option Str)} {e : PyErr} : (cashOfRow t row : Py (CashInfo ν)) = .error e ↔
    FirstBad ν t row [(c!"totalAsset", false), (c!"enabledBalance", false), (c!"currentBalance", false)] e := by
  simp only [cashOfRow, bindErr, firstBad_cons, num_err, firstBad_nil, and_false, or_false]
  constructor
  · rintro (h | ⟨_, h1, h | ⟨_, h2, h | ⟨_, h3, h | ⟨_, _, h⟩⟩⟩⟩)
    · exact .inl h
    · exact .inr ⟨num_good ⟨_, h1⟩, .inl h⟩
    · exact .inr ⟨num_good ⟨_, h1⟩, .inr ⟨num_good ⟨_, h2⟩, h⟩⟩
    · exact absurd h (num_good ⟨_, h2⟩ e)
    · cases h
  · rintro (h | ⟨h1, h | ⟨h2, h⟩⟩)
    · exact .inl h
    · exact .inr ⟨_, (num_fine h1).choose_spec, .inl h⟩
    · exact .inr ⟨_, (num_fine h1).choose_spec, .inr ⟨_, (num_fine h2).choose_spec, .inl h⟩⟩

private theorem no_column {t : Csv} {row : List (Option Str)} {n : Str} {c : Option Str} (h : t.Cell row n c) (hn : n ∉ t.header) : False := by
  rw [← col_ok, (col_err (e := .attributeError)).2 ⟨hn, rfl⟩] at h
  cases h

private theorem one_cell {t : Csv} {row : List (Option Str)} {n : Str} {c d : Option Str} (h : t.Cell row n c) (h' : t.Cell row n d) : c = d := by
  rw [← col_ok] at h h'
  rw [h] at h'
  injection h'

private theorem cashRow_err {acct : Str} {t : Csv} {row : List (Option Str)} {e : PyErr} (h : WrongAssets ν acct t row e) (rows : List (List (Option Str)))
    (c : Option (CashInfo ν)) : cashLoop acct t (row :: rows) c = .error e := by
  simp only [cashLoop, bindErr]
  rcases h with h | ⟨ha, h⟩
  · exact .inl (col_err.2 h)
  · refine .inr ⟨_, col_ok.2 ha, ?_⟩
    rw [if_neg (by simp), bindErr]
    rcases h with h | ⟨hx, h⟩
    · exact .inl (col_err.2 h)
    · refine .inr ⟨_, col_ok.2 hx, ?_⟩
      rw [if_neg (by simp), bindErr]
      exact .inl (cashOfRow_err.2 h)

private theorem cashRow_ok {acct : Str} {t : Csv} {row : List (Option Str)} (h : ∀ e, ¬ WrongAssets ν acct t row e) (rows : List (List (Option Str)))
    (c : Option (CashInfo ν)) : ∃ c', cashLoop acct t (row :: rows) c = cashLoop acct t rows c' := by
  simp only [cashLoop]
  cases ha : t.col row c!"acct" with
  | error e => exact absurd (.inl (col_err.1 ha)) (h e)
  | ok a =>
    simp only [bind, Except.bind]
    by_cases h1 : a = some acct
    · subst h1
      rw [if_neg (by simp)]
      have ha' := col_ok.1 ha
      cases hx : t.col row c!"exchange" with
      | error e => exact absurd (.inr ⟨ha', .inl (col_err.1 hx)⟩) (h e)
      | ok x =>
        simp only
        cases x with
        | some x => exact ⟨c, by rw [if_pos (by simp)]⟩
        | none =>
          rw [if_neg (by simp)]
          cases hr : (cashOfRow t row : Py (CashInfo ν)) with
          | error e => exact absurd (.inr ⟨ha', .inr ⟨col_ok.1 hx, cashOfRow_err.1 hr⟩⟩) (h e)
          | ok c' => exact ⟨some c', rfl⟩
    · exact ⟨c, by rw [if_pos h1]⟩

private theorem first_cons {ends : List (Option Str) → Prop} {wrong : List (Option Str) → PyErr → Prop} {row : List (Option Str)}
    {rows : List (List (Option Str))} {e : PyErr} :
    FirstWrongRow ends wrong (row :: rows) e ↔ wrong row e ∨ (¬ ends row ∧ ∀ e', ¬ wrong row e') ∧ FirstWrongRow ends wrong rows e := by
  constructor
  · rintro ⟨pre, g, post, h, h1, h2⟩
    cases pre with
    | nil => injection h with h _; subst h; exact .inl h2
    | cons x pre =>
      injection h with h h'
      subst h
      exact .inr ⟨h1 _ (by simp), pre, g, post, h', fun g hg => h1 g (by simp [hg]), h2⟩
  · rintro (h | ⟨h, pre, g, post, rfl, h1, h2⟩)
    · exact ⟨[], row, rows, rfl, by simp, h⟩
    · refine ⟨row :: pre, g, post, rfl, ?_, h2⟩
      intro x hx
      rcases List.mem_cons.1 hx with rfl | hx
      · exact h
      · exact h1 x hx

private theorem first_nil {ends : List (Option Str) → Prop} {wrong : List (Option Str) → PyErr → Prop} {e : PyErr} : ¬ FirstWrongRow ends wrong [] e := by
  rintro ⟨pre, f, post, h, _⟩
  cases pre <;> cases h

private theorem cashLoop_err (acct : Str) (t : Csv) (e : PyErr) (rows : List (List (Option Str))) : ∀ c : Option (CashInfo ν),
    cashLoop acct t rows c = .error e ↔ FirstWrongRow (fun _ => False) (WrongAssets ν acct t) rows e := by
  induction rows with
  | nil => intro c; simp [cashLoop, first_nil]
  | cons row rows ih =>
    intro c
    rw [first_cons]
    by_cases hw : ∃ e', WrongAssets ν acct t row e'
    · obtain ⟨e', hw⟩ := hw
      have h := cashRow_err hw rows c
      constructor
      · intro h'; rw [h] at h'; injection h' with h'; subst h'; exact .inl hw
      · rintro (h' | ⟨⟨_, h'⟩, _⟩)
        · exact cashRow_err h' rows c
        · exact absurd hw (h' e')
    · have hw' : ∀ e', ¬ WrongAssets ν acct t row e' := fun e' h => hw ⟨e', h⟩
      obtain ⟨c', h⟩ := cashRow_ok hw' rows c
      rw [h, ih]
      simp [hw']

private theorem posOfRow_err {t : Csv} {row : List (Option Str)} {sym : Str} {e : PyErr} (hq : ∃ n, t.int ν row c!"currentQty" = .ok n) :
    (posOfRow t row sym : Py (PosInfo ν)) = .error e ↔
      ((∀ p : Str, sym ≠ p ++ c!"SZ" ∧ sym ≠ p ++ c!"SH") ∧ e = .valueError) ∨
      (∃ p : Str, sym = p ++ c!"SZ" ∨ sym = p ++ c!"SH") ∧
        FirstBad ν t row [(c!"enabledQty", true), (c!"costPrice", false), (c!"lastPrice", false), (c!"mktValue", false)] e := by
  have hdec : (∃ c, decodeSecurity sym = .ok c) ↔ ∃ p : Str, sym = p ++ c!"SZ" ∨ sym = p ++ c!"SH" := by
    constructor
    · rintro ⟨c, hc⟩
      refine Classical.byContradiction fun hn => ?_
      have := (c90_code_refused sym .valueError).2 ⟨rfl, fun p => ⟨fun h => hn ⟨p, .inl h⟩, fun h => hn ⟨p, .inr h⟩⟩⟩
      rw [hc] at this
      cases this
    · rintro ⟨p, hp⟩
      cases hd : decodeSecurity sym with
      | ok c => exact ⟨c, rfl⟩
      | error e =>
        have := ((c90_code_refused sym e).1 hd).2 p
        rcases hp with hp | hp
        · exact absurd hp this.1
        · exact absurd hp this.2
  obtain ⟨n, hq⟩ := hq
  simp only [posOfRow, bindErr, firstBad_cons, num_err, int_err, firstBad_nil, and_false, or_false]
  rw [← hdec]
  constructor
  · rintro (h | ⟨c, h0, h | ⟨_, _, h | ⟨_, h1, h | ⟨_, h2, h | ⟨_, h3, h | ⟨_, _, h⟩⟩⟩⟩⟩⟩)
    · have := (c90_code_refused _ _).1 h
      exact .inl ⟨this.2, this.1⟩
    · exact absurd h (int_good ⟨_, hq⟩ e)
    · exact .inr ⟨⟨c, h0⟩, .inl h⟩
    · exact .inr ⟨⟨c, h0⟩, .inr ⟨int_good ⟨_, h1⟩, .inl h⟩⟩
    · exact .inr ⟨⟨c, h0⟩, .inr ⟨int_good ⟨_, h1⟩, .inr ⟨num_good ⟨_, h2⟩, .inl h⟩⟩⟩
    · exact .inr ⟨⟨c, h0⟩, .inr ⟨int_good ⟨_, h1⟩, .inr ⟨num_good ⟨_, h2⟩, .inr ⟨num_good ⟨_, h3⟩, h⟩⟩⟩⟩
    · cases h
  · rintro (⟨h1, h2⟩ | ⟨⟨c, h0⟩, h⟩)
    · exact .inl ((c90_code_refused _ _).2 ⟨h2, h1⟩)
    · refine .inr ⟨c, h0, .inr ⟨n, hq, ?_⟩⟩
      rcases h with h | ⟨h1, h | ⟨h2, h | ⟨h3, h⟩⟩⟩
      · exact .inl h
      · exact .inr ⟨_, (int_fine h1).choose_spec, .inl h⟩
      · exact .inr ⟨_, (int_fine h1).choose_spec, .inr ⟨_, (num_fine h2).choose_spec, .inl h⟩⟩
      · exact .inr ⟨_, (int_fine h1).choose_spec, .inr ⟨_, (num_fine h2).choose_spec, .inr ⟨_, (num_fine h3).choose_spec, .inl h⟩⟩⟩

private theorem int_ok {t : Csv} {row : List (Option Str)} {n : Str} {x : Int} :
    t.int ν row n = .ok x ↔ ∃ c, t.Cell row n c ∧ CellNum.int ν (t.column n) c = some x := by
  unfold Csv.int
  cases h : t.col row n with
  | error e =>
    simp only [reduceCtorEq, false_iff, not_exists, not_and]
    intro c hc
    exact (no_column hc (col_err.1 h).1).elim
  | ok c =>
    simp only
    constructor
    · intro hx
      refine ⟨c, col_ok.1 h, ?_⟩
      cases hn : CellNum.int ν (t.column n) c with
      | none => rw [hn] at hx; cases hx
      | some y => rw [hn] at hx; injection hx with hx; rw [hx]
    · rintro ⟨d, hd, hx⟩
      rw [one_cell (col_ok.1 h) hd, hx]; rfl

private theorem posRow_err {acct : Str} {t : Csv} {row : List (Option Str)} {e : PyErr} (h : WrongPosition ν acct t row e) (rows : List (List (Option Str))) :
    (posLoop acct t (row :: rows) : Py (List (PosInfo ν))) = .error e := by
  simp only [posLoop, bindErr]
  rcases h with h | ⟨ha, h⟩
  · exact .inl (col_err.2 h)
  · refine .inr ⟨_, col_ok.2 ha, ?_⟩
    rw [if_neg (by simp), bindErr]
    rcases h with h | ⟨sym, hs, h⟩
    · exact .inl (col_err.2 h)
    · refine .inr ⟨_, col_ok.2 hs, ?_⟩
      simp only [bindErr]
      rcases h with h | ⟨⟨c, n, h1, h2, h3⟩, h⟩
      · exact .inl (int_err.2 h)
      · have hq := int_ok.2 ⟨c, h1, h2⟩
        refine .inr ⟨_, hq, ?_⟩
        rw [if_neg h3, bindErr]
        exact .inl ((posOfRow_err ⟨_, hq⟩).2 h)

private theorem posRow_ends {acct : Str} {t : Csv} {row : List (Option Str)} (h : EndsPositions acct t row) (rows : List (List (Option Str))) :
    (posLoop acct t (row :: rows) : Py (List (PosInfo ν))) = .ok [] := by
  simp only [posLoop, col_ok.2 h.1, bind, Except.bind]
  rw [if_neg (by simp), col_ok.2 h.2]

private theorem posRow_ok {acct : Str} {t : Csv} {row : List (Option Str)} (h : ∀ e, ¬ WrongPosition ν acct t row e) (hn : ¬ EndsPositions acct t row)
    (rows : List (List (Option Str))) (e : PyErr) :
    (posLoop acct t (row :: rows) : Py (List (PosInfo ν))) = .error e ↔ (posLoop acct t rows : Py (List (PosInfo ν))) = .error e := by
  simp only [posLoop]
  cases ha : t.col row c!"acct" with
  | error e => exact absurd (.inl (col_err.1 ha)) (h e)
  | ok a =>
    simp only [bind, Except.bind]
    by_cases h1 : a = some acct
    · subst h1
      rw [if_neg (by simp)]
      have ha' := col_ok.1 ha
      cases hx : t.col row c!"symbol" with
      | error e => exact absurd (.inr ⟨ha', .inl (col_err.1 hx)⟩) (h e)
      | ok x =>
        cases x with
        | none => exact absurd ⟨ha', col_ok.1 hx⟩ hn
        | some sym =>
          simp only
          cases hq : t.int ν row c!"currentQty" with
          | error e => exact absurd (.inr ⟨ha', .inr ⟨sym, col_ok.1 hx, .inl (int_err.1 hq)⟩⟩) (h e)
          | ok n =>
            simp only
            by_cases h0 : n = 0
            · rw [if_pos h0]
            · rw [if_neg h0]
              obtain ⟨c, hc, hi⟩ := int_ok.1 hq
              cases hp : (posOfRow t row sym : Py (PosInfo ν)) with
              | error e => exact absurd (.inr ⟨ha', .inr ⟨sym, col_ok.1 hx, .inr ⟨⟨c, n, hc, hi, h0⟩, (posOfRow_err ⟨n, hq⟩).1 hp⟩⟩⟩) (h e)
              | ok p =>
                simp only
                cases (posLoop acct t rows : Py (List (PosInfo ν))) with
                | error x => exact Iff.rfl
                | ok ps => constructor <;> intro h <;> cases h
    · rw [if_pos h1]

private theorem posLoop_err (acct : Str) (t : Csv) (e : PyErr) (rows : List (List (Option Str))) :
    (posLoop acct t rows : Py (List (PosInfo ν))) = .error e ↔ FirstWrongRow (EndsPositions acct t) (WrongPosition ν acct t) rows e := by
  induction rows with
  | nil => simp [posLoop, first_nil]
  | cons row rows ih =>
    rw [first_cons]
    by_cases hw : ∃ e', WrongPosition ν acct t row e'
    · obtain ⟨e', hw⟩ := hw
      have h := posRow_err hw rows
      constructor
      · intro h'; rw [h] at h'; injection h' with h'; subst h'; exact .inl hw
      · rintro (h' | ⟨⟨_, h'⟩, _⟩)
        · exact posRow_err h' rows
        · exact absurd hw (h' e')
    · have hw' : ∀ e', ¬ WrongPosition ν acct t row e' := fun e' h => hw ⟨e', h⟩
      by_cases hends : EndsPositions acct t row
      · rw [posRow_ends hends]; simp [hends, hw']
      · rw [posRow_ok hw' hends, ih]
        simp [hw', hends]

omit [CellNum ν] in
private theorem read_upTo {s : AX ν} (content : Nat → Option Str) (r : Py Csv) :
    (wrapAgain (fun n : Nat => (n + 1, readCsv (content n))) s.conf.maxAttempts 0).2 = r ↔ ReadsUpTo (allowed s.conf.maxAttempts) (fun n => readCsv (content n)) r := by
  obtain ⟨j, h1, h2, h3, h4⟩ := c45_after_set_options_partial s.conf.maxAttempts (fun n => readCsv (content n)) 0
  have h : (wrapAgain (fun n : Nat => (n + 1, readCsv (content n))) s.conf.maxAttempts 0).2 = readCsv (content j) := by
    have := congrArg Prod.snd h2
    rw [Nat.zero_add] at this
    exact this
  rw [h]
  simp only [Nat.zero_add] at h3 h4
  constructor
  · rintro rfl; exact ⟨j, h1, rfl, h3, h4⟩
  · rintro ⟨k, k1, rfl, k3, k4⟩
    rcases Nat.lt_trichotomy j k with hl | rfl | hl
    · obtain ⟨e, he⟩ := k3 j hl
      rcases h4 with ⟨a, h4⟩ | h4
      · exact nomatch (h4.symm.trans he)
      · omega
    · rfl
    · obtain ⟨e, he⟩ := h3 k hl
      rcases k4 with ⟨a, k4⟩ | k4
      · exact nomatch (k4.symm.trans he)
      · omega

/-- Exactly why the balance is refused, and with which exception: there is no asset file; the account has no number; the asset file cannot be
read (`c90_table_refused`), as often as it is tried; a row of it is wrong; and then the same for the positions. -/
theorem c90_balance_exact (env : Env) (s : AX ν) (e : PyErr) :
    AX.balance env s = .error e ↔
      (env.assetsThere = false ∧ e = .fileNotFound) ∨
      env.assetsThere = true ∧
        ((s.conf.acctNo.getD [] = [] ∧ e = .invalidParam) ∨
         ∃ acct, s.conf.acctNo = some acct ∧ acct ≠ [] ∧
          (ReadsUpTo (allowed s.conf.maxAttempts) (fun n => readCsv (env.assets n)) (.error e) ∨
           ∃ t, ReadsUpTo (allowed s.conf.maxAttempts) (fun n => readCsv (env.assets n)) (.ok t) ∧
            (FirstWrongRow (fun _ => False) (WrongAssets ν acct t) t.rows e ∨
             (∀ e', ¬ FirstWrongRow (fun _ => False) (WrongAssets ν acct t) t.rows e') ∧
              ((env.positionsThere = false ∧ e = .fileNotFound) ∨
               env.positionsThere = true ∧
                (ReadsUpTo (allowed s.conf.maxAttempts) (fun n => readCsv (env.positions n)) (.error e) ∨
                 ∃ p, ReadsUpTo (allowed s.conf.maxAttempts) (fun n => readCsv (env.positions n)) (.ok p) ∧
                  FirstWrongRow (EndsPositions acct p) (WrongPosition ν acct p) p.rows e))))) := by
  have hok : ∀ (acct : Str) (t : Csv), (∀ e', ¬ FirstWrongRow (fun _ => False) (WrongAssets ν acct t) t.rows e') ↔
      ∃ c : Option (CashInfo ν), cashLoop acct t t.rows none = .ok c := by
    intro acct t
    cases h : (cashLoop acct t t.rows none : Py (Option (CashInfo ν))) with
    | ok c => exact ⟨fun _ => ⟨c, rfl⟩, fun _ e' h' => by rw [← cashLoop_err acct t e' t.rows none, h] at h'; cases h'⟩
    | error x => exact ⟨fun h' => absurd ((cashLoop_err acct t x t.rows none).1 h) (h' x), fun ⟨c, hc⟩ => by cases hc⟩
  simp only [AX.balance, balanceOf, bindErr]
  have hth : ∀ b, checkThere b = .error e ↔ b = false ∧ e = .fileNotFound := by
    intro b; cases b <;> simp [checkThere, eq_comm]
  have hth' : ∀ b u, checkThere b = .ok u ↔ b = true := by
    intro b u; cases b <;> simp [checkThere]
  simp only [hth, hth', read_upTo, cashLoop_err, posLoop_err, hok]
  have hp : ∀ x : BalInfo ν, ¬ (pure x : Py (BalInfo ν)) = .error e := fun x h => by cases h
  simp only [hp, and_false, exists_false, or_false, exists_const, exists_and_right]
  have hc : PyErr.invalidParam = e ↔ e = .invalidParam := eq_comm
  cases s.conf.acctNo with
  | none => simp [hc]
  | some acct =>
    by_cases h : acct = []
    · subst h; simp [hc]
    · simp [h]

/-- The cash can be read only at the second attempt; a row of another account does no harm; the position of the account has a code of no
exchange. With a column of another name it is another exception, and after a row without a symbol nothing is wrong. -/
example : ∀ fs : Files,
    let env : Env := {
      now := ⟨2024, 1, 2, 9, 30, 0, 0⟩
      day := c!"20240102"
      assets := fun n => if n = 0 then none else some c!"acct,exchange,totalAsset,enabledBalance,currentBalance\n7,,3,2,1\n,\n"
      positions := fun _ => some c!"acct,symbol,currentQty\n8,x,y\n7,1XX,5\n,\n" }
    let s : AX Int := ⟨{ acctNo := some c!"7", dataDay := [] }, [], 0, 0, false, fs⟩
    AX.balance env s = .error .valueError ∧
    AX.balance { env with positions := fun _ => some c!"acct,code,currentQty\n8,x,y\n7,1XX,5\n,\n" } s = .error .attributeError ∧
    ∃ b, AX.balance { env with positions := fun _ => some c!"acct,symbol,currentQty\n7,,y\n7,1XX,5\n,\n" } s = .ok b := by
  exact fun fs => ⟨by rfl, by rfl, _, by rfl⟩

end Jq
