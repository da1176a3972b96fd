import Verif.Lemmas.Csv
import Verif.Model.TradeGate
import Verif.Props.C26_Positions
import Verif.Props.C45_Retry
set_option linter.unusedSectionVars false
/-! # C46, C47: cash and positions from the broker's files -/
namespace Jq

/-! ## C46 -/

/-- A complete table file: header, rows, and the closing row of empty fields. -/
def tableText (header : List Str) (data : List (List Str)) : Str :=
  fileText (header :: data) ++ (recordText (List.replicate header.length []) ++ ['\n'])

/-- A table as the broker writes it: at least two columns; the first field of every row (the time) is a number. -/
structure BrokerTable (header : List Str) (data : List (List Str)) : Prop where
  cols : 2 ≤ header.length
  plain : ∀ r ∈ header :: data, ∀ s ∈ r, PlainCell s
  named : ∀ s ∈ header.head?, s ≠ []
  full : ∀ r ∈ data, r.length = header.length
  number : ∀ r ∈ data, ∀ s ∈ r.head?, Digits s

private theorem not_blank {l : Str} {c : Char} (h : c ∈ l) (h1 : c ≠ ' ') (h2 : c ≠ '\t') : blankLine l = false := by
  rw [Bool.eq_false_iff]
  intro hb
  simp only [blankLine, List.all_eq_true, decide_eq_true_eq] at hb
  rcases hb c h with rfl | rfl
  · exact h1 rfl
  · exact h2 rfl

private theorem record_not_blank {r : List Str} (h : 2 ≤ r.length) : blankLine (recordText r) = false := by
  match r, h with
  | s :: x :: xs, _ => exact not_blank (c := ',') (by simp [recordText, joinWith]) (by decide) (by decide)

/-- A file that ends anywhere before the closing row is refused, whatever its rows. -/
theorem c46_truncated_refused_partial (header : List Str) (data : List (List Str)) (h : BrokerTable header data) (n : Nat)
    (hn : n ≤ (fileText (header :: data)).length) (t : Csv) : readCsv (some ((tableText header data).take n)) ≠ .ok t := by
  have htake : (tableText header data).take n = (fileText (header :: data)).take n := by
    rw [tableText, List.take_append_of_le_length hn]
  obtain ⟨m, p, h1, h2⟩ := take_table (header :: data) n
  rw [htake, h1]
  -- the lines
  have hplain : ∀ r ∈ (header :: data).take m, ∀ s ∈ r, PlainCell s := fun r hr => h.plain r (List.mem_of_mem_take hr)
  have hlines : (rawLines (fileText ((header :: data).take m) ++ p)).map (·.1) = ((header :: data).take m).map recordText ++ (rawLines p).map (·.1) :=
    rawLines_table hplain p
  have hp : p = [] ∨ (p ≠ [] ∧ (rawLines p).map (·.1) = [p] ∧ ∃ r, (header :: data)[m]? = some r ∧ p <+: recordText r) := by
    by_cases hpn : p = []
    · exact .inl hpn
    · right
      rcases h2 with h2 | ⟨r, hr, hpr⟩
      · exact absurd h2 hpn
      · have hmem : r ∈ header :: data := List.mem_of_getElem? hr
        have hpl := recordText_plain (h.plain r hmem)
        have hs := hpr.subset
        refine ⟨hpn, ?_, r, hr, hpr⟩
        rw [rawLines_single hpn (fun hc => hpl.1 (hs hc)) (fun hc => hpl.2 (hs hc))]
        rfl
  have hrow : ∀ r ∈ data, ∃ d rest, r = d :: rest ∧ Digits d := by
    intro r hr
    have h3 := h.full r hr
    have h4 := h.number r hr
    have := h.cols
    cases r with
    | nil => simp at h3; omega
    | cons d rest => exact ⟨d, rest, rfl, h4 d rfl⟩
  have hrowne : ∀ r ∈ data, recordText r ≠ [] := by
    intro r hr e
    have hb := record_not_blank (r := r) (by rw [h.full r hr]; exact h.cols)
    rw [e] at hb; cases hb
  intro hread
  simp only [readCsv, parseCsv] at hread
  rw [hlines] at hread
  -- nothing is blank
  cases m with
  | zero =>
    rcases hp with rfl | ⟨hpn, hpl, _⟩
    · simp [rawLines] at hread
    · cases hb : blankLine p <;> simp [hpl, rowsOf, hb] at hread
  | succ m =>
    have hfilter : ∀ l ∈ ((header :: data).take (m + 1)).map recordText ++ (rawLines p).map (·.1), blankLine l = false := by
      intro l hl
      rcases List.mem_append.1 hl with hl | hl
      · obtain ⟨r, hr, rfl⟩ := List.mem_map.1 hl
        refine record_not_blank ?_
        rcases List.mem_cons.1 (List.mem_of_mem_take hr) with rfl | hr
        · exact h.cols
        · rw [h.full r hr]; exact h.cols
      · rcases hp with rfl | ⟨hpn, hpl, r', hr', hpr⟩
        · simp [rawLines] at hl
        · rw [hpl] at hl
          rw [List.mem_singleton.1 hl]
          simp only [List.getElem?_cons_succ] at hr'
          obtain ⟨d, rest, rfl, hd⟩ := hrow r' (List.mem_of_getElem? hr')
          have hdig := takeWhile_prefix_digits hd hpn hpr
          obtain ⟨c, hc⟩ := List.exists_mem_of_ne_nil _ hdig.1
          have hcd := hdig.2 c hc
          exact not_blank (List.takeWhile_subset _ hc) (by rintro rfl; revert hcd; decide) (by rintro rfl; revert hcd; decide)
    rw [List.filter_eq_self.2 (by intro l hl; simp [hfilter l hl])] at hread
    simp only [List.take_succ_cons, List.map_cons, List.cons_append] at hread
    generalize hcols : (splitOn ',' (recordText header)).length = cols at hread
    cases hrs : rowsOf cols ((data.take m).map recordText ++ (rawLines p).map (·.1)) with
    | error e => rw [hrs] at hread; cases hread
    | ok rows =>
      rw [hrs] at hread
      simp only at hread
      rcases rowsOf_last hrs with ⟨_, rfl⟩ | ⟨l, r, g1, g2, g3⟩
      · cases hread
      · -- the last line begins with a digit
        have hdig : Digits (l.takeWhile (fun c => decide (c ≠ ','))) := by
          rcases hp with rfl | ⟨hpn, hpl, r', hr', hpr⟩
          · simp only [rawLines, List.map_nil, List.append_nil] at g1
            have hl := List.mem_of_getLast? g1
            obtain ⟨x, hx, rfl⟩ := List.mem_map.1 hl
            have hxd := List.mem_of_mem_take hx
            obtain ⟨d, rest, rfl, hd⟩ := hrow x hxd
            exact takeWhile_prefix_digits hd (hrowne _ hxd) List.prefix_rfl
          · rw [hpl, List.getLast?_append] at g1
            simp only [List.getLast?_singleton, Option.some_or, Option.some.injEq] at g1
            subst g1
            simp only [List.getElem?_cons_succ] at hr'
            obtain ⟨d, rest, rfl, hd⟩ := hrow r' (List.mem_of_getElem? hr')
            exact takeWhile_prefix_digits hd hpn hpr
        rw [g2] at hread
        simp only [rowOf_digits g3 hdig, Bool.false_eq_true, if_false] at hread
        cases hread

private theorem splitOn_record {r : List Str} (hne : r ≠ []) (h : ∀ s ∈ r, PlainCell s) : splitOn ',' (recordText r) = r :=
  splitOn_joinWith hne (fun s hs => (h s hs).1)

private theorem rowOf_record {cols : Nat} {r : List Str} (hne : r ≠ []) (h : ∀ s ∈ r, PlainCell s) (hl : r.length = cols) :
    rowOf cols (recordText r) = .ok (r.map cellOf) := by
  simp only [rowOf, splitOn_record hne h, List.length_map, hl, Nat.le_refl, if_true, Nat.sub_self, List.replicate_zero, List.append_nil]

private theorem rowsOf_append {cols : Nat} {a b : List Str} {x y : List (List (Option Str))} (ha : rowsOf cols a = .ok x) (hb : rowsOf cols b = .ok y) :
    rowsOf cols (a ++ b) = .ok (x ++ y) := by
  induction a generalizing x with
  | nil => simp only [rowsOf, Except.ok.injEq] at ha; subst ha; simpa using hb
  | cons l a ih =>
    simp only [rowsOf] at ha
    cases h1 : rowOf cols l with
    | error e => rw [h1] at ha; cases ha
    | ok r =>
      rw [h1] at ha
      simp only at ha
      cases h2 : rowsOf cols a with
      | error e => rw [h2] at ha; cases ha
      | ok rs =>
        rw [h2] at ha
        simp only [Except.ok.injEq] at ha
        subst ha
        simp only [List.cons_append, rowsOf, h1, ih h2]

private theorem rowsOf_records {cols : Nat} {rs : List (List Str)} (hc : cols ≠ 0) (h : ∀ r ∈ rs, (∀ s ∈ r, PlainCell s) ∧ r.length = cols) :
    rowsOf cols (rs.map recordText) = .ok (rs.map fun r => r.map cellOf) := by
  induction rs with
  | nil => rfl
  | cons r rs ih =>
    obtain ⟨h1, h2⟩ := h r (by simp)
    have hne : r ≠ [] := by rintro rfl; exact hc h2.symm
    simp only [List.map_cons, rowsOf, rowOf_record hne h1 h2, ih fun r hr => h r (by simp [hr])]

/-- A complete file is read as it was written. -/
theorem c46_complete_read (header : List Str) (data : List (List Str)) (h : BrokerTable header data) :
    readCsv (some (tableText header data)) = .ok ⟨header, data.map (·.map cellOf) ++ [List.replicate header.length none]⟩ := by
  have hc := h.cols
  have hne : header ≠ [] := by rintro rfl; simp at hc
  have hclose : ∀ s ∈ List.replicate header.length ([] : Str), PlainCell s := by
    intro s hs; rw [(List.mem_replicate.1 hs).2]; exact ⟨by simp, by simp, by simp⟩
  have hall : tableText header data = fileText ((header :: data) ++ [List.replicate header.length []]) ++ [] := by
    simp [tableText, fileText]
  have hplain : ∀ r ∈ (header :: data) ++ [List.replicate header.length []], ∀ s ∈ r, PlainCell s := by
    intro r hr
    rcases List.mem_append.1 hr with hr | hr
    · exact h.plain r hr
    · rw [List.mem_singleton.1 hr]; exact hclose
  have hnonblank : ∀ r ∈ (header :: data) ++ [List.replicate header.length []], blankLine (recordText r) = false := by
    have hlen : ∀ r : List Str, 2 ≤ r.length → blankLine (recordText r) = false := fun r hr => record_not_blank hr
    intro r hr
    rcases List.mem_append.1 hr with hr | hr
    · rcases List.mem_cons.1 hr with rfl | hr
      · exact hlen _ hc
      · exact hlen _ (by rw [h.full r hr]; exact hc)
    · rw [List.mem_singleton.1 hr]; exact hlen _ (by simpa using hc)
  simp only [readCsv, parseCsv]
  rw [hall, rawLines_table hplain]
  rw [List.filter_eq_self.2 (by
    intro l hl
    simp only [rawLines, List.map_nil, List.append_nil] at hl
    obtain ⟨r, hr, rfl⟩ := List.mem_map.1 hl
    simp [hnonblank r hr])]
  simp only [rawLines, List.map_nil, List.append_nil, List.cons_append, List.map_cons]
  rw [splitOn_record hne (h.plain header (by simp))]
  have hrows : rowsOf header.length ((data ++ [List.replicate header.length []]).map recordText) =
      .ok ((data ++ [List.replicate header.length []]).map fun r : List Str => r.map cellOf) := by
    refine rowsOf_records (by omega) ?_
    intro r hr
    rcases List.mem_append.1 hr with hr | hr
    · exact ⟨h.plain r (by simp [hr]), h.full r hr⟩
    · rw [List.mem_singleton.1 hr]; exact ⟨hclose, by simp⟩
  rw [hrows]
  have hcell : (List.replicate header.length ([] : Str)).map cellOf = List.replicate header.length none := by
    rw [List.map_replicate]; rfl
  simp only [List.map_append, List.map_cons, List.map_nil, hcell, List.getLast?_append, List.getLast?_singleton, Option.some_or]
  rw [if_pos (by simp)]

/-- A field that stands for nothing: it is empty, or one of the words the pandas documentation lists for missing values. -/
inductive NoValue : Str → Prop where
  | empty : NoValue []
  | na : NoValue c!"NA"
  | naSlash : NoValue c!"N/A"
  | naLower : NoValue c!"n/a"
  | naMark : NoValue c!"<NA>"
  | hash : NoValue c!"#NA"
  | hashSlash : NoValue c!"#N/A"
  | hashTwice : NoValue c!"#N/A N/A"
  | null : NoValue c!"null"
  | nullUpper : NoValue c!"NULL"
  | none : NoValue c!"None"
  | nan : NoValue c!"nan"
  | nanMixed : NoValue c!"NaN"
  | minusNan : NoValue c!"-nan"
  | minusNanMixed : NoValue c!"-NaN"
  | ind : NoValue c!"1.#IND"
  | minusInd : NoValue c!"-1.#IND"
  | qnan : NoValue c!"1.#QNAN"
  | minusQnan : NoValue c!"-1.#QNAN"

private theorem cellOf_none (s : Str) : cellOf s = none ↔ NoValue s := by
  have h : s ∈ naWords ↔ NoValue s := by
    constructor
    · intro h
      simp only [naWords, List.mem_cons, List.not_mem_nil, or_false] at h
      rcases h with rfl | rfl | rfl | rfl | rfl | rfl | rfl | rfl | rfl | rfl | rfl | rfl | rfl | rfl | rfl | rfl | rfl | rfl | rfl <;> constructor
    · intro h; cases h <;> decide
  rw [← h, cellOf]
  split <;> simp_all

private theorem cellOf_some (s : Str) (h : ¬ NoValue s) : cellOf s = some s := by
  have := mt (cellOf_none s).1 h
  simp only [cellOf] at this ⊢
  split
  · rename_i hm; simp [hm] at this
  · rfl

/-- Exactly when a file of records is taken for complete, and what it says then: every field of the last row stands for nothing. -/
theorem c46_accepted_iff (header : List Str) (rows : List (List Str)) (hc : 2 ≤ header.length) (hpl : ∀ r ∈ header :: rows, ∀ s ∈ r, PlainCell s)
    (hlen : ∀ r ∈ rows, r.length = header.length) (t : Csv) :
    readCsv (some (fileText (header :: rows))) = .ok t ↔
    (∃ last, rows.getLast? = some last ∧ ∀ s ∈ last, NoValue s) ∧ t.header = header ∧
      AllRel (AllRel fun (s : Str) (c : Option Str) => (NoValue s ∧ c = none) ∨ (¬ NoValue s ∧ c = some s)) rows t.rows := by
  have hne : header ≠ [] := by rintro rfl; simp at hc
  have hnb : ∀ r ∈ header :: rows, blankLine (recordText r) = false := by
    intro r hr
    refine record_not_blank ?_
    rcases List.mem_cons.1 hr with rfl | hr
    · exact hc
    · rw [hlen r hr]; exact hc
  have hparse : parseCsv (fileText (header :: rows)) = .ok ⟨header, rows.map fun r => r.map cellOf⟩ := by
    have e := rawLines_table hpl []
    rw [List.append_nil] at e
    simp only [parseCsv]
    rw [e, List.filter_eq_self.2 (by
      intro l hl
      simp only [rawLines, List.map_nil, List.append_nil] at hl
      obtain ⟨r, hr, rfl⟩ := List.mem_map.1 hl
      simp [hnb r hr])]
    simp only [rawLines, List.map_nil, List.append_nil, List.map_cons]
    rw [splitOn_record hne (hpl header (by simp)), rowsOf_records (by omega) fun r hr => ⟨hpl r (by simp [hr]), hlen r hr⟩]
  have hrow : ∀ r : List Str, AllRel (fun (s : Str) (c : Option Str) => (NoValue s ∧ c = none) ∨ (¬ NoValue s ∧ c = some s)) r (r.map cellOf) := by
    intro r
    induction r with
    | nil => exact .nil
    | cons s r ih =>
      refine .cons ?_ ih
      by_cases h : NoValue s
      · exact .inl ⟨h, (cellOf_none s).2 h⟩
      · exact .inr ⟨h, cellOf_some s h⟩
  have hrow' : ∀ (r : List Str) (c : List (Option Str)), AllRel (fun (s : Str) (c : Option Str) => (NoValue s ∧ c = none) ∨ (¬ NoValue s ∧ c = some s)) r c →
      c = r.map cellOf := by
    intro r c h
    induction h with
    | nil => rfl
    | cons h _ ih =>
      rw [List.map_cons, ← ih]
      rcases h with ⟨h1, rfl⟩ | ⟨h1, rfl⟩
      · rw [(cellOf_none _).2 h1]
      · rw [cellOf_some _ h1]
  have hall : ∀ rs : List (List Str), AllRel (AllRel fun (s : Str) (c : Option Str) => (NoValue s ∧ c = none) ∨ (¬ NoValue s ∧ c = some s)) rs
      (rs.map fun r => r.map cellOf) := by
    intro rs
    induction rs with
    | nil => exact .nil
    | cons r rs ih => exact .cons (hrow r) ih
  have hall' : ∀ (rs : List (List Str)) (cs : List (List (Option Str))),
      AllRel (AllRel fun (s : Str) (c : Option Str) => (NoValue s ∧ c = none) ∨ (¬ NoValue s ∧ c = some s)) rs cs →
      cs = rs.map fun r => r.map cellOf := by
    intro rs cs h
    induction h with
    | nil => rfl
    | cons h _ ih => rw [List.map_cons, ← ih, hrow' _ _ h]
  have hlast : (rows.map fun r => r.map cellOf).getLast? = rows.getLast?.map fun r => r.map cellOf := List.getLast?_map ..
  simp only [readCsv, hparse, hlast]
  cases hl : rows.getLast? with
  | none => simp
  | some r =>
    simp only [Option.map_some, Option.some.injEq, exists_eq_left']
    have hnone : (r.map cellOf).all (·.isNone) = true ↔ ∀ s ∈ r, NoValue s := by
      simp only [List.all_map, List.all_eq_true, Function.comp, Option.isNone_iff_eq_none, cellOf_none]
    by_cases hn : ∀ s ∈ r, NoValue s
    · rw [if_pos (hnone.2 hn)]
      constructor
      · intro h; injection h with h; subst h; exact ⟨hn, rfl, hall rows⟩
      · rintro ⟨_, h1, h2⟩
        cases t with
        | mk h rs => simp only at h1 h2; rw [h1, hall' _ _ h2]
    · rw [if_neg (fun h => hn (hnone.1 h))]
      constructor
      · intro h; cases h
      · rintro ⟨h, _⟩; exact absurd h hn

-- A closing row of one of the words is as good as an empty one; a row with one value is not.
example : readCsv (some (fileText [[c!"updTime", c!"acct"], [c!"93001", c!"10"], [c!"null", []]])) =
      .ok ⟨[c!"updTime", c!"acct"], [[some c!"93001", some c!"10"], [none, none]]⟩ ∧
    readCsv (some (fileText [[c!"updTime", c!"acct"], [c!"93001", c!"10"], [[], c!"1"]])) = .error .osError := by
  decide +kernel

/-- Every table that is used has its closing row. -/
theorem c46_read_has_closing_row (file : Option Str) (t : Csv) (h : readCsv file = .ok t) :
    ∃ r, t.rows.getLast? = some r ∧ ∀ c ∈ r, c = none := by
  simp only [readCsv] at h
  cases file with
  | none => cases h
  | some text =>
    simp only at h
    cases hp : parseCsv text with
    | error e => rw [hp] at h; cases h
    | ok t' =>
      rw [hp] at h
      simp only at h
      cases hl : t'.rows.getLast? with
      | none => rw [hl] at h; cases h
      | some r =>
        rw [hl] at h
        simp only at h
        split at h
        · rename_i hr
          injection h with h
          subst h
          refine ⟨r, hl, ?_⟩
          simpa [List.all_eq_true, Option.isNone_iff_eq_none] using hr
        · cases h

/-- With retries: if every attempt finds a truncated file, the synchronisation fails. -/
theorem c46_retries (ms : List Int) (files : Nat → Option Str) (n : Nat) (hbad : ∀ i < allowed ms, ∀ t, readCsv (files (n + i)) ≠ .ok t) :
    ∀ t, (wrapAgain (counted fun i => readCsv (files i)) ms n).2 ≠ .ok t := by
  intro t
  obtain ⟨j, h1, h2, _, _⟩ := c45_after_set_options_partial ms (fun i => readCsv (files i)) n
  rw [h2]
  exact hbad j h1 t

/-- A failed synchronisation leaves the account's cash and positions as they were. -/
theorem c46_account_unchanged {γ ν : Type} [PyNum ν] (G : Gate γ ν) (a : Acct γ ν) (e : PyErr) (h : (G.balance a.gate).2 = .error e) :
    (a.syncBalance G).1 = { a with gate := (G.balance a.gate).1 } := by
  simp only [Acct.syncBalance, Acct.syncBalanceBody]
  cases hb : G.balance a.gate with
  | mk g r =>
    rw [hb] at h
    simp only at h
    subst h
    rfl

/-- If a row may begin with an empty field, a file cut after the first comma of that row is taken as complete. -/
theorem c46_empty_first_field_refuted : ∃ (text : Str) (n : Nat) (t t' : Csv), readCsv (some text) = .ok t ∧ readCsv (some (text.take n)) = .ok t' ∧
    t.rows.length = 2 ∧ t'.rows.length = 1 := by
  refine ⟨c!"updTime,acct" ++ ['\n'] ++ c!",10" ++ ['\n'] ++ c!"," ++ ['\n'], 14,
    ⟨[c!"updTime", c!"acct"], [[none, some c!"10"], [none, none]]⟩, ⟨[c!"updTime", c!"acct"], [[none, none]]⟩, ?_, ?_, rfl, rfl⟩ <;> decide +kernel

example : BrokerTable [c!"updTime", c!"acct"] [[c!"93001", c!"10"]] := by
  have h : ∀ r ∈ [[c!"updTime", c!"acct"], [c!"93001", c!"10"]], ∀ s ∈ r, ',' ∉ s ∧ '\n' ∉ s ∧ '\r' ∉ s := by decide
  refine ⟨by decide, h, ?_, ?_, ?_⟩
  · decide
  · decide
  · intro r hr s hs
    simp only [List.mem_singleton] at hr
    subst hr
    simp only [List.head?_cons, Option.mem_def, Option.some.injEq] at hs
    subst hs
    refine ⟨by simp, ?_⟩
    decide

/-! ## C47 -/

variable {ν : Type} [CellNum ν]

/-- The value of a column in a row. -/
def Csv.Has (t : Csv) (row : List (Option Str)) (name : Str) (v : Option Str) : Prop := t.col row name = .ok v

/-- The rows of the account. -/
def Csv.own (t : Csv) (acct : Str) : List (List (Option Str)) := t.rows.filter fun r => decide (t.col r c!"acct" = .ok (some acct))

/-- The cash is what the row says. -/
def CashInfo.SaysRow (t : Csv) (row : List (Option Str)) (c : CashInfo ν) : Prop :=
  ∃ total enabled current : ν, (∃ x, t.Has row c!"totalAsset" x ∧ CellNum.num (t.column c!"totalAsset") x = some total) ∧
    (∃ x, t.Has row c!"enabledBalance" x ∧ CellNum.num (t.column c!"enabledBalance") x = some enabled) ∧
    (∃ x, t.Has row c!"currentBalance" x ∧ CellNum.num (t.column c!"currentBalance") x = some current) ∧
    c = ⟨some (GateNum.round 4 total), some (GateNum.round 4 enabled), some (GateNum.round 4 (GateNum.sub current enabled))⟩

/-- The position is what the row says. -/
def PosInfo.SaysRow (t : Csv) (row : List (Option Str)) (p : PosInfo ν) : Prop :=
  p.side = some c!"long" ∧
  (∃ s code, t.Has row c!"symbol" (some s) ∧ decodeSecurity s = .ok code ∧ p.code = some code) ∧
  (∃ x n, t.Has row c!"currentQty" x ∧ CellNum.int ν (t.column c!"currentQty") x = some n ∧ n ≠ 0 ∧ p.amount = some n) ∧
  (∃ x n, t.Has row c!"enabledQty" x ∧ CellNum.int ν (t.column c!"enabledQty") x = some n ∧ p.avail = some n) ∧
  (∃ x, ∃ n : ν, t.Has row c!"costPrice" x ∧ CellNum.num (t.column c!"costPrice") x = some n ∧ p.avgCost = some (GateNum.round 3 n)) ∧
  (∃ x, ∃ n : ν, t.Has row c!"lastPrice" x ∧ CellNum.num (t.column c!"lastPrice") x = some n ∧ p.lastPrice = some (GateNum.round 3 n)) ∧
  (∃ x, ∃ n : ν, t.Has row c!"mktValue" x ∧ CellNum.num (t.column c!"mktValue") x = some n ∧ p.value = some (GateNum.round 4 n))

private theorem num_ok {t : Csv} {row : List (Option Str)} {name : Str} {v : ν} (h : t.num row name = .ok v) : ∃ x, t.Has row name x ∧ CellNum.num (t.column name) x = some v := by
  simp only [Csv.num] at h
  cases hc : t.col row name with
  | error e => rw [hc] at h; cases h
  | ok x =>
    rw [hc] at h
    refine ⟨x, hc, ?_⟩
    simp only [orValueError] at h
    cases hn : (CellNum.num (t.column name) x : Option ν) with
    | none => rw [hn] at h; cases h
    | some y => rw [hn] at h; cases h; rfl

private theorem int_ok {t : Csv} {row : List (Option Str)} {name : Str} {v : Int} (h : t.int ν row name = .ok v) : ∃ x, t.Has row name x ∧ CellNum.int ν (t.column name) x = some v := by
  simp only [Csv.int] at h
  cases hc : t.col row name with
  | error e => rw [hc] at h; cases h
  | ok x =>
    rw [hc] at h
    refine ⟨x, hc, ?_⟩
    simp only [orValueError] at h
    cases hn : CellNum.int ν (t.column name) x with
    | none => rw [hn] at h; cases h
    | some y => rw [hn] at h; cases h; rfl

private theorem bind_ok {ε α β : Type} {x : Except ε α} {f : α → Except ε β} {b : β} (h : (x >>= f) = .ok b) : ∃ a, x = .ok a ∧ f a = .ok b := by
  cases x with
  | error e => cases h
  | ok a => exact ⟨a, rfl, h⟩

private theorem cashOfRow_ok {t : Csv} {row : List (Option Str)} {c : CashInfo ν} (h : cashOfRow t row = .ok c) : c.SaysRow t row := by
  simp only [cashOfRow] at h
  obtain ⟨total, h1, h⟩ := bind_ok h
  obtain ⟨enabled, h2, h⟩ := bind_ok h
  obtain ⟨current, h3, h⟩ := bind_ok h
  obtain ⟨enabled', h4, h⟩ := bind_ok h
  rw [h2] at h4
  cases h4
  cases h
  exact ⟨total, enabled, current, num_ok h1, num_ok h2, num_ok h3, rfl⟩

private theorem cashLoop_ok {acct : Str} {t : Csv} {rows : List (List (Option Str))} {c0 c : Option (CashInfo ν)} (h : cashLoop acct t rows c0 = .ok c) :
    match (rows.filter fun r => decide (t.col r c!"acct" = .ok (some acct)) && decide (t.col r c!"exchange" = .ok none)).getLast? with
    | none => c = c0
    | some row => ∃ c', c = some c' ∧ c'.SaysRow t row := by
  induction rows generalizing c0 with
  | nil => simp only [cashLoop, Except.ok.injEq] at h; exact h.symm
  | cons row rows ih =>
    simp only [cashLoop] at h
    obtain ⟨a, h1, h⟩ := bind_ok h
    by_cases ha : a = some acct
    · subst ha
      simp only [ne_eq, not_true_eq_false, if_false] at h
      obtain ⟨ex, h2, h⟩ := bind_ok h
      cases ex with
      | some x =>
        simp only [reduceCtorEq, not_false_eq_true, if_true] at h
        have := ih h
        rw [List.filter_cons_of_neg (by simp [h1, h2])]
        exact this
      | none =>
        simp only [not_true_eq_false, if_false] at h
        obtain ⟨c', h3, h⟩ := bind_ok h
        have := ih h
        rw [List.filter_cons_of_pos (by simp [h1, h2]), List.getLast?_cons]
        cases hl : (rows.filter fun r => decide (t.col r c!"acct" = .ok (some acct)) && decide (t.col r c!"exchange" = .ok none)).getLast? with
        | none => rw [hl] at this; exact ⟨c', this, cashOfRow_ok h3⟩
        | some row' => rw [hl] at this; exact this
    · simp only [ne_eq, ha, not_false_eq_true, if_true] at h
      have := ih h
      rw [List.filter_cons_of_neg (by simp [h1, ha])]
      exact this

private theorem posOfRow_ok {t : Csv} {row : List (Option Str)} {s : Str} {p : PosInfo ν} (hs : t.Has row c!"symbol" (some s))
    (hq : ∀ n, t.int ν row c!"currentQty" = .ok n → n ≠ 0) (h : posOfRow t row s = .ok p) : p.SaysRow t row := by
  simp only [posOfRow] at h
  obtain ⟨code, h1, h⟩ := bind_ok h
  obtain ⟨amount, h2, h⟩ := bind_ok h
  obtain ⟨avail, h3, h⟩ := bind_ok h
  obtain ⟨cost, h4, h⟩ := bind_ok h
  obtain ⟨last, h5, h⟩ := bind_ok h
  obtain ⟨value, h6, h⟩ := bind_ok h
  cases h
  have hn := hq amount h2
  obtain ⟨x2, g2⟩ := int_ok h2
  obtain ⟨x3, g3⟩ := int_ok h3
  obtain ⟨x4, g4⟩ := num_ok h4
  obtain ⟨x5, g5⟩ := num_ok h5
  obtain ⟨x6, g6⟩ := num_ok h6
  exact ⟨rfl, ⟨s, code, hs, h1, rfl⟩, ⟨x2, amount, g2.1, g2.2, hn, rfl⟩, ⟨x3, avail, g3.1, g3.2, rfl⟩, ⟨x4, cost, g4.1, g4.2, rfl⟩,
    ⟨x5, last, g5.1, g5.2, rfl⟩, ⟨x6, value, g6.1, g6.2, rfl⟩⟩

/-- One entry for each row, in order. -/
inductive Pairwise2 {α β : Type} (R : α → β → Prop) : List α → List β → Prop
  | nil : Pairwise2 R [] []
  | cons {a b as bs} : R a b → Pairwise2 R as bs → Pairwise2 R (a :: as) (b :: bs)

/-- The rows that are positions: those of the account up to its first one without symbol, with a quantity that is not zero. -/
def posRows (ν : Type) [CellNum ν] (acct : Str) (t : Csv) (rows : List (List (Option Str))) : List (List (Option Str)) :=
  ((rows.filter fun r => decide (t.col r c!"acct" = .ok (some acct))).takeWhile fun r => decide (t.col r c!"symbol" ≠ .ok none)).filter
    fun r => decide (t.int ν r c!"currentQty" ≠ .ok 0)

private theorem posLoop_ok {acct : Str} {t : Csv} {rows : List (List (Option Str))} {ps : List (PosInfo ν)} (h : posLoop acct t rows = .ok ps) :
    Pairwise2 (fun row p => PosInfo.SaysRow (ν := ν) t row p) (posRows ν acct t rows) ps := by
  induction rows generalizing ps with
  | nil => simp only [posLoop, Except.ok.injEq] at h; subst h; exact .nil
  | cons row rows ih =>
    simp only [posLoop] at h
    obtain ⟨a, h1, h⟩ := bind_ok h
    by_cases ha : a = some acct
    · subst ha
      simp only [ne_eq, not_true_eq_false, if_false] at h
      obtain ⟨sym, h2, h⟩ := bind_ok h
      simp only [posRows]
      rw [List.filter_cons_of_pos (by simp [h1])]
      cases sym with
      | none =>
        cases h
        rw [List.takeWhile_cons_of_neg (by simp [h2])]
        exact .nil
      | some s =>
        simp only at h
        rw [List.takeWhile_cons_of_pos (by simp [h2])]
        obtain ⟨qty, h3, h⟩ := bind_ok h
        by_cases hq : qty = 0
        · subst hq
          simp only [if_true] at h
          rw [List.filter_cons_of_neg (by simp [h3])]
          exact ih h
        · simp only [hq, if_false] at h
          obtain ⟨p, h4, h⟩ := bind_ok h
          obtain ⟨ps', h5, h⟩ := bind_ok h
          cases h
          rw [List.filter_cons_of_pos (by simp [h3, hq])]
          exact .cons (posOfRow_ok h2 (fun n hn => by rw [h3] at hn; cases hn; exact hq) h4) (ih h5)
    · simp only [ne_eq, ha, not_false_eq_true, if_true] at h
      simp only [posRows]
      rw [List.filter_cons_of_neg (by simp [h1, ha])]
      exact ih h

/-- A successful report: its cash is that of the account's last row without exchange (none if there is no such row),
its positions are, in order, those of the rows described by `posRows`. -/
theorem c47_report (acct : Option Str) (assets positions : Bool × Py Csv) (info : BalInfo ν) (h : balanceOf acct assets positions = .ok info) :
    ∃ a ta tp ps, acct = some a ∧ a ≠ [] ∧ assets = (true, .ok ta) ∧ positions = (true, .ok tp) ∧ info.positions = some ps ∧
      Pairwise2 (fun row p => PosInfo.SaysRow (ν := ν) tp row p) (posRows ν a tp tp.rows) ps ∧
      (match ((ta.own a).filter fun r => decide (ta.col r c!"exchange" = .ok none)).getLast? with
       | none => info.cash = none
       | some row => ∃ c, info.cash = some c ∧ c.SaysRow ta row) := by
  simp only [balanceOf] at h
  obtain ⟨_u, k1, h⟩ := bind_ok h
  obtain ⟨a, h1, h⟩ := bind_ok h
  obtain ⟨ta, h2, h⟩ := bind_ok h
  obtain ⟨cash, h3, h⟩ := bind_ok h
  obtain ⟨_v, k2, h⟩ := bind_ok h
  obtain ⟨tp, h4, h⟩ := bind_ok h
  obtain ⟨ps, h5, h⟩ := bind_ok h
  cases h
  have hacct : acct = some a ∧ a ≠ [] := by
    cases acct with
    | none => cases h1
    | some a' =>
      simp only at h1
      split at h1
      · cases h1
      · rename_i hne; cases h1; exact ⟨rfl, hne⟩
  have hthere : ∀ {b : Bool}, checkThere b = .ok () → b = true := by
    intro b; cases b <;> simp [checkThere]
  refine ⟨a, ta, tp, ps, hacct.1, hacct.2, Prod.ext (hthere k1) h2, Prod.ext (hthere k2) h4, rfl, posLoop_ok h5, ?_⟩
  have := cashLoop_ok h3
  simp only [Csv.own, List.filter_filter]
  have hcomm : (ta.rows.filter fun r => decide (ta.col r c!"exchange" = .ok none) && decide (ta.col r c!"acct" = .ok (some a))) =
      ta.rows.filter fun r => decide (ta.col r c!"acct" = .ok (some a)) && decide (ta.col r c!"exchange" = .ok none) := by
    apply List.filter_congr; intro r _; rw [Bool.and_comm]
  rw [hcomm]
  exact this

/-- The columns of the account file that are converted. -/
def cashColumns : List Str := [c!"totalAsset", c!"enabledBalance", c!"currentBalance"]

/-- The columns of the position file that are converted. -/
def posColumns : List Str := [c!"currentQty", c!"enabledQty", c!"costPrice", c!"lastPrice", c!"mktValue"]

/-- Two tables whose columns convert the account's cells alike. -/
def SameTypes (ν : Type) [CellNum ν] (names : List Str) (t t' : Csv) : Prop :=
  ∀ name ∈ names, ∀ c, CellNum.num (ν := ν) (t'.column name) c = CellNum.num (t.column name) c ∧
    CellNum.int ν (t'.column name) c = CellNum.int ν (t.column name) c

/-- Rows of other accounts make no difference, as long as they do not change the types of the converted columns.  (Without that they do:
`c47_other_accounts_refuted`.) -/
theorem c47_other_accounts_partial (a : Str) (ta tp ta' tp' : Csv) (h1 : ta'.header = ta.header) (h2 : tp'.header = tp.header)
    (hc1 : c!"acct" ∈ ta.header) (hc2 : c!"acct" ∈ tp.header)
    (h3 : ta'.own a = ta.own a) (h4 : tp'.own a = tp.own a)
    (h5 : SameTypes ν cashColumns ta ta') (h6 : SameTypes ν posColumns tp tp') :
    (balanceOf (some a) (true, .ok ta') (true, .ok tp') : Py (BalInfo ν)) = balanceOf (some a) (true, .ok ta) (true, .ok tp) := by
  have hcol : ∀ {t t' : Csv}, t'.header = t.header → ∀ row name, t'.col row name = t.col row name := by
    intro t t' h row name; simp only [Csv.col, h]
  have hhas : ∀ {t : Csv}, c!"acct" ∈ t.header → ∀ row, ∃ x, t.col row c!"acct" = .ok x := by
    intro t ht row
    simp only [Csv.col]
    cases hf : t.header.findIdx? (fun h => decide (h = c!"acct")) with
    | none =>
      rw [List.findIdx?_eq_none_iff] at hf
      have := hf _ ht
      simp at this
    | some i => exact ⟨_, rfl⟩
  -- the loops look at the account's rows only
  have hcash : ∀ {t : Csv}, c!"acct" ∈ t.header → ∀ rows (c : Option (CashInfo ν)), cashLoop a t rows c =
      cashLoop a t (rows.filter fun r => decide (t.col r c!"acct" = .ok (some a))) c := by
    intro t ht rows
    induction rows with
    | nil => intro c; rfl
    | cons row rows ih =>
      intro c
      obtain ⟨x, hx⟩ := hhas ht row
      by_cases hxa : x = some a
      · subst hxa
        rw [List.filter_cons_of_pos (by simp [hx])]
        have hbind : ∀ {α β : Type} (v : α) (f : α → Py β), ((Except.ok v : Py α) >>= f) = f v := fun _ _ => rfl
        simp only [cashLoop, hx, hbind, ne_eq, not_true_eq_false, if_false]
        cases t.col row c!"exchange" with
        | error e => rfl
        | ok ex =>
          simp only [hbind]
          split
          · exact ih c
          · cases cashOfRow (ν := ν) t row with
            | error e => rfl
            | ok c' => exact ih _
      · rw [List.filter_cons_of_neg (by simp [hx, hxa])]
        have hbind : ∀ {α β : Type} (v : α) (f : α → Py β), ((Except.ok v : Py α) >>= f) = f v := fun _ _ => rfl
        simp only [cashLoop, hx, hbind, ne_eq, hxa, not_false_eq_true, if_true]
        exact ih c
  have hpos : ∀ {t : Csv}, c!"acct" ∈ t.header → ∀ rows, (posLoop a t rows : Py (List (PosInfo ν))) =
      posLoop a t (rows.filter fun r => decide (t.col r c!"acct" = .ok (some a))) := by
    intro t ht rows
    have hbind : ∀ {α β : Type} (v : α) (f : α → Py β), ((Except.ok v : Py α) >>= f) = f v := fun _ _ => rfl
    induction rows with
    | nil => rfl
    | cons row rows ih =>
      obtain ⟨x, hx⟩ := hhas ht row
      by_cases hxa : x = some a
      · subst hxa
        rw [List.filter_cons_of_pos (by simp [hx])]
        simp only [posLoop, hx, hbind, ne_eq, not_true_eq_false, if_false, ih]
      · rw [List.filter_cons_of_neg (by simp [hx, hxa])]
        simp only [posLoop, hx, hbind, ne_eq, hxa, not_false_eq_true, if_true]
        exact ih
  have hcash' : ∀ rows (c : Option (CashInfo ν)), cashLoop a ta' rows c = cashLoop a ta rows c := by
    intro rows
    have hr : ∀ row, (cashOfRow ta' row : Py (CashInfo ν)) = cashOfRow ta row := by
      intro row
      have k1 := fun c => (h5 c!"totalAsset" (by simp [cashColumns]) c).1
      have k2 := fun c => (h5 c!"enabledBalance" (by simp [cashColumns]) c).1
      have k3 := fun c => (h5 c!"currentBalance" (by simp [cashColumns]) c).1
      simp only [cashOfRow, Csv.num, hcol h1, k1, k2, k3]
    induction rows with
    | nil => intro c; rfl
    | cons row rows ih => intro c; simp only [cashLoop, hcol h1, hr, ih]
  have hpos' : ∀ rows, (posLoop a tp' rows : Py (List (PosInfo ν))) = posLoop a tp rows := by
    intro rows
    have k1 := fun c => (h6 c!"currentQty" (by simp [posColumns]) c).2
    have hr : ∀ row s, (posOfRow tp' row s : Py (PosInfo ν)) = posOfRow tp row s := by
      intro row s
      have k2 := fun c => (h6 c!"enabledQty" (by simp [posColumns]) c).2
      have k3 := fun c => (h6 c!"costPrice" (by simp [posColumns]) c).1
      have k4 := fun c => (h6 c!"lastPrice" (by simp [posColumns]) c).1
      have k5 := fun c => (h6 c!"mktValue" (by simp [posColumns]) c).1
      simp only [posOfRow, Csv.num, Csv.int, hcol h2, k1, k2, k3, k4, k5]
    induction rows with
    | nil => rfl
    | cons row rows ih => simp only [posLoop, hcol h2, hr, ih, Csv.int, k1]
  have e1 : ∀ c : Option (CashInfo ν), cashLoop a ta' ta'.rows c = cashLoop a ta ta.rows c := by
    intro c
    rw [hcash (by rw [h1]; exact hc1), hcash hc1 ta.rows]
    rw [show (ta'.rows.filter fun r => decide (ta'.col r c!"acct" = .ok (some a))) = _ from h3]
    exact hcash' _ _
  have e2 : (posLoop a tp' tp'.rows : Py (List (PosInfo ν))) = posLoop a tp tp.rows := by
    rw [hpos (by rw [h2]; exact hc2), hpos hc2 tp.rows]
    rw [show (tp'.rows.filter fun r => decide (tp'.col r c!"acct" = .ok (some a))) = _ from h4]
    exact hpos' _
  by_cases hne : a = []
  · subst hne; rfl
  · have hbind : ∀ {α β : Type} (v : α) (f : α → Py β), ((Except.ok v : Py α) >>= f) = f v := fun _ _ => rfl
    simp only [balanceOf, checkThere, if_true, hne, if_false, hbind, e1, e2]

example :
    let h := [c!"t", c!"acct", c!"exchange", c!"totalAsset", c!"enabledBalance", c!"currentBalance"]
    let p := [c!"t", c!"acct", c!"symbol", c!"currentQty", c!"enabledQty", c!"costPrice", c!"lastPrice", c!"mktValue"]
    let r := fun l : List Str => l.map cellOf
    (balanceOf (some c!"10")
        (true, .ok ⟨h, [r [c!"1", c!"10", c!"", c!"100", c!"60", c!"80"], r [c!"1", c!"11", c!"", c!"5", c!"5", c!"5"], r [c!"", c!"", c!"", c!"", c!"", c!""]]⟩)
        (true, .ok ⟨p, [r [c!"1", c!"10", c!"600000.SH", c!"200", c!"100", c!"9", c!"8", c!"1600"], r [c!"1", c!"10", c!"000001.SZ", c!"0", c!"0", c!"1", c!"1", c!"0"],
          r [c!"1", c!"11", c!"000002.SZ", c!"7", c!"7", c!"7", c!"7", c!"7"], r [c!"", c!"", c!"", c!"", c!"", c!"", c!"", c!""]]⟩) : Py (BalInfo Int)) =
      .ok ⟨some ⟨some 100, some 60, some 20⟩,
        some [{ side := some c!"long", code := some c!"600000.XSHG", amount := some 200, avail := some 100, avgCost := some 9, lastPrice := some 8, value := some 1600 }]⟩ := by
  decide +kernel

/-- A number as digits, with or without digits behind a point: its whole part. -/
def wholePart (s : Str) : Option Int :=
  match splitOn '.' s with
  | [w] => pyInt w
  | [w, f] => if f ≠ [] ∧ f.all Char.isDigit then pyInt w else none
  | _ => none

/-- Cells as pandas reads them, for the witness (without signs and exponents): if all cells of a column are numbers or missing, it is a column
of floats, and `int` cuts them; otherwise it is a column of texts, and `int` takes whole numbers only. -/
@[instance_reducible] def pandasCells : CellNum Int :=
  { (inferInstance : GateNum Int) with
    num := fun _ c => c.bind wholePart
    int := fun col c =>
      if col.all fun x => x.all fun s => (wholePart s).isSome then c.bind wholePart else c.bind pyInt }

/-- One cell of another account that is no number makes the whole column a column of texts; a quantity written as `200.0`, which was read
before, now makes `sync_balance` raise `ValueError`. -/
theorem c47_other_accounts_refuted :
    ∃ (ta tp tp' : Csv) (b : BalInfo Int), tp'.header = tp.header ∧ tp'.own c!"10" = tp.own c!"10" ∧
      @balanceOf Int pandasCells (some c!"10") (true, .ok ta) (true, .ok tp) = .ok b ∧
      @balanceOf Int pandasCells (some c!"10") (true, .ok ta) (true, .ok tp') = .error .valueError := by
  let h := [c!"t", c!"acct", c!"exchange", c!"totalAsset", c!"enabledBalance", c!"currentBalance"]
  let p := [c!"t", c!"acct", c!"symbol", c!"currentQty", c!"enabledQty", c!"costPrice", c!"lastPrice", c!"mktValue"]
  let r := fun l : List Str => l.map cellOf
  refine ⟨⟨h, [r [c!"1", c!"10", c!"", c!"100", c!"60", c!"80"], r [c!"", c!"", c!"", c!"", c!"", c!""]]⟩,
    ⟨p, [r [c!"1", c!"10", c!"600000.SH", c!"200.0", c!"100.0", c!"9", c!"8", c!"1600"], r [c!"1", c!"11", c!"000002.SZ", c!"7.0", c!"7.0", c!"7", c!"7", c!"7"],
      r [c!"", c!"", c!"", c!"", c!"", c!"", c!"", c!""]]⟩,
    ⟨p, [r [c!"1", c!"10", c!"600000.SH", c!"200.0", c!"100.0", c!"9", c!"8", c!"1600"], r [c!"1", c!"11", c!"000002.SZ", c!"--", c!"7.0", c!"7", c!"7", c!"7"],
      r [c!"", c!"", c!"", c!"", c!"", c!"", c!"", c!""]]⟩,
    ⟨some ⟨some 100, some 60, some 20⟩,
        some [{ side := some c!"long", code := some c!"600000.XSHG", amount := some 200, avail := some 100, avgCost := some 9, lastPrice := some 8, value := some 1600 }]⟩,
    rfl, by decide +kernel, by decide +kernel, by decide +kernel⟩

/-- The hypotheses of `c47_other_accounts_partial` can be met with other rows that are not the same. -/
example :
    let p := [c!"t", c!"acct", c!"symbol", c!"currentQty", c!"enabledQty", c!"costPrice", c!"lastPrice", c!"mktValue"]
    let r := fun l : List Str => l.map cellOf
    let tp : Csv := ⟨p, [r [c!"1", c!"11", c!"000002.SZ", c!"7", c!"7", c!"7", c!"7", c!"7"], r [c!"", c!"", c!"", c!"", c!"", c!"", c!"", c!""]]⟩
    let tp' : Csv := ⟨p, [r [c!"1", c!"11", c!"000002.SZ", c!"8", c!"x", c!"7", c!"7", c!"7"], r [c!"", c!"", c!"", c!"", c!"", c!"", c!"", c!""]]⟩
    tp' ≠ tp ∧ tp'.own c!"10" = tp.own c!"10" ∧ SameTypes Int posColumns tp tp' := by
  refine ⟨by decide +kernel, by decide +kernel, ?_⟩
  intro name _ c
  exact ⟨rfl, rfl⟩

/-! ## The whole call -/

section wholeCall
variable [Store ν]

private theorem read_first (ms : List Int) (content : Nat → Option Str) : ∃ i, i < allowed ms ∧
    (wrapAgain (fun n : Nat => (n + 1, readCsv (content n))) ms 0).2 = readCsv (content i) ∧ (∀ k < i, ∃ e, readCsv (content k) = .error e) ∧
      ((∃ t, readCsv (content i) = .ok t) ∨ i + 1 = allowed ms) := by
  obtain ⟨j, h1, h2, h3, h4⟩ := c45_after_set_options_partial ms (fun i => readCsv (content i)) 0
  simp only [Nat.zero_add] at h2 h3 h4
  exact ⟨j, h1, by rw [show wrapAgain (fun n : Nat => (n + 1, readCsv (content n))) ms 0 = _ from h2], h3, h4⟩

/-- A successful `sync_balance` rests on two complete files: each was there when it was looked for, and is the first complete one found by
the allowed number of reads; the report is what the two tables say of the account. -/
theorem c47_from_files (env : Env) (s : AX ν) (info : BalInfo ν) (h : s.balance env = .ok info) :
    ∃ a i j ta tp ps, s.conf.acctNo = some a ∧ a ≠ [] ∧ env.assetsThere = true ∧ env.positionsThere = true ∧
      i < allowed s.conf.maxAttempts ∧ readCsv (env.assets i) = .ok ta ∧ (∀ k < i, ∃ e, readCsv (env.assets k) = .error e) ∧
      j < allowed s.conf.maxAttempts ∧ readCsv (env.positions j) = .ok tp ∧ (∀ k < j, ∃ e, readCsv (env.positions k) = .error e) ∧
      info.positions = some ps ∧ Pairwise2 (fun row p => PosInfo.SaysRow (ν := ν) tp row p) (posRows ν a tp tp.rows) ps ∧
      (match ((ta.own a).filter fun r => decide (ta.col r c!"exchange" = .ok none)).getLast? with
       | none => info.cash = none
       | some row => ∃ c, info.cash = some c ∧ c.SaysRow ta row) := by
  obtain ⟨a, ta, tp, ps, h1, h2, h3, h4, h5, h6, h7⟩ := c47_report _ _ _ _ h
  obtain ⟨i, i1, i2, i3, _⟩ := read_first s.conf.maxAttempts env.assets
  obtain ⟨j, j1, j2, j3, _⟩ := read_first s.conf.maxAttempts env.positions
  simp only [Prod.mk.injEq] at h3 h4
  exact ⟨a, i, j, ta, tp, ps, h1, h2, h3.1, h4.1, i1, i2.symm.trans h3.2, i3, j1, j2.symm.trans h4.2, j3, h5, h6, h7⟩

/-- If both files are there and each is found complete by one of the allowed reads, the call does what the two tables found first say. -/
theorem c46_first_complete (env : Env) (s : AX ν) (i j : Nat) (ta tp : Csv) (ha : env.assetsThere = true) (hp : env.positionsThere = true)
    (hi : i < allowed s.conf.maxAttempts) (hta : readCsv (env.assets i) = .ok ta) (hbi : ∀ k < i, ∃ e, readCsv (env.assets k) = .error e)
    (hj : j < allowed s.conf.maxAttempts) (htp : readCsv (env.positions j) = .ok tp)
    (hbj : ∀ k < j, ∃ e, readCsv (env.positions k) = .error e) :
    s.balance env = balanceOf s.conf.acctNo (true, .ok ta) (true, .ok tp) := by
  have first : ∀ (content : Nat → Option Str) (i : Nat) (t : Csv), i < allowed s.conf.maxAttempts → readCsv (content i) = .ok t →
      (∀ k < i, ∃ e, readCsv (content k) = .error e) →
      (wrapAgain (fun n : Nat => (n + 1, readCsv (content n))) s.conf.maxAttempts 0).2 = .ok t := by
    intro content i t hi ht hb
    obtain ⟨k, k1, k2, k3, k4⟩ := read_first s.conf.maxAttempts content
    rw [k2]
    rcases Nat.lt_trichotomy k i with hlt | rfl | hlt
    · obtain ⟨e, he⟩ := hb k hlt
      rcases k4 with ⟨t', k4⟩ | k4
      · rw [he] at k4; cases k4
      · omega
    · exact ht
    · obtain ⟨e, he⟩ := k3 i hlt
      rw [ht] at he; cases he
  simp only [AX.balance, ha, hp, first _ i ta hi hta hbi, first _ j tp hj htp hbj]

/-- A file that is missing when it is looked for is reported at once; the retries are for the reads only.  A missing asset file is reported
even before a missing account. -/
theorem c46_missing_reported (env : Env) (s : AX ν) :
    (env.assetsThere = false → s.balance env = .error .fileNotFound) ∧
    (env.positionsThere = false → ∀ info, s.balance env ≠ .ok info) ∧
    (env.assetsThere = true → (s.conf.acctNo = none ∨ s.conf.acctNo = some []) → s.balance env = .error .invalidParam) := by
  refine ⟨fun h => ?_, fun h info hb => ?_, fun h hacct => ?_⟩
  · simp only [AX.balance, balanceOf, checkThere, h]; rfl
  · obtain ⟨_, _, _, _, _, _, _, _, _, h4, _⟩ := c47_from_files env s info hb
    rw [h] at h4; cases h4
  · simp only [AX.balance, balanceOf, checkThere, h, if_true]
    rcases hacct with hacct | hacct <;> rw [hacct] <;> rfl

/-- If none of the allowed reads finds the asset file complete, the error of the last one is reported. -/
theorem c46_last_error (env : Env) (s : AX ν) (a : Str) (hacct : s.conf.acctNo = some a) (hne : a ≠ []) (ha : env.assetsThere = true)
    (hbad : ∀ i < allowed s.conf.maxAttempts, ∃ e, readCsv (env.assets i) = .error e) :
    ∃ e, readCsv (env.assets (allowed s.conf.maxAttempts - 1)) = .error e ∧ s.balance env = .error e := by
  obtain ⟨i, i1, i2, i3, i4⟩ := read_first s.conf.maxAttempts env.assets
  obtain ⟨e, he⟩ := hbad i i1
  have hi : i + 1 = allowed s.conf.maxAttempts := by
    rcases i4 with ⟨t, i4⟩ | i4
    · rw [he] at i4; cases i4
    · exact i4
  refine ⟨e, by rw [← hi, Nat.add_sub_cancel]; exact he, ?_⟩
  simp only [AX.balance, balanceOf, checkThere, ha, if_true, hacct, hne, if_false, i2, he]
  rfl

/-- The asset file is found half written at first and complete at the second read; the position file is complete.  The hypotheses of
`c46_first_complete` are met, and the call reports what the files say. -/
example :
    let _ : Store Int := ⟨fun _ => none, fun _ => none⟩
    let head := [c!"t", c!"acct", c!"exchange", c!"totalAsset", c!"enabledBalance", c!"currentBalance"]
    let assets := tableText head [[c!"1", c!"10", c!"", c!"100", c!"60", c!"80"]]
    let positions := tableText [c!"t", c!"acct", c!"symbol", c!"currentQty", c!"enabledQty", c!"costPrice", c!"lastPrice", c!"mktValue"] []
    let env : Env := { now := ⟨2024, 1, 2, 9, 30, 0, 0⟩, day := c!"20240102"
                       assets := fun n => if n = 0 then some (assets.take 70) else some assets
                       positions := fun _ => some positions }
    let s : AX Int := ⟨{ acctNo := some c!"10", dataDay := c!"20240102" }, [], 0, 0, false, fun _ => none⟩
    (∃ e, readCsv (env.assets 0) = .error e) ∧ (∃ t, readCsv (env.assets 1) = .ok t) ∧
    s.balance env = .ok ⟨some ⟨some 100, some 60, some 20⟩, some []⟩ ∧
    s.balance { env with assetsThere := false } = .error .fileNotFound ∧
    s.balance { env with positionsThere := false } = .error .fileNotFound ∧
    ({ s with conf := { s.conf with maxAttempts := [0] } } : AX Int).balance env = .error .osError := by
  refine ⟨⟨.osError, by decide +kernel⟩, ⟨_, rfl⟩, by decide +kernel, by decide +kernel, by decide +kernel, by decide +kernel⟩

end wholeCall

end Jq
