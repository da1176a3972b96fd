import Verif.Lemmas.TimeExpr
/-!
# C09, C10: what a `run_daily` time means

`entryTime mp day expr` is the datetime (microseconds) that `add_event` computes for the expression on a
day, given the trading periods.
-/
namespace Jq

private theorem base_plain {mp : Periods} {b : Str} {t : Int} (h : IsBase mp b t) :
    '+' ∉ b ∧ '-' ∉ b ∧ ':' ∉ b := by
  cases h <;> decide

private theorem base_time {mp : Periods} {b : Str} {t : Int} (h : IsBase mp b t) (day : Int) {expr op : Str} {off : Int}
    (hp : parseExpr expr = .ok (b, op, off)) :
    exprToTime mp day expr = .ok (if op = c!"+" then day * dayUs + t + off else day * dayUs + t - off) := by
  cases h with
  | op hmp =>
    subst hmp
    simp only [exprToTime, List.head?_cons]
    rename_i first rest
    have : (first :: rest).getLast? = some ((first :: rest).getLast (by simp)) := List.getLast?_eq_some_getLast _
    rw [this, hp]
    simp only [if_true]
    split <;> rfl
  | cl hmp =>
    subst hmp
    rename_i init last
    have hh : ∃ x, (init ++ [last]).head? = some x := by cases init <;> simp
    obtain ⟨x, hx⟩ := hh
    simp only [exprToTime, hx, List.getLast?_append, List.getLast?_singleton, Option.some_or, hp]
    simp only [show ¬ (c!"close" = c!"open") from by decide, if_false, if_true]
    split <;> rfl

/-- `open` and `close` alone mean the open and the close of the day. -/
theorem c09_base_alone (mp : Periods) (b : Str) (t : Int) (h : IsBase mp b t) (day : Int) :
    entryTime mp day b = .ok (day * dayUs + t) := by
  obtain ⟨h1, h2, h3⟩ := base_plain h
  simp only [entryTime, if_neg h3]
  have hp : parseExpr b = .ok (b, c!"+", 0) := by
    simp only [parseExpr, splitSign_no h1 h2]
    cases h <;> rfl
  rw [base_time h day hp]
  simp

/-- C09, for expressions whose units are distinct: the time is the base shifted by the sum of the stated
offsets.  Missing for the full statement: repeated units (see `c09_repeated_unit_refuted`). -/
theorem c09_offset_is_sum_partial (mp : Periods) (b : Str) (t : Int) (h : IsBase mp b t) (day : Int)
    (cs : List Chunk) (h1 : 1 ≤ cs.length) (h3 : cs.length ≤ 3) (hv : ∀ c ∈ cs, c.Valid)
    (hn : (cs.map (·.unit)).Nodup) :
    entryTime mp day (b ++ '+' :: renderChunks cs) = .ok (day * dayUs + t + totalSeconds cs * secUs) ∧
    entryTime mp day (b ++ '-' :: renderChunks cs) = .ok (day * dayUs + t - totalSeconds cs * secUs) := by
  obtain ⟨hb1, hb2, hb3⟩ := base_plain h
  have key : ∀ sg : Char, sg = '+' ∨ sg = '-' →
      entryTime mp day (b ++ sg :: renderChunks cs) =
        .ok (if [sg] = c!"+" then day * dayUs + t + totalSeconds cs * secUs
             else day * dayUs + t - totalSeconds cs * secUs) := by
    intro sg hsg
    have hcolon : ':' ∉ b ++ sg :: renderChunks cs := by
      simp only [List.mem_append, List.mem_cons, not_or]
      refine ⟨hb3, ?_, not_mem_render hv (by decide) (by decide)⟩
      rcases hsg with rfl | rfl <;> decide
    simp only [entryTime, if_neg hcolon]
    have hsplit : splitSign (b ++ sg :: renderChunks cs) = [b, [sg], renderChunks cs] := by
      rw [splitSign_append hb1 hb2 hsg, splitSign_no (not_mem_render hv (by decide) (by decide))
        (not_mem_render hv (by decide) (by decide))]
    have hp : parseExpr (b ++ sg :: renderChunks cs) = .ok (b, [sg], totalSeconds cs * secUs) := by
      simp only [parseExpr, hsplit]
      have := parseOffset_render (tail := []) h1 h3 hv (Or.inl rfl)
      rw [List.append_nil] at this
      rw [this, chunksDelta_distinct hv hn]; rfl
    exact base_time h day hp
  refine ⟨?_, ?_⟩
  · have := key '+' (Or.inl rfl); simpa using this
  · have := key '-' (Or.inr rfl); simpa using this

private theorem lastOfUnit_mem {c : Chunk} {cs : List Chunk} (h : c ∈ lastOfUnit cs) : c ∈ cs := by
  induction cs with
  | nil => cases h
  | cons a cs ih =>
    simp only [lastOfUnit] at h
    split at h
    · exact List.mem_cons_of_mem _ (ih h)
    · rcases List.mem_cons.1 h with rfl | h
      · exact List.mem_cons_self ..
      · exact List.mem_cons_of_mem _ (ih h)

private theorem lastOfUnit_nodup (cs : List Chunk) : ((lastOfUnit cs).map (·.unit)).Nodup := by
  induction cs with
  | nil => exact List.nodup_nil
  | cons a cs ih =>
    simp only [lastOfUnit]
    split
    · exact ih
    · rename_i h
      simp only [List.map_cons, List.nodup_cons]
      refine ⟨fun hm => h ?_, ih⟩
      obtain ⟨c, hc, he⟩ := List.mem_map.1 hm
      exact List.mem_map.2 ⟨c, lastOfUnit_mem hc, he⟩

private theorem unitCount_last (cs : List Chunk) (u : Char) :
    unitCount ((lastOfUnit cs).map fun c => (c.digits, c.unit)) u = unitCount (cs.map fun c => (c.digits, c.unit)) u := by
  induction cs with
  | nil => rfl
  | cons a cs ih =>
    simp only [lastOfUnit]
    split
    · rename_i h
      rw [ih, List.map_cons]
      by_cases hu : a.unit = u
      · subst hu
        simp only [unitCount, List.reverse_cons, List.find?_append]
        cases hf : List.find? (fun c : Str × Char => decide (c.2 = a.unit)) (cs.map fun c => (c.digits, c.unit)).reverse with
        | some x => simp
        | none =>
          exfalso
          obtain ⟨c, hc, he⟩ := List.mem_map.1 h
          have := List.find?_eq_none.1 hf (c.digits, c.unit) (by simpa using ⟨c, hc, rfl, rfl⟩)
          simp [he] at this
      · rw [unitCount_cons_other hu]
    · rename_i h
      simp only [List.map_cons]
      by_cases hu : a.unit = u
      · subst hu
        have h' : ∀ x ∈ lastOfUnit cs, ¬ x.unit = a.unit := fun x hx he => h (List.mem_map.2 ⟨x, lastOfUnit_mem hx, he⟩)
        rw [unitCount_cons_same (by simpa using h'), unitCount_cons_same (by simpa using h)]
      · rw [unitCount_cons_other hu, unitCount_cons_other hu, ih]

private theorem chunksDelta_last {cs : List Chunk} (hv : ∀ c ∈ cs, c.Valid) :
    chunksDelta (cs.map fun c => (c.digits, c.unit)) = totalSeconds (lastOfUnit cs) * secUs := by
  rw [← chunksDelta_distinct (fun c hc => hv c (lastOfUnit_mem hc)) (lastOfUnit_nodup cs)]
  simp only [chunksDelta, unitCount_last]

/-- Exactly what a text without a colon means: it is accepted if and only if it is a base, or a base with a sign and one to three
offsets, possibly followed by a newline; the time is then the base shifted by the sum of the offsets, where of several
offsets with one unit only the last one counts (which is where C09 fails). -/
theorem c09_exact_partial (mp : Periods) (day : Int) (expr : Str) (r : Int) (hc : ':' ∉ expr) :
    entryTime mp day expr = .ok r ↔
    (∃ t, IsBase mp expr t ∧ r = day * dayUs + t) ∨
    ∃ (b : Str) (t : Int) (sg : Char) (cs : List Chunk) (tail : Str), IsBase mp b t ∧
      1 ≤ cs.length ∧ cs.length ≤ 3 ∧ (∀ c ∈ cs, c.Valid) ∧ (tail = [] ∨ tail = ['\n']) ∧
      expr = b ++ sg :: (renderChunks cs ++ tail) ∧
      (sg = '+' ∧ r = day * dayUs + t + totalSeconds (lastOfUnit cs) * secUs ∨
       sg = '-' ∧ r = day * dayUs + t - totalSeconds (lastOfUnit cs) * secUs) := by
  constructor
  · intro h
    simp only [entryTime, if_neg hc, exprToTime] at h
    split at h
    case h_2 => cases h
    case h_1 first last hfirst hlast =>
      have hop : ∀ (b : Str) (x : Int), (if b = c!"open" then some (day * dayUs + first.1)
          else if b = c!"close" then some (day * dayUs + last.2) else none) = some x → ∃ t, IsBase mp b t ∧ x = day * dayUs + t := by
        intro b x hb
        by_cases h1 : b = c!"open"
        · subst h1
          rw [if_pos rfl] at hb
          injection hb with hb
          cases mp with
          | nil => simp at hfirst
          | cons f rest => simp at hfirst; subst hfirst; exact ⟨f.1, IsBase.op rfl, hb.symm⟩
        · by_cases h2 : b = c!"close"
          · subst h2
            rw [if_neg h1, if_pos rfl] at hb
            injection hb with hb
            obtain ⟨init, hi⟩ := List.getLast?_eq_some_iff.1 hlast
            exact ⟨last.2, IsBase.cl hi, hb.symm⟩
          · simp [h1, h2] at hb
      split at h
      case h_1 => cases h
      case h_2 base op off hp =>
        split at h
        case h_1 => cases h
        case h_2 t0 ht =>
          obtain ⟨t, hb, rfl⟩ := hop base t0 ht
          simp only [parseExpr] at hp
          split at hp
          · rename_i base' hs
            split at hp
            · cases hp
              left
              have := splitSign_flatten expr
              rw [hs] at this
              simp at this
              subst this
              simp at h
              exact ⟨t, hb, h.symm⟩
            · cases hp
          · rename_i base' op' offset hs
            right
            cases hq : parseOffset offset with
            | error e => rw [hq] at hp; cases hp
            | ok d =>
              rw [hq] at hp
              simp only [Except.map, Except.ok.injEq, Prod.mk.injEq] at hp
              obtain ⟨rfl, rfl, rfl⟩ := hp
              obtain ⟨cs, tail, g1, g2, g3, g4, rfl, rfl⟩ := parseOffset_ok hq
              rw [chunksDelta_last g3] at h
              have hfl := splitSign_flatten expr
              rw [hs] at hfl
              rcases splitSign_second hs with rfl | rfl
              · rw [if_pos rfl] at h
                injection h with h
                exact ⟨base', t, '+', cs, tail, hb, g1, g2, g3, g4, by rw [← hfl]; simp, .inl ⟨rfl, h.symm⟩⟩
              · rw [if_neg (by decide)] at h
                injection h with h
                exact ⟨base', t, '-', cs, tail, hb, g1, g2, g3, g4, by rw [← hfl]; simp, .inr ⟨rfl, h.symm⟩⟩
          · cases hp
  · rintro (⟨t, hb, rfl⟩ | ⟨b, t, sg, cs, tail, hb, h1, h3, hv, htail, rfl, hr⟩)
    · exact c09_base_alone mp expr t hb day
    · obtain ⟨hb1, hb2, hb3⟩ := base_plain hb
      have hsg : sg = '+' ∨ sg = '-' := by rcases hr with ⟨h, _⟩ | ⟨h, _⟩ <;> simp [h]
      have hno : ∀ x : Char, isDig x = false → isUnit x = false → x ≠ '\n' → x ∉ renderChunks cs ++ tail := by
        intro x hd hu hx hm
        rcases List.mem_append.1 hm with hm | hm
        · exact not_mem_render hv hd hu hm
        · rcases htail with rfl | rfl
          · cases hm
          · simp at hm; exact hx hm
      have hsplit : splitSign (b ++ sg :: (renderChunks cs ++ tail)) = [b, [sg], renderChunks cs ++ tail] := by
        rw [splitSign_append hb1 hb2 hsg, splitSign_no (hno _ (by decide) (by decide) (by decide)) (hno _ (by decide) (by decide) (by decide))]
      have hp : parseExpr (b ++ sg :: (renderChunks cs ++ tail)) = .ok (b, [sg], totalSeconds (lastOfUnit cs) * secUs) := by
        simp only [parseExpr, hsplit]
        rw [parseOffset_render h1 h3 hv htail, chunksDelta_last hv]; rfl
      simp only [entryTime, if_neg hc]
      rw [base_time hb day hp]
      rcases hr with ⟨rfl, rfl⟩ | ⟨rfl, rfl⟩
      · simp
      · simp

/-- Non-vacuity: repeated units, a sign, and texts that are refused. -/
example : lastOfUnit [⟨c!"1", 'h'⟩, ⟨c!"20", 'm'⟩, ⟨c!"2", 'h'⟩] = [⟨c!"20", 'm'⟩, ⟨c!"2", 'h'⟩] ∧
    totalSeconds [⟨c!"20", 'm'⟩, ⟨c!"2", 'h'⟩] = 8400 ∧
    entryTime [(0, 36000 * secUs)] 1 c!"close-1h20m2h" = .ok (dayUs + 36000 * secUs - 8400 * secUs) ∧
    entryTime [(0, 36000 * secUs)] 1 c!"close-1h20m2h3s" = .error .invalidParam ∧ entryTime [(0, 36000 * secUs)] 1 c!"noon+1h" = .error .keyError := by decide

/-- The default trading periods 09:30-11:30, 13:00-15:00 (`scheduler/config.py`). -/
def defaultPeriods : Periods := [(34200 * secUs, 41400 * secUs), (46800 * secUs, 54000 * secUs)]

/-- The code violates C09 when a unit is repeated: `open+1h1h` is scheduled one hour after the open, not
two. -/
theorem c09_repeated_unit_refuted :
    ∃ cs : List Chunk, 1 ≤ cs.length ∧ cs.length ≤ 3 ∧ (∀ c ∈ cs, c.Valid) ∧
      entryTime defaultPeriods 0 (c!"open" ++ '+' :: renderChunks cs) = .ok (37800 * secUs) ∧
      37800 * secUs ≠ 34200 * secUs + totalSeconds cs * secUs := by
  refine ⟨[⟨c!"1", 'h'⟩, ⟨c!"1", 'h'⟩], by decide, by decide, ?_, by decide, by decide⟩
  intro c hc
  simp at hc
  subst hc
  exact ⟨by decide, by decide, by decide⟩

/-- The code accepts a trailing newline, which the documented forms do not have. -/
theorem c09_trailing_newline_refuted :
    entryTime defaultPeriods 0 c!"open+30m\n" = .ok (36000 * secUs) := by decide

/-- The names offered by `run_daily`: half an hour before the open, the open, the close, half an hour after
the close. -/
theorem c09_named_times (mp : Periods) (first last : Int × Int) (hf : mp.head? = some first)
    (hl : mp.getLast? = some last) (day : Int) :
    entryTime mp day (timeAlias c!"before_open") = .ok (day * dayUs + first.1 - 1800 * secUs) ∧
    entryTime mp day (timeAlias c!"open") = .ok (day * dayUs + first.1) ∧
    entryTime mp day (timeAlias c!"close") = .ok (day * dayUs + last.2) ∧
    entryTime mp day (timeAlias c!"after_close") = .ok (day * dayUs + last.2 + 1800 * secUs) := by
  have ho : IsBase mp c!"open" first.1 := by
    cases mp with
    | nil => simp at hf
    | cons a as => simp at hf; subst hf; exact IsBase.op rfl
  have hc : IsBase mp c!"close" last.2 := by
    obtain ⟨i, hi⟩ := List.getLast?_eq_some_iff.1 hl
    exact IsBase.cl hi
  have v30 : ∀ c ∈ [(⟨c!"30", 'm'⟩ : Chunk)], c.Valid := by
    intro c hc; simp at hc; subst hc; exact ⟨by decide, by decide, by decide⟩
  have v0 : ∀ c ∈ [(⟨c!"0", 'm'⟩ : Chunk)], c.Valid := by
    intro c hc; simp at hc; subst hc; exact ⟨by decide, by decide, by decide⟩
  refine ⟨(c09_offset_is_sum_partial mp _ _ ho day [⟨c!"30", 'm'⟩] (by decide) (by decide) v30 (by decide)).2, ?_, ?_,
    (c09_offset_is_sum_partial mp _ _ hc day [⟨c!"30", 'm'⟩] (by decide) (by decide) v30 (by decide)).1⟩
  · have := (c09_offset_is_sum_partial mp _ _ ho day [⟨c!"0", 'm'⟩] (by decide) (by decide) v0 (by decide)).1
    rw [show totalSeconds [⟨c!"0", 'm'⟩] = 0 from by decide, Int.zero_mul, Int.add_zero] at this
    exact this
  · have := (c09_offset_is_sum_partial mp _ _ hc day [⟨c!"0", 'm'⟩] (by decide) (by decide) v0 (by decide)).1
    rw [show totalSeconds [⟨c!"0", 'm'⟩] = 0 from by decide, Int.zero_mul, Int.add_zero] at this
    exact this

/-- These four names are replaced by a fuller form; every other text stays what it is. -/
theorem c09_only_these_names (time : Str) :
    timeAlias time ≠ time ↔ time ∈ [c!"open", c!"close", c!"before_open", c!"after_close"] := by
  unfold timeAlias
  constructor
  · intro h
    simp only [List.mem_cons, List.not_mem_nil, or_false]
    refine Decidable.byContradiction fun hn => h ?_
    simp only [not_or] at hn
    rw [if_neg hn.1, if_neg hn.2.1, if_neg hn.2.2.1, if_neg hn.2.2.2]
  · intro h
    simp only [List.mem_cons, List.not_mem_nil, or_false] at h
    rcases h with rfl | rfl | rfl | rfl <;> decide

example : timeAlias c!"openx" = c!"openx" ∧ timeAlias c!"09:30" = c!"09:30" := by decide

example : IsBase defaultPeriods c!"open" (34200 * secUs) := IsBase.op rfl
example : IsBase defaultPeriods c!"close" (54000 * secUs) :=
  IsBase.cl (init := [(34200 * secUs, 41400 * secUs)]) rfl
/-- `close-1h5m30s` -/
example : (∀ c ∈ [(⟨c!"1", 'h'⟩ : Chunk), ⟨c!"5", 'm'⟩, ⟨c!"30", 's'⟩], c.Valid) ∧
    (c!"close" ++ '-' :: renderChunks [⟨c!"1", 'h'⟩, ⟨c!"5", 'm'⟩, ⟨c!"30", 's'⟩] = c!"close-1h5m30s") := by
  refine ⟨?_, by decide⟩
  intro c hc
  simp at hc
  rcases hc with rfl | rfl | rfl <;> exact ⟨by decide, by decide, by decide⟩
example : entryTime defaultPeriods 3 c!"close-1h5m30s" = .ok (3 * dayUs + (54000 - 3930) * secUs) := by decide
example : entryTime defaultPeriods 3 c!"noon+1h" = .error .keyError := by decide
example : entryTime defaultPeriods 3 c!"open+100m" = .error .invalidParam := by decide

/-! ## C10 -/

/-- A clock field: digits. -/
def DigitStr (s : Str) : Prop := s ≠ [] ∧ ∀ c ∈ s, isDig c = true

private theorem digitStr_no_colon {s : Str} (h : DigitStr s) : ':' ∉ s := by
  intro hm
  have := h.2 _ hm
  simp [isDig] at this

/-- C10: `H:M:S` with digit fields means that time of that day when the fields are in range, and is
rejected otherwise.  Any number of leading zeros is allowed. -/
theorem c10_clock_hms (mp : Periods) (day : Int) (h m s : Str) (hh : DigitStr h) (hm : DigitStr m) (hs : DigitStr s) :
    entryTime mp day (h ++ ':' :: m ++ ':' :: s) =
      if natOfDigits h < 24 ∧ natOfDigits m < 60 ∧ natOfDigits s < 60 then
        .ok (day * dayUs + ((natOfDigits h : Int) * 3600 + natOfDigits m * 60 + natOfDigits s) * secUs)
      else .error .valueError := by
  have hc : ':' ∈ h ++ ':' :: m ++ ':' :: s := by simp
  simp only [entryTime, if_pos hc, clockTime]
  rw [List.append_assoc, List.cons_append, splitOn_append (digitStr_no_colon hh),
    splitOn_append (digitStr_no_colon hm), splitOn_not_mem (digitStr_no_colon hs)]
  simp only [pyInt_digits hh.2 hh.1, pyInt_digits hm.2 hm.1, pyInt_digits hs.2 hs.1, mkTime]
  by_cases hr : natOfDigits h < 24 ∧ natOfDigits m < 60 ∧ natOfDigits s < 60
  · rw [if_pos hr, if_pos (by omega)]; rfl
  · rw [if_neg hr, if_neg (by omega)]; rfl

/-- C10: `H:M` means second 0. -/
theorem c10_clock_hm (mp : Periods) (day : Int) (h m : Str) (hh : DigitStr h) (hm : DigitStr m) :
    entryTime mp day (h ++ ':' :: m) =
      if natOfDigits h < 24 ∧ natOfDigits m < 60 then
        .ok (day * dayUs + ((natOfDigits h : Int) * 3600 + natOfDigits m * 60) * secUs)
      else .error .valueError := by
  have hc : ':' ∈ h ++ ':' :: m := by simp
  simp only [entryTime, if_pos hc, clockTime]
  rw [splitOn_append (digitStr_no_colon hh), splitOn_not_mem (digitStr_no_colon hm)]
  simp only [pyInt_digits hh.2 hh.1, pyInt_digits hm.2 hm.1, mkTime]
  by_cases hr : natOfDigits h < 24 ∧ natOfDigits m < 60
  · rw [if_pos hr, if_pos (by omega)]; simp [Except.map]
  · rw [if_neg hr, if_neg (by omega)]; rfl

/-- C10: whatever a time with colons contains, if it is accepted then its first two (three) fields are
integers in range and the task time is that time of that day: nothing else is ever scheduled. -/
theorem c10_accepted_in_range_partial (mp : Periods) (day : Int) (expr : Str) (r : Int) (hc : ':' ∈ expr)
    (h : entryTime mp day expr = .ok r) :
    ∃ (hs ms : Str) (rest : List Str) (hh mm ss : Int), splitOn ':' expr = hs :: ms :: rest ∧
      pyInt hs = some hh ∧ pyInt ms = some mm ∧
      ((rest = [] ∧ ss = 0) ∨ ∃ s3 more, rest = s3 :: more ∧ pyInt s3 = some ss) ∧
      0 ≤ hh ∧ hh < 24 ∧ 0 ≤ mm ∧ mm < 60 ∧ 0 ≤ ss ∧ ss < 60 ∧
      r = day * dayUs + (hh * 3600 + mm * 60 + ss) * secUs := by
  simp only [entryTime, if_pos hc, clockTime] at h
  split at h
  case h_2 => cases h
  case h_1 hs ms rest hsp =>
    split at h
    case h_2 => cases h
    case h_1 hh mm ss h1 h2 h3 =>
      simp only [mkTime] at h
      split at h
      case isFalse => cases h
      case isTrue hr =>
        simp only [Except.map, Except.ok.injEq] at h
        refine ⟨hs, ms, rest, hh, mm, ss, hsp, h1, h2, ?_, hr.1, hr.2.1, hr.2.2.1, hr.2.2.2.1, hr.2.2.2.2.1,
          hr.2.2.2.2.2, h.symm⟩
        cases rest with
        | nil => simp at h3; exact Or.inl ⟨rfl, h3.symm⟩
        | cons a as => exact Or.inr ⟨a, as, rfl, h3⟩

/-- Refuted: fields after the third are not looked at. -/
theorem c10_extra_fields_refuted : entryTime defaultPeriods 0 c!"09:30:00:xx" = .ok (34200 * secUs) := by decide

example : DigitStr c!"09" := ⟨by decide, by decide⟩
example : entryTime defaultPeriods 2 c!"09:30:15" = .ok (2 * dayUs + 34215 * secUs) := by decide
example : entryTime defaultPeriods 2 c!"24:00" = .error .valueError := by decide
example : entryTime defaultPeriods 2 c!"9:60" = .error .valueError := by decide
example : entryTime defaultPeriods 2 c!" 9:3" = .ok (2 * dayUs + 32580 * secUs) := by decide

end Jq
