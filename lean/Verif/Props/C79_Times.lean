import Verif.Lemmas.Times
import Verif.Lemmas.OrderSync
import Verif.Props.C36_OrderSync
/-!
# C79: times are read as exactly the moments they write

`parse_dt` (`utils.py:36-45`) reads the times of an order (`order.py:173,176`); the times of the broker's report are read by
`trade_gate.py:484`.
-/
namespace Jq
variable {ν : Type} [GateNum ν]

private theorem noDigit_dash (r : Str) : NoDigit ('-' :: r) := by intro c t h; cases h; decide

private theorem noDigit_dot (r : Str) : NoDigit ('.' :: r) := by intro c t h; cases h; decide

private theorem noDigit_space {sp r : Str} (h0 : sp ≠ []) (hs : ∀ c ∈ sp, isSpace c = true) : NoDigit (sp ++ r) := by
  cases sp with
  | nil => exact absurd rfl h0
  | cons a t =>
    intro c u h
    simp only [List.cons_append, List.cons.injEq] at h
    obtain ⟨rfl, _⟩ := h
    intro hd
    have := isDig_not_space (isDig_nat.2 hd)
    rw [hs a (by simp)] at this
    cases this

private theorem fraction_noDigit {fr : Str} {n : Nat} (h : Fraction fr n) : NoDigit fr := by
  cases h with
  | none => exact noDigit_nil
  | digits => exact noDigit_dot _

private theorem noDot_num {w : Str} {n : Nat} (h : Num w n) : '.' ∉ w := fun hm => absurd (h.2.1 _ hm) (by decide)

private theorem short_first {h r : Str} {n : Nat} (hh : Short h n) : fSpace (h ++ r) = [] := by
  match h, hh with
  | [], hh => exact absurd rfl hh.2.1
  | a :: t, hh =>
    exact fSpace_none (isDig_not_space (isDig_iff.2 (hh.2.2.1 a (by simp))))

/-- The part of the text before the fraction. -/
private theorem dateTime_mem {rest : Str → Matches Nat} {s : Str} {d : DT} (h : (d, []) ∈ mDateTime rest s) :
    ∃ y mo da sp h mi se fr : Str,
    s = y ++ '-' :: (mo ++ '-' :: (da ++ (sp ++ (h ++ ':' :: (mi ++ ':' :: (se ++ fr)))))) ∧
    (y.length = 4 ∧ Num y d.year) ∧ Short mo d.month ∧ DayField da d.day ∧ (sp ≠ [] ∧ ∀ c ∈ sp, isSpace c = true) ∧
    Short h d.hour ∧ Short mi d.minute ∧ Short se d.second ∧ (d.us, []) ∈ rest fr := by
  obtain ⟨y, r1, h1, h⟩ := mbind_mem h
  obtain ⟨_, r2, h2, h⟩ := mbind_mem h
  obtain ⟨mo, r3, h3, h⟩ := mbind_mem h
  obtain ⟨_, r4, h4, h⟩ := mbind_mem h
  obtain ⟨da, r5, h5, h⟩ := mbind_mem h
  obtain ⟨_, r6, h6, h⟩ := mbind_mem h
  obtain ⟨ho, r7, h7, h⟩ := mbind_mem h
  obtain ⟨_, r8, h8, h⟩ := mbind_mem h
  obtain ⟨mi, r9, h9, h⟩ := mbind_mem h
  obtain ⟨_, r10, h10, h⟩ := mbind_mem h
  obtain ⟨se, r11, h11, h⟩ := mbind_mem h
  obtain ⟨us, r12, h12, h⟩ := mbind_mem h
  simp only [List.mem_singleton, Prod.mk.injEq] at h
  obtain ⟨rfl, rfl⟩ := h
  obtain ⟨w1, rfl, l1, f1⟩ := fYear_mem h1
  have e2 := fLit_mem h2
  obtain ⟨w3, rfl, f3⟩ := fMonth_mem h3
  have e4 := fLit_mem h4
  obtain ⟨w5, rfl, f5⟩ := fDay_mem h5
  obtain ⟨sp, rfl, s0, hs⟩ := fSpace_mem h6
  obtain ⟨w7, rfl, f7⟩ := fHour_mem h7
  have e8 := fLit_mem h8
  obtain ⟨w9, rfl, f9⟩ := fMinute_mem h9
  have e10 := fLit_mem h10
  obtain ⟨w11, rfl, f11⟩ := fSecond_mem h11
  subst e2 e4 e8 e10
  refine ⟨w1, w3, w5, sp, w7, w9, w11, r11, rfl, ⟨l1, f1⟩, field_num f3, ?_, ⟨s0, hs⟩, field_num f7, field_num f9, field_num f11, h12⟩
  rcases f5 with f5 | ⟨c, rfl, f5⟩
  · exact .digits _ _ (field_num f5)
  · exact .blank _ _ f5

private theorem exists_bounds {d : DT} (h : d.Exists) : 1 ≤ d.month ∧ d.month ≤ 12 ∧ 1 ≤ d.day ∧ d.day ≤ 31 := by
  obtain ⟨_, _, h3, h4, h5, h6, _⟩ := valid_fields ((valid_iff d).2 h)
  exact ⟨h3, h4, h5, Nat.le_trans h6 (daysInMonth_le _ _)⟩

private theorem strptime_ok {m : Str → Matches DT} {s : Str} {d : DT} :
    strptime m s = .ok d ↔ (m s).head? = some (d, []) ∧ d.Exists := by
  rw [← valid_iff]
  constructor
  · intro h
    simp only [strptime] at h
    split at h
    · rename_i d' e
      split at h
      · injection h with h; subst h; exact ⟨e, by assumption⟩
      · cases h
    · cases h
  · rintro ⟨h, hv⟩
    rw [strptime, h]
    simp [hv]

/-- A time given as text is read as `d` exactly when the text writes `d` and there is such a moment. -/
theorem c79_text (s : Str) (d : DT) : parseDt (.str s) = .ok d ↔ d.WrittenIn s ∧ d.Exists := by
  simp only [parseDt, parseDtStr]
  constructor
  · intro h
    split at h
    · obtain ⟨hh, he⟩ := strptime_ok.1 h
      obtain ⟨y, mo, da, sp, ho, mi, se, fr, rfl, a1, a2, a3, a4, a5, a6, a7, hr⟩ := dateTime_mem (List.mem_of_head? hh)
      refine ⟨⟨y, mo, da, sp, ho, mi, se, fr, rfl, a1, a2, a3, a4, a5, a6, a7, ?_⟩, he⟩
      obtain ⟨_, r, h1, h2⟩ := mbind_mem hr
      have e := fLit_mem h1
      obtain ⟨ds, m, e2, hl, hn, hus⟩ := fMicro_mem h2
      rw [List.append_nil] at e2
      subst e e2
      rw [hus]
      exact .digits _ _ hl hn
    · obtain ⟨hh, he⟩ := strptime_ok.1 h
      obtain ⟨y, mo, da, sp, ho, mi, se, fr, rfl, a1, a2, a3, a4, a5, a6, a7, hr⟩ := dateTime_mem (List.mem_of_head? hh)
      refine ⟨⟨y, mo, da, sp, ho, mi, se, fr, rfl, a1, a2, a3, a4, a5, a6, a7, ?_⟩, he⟩
      simp only [mNone, List.mem_singleton, Prod.mk.injEq] at hr
      rw [hr.1, ← hr.2]
      exact .none
  · rintro ⟨⟨y, mo, da, sp, ho, mi, se, fr, rfl, ⟨l1, a1⟩, a2, a3, a4, a5, a6, a7, a8⟩, he⟩
    obtain ⟨b1, b2, b3, b4⟩ := exists_bounds he
    obtain ⟨b5, b6, b7, b8⟩ := he.time
    have main : ∀ rest : Str → Matches Nat, (rest fr).head? = some (d.us, []) →
        (mDateTime rest (y ++ '-' :: (mo ++ '-' :: (da ++ (sp ++ (ho ++ ':' :: (mi ++ ':' :: (se ++ fr)))))))).head? = some (d, []) := by
      intro rest hrest
      refine mbind_head (fYear_head l1 a1) ?_
      refine mbind_head (fLit_head _ _) ?_
      refine mbind_head (fMonth_head a2 b1 b2 (noDigit_dash _)) ?_
      refine mbind_head (fLit_head _ _) ?_
      refine mbind_head (fDay_head a3 b3 b4 (noDigit_space a4.1 a4.2)) ?_
      refine mbind_head (fSpace_head a4.1 a4.2 (short_first a5)) ?_
      refine mbind_head (fHour_head (num_field a5 b5) (noDigit_colon _)) ?_
      refine mbind_head (fLit_head _ _) ?_
      refine mbind_head (fMinute_head (num_field a6 b6) (noDigit_colon _)) ?_
      refine mbind_head (fLit_head _ _) ?_
      refine mbind_head (fSecond_head (num_field a7 b7) (fraction_noDigit a8)) ?_
      exact mbind_head hrest rfl
    have hday : '.' ∉ da := by
      cases a3 with
      | digits _ _ h => exact noDot_num h.2
      | blank c _ h =>
        intro hm
        simp only [List.mem_cons, List.not_mem_nil, or_false] at hm
        rcases hm with hm | rfl
        · exact absurd hm (by decide)
        · exact absurd (h.2.1 '.' (by simp)) (by decide)
    have hsp : '.' ∉ sp := fun hm => absurd (a4.2 _ hm) (by decide)
    generalize hus : d.us = u at a8 main
    cases a8 with
    | none =>
      rw [if_neg, strptime_ok]
      · exact ⟨main mNone rfl, he⟩
      · simp only [List.mem_append, List.mem_cons, List.not_mem_nil, not_or, or_false]
        exact ⟨noDot_num a1, by decide, noDot_num a2.2, by decide, hday, hsp, noDot_num a5.2, by decide, noDot_num a6.2, by decide, noDot_num a7.2⟩
    | digits ds n hl hn =>
      rw [if_pos (by simp), strptime_ok]
      refine ⟨main mFrac ?_, he⟩
      refine mbind_head (fLit_head _ _) ?_
      rw [fMicro_digits ds (List.length_pos_iff.2 hn.1) hl (num_all hn), num_val hn]

/-- Any other text is refused with `ValueError`. -/
theorem c79_text_refused (s : Str) (h : ∀ d : DT, ¬ (d.WrittenIn s ∧ d.Exists)) : parseDt (.str s) = .error .valueError := by
  have key : ∀ m : Str → Matches DT, (∀ d, strptime m s ≠ .ok d) → strptime m s = .error .valueError := by
    intro m hm
    simp only [strptime] at hm ⊢
    split
    · rename_i d e
      simp only [e] at hm
      split
      · rename_i hv; exact absurd (by simp [hv]) (hm d)
      · rfl
    · rfl
  have h' : ∀ d, parseDt (.str s) ≠ .ok d := fun d e => h d ((c79_text s d).1 e)
  simp only [parseDt, parseDtStr] at h' ⊢
  split
  · rename_i hd; simp only [hd, if_true] at h'; exact key _ h'
  · rename_i hd; simp only [hd, if_false] at h'; exact key _ h'

-- The 29th of February of a leap year is read, that of another year is not.
example : parseDt (.str c!"2024-02-29 9:5:00.5") = .ok ⟨2024, 2, 29, 9, 5, 0, 500000⟩ ∧
    DT.WrittenIn ⟨2024, 2, 29, 9, 5, 0, 500000⟩ c!"2024-02-29 9:5:00.5" :=
  have h : parseDt (.str c!"2024-02-29 9:5:00.5") = .ok ⟨2024, 2, 29, 9, 5, 0, 500000⟩ := by decide +kernel
  ⟨h, ((c79_text _ _).1 h).1⟩

example : parseDt (.str c!"2023-02-29 09:05:00") = .error .valueError ∧ parseDt (.str c!"1900-02-29 09:05:00") = .error .valueError ∧
    parseDt (.str c!"2000-02-29 09:05:00") = .ok ⟨2000, 2, 29, 9, 5, 0, 0⟩ ∧ parseDt (.str c!"2024-04-31 09:05:00") = .error .valueError := by
  decide +kernel

/-! ### The broker's report -/

private theorem digits_append {a b : Str} (h : ∀ c ∈ a ++ b, '0' ≤ c ∧ c ≤ '9') : (∀ c ∈ a, '0' ≤ c ∧ c ≤ '9') ∧ ∀ c ∈ b, '0' ≤ c ∧ c ≤ '9' :=
  ⟨fun c hc => h c (by simp [hc]), fun c hc => h c (by simp [hc])⟩

private theorem report_iff (s : Str) (d : DT) (hl : s.length = 14) (hs : ∀ c ∈ s, '0' ≤ c ∧ c ≤ '9') :
    strptime mCompact s = .ok d ↔ d.Digits14 s ∧ d.Exists := by
  rw [strptime_ok]
  constructor
  · rintro ⟨hh, he⟩
    refine ⟨?_, he⟩
    obtain ⟨y, r1, h1, h⟩ := mbind_mem (List.mem_of_head? hh)
    obtain ⟨mo, r3, h3, h⟩ := mbind_mem h
    obtain ⟨da, r5, h5, h⟩ := mbind_mem h
    obtain ⟨ho, r7, h7, h⟩ := mbind_mem h
    obtain ⟨mi, r9, h9, h⟩ := mbind_mem h
    obtain ⟨se, r11, h11, h⟩ := mbind_mem h
    simp only [List.mem_singleton, Prod.mk.injEq] at h
    obtain ⟨rfl, rfl⟩ := h
    obtain ⟨w1, rfl, l1, f1⟩ := fYear_mem h1
    obtain ⟨w3, rfl, f3⟩ := fMonth_mem h3
    obtain ⟨w5, rfl, f5⟩ := fDay_mem h5
    obtain ⟨w7, rfl, f7⟩ := fHour_mem h7
    obtain ⟨w9, rfl, f9⟩ := fMinute_mem h9
    obtain ⟨w11, rfl, f11⟩ := fSecond_mem h11
    have f5' : ClockField w5 32 da := by
      rcases f5 with f5 | ⟨c, rfl, f5⟩
      · exact f5
      · exact absurd (hs ' ' (by simp)) (by decide)
    simp only [List.length_append, List.length_nil, Nat.add_zero] at hl
    have g3 := f3.1; have g5 := f5'.1; have g7 := f7.1; have g9 := f9.1; have g11 := f11.1
    exact ⟨w1, w3, w5, w7, w9, w11, by simp, ⟨l1, f1⟩, ⟨by omega, (field_num f3).2⟩, ⟨by omega, (field_num f5').2⟩,
      ⟨by omega, (field_num f7).2⟩, ⟨by omega, (field_num f9).2⟩, ⟨by omega, (field_num f11).2⟩, rfl⟩
  · rintro ⟨⟨y, mo, da, ho, mi, se, rfl, ⟨l1, a1⟩, ⟨l2, a2⟩, ⟨l3, a3⟩, ⟨l4, a4⟩, ⟨l5, a5⟩, ⟨l6, a6⟩, hus⟩, he⟩
    refine ⟨?_, he⟩
    obtain ⟨b1, b2, b3, b4⟩ := exists_bounds he
    obtain ⟨b5, b6, b7, b8⟩ := he.time
    rw [(two_of l2 a2).1, (two_of l3 a3).1, (two_of l4 a4).1, (two_of l5 a5).1]
    refine mbind_head (fYear_head l1 a1) ?_
    refine mbind_head (fMonth_two _ b1 b2 _) ?_
    refine mbind_head (fDay_two _ b3 b4 _) ?_
    refine mbind_head (fHour_two _ b5 _) ?_
    refine mbind_head (fMinute_two _ b6 _) ?_
    have h6 := fSecond_head (r := []) (num_field ⟨Nat.le_of_eq l6, a6⟩ b7) noDigit_nil
    rw [List.append_nil] at h6
    refine mbind_head h6 ?_
    rw [← hus]; rfl

/-- The report line writes its time with eight digits for the date and six for the time of day. -/
def OrderLine.FullTime (l : OrderLine) : Prop :=
  l.orderDate.length = 8 ∧ l.orderTime.length = 6 ∧ ∀ c ∈ l.orderDate ++ l.orderTime, '0' ≤ c ∧ c ≤ '9'

/-- What an accepted report line gives as the time of the order: the moment whose fourteen digits it has, and this exists. -/
theorem c79_report_time (o : OrderInfo ν) (l : OrderLine) (hf : l.FullTime) (hok : (updateOrder o l).2 = .ok ()) :
    ∃ d : DT, d.Digits14 (l.orderDate ++ l.orderTime) ∧ d.Exists ∧ (updateOrder o l).1.entrustTime = some (.str d.full) := by
  have hlen : (l.orderDate ++ l.orderTime).length = 14 := by rw [List.length_append, hf.1, hf.2.1]
  cases ht : strptime mCompact (l.orderDate ++ l.orderTime) with
  | error e =>
    exfalso
    simp only [updateOrder, ht] at hok
    split at hok <;> cases hok
  | ok d =>
    obtain ⟨h1, h2⟩ := (report_iff _ d hlen hf.2.2).1 ht
    refine ⟨d, h1, h2, ?_⟩
    revert hok
    simp only [updateOrder, ht]
    repeat' split
    all_goals intro hok
    all_goals first | rfl | cases hok

/-- A line whose digits are those of no moment is refused, and leaves the time of the order. -/
theorem c79_report_refused (o : OrderInfo ν) (l : OrderLine) (hf : l.FullTime)
    (hno : ∀ d : DT, ¬ (d.Digits14 (l.orderDate ++ l.orderTime) ∧ d.Exists)) :
    (∃ e, (updateOrder o l).2 = .error e) ∧ (updateOrder o l).1.entrustTime = o.entrustTime ∧ (updateOrder o l).1.filled = o.filled := by
  have hlen : (l.orderDate ++ l.orderTime).length = 14 := by rw [List.length_append, hf.1, hf.2.1]
  cases ht : strptime mCompact (l.orderDate ++ l.orderTime) with
  | ok d => exact absurd ((report_iff _ d hlen hf.2.2).1 ht) (hno d)
  | error e =>
    simp only [updateOrder, ht]
    split <;> exact ⟨⟨_, rfl⟩, rfl, rfl⟩

/-- A line with the digits of a moment, and its other fields in order, gives the order that time; a process that reads the order
back has the moment again. -/
theorem c79_report_accepted (o : OrderInfo ν) (l : OrderLine) (d : DT) (hd : d.Digits14 (l.orderDate ++ l.orderTime)) (he : d.Exists)
    (st : ∃ st, (l.status, st) ∈ brokerStatuses) (h1 : pyInt l.filledQty ≠ none) (h2 : (GateNum.parse l.filledAmt : Option ν) ≠ none)
    (h3 : pyInt l.cancelQty ≠ none) (h4 : (GateNum.parse l.avgPrice : Option ν) ≠ none) :
    (updateOrder o l).2 = .ok () ∧ (updateOrder o l).1.entrustTime = some (.str d.full) ∧
    (1000 ≤ d.year → parseDt (.str d.full) = .ok d) := by
  have hs : strptime mCompact (l.orderDate ++ l.orderTime) = .ok d := by
    refine (report_iff _ d ?_ ?_).2 ⟨hd, he⟩
    · obtain ⟨y, mo, da, ho, mi, se, e, a1, a2, a3, a4, a5, a6, _⟩ := hd
      rw [e]; simp only [List.length_append]; omega
    · obtain ⟨y, mo, da, ho, mi, se, e, a1, a2, a3, a4, a5, a6, _⟩ := hd
      rw [e]
      intro c hc
      simp only [List.mem_append] at hc
      rcases hc with hc | hc | hc | hc | hc | hc
      · exact a1.2.2.1 c hc
      · exact a2.2.2.1 c hc
      · exact a3.2.2.1 c hc
      · exact a4.2.2.1 c hc
      · exact a5.2.2.1 c hc
      · exact a6.2.2.1 c hc
  obtain ⟨st, hst⟩ := st
  obtain ⟨x1, e1⟩ := Option.ne_none_iff_exists'.1 h1
  obtain ⟨x2, e2⟩ := Option.ne_none_iff_exists'.1 h2
  obtain ⟨x3, e3⟩ := Option.ne_none_iff_exists'.1 h3
  obtain ⟨x4, e4⟩ := Option.ne_none_iff_exists'.1 h4
  refine ⟨?_, ?_, fun hy => parseDtStr_full ((valid_iff d).2 he) hy⟩
  · simp only [updateOrder, hs, (c60_status_codes _ _).2 hst, e1, e2, e3, e4]
  · simp only [updateOrder, hs, (c60_status_codes _ _).2 hst, e1, e2, e3, e4]

private def exLine (date time : Str) : OrderLine := ⟨date, time, c!"2", c!"100", c!"10.5", c!"1050", c!"0", c!"N7", c!"7", []⟩

example : DT.Digits14 ⟨2024, 2, 29, 9, 30, 1, 0⟩ (c!"20240229" ++ c!"093001") ∧ DT.Exists ⟨2024, 2, 29, 9, 30, 1, 0⟩ ∧
    (exLine c!"20240229" c!"093001").FullTime ∧ (exLine c!"20230229" c!"093001").FullTime := by
  refine ⟨⟨c!"2024", c!"02", c!"29", c!"09", c!"30", c!"01", rfl, ?_⟩, (valid_iff _).1 (by decide), ?_⟩ <;>
    simp [Num, decimal, exLine, OrderLine.FullTime] <;> decide

/-! ### Times of day with the leading zero dropped -/

/-- A time of day of five digits is read right when its hour is 3 to 9. -/
theorem c79_five_digits (d : DT) (y mo da h mi se : Str) (he : d.Exists) (hus : d.us = 0)
    (hy : y.length = 4 ∧ Num y d.year) (hmo : mo.length = 2 ∧ Num mo d.month) (hda : da.length = 2 ∧ Num da d.day)
    (hh : h.length = 1 ∧ Num h d.hour) (h3 : 3 ≤ d.hour) (hmi : mi.length = 2 ∧ Num mi d.minute) (hse : se.length = 2 ∧ Num se d.second) :
    strptime mCompact (y ++ (mo ++ da) ++ (h ++ (mi ++ se))) = .ok d := by
  rw [strptime_ok]
  refine ⟨?_, he⟩
  obtain ⟨b1, b2, b3, b4⟩ := exists_bounds he
  obtain ⟨b5, b6, b7, b8⟩ := he.time
  match h, hh with
  | [a], hh =>
    have ha := dig_range.1 (hh.2.2.1 a (by simp))
    have hv : a.toNat - 48 = d.hour := by rw [← hh.2.2.2]; simp [decimal, show '0'.toNat = 48 from rfl]
    rw [(two_of hmo.1 hmo.2).1, (two_of hda.1 hda.2).1, (two_of hmi.1 hmi.2).1, List.append_assoc, List.append_assoc]
    refine mbind_head (fYear_head hy.1 hy.2) ?_
    refine mbind_head (fMonth_two _ b1 b2 _) ?_
    refine mbind_head (fDay_two _ b3 b4 _) ?_
    have hhour : (fHour ([a] ++ (two d.minute ++ se))).head? = some (d.hour, two d.minute ++ se) := by
      simp only [fHour, two, List.cons_append, List.nil_append]
      rw [twoAlt_no (fun h => by have := of_decide_eq_true h.1; subst this; simp at hv; omega),
        twoAlt_no (fun h => by
          have : 48 ≤ a.toNat ∧ a.toNat ≤ 49 := inR_iff.1 h.1
          omega), oneAlt_yes (isDig_nat.2 ha), hv]
      rfl
    refine mbind_head hhour ?_
    refine mbind_head (fMinute_two _ b6 _) ?_
    have h6 := fSecond_head (r := []) (num_field ⟨Nat.le_of_eq hse.1, hse.2⟩ b7) noDigit_nil
    rw [List.append_nil] at h6
    refine mbind_head h6 ?_
    rw [← hus]; rfl

/-- Half past nine. -/
example : strptime mCompact (c!"2024" ++ (c!"02" ++ c!"29") ++ (c!"9" ++ (c!"30" ++ c!"05"))) = .ok ⟨2024, 2, 29, 9, 30, 5, 0⟩ := by
  have num : ∀ (w : Str) (n : Nat), w ≠ [] ∧ w.all (fun c => decide ('0' ≤ c) && decide (c ≤ '9')) = true ∧ decimal w = n → Num w n :=
    fun w n h => ⟨h.1, fun c hc => by simpa using List.all_eq_true.1 h.2.1 c hc, h.2.2⟩
  refine c79_five_digits ⟨2024, 2, 29, 9, 30, 5, 0⟩ _ _ _ _ _ _ ?_ rfl ⟨rfl, num _ _ ?_⟩ ⟨rfl, num _ _ ?_⟩ ⟨rfl, num _ _ ?_⟩ ⟨rfl, num _ _ ?_⟩
    (by decide) ⟨rfl, num _ _ ?_⟩ ⟨rfl, num _ _ ?_⟩
  · constructor <;> decide
  all_goals decide

/-- With an hour of 1 or 2 it is not: one o'clock is read as ten, and one minute and three seconds past midnight as one hour and three seconds. -/
theorem c79_five_digits_witness :
    strptime mCompact (c!"20240102" ++ c!"10000") = .ok ⟨2024, 1, 2, 10, 0, 0, 0⟩ ∧
    strptime mCompact (c!"20240102" ++ c!"103") = .ok ⟨2024, 1, 2, 1, 0, 3, 0⟩ ∧
    -- a date that does not exist is taken for another
    strptime mCompact (c!"20241301" ++ c!"93000") = .ok ⟨2024, 1, 30, 19, 30, 0, 0⟩ := by
  decide +kernel

end Jq
