import Verif.Py.Time
import Verif.Lemmas.NatStr
namespace Jq

theorem head_flatMap {α β : Type} {l : List α} {x : α} {f : α → List β} {y : β} (h : l.head? = some x)
    (hf : (f x).head? = some y) : (l.flatMap f).head? = some y := by
  cases l with
  | nil => cases h
  | cons a l =>
    simp only [List.head?_cons, Option.some.injEq] at h
    subst h
    rw [List.flatMap_cons, List.head?_append, hf]
    rfl

theorem head_mbind {α β : Type} {m : Str → Matches α} {f : α → Str → Matches β} {s r : Str} {v : α} {y : β × Str}
    (h : (m s).head? = some (v, r)) (hf : (f v r).head? = some y) : (mbind m f s).head? = some y :=
  head_flatMap h hf

theorem twoAlt_two (p q : Char → Bool) (n : Nat) (hn : n < 100) (r : Str) :
    twoAlt p q (two n ++ r) = if p (digChar (n / 10)) && q (digChar (n % 10)) then [(n, r)] else [] := by
  simp only [two, List.cons_append, List.nil_append, twoAlt]
  rw [(digChar_spec (n / 10) (by omega)).2, (digChar_spec (n % 10) (by omega)).2]
  congr 3
  omega

theorem fMonth_two (n : Nat) (h1 : 1 ≤ n) (h2 : n ≤ 12) (r : Str) : (fMonth (two n ++ r)).head? = some (n, r) := by
  have key : ∀ k : Fin 13, 1 ≤ k.1 → (((digChar (k.1 / 10) == '1') && inR '0' '2' (digChar (k.1 % 10))) = true ∨
      ((digChar (k.1 / 10) == '0') && inR '1' '9' (digChar (k.1 % 10))) = true) := by decide
  simp only [fMonth, twoAlt_two _ _ n (by omega : n < 100)]
  rcases key ⟨n, by omega⟩ h1 with h | h
  · simp only at h; rw [if_pos h]; rfl
  · simp only at h
    rw [if_pos h]
    split <;> rfl

theorem fDay_two (n : Nat) (h1 : 1 ≤ n) (h2 : n ≤ 31) (r : Str) : (fDay (two n ++ r)).head? = some (n, r) := by
  have key : ∀ k : Fin 32, 1 ≤ k.1 → (((digChar (k.1 / 10) == '3') && inR '0' '1' (digChar (k.1 % 10))) = true ∨
      (inR '1' '2' (digChar (k.1 / 10)) && isDig (digChar (k.1 % 10))) = true ∨
      ((digChar (k.1 / 10) == '0') && inR '1' '9' (digChar (k.1 % 10))) = true) := by decide
  simp only [fDay, twoAlt_two _ _ n (by omega : n < 100)]
  rcases key ⟨n, by omega⟩ h1 with h | h | h
  · simp only at h; rw [if_pos h]; rfl
  · simp only at h
    rw [if_pos h]
    split <;> rfl
  · simp only at h
    rw [if_pos h]
    split <;> split <;> rfl

theorem fHour_two (n : Nat) (h2 : n < 24) (r : Str) : (fHour (two n ++ r)).head? = some (n, r) := by
  have key : ∀ k : Fin 24, (((digChar (k.1 / 10) == '2') && inR '0' '3' (digChar (k.1 % 10))) = true ∨
      (inR '0' '1' (digChar (k.1 / 10)) && isDig (digChar (k.1 % 10))) = true) := by decide
  simp only [fHour, twoAlt_two _ _ n (by omega : n < 100)]
  rcases key ⟨n, by omega⟩ with h | h
  · simp only at h; rw [if_pos h]; rfl
  · simp only at h
    rw [if_pos h]
    split <;> rfl

theorem fMinute_two (n : Nat) (h2 : n < 60) (r : Str) : (fMinute (two n ++ r)).head? = some (n, r) := by
  have key : ∀ k : Fin 60, (inR '0' '5' (digChar (k.1 / 10)) && isDig (digChar (k.1 % 10))) = true := by decide
  simp only [fMinute, twoAlt_two _ _ n (by omega : n < 100)]
  have h := key ⟨n, by omega⟩
  simp only at h
  rw [if_pos h]
  rfl

theorem fSecond_two (n : Nat) (h2 : n < 60) (r : Str) : (fSecond (two n ++ r)).head? = some (n, r) := by
  have key : ∀ k : Fin 60, ((digChar (k.1 / 10) == '6') && inR '0' '1' (digChar (k.1 % 10))) = false ∧
    (inR '0' '5' (digChar (k.1 / 10)) && isDig (digChar (k.1 % 10))) = true := by decide
  simp only [fSecond, twoAlt_two _ _ n (by omega : n < 100)]
  have h := key ⟨n, by omega⟩
  simp only at h
  rw [if_pos h.2, h.1]
  rfl

theorem fLit_self (c : Char) (r : Str) : (fLit c (c :: r)).head? = some ((), r) := by simp [fLit]

theorem isDig_not_space {c : Char} (h : isDig c = true) : isSpace c = false := by
  simp only [isDig, Bool.and_eq_true, decide_eq_true_eq] at h
  have h0 : 48 ≤ c.toNat := h.1
  have h1 : c.toNat ≤ 57 := h.2
  simp only [isSpace, Bool.or_eq_false_iff, Bool.and_eq_false_iff, decide_eq_false_iff_not]
  omega

theorem fSpace_one {c : Char} (h : isDig c = true) (r : Str) : (fSpace (' ' :: c :: r)).head? = some ((), c :: r) := by
  have h' := isDig_not_space h
  simp [fSpace, h', show isSpace ' ' = true by decide]

theorem digits_four (y : Nat) (h1 : 1000 ≤ y) (h2 : y ≤ 9999) : (natStr y).length = 4 := by
  rw [natStr_eq, if_neg (by omega), natStr_eq, if_neg (by omega), natStr_eq, if_neg (by omega), natStr_eq,
    if_pos (by omega)]
  rfl

theorem fYear_natStr (y : Nat) (h1 : 1000 ≤ y) (h2 : y ≤ 9999) (r : Str) :
    (fYear (natStr y ++ r)).head? = some (y, r) := by
  have hl := digits_four y h1 h2
  have ht : (natStr y ++ r).take 4 = natStr y := by rw [← hl, List.take_left]
  have hd : (natStr y ++ r).drop 4 = r := by rw [← hl, List.drop_left]
  simp only [fYear, ht, hd, hl, natOfDigits_natStr]
  rw [if_pos]
  · rfl
  · simp only [decide_true, Bool.true_and, List.all_eq_true]
    exact natStr_digits y

theorem two_all (n : Nat) (h : n < 100) : (two n).all isDig = true := by
  simp [two, (digChar_spec (n / 10) (by omega)).1, (digChar_spec (n % 10) (by omega)).1]

theorem six_length (n : Nat) : (six n).length = 6 := rfl

theorem six_all (n : Nat) (h : n < 1000000) : (six n).all isDig = true := by
  simp only [six, List.all_append, two_all _ (by omega : n / 10000 < 100), two_all _ (by omega : n / 100 % 100 < 100),
    two_all _ (by omega : n % 100 < 100), Bool.and_self]

theorem natOfDigits_six (n : Nat) (h : n < 1000000) : natOfDigits (six n) = n := by
  simp only [six, two, natOfDigits, List.cons_append, List.nil_append, List.foldl_cons, List.foldl_nil]
  rw [(digChar_spec (n / 10000 / 10) (by omega)).2, (digChar_spec (n / 10000 % 10) (by omega)).2,
    (digChar_spec (n / 100 % 100 / 10) (by omega)).2, (digChar_spec (n / 100 % 100 % 10) (by omega)).2,
    (digChar_spec (n % 100 / 10) (by omega)).2, (digChar_spec (n % 100 % 10) (by omega)).2]
  omega

theorem fMicro_six (n : Nat) (h : n < 1000000) (r : Str) : (fMicro (six n ++ r)).head? = some (n, r) := by
  have ht : (six n ++ r).take 6 = six n := by rw [← six_length n, List.take_left]
  have hd : (six n ++ r).drop 6 = r := by rw [← six_length n, List.drop_left]
  simp only [fMicro, List.filterMap_cons]
  rw [ht, hd, if_pos (by simp [six_length, six_all n h])]
  simp [natOfDigits_six n h]

theorem valid_fields {d : DT} (h : d.valid = true) :
    1 ≤ d.year ∧ d.year ≤ 9999 ∧ 1 ≤ d.month ∧ d.month ≤ 12 ∧ 1 ≤ d.day ∧ d.day ≤ daysInMonth d.year d.month ∧
    d.hour < 24 ∧ d.minute < 60 ∧ d.second < 60 ∧ d.us < 1000000 := by
  simp only [DT.valid, Bool.and_eq_true, decide_eq_true_eq] at h
  omega

theorem daysInMonth_le (y m : Nat) : daysInMonth y m ≤ 31 := by
  simp only [daysInMonth]; split
  · split <;> omega
  · split <;> omega

/-- `strptime(strftime(d)) = d` for the format with microseconds. -/
theorem parseDtStr_full {d : DT} (h : d.valid = true) (hy : 1000 ≤ d.year) : parseDtStr d.full = .ok d := by
  obtain ⟨_, h2, h3, h4, h5, h6, h7, h8, h9, h10⟩ := valid_fields h
  have hd := Nat.le_trans h6 (daysInMonth_le _ _)
  have hdot : '.' ∈ d.full := by simp [DT.full]
  rw [parseDtStr, if_pos hdot, strptime]
  have hm : (mDateTime mFrac d.full).head? = some (d, []) := by
    simp only [mDateTime, DT.full]
    refine head_mbind (fYear_natStr _ hy h2 _) ?_
    refine head_mbind (fLit_self _ _) ?_
    refine head_mbind (fMonth_two _ h3 h4 _) ?_
    refine head_mbind (fLit_self _ _) ?_
    refine head_mbind (fDay_two _ h5 hd _) ?_
    refine head_mbind (fSpace_one (digChar_spec (d.hour / 10) (by omega)).1 _) ?_
    refine head_mbind (fHour_two d.hour h7 _) ?_
    refine head_mbind (fLit_self _ _) ?_
    refine head_mbind (fMinute_two _ h8 _) ?_
    refine head_mbind (fLit_self _ _) ?_
    refine head_mbind (fSecond_two _ h9 _) ?_
    have hf : (mFrac ('.' :: six d.us)).head? = some (d.us, []) := by
      refine head_mbind (fLit_self _ _) ?_
      have := fMicro_six d.us h10 []
      rwa [List.append_nil] at this
    refine head_mbind hf ?_
    rfl
  rw [hm]
  simp [h]

/-- The date and the time of day to the second. -/
def DT.secs (d : DT) : Str :=
  natStr d.year ++ '-' :: (two d.month ++ '-' :: (two d.day ++ ' ' :: (two d.hour ++ ':' :: (two d.minute ++
    ':' :: two d.second))))

theorem fMicro_digits (ds : Str) (h0 : 0 < ds.length) (h6 : ds.length ≤ 6) (hd : ds.all isDig = true) :
    (fMicro ds).head? = some (natOfDigits ds * 10 ^ (6 - ds.length), []) := by
  have key : ∀ k, ds.length < k → ¬ ((ds.take k).length = k) := by
    intro k hk; rw [List.length_take]; omega
  have hit : (if (ds.take ds.length).length = ds.length && (ds.take ds.length).all isDig then
      some (natOfDigits (ds.take ds.length) * 10 ^ (6 - ds.length), ds.drop ds.length) else none) =
      some (natOfDigits ds * 10 ^ (6 - ds.length), []) := by
    simp [hd]
  generalize hn : ds.length = n at *
  have hn' : n = 6 ∨ n = 5 ∨ n = 4 ∨ n = 3 ∨ n = 2 ∨ n = 1 := by omega
  rcases hn' with rfl | rfl | rfl | rfl | rfl | rfl
  all_goals
    simp only [fMicro, List.filterMap_cons]
    repeat (first | (rw [hit]; rfl) | rw [if_neg (by simp only [Bool.and_eq_true, decide_eq_true_eq, not_and]; exact fun e => absurd e (key _ (by omega)))])

private theorem secs_then {d : DT} (h : d.valid = true) (hy : 1000 ≤ d.year) (m : Str → Matches Nat) (rest : Str) (us : Nat)
    (hm : (m rest).head? = some (us, [])) (hus : us = d.us) :
    (mDateTime m (d.secs ++ rest)).head? = some (d, []) := by
  obtain ⟨_, h2, h3, h4, h5, h6, h7, h8, h9, h10⟩ := valid_fields h
  have hd := Nat.le_trans h6 (daysInMonth_le _ _)
  simp only [mDateTime, DT.secs, List.append_assoc, List.cons_append]
  refine head_mbind (fYear_natStr _ hy h2 _) ?_
  refine head_mbind (fLit_self _ _) ?_
  refine head_mbind (fMonth_two _ h3 h4 _) ?_
  refine head_mbind (fLit_self _ _) ?_
  refine head_mbind (fDay_two _ h5 hd _) ?_
  refine head_mbind (fSpace_one (digChar_spec (d.hour / 10) (by omega)).1 _) ?_
  refine head_mbind (fHour_two d.hour h7 _) ?_
  refine head_mbind (fLit_self _ _) ?_
  refine head_mbind (fMinute_two _ h8 _) ?_
  refine head_mbind (fLit_self _ _) ?_
  refine head_mbind (fSecond_two _ h9 _) ?_
  refine head_mbind hm ?_
  rw [hus]; rfl

/-- `strptime` of a datetime written with one to six digits of a fraction. -/
theorem parseDtStr_frac {d : DT} (h : d.valid = true) (hy : 1000 ≤ d.year) (ds : Str) (h0 : 0 < ds.length)
    (h6 : ds.length ≤ 6) (hd : ds.all isDig = true) (hus : d.us = natOfDigits ds * 10 ^ (6 - ds.length)) :
    parseDtStr (d.secs ++ '.' :: ds) = .ok d := by
  rw [parseDtStr, if_pos (by simp), strptime, secs_then h hy mFrac ('.' :: ds) _ (head_mbind (fLit_self _ _) (fMicro_digits ds h0 h6 hd)) hus.symm]
  simp [h]

theorem dig_ne_dot {c : Char} (h : isDig c = true) : c ≠ '.' := by
  rintro rfl; revert h; decide

/-- … and without a fraction. -/
theorem parseDtStr_secs {d : DT} (h : d.valid = true) (hy : 1000 ≤ d.year) (hus : d.us = 0) : parseDtStr d.secs = .ok d := by
  obtain ⟨_, h2, h3, h4, h5, h6, h7, h8, h9, h10⟩ := valid_fields h
  have hd := Nat.le_trans h6 (daysInMonth_le _ _)
  have htwo : ∀ n, n < 100 → '.' ∉ two n := fun n hn hm => dig_ne_dot (List.all_eq_true.1 (two_all n hn) _ hm) rfl
  have hyr : '.' ∉ natStr d.year := fun hm => dig_ne_dot (natStr_digits d.year _ hm) rfl
  have hdot : '.' ∉ d.secs := by
    simp only [DT.secs, List.mem_append, List.mem_cons, not_or]
    refine ⟨hyr, by decide, htwo _ (by omega), by decide, htwo _ (by omega), by decide, htwo _ (by omega), by decide,
      htwo _ (by omega), by decide, htwo _ (by omega)⟩
  have := secs_then h hy mNone [] 0 rfl hus.symm
  rw [List.append_nil] at this
  rw [parseDtStr, if_neg hdot, strptime, this]
  simp [h]

/-- The format without separators. -/
theorem strptime_compact {d : DT} (h : d.valid = true) (hy : 1000 ≤ d.year) (hus : d.us = 0) :
    strptime mCompact (d.ymd ++ (two d.hour ++ (two d.minute ++ two d.second))) = .ok d := by
  obtain ⟨_, h2, h3, h4, h5, h6, h7, h8, h9, h10⟩ := valid_fields h
  have hd := Nat.le_trans h6 (daysInMonth_le _ _)
  rw [strptime]
  have hm : (mCompact (d.ymd ++ (two d.hour ++ (two d.minute ++ two d.second)))).head? = some (d, []) := by
    simp only [mCompact, DT.ymd, List.append_assoc]
    refine head_mbind (fYear_natStr _ hy h2 _) ?_
    refine head_mbind (fMonth_two _ h3 h4 _) ?_
    refine head_mbind (fDay_two _ h5 hd _) ?_
    refine head_mbind (fHour_two d.hour h7 _) ?_
    refine head_mbind (fMinute_two _ h8 _) ?_
    have hs : (fSecond (two d.second)).head? = some (d.second, []) := by
      have := fSecond_two d.second h9 []
      rwa [List.append_nil] at this
    refine head_mbind hs ?_
    cases d
    simp only at hus
    subst hus
    rfl
  rw [hm]
  simp [h]

end Jq
