import Verif.Model.PyNumber
import Verif.Lemmas.FloatText
import Verif.Lemmas.Store
/-! # Python's numbers in the data file -/
namespace Jq

theorem natStr_head_ne_zero {m : Nat} (h : m ≠ 0) : (natStr m).head? ≠ some '0' := fun e => h (natStr_head_zero m e)

/-- What `repr` writes is a number of JSON, with a point or an exponent. -/
theorem reprDigits_json {ds : Str} {pt : Int} (hd : DigitsOnly ds) (h0 : ds ≠ []) (hz : ds.head? ≠ some '0') :
    NumberText (reprDigits ds pt) ∧ (reprDigits ds pt).any (fun c => c = '.' || c = 'e' || c = 'E') = true := by
  have dt : ∀ s : Str, DigitsOnly s → s ≠ [] → DigitsText s := fun s h hn => (digitsText_iff s).2 ⟨hn, (digitsOnly_iff s).1 h⟩
  unfold reprDigits
  split
  · split
    · refine ⟨.inr (.inr (.inr ⟨[], ['0'], '.' :: (List.replicate (-pt).toNat '0' ++ ds), [], by simp, .inl rfl, ⟨by exact ⟨by simp, by decide⟩, fun _ => rfl⟩,
        .inr ⟨_, rfl, dt _ (digitsOnly_append (digitsOnly_zeros _) hd) (by simp [h0])⟩, .inl rfl⟩)), by simp⟩
    · split
      · refine ⟨.inr (.inr (.inr ⟨[], ds ++ List.replicate (pt.toNat - ds.length) '0', '.' :: ['0'], [], by simp, .inl rfl,
          ⟨dt _ (digitsOnly_append hd (digitsOnly_zeros _)) (by simp [h0]), fun h => ?_⟩, .inr ⟨['0'], rfl, by exact ⟨by simp, by decide⟩⟩, .inl rfl⟩)), by simp⟩
        cases ds with
        | nil => exact absurd rfl h0
        | cons c ds => exact absurd h hz
      · rename_i h1 h2 h3
        have ht : DigitsOnly (ds.take pt.toNat) := fun c hc => hd c (List.mem_of_mem_take hc)
        have hr : DigitsOnly (ds.drop pt.toNat) := fun c hc => hd c (List.mem_of_mem_drop hc)
        refine ⟨.inr (.inr (.inr ⟨[], ds.take pt.toNat, '.' :: ds.drop pt.toNat, [], by simp, .inl rfl, ⟨dt _ ht ?_, fun h => ?_⟩,
          .inr ⟨_, rfl, dt _ hr ?_⟩, .inl rfl⟩)), by simp⟩
        · intro e
          rcases List.take_eq_nil_iff.1 e with e | e
          · omega
          · exact h0 e
        · rw [List.head?_take, if_neg (by omega)] at h
          exact absurd h hz
        · intro e
          have := List.drop_eq_nil_iff.1 e
          omega
  · have ht : DigitsOnly (ds.take 1) := fun c hc => hd c (List.mem_of_mem_take hc)
    have hr : DigitsOnly (ds.drop 1) := fun c hc => hd c (List.mem_of_mem_drop hc)
    have hes : DigitsText (if (natStr (pt - 1).natAbs).length < 2 then '0' :: natStr (pt - 1).natAbs else natStr (pt - 1).natAbs) := by
      split
      · exact dt _ (digitsOnly_append digitsOnly_zero ((digitsOnly_iff _).2 (natStr_digits _))) (by simp)
      · exact dt _ ((digitsOnly_iff _).2 (natStr_digits _)) (natStr_ne_nil _)
    refine ⟨.inr (.inr (.inr ⟨[], ds.take 1, if ds.length ≤ 1 then [] else '.' :: ds.drop 1, _, by simp, .inl rfl, ⟨dt _ ht ?_, fun h => ?_⟩, ?_,
      .inr ⟨'e', [if pt - 1 < 0 then '-' else '+'], _, rfl, .inl rfl, ?_, hes⟩⟩)), ?_⟩
    · intro e
      rcases List.take_eq_nil_iff.1 e with e | e
      · omega
      · exact h0 e
    · rw [List.head?_take, if_neg (by omega)] at h
      exact absurd h hz
    · split
      · exact .inl rfl
      · rename_i hl
        exact .inr ⟨_, rfl, dt _ hr fun e => hl (List.drop_eq_nil_iff.1 e)⟩
    · split
      · exact .inr (.inr rfl)
      · exact .inr (.inl rfl)
    · simp

theorem reprUnits_json {n : Nat} (hn : isDouble n = true) :
    NumberText (reprUnits n) ∧ (reprUnits n).any (fun c => c = '.' || c = 'e' || c = 'E') = true := by
  unfold reprUnits
  split
  · refine ⟨.inr (.inr (.inr ⟨[], ['0'], c!".0", [], rfl, .inl rfl, ⟨⟨by simp, by decide⟩, fun _ => rfl⟩, .inr ⟨_, rfl, ⟨by simp, by decide⟩⟩, .inl rfl⟩)), by decide⟩
  · rename_i h0
    obtain ⟨z, hz, h1, h2⟩ := shortest_digits hn tens_pos unit1_dvd_tens h0 topTen
    have hr := shortest_read hn tens_pos unit1_dvd_tens topTen
    generalize shortest unit1 tens n topTen = x at *
    obtain ⟨c, j⟩ := x
    simp only at *
    refine reprDigits_json h2 h1 fun e => ?_
    have hc : c = 0 := by
      refine natStr_head_zero c ?_
      rw [hz]
      cases hd : dropZeros (natStr c) with
      | nil => exact absurd hd h1
      | cons a l => rw [hd] at e; exact e
    rw [hc, readTen_zero] at hr
    exact h0 hr.symm

theorem neg_json {s : Str} (h : NumberText s) (hd : ∀ c ∈ s.head?, isDig c = true) : NumberText ('-' :: s) := by
  rcases h with rfl | rfl | rfl | ⟨minus, whole, frac, ex, rfl, hm, hw, hf, he⟩
  · exact absurd (hd 'N' rfl) (by decide)
  · exact absurd (hd 'I' rfl) (by decide)
  · exact absurd (hd '-' rfl) (by decide)
  · rcases hm with rfl | rfl
    · exact .inr (.inr (.inr ⟨['-'], whole, frac, ex, rfl, .inr rfl, hw, hf, he⟩))
    · exact absurd (hd '-' rfl) (by decide)

theorem number_dec_head {s : Str} {d : Nat} {e : Int} (h : NumberText s) (hd : DecText s d e) : ∀ c ∈ s.head?, isDig c = true := by
  obtain ⟨c, r, rfl, hc⟩ := dec_head hd
  intro x hx
  simp at hx
  subst hx
  rcases hc with hc | rfl
  · exact hc
  · obtain ⟨c, l, h1, h2⟩ := number_head h
    obtain ⟨rfl, rfl⟩ := List.cons.inj h1
    revert h2
    decide

theorem dbl_json (neg : Bool) (n : Nat) (ok : isDouble n = true) :
    NumberText (Dbl.fin neg n ok).repr ∧ (Dbl.fin neg n ok).repr.any (fun c => c = '.' || c = 'e' || c = 'E') = true := by
  obtain ⟨h1, h2⟩ := reprUnits_json ok
  obtain ⟨d, e, hd, -⟩ := reprUnits_dec ok
  cases neg with
  | false => exact ⟨h1, h2⟩
  | true => exact ⟨neg_json h1 (number_dec_head h1 hd), by rw [Dbl.repr, if_pos rfl, List.any_append, h2]; simp⟩

theorem int_no_point (n : Int) : (intStr n).any (fun c => c = '.' || c = 'e' || c = 'E') = false := by
  have h : ∀ m, ∀ c ∈ natStr m, ¬ (c = '.' || c = 'e' || c = 'E') = true := by
    intro m c hc
    have := natStr_digits m c hc
    simp only [Bool.or_eq_true, decide_eq_true_eq]
    rintro ((rfl | rfl) | rfl) <;> revert this <;> decide
  rw [List.any_eq_false]
  unfold intStr
  split
  · intro c hc
    rcases List.mem_cons.1 hc with rfl | hc
    · decide
    · exact h _ c hc
  · exact h _

theorem intStr_names (n : Int) : intStr n ≠ c!"NaN" ∧ intStr n ≠ c!"Infinity" ∧ intStr n ≠ c!"-Infinity" := by
  have h := intStr_lexeme n
  have hd : ∀ m, ∀ c ∈ natStr m, isDig c = true := natStr_digits
  have key : ∀ s : Str, (∃ c ∈ s, isDig c = false ∧ c ≠ '-') → intStr n ≠ s := by
    rintro s ⟨c, hc, h1, h2⟩ rfl
    unfold intStr at hc
    split at hc
    · rcases List.mem_cons.1 hc with rfl | hc
      · exact h2 rfl
      · rw [hd _ c hc] at h1; cases h1
    · rw [hd _ c hc] at h1; cases h1
  exact ⟨key _ ⟨'N', by decide, by decide, by decide⟩, key _ ⟨'I', by decide, by decide, by decide⟩, key _ ⟨'I', by decide, by decide, by decide⟩⟩

theorem dbl_names (neg : Bool) (n : Nat) (ok : isDouble n = true) :
    (Dbl.fin neg n ok).repr ≠ c!"NaN" ∧ (Dbl.fin neg n ok).repr ≠ c!"Infinity" ∧ (Dbl.fin neg n ok).repr ≠ c!"-Infinity" := by
  have h := (dbl_json neg n ok).2
  refine ⟨?_, ?_, ?_⟩ <;> intro e <;> rw [e] at h <;> exact absurd h (by decide)

theorem json_read (x : PNum) : PNum.ofJson x.json = some x := by
  cases x with
  | int n =>
    obtain ⟨h1, h2, h3⟩ := intStr_names n
    rw [PNum.json, PNum.ofJson, if_neg h1, if_neg h2, if_neg h3, int_no_point, if_neg (by simp), pyInt_intStr]
    rfl
  | flt x =>
    cases x with
    | nan => decide
    | inf neg => cases neg <;> decide
    | fin neg n ok =>
      obtain ⟨h1, h2, h3⟩ := dbl_names neg n ok
      rw [PNum.json, PNum.ofJson, if_neg h1, if_neg h2, if_neg h3, if_pos (dbl_json neg n ok).2, pyFloat_repr]
      rfl
      all_goals simp

instance : LawfulJsonNum PNum where
  lexeme := by
    intro x l h
    cases h
    cases x with
    | int n => exact intStr_lexeme n
    | flt x =>
      cases x with
      | nan => exact .inl rfl
      | inf neg => cases neg <;> simp [PNum.json, NumberText]
      | fin neg n ok => exact (dbl_json neg n ok).1
  readBack := by
    intro x l h
    cases h
    exact json_read x

end Jq
