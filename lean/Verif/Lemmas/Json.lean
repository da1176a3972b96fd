import Verif.Lemmas.JsonStr
import Verif.Lemmas.JsonNum
/-! The JSON reader reads exactly the JSON texts. -/
namespace Jq

theorem isJsonSpace_iff (c : Char) : isJsonSpace c = true ↔ c = ' ' ∨ c = '\t' ∨ c = '\n' ∨ c = '\r' := by simp [isJsonSpace]

theorem skipSpace_space {w : Str} (h : SpaceText w) (s : Str) : skipSpace (w ++ s) = skipSpace s := by
  induction w with
  | nil => rfl
  | cons c w ih =>
    have hc : isJsonSpace c = true := (isJsonSpace_iff c).2 (h c (by simp))
    rw [List.cons_append, skipSpace, List.dropWhile_cons_of_pos hc]
    exact ih fun d hd => h d (by simp [hd])

theorem skipSpace_self {c : Char} {s : Str} (h : isJsonSpace c = false) : skipSpace (c :: s) = c :: s := by
  simp [skipSpace, h]

theorem skipSpace_split (s : Str) : ∃ w, s = w ++ skipSpace s ∧ SpaceText w := by
  refine ⟨s.takeWhile isJsonSpace, List.takeWhile_append_dropWhile.symm, fun c hc => ?_⟩
  have := List.all_takeWhile (p := isJsonSpace) (l := s)
  rw [List.all_eq_true] at this
  exact (isJsonSpace_iff c).1 (this c hc)

theorem skipSpace_nil {s : Str} (h : skipSpace s = []) : SpaceText s := by
  obtain ⟨w, h1, h2⟩ := skipSpace_split s
  rw [h, List.append_nil] at h1
  rw [h1]; exact h2

/-! ## Every text that is read is a JSON text -/

mutual
theorem parseVal_sound (n : Nat) (p : Str) (v : JV) (r : Str) (h : parseVal n p = some (v, r)) : ∃ s, p = s ++ r ∧ JsonText v s := by
  cases n with
  | zero => rw [parseVal] at h; cases h
  | succ n =>
    cases p with
    | nil => rw [parseVal] at h; cases h
    | cons c s =>
      rw [parseVal] at h
      split at h
      · rename_i hc
        subst hc
        cases hs : scanStr s with
        | none => rw [hs] at h; cases h
        | some x =>
          rw [hs] at h
          simp only [Option.map_some, Option.some.injEq, Prod.mk.injEq] at h
          obtain ⟨rfl, rfl⟩ := h
          obtain ⟨b, rfl, hb⟩ := (scanStr_iff s x.1 x.2).1 hs
          exact ⟨_, by rw [List.cons_append, List.append_assoc]; rfl, .str _ b hb⟩
      split at h
      · rename_i _ hc
        subst hc
        obtain ⟨w, hw1, hw2⟩ := skipSpace_split s
        cases hs : skipSpace s with
        | nil => rw [hs] at h; cases h
        | cons d t =>
          rw [hs] at h hw1
          subst hw1
          simp only at h
          split at h
          · rename_i hd
            subst hd
            simp only [Option.some.injEq, Prod.mk.injEq] at h
            obtain ⟨rfl, rfl⟩ := h
            exact ⟨_, by rw [List.cons_append, List.append_assoc]; rfl, .noMembers w hw2⟩
          split at h
          · rename_i _ hd
            subst hd
            cases hm : parseMembers n t with
            | none => rw [hm] at h; cases h
            | some x =>
              rw [hm] at h
              simp only [Option.map_some, Option.some.injEq, Prod.mk.injEq] at h
              obtain ⟨rfl, rfl⟩ := h
              obtain ⟨b, h1, h2⟩ := parseMembers_sound n t x.1 x.2 hm
              exact ⟨'{' :: ((w ++ '"' :: b) ++ ['}']), by rw [h1 w]; simp only [List.cons_append, List.append_assoc, List.nil_append], .obj _ _ (h2 w hw2)⟩
          · cases h
      split at h
      · rename_i _ _ hc
        subst hc
        obtain ⟨w, hw1, hw2⟩ := skipSpace_split s
        cases hs : skipSpace s with
        | nil => rw [hs] at h; cases h
        | cons d t =>
          rw [hs] at h hw1
          subst hw1
          simp only at h
          split at h
          · rename_i hd
            subst hd
            simp only [Option.some.injEq, Prod.mk.injEq] at h
            obtain ⟨rfl, rfl⟩ := h
            exact ⟨_, by rw [List.cons_append, List.append_assoc]; rfl, .noItems w hw2⟩
          · cases hm : parseArray n (d :: t) with
            | none => rw [hm] at h; cases h
            | some x =>
              rw [hm] at h
              simp only [Option.map_some, Option.some.injEq, Prod.mk.injEq] at h
              obtain ⟨rfl, rfl⟩ := h
              obtain ⟨b, h1, h2⟩ := parseArray_sound n (d :: t) x.1 x.2 hm
              exact ⟨_, by rw [h1, List.cons_append, List.append_assoc, List.append_assoc]; rfl, .arr _ _ (h2 w hw2)⟩
      split at h
      · rename_i hp
        simp only [Option.some.injEq, Prod.mk.injEq] at h
        obtain ⟨rfl, rfl⟩ := h
        exact ⟨_, prefix_drop hp, .null⟩
      split at h
      · rename_i hp
        simp only [Option.some.injEq, Prod.mk.injEq] at h
        obtain ⟨rfl, rfl⟩ := h
        exact ⟨_, prefix_drop hp, .yes⟩
      split at h
      · rename_i hp
        simp only [Option.some.injEq, Prod.mk.injEq] at h
        obtain ⟨rfl, rfl⟩ := h
        exact ⟨_, prefix_drop hp, .no⟩
      obtain ⟨l, rfl, h1, h2⟩ := scanNum_sound h
      exact ⟨l, h1, .num l h2⟩
theorem parseArray_sound (n : Nat) (p : Str) (vs : List JV) (r : Str) (h : parseArray n p = some (vs, r)) :
    ∃ s, p = s ++ ']' :: r ∧ ∀ w, SpaceText w → ItemsText vs (w ++ s) := by
  cases n with
  | zero => rw [parseArray] at h; cases h
  | succ n =>
    rw [parseArray] at h
    cases h1 : parseVal n p with
    | none => rw [h1] at h; cases h
    | some x =>
      obtain ⟨v, s1⟩ := x
      rw [h1] at h
      obtain ⟨s, rfl, hs⟩ := parseVal_sound n p v s1 h1
      obtain ⟨w2, hw1, hw2⟩ := skipSpace_split s1
      simp only at h
      cases h2 : skipSpace s1 with
      | nil => rw [h2] at h; cases h
      | cons d s2 =>
        rw [h2] at h hw1
        subst hw1
        simp only at h
        split at h
        · rename_i hd
          subst hd
          simp only [Option.some.injEq, Prod.mk.injEq] at h
          obtain ⟨rfl, rfl⟩ := h
          exact ⟨s ++ w2, by simp only [List.append_assoc], fun w hw => .one v w s w2 hw hs hw2⟩
        split at h
        · rename_i _ hd
          subst hd
          obtain ⟨w3, hw3, hw4⟩ := skipSpace_split s2
          cases h6 : parseArray n (skipSpace s2) with
          | none => rw [h6] at h; cases h
          | some x =>
            rw [h6] at h
            simp only [Option.map_some, Option.some.injEq, Prod.mk.injEq] at h
            obtain ⟨rfl, rfl⟩ := h
            obtain ⟨b, hb1, hb2⟩ := parseArray_sound n _ x.1 x.2 h6
            rw [hb1] at hw3
            refine ⟨s ++ (w2 ++ ',' :: (w3 ++ b)), ?_, fun w hw => .more v w s w2 _ _ hw hs hw2 (hb2 w3 hw4)⟩
            simp only [List.append_assoc, List.cons_append]
            rw [← hw3]
        · cases h
theorem parseMembers_sound (n : Nat) (p : Str) (ms : List (Str × JV)) (r : Str) (h : parseMembers n p = some (ms, r)) :
    ∃ s : Str, (∀ w : Str, w ++ '"' :: p = (w ++ '"' :: s) ++ '}' :: r) ∧ ∀ w, SpaceText w → MembersText ms (w ++ '"' :: s) := by
  cases n with
  | zero => rw [parseMembers] at h; cases h
  | succ n =>
    rw [parseMembers] at h
    cases h1 : scanStr p with
    | none => rw [h1] at h; cases h
    | some x =>
      obtain ⟨k, s1⟩ := x
      rw [h1] at h
      obtain ⟨ks, rfl, hk⟩ := (scanStr_iff p k s1).1 h1
      obtain ⟨w2, hw1, hw2⟩ := skipSpace_split s1
      simp only at h
      cases h2 : skipSpace s1 with
      | nil => rw [h2] at h; cases h
      | cons c s2 =>
        rw [h2] at h hw1
        subst hw1
        simp only at h
        split at h
        · cases h
        rename_i hc
        simp only [ne_eq, Decidable.not_not] at hc
        subst hc
        obtain ⟨w3, hw3, hw4⟩ := skipSpace_split s2
        cases h3 : parseVal n (skipSpace s2) with
        | none => rw [h3] at h; cases h
        | some x =>
          obtain ⟨v, s3⟩ := x
          rw [h3] at h
          obtain ⟨s, hs1, hs2⟩ := parseVal_sound n _ v s3 h3
          rw [hs1] at hw3
          subst hw3
          obtain ⟨w4, hw5, hw6⟩ := skipSpace_split s3
          simp only at h
          cases h4 : skipSpace s3 with
          | nil => rw [h4] at h; cases h
          | cons d s4 =>
            rw [h4] at h hw5
            subst hw5
            simp only at h
            split at h
            · rename_i hd
              subst hd
              simp only [Option.some.injEq, Prod.mk.injEq] at h
              obtain ⟨rfl, rfl⟩ := h
              refine ⟨ks ++ '"' :: (w2 ++ ':' :: (w3 ++ (s ++ w4))), ?_, fun w hw => .one k v w ks w2 w3 s w4 hw hk hw2 hw4 hs2 hw6⟩
              intro w; simp only [List.append_assoc, List.cons_append]
            split at h
            · rename_i _ hd
              subst hd
              obtain ⟨w5, hw7, hw8⟩ := skipSpace_split s4
              cases h5 : skipSpace s4 with
              | nil => rw [h5] at h; cases h
              | cons q s5 =>
                rw [h5] at h hw7
                subst hw7
                simp only at h
                split at h
                · rename_i hq
                  subst hq
                  cases h6 : parseMembers n s5 with
                  | none => rw [h6] at h; cases h
                  | some x =>
                    rw [h6] at h
                    simp only [Option.map_some, Option.some.injEq, Prod.mk.injEq] at h
                    obtain ⟨rfl, rfl⟩ := h
                    obtain ⟨b, hb1, hb2⟩ := parseMembers_sound n _ x.1 x.2 h6
                    refine ⟨ks ++ '"' :: (w2 ++ ':' :: (w3 ++ (s ++ (w4 ++ ',' :: (w5 ++ '"' :: b))))), ?_,
                      fun w hw => .more k v w ks w2 w3 s w4 _ _ hw hk hw2 hw4 hs2 hw6 (hb2 w5 hw8)⟩
                    intro w
                    simp only [List.append_assoc, List.cons_append]
                    rw [hb1 w5]
                    simp only [List.append_assoc, List.cons_append]
                · cases h
            · cases h
end

/-! ## Every JSON text is read -/

/-- How a value begins. -/
theorem json_head {v : JV} {s : Str} (h : JsonText v s) :
    ∃ c s', s = c :: s' ∧ isJsonSpace c = false ∧ c ≠ ']' := by
  cases h with
  | null | yes | no | str | noItems | arr | noMembers | obj => exact ⟨_, _, rfl, by decide, by decide⟩
  | num l hl =>
    obtain ⟨c, l', rfl, hc⟩ := number_head hl
    refine ⟨c, l', rfl, ?_, ?_⟩
    · rw [Bool.eq_false_iff]
      intro hs
      rcases (isJsonSpace_iff c).1 hs with rfl | rfl | rfl | rfl <;> revert hc <;> decide
    · rintro rfl
      revert hc; decide

theorem json_length {v : JV} {s : Str} (h : JsonText v s) : 0 < s.length := by
  obtain ⟨c, s', rfl, _⟩ := json_head h
  simp

theorem skipSpace_json {v : JV} {s : Str} (h : JsonText v s) (r : Str) : skipSpace (s ++ r) = s ++ r := by
  obtain ⟨c, s', rfl, hc, _⟩ := json_head h
  exact skipSpace_self hc

theorem stop_space {w r : Str} (hw : SpaceText w) (hr : NumStop r) : NumStop (w ++ r) := by
  cases w with
  | nil => exact hr
  | cons c w =>
    intro d hd
    simp only [List.cons_append, List.head?_cons, Option.mem_def, Option.some.injEq] at hd
    subst hd
    rcases hw c (by simp) with rfl | rfl | rfl | rfl <;> decide

theorem stop_cons {c : Char} (r : Str) (h : isDig c = false ∧ c ≠ '.' ∧ c ≠ 'e' ∧ c ≠ 'E') : NumStop (c :: r) := by
  intro d hd
  simp only [List.head?_cons, Option.mem_def, Option.some.injEq] at hd
  subst hd
  exact h

mutual
theorem parseVal_complete : ∀ {v : JV} {s : Str}, JsonText v s → ∀ (n : Nat) (r : Str), s.length ≤ n → (∀ l, v = .num l → NumStop r) →
    parseVal n (s ++ r) = some (v, r)
  | _, _, h, 0, r, hn, _ => by have := json_length h; omega
  | _, _, .null, n + 1, r, _, _ => by rw [List.cons_append, parseVal]; rfl
  | _, _, .yes, n + 1, r, _, _ => by rw [List.cons_append, parseVal]; rfl
  | _, _, .no, n + 1, r, _, _ => by rw [List.cons_append, parseVal]; rfl
  | _, _, .num l hl, n + 1, r, _, hr => by
    have hs := scanNum_complete hl (hr l rfl)
    obtain ⟨c, l', rfl, hc⟩ := number_head hl
    have hne : ∀ d : Char, (isDig d = false ∧ d ≠ '-' ∧ d ≠ 'N' ∧ d ≠ 'I') → c ≠ d := by
      rintro d ⟨h1, h2, h3, h4⟩ rfl
      rcases hc with hc | hc | hc | hc
      · rw [hc] at h1; cases h1
      · exact h2 hc
      · exact h3 hc
      · exact h4 hc
    have hp : ∀ (d : Char) (q : Str), (isDig d = false ∧ d ≠ '-' ∧ d ≠ 'N' ∧ d ≠ 'I') → (d :: q).isPrefixOf (c :: (l' ++ r)) = false := by
      intro d q hd
      rw [Bool.eq_false_iff]
      intro hp
      rw [List.isPrefixOf_iff_prefix] at hp
      obtain ⟨t, ht⟩ := hp
      simp only [List.cons_append, List.cons.injEq] at ht
      exact hne d hd ht.1.symm
    rw [List.cons_append, parseVal, if_neg (hne _ (by decide)), if_neg (hne _ (by decide)), if_neg (hne _ (by decide)),
      hp 'n' _ (by decide), hp 't' _ (by decide), hp 'f' _ (by decide)]
    exact hs
  | _, _, .str t s hs, n + 1, r, _, _ => by
    rw [List.cons_append, parseVal, if_pos rfl, List.append_assoc, List.cons_append, List.nil_append, (scanStr_iff _ t r).2 ⟨s, rfl, hs⟩]
    rfl
  | _, _, .noItems w hw, n + 1, r, _, _ => by
    rw [List.cons_append, parseVal, if_neg (by decide), if_neg (by decide), if_pos rfl, List.append_assoc, skipSpace_space hw]
    rfl
  | _, _, .noMembers w hw, n + 1, r, _, _ => by
    rw [List.cons_append, parseVal, if_neg (by decide), if_pos rfl, List.append_assoc, skipSpace_space hw]
    rfl
  | _, _, .arr vs s hs, n + 1, r, hn, _ => by
    simp only [List.length_cons, List.length_append, List.length_nil] at hn
    obtain ⟨c, t, h1, h2, h3⟩ := parseArray_complete hs n r (by omega)
    rw [List.cons_append, parseVal, if_neg (by decide), if_neg (by decide), if_pos rfl, List.append_assoc, List.cons_append, List.nil_append,
      h1]
    simp only [if_neg h2, h3, Option.map_some]
  | _, _, .obj ms s hs, n + 1, r, hn, _ => by
    simp only [List.length_cons, List.length_append, List.length_nil] at hn
    obtain ⟨t, h1, h2⟩ := parseMembers_complete hs n r (by omega)
    rw [List.cons_append, parseVal, if_neg (by decide), if_pos rfl, List.append_assoc, List.cons_append, List.nil_append, h1]
    simp only [if_neg (show ¬ ('"' = '}') by decide), if_true, h2, Option.map_some]
theorem parseArray_complete : ∀ {vs : List JV} {s : Str}, ItemsText vs s → ∀ (n : Nat) (r : Str), s.length + 1 ≤ n →
    ∃ c t, skipSpace (s ++ ']' :: r) = c :: t ∧ c ≠ ']' ∧ parseArray n (c :: t) = some (vs, r)
  | _, _, .one v w1 s w2 hw1 hs hw2, n, r, hn => by
    simp only [List.length_append] at hn
    obtain ⟨n, rfl⟩ : ∃ m, n = m + 1 := ⟨n - 1, by omega⟩
    have hv := parseVal_complete hs n (w2 ++ ']' :: r) (by omega) (fun _ _ => stop_space hw2 (stop_cons _ (by decide)))
    have e : skipSpace ((w1 ++ (s ++ w2)) ++ ']' :: r) = s ++ (w2 ++ ']' :: r) := by
      simp only [List.append_assoc]
      rw [skipSpace_space hw1, skipSpace_json hs]
    obtain ⟨c, s', hc, _, hc'⟩ := json_head hs
    refine ⟨c, s' ++ (w2 ++ ']' :: r), by rw [e, hc]; rfl, hc', ?_⟩
    rw [← List.cons_append, ← hc, parseArray, hv]
    simp only
    rw [skipSpace_space hw2, skipSpace_self (by decide)]
    rfl
  | _, _, .more v w1 s w2 vs q hw1 hs hw2 hq, n, r, hn => by
    have hl := json_length hs
    simp only [List.length_append, List.length_cons] at hn
    obtain ⟨n, rfl⟩ : ∃ m, n = m + 1 := ⟨n - 1, by omega⟩
    have hv := parseVal_complete hs n (w2 ++ ',' :: (q ++ ']' :: r)) (by omega) (fun _ _ => stop_space hw2 (stop_cons _ (by decide)))
    have e : skipSpace ((w1 ++ (s ++ (w2 ++ ',' :: q))) ++ ']' :: r) = s ++ (w2 ++ ',' :: (q ++ ']' :: r)) := by
      simp only [List.append_assoc, List.cons_append]
      rw [skipSpace_space hw1, skipSpace_json hs]
    obtain ⟨c, s', hc, _, hc'⟩ := json_head hs
    refine ⟨c, s' ++ (w2 ++ ',' :: (q ++ ']' :: r)), by rw [e, hc]; rfl, hc', ?_⟩
    obtain ⟨c2, t2, g1, g2, g3⟩ := parseArray_complete hq n r (by omega)
    rw [← List.cons_append, ← hc, parseArray, hv]
    simp only
    rw [skipSpace_space hw2, skipSpace_self (by decide)]
    simp only [if_neg (show ¬ (',' = ']') by decide), if_true, g1, g3, Option.map_some]
theorem parseMembers_complete : ∀ {ms : List (Str × JV)} {s : Str}, MembersText ms s → ∀ (n : Nat) (r : Str), s.length + 1 ≤ n →
    ∃ t, skipSpace (s ++ '}' :: r) = '"' :: t ∧ parseMembers n t = some (ms, r)
  | _, _, .one k v w1 ks w2 w3 s w4 hw1 hk hw2 hw3 hs hw4, n, r, hn => by
    simp only [List.length_append, List.length_cons] at hn
    obtain ⟨n, rfl⟩ : ∃ m, n = m + 1 := ⟨n - 1, by omega⟩
    have hv := parseVal_complete hs n (w4 ++ '}' :: r) (by omega) (fun _ _ => stop_space hw4 (stop_cons _ (by decide)))
    refine ⟨ks ++ '"' :: (w2 ++ ':' :: (w3 ++ (s ++ (w4 ++ '}' :: r)))), ?_, ?_⟩
    · simp only [List.append_assoc, List.cons_append]
      rw [skipSpace_space hw1, skipSpace_self (by decide)]
    · rw [parseMembers, (scanStr_iff _ k _).2 ⟨ks, rfl, hk⟩]
      simp only
      rw [skipSpace_space hw2, skipSpace_self (by decide)]
      simp only [ne_eq, not_true_eq_false, if_false]
      rw [skipSpace_space hw3, skipSpace_json hs, hv]
      simp only
      rw [skipSpace_space hw4, skipSpace_self (by decide)]
      rfl
  | _, _, .more k v w1 ks w2 w3 s w4 ms q hw1 hk hw2 hw3 hs hw4 hq, n, r, hn => by
    have hl := json_length hs
    simp only [List.length_append, List.length_cons] at hn
    obtain ⟨n, rfl⟩ : ∃ m, n = m + 1 := ⟨n - 1, by omega⟩
    have hv := parseVal_complete hs n (w4 ++ ',' :: (q ++ '}' :: r)) (by omega) (fun _ _ => stop_space hw4 (stop_cons _ (by decide)))
    obtain ⟨t, g1, g2⟩ := parseMembers_complete hq n r (by omega)
    refine ⟨ks ++ '"' :: (w2 ++ ':' :: (w3 ++ (s ++ (w4 ++ ',' :: (q ++ '}' :: r))))), ?_, ?_⟩
    · simp only [List.append_assoc, List.cons_append]
      rw [skipSpace_space hw1, skipSpace_self (by decide)]
    · rw [parseMembers, (scanStr_iff _ k _).2 ⟨ks, rfl, hk⟩]
      simp only
      rw [skipSpace_space hw2, skipSpace_self (by decide)]
      simp only [ne_eq, not_true_eq_false, if_false]
      rw [skipSpace_space hw3, skipSpace_json hs, hv]
      simp only
      rw [skipSpace_space hw4, skipSpace_self (by decide)]
      simp only [if_neg (show ¬ (',' = '}') by decide), if_true, g1, g2, Option.map_some]
end

/-- `json.loads` reads exactly the JSON texts. -/
theorem jsonLoads_iff (text : Str) (v : JV) : jsonLoads text = some v ↔ IsJson v text := by
  constructor
  · intro h
    simp only [jsonLoads] at h
    split at h
    · cases h
    · rename_i v' r hv
      split at h
      · rename_i hr
        injection h with h
        subst h
        obtain ⟨w, hw1, hw2⟩ := skipSpace_split text
        obtain ⟨s, hs1, hs2⟩ := parseVal_sound _ _ _ _ hv
        rw [hs1] at hw1
        exact ⟨w, s, r, hw1, hw2, hs2, skipSpace_nil hr⟩
      · cases h
  · rintro ⟨w1, s, w2, rfl, hw1, hs, hw2⟩
    have hstop : NumStop w2 := by
      have := stop_space hw2 (r := []) (by simp [NumStop])
      rwa [List.append_nil] at this
    have hend : skipSpace w2 = [] := by
      have := skipSpace_space hw2 []
      rwa [List.append_nil] at this
    rw [jsonLoads, skipSpace_space hw1, skipSpace_json hs, parseVal_complete hs _ w2 (by simp only [List.length_append]; omega) fun _ _ => hstop]
    simp only [hend, if_true]

/-- A text has one meaning. -/
theorem isJson_unique {text : Str} {v v' : JV} (h : IsJson v text) (h' : IsJson v' text) : v = v' := by
  have h1 := (jsonLoads_iff text v).2 h
  rw [(jsonLoads_iff text v').2 h'] at h1
  injection h1 with h1
  exact h1.symm

/-! ## What is written -/

mutual
/-- The numbers in a value are number texts. -/
def JV.Ok : JV → Prop
  | .null => True
  | .bool _ => True
  | .num l => NumberText l
  | .str _ => True
  | .arr vs => itemsOk vs
  | .obj ms => membersOk ms
def itemsOk : List JV → Prop
  | [] => True
  | v :: vs => v.Ok ∧ itemsOk vs
def membersOk : List (Str × JV) → Prop
  | [] => True
  | (_, v) :: ms => v.Ok ∧ membersOk ms
end

theorem space_nil : SpaceText [] := by simp [SpaceText]
theorem space_one : SpaceText [' '] := by simp [SpaceText]

mutual
theorem dump_text : ∀ (v : JV), v.Ok → JsonText v v.dump
  | .null, _ => by rw [JV.dump]; exact .null
  | .bool true, _ => by rw [JV.dump]; exact .yes
  | .bool false, _ => by rw [JV.dump]; exact .no
  | .num l, h => by rw [JV.dump]; rw [JV.Ok] at h; exact .num l h
  | .str s, _ => by rw [JV.dump]; exact .str s _ (escaped_text s)
  | .arr vs, h => by
    rw [JV.dump]
    rw [JV.Ok] at h
    by_cases hv : vs = []
    · rw [hv, dumpItems]; exact .noItems [] space_nil
    · exact .arr _ _ (by simpa using dumpItems_text vs h hv [] space_nil)
  | .obj ms, h => by
    rw [JV.dump]
    rw [JV.Ok] at h
    by_cases hv : ms = []
    · rw [hv, dumpMembers]; exact .noMembers [] space_nil
    · exact .obj _ _ (by simpa using dumpMembers_text ms h hv [] space_nil)
theorem dumpItems_text : ∀ (vs : List JV), itemsOk vs → vs ≠ [] → ∀ w, SpaceText w → ItemsText vs (w ++ dumpItems vs)
  | [], _, h, _, _ => absurd rfl h
  | v :: vs, hv, _, w, hw => by
    rw [dumpItems]
    rw [itemsOk] at hv
    by_cases he : vs = []
    · subst he; rw [dumpItemsRest]; exact .one v w _ [] hw (dump_text v hv.1) space_nil
    · have e : dumpItemsRest vs = ',' :: ([' '] ++ dumpItems vs) := by
        cases vs with
        | nil => exact absurd rfl he
        | cons v' vs' => rfl
      rw [e]
      exact .more v w _ [] _ _ hw (dump_text v hv.1) space_nil (dumpItems_text vs hv.2 he [' '] space_one)
theorem dumpMembers_text : ∀ (ms : List (Str × JV)), membersOk ms → ms ≠ [] → ∀ w, SpaceText w → MembersText ms (w ++ dumpMembers ms)
  | [], _, h, _, _ => absurd rfl h
  | (k, v) :: ms, hv, _, w, hw => by
    rw [dumpMembers]
    rw [membersOk] at hv
    by_cases he : ms = []
    · subst he
      rw [dumpRest]
      have := MembersText.one k v w _ [] [' '] _ [] hw (escaped_text k) space_nil space_one (dump_text v hv.1) space_nil
      simpa [jsonStr] using this
    · have e : dumpRest ms = ',' :: ([' '] ++ dumpMembers ms) := by
        cases ms with
        | nil => exact absurd rfl he
        | cons m' ms' => rfl
      rw [e]
      have := MembersText.more k v w _ [] [' '] _ [] _ _ hw (escaped_text k) space_nil space_one (dump_text v hv.1) space_nil
        (dumpMembers_text ms hv.2 he [' '] space_one)
      simpa [jsonStr] using this
end

/-- What was dumped is loaded. -/
theorem jsonLoads_dump (v : JV) (h : v.Ok) : jsonLoads v.dump = some v :=
  (jsonLoads_iff _ _).2 ⟨[], v.dump, [], by simp, space_nil, dump_text v h, space_nil⟩

/-- The text of an object that is cut anywhere is refused. -/
theorem jsonLoads_cut (ms : List (Str × JV)) (h : (JV.obj ms).Ok) (p t : Str) (hp : (JV.obj ms).dump = p ++ t) (ht : t ≠ []) : jsonLoads p = none := by
  cases hl : jsonLoads p with
  | none => rfl
  | some w =>
    exfalso
    obtain ⟨w1, s, w2, rfl, hw1, hs, hw2⟩ := (jsonLoads_iff p w).1 hl
    have hd := dump_text _ h
    have hfull := parseVal_complete hd ((JV.obj ms).dump.length) [] (Nat.le_refl _) (fun l hl => by cases hl)
    have hw : w1 = [] := by
      cases w1 with
      | nil => rfl
      | cons c w1 =>
        exfalso
        have hc := hw1 c (by simp)
        simp only [JV.dump, List.cons_append, List.cons.injEq] at hp
        rw [← hp.1] at hc
        revert hc; decide
    subst hw
    have hnum : ∀ l, w ≠ .num l := by
      rintro l rfl
      cases hs with
      | num _ hl =>
        obtain ⟨c, l', rfl, hc⟩ := number_head hl
        simp only [JV.dump, List.nil_append, List.cons_append, List.cons.injEq] at hp
        rw [← hp.1] at hc
        revert hc; decide
    have hlen : s.length ≤ (JV.obj ms).dump.length := by
      rw [hp]; simp only [List.nil_append, List.length_append]; omega
    have hpart := parseVal_complete hs ((JV.obj ms).dump.length) (w2 ++ t) hlen (fun l hl => absurd hl (hnum l))
    rw [List.append_nil] at hfull
    have e : s ++ (w2 ++ t) = (JV.obj ms).dump := by rw [hp]; simp
    rw [e, hfull] at hpart
    simp only [Option.some.injEq, Prod.mk.injEq] at hpart
    exact ht (List.append_eq_nil_iff.1 hpart.2.symm).2

end Jq
