import Verif.Lemmas.TextBad
set_option linter.unusedSectionVars false
/-! # Reading up to a chunk that cannot be decoded -/
namespace Jq

/-- The lines that have ended. -/
def endedLines : Nat → List (Char × Nat) → List (Str × Nat)
  | 0, _ => []
  | m + 1, cs =>
    match takeLine cs with
    | none => []
    | some (l, rest) => (l, cs.length - rest.length) :: endedLines m rest

/-- The content is readable for some chunks, and the next one is not. -/
structure BadChunk (D : Codec) (N : Nat) (content : Bytes) (idx : Nat) (A : List (Char × Nat)) (q : Bytes) : Prop where
  le : idx * N ≤ content.length
  good : decodeBytes D [] (content.take (idx * N)) = some (A, q)
  bad : decodeBytes D q ((content.drop (idx * N)).take N) = none

/-- Where a reader may stand before that. -/
structure StandsGood (D : Codec) (N : Nat) (base : Nat) (content : Bytes) (idx : Nat) (q : Bytes) (s : TextIn) (X : List (Char × Nat)) : Prop where
  stands : ∃ i cs, i ≤ idx ∧ s.buf = base + i * N ∧ decodeBytes D s.pend ((content.take (idx * N)).drop (i * N)) = some (cs, q) ∧ s.chars ++ cs = X

theorem readLine_good {D : Codec} {N : Nat} (hN : 0 < N) {pre content : Bytes} {idx : Nat} {A : List (Char × Nat)} {q : Bytes}
    (h : BadChunk D N content idx A q) (n : Nat) (s : TextIn) (X : List (Char × Nat)) (hs : StandsGood D N pre.length content idx q s X)
    (hn : pre.length + idx * N < s.buf + n) :
    (∃ s' l rest, takeLine X = some (l, rest) ∧ s.readLine D N (pre ++ content) n = (s', .line l) ∧ StandsGood D N pre.length content idx q s' rest) ∨
    (takeLine X = none ∧ ∃ s', s.readLine D N (pre ++ content) n = (s', .raised)) := by
  induction n generalizing s with
  | zero =>
    obtain ⟨i, cs, hi, hb, _⟩ := hs.stands
    have := Nat.mul_le_mul_right N hi
    omega
  | succ n ih =>
    obtain ⟨i, cs, hi, hb, hd, hc⟩ := hs.stands
    simp only [TextIn.readLine]
    cases ht : takeLine s.chars with
    | some r =>
      obtain ⟨l, rest⟩ := r
      left
      have h1 := takeLine_append ht cs
      rw [hc] at h1
      exact ⟨_, l, _, h1, rfl, ⟨i, cs, hi, hb, hd, rfl⟩⟩
    | none =>
      simp only
      have hdrop : (pre ++ content).drop s.buf = content.drop (i * N) := by
        rw [hb, ← List.drop_drop, List.drop_left]
      rw [hdrop]
      by_cases he : i = idx
      · subst he
        right
        rw [List.drop_eq_nil_of_le (by simp; omega)] at hd
        simp only [decodeBytes, Option.some.injEq, Prod.mk.injEq] at hd
        have hb' := h.bad
        rw [← hd.2] at hb'
        rw [← hd.1, List.append_nil] at hc
        rw [← hc]
        refine ⟨ht, ?_⟩
        cases hk : (content.drop (i * N)).take N with
        | nil => rw [hk] at hb'; cases hb'
        | cons x xs => rw [hk] at hb'; simp only [hb']; exact ⟨_, rfl⟩
      · have hlt : i < idx := by omega
        have hm : (i + 1) * N ≤ idx * N := Nat.mul_le_mul_right N hlt
        rw [Nat.succ_mul] at hm
        have hle := h.le
        have hsp : (content.take (idx * N)).drop (i * N) = (content.drop (i * N)).take N ++ (content.take (idx * N)).drop ((i + 1) * N) := by
          rw [Nat.succ_mul, ← List.drop_drop, List.drop_take]
          have := List.take_append_drop N ((content.drop (i * N)).take (idx * N - i * N))
          rw [List.take_take, Nat.min_eq_left (by omega)] at this
          exact this.symm
        rw [hsp, decodeBytes_append] at hd
        have hlen : ((content.drop (i * N)).take N).length = N := by simp; omega
        cases hk : (content.drop (i * N)).take N with
        | nil => rw [hk] at hlen; simp at hlen; omega
        | cons x xs =>
          rw [hk] at hd hlen
          simp only
          cases hdx : decodeBytes D s.pend (x :: xs) with
          | none => rw [hdx] at hd; simp at hd
          | some r =>
            obtain ⟨c1, p1⟩ := r
            rw [hdx] at hd
            simp only [Option.bind_some, Option.map_eq_some_iff] at hd
            obtain ⟨⟨c2, q'⟩, hd2, he'⟩ := hd
            simp only [Prod.mk.injEq] at he'
            obtain ⟨rfl, rfl⟩ := he'
            simp only [List.length_cons] at hlen
            refine ih _ ⟨i + 1, c2, hlt, ?_, hd2, ?_⟩ ?_
            · simp only [hb, hlen, Nat.succ_mul]; omega
            · simp only [List.append_assoc]; exact hc
            · simp only [hlen]; omega

variable {ν : Type} [GateNum ν]

theorem takeLine_shorter {cs : List (Char × Nat)} {l : Str} {rest : List (Char × Nat)} (h : takeLine cs = some (l, rest)) :
    ∃ n, 0 < n ∧ n ≤ cs.length ∧ rest = cs.drop n ∧ cs.length - rest.length = n := by
  obtain ⟨n, h1, h2, h3, _⟩ := takeLine_rawLines h
  exact ⟨n, h1, h2, h3, by rw [h3]; simp; omega⟩

theorem byteLoop_good {D : Codec} {N : Nat} (hN : 0 < N) {pre content : Bytes} {idx : Nat} {A : List (Char × Nat)} {q : Bytes}
    (h : BadChunk D N content idx A q) (cols : Nat) (f : Book ν → List Str → LineRes ν) (n m k : Nat) (s : TextIn)
    (hs : StandsGood D N pre.length content idx q s (A.drop k)) (hf : A.length - k < n) (hm : A.length - k < m) (b : Book ν) (j : Nat) :
    byteLoop D N (pre ++ content) cols f false n s b ⟨pre.length + widths (A.take j), false⟩ =
      some (((pollLoop cols f false (endedLines m (A.drop k)) k b j).1.1,
        ⟨pre.length + widths (A.take (pollLoop cols f false (endedLines m (A.drop k)) k b j).1.2), false⟩),
        if (pollLoop cols f false (endedLines m (A.drop k)) k b j).2 = .eof then .raised .valueError
        else (pollLoop cols f false (endedLines m (A.drop k)) k b j).2) := by
  induction n generalizing k s b j m with
  | zero => omega
  | succ n ih =>
    cases m with
    | zero => omega
    | succ m =>
    have hfuel : pre.length + idx * N < s.buf + ((pre ++ content).length + 1) := by
      have := h.le
      simp only [List.length_append]; omega
    rcases readLine_good hN h _ s _ hs hfuel with ⟨s', l, rest, hw, hr, hs'⟩ | ⟨hw, s', hr⟩
    · obtain ⟨q', hq, hle, hrest, hlen⟩ := takeLine_shorter hw
      rw [List.drop_drop] at hrest
      subst hrest
      have htell : s'.tell = ⟨pre.length + widths (A.take (k + q')), false⟩ := by
        obtain ⟨i, cs, hi, hb, hd, hc⟩ := hs'.stands
        have h1 := decodeBytes_widths hd
        have h2 := congrArg widths hc
        rw [widths_append] at h2
        have h3 := congrArg widths (List.take_append_drop (k + q') A)
        rw [widths_append] at h3
        have h4 := decodeBytes_widths h.good
        have h5 := h.le
        have h6 := Nat.mul_le_mul_right N hi
        simp only [List.length_drop, List.length_take, List.length_nil] at h1 h4
        simp only [TextIn.tell, Cookie.mk.injEq, and_true]
        omega
      simp only [List.length_drop] at hle
      have ih' := fun b j => ih m (k + q') s' hs' (by omega) (by omega) b j
      have hlines : endedLines (m + 1) (A.drop k) = (l, q') :: endedLines m (A.drop (k + q')) := by
        simp only [endedLines, hw, hlen]
      rw [hlines]
      have kinds : lineKind cols l = .stop ∨ lineKind cols l = .header ∨ ∃ items, lineKind cols l = .fields items := by
        cases lineKind cols l <;> simp
      rcases kinds with hk | hk | ⟨items, hk⟩
      · simp only [byteLoop, hr, pollLoop, hk]; simp
      · simp only [byteLoop, hr, pollLoop, hk, htell]; exact ih' _ _
      · have res : f b items = .unknown ∨ (∃ b', f b items = .done b') ∨ ∃ b' e, f b items = .failed b' e := by
          cases f b items <;> simp
        rcases res with hu | ⟨b', hu⟩ | ⟨b', e, hu⟩
        · simp only [byteLoop, hr, pollLoop, hk, hu]; exact ih' _ _
        · simp only [byteLoop, hr, pollLoop, hk, hu, htell]; exact ih' _ _
        · simp only [byteLoop, hr, pollLoop, hk, hu]; simp
    · have hlines : endedLines (m + 1) (A.drop k) = [] := by simp only [endedLines, hw]
      rw [hlines]
      simp only [byteLoop, hr, pollLoop]; simp

theorem rawLines_head {s l : Str} {n : Nat} {r : List (Str × Nat)} (h : rawLines s = (l, n) :: r) : 0 < n := by
  cases s with
  | nil => cases h
  | cons c s =>
    simp only [rawLines] at h
    split at h
    · injection h with h _; injection h with _ h; omega
    · split at h
      · split at h
        · split at h
          · cases h
          · injection h with h _; injection h with _ h; omega
        · injection h with h _; injection h with _ h; omega
      · split at h
        · injection h with h _; injection h with _ h; omega
        · injection h with h _; injection h with _ h; omega

/-- Before the end of the first line there is no line end. -/
theorem takeLine_none_le {X : List (Char × Nat)} (h : takeLine X = none) (B : List (Char × Nat)) (l : Str) (n : Nat) (r : List (Str × Nat))
    (hr : rawLines (textOf (X ++ B)) = (l, n) :: r) : X.length ≤ n := by
  induction X generalizing l n r with
  | nil => simp
  | cons c X ih =>
    obtain ⟨c, w⟩ := c
    simp only [takeLine] at h
    split at h
    · cases h
    rename_i hc
    split at h
    · cases X with
      | nil =>
        simp only [List.length_cons, List.length_nil]
        refine Nat.pos_of_ne_zero fun h0 => ?_
        subst h0
        exact absurd (rawLines_head hr) (by simp)
      | cons d ds => simp only at h; split at h <;> cases h
    · rename_i hc'
      simp only [Option.map_eq_none_iff] at h
      simp only [List.cons_append, textOf, List.map_cons, rawLines, if_neg hc, if_neg hc'] at hr
      cases hrest : rawLines (textOf (X ++ B)) with
      | nil =>
        simp only [textOf] at hrest
        rw [hrest] at hr
        have : X = [] := by
          cases X with
          | nil => rfl
          | cons d ds => exact absurd hrest (rawLines_ne_nil (by simp))
        subst this
        injection hr with hr _
        injection hr with _ hr
        simp; omega
      | cons y ys =>
        obtain ⟨l', n'⟩ := y
        have := ih h l' n' ys hrest
        simp only [textOf] at hrest
        rw [hrest] at hr
        injection hr with hr _
        injection hr with _ hr
        simp; omega

/-- The lines that have ended are the first lines of whatever follows. -/
theorem endedLines_take (m : Nat) (A B : List (Char × Nat)) (hm : A.length < m) :
    ∃ k n, endedLines m A = (rawLines (textOf (A ++ B))).take k ∧ k ≤ (rawLines (textOf (A ++ B))).length ∧
      (((rawLines (textOf (A ++ B))).take k).map (·.2)).sum = n ∧ n ≤ A.length ∧ takeLine (A.drop n) = none ∧
      (rawLines (textOf (A ++ B))).drop k = rawLines (textOf (A.drop n ++ B)) := by
  induction m generalizing A with
  | zero => omega
  | succ m ih =>
    cases ht : takeLine A with
    | none => exact ⟨0, 0, by simp [endedLines, ht], by omega, by simp, by omega, by simpa using ht, by simp⟩
    | some r =>
      obtain ⟨l, rest⟩ := r
      obtain ⟨q, hq, hle, hrest, hlen⟩ := takeLine_shorter ht
      obtain ⟨q', _, hle', hrest', hraw⟩ := takeLine_rawLines (takeLine_append ht B)
      have hqq : q' = q := by
        have := congrArg List.length hrest'
        rw [hrest] at this
        simp only [List.length_append, List.length_drop] at this hle'
        omega
      subst hqq
      have hlr : rest.length < m := by rw [hrest]; simp; omega
      obtain ⟨k, n, e1, e2, e3, e4, e5, e6⟩ := ih rest hlr
      refine ⟨k + 1, q' + n, ?_, ?_, ?_, ?_, ?_, ?_⟩
      · simp only [endedLines, ht, hlen, hraw, List.take_succ_cons, e1]
      · rw [hraw]; simp; exact e2
      · rw [hraw, List.take_succ_cons, List.map_cons, List.sum_cons, e3]
      · rw [hrest] at e4; simp at e4; omega
      · rw [hrest, List.drop_drop] at e5; exact e5
      · rw [hraw, List.drop_succ_cons, e6, hrest, List.drop_drop]

end Jq
