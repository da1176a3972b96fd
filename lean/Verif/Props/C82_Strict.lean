import Verif.Lemmas.TextStrict
import Verif.Props.C36_OrderSync
import Verif.Lemmas.TextSpec
import Verif.Spec.TextFile
set_option linter.unusedSectionVars false
/-! # C82 without `ignore_error_line`: what a file that cannot be decoded gives -/
namespace Jq

variable {ν : Type} [GateNum ν]

private theorem decode_dropLast {D : Codec} {g : Bytes} (h : IsWrong D g) : decodeBytes D [] g.dropLast = some ([], g.dropLast) := by
  by_cases h0 : g.dropLast = []
  · rw [h0]; rfl
  · refine decode_open ⟨h0, fun p hp hne => h.2.2 p (hp.trans (List.dropLast_prefix g)) hne ?_⟩
    intro e
    have := hp.length_le
    have := List.length_pos_iff.2 h.2.1
    subst e
    simp only [List.length_dropLast] at *
    omega

private theorem next_width {D : Codec} {q bs : Bytes} {c : Char} {w : Nat} {cs : List (Char × Nat)} {p : Bytes}
    (h : decodeBytes D q bs = some ((c, w) :: cs, p)) : q.length < w := by
  induction bs generalizing q with
  | nil => simp [decodeBytes] at h
  | cons x bs ih =>
    simp only [decodeBytes] at h
    split at h
    · cases h
    · have := ih h; simp at this; omega
    · simp only [Option.map_eq_some_iff, Prod.mk.injEq, List.cons.injEq] at h
      obtain ⟨r, _, ⟨⟨_, h⟩, _⟩, _⟩ := h
      omega

/-- Without `ignore_error_line`, where the new part of a file is a text up to bytes that are wrong: the lines that end before the chunk with
these bytes (`border`; the character after a line belongs to it, because of `\r\n`) are processed as if they were all, and then it raises.
Nothing is skipped: the position is the end of the last line that was processed. -/
theorem c82_strict_partial (D : Codec) (N : Nat) (hN : 0 < N) (pre : Bytes) (gs : Encoded) (hg : gs.In D) (g : Bytes) (hw : IsWrong D g) (rest : Bytes)
    (cols : Nat) (f : Book ν → List Str → LineRes ν) (fuel : Nat) (hf : gs.length < fuel) (b : Book ν) (border : Nat)
    (hb : border = (gs.bytes.length + g.length - 1) / N * N) :
    ∃ k n r, n = (((rawLines gs.text).take k).map (·.2)).sum ∧ r = pollLoop cols f false ((rawLines gs.text).take k) 0 b 0 ∧
      (gs.pos n).pos ≤ border ∧
      (∀ l, (rawLines gs.text)[k]? = some l → n + l.2 < gs.length → border < (gs.pos (n + l.2 + 1)).pos) ∧
      pollBytes D N cols f false fuel (pre ++ (gs.bytes ++ g ++ rest)) b ⟨pre.length, false⟩ =
        some ((r.1.1, ⟨pre.length + (gs.pos r.1.2).pos, false⟩), if r.2 = .eof then .raised .valueError else r.2) := by
  have hgl := List.length_pos_iff.2 hw.2.1
  have hdm := Nat.div_add_mod (gs.bytes.length + g.length - 1) N
  have hmod := Nat.mod_lt (gs.bytes.length + g.length - 1) hN
  rw [Nat.mul_comm] at hdm
  have hg' : g = g.dropLast ++ [g.getLast hw.2.1] := (List.dropLast_concat_getLast hw.2.1).symm
  have hdl : g.dropLast.length = g.length - 1 := List.length_dropLast
  generalize hidx : (gs.bytes.length + g.length - 1) / N = idx at hb hdm
  -- the bytes before the last of the wrong ones
  have hall : decodeBytes D [] (gs.bytes ++ g.dropLast) = some (sized gs, g.dropLast) := by
    rw [decode_encoded hg, decode_dropLast hw]; simp
  rw [← List.take_append_drop border (gs.bytes ++ g.dropLast), decodeBytes_append] at hall
  cases h1 : decodeBytes D [] ((gs.bytes ++ g.dropLast).take border) with
  | none => rw [h1] at hall; simp at hall
  | some x =>
    obtain ⟨A, q⟩ := x
    rw [h1] at hall
    simp only [Option.bind_some, Option.map_eq_some_iff, Prod.mk.injEq] at hall
    obtain ⟨⟨B, q'⟩, h2, hAB, rfl⟩ := hall
    simp only at hAB h2
    have hcontent : gs.bytes ++ g ++ rest = (gs.bytes ++ g.dropLast) ++ (g.getLast hw.2.1 :: rest) := by
      conv => lhs; rw [hg']
      simp
    have hM : (gs.bytes ++ g.dropLast).length = gs.bytes.length + g.length - 1 := by
      rw [List.length_append, hdl]; omega
    have hle : border ≤ (gs.bytes ++ g.dropLast).length := by rw [hM, hb]; omega
    have hbad : BadChunk D N (gs.bytes ++ g ++ rest) idx A q := by
      refine ⟨?_, ?_, ?_⟩
      · rw [hcontent, List.length_append, ← hb]; omega
      · rw [hcontent, ← hb, List.take_append_of_le_length hle, h1]
      · rw [hcontent, ← hb, List.drop_append_of_le_length hle, List.take_append, List.take_of_length_le (by rw [List.length_drop, hM]; omega),
          decodeBytes_append, h2]
        have : N - ((gs.bytes ++ g.dropLast).drop border).length = (N - ((gs.bytes ++ g.dropLast).drop border).length - 1) + 1 := by
          rw [List.length_drop, hM]; omega
        rw [this, List.take_succ_cons]
        simp only [Option.bind_some, decodeBytes]
        rw [← hg', hw.1]
        rfl
    have hAl : A.length + B.length = gs.length := by
      have := congrArg List.length hAB
      simpa [sized] using this
    have hlen1 := decodeBytes_widths h1
    simp only [List.length_nil, List.length_take, Nat.zero_add, Nat.min_eq_left hle] at hlen1
    obtain ⟨k, n, e1, e2, e3, e4, e5, e6⟩ := endedLines_take (A.length + 1) A B (by omega)
    have htext : textOf (A ++ B) = gs.text := by rw [hAB, textOf_sized]
    rw [htext] at e1 e2 e3 e6
    have hpos : ∀ j, (gs.pos j).pos = widths ((A ++ B).take j) := by
      intro j
      rw [hAB, Encoded.pos, ← widths_sized]
      simp [sized, List.map_take]
    have hposA : ∀ j, j ≤ A.length → (gs.pos j).pos = widths (A.take j) := by
      intro j hj
      rw [hpos, List.take_append_of_le_length hj]
    have wtake : ∀ (X : List (Char × Nat)) j, widths (X.take j) ≤ widths X := by
      intro X j
      have := congrArg widths (List.take_append_drop j X)
      rw [widths_append] at this
      omega
    have hloop := byteLoop_good hN hbad (pre := pre) cols f fuel (A.length + 1) 0 (TextIn.seek ⟨pre.length, false⟩)
      ⟨0, A, by omega, by simp [TextIn.seek], by simpa [TextIn.seek] using hbad.good, by simp [TextIn.seek]⟩ (by omega) (by omega) b 0
    simp only [List.drop_zero] at hloop
    rw [e1] at hloop
    refine ⟨k, n, _, e3.symm, rfl, ?_, ?_, ?_⟩
    · rw [hposA n e4]
      have := wtake A n
      omega
    · intro l hl hn
      refine Nat.lt_of_not_le fun hle' => ?_
      have hfirst : rawLines (textOf (A.drop n ++ B)) = (l.1, l.2) :: (rawLines gs.text).drop (k + 1) := by
        rw [← e6, List.drop_eq_getElem?_toList_append]
        rw [hl]; rfl
      have hge := takeLine_none_le e5 B _ _ _ hfirst
      rw [List.length_drop] at hge
      -- the character after the line is not among those decoded
      cases B with
      | nil => simp at hAl; omega
      | cons y B =>
        obtain ⟨c, w⟩ := y
        have hwid := next_width h2
        have hin : widths (A ++ [(c, w)]) ≤ widths ((A ++ (c, w) :: B).take (n + l.2 + 1)) := by
          rw [List.take_append, List.take_of_length_le (by omega), widths_append, widths_append,
            show n + l.2 + 1 - A.length = (n + l.2 - A.length) + 1 by omega, List.take_succ_cons, widths_cons]
          simp [widths]
        rw [← hpos, widths_append] at hin
        simp [widths] at hin hlen1
        omega
    · have hend : ∀ (ls : List (Str × Nat)) (pos : Nat) (b : Book ν) (off : Nat), off ≤ pos + (ls.map (·.2)).sum →
          (pollLoop cols f false ls pos b off).1.2 ≤ pos + (ls.map (·.2)).sum := by
        intro ls
        induction ls with
        | nil => intro pos b off h; simpa [pollLoop] using h
        | cons x ls ih =>
          intro pos b off h
          obtain ⟨raw, m⟩ := x
          simp only [List.map_cons, List.sum_cons] at h ⊢
          have ih' : ∀ b off, off ≤ pos + m + (ls.map (·.2)).sum → (pollLoop cols f false ls (pos + m) b off).1.2 ≤ pos + (m + (ls.map (·.2)).sum) :=
            fun b off h => by have := ih (pos + m) b off h; omega
          simp only [pollLoop]
          split
          · exact h
          · exact ih' _ _ (by omega)
          · split
            · exact ih' _ _ (by omega)
            · exact ih' _ _ (by omega)
            · simpa using h
      have hj := hend ((rawLines gs.text).take k) 0 b 0 (by omega)
      rw [e3, Nat.zero_add] at hj
      rw [hposA _ (Nat.le_trans hj e4)]
      simpa [pollBytes, widths] using hloop

/-- Chunks of four bytes: the wrong byte is in the second, so that the first of two lines is processed and the second is not. -/
example : pollBytes utf8 4 2 (fun b _ => .done (b ++ [(c!"x", exOrder)])) false 9 ((inUtf8 c!"a,\nbc,\n").bytes ++ [0xff] ++ [0x31])
    ([] : Book Int) ⟨0, false⟩ =
    some (([(c!"x", exOrder)], ⟨3, false⟩), .raised .valueError) ∧ IsWrong utf8 [0xff] := by
  refine ⟨by decide +kernel, by decide, by decide, fun p hp hne hne' => ?_⟩
  match p, hp with
  | [], _ => exact absurd rfl hne
  | [x], hp => simp at hp; subst hp; exact absurd rfl hne'
  | x :: y :: p, hp => simp at hp

end Jq
