import Verif.Lemmas.Csv
import Verif.Props.C82_Encoding
set_option linter.unusedSectionVars false
/-! # C82: a remembered position from which nothing is read any more -/
namespace Jq
variable {ν : Type} [GateNum ν]

/-- Where the text from the remembered position begins with a line of too few columns nothing is read and the position
stays. -/
theorem c82_blocked_refuted (D : Codec) (N : Nat) (hN : 0 < N) (lost : Bytes) (gs : Encoded) (hg : gs.In D) (cols : Nat) (f : Book ν → List Str → LineRes ν)
    (ign : Bool) (fuel : Nat) (b : Book ν) (l : Str) (n : Nat) (rest : List (Str × Nat)) (h : rawLines gs.text = (l, n) :: rest)
    (hs : lineKind cols l = .stop) :
    pollBytes D N cols f ign (fuel + 1) (lost ++ gs.bytes) b ⟨lost.length, false⟩ = some ((b, ⟨lost.length, false⟩), .stopped) := by
  have hb : StandsBefore D (lost ++ gs.bytes) (TextIn.seek ⟨lost.length, false⟩) (sized gs) := by
    refine ⟨by simp [TextIn.seek], sized gs, ?_, by simp [TextIn.seek]⟩
    simp only [TextIn.seek, List.drop_left]
    exact decode_all hg
  rcases readLine_before hN ((lost ++ gs.bytes).length + 1) hb (by simp [TextIn.seek]; omega) with ⟨h1, _⟩ | ⟨l', m, h1, _, _, hl, _⟩
  · rw [← textOf_sized, h1] at h; simp [textOf, rawLines] at h
  · rw [textOf_sized, h] at hl
    injection hl with hl _
    injection hl with hl _
    subst hl
    simp only [pollBytes, byteLoop]
    generalize hr : TextIn.readLine D N (lost ++ gs.bytes) ((lost ++ gs.bytes).length + 1) (TextIn.seek ⟨lost.length, false⟩) = r at h1
    obtain ⟨s', x⟩ := r
    simp only at h1
    subst h1
    simp [hs]

/-- One wrong byte while the broker is in the middle of a line silences the file: what is written afterwards begins with the
rest of that line, and if this has too few columns nothing is read from then on, however much is written. -/
theorem c82_silenced_refuted (D : Codec) (N : Nat) (pre : Bytes) (gs : Encoded) (hg : gs.In D) (g : Bytes) (hw : IsWrong D g) (half : Bytes)
    (hN : (gs.bytes ++ g ++ half).length ≤ N) (tail more : Encoded) (ht : (tail ++ more).In D) (cols : Nat) (hl : '\n' ∉ tail.text ∧ '\r' ∉ tail.text)
    (hs : lineKind cols tail.text = .stop) (f : Book ν → List Str → LineRes ν) (b : Book ν) (fuel : Nat) (nl : Bytes) (hnl : IsChar D nl '\n') :
    ∃ off, pollBytes D N cols f true (fuel + 2) (pre ++ (gs.bytes ++ g ++ half)) b ⟨pre.length, false⟩ = some ((b, off), .eof) ∧
      pollBytes D N cols f true (fuel + 1) (pre ++ (gs.bytes ++ g ++ half) ++ (tail.bytes ++ nl ++ more.bytes)) b off = some ((b, off), .stopped) := by
  refine ⟨_, c82_chunk_lost_refuted D N pre gs hg g hw half hN cols f fuel b, ?_⟩
  have h0 : 0 < N := by
    have : 0 < g.length := List.length_pos_iff.2 hw.2.1
    simp only [List.length_append] at hN; omega
  have e : tail.bytes ++ nl ++ more.bytes = Encoded.bytes (tail ++ [(nl, '\n')] ++ more) := by simp [Encoded.bytes]
  have hd : Encoded.In D (tail ++ [(nl, '\n')] ++ more) := by
    intro x hx
    simp only [List.mem_append, List.mem_singleton] at hx
    rcases hx with (hx | hx) | hx
    · exact ht x (List.mem_append_left _ hx)
    · subst hx; exact hnl
    · exact ht x (List.mem_append_right _ hx)
  rw [e]
  have hr : rawLines (Encoded.text (tail ++ [(nl, '\n')] ++ more)) = (tail.text, tail.text.length + 1) :: rawLines more.text := by
    have : Encoded.text (tail ++ [(nl, '\n')] ++ more) = tail.text ++ '\n' :: more.text := by simp [Encoded.text]
    rw [this]
    exact rawLines_line hl _
  exact c82_blocked_refuted D N h0 _ _ hd cols f true fuel b _ _ _ hr hs

/-- A position with a held back `\r` is not left either, although the chunk from it on can be read. -/
theorem c82_held_back_refuted (D : Codec) (N : Nat) (lost : Bytes) (gs : Encoded) (hg : gs.In D) (hne : gs ≠ []) (hN : gs.bytes.length = N) (more : Bytes)
    (cols : Nat) (f : Book ν → List Str → LineRes ν) (ign : Bool) (fuel : Nat) (b : Book ν) :
    pollBytes D N cols f ign (fuel + 1) (lost ++ (gs.bytes ++ more)) b ⟨lost.length, true⟩ = some ((b, ⟨lost.length, true⟩), .stopped) := by
  have hc : ((lost ++ (gs.bytes ++ more)).drop lost.length).take N = gs.bytes := by
    rw [List.drop_left, ← hN, List.take_left]
  obtain ⟨x, xs, hx⟩ : ∃ x xs, gs.bytes = x :: xs := by
    obtain ⟨⟨g, c⟩, gs, rfl⟩ := List.exists_cons_of_ne_nil hne
    have := (hg (g, c) (by simp)).2.1
    obtain ⟨y, ys, rfl⟩ := List.exists_cons_of_ne_nil this
    exact ⟨y, ys ++ Encoded.bytes gs, by simp [Encoded.bytes]⟩
  have hd := decode_all hg
  rw [hx] at hd
  rw [show gs.bytes = x :: xs from hx] at hc
  obtain ⟨d, ds, hds⟩ : ∃ d ds, sized gs = d :: ds := List.exists_cons_of_ne_nil (by simpa [sized] using hne)
  have hlen : (lost ++ (gs.bytes ++ more)).length = (lost.length + xs.length + more.length) + 1 := by rw [hx]; simp; omega
  have ht : takeLine ([('\r', 1)] ++ sized gs) = some ([], if d.1 = '\n' then ds else d :: ds) := by
    rw [hds]; simp only [List.singleton_append, takeLine, if_neg (show ¬ '\r' = '\n' by decide), if_true]; split <;> rfl
  rw [hx] at hlen ⊢
  simp only [pollBytes, byteLoop, hlen, TextIn.readLine, TextIn.seek, if_true, show takeLine [('\r', 1)] = none from rfl, hc, hd, ht]
  have hk : lineKind cols [] = .stop := rfl
  simp [hk]

/-- In chunks of eight bytes, a lone `\r` before the end of the first one and a wrong byte at the end of the third: two lines are
read, the position is 15 with the `\r` held back. -/
def heldBack : Bytes := (inUtf8 c!"a,b,cc\r中,d,e\nf,g\nh,i\n").bytes ++ [0xff]

/-- From there on nothing is read: not the two lines that could be, nor anything that is appended. -/
theorem c82_held_back_witness (more : Bytes) (f : Book ν → List Str → LineRes ν) (b : Book ν) (ign : Bool) (fuel : Nat) :
    pollBytes utf8 8 2 (fun b _ => .done (b ++ [(c!"x", exOrder)])) true 9 heldBack [] ⟨0, false⟩ =
      some (([(c!"x", exOrder), (c!"x", exOrder)], ⟨15, true⟩), .eof) ∧
    pollBytes utf8 8 2 f ign (fuel + 1) (heldBack ++ more) b ⟨15, true⟩ = some ((b, ⟨15, true⟩), .stopped) := by
  refine ⟨by decide +kernel, ?_⟩
  have := c82_held_back_refuted utf8 8 ((inUtf8 c!"a,b,cc\r中,d,e\n").bytes) (inUtf8 c!"f,g\nh,i\n") (c82_utf8_partial _).1 (by decide) (by decide +kernel)
    ([0xff] ++ more) 2 f ign fuel b
  have e1 : ((inUtf8 c!"a,b,cc\r中,d,e\n").bytes).length = 15 := by decide +kernel
  rw [e1] at this
  have e2 : heldBack ++ more = (inUtf8 c!"a,b,cc\r中,d,e\n").bytes ++ ((inUtf8 c!"f,g\nh,i\n").bytes ++ ([0xff] ++ more)) := by
    simp [heldBack, inUtf8, Encoded.bytes]
  rw [e2]
  exact this

/-- A wrong byte in an update whose line is not finished yet, and the file is silent: the fill of `b1`, written afterwards, is
not seen. -/
example : let lost := asciiBytes c!"93002,20240102,093002,UM0,10,600000.SH,1,5,100,9,0,0,0,0,0,78,,b2," ++ [0xd6, 0xd0]
    let file := lost ++ (asciiBytes c!",c1" ++ asciiBytes c!"\n" ++ asciiBytes (fileText [exUpdate c!"b1" c!"2" c!"100"]))
    (pollBytes utf8 8192 20 updateLine true 9 lost [(c!"b1", exOrder)] ⟨0, false⟩).map (·.1.2) = some ⟨lost.length, false⟩ ∧
    (pollBytes utf8 8192 20 updateLine true 9 file [(c!"b1", exOrder)] ⟨lost.length, false⟩).map (fun r => (r.1.1.map (·.2.status), r.1.2.pos, r.2)) =
      some ([some c!"new"], lost.length, .stopped) := by decide +kernel

end Jq
