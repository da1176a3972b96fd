import Verif.Props.C82_Encoding
/-! # C82: a character that lies across the border of two chunks -/
namespace Jq
variable {ν : Type} [GateNum ν]

/-- The border of the first chunk falls into a character, and something in the second chunk, which ends the file, is wrong (`gs` are
the characters from that one on, `g` is what is wrong).  A decoder that keeps the unfinished character after a failure, like that of
UTF-8, never gets rid of it: with `ignore_error_line` the synchronisation does not end, though the file is complete.  A decoder that
does not, like that of GBK, lets it end; the lines of the first chunk are processed, the rest is lost up to what the position goes
back. -/
theorem c82_cut_character_refuted (D : Codec) (N : Nat) (pre : Bytes) (ws ts : Encoded) (hws : (ws ++ ts).In D) (p : Bytes) (hp : IsBegun D p)
    (h1 : ((ws ++ ts).bytes ++ p).length = N) (bad : Bytes) (h2 : bad.length ≤ N)
    (gs : Encoded) (hg : gs.In D) (g : Bytes) (hw : IsWrong D g) (rest : Bytes) (hb : p ++ bad = gs.bytes ++ g ++ rest)
    (cols : Nat) (f : Book ν → List Str → LineRes ν) (hwh : WholeLines ws.text) (hl : ∀ x ∈ rawLines ws.text, lineKind cols x.1 ≠ .stop)
    (ht : '\n' ∉ ts.text ∧ '\r' ∉ ts.text) (b : Book ν) :
    (D.keeps = true → ∀ fuel, pollBytes D N cols f true fuel (pre ++ ((ws ++ ts).bytes ++ p ++ bad)) b ⟨pre.length, false⟩ = none) ∧
    (D.keeps = false → ∀ fuel, ws.length + 1 < fuel →
      pollBytes D N cols f true fuel (pre ++ ((ws ++ ts).bytes ++ p ++ bad)) b ⟨pre.length, false⟩ =
        some (((pollFile cols f true ws.text b 0).1.1, ⟨pre.length + bad.length, false⟩), .eof)) := by
  have hdn : decodeBytes D p bad = none := by
    have e := decode_begun (D := D) [] p (by simpa using hp.2) bad
    rw [hb, List.append_assoc, decode_encoded hg, decode_wrong hw] at e
    simpa using e.symm
  obtain ⟨y, ys, hy⟩ : ∃ y ys, bad = y :: ys := by
    cases bad with
    | nil => simp [decodeBytes] at hdn
    | cons y ys => exact ⟨y, ys, rfl⟩
  generalize hfst : (ws ++ ts).bytes ++ p = fst at *
  obtain ⟨x, xs, hx⟩ : ∃ x xs, fst = x :: xs := by
    cases fst with
    | nil => exact absurd (List.append_eq_nil_iff.1 hfst).2 hp.1
    | cons x xs => exact ⟨x, xs, rfl⟩
  have hxl : xs.length + 1 = N := by rw [← h1, hx]; rfl
  have hc : (fst ++ bad).take N = x :: xs := by rw [List.take_append_of_le_length (by omega), List.take_of_length_le (by omega), hx]
  have hd : decodeBytes D [] (x :: xs) = some (sized (ws ++ ts), p) := by
    rw [← hx, ← hfst, decode_encoded hws, decode_open hp]; simp
  have htl : takeLine (sized ts) = none := takeLine_no_end (by rw [textOf_sized]; exact ht.1) (by rw [textOf_sized]; exact ht.2)
  have hcr : endsCr (sized ts) = false := by
    simp only [endsCr, textOf_sized]
    have : ts.text.getLast? ≠ some '\r' := fun h => ht.2 (List.mem_of_getLast? h)
    simpa using this
  have h := fun n => pollBytes_chunk (pre := pre) hc hd cols f true hwh n b (pollLoop_eof _ (by simpa using hl) _ _ _)
  have e1 : ((pre ++ (fst ++ bad)).drop (pre.length + (xs.length + 1))).take N = y :: ys := by
    rw [hxl, ← h1, ← List.append_assoc, ← List.length_append, List.drop_left, h1, List.take_of_length_le h2, hy]
  have e2 : pre.length + (xs.length + 1) + (ys.length + 1) = (pre ++ (fst ++ bad)).length := by
    rw [hxl, ← h1, hy]; simp only [List.length_append, List.length_cons]; omega
  have hr : (⟨pre.length + (xs.length + 1), p, sized ts, some (xs.length + 1, false)⟩ : TextIn).readLine D N (pre ++ (fst ++ bad))
      ((pre ++ (fst ++ bad)).length + 1) =
        (⟨(pre ++ (fst ++ bad)).length, if D.keeps then p else [], [], some (xs.length + 1, false)⟩, .raised) := by
    rw [hy] at hdn
    simp only [TextIn.readLine, htl, e1, hdn, e2, hcr, Bool.false_eq_true, if_false]
  have hlen := rawLines_length ws.text
  have e3 : ws.text.length = ws.length := by simp [Encoded.text]
  constructor
  · intro hk fuel
    cases hres : pollBytes D N cols f true fuel (pre ++ (fst ++ bad)) b ⟨pre.length, false⟩ with
    | none => rfl
    | some r =>
      have hm := byteLoop_more cols f true fuel _ b _ r hres (fuel + 1 + (rawLines ws.text).length) (by omega)
      have hs := h (fuel + 1)
      rw [pollBytes, hm] at hs
      simp only [byteLoop, hr, hk, if_true] at hs
      rw [byteLoop_spin cols f hp.1] at hs
      cases hs
  · intro hk fuel hf
    refine byteLoop_more cols f true _ _ b _ _ ((h 2).trans ?_) fuel (by omega)
    simp only [byteLoop, hr, hk, Bool.false_eq_true, if_true, if_false, readLine_end]
    simp only [TextIn.tellFailed, ne_eq, not_true_eq_false, if_false, Option.some.injEq, Prod.mk.injEq, Cookie.mk.injEq, and_true, true_and]
    rw [hxl, ← h1]; simp only [List.length_append]; omega

/-- In UTF-8 such a decoder is used. -/
theorem c82_cut_character_utf8_refuted (N : Nat) (pre : Bytes) (ws ts : Encoded) (hws : (ws ++ ts).In utf8) (p : Bytes) (hp : IsBegun utf8 p)
    (h1 : ((ws ++ ts).bytes ++ p).length = N) (bad : Bytes) (h2 : bad.length ≤ N)
    (gs : Encoded) (hg : gs.In utf8) (g : Bytes) (hw : IsWrong utf8 g) (rest : Bytes) (hb : p ++ bad = gs.bytes ++ g ++ rest)
    (cols : Nat) (f : Book ν → List Str → LineRes ν) (hwh : WholeLines ws.text) (hl : ∀ x ∈ rawLines ws.text, lineKind cols x.1 ≠ .stop)
    (ht : '\n' ∉ ts.text ∧ '\r' ∉ ts.text) (b : Book ν) (fuel : Nat) :
    pollBytes utf8 N cols f true fuel (pre ++ ((ws ++ ts).bytes ++ p ++ bad)) b ⟨pre.length, false⟩ = none :=
  (c82_cut_character_refuted utf8 N pre ws ts hws p hp h1 bad h2 gs hg g hw rest hb cols f hwh hl ht b).1 rfl fuel

/-- With GBK the synchronisation ends. -/
theorem c82_cut_character_gbk_partial (map : UInt8 → UInt8 → Option Char) (N : Nat) (pre : Bytes) (ws ts : Encoded) (hws : (ws ++ ts).In (gbk map))
    (p : Bytes) (hp : IsBegun (gbk map) p) (h1 : ((ws ++ ts).bytes ++ p).length = N) (bad : Bytes) (h2 : bad.length ≤ N)
    (gs : Encoded) (hg : gs.In (gbk map)) (g : Bytes) (hw : IsWrong (gbk map) g) (rest : Bytes) (hb : p ++ bad = gs.bytes ++ g ++ rest)
    (cols : Nat) (f : Book ν → List Str → LineRes ν) (hwh : WholeLines ws.text) (hl : ∀ x ∈ rawLines ws.text, lineKind cols x.1 ≠ .stop)
    (ht : '\n' ∉ ts.text ∧ '\r' ∉ ts.text) (b : Book ν) (fuel : Nat) (hf : ws.length + 1 < fuel) :
    pollBytes (gbk map) N cols f true fuel (pre ++ ((ws ++ ts).bytes ++ p ++ bad)) b ⟨pre.length, false⟩ =
      some (((pollFile cols f true ws.text b 0).1.1, ⟨pre.length + bad.length, false⟩), .eof) :=
  (c82_cut_character_refuted (gbk map) N pre ws ts hws p hp h1 bad h2 gs hg g hw rest hb cols f hwh hl ht b).2 rfl fuel hf

/-- A file of two chunks of two bytes: `b` and half of `é`, then the other half and a wrong byte. -/
example : IsBegun utf8 [0xc3] ∧ IsWrong utf8 [0xff] ∧ (inUtf8 [] ++ inUtf8 c!"b").In utf8 ∧ (inUtf8 c!"é").In utf8 ∧
    ((inUtf8 [] ++ inUtf8 c!"b").bytes ++ [0xc3]).length = 2 ∧
    [0xc3] ++ [0xa9, 0xff] = (inUtf8 c!"é").bytes ++ [0xff] ++ [] ∧ WholeLines (inUtf8 []).text := by
  refine ⟨⟨by simp, fun p hp hne => ?_⟩, ⟨by decide, by simp, fun p hp hne hne' => ?_⟩, (c82_utf8_partial c!"b").1, (c82_utf8_partial _).1,
    by decide, by decide, Or.inl rfl⟩
  · match p, hp with
    | [], _ => exact absurd rfl hne
    | [x], hp => simp at hp; subst hp; decide
    | x :: y :: p, hp => simp at hp
  · match p, hp with
    | [], _ => exact absurd rfl hne
    | [x], hp => simp at hp; subst hp; exact absurd rfl hne'
    | x :: y :: p, hp => simp at hp

/-- And with numbers: after a hundred rounds it is still reading; with GBK it has ended. -/
example : pollBytes utf8 2 6 (resultLine (ν := Int)) true 100 [0x62, 0xc3, 0xa9, 0xff] [] ⟨0, false⟩ = none ∧
    pollBytes (gbk fun _ _ => none) 2 6 (resultLine (ν := Int)) true 100 [0x62, 0xc3, 0xa9, 0xff] [] ⟨0, false⟩ = some (([], ⟨2, false⟩), .eof) := by
  decide +kernel

end Jq
