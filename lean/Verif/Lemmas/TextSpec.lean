import Verif.Spec.TextFile
import Verif.Lemmas.TextFile
set_option linter.unusedSectionVars false
/-! # The decoder meets the specification of encoded texts -/
namespace Jq

theorem decode_begun {D : Codec} (p g : Bytes) (h : ∀ q, q <+: g → q ≠ [] → D.tok (p ++ q) = .more) (rest : Bytes) :
    decodeBytes D p (g ++ rest) = decodeBytes D (p ++ g) rest := by
  induction g generalizing p with
  | nil => simp
  | cons x g ih =>
    have hx := h [x] (by simp) (by simp)
    simp only [List.cons_append, decodeBytes, hx]
    rw [ih (p ++ [x])]
    · simp
    · intro q hq hne
      have := h (x :: q) (by simpa using hq) (by simp)
      simpa using this

theorem decode_char {D : Codec} {g : Bytes} {c : Char} (h : IsChar D g c) (rest : Bytes) :
    decodeBytes D [] (g ++ rest) = (decodeBytes D [] rest).map fun r => ((c, g.length) :: r.1, r.2) := by
  obtain ⟨h1, h2, h3⟩ := h
  have hg : g = g.dropLast ++ [g.getLast h2] := (List.dropLast_concat_getLast h2).symm
  have hd : ∀ q, q <+: g.dropLast → q ≠ [] → D.tok ([] ++ q) = .more := by
    intro q hq hne
    refine h3 q (hq.trans (List.dropLast_prefix g)) hne ?_
    intro e
    have := hq.length_le
    have := List.length_pos_iff.2 h2
    subst e
    simp only [List.length_dropLast] at *
    omega
  rw [hg, List.append_assoc, decode_begun [] g.dropLast hd]
  simp only [List.nil_append, List.singleton_append, decodeBytes]
  rw [← hg, h1]
  simp only [List.length_dropLast]
  have := List.length_pos_iff.2 h2
  rw [show g.length - 1 + 1 = g.length by omega]

theorem decode_wrong {D : Codec} {g : Bytes} (h : IsWrong D g) (rest : Bytes) : decodeBytes D [] (g ++ rest) = none := by
  obtain ⟨h1, h2, h3⟩ := h
  have hg : g = g.dropLast ++ [g.getLast h2] := (List.dropLast_concat_getLast h2).symm
  have hd : ∀ q, q <+: g.dropLast → q ≠ [] → D.tok ([] ++ q) = .more := by
    intro q hq hne
    refine h3 q (hq.trans (List.dropLast_prefix g)) hne ?_
    intro e
    have := hq.length_le
    have := List.length_pos_iff.2 h2
    subst e
    simp only [List.length_dropLast] at *
    omega
  rw [hg, List.append_assoc, decode_begun [] g.dropLast hd]
  simp only [List.nil_append, List.singleton_append, decodeBytes]
  rw [← hg, h1]

theorem decode_open {D : Codec} {g : Bytes} (h : IsBegun D g) : decodeBytes D [] g = some ([], g) := by
  have := decode_begun (D := D) [] g (by simpa using h.2) []
  simpa [decodeBytes] using this

/-- The characters with their numbers of bytes. -/
def sized (gs : Encoded) : List (Char × Nat) := gs.map fun g => (g.2, g.1.length)

theorem decode_encoded {D : Codec} {gs : Encoded} (h : gs.In D) (rest : Bytes) :
    decodeBytes D [] (gs.bytes ++ rest) = (decodeBytes D [] rest).map fun r => (sized gs ++ r.1, r.2) := by
  induction gs with
  | nil => simp [Encoded.bytes, sized]
  | cons g gs ih =>
    have : Encoded.bytes (g :: gs) ++ rest = g.1 ++ (Encoded.bytes gs ++ rest) := by simp [Encoded.bytes]
    rw [this, decode_char (h g (by simp)), ih (fun x hx => h x (by simp [hx]))]
    cases decodeBytes D [] rest <;> simp [sized]

theorem decode_all {D : Codec} {gs : Encoded} (h : gs.In D) : decodeBytes D [] gs.bytes = some (sized gs, []) := by
  have := decode_encoded h []
  simpa [decodeBytes] using this

theorem textOf_sized (gs : Encoded) : textOf (sized gs) = gs.text := by
  simp [textOf, sized, Encoded.text, Function.comp_def]

theorem widths_sized (gs : Encoded) : widths (sized gs) = gs.bytes.length := by
  induction gs with
  | nil => rfl
  | cons g gs ih =>
    have h1 : sized (g :: gs) = (g.2, g.1.length) :: sized gs := rfl
    have h2 : Encoded.bytes (g :: gs) = g.1 ++ Encoded.bytes gs := by simp [Encoded.bytes]
    rw [h1, widths_cons, ih, h2, List.length_append]

theorem bytePos_sized (gs : Encoded) (k : Nat) : bytePos (sized gs) k = gs.pos k := by
  have : (sized gs).take k = sized (gs.take k) := by simp [sized, List.map_take]
  rw [bytePos, this, widths_sized]
  rfl

theorem pollBytes_text {ν : Type} [GateNum ν] {D : Codec} {N : Nat} (hN : 0 < N) {gs : Encoded} (h : gs.In D) (cols : Nat)
    (f : Book ν → List Str → LineRes ν) (ign : Bool) (fuel : Nat) (hf : gs.length < fuel) (b : Book ν) (k : Nat) (hk : k ≤ gs.length) :
    pollBytes D N cols f ign fuel gs.bytes b (gs.pos k) =
      some (((pollFile cols f ign gs.text b k).1.1, gs.pos (pollFile cols f ign gs.text b k).1.2), (pollFile cols f ign gs.text b k).2) := by
  have hC := decode_all h
  have hl : (sized gs).length = gs.length := by simp [sized]
  have hb := before_seek hC k (by omega)
  have := byteLoop_before hN hC cols f ign fuel k _ hb b k (by omega)
  simp only [bytePos_sized] at this
  simp only [pollBytes, pollFile]
  rw [this]
  have ht : textOf ((sized gs).drop k) = gs.text.drop k := by rw [← textOf_sized]; simp [textOf, List.map_drop]
  rw [ht]

/-! UTF-8 -/

theorem isChar_one {D : Codec} {a : UInt8} {c : Char} (h : D.tok [a] = .char c) : IsChar D [a] c := by
  refine ⟨h, by simp, fun p hp hne hne' => ?_⟩
  match p, hp with
  | [], _ => exact absurd rfl hne
  | x :: p, hp => simp at hp; obtain ⟨rfl, rfl⟩ := hp; exact absurd rfl hne'

theorem isChar_two {D : Codec} {a b : UInt8} {c : Char} (h1 : D.tok [a] = .more) (h : D.tok [a, b] = .char c) : IsChar D [a, b] c := by
  refine ⟨h, by simp, fun p hp hne hne' => ?_⟩
  match p, hp with
  | [], _ => exact absurd rfl hne
  | [x], hp => simp at hp; subst hp; exact h1
  | x :: y :: p, hp => simp at hp; obtain ⟨rfl, rfl, rfl⟩ := hp; exact absurd rfl hne'

theorem isChar_three {D : Codec} {a b c : UInt8} {ch : Char} (h1 : D.tok [a] = .more) (h2 : D.tok [a, b] = .more) (h : D.tok [a, b, c] = .char ch) :
    IsChar D [a, b, c] ch := by
  refine ⟨h, by simp, fun p hp hne hne' => ?_⟩
  match p, hp with
  | [], _ => exact absurd rfl hne
  | [x], hp => simp at hp; subst hp; exact h1
  | [x, y], hp => simp at hp; obtain ⟨rfl, rfl⟩ := hp; exact h2
  | x :: y :: z :: p, hp => simp at hp; obtain ⟨rfl, rfl, rfl, rfl⟩ := hp; exact absurd rfl hne'

theorem isChar_four {D : Codec} {a b c d : UInt8} {ch : Char} (h1 : D.tok [a] = .more) (h2 : D.tok [a, b] = .more) (h3 : D.tok [a, b, c] = .more)
    (h : D.tok [a, b, c, d] = .char ch) : IsChar D [a, b, c, d] ch := by
  refine ⟨h, by simp, fun p hp hne hne' => ?_⟩
  match p, hp with
  | [], _ => exact absurd rfl hne
  | [x], hp => simp at hp; subst hp; exact h1
  | [x, y], hp => simp at hp; obtain ⟨rfl, rfl⟩ := hp; exact h2
  | [x, y, z], hp => simp at hp; obtain ⟨rfl, rfl, rfl⟩ := hp; exact h3
  | x :: y :: z :: w :: p, hp => simp at hp; obtain ⟨rfl, rfl, rfl, rfl, rfl⟩ := hp; exact absurd rfl hne'

/-- Every character is what its UTF-8 bytes are read as. -/
theorem utf8_isChar (c : Char) : IsChar utf8 (String.utf8EncodeChar c) c := by
  have hv : c.val.toNat < 0xd800 ∨ (0xdfff < c.val.toNat ∧ c.val.toNat < 0x110000) := c.valid
  have hc : ∀ n, n = c.val.toNat → Char.ofNat n = c := by
    rintro n rfl
    exact Char.ofNat_toNat c
  simp only [String.utf8EncodeChar]
  generalize c.val.toNat = v at hv hc
  have hlt : ∀ x y : UInt8, x < y ↔ x.toNat < y.toNat := fun x y => UInt8.lt_iff_toNat_lt
  have heq : ∀ x y : UInt8, x = y ↔ x.toNat = y.toNat := fun x y => UInt8.toNat_inj.symm
  have hof : ∀ n, (UInt8.ofNat n).toNat = n % 256 := fun n => UInt8.toNat_ofNat'
  split
  · apply isChar_one
    simp only [utf8, utf8Tok, hlt, hof]
    rw [if_pos (by simp; omega), hc _ (by omega)]
  · split
    · apply isChar_two
      · simp only [utf8, utf8Tok, hlt, hof]
        rw [if_neg (by simp; omega), if_neg (by simp; omega), if_pos (by simp; omega)]
      · simp only [utf8, utf8Tok, hlt, hof]
        rw [if_neg (by simp; omega), if_pos (by simp; omega), hc _ (by omega)]
    · split
      · apply isChar_three
        · simp only [utf8, utf8Tok, hlt, hof]
          rw [if_neg (by simp; omega), if_neg (by simp; omega), if_pos (by simp; omega)]
        · simp only [utf8, utf8Tok, hlt, heq, hof]
          rw [if_neg (by simp; omega), if_neg (by simp; omega), if_neg (by simp; omega), if_neg (by simp; omega), if_neg (by simp; omega),
            if_neg (by simp; omega)]
        · simp only [utf8, utf8Tok, hlt, hof]
          rw [if_neg (by simp; omega), if_pos (by simp; omega), hc _ (by omega)]
      · apply isChar_four
        · simp only [utf8, utf8Tok, hlt, hof]
          rw [if_neg (by simp; omega), if_neg (by simp; omega), if_pos (by simp; omega)]
        · simp only [utf8, utf8Tok, hlt, heq, hof]
          rw [if_neg (by simp; omega), if_neg (by simp; omega), if_neg (by simp; omega), if_neg (by simp; omega), if_neg (by simp; omega),
            if_neg (by simp; omega)]
        · simp only [utf8, utf8Tok, hlt, hof]
          rw [if_neg (by simp; omega), if_neg (by simp; omega)]
        · simp only [utf8, utf8Tok, hlt, hof]
          rw [if_neg (by simp; omega), hc _ (by omega)]

private theorem encode_ofNat (n : Nat) (h : n < 0xd800 ∨ (0xdfff < n ∧ n < 0x110000)) : (Char.ofNat n).val.toNat = n := by
  have hv : n.isValidChar := h
  simp only [Char.ofNat, hv, dif_pos]
  rfl

private theorem utf8_more1 {a : UInt8} (h : utf8Tok [a] = .more) : 0xc2 ≤ a.toNat ∧ a.toNat < 0xf5 := by
  have hlt : ∀ x y : UInt8, x < y ↔ x.toNat < y.toNat := fun x y => UInt8.lt_iff_toNat_lt
  simp only [utf8Tok, hlt] at h
  (repeat' split at h) <;> simp only [reduceCtorEq] at h
  simp at *
  omega

private theorem utf8_cont {b : UInt8} {p q : Tok} (h : (if b < 0x80 ∨ 0xbf < b then Tok.bad else p) = q) (hq : q ≠ .bad) :
    p = q ∧ 0x80 ≤ b.toNat ∧ b.toNat ≤ 0xbf := by
  have hlt : ∀ x y : UInt8, x < y ↔ x.toNat < y.toNat := fun x y => UInt8.lt_iff_toNat_lt
  simp only [hlt] at h
  split at h
  · exact absurd h.symm hq
  · rename_i hx
    simp at hx
    exact ⟨h, by omega⟩

private theorem utf8_more2 {a b : UInt8} (h : utf8Tok [a, b] = .more) :
    (0x80 ≤ b.toNat ∧ b.toNat ≤ 0xbf) ∧ 0xe0 ≤ a.toNat ∧ (a.toNat = 0xe0 → 0xa0 ≤ b.toNat) ∧ (a.toNat = 0xed → b.toNat ≤ 0x9f) ∧
      (a.toNat = 0xf0 → 0x90 ≤ b.toNat) ∧ (a.toNat = 0xf4 → b.toNat ≤ 0x8f) := by
  have hlt : ∀ x y : UInt8, x < y ↔ x.toNat < y.toNat := fun x y => UInt8.lt_iff_toNat_lt
  have heq : ∀ x y : UInt8, x = y ↔ x.toNat = y.toNat := fun x y => UInt8.toNat_inj.symm
  obtain ⟨h1, h2⟩ := utf8_cont h (by simp)
  refine ⟨h2, ?_⟩
  clear h
  simp only [hlt, heq] at h1
  split at h1
  · simp only [reduceCtorEq] at h1
  · (repeat' split at h1) <;> simp only [reduceCtorEq] at h1
    simp at *
    omega

/-- Only the UTF-8 bytes of a character are read as it. -/
theorem utf8_only {g : Bytes} {c : Char} (h : IsChar utf8 g c) : g = String.utf8EncodeChar c := by
  obtain ⟨h1, h2, h3⟩ := h
  have hlt : ∀ x y : UInt8, x < y ↔ x.toNat < y.toNat := fun x y => UInt8.lt_iff_toNat_lt
  have heq : ∀ x y : UInt8, x = y ↔ x.toNat = y.toNat := fun x y => UInt8.toNat_inj.symm
  have hof : ∀ n, (UInt8.ofNat n).toNat = n % 256 := fun n => UInt8.toNat_ofNat'
  match g, h2 with
  | [a], _ =>
    have ha := a.toNat_lt
    simp only [utf8, utf8Tok, hlt] at h1
    split at h1
    · rename_i hx
      cases h1
      simp at hx
      simp only [String.utf8EncodeChar, encode_ofNat a.toNat (by omega)]
      rw [if_pos (by omega)]
      simp
    · (repeat' split at h1) <;> cases h1
  | [a, b], _ =>
    obtain ⟨a1, a2⟩ := utf8_more1 (h3 [a] (by simp) (by simp) (by simp))
    obtain ⟨h4, b1, b2⟩ := utf8_cont h1 (by simp)
    simp only [hlt] at h4
    split at h4
    · rename_i hx
      simp at hx
      rw [Tok.char.injEq] at h4
      rw [← h4]
      simp only [String.utf8EncodeChar, encode_ofNat ((a.toNat - 0xc0) * 64 + (b.toNat - 0x80)) (by omega)]
      rw [if_neg (by omega), if_pos (by omega)]
      simp only [heq, hof, List.cons.injEq, and_true]
      omega
    · (repeat' split at h4) <;> simp only [reduceCtorEq] at h4
  | [a, b, d], _ =>
    obtain ⟨a1, a2⟩ := utf8_more1 (h3 [a] (by simp) (by simp) (by simp))
    obtain ⟨b1, b2⟩ := utf8_more2 (h3 [a, b] (by simp) (by simp) (by simp))
    obtain ⟨h4, d1, d2⟩ := utf8_cont h1 (by simp)
    simp only [hlt] at h4
    split at h4
    · rename_i hx
      simp at hx
      rw [Tok.char.injEq] at h4
      rw [← h4]
      simp only [String.utf8EncodeChar, encode_ofNat ((a.toNat - 0xe0) * 4096 + (b.toNat - 0x80) * 64 + (d.toNat - 0x80)) (by omega)]
      rw [if_neg (by omega), if_neg (by omega), if_pos (by omega)]
      simp only [heq, hof, List.cons.injEq, and_true]
      omega
    · simp only [reduceCtorEq] at h4
  | [a, b, d, e], _ =>
    obtain ⟨a1, a2⟩ := utf8_more1 (h3 [a] (by simp) (by simp) (by simp))
    obtain ⟨b1, b2⟩ := utf8_more2 (h3 [a, b] (by simp) (by simp) (by simp))
    have h5 := h3 [a, b, d] (by simp) (by simp) (by simp)
    obtain ⟨h5, d1, d2⟩ := utf8_cont h5 (by simp)
    obtain ⟨h4, e1, e2⟩ := utf8_cont h1 (by simp)
    simp only [hlt] at h5
    split at h5
    · simp only [reduceCtorEq] at h5
    · rename_i hx
      simp at hx
      rw [Tok.char.injEq] at h4
      rw [← h4]
      simp only [String.utf8EncodeChar,
        encode_ofNat ((a.toNat - 0xf0) * 262144 + (b.toNat - 0x80) * 4096 + (d.toNat - 0x80) * 64 + (e.toNat - 0x80)) (by omega)]
      rw [if_neg (by omega), if_neg (by omega), if_neg (by omega)]
      simp only [heq, hof, List.cons.injEq, and_true]
      omega
  | _ :: _ :: _ :: _ :: _ :: _, _ => cases h1

end Jq
