import Verif.Model.TextFile
import Verif.Lemmas.OrderSync
set_option linter.unusedSectionVars false
/-! # Lemmas about the byte-level reader -/
namespace Jq

theorem decodeBytes_append (D : Codec) (p a b : Bytes) :
    decodeBytes D p (a ++ b) =
      (decodeBytes D p a).bind fun r => (decodeBytes D r.2 b).map fun t => (r.1 ++ t.1, t.2) := by
  induction a generalizing p with
  | nil => simp [decodeBytes]
  | cons x a ih =>
    simp only [List.cons_append, decodeBytes]
    cases D.tok (p ++ [x]) with
    | bad => rfl
    | more => exact ih _
    | char c =>
      simp only [ih]
      cases decodeBytes D [] a with
      | none => rfl
      | some r =>
        simp only [Option.bind_some, Option.map_some]
        cases decodeBytes D r.2 b <;> rfl

theorem widths_append (a b : List (Char × Nat)) : widths (a ++ b) = widths a + widths b := by
  simp [widths]

theorem widths_cons (a : Char × Nat) (b : List (Char × Nat)) : widths (a :: b) = a.2 + widths b := by
  simp [widths]

theorem decodeBytes_widths {D : Codec} {p bs : Bytes} {cs : List (Char × Nat)} {q : Bytes} (h : decodeBytes D p bs = some (cs, q)) :
    p.length + bs.length = widths cs + q.length := by
  induction bs generalizing p cs with
  | nil => simp only [decodeBytes, Option.some.injEq, Prod.mk.injEq] at h; obtain ⟨rfl, rfl⟩ := h; simp [widths]
  | cons x bs ih =>
    simp only [decodeBytes] at h
    cases hx : D.tok (p ++ [x]) with
    | bad => rw [hx] at h; cases h
    | more => rw [hx] at h; have := ih h; simp at this ⊢; omega
    | char c =>
      rw [hx] at h
      simp only [Option.map_eq_some_iff] at h
      obtain ⟨⟨ds, q'⟩, h1, h2⟩ := h
      simp only [Prod.mk.injEq] at h2
      obtain ⟨rfl, rfl⟩ := h2
      have := ih h1
      simp only [widths_cons]
      simp at this ⊢
      omega

theorem textOf_append (a b : List (Char × Nat)) : textOf (a ++ b) = textOf a ++ textOf b := by simp [textOf]

/-- A line that is there stays there when more is read. -/
theorem takeLine_append {cs : List (Char × Nat)} {l : Str} {rest : List (Char × Nat)} (h : takeLine cs = some (l, rest)) (ds : List (Char × Nat)) :
    takeLine (cs ++ ds) = some (l, rest ++ ds) := by
  induction cs generalizing l rest with
  | nil => simp [takeLine] at h
  | cons c cs ih =>
    obtain ⟨c, w⟩ := c
    simp only [List.cons_append, takeLine] at h ⊢
    split at h
    · rename_i hc
      simp only [Option.some.injEq, Prod.mk.injEq] at h
      obtain ⟨rfl, rfl⟩ := h
      simp [hc]
    · rename_i hc
      rw [if_neg hc]
      split at h
      · rename_i hc'
        rw [if_pos hc']
        cases cs with
        | nil => cases h
        | cons d cs =>
          simp only [List.cons_append] at h ⊢
          split at h <;> (rename_i hd; simp only [Option.some.injEq, Prod.mk.injEq] at h; obtain ⟨rfl, rfl⟩ := h; simp [hd])
      · rename_i hc'
        rw [if_neg hc']
        simp only [Option.map_eq_some_iff] at h ⊢
        obtain ⟨⟨l', r'⟩, h1, h2⟩ := h
        simp only [Prod.mk.injEq] at h2
        obtain ⟨rfl, rfl⟩ := h2
        exact ⟨_, ih h1, rfl⟩

/-- `takeLine` is the first of the lines. -/
theorem takeLine_rawLines {cs : List (Char × Nat)} {l : Str} {rest : List (Char × Nat)} (h : takeLine cs = some (l, rest)) :
    ∃ n, 0 < n ∧ n ≤ cs.length ∧ rest = cs.drop n ∧ rawLines (textOf cs) = (l, n) :: rawLines (textOf rest) := by
  induction cs generalizing l rest with
  | nil => simp [takeLine] at h
  | cons c cs ih =>
    obtain ⟨c, w⟩ := c
    simp only [takeLine] at h
    simp only [textOf, List.map_cons, rawLines]
    split at h
    · rename_i hc
      simp only [Option.some.injEq, Prod.mk.injEq] at h
      obtain ⟨rfl, rfl⟩ := h
      exact ⟨1, by omega, by simp, by simp, by simp [hc]⟩
    · rename_i hc
      split at h
      · rename_i hc'
        cases cs with
        | nil => cases h
        | cons d cs =>
          obtain ⟨d, w'⟩ := d
          simp only at h
          split at h
          · rename_i hd
            simp only [Option.some.injEq, Prod.mk.injEq] at h
            obtain ⟨rfl, rfl⟩ := h
            subst hd hc'
            exact ⟨2, by omega, by simp, by simp, by simp [rawLines]⟩
          · rename_i hd
            simp only [Option.some.injEq, Prod.mk.injEq] at h
            obtain ⟨rfl, rfl⟩ := h
            subst hc'
            refine ⟨1, by omega, by simp, by simp, ?_⟩
            simp [hd]
      · rename_i hc'
        simp only [Option.map_eq_some_iff] at h
        obtain ⟨⟨l', r'⟩, h1, h2⟩ := h
        simp only [Prod.mk.injEq] at h2
        obtain ⟨rfl, rfl⟩ := h2
        obtain ⟨n, hn, hle, hr, hl⟩ := ih h1
        refine ⟨n + 1, by omega, by simp; omega, by simpa using hr, ?_⟩
        rw [if_neg hc, if_neg hc']
        simp only [textOf] at hl
        rw [hl]

/-- What is left without a line end is one line, or nothing. -/
theorem takeLine_none {cs : List (Char × Nat)} (h : takeLine cs = none) (hne : cs ≠ []) :
    rawLines (textOf cs) = [(if endsCr cs then (textOf cs).dropLast else textOf cs, cs.length)] := by
  induction cs with
  | nil => exact absurd rfl hne
  | cons c cs ih =>
    obtain ⟨c, w⟩ := c
    simp only [takeLine] at h
    split at h
    · cases h
    · rename_i hc
      split at h
      · rename_i hc'
        subst hc'
        cases cs with
        | nil => simp [textOf, rawLines, endsCr]
        | cons d cs => simp only at h; split at h <;> cases h
      · rename_i hc'
        simp only [Option.map_eq_none_iff] at h
        cases cs with
        | nil => simp [textOf, rawLines, endsCr, hc, hc']
        | cons d cs =>
          have := ih h (by simp)
          simp only [textOf, List.map_cons, rawLines, if_neg hc, if_neg hc'] at this ⊢
          rw [this]
          simp only [endsCr, textOf, List.map_cons, List.getLast?_cons_cons, List.length_cons]
          split <;> simp

/-- The reader `s` stands before the characters `cs`, with which the file ends. -/
structure StandsBefore (D : Codec) (file : Bytes) (s : TextIn) (cs : List (Char × Nat)) : Prop where
  le : s.buf ≤ file.length
  dec : ∃ ds, decodeBytes D s.pend (file.drop s.buf) = some (ds, []) ∧ cs = s.chars ++ ds

theorem StandsBefore.tell {D : Codec} {file : Bytes} {s : TextIn} {cs : List (Char × Nat)} (h : StandsBefore D file s cs) :
    s.tell = ⟨file.length - widths cs, false⟩ := by
  obtain ⟨hle, ds, hd, rfl⟩ := h
  have := decodeBytes_widths hd
  simp only [TextIn.tell, widths_append, Cookie.mk.injEq, and_true]
  simp at this
  omega

/-- Reading a line from a file that can be decoded. -/
theorem readLine_before {D : Codec} {N : Nat} (hN : 0 < N) {file : Bytes} (fuel : Nat) {s : TextIn} {cs : List (Char × Nat)} (h : StandsBefore D file s cs)
    (hf : file.length - s.buf < fuel) :
    (cs = [] ∧ (s.readLine D N file fuel).2 = .eof) ∨
    (∃ l n, (s.readLine D N file fuel).2 = .line l ∧ 0 < n ∧ n ≤ cs.length ∧ rawLines (textOf cs) = (l, n) :: rawLines (textOf (cs.drop n)) ∧
      StandsBefore D file (s.readLine D N file fuel).1 (cs.drop n)) := by
  induction fuel generalizing s with
  | zero => omega
  | succ k ih =>
    obtain ⟨hle, ds, hd, rfl⟩ := h
    simp only [TextIn.readLine]
    cases ht : takeLine s.chars with
    | some r =>
      obtain ⟨l, rest⟩ := r
      have h1 := takeLine_append ht ds
      obtain ⟨n, hn, hle', hr, hl⟩ := takeLine_rawLines h1
      exact .inr ⟨l, n, rfl, hn, hle', by rw [← hr]; exact hl, by rw [← hr]; exact ⟨hle, ds, hd, rfl⟩⟩
    | none =>
      simp only
      cases hch : (file.drop s.buf).take N with
      | nil =>
        have hnil : file.drop s.buf = [] := by
          cases hfd : file.drop s.buf with
          | nil => rfl
          | cons x xs => rw [hfd] at hch; cases N with | zero => omega | succ N => simp at hch
        rw [hnil, decodeBytes] at hd
        simp only [Option.some.injEq, Prod.mk.injEq] at hd
        obtain ⟨rfl, hp⟩ := hd
        simp only [hp, ne_eq, not_true_eq_false, if_false, List.append_nil]
        by_cases hcs : s.chars = []
        · exact .inl ⟨hcs, by rw [if_pos hcs]⟩
        · refine .inr ⟨_, s.chars.length, by rw [if_neg hcs], ?_, by simp, ?_, ?_⟩
          · exact List.length_pos_iff.2 hcs
          · rw [takeLine_none ht hcs]; simp [textOf, rawLines]
          · rw [if_neg hcs]
            exact ⟨hle, [], by simp [hnil, decodeBytes], by simp⟩
      | cons b bs =>
        have hsplit : file.drop s.buf = (b :: bs) ++ file.drop (s.buf + (bs.length + 1)) := by
          have h1 : bs.length + 1 ≤ N := by
            have := congrArg List.length hch
            simp only [List.length_take, List.length_cons] at this
            omega
          have h2 : (file.drop s.buf).take (bs.length + 1) = b :: bs := by
            have := congrArg (List.take (bs.length + 1)) hch
            rw [List.take_take] at this
            rw [Nat.min_eq_left h1] at this
            rw [this]
            simp
          calc file.drop s.buf = (file.drop s.buf).take (bs.length + 1) ++ (file.drop s.buf).drop (bs.length + 1) := (List.take_append_drop _ _).symm
            _ = _ := by rw [h2, List.drop_drop]
        rw [hsplit, decodeBytes_append] at hd
        cases hdc : decodeBytes D s.pend (b :: bs) with
        | none => rw [hdc] at hd; cases hd
        | some r =>
          obtain ⟨cs1, p⟩ := r
          rw [hdc] at hd
          simp only [Option.bind_some, Option.map_eq_some_iff] at hd
          obtain ⟨⟨ds2, q⟩, hd2, hd3⟩ := hd
          simp only [Prod.mk.injEq] at hd3
          obtain ⟨rfl, rfl⟩ := hd3
          have hlen : s.buf + (bs.length + 1) ≤ file.length := by
            have := congrArg List.length hsplit
            simp only [List.length_drop, List.length_append, List.length_cons] at this
            omega
          simp only [hdc]
          have := ih (s := { buf := s.buf + (bs.length + 1), pend := p, chars := s.chars ++ cs1, snap := some (s.pend.length + (bs.length + 1), endsCr s.chars) })
            ⟨hlen, ds2, hd2, by simp⟩ (by simp only; omega)
          exact this

theorem decodeBytes_tail {D : Codec} {p bs : Bytes} {c : Char} {w : Nat} {cs : List (Char × Nat)} {q : Bytes}
    (h : decodeBytes D p bs = some ((c, w) :: cs, q)) : p.length < w ∧ decodeBytes D [] (bs.drop (w - p.length)) = some (cs, q) := by
  induction bs generalizing p with
  | nil => simp [decodeBytes] at h
  | cons x bs ih =>
    simp only [decodeBytes] at h
    cases hx : D.tok (p ++ [x]) with
    | bad => rw [hx] at h; cases h
    | more =>
      rw [hx] at h
      obtain ⟨h1, h2⟩ := ih h
      simp only [List.length_append, List.length_cons, List.length_nil] at h1 h2
      refine ⟨by omega, ?_⟩
      have : w - p.length = (w - (p.length + (0 + 1))) + 1 := by omega
      rw [this, List.drop_succ_cons]
      exact h2
    | char c' =>
      rw [hx] at h
      simp only [Option.map_eq_some_iff] at h
      obtain ⟨⟨ds, q'⟩, h1, h2⟩ := h
      simp only [Prod.mk.injEq, List.cons.injEq] at h2
      obtain ⟨⟨⟨rfl, rfl⟩, rfl⟩, rfl⟩ := h2
      refine ⟨by omega, ?_⟩
      rw [show p.length + 1 - p.length = 1 by omega]
      exact h1

theorem decodeBytes_drop {D : Codec} {bs : Bytes} {C : List (Char × Nat)} {q : Bytes} (h : decodeBytes D [] bs = some (C, q)) (k : Nat) (hk : k ≤ C.length) :
    decodeBytes D [] (bs.drop (widths (C.take k))) = some (C.drop k, q) := by
  induction k generalizing C bs with
  | zero => simpa [widths] using h
  | succ k ih =>
    cases C with
    | nil => simp at hk
    | cons c C =>
      obtain ⟨c, w⟩ := c
      obtain ⟨_, h2⟩ := decodeBytes_tail h
      have := ih h2 (by simpa using hk)
      simp only [List.take_succ_cons, widths_cons, List.drop_succ_cons]
      simpa [List.drop_drop] using this

/-- The position in the file of the `k`-th character. -/
def bytePos (C : List (Char × Nat)) (k : Nat) : Cookie := ⟨widths (C.take k), false⟩

theorem bytePos_tell {D : Codec} {file : Bytes} {C : List (Char × Nat)} (hC : decodeBytes D [] file = some (C, [])) {s : TextIn} {k : Nat}
    (h : StandsBefore D file s (C.drop k)) : s.tell = bytePos C k := by
  rw [h.tell, bytePos]
  have h1 := decodeBytes_widths hC
  have h2 := widths_append (C.take k) (C.drop k)
  rw [List.take_append_drop] at h2
  simp at h1
  congr 1
  omega

theorem before_seek {D : Codec} {file : Bytes} {C : List (Char × Nat)} (hC : decodeBytes D [] file = some (C, [])) (k : Nat) (hk : k ≤ C.length) :
    StandsBefore D file (TextIn.seek (bytePos C k)) (C.drop k) := by
  have h1 := decodeBytes_widths hC
  have h2 := widths_append (C.take k) (C.drop k)
  rw [List.take_append_drop] at h2
  simp at h1
  exact ⟨by simp [TextIn.seek, bytePos]; omega, C.drop k, decodeBytes_drop hC k hk, by simp [TextIn.seek, bytePos]⟩

variable {ν : Type} [GateNum ν]

theorem byteLoop_before {D : Codec} {N : Nat} (hN : 0 < N) {file : Bytes} {C : List (Char × Nat)} (hC : decodeBytes D [] file = some (C, [])) (cols : Nat)
    (f : Book ν → List Str → LineRes ν) (ign : Bool) (fuel k : Nat) (s : TextIn) (hs : StandsBefore D file s (C.drop k)) (b : Book ν) (j : Nat)
    (hf : C.length - k < fuel) :
    byteLoop D N file cols f ign fuel s b (bytePos C j) =
      some (((pollLoop cols f ign (rawLines (textOf (C.drop k))) k b j).1.1,
        bytePos C (pollLoop cols f ign (rawLines (textOf (C.drop k))) k b j).1.2), (pollLoop cols f ign (rawLines (textOf (C.drop k))) k b j).2) := by
  induction fuel generalizing k s b j with
  | zero => omega
  | succ n ih =>
    simp only [byteLoop]
    rcases readLine_before hN (file.length + 1) hs (by omega) with ⟨h1, h2⟩ | ⟨l, m, h1, hm, hle, hl, hs'⟩
    · rw [h1, show rawLines (textOf ([] : List (Char × Nat))) = [] from rfl]
      generalize hr : s.readLine D N file (file.length + 1) = r at h2 ⊢
      obtain ⟨s', r⟩ := r
      simp only at h2
      subst h2
      rfl
    · rw [hl]
      generalize hr : s.readLine D N file (file.length + 1) = r at h1 hs' ⊢
      obtain ⟨s', r⟩ := r
      simp only at h1 hs'
      subst h1
      rw [List.drop_drop] at hs'
      rw [List.drop_drop]
      simp only [pollLoop]
      have ht := bytePos_tell hC hs'
      simp only [List.length_drop] at hle
      have ih' := fun b j => ih (k + m) s' hs' b j (by omega)
      cases lineKind cols l with
      | stop => rfl
      | header => simp only [ht]; exact ih' _ _
      | fields items =>
        simp only
        cases f b items with
        | unknown => exact ih' _ _
        | done b' => simp only [ht]; exact ih' _ _
        | failed b' e =>
          simp only [ht]
          cases ign
          · rfl
          · exact ih' _ _

end Jq
