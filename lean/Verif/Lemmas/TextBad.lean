import Verif.Lemmas.TextSpec
set_option linter.unusedSectionVars false
/-! # Files that cannot be decoded -/
namespace Jq
variable {ν : Type} [GateNum ν]

/-- The remaining file is one chunk. -/
theorem take_rest (pre rest : Bytes) (N : Nat) : ((pre ++ rest).drop pre.length).take N = rest.take N := by
  rw [List.drop_left]

/-- The first chunk cannot be decoded. -/
theorem readLine_bad {D : Codec} {N : Nat} {pre rest : Bytes} {x : UInt8} {xs : Bytes} (hc : rest.take N = x :: xs)
    (hd : decodeBytes D [] (x :: xs) = none) (n : Nat) :
    (TextIn.seek ⟨pre.length, false⟩).readLine D N (pre ++ rest) (n + 1) =
      (⟨pre.length + (xs.length + 1), [], [], some (0, false)⟩, .raised) := by
  have h1 : ((pre ++ rest).drop (TextIn.seek ⟨pre.length, false⟩).buf).take N = x :: xs := by
    rw [← hc]; exact take_rest pre rest N
  have h2 : decodeBytes D (TextIn.seek ⟨pre.length, false⟩).pend (x :: xs) = none := hd
  simp only [TextIn.readLine, show takeLine (TextIn.seek ⟨pre.length, false⟩).chars = none from rfl, h1, h2]
  simp [TextIn.seek, endsCr, textOf]

/-- At the end of the file nothing more is read. -/
theorem readLine_end (D : Codec) (N : Nat) (file : Bytes) (pend : Bytes) (sn : Option (Nat × Bool)) (n : Nat) :
    (⟨file.length, pend, [], sn⟩ : TextIn).readLine D N file (n + 1) =
      if pend ≠ [] then (⟨file.length, pend, [], sn⟩, .raised) else (⟨file.length, pend, [], none⟩, .eof) := by
  simp only [TextIn.readLine, takeLine, List.drop_length, List.take_nil, endsCr, textOf, List.map_nil, List.getLast?_nil]
  split <;> simp

/-- The reader only looks at what comes after its position. -/
theorem readLine_congr (D : Codec) (N : Nat) (f g : Bytes) (n : Nat) (s : TextIn) (h : ∀ i, s.buf ≤ i → f.drop i = g.drop i) :
    s.readLine D N f n = s.readLine D N g n ∧ s.buf ≤ (s.readLine D N f n).1.buf := by
  induction n generalizing s with
  | zero => exact ⟨rfl, Nat.le_refl _⟩
  | succ n ih =>
    simp only [TextIn.readLine]
    cases takeLine s.chars with
    | some r => exact ⟨rfl, Nat.le_refl _⟩
    | none =>
      simp only
      rw [h s.buf (Nat.le_refl _)]
      cases hc : (g.drop s.buf).take N with
      | nil => simp only; refine ⟨trivial, ?_⟩; (repeat' split) <;> exact Nat.le_refl _
      | cons b bs =>
        simp only
        cases hd : decodeBytes D s.pend (b :: bs) with
        | none => exact ⟨rfl, by simp⟩
        | some r =>
          simp only
          have := ih ⟨s.buf + (bs.length + 1), r.2, s.chars ++ r.1, some (s.pend.length + (bs.length + 1), endsCr s.chars)⟩
            (fun i hi => h i (by simp only at hi; omega))
          exact ⟨this.1, by have := this.2; simp only at this; omega⟩

theorem byteLoop_congr (D : Codec) (N : Nat) (f g : Bytes) (hl : f.length = g.length) (cols : Nat) (p : Book ν → List Str → LineRes ν) (ign : Bool)
    (n : Nat) (s : TextIn) (b : Book ν) (off : Cookie) (h : ∀ i, s.buf ≤ i → f.drop i = g.drop i) :
    byteLoop D N f cols p ign n s b off = byteLoop D N g cols p ign n s b off := by
  induction n generalizing s b off with
  | zero => rfl
  | succ n ih =>
    obtain ⟨h1, h2⟩ := readLine_congr D N f g (f.length + 1) s h
    simp only [byteLoop]
    rw [← hl, ← h1]
    generalize hr : s.readLine D N f (f.length + 1) = r at h2 ⊢
    obtain ⟨s', r⟩ := r
    simp only at h2
    have ih' := fun b off => ih s' b off (fun i hi => h i (by omega))
    cases r with
    | eof => rfl
    | raised => simp only [ih']
    | line raw =>
      simp only [ih']

/-- With unfinished bytes at the end of the file every attempt to read on raises. -/
theorem byteLoop_spin {D : Codec} {N : Nat} {file : Bytes} (cols : Nat) (f : Book ν → List Str → LineRes ν) {pend : Bytes} (hp : pend ≠ [])
    (sn : Option (Nat × Bool)) (n : Nat) (b : Book ν) (off : Cookie) :
    byteLoop D N file cols f true n ⟨file.length, pend, [], sn⟩ b off = none := by
  induction n generalizing off with
  | zero => rfl
  | succ n ih =>
    simp only [byteLoop, readLine_end, if_pos hp]
    exact ih _

theorem takeLine_no_end {cs : List (Char × Nat)} (h1 : '\n' ∉ textOf cs) (h2 : '\r' ∉ textOf cs) : takeLine cs = none := by
  induction cs with
  | nil => rfl
  | cons c cs ih =>
    obtain ⟨c, w⟩ := c
    simp only [textOf, List.map_cons, List.mem_cons, not_or] at h1 h2
    simp only [takeLine, if_neg (fun e => h1.1 (Eq.symm e)), if_neg (fun e => h2.1 (Eq.symm e))]
    rw [ih h1.2 h2.2]; rfl

/-- A text that ends with a line end has a first line. -/
theorem takeLine_whole {cs : List (Char × Nat)} (hne : cs ≠ []) (hw : WholeLines (textOf cs)) : ∃ l rest, takeLine cs = some (l, rest) := by
  have hl : (textOf cs).getLast? = some '\n' := by
    rcases hw with h | h
    · simp [textOf] at h; exact absurd h hne
    · exact h
  clear hw
  induction cs with
  | nil => exact absurd rfl hne
  | cons c cs ih =>
    obtain ⟨c, w⟩ := c
    simp only [takeLine]
    split
    · exact ⟨_, _, rfl⟩
    · rename_i hc
      cases cs with
      | nil => simp [textOf] at hl; exact absurd hl hc
      | cons d cs =>
        split
        · simp only; split <;> exact ⟨_, _, rfl⟩
        · obtain ⟨l, r, h⟩ := ih (by simp) (by simpa [textOf] using hl)
          rw [h]; exact ⟨_, _, rfl⟩

/-- Whole lines that are in memory are processed like the lines of a text. -/
theorem byteLoop_mem {D : Codec} {N : Nat} {file : Bytes} (cols : Nat) (f : Book ν → List Str → LineRes ν) (ign : Bool) (base : Nat)
    (C T : List (Char × Nat)) (n m : Nat) (W : List (Char × Nat)) (hm : (rawLines (textOf W)).length = m) (k : Nat) (s : TextIn) (b : Book ν) (j : Nat)
    (hbase : s.buf = base + widths C + s.pend.length) (hs : s.chars = W ++ T) (hC : C.drop k = W ++ T) (hw : WholeLines (textOf W))
    (hend : (pollLoop cols f ign (rawLines (textOf W)) k b j).2 = .eof) :
    byteLoop D N file cols f ign (n + m) s b ⟨base + widths (C.take j), false⟩ =
      byteLoop D N file cols f ign n { s with chars := T } (pollLoop cols f ign (rawLines (textOf W)) k b j).1.1
        ⟨base + widths (C.take (pollLoop cols f ign (rawLines (textOf W)) k b j).1.2), false⟩ := by
  induction m generalizing W k s b j with
  | zero =>
    have h0 : rawLines (textOf W) = [] := List.length_eq_zero_iff.1 hm
    have hW : W = [] := by
      by_cases h : W = []
      · exact h
      · exact absurd h0 (rawLines_ne_nil (by simpa [textOf] using h))
    subst hW
    rw [h0]
    simp only [pollLoop, Nat.add_zero]
    congr 1
    cases s
    simp only at hs
    simp [hs]
  | succ m ih =>
    have hne : W ≠ [] := by rintro rfl; simp [textOf, rawLines] at hm
    obtain ⟨l, rest, htl⟩ := takeLine_whole hne hw
    obtain ⟨q, hq, hle, hr, hl⟩ := takeLine_rawLines htl
    have ht := takeLine_append htl T
    rw [hl] at hend hm ⊢
    rw [← Nat.add_assoc]
    simp only [byteLoop, TextIn.readLine, hs, ht]
    simp only [pollLoop] at hend ⊢
    have hC' : C.drop (k + q) = rest ++ T := by
      rw [← List.drop_drop, hC, List.drop_append_of_le_length hle, ← hr]
    have htell : ({ s with chars := rest ++ T } : TextIn).tell = ⟨base + widths (C.take (k + q)), false⟩ := by
      simp only [TextIn.tell, hbase, Cookie.mk.injEq, and_true]
      have := widths_append (C.take (k + q)) (C.drop (k + q))
      rw [List.take_append_drop, hC'] at this
      omega
    have hw' : WholeLines (textOf rest) := by
      have := wholeLines_drop hw q
      have e : (textOf W).drop q = textOf rest := by rw [hr]; simp [textOf, List.map_drop]
      rwa [e] at this
    have ih' := fun b j h => ih rest (by simpa using hm) (k + q) { s with chars := rest ++ T } b j hbase rfl hC' hw' h
    cases hlk : lineKind cols l with
    | stop => rw [hlk] at hend; cases hend
    | header =>
      rw [hlk] at hend
      simp only [htell] at hend ⊢
      exact ih' _ _ hend
    | fields items =>
      rw [hlk] at hend
      simp only at hend ⊢
      cases hf : f b items with
      | unknown => rw [hf] at hend; exact ih' _ _ hend
      | done b' => rw [hf] at hend; simp only [htell] at hend ⊢; exact ih' _ _ hend
      | failed b' e =>
        rw [hf] at hend
        simp only [htell] at hend ⊢
        cases ign with
        | false => simp at hend
        | true => exact ih' _ _ hend

theorem readLine_fuel (D : Codec) (N : Nat) (file : Bytes) (n m : Nat) (s : TextIn) (hn : file.length - s.buf < n) (hm : file.length - s.buf < m) :
    s.readLine D N file n = s.readLine D N file m := by
  induction n generalizing m s with
  | zero => omega
  | succ n ih =>
    cases m with
    | zero => omega
    | succ m =>
      simp only [TextIn.readLine]
      cases takeLine s.chars with
      | some r => rfl
      | none =>
        simp only
        cases hc : (file.drop s.buf).take N with
        | nil => rfl
        | cons b bs =>
          simp only
          have hlt : s.buf < file.length := by
            have := congrArg List.length hc
            simp only [List.length_take, List.length_drop, List.length_cons] at this
            omega
          cases decodeBytes D s.pend (b :: bs) with
          | none => rfl
          | some r => exact ih m _ (by simp only; omega) (by simp only; omega)

theorem byteLoop_more {D : Codec} {N : Nat} {file : Bytes} (cols : Nat) (f : Book ν → List Str → LineRes ν) (ign : Bool) (n : Nat) (s : TextIn)
    (b : Book ν) (off : Cookie) (r : (Book ν × Cookie) × PollEnd) (h : byteLoop D N file cols f ign n s b off = some r) (m : Nat) (hm : n ≤ m) :
    byteLoop D N file cols f ign m s b off = some r := by
  induction n generalizing m s b off with
  | zero => simp [byteLoop] at h
  | succ n ih =>
    cases m with
    | zero => omega
    | succ m =>
      simp only [byteLoop] at h ⊢
      generalize s.readLine D N file (file.length + 1) = q at h ⊢
      obtain ⟨s', q⟩ := q
      have ih' := fun b off h => ih s' b off h m (by omega)
      cases q with
      | eof => exact h
      | raised =>
        cases ign with
        | false => exact h
        | true => exact ih' _ _ h
      | line raw =>
        simp only at h ⊢
        cases hk : lineKind cols raw with
        | stop => rw [hk] at h; exact h
        | header => rw [hk] at h; exact ih' _ _ h
        | fields items =>
          rw [hk] at h
          simp only at h ⊢
          cases hf : f b items with
          | unknown => rw [hf] at h; exact ih' _ _ h
          | done b' => rw [hf] at h; exact ih' _ _ h
          | failed b' e =>
            rw [hf] at h
            simp only at h ⊢
            cases ign with
            | false => exact h
            | true => exact ih' _ _ h

/-- The text is all in memory, the rest of its last line is not there. -/
theorem readLine_fill {D : Codec} {N : Nat} {pre rest : Bytes} {x : UInt8} {xs : Bytes} (hc : rest.take N = x :: xs)
    {cs : List (Char × Nat)} {p : Bytes} (hd : decodeBytes D [] (x :: xs) = some (cs, p)) (n : Nat) :
    (TextIn.seek ⟨pre.length, false⟩).readLine D N (pre ++ rest) (n + 1) =
      (⟨pre.length + (xs.length + 1), p, cs, some (xs.length + 1, false)⟩ : TextIn).readLine D N (pre ++ rest) n := by
  have h1 : ((pre ++ rest).drop (TextIn.seek ⟨pre.length, false⟩).buf).take N = x :: xs := by
    rw [← hc]; exact take_rest pre rest N
  have h2 : decodeBytes D (TextIn.seek ⟨pre.length, false⟩).pend (x :: xs) = some (cs, p) := hd
  simp only [TextIn.readLine, show takeLine (TextIn.seek ⟨pre.length, false⟩).chars = none from rfl, h1, h2]
  simp [TextIn.seek, endsCr, textOf]

theorem byteLoop_start {D : Codec} {N : Nat} {pre rest : Bytes} {x : UInt8} {xs : Bytes} (hc : rest.take N = x :: xs)
    {cs : List (Char × Nat)} {p : Bytes} (hd : decodeBytes D [] (x :: xs) = some (cs, p)) (cols : Nat) (f : Book ν → List Str → LineRes ν) (ign : Bool)
    (n : Nat) (b : Book ν) (off : Cookie) :
    byteLoop D N (pre ++ rest) cols f ign n (TextIn.seek ⟨pre.length, false⟩) b off =
      byteLoop D N (pre ++ rest) cols f ign n ⟨pre.length + (xs.length + 1), p, cs, some (xs.length + 1, false)⟩ b off := by
  cases n with
  | zero => rfl
  | succ n =>
    have hlen : 0 < rest.length := by
      cases rest with
      | nil => simp at hc
      | cons => simp
    have h1 := readLine_fill (pre := pre) hc hd (pre ++ rest).length
    rw [readLine_fuel D N (pre ++ rest) (pre ++ rest).length ((pre ++ rest).length + 1) _
      (by simp only [List.length_append]; omega) (by simp only [List.length_append]; omega)] at h1
    simp only [byteLoop, h1]

/-- Reading what is in one chunk: first its whole lines, then on from what is left. -/
theorem pollBytes_chunk {D : Codec} {N : Nat} {pre rest : Bytes} {x : UInt8} {xs : Bytes} (hc : rest.take N = x :: xs)
    {ws ts : Encoded} {p : Bytes} (hd : decodeBytes D [] (x :: xs) = some (sized (ws ++ ts), p)) (cols : Nat) (f : Book ν → List Str → LineRes ν)
    (ign : Bool) (hw : WholeLines ws.text) (n : Nat) (b : Book ν) (hend : (pollFile cols f ign ws.text b 0).2 = .eof) :
    pollBytes D N cols f ign (n + (rawLines ws.text).length) (pre ++ rest) b ⟨pre.length, false⟩ =
      byteLoop D N (pre ++ rest) cols f ign n ⟨pre.length + (xs.length + 1), p, sized ts, some (xs.length + 1, false)⟩
        (pollFile cols f ign ws.text b 0).1.1
        ⟨pre.length + (Encoded.pos (ws ++ ts) (pollFile cols f ign ws.text b 0).1.2).pos, false⟩ := by
  have h0 := decodeBytes_widths hd
  simp only [List.length_nil, List.length_cons] at h0
  have hsp : sized (ws ++ ts) = sized ws ++ sized ts := by simp [sized]
  have := byteLoop_mem (D := D) (N := N) (file := pre ++ rest) cols f ign pre.length (sized (ws ++ ts)) (sized ts) n
    (rawLines ws.text).length (sized ws) (by rw [textOf_sized]) 0
    ⟨pre.length + (xs.length + 1), p, sized (ws ++ ts), some (xs.length + 1, false)⟩ b 0 (by simp only; omega) hsp (by rw [List.drop_zero]; exact hsp)
    (by rw [textOf_sized]; exact hw) (by rw [textOf_sized]; exact hend)
  simp only [textOf_sized, List.take_zero] at this
  have e : ∀ j, widths ((sized (ws ++ ts)).take j) = (Encoded.pos (ws ++ ts) j).pos := by
    intro j
    rw [← bytePos_sized]; rfl
  rw [pollBytes, byteLoop_start hc hd]
  simp only [e] at this
  exact this

theorem pollLoop_eof {cols : Nat} {f : Book ν → List Str → LineRes ν} (ls : List (Str × Nat)) (h : ∀ x ∈ ls, lineKind cols x.1 ≠ .stop) (pos : Nat)
    (b : Book ν) (off : Nat) : (pollLoop cols f true ls pos b off).2 = .eof := by
  induction ls generalizing pos b off with
  | nil => rfl
  | cons x ls ih =>
    obtain ⟨raw, n⟩ := x
    have hx := h (raw, n) (by simp)
    have ih' := ih (fun y hy => h y (by simp [hy]))
    simp only [pollLoop]
    cases hk : lineKind cols raw with
    | stop => exact absurd hk hx
    | header => exact ih' _ _ _
    | fields items =>
      simp only
      cases f b items with
      | unknown => exact ih' _ _ _
      | done b' => exact ih' _ _ _
      | failed b' e => exact ih' _ _ _

theorem rawLines_length (s : Str) : (rawLines s).length ≤ s.length := by
  induction s with
  | nil => simp [rawLines]
  | cons c s ih =>
    simp only [rawLines]
    cases h : rawLines s with
    | nil => rw [h] at ih; (repeat' split) <;> simp_all
    | cons x xs =>
      rw [h] at ih
      simp only [List.length_cons] at ih ⊢
      (repeat' split) <;> simp_all <;> omega

/-- An unfinished character at the end of the file: the loop of `sync_orders` never ends. -/
theorem pollBytes_begun {D : Codec} {N : Nat} {pre : Bytes} {ws ts : Encoded} (hg : (ws ++ ts).In D) {p : Bytes} (hp : IsBegun D p)
    (hN : ((ws ++ ts).bytes ++ p).length ≤ N) (cols : Nat) (f : Book ν → List Str → LineRes ν) (hw : WholeLines ws.text)
    (ht : '\n' ∉ ts.text ∧ '\r' ∉ ts.text) (ign : Bool) (b : Book ν) (hend : (pollFile cols f ign ws.text b 0).2 = .eof) (n : Nat) :
    pollBytes D N cols f ign (n + 1 + (rawLines ws.text).length) (pre ++ ((ws ++ ts).bytes ++ p)) b ⟨pre.length, false⟩ =
      if ign then none
      else some (((pollFile cols f ign ws.text b 0).1.1, ⟨pre.length + (Encoded.pos (ws ++ ts) (pollFile cols f ign ws.text b 0).1.2).pos, false⟩),
        .raised .valueError) := by
  generalize hrest : (ws ++ ts).bytes ++ p = rest at hN ⊢
  have hne : rest ≠ [] := by
    rw [← hrest]; intro e
    exact hp.1 (List.append_eq_nil_iff.1 e).2
  obtain ⟨x, xs, hx⟩ : ∃ x xs, rest = x :: xs := by
    cases rest with
    | nil => exact absurd rfl hne
    | cons x xs => exact ⟨x, xs, rfl⟩
  have hc : rest.take N = x :: xs := by rw [List.take_of_length_le hN, hx]
  have hd : decodeBytes D [] (x :: xs) = some (sized (ws ++ ts), p) := by
    rw [← hx, ← hrest, decode_encoded hg, decode_open hp]; simp
  rw [pollBytes_chunk hc hd cols f ign hw (n + 1) b hend]
  have hl : pre.length + (xs.length + 1) = (pre ++ rest).length := by rw [hx]; simp
  have htl : takeLine (sized ts) = none := takeLine_no_end (by rw [textOf_sized]; exact ht.1) (by rw [textOf_sized]; exact ht.2)
  have hcr : endsCr (sized ts) = false := by
    simp only [endsCr, textOf_sized]
    have : ts.text.getLast? ≠ some '\r' := fun h => ht.2 (List.mem_of_getLast? h)
    simpa using this
  have hrl : (⟨pre.length + (xs.length + 1), p, sized ts, some (xs.length + 1, false)⟩ : TextIn).readLine D N (pre ++ rest) ((pre ++ rest).length + 1) =
      (⟨(pre ++ rest).length, p, [], some (xs.length + 1, false)⟩, .raised) := by
    rw [hl]
    simp only [TextIn.readLine, htl, List.drop_length, List.take_nil]
    rw [if_pos hp.1]
    simp [hcr]
  simp only [byteLoop, hrl]
  cases ign with
  | false => simp
  | true => simp only [if_true]; exact byteLoop_spin cols f hp.1 _ _ _ _

/-- No line end yet: none at all, or a `\r` as the last character. -/
theorem takeLine_open {cs : List (Char × Nat)} (h1 : '\n' ∉ textOf cs) (h2 : '\r' ∉ (textOf cs).dropLast) : takeLine cs = none := by
  induction cs with
  | nil => rfl
  | cons c cs ih =>
    obtain ⟨c, w⟩ := c
    cases cs with
    | nil =>
      simp only [textOf, List.map_cons, List.map_nil, List.mem_singleton] at h1
      simp only [takeLine, if_neg (fun e => h1 (Eq.symm e))]
      split <;> rfl
    | cons d ds =>
      simp only [textOf, List.map_cons, List.mem_cons, not_or, List.dropLast_cons_cons] at h1 h2
      simp only [takeLine, if_neg (fun e => h1.1 (Eq.symm e)), if_neg (fun e => h2.1 (Eq.symm e))]
      have := ih (by simp only [textOf, List.map_cons, List.mem_cons, not_or]; exact h1.2)
        (by simp only [textOf, List.map_cons]; exact h2.2)
      simp only [takeLine] at this
      rw [this]; rfl

/-- The file ends within a character: what `readline` gives next. -/
theorem readLine_begun {D : Codec} {N : Nat} (hN : 0 < N) {file : Bytes} {p : Bytes} (hp : p ≠ []) {T : List (Char × Nat)} (hT : takeLine T = none)
    (n : Nat) (s : TextIn) (W cs : List (Char × Nat)) (hf : file.length - s.buf < n)
    (hd : decodeBytes D s.pend (file.drop s.buf) = some (cs, p)) (hc : s.chars ++ cs = W ++ T) (hW : WholeLines (textOf W)) :
    (∃ s' l W' cs', s.readLine D N file n = (s', .line l) ∧ takeLine W = some (l, W') ∧
      decodeBytes D s'.pend (file.drop s'.buf) = some (cs', p) ∧ s'.chars ++ cs' = W' ++ T ∧ (s.buf ≤ file.length → s'.buf ≤ file.length)) ∨
    (W = [] ∧ ∃ s', s.readLine D N file n = (s', .raised) ∧ file.length ≤ s'.buf ∧ s'.pend ≠ [] ∧ takeLine s'.chars = none) := by
  induction n generalizing s cs with
  | zero => omega
  | succ n ih =>
    simp only [TextIn.readLine]
    cases ht : takeLine s.chars with
    | some r =>
      obtain ⟨l, rest⟩ := r
      left
      have h1 := takeLine_append ht cs
      rw [hc] at h1
      by_cases hne : W = []
      · subst hne; rw [List.nil_append, hT] at h1; cases h1
      · obtain ⟨l', W', hw⟩ := takeLine_whole hne hW
        have h2 := takeLine_append hw T
        rw [h1] at h2
        simp only [Option.some.injEq, Prod.mk.injEq] at h2
        obtain ⟨rfl, h2⟩ := h2
        exact ⟨_, l, W', cs, rfl, hw, hd, h2, id⟩
    | none =>
      simp only
      cases hk : (file.drop s.buf).take N with
      | nil =>
        right
        have h0 : file.drop s.buf = [] := by
          rcases List.take_eq_nil_iff.1 hk with h | h
          · omega
          · exact h
        rw [h0] at hd
        simp only [decodeBytes, Option.some.injEq, Prod.mk.injEq] at hd
        rw [if_pos (by rw [hd.2]; exact hp)]
        refine ⟨?_, _, rfl, List.drop_eq_nil_iff.1 h0, by rw [hd.2]; exact hp, ?_⟩
        · rw [← hd.1, List.append_nil] at hc
          refine Classical.byContradiction fun hne => ?_
          obtain ⟨l', W', hw⟩ := takeLine_whole hne hW
          have h2 := takeLine_append hw T
          rw [← hc, ht] at h2
          cases h2
        simp only
        split <;> rfl
      | cons x xs =>
        simp only
        have hsp : file.drop s.buf = (x :: xs) ++ file.drop (s.buf + (xs.length + 1)) := by
          have h1 := List.take_append_drop N (file.drop s.buf)
          have hlen := congrArg List.length hk
          simp only [List.length_take, List.length_drop, List.length_cons] at hlen
          rw [← h1, hk, List.drop_drop]
          congr 1
          by_cases hle : N ≤ file.length - s.buf
          · rw [Nat.min_eq_left hle] at hlen; rw [hlen]
          · rw [List.drop_eq_nil_of_le (by omega), List.drop_eq_nil_of_le (by omega)]
        rw [hsp, decodeBytes_append] at hd
        cases hdx : decodeBytes D s.pend (x :: xs) with
        | none => rw [hdx] at hd; simp at hd
        | some r =>
          obtain ⟨c1, p1⟩ := r
          rw [hdx] at hd
          simp only [Option.bind_some, Option.map_eq_some_iff] at hd
          obtain ⟨⟨c2, q⟩, hd2, he⟩ := hd
          simp only [Prod.mk.injEq] at he
          obtain ⟨rfl, rfl⟩ := he
          have hlen := congrArg List.length hk
          simp only [List.length_take, List.length_drop, List.length_cons] at hlen
          refine (ih _ c2 ?_ hd2 ?_).imp ?_ id
          · simp only
            omega
          · simp only [List.append_assoc]; exact hc
          · rintro ⟨s', l, W', cs', g1, g2, g3, g4, g5⟩
            exact ⟨s', l, W', cs', g1, g2, g3, g4, fun hb => g5 (by simp only; omega)⟩

/-- With unfinished bytes at the end of the file every attempt to read on raises, also when a `\r` is held back. -/
theorem byteLoop_stuck {D : Codec} {N : Nat} {file : Bytes} (cols : Nat) (f : Book ν → List Str → LineRes ν) (n : Nat) (s : TextIn)
    (hb : file.length ≤ s.buf) (hp : s.pend ≠ []) (hc : takeLine s.chars = none) (b : Book ν) (off : Cookie) :
    byteLoop D N file cols f true n s b off = none := by
  induction n generalizing off s with
  | zero => rfl
  | succ n ih =>
    have h0 : (file.drop s.buf).take N = [] := by rw [List.drop_eq_nil_of_le hb, List.take_nil]
    simp only [byteLoop, TextIn.readLine, hc, h0, if_pos hp, if_true]
    exact ih { s with chars := if endsCr s.chars then [('\r', 1)] else [] } hb hp (by simp only; split <;> rfl) _

/-- The file ends within a character: the loop of `sync_orders` never ends, whatever the chunks are. -/
theorem byteLoop_begun {D : Codec} {N : Nat} (hN : 0 < N) {file : Bytes} {p : Bytes} (hp : p ≠ []) {T : List (Char × Nat)} (hT : takeLine T = none)
    (cols : Nat) (f : Book ν → List Str → LineRes ν) (n : Nat) (s : TextIn) (W cs : List (Char × Nat))
    (hd : decodeBytes D s.pend (file.drop s.buf) = some (cs, p)) (hc : s.chars ++ cs = W ++ T) (hW : WholeLines (textOf W))
    (hl : ∀ x ∈ rawLines (textOf W), lineKind cols x.1 ≠ .stop) (b : Book ν) (off : Cookie) :
    byteLoop D N file cols f true n s b off = none := by
  induction n generalizing s W cs b off with
  | zero => rfl
  | succ n ih =>
    rcases readLine_begun hN hp hT (file.length + 1) s W cs (by omega) hd hc hW with ⟨s', l, W', cs', hr, hw, hd', hc', _⟩ | ⟨_, s', hr, hb, hp', hn⟩
    · obtain ⟨q, hq, hle, hrest, hlines⟩ := takeLine_rawLines hw
      have hW' : WholeLines (textOf W') := by
        have := wholeLines_drop hW q
        have e : (textOf W).drop q = textOf W' := by rw [hrest]; simp [textOf, List.map_drop]
        rwa [e] at this
      rw [hlines] at hl
      have hns := hl (l, q) (by simp)
      have ih' := fun b off => ih s' W' cs' hd' hc' hW' (fun x hx => hl x (by simp [hx])) b off
      simp only [byteLoop, hr]
      cases hk : lineKind cols l with
      | stop => exact absurd hk hns
      | header => exact ih' _ _
      | fields items =>
        simp only
        cases f b items with
        | unknown => exact ih' _ _
        | done b' => exact ih' _ _
        | failed b' e => exact ih' _ _
    · simp only [byteLoop, hr, if_true]
      exact byteLoop_stuck cols f n s' hb hp' hn _ _

/-- The file ends within a character and nothing is ignored: the loop ends as on the whole lines alone, except that at their end it raises. -/
theorem byteLoop_begun_strict {D : Codec} {N : Nat} (hN : 0 < N) {file : Bytes} {p : Bytes} (hp : p ≠ []) {T W0 : List (Char × Nat)} (hT : takeLine T = none)
    {base : Nat} (hbase : file.length = base + widths W0 + widths T + p.length) (hW : WholeLines (textOf W0))
    (cols : Nat) (f : Book ν → List Str → LineRes ν) (n k : Nat) (s : TextIn) (cs : List (Char × Nat)) (hbuf : s.buf ≤ file.length)
    (hd : decodeBytes D s.pend (file.drop s.buf) = some (cs, p)) (hc : s.chars ++ cs = W0.drop k ++ T) (hf : W0.length - k < n) (b : Book ν) (j : Nat) :
    byteLoop D N file cols f false n s b ⟨base + widths (W0.take j), false⟩ =
      some (((pollLoop cols f false (rawLines (textOf (W0.drop k))) k b j).1.1,
        ⟨base + widths (W0.take (pollLoop cols f false (rawLines (textOf (W0.drop k))) k b j).1.2), false⟩),
        if (pollLoop cols f false (rawLines (textOf (W0.drop k))) k b j).2 = .eof then .raised .valueError
        else (pollLoop cols f false (rawLines (textOf (W0.drop k))) k b j).2) := by
  induction n generalizing k s cs b j with
  | zero => omega
  | succ n ih =>
    have hWk : WholeLines (textOf (W0.drop k)) := by
      have := wholeLines_drop hW k
      have e : (textOf W0).drop k = textOf (W0.drop k) := by simp [textOf, List.map_drop]
      rwa [e] at this
    rcases readLine_begun hN hp hT (file.length + 1) s (W0.drop k) cs (by omega) hd hc hWk with
      ⟨s', l, W', cs', hr, hw, hd', hc', hb'⟩ | ⟨h0, s', hr, hb, hp', hn⟩
    · obtain ⟨q, hq, hle, hrest, hlines⟩ := takeLine_rawLines hw
      have hW' : W' = W0.drop (k + q) := by rw [hrest, List.drop_drop]
      subst hW'
      have hb' := hb' hbuf
      have htell : s'.tell = ⟨base + widths (W0.take (k + q)), false⟩ := by
        have h1 := decodeBytes_widths hd'
        have h2 := congrArg widths hc'
        rw [widths_append, widths_append] at h2
        have h3 := congrArg widths (List.take_append_drop (k + q) W0)
        rw [widths_append] at h3
        simp only [List.length_drop] at h1
        simp only [TextIn.tell, Cookie.mk.injEq, and_true]
        omega
      rw [hlines]
      simp only [List.length_drop] at hle
      have ih' := fun b j => ih (k + q) s' cs' hb' hd' hc' (by omega) b j
      rw [hrest, List.drop_drop] at *
      have kinds : lineKind cols l = .stop ∨ lineKind cols l = .header ∨ ∃ items, lineKind cols l = .fields items := by
        cases lineKind cols l <;> simp
      rcases kinds with hk | hk | ⟨items, hk⟩
      · simp [byteLoop, hr, pollLoop, hk]
      · simp only [byteLoop, hr, pollLoop, hk, htell]; exact ih' _ _
      · have res : f b items = .unknown ∨ (∃ b', f b items = .done b') ∨ ∃ b' e, f b items = .failed b' e := by
          cases f b items <;> simp
        rcases res with hu | ⟨b', hu⟩ | ⟨b', e, hu⟩
        · simp only [byteLoop, hr, pollLoop, hk, hu]; exact ih' _ _
        · simp only [byteLoop, hr, pollLoop, hk, hu, htell]; exact ih' _ _
        · simp [byteLoop, hr, pollLoop, hk, hu]
    · rw [h0]
      simp [byteLoop, hr, rawLines, textOf, pollLoop]

end Jq
