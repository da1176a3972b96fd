import Verif.Lemmas.TextBad
import Verif.Props.C36_OrderSync
set_option linter.unusedSectionVars false
/-! # C82: the encoding of the broker's files -/
namespace Jq
variable {ν : Type} [GateNum ν]

/-- A file that is a text in the encoding is read as that text, whatever the encoding and the size of the chunks, and the
remembered position is that of the character. -/
theorem c82_same_as_text_partial (D : Codec) (N : Nat) (hN : 0 < N) (gs : Encoded) (hg : gs.In D) (cols : Nat) (f : Book ν → List Str → LineRes ν)
    (ign : Bool) (fuel : Nat) (hf : gs.length < fuel) (b : Book ν) (k : Nat) (hk : k ≤ gs.length) :
    pollBytes D N cols f ign fuel gs.bytes b (gs.pos k) =
      some (((pollFile cols f ign gs.text b k).1.1, gs.pos (pollFile cols f ign gs.text b k).1.2), (pollFile cols f ign gs.text b k).2) :=
  pollBytes_text hN hg cols f ign fuel hf b k hk

/-- Every text can be read in UTF-8. -/
theorem c82_utf8_partial (t : Str) : (inUtf8 t).In utf8 ∧ (inUtf8 t).text = t ∧ (inUtf8 t).bytes = t.flatMap String.utf8EncodeChar := by
  refine ⟨?_, ?_, ?_⟩
  · intro g hg
    simp only [inUtf8, List.mem_map] at hg
    obtain ⟨c, _, rfl⟩ := hg
    exact utf8_isChar c
  · simp [inUtf8, Encoded.text, Function.comp_def]
  · simp [inUtf8, Encoded.bytes, List.flatMap_map]

/-- And exactly the UTF-8 bytes of a character are read as it. -/
theorem c82_utf8_exact (g : Bytes) (c : Char) : IsChar utf8 g c ↔ g = String.utf8EncodeChar c :=
  ⟨utf8_only, fun h => h ▸ utf8_isChar c⟩

example : -- one and three bytes; a longer form of a character, half of a pair of surrogates and a number beyond the last are refused
    -- as soon as they begin
    IsChar utf8 [0x41] 'A' ∧ IsChar utf8 [0xe4, 0xb8, 0xad] '中' ∧ utf8Tok [0xc1] = .bad ∧ utf8Tok [0xe0, 0x81] = .bad ∧
    utf8Tok [0xed, 0xa0] = .bad ∧ utf8Tok [0xf4, 0x90] = .bad :=
  ⟨(c82_utf8_exact _ _).2 (by decide +kernel), (c82_utf8_exact _ _).2 (by decide +kernel), by decide +kernel, by decide +kernel,
    by decide +kernel, by decide +kernel⟩

/-- In GBK a character is one byte below `0x80`, with the number of the character, or two bytes in the table, the first from
`0x80` on. -/
theorem c82_gbk_exact (map : UInt8 → UInt8 → Option Char) (g : Bytes) (c : Char) : IsChar (gbk map) g c ↔
    (∃ a, g = [a] ∧ a.toNat < 128 ∧ c.toNat = a.toNat) ∨
    ∃ a b, g = [a, b] ∧ 128 ≤ a.toNat ∧ map a b = some c := by
  have hlt : ∀ a : UInt8, a < 0x80 ↔ a.toNat < 128 := fun a => UInt8.lt_iff_toNat_lt
  have hch : ∀ n, n < 128 → (Char.ofNat n).toNat = n := fun n hn => by
    simp [Char.ofNat, Nat.isValidChar, show n < 55296 by omega, Char.toNat, Char.ofNatAux]
  have hchar : ∀ d : Char, Char.ofNat d.toNat = d := fun d => by simp
  constructor
  · rintro ⟨h1, h2, h3⟩
    match g, h1, h3 with
    | [], _, _ => exact absurd rfl h2
    | [a], h1, _ =>
      left
      simp only [gbk, gbkTok, hlt] at h1
      split at h1
      · rename_i ha
        injection h1 with h1
        exact ⟨a, rfl, ha, by rw [← h1, hch _ ha]⟩
      · cases h1
    | [a, b], h1, h3 =>
      right
      have := h3 [a] (by simp) (by simp) (by simp)
      simp only [gbk, gbkTok, hlt] at this h1
      split at this
      · cases this
      · refine ⟨a, b, rfl, by omega, ?_⟩
        split at h1
        · rename_i hm; injection h1 with h1; rw [hm, h1]
        · cases h1
    | _ :: _ :: _ :: _, h1, _ => simp [gbk, gbkTok] at h1
  · rintro (⟨a, rfl, ha, hc⟩ | ⟨a, b, rfl, h1, hm⟩)
    · exact isChar_one (by simp only [gbk, gbkTok, hlt, if_pos ha]; rw [← hc, hchar])
    · refine isChar_two ?_ (by simp [gbk, gbkTok, hm])
      simp only [gbk, gbkTok, hlt]
      rw [if_neg (by omega)]

example : IsChar (gbk fun _ _ => some '中') [0xd6, 0xd0] '中' ∧ IsChar (gbk fun _ _ => some '中') [0x41] 'A' :=
  ⟨(c82_gbk_exact _ _ _).2 (.inr ⟨0xd6, 0xd0, rfl, by decide, rfl⟩), (c82_gbk_exact _ _ _).2 (.inl ⟨0x41, rfl, by decide, by decide⟩)⟩

/-- Both files, each in the encoding it is read with. -/
theorem c82_both_files_partial (Dres Dupd : Codec) (N : Nat) (hN : 0 < N) (rs us : Encoded) (hr : rs.In Dres) (hu : us.In Dupd) (ign : Bool) (fuel : Nat)
    (hfr : rs.length < fuel) (hfu : us.length < fuel) (s : SyncState ν) (h1 : s.resOff ≤ rs.length) (h2 : s.updOff ≤ us.length) :
    pollBothBytes Dres Dupd N ign fuel rs.bytes us.bytes ⟨s.book, rs.pos s.resOff, us.pos s.updOff⟩ =
      some (⟨(pollBoth ign rs.text us.text s).1.book, rs.pos (pollBoth ign rs.text us.text s).1.resOff,
        us.pos (pollBoth ign rs.text us.text s).1.updOff⟩, (pollBoth ign rs.text us.text s).2) := by
  simp only [pollBothBytes, pollBoth, pollResults, pollUpdates]
  rw [pollBytes_text hN hr 6 resultLine ign fuel hfr s.book s.resOff h1]
  generalize pollFile 6 resultLine ign rs.text s.book s.resOff = r
  obtain ⟨⟨b, ro⟩, e⟩ := r
  cases e with
  | raised e => rfl
  | eof =>
    simp only
    rw [pollBytes_text hN hu 20 updateLine ign fuel hfu b s.updOff h2]
    generalize pollFile 20 updateLine ign us.text b s.updOff = q
    obtain ⟨⟨b', uo⟩, e⟩ := q
    cases e <;> rfl
  | stopped =>
    simp only
    rw [pollBytes_text hN hu 20 updateLine ign fuel hfu b s.updOff h2]
    generalize pollFile 20 updateLine ign us.text b s.updOff = q
    obtain ⟨⟨b', uo⟩, e⟩ := q
    cases e <;> rfl

private theorem first_chunk {D : Codec} {N : Nat} {gs : Encoded} (hg : gs.In D) {g : Bytes} (hw : IsWrong D g) {rest : Bytes}
    (hN : (gs.bytes ++ g).length ≤ N) :
    ∃ x xs, (gs.bytes ++ g ++ rest).take N = x :: xs ∧ decodeBytes D [] (x :: xs) = none ∧
      xs.length + 1 = min N (gs.bytes ++ g ++ rest).length := by
  have h : (gs.bytes ++ g ++ rest).take N = gs.bytes ++ (g ++ rest.take (N - (gs.bytes ++ g).length)) := by
    rw [List.take_append, List.take_of_length_le hN, List.append_assoc]
  have hd : decodeBytes D [] ((gs.bytes ++ g ++ rest).take N) = none := by
    rw [h, decode_encoded hg, decode_wrong hw]; rfl
  have hl : ((gs.bytes ++ g ++ rest).take N).length = min N (gs.bytes ++ g ++ rest).length := List.length_take
  cases hc : (gs.bytes ++ g ++ rest).take N with
  | nil => rw [hc] at hd; cases hd
  | cons x xs => exact ⟨x, xs, rfl, by rw [← hc]; exact hd, by rw [← hl, hc]; rfl⟩

/-- One wrong byte in the new part of the file (at most one chunk): with `ignore_error_line` nothing of it is read, the updates
before and after the byte included, and the position moves to the end of the file. -/
theorem c82_chunk_lost_refuted (D : Codec) (N : Nat) (pre : Bytes) (gs : Encoded) (hg : gs.In D) (g : Bytes) (hw : IsWrong D g) (rest : Bytes)
    (hN : (gs.bytes ++ g ++ rest).length ≤ N) (cols : Nat) (f : Book ν → List Str → LineRes ν) (fuel : Nat) (b : Book ν) :
    pollBytes D N cols f true (fuel + 2) (pre ++ (gs.bytes ++ g ++ rest)) b ⟨pre.length, false⟩ =
      some ((b, ⟨(pre ++ (gs.bytes ++ g ++ rest)).length, false⟩), .eof) := by
  obtain ⟨x, xs, hc, hd, hl⟩ := first_chunk (rest := rest) hg hw (N := N) (by simp only [List.length_append] at hN ⊢; omega)
  have e : pre.length + (xs.length + 1) = (pre ++ (gs.bytes ++ g ++ rest)).length := by
    rw [hl, Nat.min_eq_right hN, List.length_append (as := pre)]
  simp only [pollBytes, byteLoop, readLine_bad hc hd, if_true]
  rw [e, readLine_end]
  simp [TextIn.tellFailed]

/-- What was skipped is never looked at again: the later polls are the same whatever it says. -/
theorem c82_lost_for_ever_refuted (D : Codec) (N : Nat) (lost other more : Bytes) (hl : lost.length = other.length) (cols : Nat)
    (f : Book ν → List Str → LineRes ν) (ign : Bool) (fuel : Nat) (b : Book ν) (k : Nat) :
    pollBytes D N cols f ign fuel (lost ++ more) b ⟨lost.length + k, false⟩ = pollBytes D N cols f ign fuel (other ++ more) b ⟨lost.length + k, false⟩ := by
  refine byteLoop_congr D N _ _ (by simp [hl]) cols f ign fuel _ b _ fun i hi => ?_
  simp only [TextIn.seek] at hi
  rw [List.drop_append, List.drop_append, List.drop_eq_nil_of_le (as := lost) (by omega), List.drop_eq_nil_of_le (as := other) (by omega), hl]

/-- Without `ignore_error_line` the synchronisation raises, the position stays, and it raises again whatever is written
after. -/
theorem c82_strict_raises (D : Codec) (N : Nat) (pre : Bytes) (gs : Encoded) (hg : gs.In D) (g : Bytes) (hw : IsWrong D g) (rest : Bytes)
    (hN : (gs.bytes ++ g).length ≤ N) (cols : Nat) (f : Book ν → List Str → LineRes ν) (fuel : Nat) (b : Book ν) :
    pollBytes D N cols f false (fuel + 1) (pre ++ (gs.bytes ++ g ++ rest)) b ⟨pre.length, false⟩ =
      some ((b, ⟨pre.length, false⟩), .raised .valueError) := by
  obtain ⟨x, xs, hc, hd, _⟩ := first_chunk (rest := rest) hg hw hN
  simp only [pollBytes, byteLoop, readLine_bad hc hd]
  simp

/-- The broker is in the middle of writing a character of more than one byte: with `ignore_error_line` the synchronisation
does not end as long as the file stays so, however long the new part is. -/
theorem c82_half_character_hangs_refuted (D : Codec) (N : Nat) (hN : 0 < N) (pre : Bytes) (ws ts : Encoded) (hg : (ws ++ ts).In D) (p : Bytes)
    (hp : IsBegun D p) (cols : Nat) (f : Book ν → List Str → LineRes ν) (hw : WholeLines ws.text)
    (hl : ∀ x ∈ rawLines ws.text, lineKind cols x.1 ≠ .stop) (ht : '\n' ∉ ts.text ∧ '\r' ∉ ts.text.dropLast) (b : Book ν) (fuel : Nat) :
    pollBytes D N cols f true fuel (pre ++ ((ws ++ ts).bytes ++ p)) b ⟨pre.length, false⟩ = none := by
  have hd : decodeBytes D (TextIn.seek ⟨pre.length, false⟩).pend
      ((pre ++ ((ws ++ ts).bytes ++ p)).drop (TextIn.seek ⟨pre.length, false⟩).buf) = some (sized (ws ++ ts), p) := by
    simp only [TextIn.seek, List.drop_left]
    rw [decode_encoded hg, decode_open hp]; simp
  exact byteLoop_begun hN hp.1 (T := sized ts) (takeLine_open (by rw [textOf_sized]; exact ht.1) (by rw [textOf_sized]; exact ht.2)) cols f fuel _
    (sized ws) _ hd (by simp [TextIn.seek, sized]) (by rw [textOf_sized]; exact hw) (by rw [textOf_sized]; exact hl) b _

/-- Chunks of two bytes, and an unfinished line with a `\r` before the unfinished character. -/
example : pollBytes utf8 2 20 (updateLine (ν := Int)) true 50 ((inUtf8 c!"ab").bytes ++ ((inUtf8 [] ++ inUtf8 c!"93002,é\r").bytes ++ [0xe4, 0xb8])) [] ⟨2, false⟩ = none ∧
    WholeLines (inUtf8 []).text ∧ '\n' ∉ (inUtf8 c!"93002,é\r").text ∧ '\r' ∉ (inUtf8 c!"93002,é\r").text.dropLast := by
  refine ⟨by decide +kernel, .inl rfl, by decide, by decide⟩

/-- Without `ignore_error_line` it ends, with any chunks: the whole lines before are processed as they would be alone and are not read again, and
where they end it raises. -/
theorem c82_half_character_strict_partial (D : Codec) (N : Nat) (hN : 0 < N) (pre : Bytes) (ws ts : Encoded) (hg : (ws ++ ts).In D) (p : Bytes)
    (hp : IsBegun D p) (cols : Nat) (f : Book ν → List Str → LineRes ν) (hw : WholeLines ws.text) (ht : '\n' ∉ ts.text ∧ '\r' ∉ ts.text.dropLast)
    (b : Book ν) (fuel : Nat) (hf : ws.length < fuel) :
    pollBytes D N cols f false fuel (pre ++ ((ws ++ ts).bytes ++ p)) b ⟨pre.length, false⟩ =
      some (((pollFile cols f false ws.text b 0).1.1, ⟨pre.length + (ws.pos (pollFile cols f false ws.text b 0).1.2).pos, false⟩),
        if (pollFile cols f false ws.text b 0).2 = .eof then .raised .valueError else (pollFile cols f false ws.text b 0).2) := by
  have hd : decodeBytes D (TextIn.seek ⟨pre.length, false⟩).pend
      ((pre ++ ((ws ++ ts).bytes ++ p)).drop (TextIn.seek ⟨pre.length, false⟩).buf) = some (sized (ws ++ ts), p) := by
    simp only [TextIn.seek, List.drop_left]
    rw [decode_encoded hg, decode_open hp]; simp
  have h := byteLoop_begun_strict hN hp.1 (T := sized ts) (W0 := sized ws) (takeLine_open (by rw [textOf_sized]; exact ht.1) (by rw [textOf_sized]; exact ht.2))
    (file := pre ++ ((ws ++ ts).bytes ++ p)) (base := pre.length) (by rw [widths_sized, widths_sized]; simp [Encoded.bytes]; omega)
    (by rw [textOf_sized]; exact hw) cols f fuel 0 _ _ (by simp [TextIn.seek]) hd (by simp [TextIn.seek, sized]) (by simpa [sized] using hf) b 0
  have hpos : ∀ j, widths ((sized ws).take j) = (ws.pos j).pos := by
    intro j
    rw [Encoded.pos, ← widths_sized]
    simp [sized, List.map_take]
  simp only [List.drop_zero, textOf_sized, hpos, List.take_zero] at h
  simpa [pollBytes, pollFile, Encoded.pos, Encoded.bytes, widths] using h

/-- Chunks of three bytes; a whole line that is skipped, and an unfinished one that ends within a character. -/
example : pollBytes utf8 3 20 (updateLine (ν := Int)) false 50 ((inUtf8 c!"ab").bytes ++ ((inUtf8 (c!"cust_order_no" ++ c!",b" ++ List.replicate 18 ',' ++ c!"\n") ++
    inUtf8 c!"93002,é\r").bytes ++ [0xe4, 0xb8])) [] ⟨2, false⟩ = some (([], ⟨2, false⟩), .raised .valueError) := by
  decide +kernel

/-- A wrong byte in the second chunk: the lines of the first are processed, nothing of the second is, and the position goes
back into the first, by what the second is short of a whole chunk, to wherever in a line that is. -/
theorem c82_goes_back_refuted (D : Codec) (N : Nat) (pre : Bytes) (ws gs : Encoded) (hws : ws.In D) (hg : gs.In D) (g : Bytes) (hw : IsWrong D g)
    (rest : Bytes) (h1 : ws.bytes.length = N) (h2 : (gs.bytes ++ g ++ rest).length ≤ N) (cols : Nat) (f : Book ν → List Str → LineRes ν)
    (hwh : WholeLines ws.text) (hl : ∀ x ∈ rawLines ws.text, lineKind cols x.1 ≠ .stop) (fuel : Nat) (hf : ws.length + 1 < fuel) (b : Book ν) :
    pollBytes D N cols f true fuel (pre ++ (ws.bytes ++ (gs.bytes ++ g ++ rest))) b ⟨pre.length, false⟩ =
      some (((pollFile cols f true ws.text b 0).1.1, ⟨pre.length + (gs.bytes ++ g ++ rest).length, false⟩), .eof) := by
  obtain ⟨y, ys, hc2, hd2, hl2⟩ := first_chunk (rest := rest) hg hw (N := N) (by simp only [List.length_append] at h2 ⊢; omega)
  generalize hbad : gs.bytes ++ g ++ rest = bad at *
  have hbne : 0 < bad.length := by
    cases bad with
    | nil => simp at hc2
    | cons => simp
  obtain ⟨x, xs, hx⟩ : ∃ x xs, ws.bytes = x :: xs := by
    cases hb : ws.bytes with
    | nil => rw [hb] at h1; simp at h1; omega
    | cons x xs => exact ⟨x, xs, rfl⟩
  have hxl : xs.length + 1 = N := by rw [← h1, hx]; rfl
  have hc : (ws.bytes ++ bad).take N = x :: xs := by rw [List.take_append_of_le_length (by omega), List.take_of_length_le (by omega), hx]
  have hd : decodeBytes D [] (x :: xs) = some (sized (ws ++ []), []) := by rw [← hx, List.append_nil]; exact decode_all hws
  have h := pollBytes_chunk (pre := pre) hc hd cols f true hwh 2 b (pollLoop_eof _ (by simpa using hl) _ _ _)
  refine byteLoop_more cols f true _ _ b _ _ (h.trans ?_) fuel ?_
  · have e1 : ((pre ++ (ws.bytes ++ bad)).drop (pre.length + (xs.length + 1))).take N = y :: ys := by
      rw [hxl, ← h1, ← List.append_assoc, ← List.length_append, List.drop_left, h1]; exact hc2
    have e2 : pre.length + (xs.length + 1) + (ys.length + 1) = (pre ++ (ws.bytes ++ bad)).length := by
      rw [hl2, Nat.min_eq_right h2, hxl, ← h1]; simp only [List.length_append]; omega
    have hr : (⟨pre.length + (xs.length + 1), [], sized [], some (xs.length + 1, false)⟩ : TextIn).readLine D N (pre ++ (ws.bytes ++ bad))
        ((pre ++ (ws.bytes ++ bad)).length + 1) = (⟨(pre ++ (ws.bytes ++ bad)).length, [], [], some (xs.length + 1, false)⟩, .raised) := by
      simp only [TextIn.readLine, show takeLine (sized []) = none from rfl, e1, hd2, e2]
      simp [sized, endsCr, textOf]
    simp only [byteLoop, hr, if_true, readLine_end]
    simp only [TextIn.tellFailed, ne_eq, not_true_eq_false, if_false, Option.some.injEq, Prod.mk.injEq, Cookie.mk.injEq, and_true, true_and]
    rw [hxl, ← h1]; simp only [List.length_append]; omega
  · have := rawLines_length ws.text
    have e : ws.text.length = ws.length := by simp [Encoded.text]
    omega

/-! Examples -/

/-- The bytes of ASCII text. -/
def asciiBytes (s : Str) : Bytes := s.map fun c => UInt8.ofNat c.toNat

/-- An order is filled; the text of another update is in GBK, `中` for instance, where UTF-8 is expected. -/
def gbkUpdates : Bytes :=
  asciiBytes (fileText [exUpdate c!"b1" c!"2" c!"100"]) ++ (asciiBytes c!"93002,20240102,093002,UM0,10,600000.SH,1,5,100,9,0,0,0,0,0,78,,b2," ++
    [0xd6, 0xd0] ++ asciiBytes c!",c1\n")

/-- The update of the other order is lost with it: `b1` stays as it was, and nothing is left to read. -/
theorem c82_other_update_lost_witness :
    (pollBytes utf8 8192 20 updateLine true 9 gbkUpdates [(c!"b1", exOrder)] ⟨0, false⟩).map (fun r => (r.1.1.map (fun e => e.2.status), r.1.2.pos)) =
      some ([some c!"new"], gbkUpdates.length) ∧
    (pollUpdates true (fileText [exUpdate c!"b1" c!"2" c!"100"]) [(c!"b1", exOrder)] 0).1.1.map (fun e => e.2.status) = [some c!"filled"] := by
  decide +kernel

/-- The broker's result file says in GBK that `b1` is refused. -/
def gbkResults : Bytes := asciiBytes c!"93002,1,b1,1,77," ++ [0xd6, 0xd0] ++ asciiBytes c!"\n"

/-- `file_encoding="gbk"` does not help for the results, which are read with the encoding of the locale: the refusal is lost. -/
theorem c82_result_encoding_witness :
    (pollBothBytes utf8 (gbk fun _ _ => some '中') 8192 true 9 gbkResults [] ⟨[(c!"b1", exOrder)], ⟨0, false⟩, ⟨0, false⟩⟩).map
      (fun r => (r.1.book.map (fun e => e.2.status), r.1.resOff.pos, r.2)) = some ([some c!"new"], gbkResults.length, .ok ()) ∧
    (pollBothBytes (gbk fun _ _ => some '中') (gbk fun _ _ => some '中') 8192 true 9 gbkResults [] ⟨[(c!"b1", exOrder)], ⟨0, false⟩, ⟨0, false⟩⟩).map
      (fun r => (r.1.book.map (fun e => e.2.status), r.1.book.map (fun e => e.2.errMsg))) = some ([some c!"rejected"], [some c!"中"]) := by
  decide +kernel

/-- Bytes that are wrong in UTF-8, and the beginning of a character. -/
example : IsWrong utf8 [0xd6, 0xd0] ∧ IsBegun utf8 [0xe4, 0xb8] := by
  refine ⟨⟨by decide, by simp, fun p hp hne hne' => ?_⟩, by simp, fun p hp hne => ?_⟩
  · match p, hp with
    | [], _ => exact absurd rfl hne
    | [x], hp => simp at hp; subst hp; decide
    | x :: y :: p, hp => simp at hp; obtain ⟨rfl, rfl, rfl⟩ := hp; exact absurd rfl hne'
  · match p, hp with
    | [], _ => exact absurd rfl hne
    | [x], hp => simp at hp; subst hp; decide
    | x :: y :: p, hp => simp at hp; obtain ⟨rfl, rfl, rfl⟩ := hp; decide

/-- A line with `中` in chunks of one byte, from the position after the first line. -/
example : pollBytes utf8 1 2 (fun b _ => .done (b ++ [(c!"x", exOrder)])) true 30 ((inUtf8 c!"a,b\r\nc,中\n").bytes) [] ⟨5, false⟩ =
    some (([(c!"x", exOrder)], ⟨11, false⟩), .eof) := by decide +kernel

/-- The same line while its last character is being written. -/
example : pollBytes utf8 8192 2 (fun b _ => .done (b ++ [(c!"x", exOrder)])) true 30 ((inUtf8 c!"a,b\r\nc,").bytes ++ [0xe4, 0xb8]) [] ⟨0, false⟩ = none ∧
    (pollBytes utf8 8192 2 (fun b _ => .done (b ++ [(c!"x", exOrder)])) false 30 ((inUtf8 c!"a,b\r\nc,").bytes ++ [0xe4, 0xb8]) [] ⟨0, false⟩) =
      some (([(c!"x", exOrder)], ⟨5, false⟩), .raised .valueError) := by decide +kernel

/-- Chunks of eight bytes: the position goes back from 8 to 4, into the second line. -/
example : (pollBytes utf8 8 2 (fun b _ => .done (b ++ [(c!"x", exOrder)])) true 30 ((inUtf8 c!"a,b\nc,d\n").bytes ++ ([0xff] ++ (inUtf8 c!",e\n").bytes)) [] ⟨0, false⟩).map
    (fun r => (r.1.1.length, r.1.2.pos)) = some (2, 4) := by decide +kernel

end Jq
