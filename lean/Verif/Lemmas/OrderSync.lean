import Verif.Spec.OrderSync
import Verif.Lemmas.Dict
set_option linter.unusedSectionVars false
/-! # Reading the broker's files: helper lemmas -/
namespace Jq
variable {ν : Type}

/-! ## Lines -/

theorem rawLines_nil : rawLines [] = [] := rfl

theorem rawLines_lf (s : Str) : rawLines ('\n' :: s) = ([], 1) :: rawLines s := by
  rw [rawLines, if_pos rfl]

theorem rawLines_crlf (s : Str) : rawLines ('\r' :: '\n' :: s) = ([], 2) :: rawLines s := by
  rw [rawLines, if_neg (by decide), if_pos rfl, if_pos (show ('\n' :: s).head? = some '\n' from rfl), rawLines_lf]

theorem rawLines_cr {s : Str} (h : s.head? ≠ some '\n') : rawLines ('\r' :: s) = ([], 1) :: rawLines s := by
  rw [rawLines, if_neg (by decide), if_pos rfl, if_neg h]

theorem rawLines_char {c : Char} (h1 : c ≠ '\n') (h2 : c ≠ '\r') (s : Str) :
    rawLines (c :: s) = match rawLines s with | [] => [([c], 1)] | (l, n) :: ls => (c :: l, n + 1) :: ls := by
  rw [rawLines, if_neg h1, if_neg h2]
  cases rawLines s <;> rfl

theorem rawLines_ne_nil {s : Str} (h : s ≠ []) : rawLines s ≠ [] := by
  cases s with
  | nil => exact absurd rfl h
  | cons c s =>
    by_cases h1 : c = '\n'
    · subst h1; rw [rawLines_lf]; simp
    · by_cases h2 : c = '\r'
      · subst h2
        by_cases h3 : s.head? = some '\n'
        · cases s with
          | nil => simp at h3
          | cons d s => simp at h3; subst h3; rw [rawLines_crlf]; simp
        · rw [rawLines_cr h3]; simp
      · rw [rawLines_char h1 h2]; split <;> simp

/-- Dropping the first line. -/
theorem rawLines_drop {s l : Str} {n : Nat} {ls : List (Str × Nat)} (h : rawLines s = (l, n) :: ls) :
    rawLines (s.drop n) = ls ∧ n ≤ s.length := by
  induction s generalizing l n ls with
  | nil => simp [rawLines] at h
  | cons c s ih =>
    by_cases h1 : c = '\n'
    · subst h1
      rw [rawLines_lf] at h
      simp only [List.cons.injEq, Prod.mk.injEq] at h
      obtain ⟨⟨_, rfl⟩, rfl⟩ := h
      simp
    · by_cases h2 : c = '\r'
      · subst h2
        by_cases h3 : s.head? = some '\n'
        · cases s with
          | nil => simp at h3
          | cons d s =>
            simp at h3; subst h3
            rw [rawLines_crlf] at h
            simp only [List.cons.injEq, Prod.mk.injEq] at h
            obtain ⟨⟨_, rfl⟩, rfl⟩ := h
            simp
        · rw [rawLines_cr h3] at h
          simp only [List.cons.injEq, Prod.mk.injEq] at h
          obtain ⟨⟨_, rfl⟩, rfl⟩ := h
          simp
      · rw [rawLines_char h1 h2] at h
        cases hs : rawLines s with
        | nil =>
          rw [hs] at h
          simp only [List.cons.injEq, Prod.mk.injEq] at h
          obtain ⟨⟨_, rfl⟩, rfl⟩ := h
          have : s = [] := Classical.byContradiction fun hne => rawLines_ne_nil hne hs
          subst this
          simp [rawLines]
        | cons x xs =>
          obtain ⟨l', n'⟩ := x
          rw [hs] at h
          simp only [List.cons.injEq, Prod.mk.injEq] at h
          obtain ⟨⟨_, rfl⟩, rfl⟩ := h
          obtain ⟨h4, h5⟩ := ih hs
          simpa using ⟨h4, h5⟩

/-- Lines before a line end are not affected by what follows. -/
theorem rawLines_append_lf (a b : Str) : rawLines (a ++ '\n' :: b) = rawLines (a ++ ['\n']) ++ rawLines b := by
  suffices H : ∀ n, ∀ a : Str, a.length ≤ n → rawLines (a ++ '\n' :: b) = rawLines (a ++ ['\n']) ++ rawLines b from
    H a.length a (Nat.le_refl _)
  intro n
  induction n with
  | zero =>
    intro a ha
    have : a = [] := List.length_eq_zero_iff.1 (by omega)
    subst this
    simp [rawLines_lf, rawLines]
  | succ n ih =>
    intro a ha
    cases a with
    | nil => simp [rawLines_lf, rawLines]
    | cons c a =>
      simp only [List.length_cons] at ha
      by_cases h1 : c = '\n'
      · subst h1
        simp only [List.cons_append, rawLines_lf, ih a (by omega)]
      · by_cases h2 : c = '\r'
        · subst h2
          cases a with
          | nil => simp [rawLines_crlf, rawLines]
          | cons d a =>
            by_cases h3 : d = '\n'
            · subst h3
              simp only [List.length_cons] at ha
              simp only [List.cons_append, rawLines_crlf, ih a (by omega)]
            · have hd : ∀ x : Str, (d :: x).head? ≠ some '\n' := by intro x; simpa using h3
              have := ih (d :: a) (by simp only [List.length_cons] at ha ⊢; omega)
              simp only [List.cons_append] at this ⊢
              rw [rawLines_cr (hd _), rawLines_cr (hd _), this]
              rfl
        · simp only [List.cons_append]
          rw [rawLines_char h1 h2, rawLines_char h1 h2, ih a (by omega)]
          have hne : rawLines (a ++ ['\n']) ≠ [] := rawLines_ne_nil (by simp)
          cases hs : rawLines (a ++ ['\n']) with
          | nil => exact absurd hs hne
          | cons x xs => rfl

theorem rawLines_append {a : Str} (h : WholeLines a) (b : Str) : rawLines (a ++ b) = rawLines a ++ rawLines b := by
  rcases h with rfl | h
  · rfl
  · obtain ⟨ys, rfl⟩ := List.getLast?_eq_some_iff.1 h
    rw [List.append_assoc, List.singleton_append, rawLines_append_lf]

theorem wholeLines_drop {s : Str} (h : WholeLines s) (n : Nat) : WholeLines (s.drop n) := by
  rcases h with rfl | h
  · left; simp
  · by_cases hn : n < s.length
    · right; rw [List.getLast?_drop]; simp [h]; omega
    · left; simp; omega

/-- A text without line ends is one line. -/
theorem rawLines_single {s : Str} (hne : s ≠ []) (h1 : '\n' ∉ s) (h2 : '\r' ∉ s) : rawLines s = [(s, s.length)] := by
  induction s with
  | nil => exact absurd rfl hne
  | cons c s ih =>
    simp only [List.mem_cons, not_or] at h1 h2
    rw [rawLines_char (fun e => h1.1 e.symm) (fun e => h2.1 e.symm)]
    cases s with
    | nil => rfl
    | cons d s => rw [ih (by simp) h1.2 h2.2]; rfl

/-! ## The loop with the pending lines instead of an offset -/

/-- The loop, remembering the lines from the offset on. -/
def pollP [GateNum ν] (cols : Nat) (f : Book ν → List Str → LineRes ν) (ign : Bool) :
    List (Str × Nat) → List (Str × Nat) → Book ν → (Book ν × List (Str × Nat)) × PollEnd
  | [], pend, b => ((b, pend), .eof)
  | l :: ls, pend, b =>
    match lineKind cols l.1 with
    | .stop => ((b, pend ++ l :: ls), .stopped)
    | .header => pollP cols f ign ls [] b
    | .fields items =>
      match f b items with
      | .unknown => pollP cols f ign ls (pend ++ [l]) b
      | .done b' => pollP cols f ign ls [] b'
      | .failed b' e => if ign then pollP cols f ign ls [] b' else ((b', pend ++ l :: ls), .raised e)

/-- Number of characters of lines. -/
def sizeOfLines (ls : List (Str × Nat)) : Nat := (ls.map (·.2)).sum

theorem rawLines_drop_lines {s : Str} {ls ms : List (Str × Nat)} (h : rawLines s = ls ++ ms) :
    rawLines (s.drop (sizeOfLines ls)) = ms ∧ sizeOfLines ls ≤ s.length := by
  induction ls generalizing s with
  | nil => simpa [sizeOfLines] using h
  | cons l ls ih =>
    obtain ⟨l, n⟩ := l
    obtain ⟨h1, h2⟩ := rawLines_drop h
    obtain ⟨h3, h4⟩ := ih h1
    simp only [sizeOfLines, List.map_cons, List.sum_cons] at h3 h4 ⊢
    rw [List.drop_drop] at h3
    rw [List.length_drop] at h4
    exact ⟨h3, by omega⟩

variable [GateNum ν]

theorem pollLoop_pollP (cols : Nat) (f : Book ν → List Str → LineRes ν) (ign : Bool) (content : Str)
    (ls pend : List (Str × Nat)) (b : Book ν) (off : Nat) (h : rawLines (content.drop off) = pend ++ ls)
    (hoff : off ≤ content.length ∨ ls = []) :
    (pollLoop cols f ign ls (off + sizeOfLines pend) b off).1.1 = (pollP cols f ign ls pend b).1.1 ∧
    (pollLoop cols f ign ls (off + sizeOfLines pend) b off).2 = (pollP cols f ign ls pend b).2 ∧
    rawLines (content.drop (pollLoop cols f ign ls (off + sizeOfLines pend) b off).1.2) = (pollP cols f ign ls pend b).1.2 ∧
    ((pollLoop cols f ign ls (off + sizeOfLines pend) b off).1.2 ≤ content.length ∨
      (pollLoop cols f ign ls (off + sizeOfLines pend) b off).1.2 = off) := by
  induction ls generalizing pend b off with
  | nil => simp only [pollLoop, pollP]; simp [h]
  | cons l ls ih =>
    obtain ⟨raw, n⟩ := l
    have hl : off ≤ content.length := by simpa using hoff
    have hpos : off + sizeOfLines pend + n = off + sizeOfLines (pend ++ [(raw, n)]) := by simp [sizeOfLines]; omega
    have hd := rawLines_drop_lines (s := content.drop off) (ls := pend ++ [(raw, n)]) (ms := ls) (by simpa using h)
    rw [List.drop_drop, List.length_drop] at hd
    have hle : off + sizeOfLines (pend ++ [(raw, n)]) ≤ content.length := by omega
    have hadv : ∀ b', _ := fun b' => ih [] b' (off + sizeOfLines (pend ++ [(raw, n)])) (by simpa using hd.1) (.inl hle)
    have hz : sizeOfLines ([] : List (Str × Nat)) = 0 := rfl
    simp only [hz, Nat.add_zero] at hadv
    have hadv' : ∀ b', _ := fun b' => (hadv b').2.2.2
    simp only [pollLoop, pollP]
    cases lineKind cols raw with
    | stop => simp [h]
    | header =>
      simp only [hpos]
      obtain ⟨h1, h2, h3, h4⟩ := hadv b
      exact ⟨h1, h2, h3, .inl (by rcases h4 with h4 | h4 <;> omega)⟩
    | fields items =>
      simp only
      cases f b items with
      | unknown =>
        simp only [hpos]
        exact ih (pend ++ [(raw, n)]) b off (by simpa using h) (.inl hl)
      | done b' =>
        simp only [hpos]
        obtain ⟨h1, h2, h3, h4⟩ := hadv b'
        exact ⟨h1, h2, h3, .inl (by rcases h4 with h4 | h4 <;> omega)⟩
      | failed b' e =>
        simp only [hpos]
        cases ign with
        | true =>
          simp only [if_true]
          obtain ⟨h1, h2, h3, h4⟩ := hadv b'
          exact ⟨h1, h2, h3, .inl (by rcases h4 with h4 | h4 <;> omega)⟩
        | false => simp [h]

/-- The offset is determined by the book and the pending lines: two runs over contents of which one extends the
other, with the same pending lines up to the extension. -/
theorem pollFile_pollP (cols : Nat) (f : Book ν → List Str → LineRes ν) (ign : Bool) (content : Str) (b : Book ν) (off : Nat)
    (hoff : off ≤ content.length) :
    (pollFile cols f ign content b off).1.1 = (pollP cols f ign (rawLines (content.drop off)) [] b).1.1 ∧
    (pollFile cols f ign content b off).2 = (pollP cols f ign (rawLines (content.drop off)) [] b).2 ∧
    rawLines (content.drop (pollFile cols f ign content b off).1.2) = (pollP cols f ign (rawLines (content.drop off)) [] b).1.2 ∧
    (pollFile cols f ign content b off).1.2 ≤ content.length := by
  have := pollLoop_pollP cols f ign content (rawLines (content.drop off)) [] b off (by simp) (.inl hoff)
  simp only [sizeOfLines, List.map_nil, List.sum_nil, Nat.add_zero] at this
  obtain ⟨h1, h2, h3, h4⟩ := this
  exact ⟨h1, h2, h3, by rcases h4 with h4 | h4 <;> simp only [pollFile] <;> omega⟩

theorem sizeOfLines_rawLines (s : Str) : sizeOfLines (rawLines s) = s.length := by
  have h := rawLines_drop_lines (s := s) (ls := rawLines s) (ms := []) (by simp)
  have : s.drop (sizeOfLines (rawLines s)) = [] := Classical.byContradiction fun hne => rawLines_ne_nil hne h.1
  have := List.drop_eq_nil_iff.1 this
  omega

/-- What is needed of the processing of a line. -/
structure LineFun (f : Book ν → List Str → LineRes ν) : Prop where
  /-- no order is added or removed -/
  keys_done : ∀ b items b', f b items = .done b' → dkeys b' = dkeys b
  keys_failed : ∀ b items b' e, f b items = .failed b' e → dkeys b' = dkeys b
  /-- whether the order is unknown depends on the known ids only -/
  unknown : ∀ b b' items, dkeys b = dkeys b' → f b items = .unknown → f b' items = .unknown
  /-- failing again changes nothing -/
  failed : ∀ b items b' e, f b items = .failed b' e → f b' items = .failed b' e

variable {cols : Nat} {f : Book ν → List Str → LineRes ν} {ign : Bool}

/-- The line is of an unknown order. -/
def UnknownLine (cols : Nat) (f : Book ν → List Str → LineRes ν) (b : Book ν) (l : Str × Nat) : Prop :=
  ∃ items, lineKind cols l.1 = .fields items ∧ f b items = .unknown

/-- What the pending lines look like after reading. -/
def Idle (cols : Nat) (f : Book ν → List Str → LineRes ν) (ign : Bool) (b : Book ν) (pend : List (Str × Nat)) : PollEnd → Prop
  | .eof => ∀ l ∈ pend, UnknownLine cols f b l
  | .stopped => ∃ us l rest, pend = us ++ l :: rest ∧ (∀ u ∈ us, UnknownLine cols f b u) ∧ lineKind cols l.1 = .stop
  | .raised e => ign = false ∧ ∃ us l rest items, pend = us ++ l :: rest ∧ (∀ u ∈ us, UnknownLine cols f b u) ∧
      lineKind cols l.1 = .fields items ∧ f b items = .failed b e

theorem UnknownLine.congr (hf : LineFun f) {b b' : Book ν} (hk : dkeys b = dkeys b') {l : Str × Nat}
    (h : UnknownLine cols f b l) : UnknownLine cols f b' l := by
  obtain ⟨items, h1, h2⟩ := h
  exact ⟨items, h1, hf.unknown b b' items hk h2⟩

theorem pollP_keys (hf : LineFun f) (ls pend : List (Str × Nat)) (b : Book ν) :
    dkeys (pollP cols f ign ls pend b).1.1 = dkeys b := by
  induction ls generalizing pend b with
  | nil => rfl
  | cons l ls ih =>
    simp only [pollP]
    cases lineKind cols l.1 with
    | stop => rfl
    | header => exact ih _ _
    | fields items =>
      simp only
      cases hb : f b items with
      | unknown => exact ih _ _
      | done b' => exact (ih _ _).trans (hf.keys_done _ _ _ hb)
      | failed b' e =>
        have := hf.keys_failed _ _ _ _ hb
        cases ign with
        | true => exact (ih _ _).trans this
        | false => exact this

theorem pollP_idle (hf : LineFun f) (ls pend : List (Str × Nat)) (b : Book ν) (hp : ∀ l ∈ pend, UnknownLine cols f b l) :
    Idle cols f ign (pollP cols f ign ls pend b).1.1 (pollP cols f ign ls pend b).1.2 (pollP cols f ign ls pend b).2 := by
  induction ls generalizing pend b with
  | nil => exact hp
  | cons l ls ih =>
    simp only [pollP]
    cases hk : lineKind cols l.1 with
    | stop => exact ⟨pend, l, ls, rfl, hp, hk⟩
    | header => exact ih _ _ (by simp)
    | fields items =>
      simp only
      cases hb : f b items with
      | unknown =>
        refine ih _ _ ?_
        intro l' hl'
        rcases List.mem_append.1 hl' with h | h
        · exact hp l' h
        · rw [List.mem_singleton.1 h]; exact ⟨items, hk, hb⟩
      | done b' => exact ih _ _ (by simp)
      | failed b' e =>
        cases ign with
        | true => exact ih _ _ (by simp)
        | false =>
          refine ⟨rfl, pend, l, ls, items, rfl, fun u hu => (hp u hu).congr hf (hf.keys_failed _ _ _ _ hb).symm, hk, hf.failed _ _ _ _ hb⟩

/-- Reading on. -/
theorem pollP_append_eof (ls more pend : List (Str × Nat)) (b : Book ν) (h : (pollP cols f ign ls pend b).2 = .eof) :
    pollP cols f ign (ls ++ more) pend b = pollP cols f ign more (pollP cols f ign ls pend b).1.2 (pollP cols f ign ls pend b).1.1 := by
  induction ls generalizing pend b with
  | nil => rfl
  | cons l ls ih =>
    simp only [List.cons_append, pollP] at h ⊢
    cases hk : lineKind cols l.1 with
    | stop => rw [hk] at h; cases h
    | header => rw [hk] at h; exact ih _ _ h
    | fields items =>
      rw [hk] at h
      simp only at h ⊢
      cases hb : f b items with
      | unknown => rw [hb] at h; exact ih _ _ h
      | done b' => rw [hb] at h; exact ih _ _ h
      | failed b' e =>
        rw [hb] at h
        cases ign with
        | true => exact ih _ _ h
        | false => cases h

/-- A file that stopped the reader, or made it raise, does so again whatever follows. -/
theorem pollP_append_end (ls more pend : List (Str × Nat)) (b : Book ν) (h : (pollP cols f ign ls pend b).2 ≠ .eof) :
    pollP cols f ign (ls ++ more) pend b =
      (((pollP cols f ign ls pend b).1.1, (pollP cols f ign ls pend b).1.2 ++ more), (pollP cols f ign ls pend b).2) := by
  induction ls generalizing pend b with
  | nil => exact absurd rfl h
  | cons l ls ih =>
    simp only [List.cons_append, pollP] at h ⊢
    cases hk : lineKind cols l.1 with
    | stop => simp
    | header => rw [hk] at h; exact ih _ _ h
    | fields items =>
      rw [hk] at h
      simp only at h ⊢
      cases hb : f b items with
      | unknown => rw [hb] at h; exact ih _ _ h
      | done b' => rw [hb] at h; exact ih _ _ h
      | failed b' e =>
        rw [hb] at h
        cases ign with
        | true => exact ih _ _ h
        | false => simp

theorem pollP_unknown (us more pend : List (Str × Nat)) (b : Book ν) (h : ∀ u ∈ us, UnknownLine cols f b u) :
    pollP cols f ign (us ++ more) pend b = pollP cols f ign more (pend ++ us) b := by
  induction us generalizing pend with
  | nil => simp
  | cons u us ih =>
    obtain ⟨items, h1, h2⟩ := h u (by simp)
    simp only [List.cons_append, pollP, h1, h2]
    rw [ih _ (fun v hv => h v (by simp [hv]))]
    simp

/-- Reading the pending lines and new ones from the state reached is reading everything from the start. -/
theorem pollP_resume (hf : LineFun f) (ls more : List (Str × Nat)) (b : Book ν) :
    pollP cols f ign ((pollP cols f ign ls [] b).1.2 ++ more) [] (pollP cols f ign ls [] b).1.1 =
      pollP cols f ign (ls ++ more) [] b := by
  have hi := pollP_idle (cols := cols) (ign := ign) hf ls [] b (by simp)
  cases he : (pollP cols f ign ls [] b).2 with
  | eof =>
    rw [he] at hi
    rw [pollP_append_eof _ _ _ _ he, pollP_unknown _ _ _ _ hi, List.nil_append]
  | stopped =>
    rw [he] at hi
    obtain ⟨us, l, rest, h1, h2, h3⟩ := hi
    rw [pollP_append_end ls more [] b (by rw [he]; simp), he, h1]
    simp only [List.append_assoc, List.cons_append]
    rw [pollP_unknown _ _ _ _ h2]
    simp [pollP, h3]
  | raised e =>
    rw [he] at hi
    obtain ⟨h0, us, l, rest, items, h1, h2, h3, h4⟩ := hi
    subst h0
    rw [pollP_append_end ls more [] b (by rw [he]; simp), he, h1]
    simp only [List.append_assoc, List.cons_append]
    rw [pollP_unknown _ _ _ _ h2]
    simp [pollP, h3, h4]

/-- The numeric form: whole lines now, more later. -/
theorem pollFile_resume (hf : LineFun f) (c more : Str) (hc : WholeLines c) (b : Book ν) (off : Nat) (hoff : off ≤ c.length) :
    pollFile cols f ign (c ++ more) (pollFile cols f ign c b off).1.1 (pollFile cols f ign c b off).1.2 =
      pollFile cols f ign (c ++ more) b off := by
  obtain ⟨h1, h2, h3, h4⟩ := pollFile_pollP cols f ign c b off hoff
  have hlen : ∀ n, n ≤ c.length → n ≤ (c ++ more).length := by intro n hn; simp; omega
  obtain ⟨g1, g2, g3, g4⟩ := pollFile_pollP cols f ign (c ++ more) (pollFile cols f ign c b off).1.1 (pollFile cols f ign c b off).1.2 (hlen _ h4)
  obtain ⟨k1, k2, k3, k4⟩ := pollFile_pollP cols f ign (c ++ more) b off (hlen _ hoff)
  have hd : ∀ n, n ≤ c.length → rawLines ((c ++ more).drop n) = rawLines (c.drop n) ++ rawLines more := by
    intro n hn
    rw [List.drop_append_of_le_length hn, rawLines_append (wholeLines_drop hc n)]
  rw [hd _ h4, h3, h1, pollP_resume hf] at g1 g2 g3
  rw [hd _ hoff] at k1 k2 k3
  have hoffs : (pollFile cols f ign (c ++ more) (pollFile cols f ign c b off).1.1 (pollFile cols f ign c b off).1.2).1.2 =
      (pollFile cols f ign (c ++ more) b off).1.2 := by
    have e := congrArg sizeOfLines (g3.trans k3.symm)
    rw [← h1] at e
    rw [sizeOfLines_rawLines, sizeOfLines_rawLines, List.length_drop, List.length_drop] at e
    omega
  rw [← h1] at g1 g2
  exact Prod.ext (Prod.ext (g1.trans k1.symm) hoffs) (g2.trans k2.symm)

/-- A last line that stops the reader changes nothing. -/
theorem pollFile_half (c h : Str) (hc : WholeLines c) (hne : h ≠ []) (h1 : '\n' ∉ h) (h2 : '\r' ∉ h) (hs : lineKind cols h = .stop)
    (b : Book ν) (off : Nat) (hoff : off ≤ c.length) :
    (pollFile cols f ign (c ++ h) b off).1 = (pollFile cols f ign c b off).1 := by
  simp only [pollFile]
  rw [List.drop_append_of_le_length hoff, rawLines_append (wholeLines_drop hc off), rawLines_single hne h1 h2]
  generalize rawLines (c.drop off) = ls
  suffices H : ∀ ls pos b o, (pollLoop cols f ign (ls ++ [(h, h.length)]) pos b o).1 = (pollLoop cols f ign ls pos b o).1 from H _ _ _ _
  intro ls
  induction ls with
  | nil => intro pos b o; simp [pollLoop, hs]
  | cons l ls ih =>
    obtain ⟨raw, n⟩ := l
    intro pos b o
    simp only [List.cons_append, pollLoop]
    cases lineKind cols raw with
    | stop => rfl
    | header => exact ih _ _ _
    | fields items =>
      simp only
      cases f b items with
      | unknown => exact ih _ _ _
      | done b' => exact ih _ _ _
      | failed b' e =>
        cases ign with
        | true => exact ih _ _ _
        | false => rfl

/-! ## The processing of update and result lines -/

theorem updateOrder_failed {o o' : OrderInfo ν} {l : OrderLine} {e : PyErr} (h : updateOrder o l = (o', .error e)) :
    updateOrder o' l = (o', .error e) := by
  simp only [updateOrder] at h ⊢
  cases h1 : parseStatus l.status with
  | error e1 => rw [h1] at h; simp only [Prod.mk.injEq] at h; obtain ⟨rfl, h⟩ := h; simp [h]
  | ok st =>
    rw [h1] at h
    cases h2 : strptime mCompact (l.orderDate ++ l.orderTime) with
    | error e1 => rw [h2] at h; simp only [Prod.mk.injEq] at h; obtain ⟨rfl, h⟩ := h; simp [h]
    | ok d =>
      rw [h2] at h
      cases h3 : pyInt l.filledQty with
      | none => rw [h3] at h; simp only [Prod.mk.injEq] at h; obtain ⟨rfl, h⟩ := h; simp [h]
      | some fq =>
        rw [h3] at h
        cases h4 : (GateNum.parse l.filledAmt : Option ν) with
        | none => rw [h4] at h; simp only [Prod.mk.injEq] at h; obtain ⟨rfl, h⟩ := h; simp [h]
        | some am =>
          rw [h4] at h
          cases h5 : pyInt l.cancelQty with
          | none => rw [h5] at h; simp only [Prod.mk.injEq] at h; obtain ⟨rfl, h⟩ := h; simp [h]
          | some cq =>
            rw [h5] at h
            cases h6 : (GateNum.parse l.avgPrice : Option ν) with
            | none => rw [h6] at h; simp only [Prod.mk.injEq] at h; obtain ⟨rfl, h⟩ := h; simp [h]
            | some av => rw [h6] at h; simp at h

theorem dkeys_dset_mem {β : Type} {d : Dict Str β} {k : Str} {o : β} (h : dget d k = some o) (v : β) : dkeys (dset d k v) = dkeys d := by
  rw [dkeys_dset, if_pos ((mem_dkeys_iff d k).2 (by rw [h]; rfl))]

theorem dset_dset {β : Type} (d : Dict Str β) (k : Str) (u v : β) : dset (dset d k u) k v = dset d k v := by
  induction d with
  | nil => simp [dset]
  | cons x d ih =>
    obtain ⟨k', w⟩ := x
    simp only [dset]
    split
    · rename_i h; simp [dset, h]
    · rename_i h; simp [dset, h, ih]

theorem updateLine_fun : LineFun (updateLine (ν := ν)) := by
  refine ⟨?_, ?_, ?_, ?_⟩
  · intro b items b' h
    simp only [updateLine] at h
    split at h
    · cases h
    · split at h
      · cases h
      · rename_i o ho
        split at h <;> simp only [LineRes.done.injEq, reduceCtorEq] at h
        subst h
        exact dkeys_dset_mem ho _
  · intro b items b' e h
    simp only [updateLine] at h
    split at h
    · simp only [LineRes.failed.injEq] at h; rw [h.1]
    · split at h
      · cases h
      · rename_i o ho
        split at h <;> simp only [LineRes.failed.injEq, reduceCtorEq] at h
        obtain ⟨rfl, _⟩ := h
        exact dkeys_dset_mem ho _
  · intro b b' items hk h
    simp only [updateLine] at h ⊢
    split at h
    · cases h
    · split at h
      · rename_i ho
        rw [dget_eq_none, hk, ← dget_eq_none] at ho
        rw [ho]
      · split at h <;> cases h
  · intro b items b' e h
    simp only [updateLine] at h ⊢
    split at h
    · simp only [LineRes.failed.injEq] at h; simp [h.2]
    · rename_i l hl
      split at h
      · cases h
      · rename_i o ho
        split at h <;> simp only [LineRes.failed.injEq, reduceCtorEq] at h
        rename_i o' e' hu
        obtain ⟨rfl, rfl⟩ := h
        rw [dget_dset_self]
        simp only [updateOrder_failed hu, dset_dset]

theorem resultLine_fun : LineFun (resultLine (ν := ν)) := by
  refine ⟨?_, ?_, ?_, ?_⟩
  · intro b items b' h
    simp only [resultLine] at h
    split at h
    · split at h
      · split at h
        · rename_i o ho
          simp only [LineRes.done.injEq] at h
          subst h
          exact dkeys_dset_mem ho _
        · simp only [LineRes.done.injEq] at h; rw [h]
      · simp only [LineRes.done.injEq] at h; rw [h]
    · cases h
  · intro b items b' e h
    simp only [resultLine] at h
    split at h
    · split at h
      · split at h <;> cases h
      · cases h
    · simp only [LineRes.failed.injEq] at h; rw [h.1]
  · intro b b' items hk h
    simp only [resultLine] at h
    split at h
    · split at h
      · split at h <;> cases h
      · cases h
    · cases h
  · intro b items b' e h
    simp only [resultLine] at h ⊢
    split at h
    · split at h
      · split at h <;> cases h
      · cases h
    · simp only [LineRes.failed.injEq] at h; simp [h.2]

end Jq
