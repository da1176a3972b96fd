import Verif.Props.C36_OrderSync
import Verif.Lemmas.Numbers
set_option linter.unusedSectionVars false
/-!
# C43: exactly which updates of the new day's file are seen

The offset of the day before points somewhere into the new day's file: at the start of a line, into the first field of a line
(which is not used), or further into a line.  In the last case the rest of the line has too few fields and stops the reader,
which then never gets past it.
-/
namespace Jq
variable {ν : Type} [GateNum ν]

omit [GateNum ν] in
/-- The book does not depend on the positions. -/
private theorem pollLoop_book {cols : Nat} {f : Book ν → List Str → LineRes ν} {ign : Bool} (ls : List (Str × Nat)) :
    ∀ (p q : Nat) (b : Book ν) (o u : Nat), (pollLoop cols f ign ls p b o).1.1 = (pollLoop cols f ign ls q b u).1.1 := by
  induction ls with
  | nil => intros; rfl
  | cons l ls ih =>
    intro p q b o u
    obtain ⟨raw, n⟩ := l
    simp only [pollLoop]
    split
    · rfl
    · exact ih _ _ _ _ _
    · split
      · exact ih _ _ _ _ _
      · exact ih _ _ _ _ _
      · split
        · exact ih _ _ _ _ _
        · rfl

private theorem strip_cons {l s : Str} (hl : ∀ c ∈ l, isSpace c = true) (h : pyStrip s = s) (hs : s ≠ []) : pyStrip (l ++ s) = s := by
  have h0 := pyStrip_pad (l := l) (s := s) (r := []) hl (by simp) hs (pyStrip_head h) (pyStrip_last h)
  simpa using h0

private theorem count_splitOn (s : Str) : (splitOn ',' s).length = s.count ',' + 1 := by
  induction s with
  | nil => rfl
  | cons c s ih =>
    rw [splitOn]
    split
    · rename_i hc; subst hc; simp [ih]
    · rename_i hc
      rw [List.count_cons_of_ne hc, ← ih]
      cases hs : splitOn ',' s <;> simp_all

private theorem count_pyStrip (s : Str) : (pyStrip s).count ',' ≤ s.count ',' := by
  obtain ⟨l, r, h, _, _⟩ := pyStrip_split s
  conv => rhs; rw [h]
  simp only [List.count_append]; omega

private theorem count_record {items : List Str} (h : ∀ s ∈ items, ',' ∉ s) : (joinWith [','] items).count ',' = items.length - 1 := by
  induction items with
  | nil => rfl
  | cons a l ih =>
    cases l with
    | nil => simpa [joinWith, List.count_eq_zero] using h a (by simp)
    | cons d l =>
      have := ih fun s hs => h s (List.mem_cons_of_mem _ hs)
      have ha : a.count ',' = 0 := List.count_eq_zero.2 (h a (by simp))
      simp only [joinWith, List.count_append, ha, List.length_cons] at this ⊢
      rw [this]; simp; omega

private theorem record_cons {cols : Nat} (h2 : 2 ≤ cols) {items : List Str} (h : items.length = cols) :
    ∃ a l, items = a :: l ∧ l.length + 1 = cols ∧ recordText items = a ++ ',' :: joinWith [','] l := by
  match items, h with
  | a :: b :: l, h => exact ⟨a, b :: l, rfl, by simpa using h, by simp [recordText, joinWith]⟩
  | [_], h => simp only [List.length_singleton] at h; omega
  | [], h => simp only [List.length_nil] at h; omega

/-- The rest of a line that is cut behind its first comma has too few fields. -/
private theorem late_stop {cols : Nat} (h2 : 2 ≤ cols) {r : List Str} (hr : CleanRecord cols r) (hu : ¬ c!"updTime" <:+: recordText r) {k : Nat}
    (hk : (r.headD []).length < k) : lineKind cols ((recordText r).drop k) = .stop := by
  obtain ⟨hlen, hcl, _⟩ := hr
  obtain ⟨a, l, rfl, hl, hrt⟩ := record_cons h2 hlen
  simp only [List.headD_cons] at hk
  obtain ⟨m, rfl⟩ : ∃ m, k = a.length + (m + 1) := ⟨k - a.length - 1, by omega⟩
  have hd : (recordText (a :: l)).drop (a.length + (m + 1)) = (joinWith [','] l).drop m := by
    rw [hrt, List.drop_append]; simp
  simp only [lineKind]
  split
  · rfl
  · split
    · rename_i hp
      exfalso
      apply hu
      obtain ⟨p, q, hpq, _, _⟩ := pyStrip_split ((recordText (a :: l)).drop (a.length + (m + 1)))
      obtain ⟨t, ht⟩ := List.isPrefixOf_iff_prefix.1 hp
      refine ⟨(recordText (a :: l)).take (a.length + (m + 1)) ++ p, t ++ q, ?_⟩
      conv => rhs; rw [← List.take_append_drop (a.length + (m + 1)) (recordText (a :: l)), hpq, ← ht]
      simp [List.append_assoc]
    · rw [if_pos]
      rw [List.length_map, count_splitOn, hd]
      have h1 := count_pyStrip ((joinWith [','] l).drop m)
      have h2 : ((joinWith [','] l).drop m).count ',' ≤ (joinWith [','] l).count ',' := List.Sublist.count_le _ (List.drop_sublist _ _)
      have h3 := count_record (items := l) fun s hs => (hcl s (List.mem_cons_of_mem _ hs)).1
      omega

omit [GateNum ν] in
private theorem blocked {cols : Nat} (h2 : 2 ≤ cols) (f : Book ν → List Str → LineRes ν) (ign : Bool) (b : Book ν) (pre : List (List Str)) (r : List Str)
    (hr : CleanRecord cols r) (hu : ¬ c!"updTime" <:+: recordText r) (k : Nat) (hk : (r.headD []).length < k)
    (hk' : k ≤ (recordText r).length) (rest : Str) :
    pollFile cols f ign (fileText pre ++ (recordText r ++ '\n' :: rest)) b ((fileText pre).length + k)
      = ((b, (fileText pre).length + k), .stopped) := by
  have hstop := late_stop h2 hr hu hk
  obtain ⟨_, h1, h2, _⟩ := recordText_facts h2 hr
  have hd : (fileText pre ++ (recordText r ++ '\n' :: rest)).drop ((fileText pre).length + k) = (recordText r).drop k ++ '\n' :: rest := by
    rw [List.drop_append, List.drop_of_length_le (by omega)]
    simp only [List.nil_append, Nat.add_sub_cancel_left]
    rw [List.drop_append, show k - (recordText r).length = 0 by omega, List.drop_zero]
  have hn : ∀ c : Char, c ∉ recordText r → c ∉ (recordText r).drop k := fun c hc h => hc (List.mem_of_mem_drop h)
  simp only [pollFile, hd]
  cases hs : (recordText r).drop k with
  | nil => rfl
  | cons c s =>
    have := rawLines_record (s := c :: s) (by simp) (hs ▸ hn _ h1) (hs ▸ hn _ h2) rest
    rw [this]
    rw [hs] at hstop
    simp only [pollLoop, hstop]

/-- **C43**: when the old offset lies behind the first comma of a line of the new day's file, nothing of this file is ever
read, however much is appended to it: the offset stays where it is. -/
theorem c43_blocked_refuted (ign : Bool) (b : Book ν) (pre : List (List Str)) (r : List Str) (hr : CleanRecord 20 r)
    (hu : ¬ c!"updTime" <:+: recordText r) (k : Nat) (hk : (r.headD []).length < k) (hk' : k ≤ (recordText r).length) (rest : Str) :
    pollUpdates ign (fileText pre ++ (recordText r ++ '\n' :: rest)) b ((fileText pre).length + k)
      = ((b, (fileText pre).length + k), .stopped) :=
  blocked (by decide) updateLine ign b pre r hr hu k hk hk' rest

/-- The same for the file of the results: no refusal of the new day is ever seen. -/
theorem c43_results_blocked_refuted (ign : Bool) (b : Book ν) (pre : List (List Str)) (r : List Str) (hr : CleanRecord 6 r)
    (hu : ¬ c!"updTime" <:+: recordText r) (k : Nat) (hk : (r.headD []).length < k) (hk' : k ≤ (recordText r).length) (rest : Str) :
    pollResults ign (fileText pre ++ (recordText r ++ '\n' :: rest)) b ((fileText pre).length + k)
      = ((b, (fileText pre).length + k), .stopped) :=
  blocked (by decide) resultLine ign b pre r hr hu k hk hk' rest

/-- A line that is cut in its first field is understood like the whole line. -/
private theorem early_fields {cols : Nat} (h2 : 2 ≤ cols) {a : Str} {l : List Str} (hr : CleanRecord cols (a :: l)) (hu : ¬ c!"updTime" <:+: recordText (a :: l)) {k : Nat}
    (hk : k ≤ a.length) : ∃ x, lineKind cols ((recordText (a :: l)).drop k) = .fields (x :: l) := by
  obtain ⟨hlen, hcl, _⟩ := hr
  obtain ⟨a', l', e, hl, hrt⟩ := record_cons h2 hlen
  obtain ⟨rfl, rfl⟩ : a = a' ∧ l = l' := by simpa using e
  have hd : (recordText (a :: l)).drop k = a.drop k ++ ',' :: joinWith [','] l := by
    rw [hrt, List.drop_append, show k - a.length = 0 by omega, List.drop_zero]
  have hsp : a.drop k = (a.drop k).takeWhile isSpace ++ (a.drop k).dropWhile isSpace := (List.takeWhile_append_dropWhile).symm
  have hcomma : ',' ∉ (a.drop k).dropWhile isSpace := fun h =>
    (hcl a (by simp)).1 (List.mem_of_mem_drop ((List.dropWhile_sublist _).mem h))
  have hstrip : pyStrip ((recordText (a :: l)).drop k) = (a.drop k).dropWhile isSpace ++ ',' :: joinWith [','] l := by
    rw [hd]
    conv => lhs; rw [hsp, List.append_assoc]
    have hne : (a.drop k).dropWhile isSpace ++ ',' :: joinWith [','] l ≠ [] := by simp
    refine strip_cons (fun c hc => ?_) ?_ hne
    · have := List.all_takeWhile (p := isSpace) (l := a.drop k)
      exact List.all_eq_true.1 this c hc
    · refine pyStrip_of ?_ ?_
      · intro c hc
        cases hx : (a.drop k).dropWhile isSpace with
        | nil => rw [hx] at hc; simp at hc; subst hc; decide
        | cons y ys =>
          rw [hx] at hc
          exact dropWhile_head isSpace (a.drop k) c (by rw [hx]; simpa using hc)
      · intro c hc
        rw [List.getLast?_append, List.getLast?_cons] at hc
        simp only [Option.some_or, Option.mem_some_iff] at hc
        cases hj : (joinWith [','] l).getLast? with
        | none => rw [hj] at hc; simp at hc; subst hc; decide
        | some y =>
          rw [hj] at hc
          simp only [Option.getD_some] at hc
          subst hc
          rcases joinWith_last (Option.mem_def.2 hj) with rfl | ⟨p, hp, hy⟩
          · decide
          · exact pyStrip_last (hcl p (List.mem_cons_of_mem _ hp)).2.2.2 _ hy
  have hlne : l ≠ [] := by intro h; rw [h] at hl; simp only [List.length_nil] at hl; omega
  have hsplit : splitOn ',' ((a.drop k).dropWhile isSpace ++ ',' :: joinWith [','] l) = (a.drop k).dropWhile isSpace :: l := by
    have := splitOn_joinWith (sep := ',') (ps := (a.drop k).dropWhile isSpace :: l) (by simp) (by
      intro p hp
      rcases List.mem_cons.1 hp with rfl | hp
      · exact hcomma
      · exact (hcl p (List.mem_cons_of_mem _ hp)).1)
    rw [← this]
    cases l with
    | nil => exact absurd rfl hlne
    | cons d l => simp [joinWith]
  refine ⟨pyStrip ((a.drop k).dropWhile isSpace), ?_⟩
  simp only [lineKind, hstrip]
  rw [if_neg (by simp), if_neg, if_neg]
  · rw [hsplit, List.map_cons]
    congr 2
    have : ∀ p ∈ l, pyStrip p = p := fun p hp => (hcl p (List.mem_cons_of_mem _ hp)).2.2.2
    exact (List.map_congr_left this).trans (by simp)
  · rw [hsplit]; simp [hl]
  · intro hp
    apply hu
    obtain ⟨t, ht⟩ := List.isPrefixOf_iff_prefix.1 hp
    refine ⟨(recordText (a :: l)).take k ++ (a.drop k).takeWhile isSpace, t, ?_⟩
    conv => rhs; rw [← List.take_append_drop k (recordText (a :: l)), hd, hsp, List.append_assoc, ← ht]
    simp [List.append_assoc]

private theorem updateLine_first (b : Book ν) (x y : Str) (l : List Str) : updateLine b (x :: l) = updateLine b (y :: l) := by
  have : OrderLine.ofItems (x :: l) = OrderLine.ofItems (y :: l) := by
    unfold OrderLine.ofItems
    split <;> split <;> first
      | (simp_all; done)
      | (exfalso; rename_i hx; simp_all; (apply hx <;> rfl))
      | (exfalso; rename_i hx _ _; simp_all; (apply hx <;> rfl))
  simp only [updateLine, this]

private theorem resultLine_first (b : Book ν) (x y : Str) (l : List Str) : resultLine b (x :: l) = resultLine b (y :: l) := by
  unfold resultLine
  split <;> split <;> first
    | (simp_all; done)
    | (exfalso; rename_i hx; simp_all; (apply hx <;> rfl))
    | (exfalso; rename_i hx _ _; simp_all; (apply hx <;> rfl))

omit [GateNum ν] in
private theorem from_line {cols : Nat} (h2 : 2 ≤ cols) (f : Book ν → List Str → LineRes ν) (hf : ∀ b x y l, f b (x :: l) = f b (y :: l)) (ign : Bool) (b : Book ν) (pre : List (List Str)) (r : List Str) (hr : CleanRecord cols r)
    (hu : ¬ c!"updTime" <:+: recordText r) (k : Nat) (hk : k ≤ (r.headD []).length) (rest : Str) :
    (pollFile cols f ign (fileText pre ++ (recordText r ++ '\n' :: rest)) b ((fileText pre).length + k)).1.1
      = (pollFile cols f ign (recordText r ++ '\n' :: rest) b 0).1.1 := by
  obtain ⟨a, l, rfl, hl, hrt⟩ := record_cons h2 hr.1
  simp only [List.headD_cons] at hk
  obtain ⟨x, hx⟩ := early_fields h2 hr hu hk
  obtain ⟨hne, h1, h3, hfull⟩ := recordText_facts h2 hr
  have hlen : k < (recordText (a :: l)).length := by rw [hrt]; simp; omega
  have hd : (fileText pre ++ (recordText (a :: l) ++ '\n' :: rest)).drop ((fileText pre).length + k)
      = (recordText (a :: l)).drop k ++ '\n' :: rest := by
    rw [List.drop_append, List.drop_of_length_le (by omega)]
    simp only [List.nil_append, Nat.add_sub_cancel_left]
    rw [List.drop_append, show k - (recordText (a :: l)).length = 0 by omega, List.drop_zero]
  have hn : ∀ c : Char, c ∉ recordText (a :: l) → c ∉ (recordText (a :: l)).drop k := fun c hc h => hc (List.mem_of_mem_drop h)
  have hne' : (recordText (a :: l)).drop k ≠ [] := by
    intro h; have := congrArg List.length h; simp at this; omega
  simp only [pollFile, hd, List.drop_zero]
  rw [rawLines_record hne' (hn _ h1) (hn _ h3), rawLines_record hne h1 h3]
  simp only [pollLoop, hx, hfull]
  rw [hf b x a l]
  split
  · exact pollLoop_book _ _ _ _ _ _
  · exact pollLoop_book _ _ _ _ _ _
  · split
    · exact pollLoop_book _ _ _ _ _ _
    · rfl

/-- **C43**: when it lies at the start of a line or in its first field, this line and all later ones are applied as if the file
began there; the lines before are never seen. -/
theorem c43_from_line_partial (ign : Bool) (b : Book ν) (pre : List (List Str)) (r : List Str) (hr : CleanRecord 20 r)
    (hu : ¬ c!"updTime" <:+: recordText r) (k : Nat) (hk : k ≤ (r.headD []).length) (rest : Str) :
    (pollUpdates ign (fileText pre ++ (recordText r ++ '\n' :: rest)) b ((fileText pre).length + k)).1.1
      = (pollUpdates ign (recordText r ++ '\n' :: rest) b 0).1.1 :=
  from_line (by decide) updateLine updateLine_first ign b pre r hr hu k hk rest

/-- The same for the file of the results. -/
theorem c43_results_from_line_partial (ign : Bool) (b : Book ν) (pre : List (List Str)) (r : List Str) (hr : CleanRecord 6 r)
    (hu : ¬ c!"updTime" <:+: recordText r) (k : Nat) (hk : k ≤ (r.headD []).length) (rest : Str) :
    (pollResults ign (fileText pre ++ (recordText r ++ '\n' :: rest)) b ((fileText pre).length + k)).1.1
      = (pollResults ign (recordText r ++ '\n' :: rest) b 0).1.1 :=
  from_line (by decide) resultLine resultLine_first ign b pre r hr hu k hk rest

/-- Every offset inside a file of records is of one of the two kinds, or lies at its end or beyond (`c43_updates_missed_refuted`). -/
theorem c43_every_offset (records : List (List Str)) (off : Nat) (h : off < (fileText records).length) :
    ∃ pre r post k, records = pre ++ r :: post ∧ off = (fileText pre).length + k ∧ k ≤ (recordText r).length ∧
      fileText records = fileText pre ++ (recordText r ++ '\n' :: fileText post) := by
  induction records generalizing off with
  | nil => simp [fileText] at h
  | cons r rs ih =>
    have hf : fileText (r :: rs) = recordText r ++ '\n' :: fileText rs := by simp [fileText]
    by_cases hk : off ≤ (recordText r).length
    · exact ⟨[], r, rs, off, rfl, by simp [fileText], hk, by rw [hf]; simp [fileText]⟩
    · rw [hf] at h
      simp only [List.length_append, List.length_cons] at h
      obtain ⟨pre, r', post, k, e1, e2, e3, e4⟩ := ih (off - (recordText r).length - 1) (by omega)
      refine ⟨r :: pre, r', post, k, by rw [e1]; rfl, ?_, e3, ?_⟩
      · have : fileText (r :: pre) = recordText r ++ '\n' :: fileText pre := by simp [fileText]
        rw [this]; simp only [List.length_append, List.length_cons]; omega
      · have : fileText (r :: pre) = recordText r ++ '\n' :: fileText pre := by simp [fileText]
        rw [hf, e4, this]; simp

/-- Non-vacuity: a result line and an offset behind its first comma. -/
example : CleanRecord 6 [c!"093000", c!"1", c!"7", c!"1", c!"0", c!"no"] ∧
    ¬ c!"updTime" <:+: recordText [c!"093000", c!"1", c!"7", c!"1", c!"0", c!"no"] ∧ 9 ≤ (recordText [c!"093000", c!"1", c!"7", c!"1", c!"0", c!"no"]).length := by
  refine ⟨⟨by decide, ?_, by decide⟩, by decide +kernel, by decide⟩
  intro s hs
  revert s
  show ∀ s ∈ _, ',' ∉ s ∧ '\n' ∉ s ∧ '\r' ∉ s ∧ pyStrip s = s
  decide +kernel

/-- Non-vacuity: an update line and an offset behind its first comma. -/
example : CleanRecord 20 (exUpdate c!"b1" c!"2" c!"100") ∧ ¬ c!"updTime" <:+: recordText (exUpdate c!"b1" c!"2" c!"100") ∧
    ((exUpdate c!"b1" c!"2" c!"100").headD []).length < 20 ∧ 20 ≤ (recordText (exUpdate c!"b1" c!"2" c!"100")).length := by
  refine ⟨⟨by decide, ?_, by decide⟩, ?_, by decide, by decide⟩
  · intro s hs
    revert s
    show ∀ s ∈ _, ',' ∉ s ∧ '\n' ∉ s ∧ '\r' ∉ s ∧ pyStrip s = s
    decide +kernel
  · decide +kernel

end Jq
