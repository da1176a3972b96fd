import Verif.Spec.Office
import Verif.Lemmas.Restart
import Verif.Lemmas.GateRun
import Verif.Lemmas.ManyAccounts
import Verif.Lemmas.Store
set_option linter.unusedSectionVars false
/-! Lemmas for C91: what a task does depends only on its own files and on the broker's lines about its orders. -/
namespace Jq
variable {ν : Type}

theorem Without.refl {P : Str × Nat → Prop} (ls : List (Str × Nat)) : Without P ls ls := by
  induction ls with
  | nil => exact .nil
  | cons l ls ih => exact .keep l ih

theorem Without.append {P : Str × Nat → Prop} {a a' b b' : List (Str × Nat)} (h : Without P a a') (h' : Without P b b') :
    Without P (a ++ b) (a' ++ b') := by
  induction h with
  | nil => exact h'
  | keep l _ ih => exact .keep l ih
  | drop hp _ ih => exact .drop hp ih

section
variable [GateNum ν] {cols : Nat} {f : Book ν → List Str → LineRes ν} {ign : Bool} {P : Str × Nat → Prop} {K : List Str}

theorem pollP_without_unknown (hf : LineFun f) (hP : ∀ l, P l → ∀ b, dkeys b = K → UnknownLine cols f b l) {ls ls' : List (Str × Nat)}
    (h : Without P ls ls') (pend pend' : List (Str × Nat)) (b : Book ν) (hp : Without P pend pend') (hb : dkeys b = K) :
    (pollP cols f ign ls' pend' b).1.1 = (pollP cols f ign ls pend b).1.1 ∧ (pollP cols f ign ls' pend' b).2 = (pollP cols f ign ls pend b).2 ∧
    Without P (pollP cols f ign ls pend b).1.2 (pollP cols f ign ls' pend' b).1.2 := by
  induction h generalizing pend pend' b with
  | nil => exact ⟨rfl, rfl, hp⟩
  | keep l hw ih =>
    simp only [pollP]
    cases lineKind cols l.1 with
    | stop => exact ⟨rfl, rfl, hp.append (.keep l hw)⟩
    | header => exact ih [] [] b .nil hb
    | fields items =>
      simp only
      cases hfb : f b items with
      | unknown => exact ih _ _ b (hp.append (.keep l .nil)) hb
      | done b' => exact ih [] [] b' .nil ((hf.keys_done _ _ _ hfb).trans hb)
      | failed b' e =>
        cases ign with
        | true => exact ih [] [] b' .nil ((hf.keys_failed _ _ _ _ hfb).trans hb)
        | false => exact ⟨rfl, rfl, hp.append (.keep l hw)⟩
  | drop hl hw ih =>
    rename_i l _ _
    obtain ⟨items, h1, h2⟩ := hP l hl b hb
    have : ∀ ls pend, pollP cols f ign (l :: ls) pend b = pollP cols f ign ls (pend ++ [l]) b := by
      intro ls pend; simp only [pollP, h1, h2]
    rw [this]
    refine ih _ _ b ?_ hb
    have := hp.append (Without.drop hl .nil)
    rwa [List.append_nil] at this

theorem pollP_without_done (hf : LineFun f) (hn : ∀ b items, f b items ≠ .unknown)
    (hP : ∀ l, P l → ∀ b, dkeys b = K → ∃ items, lineKind cols l.1 = .fields items ∧ f b items = .done b) {ls ls' : List (Str × Nat)}
    (h : Without P ls ls') (b : Book ν) (hb : dkeys b = K) :
    (pollP cols f ign ls' [] b).1.1 = (pollP cols f ign ls [] b).1.1 ∧ (pollP cols f ign ls' [] b).2 = (pollP cols f ign ls [] b).2 ∧
    Without P (pollP cols f ign ls [] b).1.2 (pollP cols f ign ls' [] b).1.2 := by
  induction h generalizing b with
  | nil => exact ⟨rfl, rfl, .nil⟩
  | keep l hw ih =>
    simp only [pollP]
    cases lineKind cols l.1 with
    | stop => exact ⟨rfl, rfl, .keep l hw⟩
    | header => exact ih b hb
    | fields items =>
      simp only
      cases hfb : f b items with
      | unknown => exact absurd hfb (hn b items)
      | done b' => exact ih b' ((hf.keys_done _ _ _ hfb).trans hb)
      | failed b' e =>
        cases ign with
        | true => exact ih b' ((hf.keys_failed _ _ _ _ hfb).trans hb)
        | false => exact ⟨rfl, rfl, .keep l hw⟩
  | drop hl hw ih =>
    rename_i l _ _
    obtain ⟨items, h1, h2⟩ := hP l hl b hb
    have : ∀ ls, pollP cols f ign (l :: ls) [] b = pollP cols f ign ls [] b := by
      intro ls; simp only [pollP, h1, h2]
    rw [this]
    exact ih b hb

theorem resultLine_known (b : Book ν) (items : List Str) : resultLine b items ≠ .unknown := by
  simp only [resultLine]
  split
  · split
    · split <;> simp
    · simp
  · simp

/-- A file and the same without lines of others, with the offsets in both. -/
structure Behind (P : Str × Nat → Prop) (c c' : Option Str) (off off' : Nat) : Prop extends SameLines P c c' where
  le : off ≤ (c.getD []).length
  le' : off' ≤ (c'.getD []).length
  rest : Without P (rawLines ((c.getD []).drop off)) (rawLines ((c'.getD []).drop off'))

omit [GateNum ν] in
theorem wholeLines_app {a b : Str} (ha : WholeLines a) (hb : WholeLines b) : WholeLines (a ++ b) := by
  rcases hb with rfl | hb
  · simpa using ha
  · right; simp [List.getLast?_append, hb]

omit [GateNum ν] in
theorem SameLines.grow {c c' : Option Str} {r r' : Str} (h : SameLines P c c') (hr : SameLines P (some r) (some r')) :
    SameLines P (some (c.getD [] ++ r)) (some (c'.getD [] ++ r')) := by
  refine ⟨rfl, wholeLines_app h.whole hr.whole, wholeLines_app h.whole' hr.whole', ?_⟩
  simp only [Option.getD_some]
  rw [rawLines_append h.whole, rawLines_append h.whole']
  exact h.lines.append hr.lines

omit [GateNum ν] in
theorem Behind.grow {c c' : Option Str} {off off' : Nat} {r r' : Str} (h : Behind P c c' off off') (hr : SameLines P (some r) (some r')) :
    Behind P (some (c.getD [] ++ r)) (some (c'.getD [] ++ r')) off off' := by
  refine ⟨h.toSameLines.grow hr, ?_, ?_, ?_⟩
  · have := h.le; simp; omega
  · have := h.le'; simp; omega
  · simp only [Option.getD_some]
    rw [List.drop_append_of_le_length h.le, List.drop_append_of_le_length h.le', rawLines_append (wholeLines_drop h.whole _),
      rawLines_append (wholeLines_drop h.whole' _)]
    exact h.rest.append hr.lines

omit [GateNum ν] in
theorem SameLines.behind {c c' : Option Str} (h : SameLines P c c') : Behind P c c' 0 0 := ⟨h, by simp, by simp, h.lines⟩

/-- Reading from both. -/
theorem pollFile_behind {c c' : Str} {off off' : Nat} (h : Behind P (some c) (some c') off off')
    (hp : ∀ ls ls', Without P ls ls' → ∀ b : Book ν, dkeys b = K →
      (pollP cols f ign ls' [] b).1.1 = (pollP cols f ign ls [] b).1.1 ∧ (pollP cols f ign ls' [] b).2 = (pollP cols f ign ls [] b).2 ∧
      Without P (pollP cols f ign ls [] b).1.2 (pollP cols f ign ls' [] b).1.2) (b : Book ν) (hb : dkeys b = K) :
    (pollFile cols f ign c' b off').1.1 = (pollFile cols f ign c b off).1.1 ∧ (pollFile cols f ign c' b off').2 = (pollFile cols f ign c b off).2 ∧
    Behind P (some c) (some c') (pollFile cols f ign c b off).1.2 (pollFile cols f ign c' b off').1.2 := by
  obtain ⟨a1, a2, a3, a4⟩ := pollFile_pollP cols f ign c b off h.le
  obtain ⟨b1, b2, b3, b4⟩ := pollFile_pollP cols f ign c' b off' h.le'
  obtain ⟨k1, k2, k3⟩ := hp _ _ h.rest b hb
  simp only [Option.getD_some] at k1 k2 k3
  refine ⟨by rw [a1, b1, k1], by rw [a2, b2, k2], ⟨h.toSameLines, a4, b4, ?_⟩⟩
  simp only [Option.getD_some]
  rw [a3, b3]
  exact k3
end

/-! ## The gate -/

section
variable [CellNum ν] [Store ν] {others : Str → Prop}

/-- No order of the others is in the book. -/
def Own (others : Str → Prop) (b : Book ν) : Prop := ∀ id ∈ dkeys b, ¬ others id

theorem update_of_others {K : List Str} (hK : ∀ id ∈ K, ¬ others id) (l : Str × Nat) (hl : UpdateAbout others l) (b : Book ν) (hb : dkeys b = K) :
    UnknownLine 20 updateLine b l := by
  obtain ⟨id, ho, items, ol, h1, h2, h3⟩ := hl
  refine ⟨items, h1, ?_⟩
  have : dget b ol.custBatchNo = none := by
    cases hd : dget b ol.custBatchNo with
    | none => rfl
    | some o => exact absurd (h3 ▸ ho) (hK _ (hb ▸ ((mem_dkeys_iff ..).mpr (by rw [hd]; rfl))))
  simp only [updateLine, h2, this]

theorem result_of_others {K : List Str} (hK : ∀ id ∈ K, ¬ others id) (l : Str × Nat) (hl : ResultAbout others l) (b : Book ν) (hb : dkeys b = K) :
    ∃ items, lineKind 6 l.1 = .fields items ∧ resultLine b items = .done b := by
  obtain ⟨id, ho, t, k, s, c, m, h1⟩ := hl
  refine ⟨_, h1, ?_⟩
  have : dget b id = none := by
    cases hd : dget b id with
    | none => rfl
    | some o => exact absurd ho (hK _ (hb ▸ ((mem_dkeys_iff ..).mpr (by rw [hd]; rfl))))
  simp only [resultLine, this]
  split <;> rfl

theorem pollUpdates_behind {ign : Bool} {c c' : Str} {off off' : Nat} (h : Behind (UpdateAbout others) (some c) (some c') off off') (b : Book ν)
    (hb : Own others b) :
    (pollUpdates ign c' b off').1.1 = (pollUpdates ign c b off).1.1 ∧ (pollUpdates ign c' b off').2 = (pollUpdates ign c b off).2 ∧
    Behind (UpdateAbout others) (some c) (some c') (pollUpdates ign c b off).1.2 (pollUpdates ign c' b off').1.2 :=
  pollFile_behind (K := dkeys b) h (fun _ _ hw b' hb' => pollP_without_unknown updateLine_fun (update_of_others hb) hw [] [] b' .nil hb') b rfl

theorem pollResults_behind {ign : Bool} {c c' : Str} {off off' : Nat} (h : Behind (ResultAbout others) (some c) (some c') off off') (b : Book ν)
    (hb : Own others b) :
    (pollResults ign c' b off').1.1 = (pollResults ign c b off).1.1 ∧ (pollResults ign c' b off').2 = (pollResults ign c b off).2 ∧
    Behind (ResultAbout others) (some c) (some c') (pollResults ign c b off).1.2 (pollResults ign c' b off').1.2 :=
  pollFile_behind (K := dkeys b) h (fun _ _ hw b' hb' => pollP_without_done resultLine_fun resultLine_known (result_of_others hb) hw b' hb') b rfl

theorem pollResults_dkeys (ign : Bool) (c : Str) (b : Book ν) (off : Nat) : dkeys (pollResults ign c b off).1.1 = dkeys b :=
  pollFile_keys resultLine_fun ign c b off

theorem pollUpdates_dkeys (ign : Bool) (c : Str) (b : Book ν) (off : Nat) : dkeys (pollUpdates ign c b off).1.1 = dkeys b :=
  pollFile_keys updateLine_fun ign c b off

/-- Both files. -/
theorem pollBoth_behind {ign : Bool} {r r' u u' : Str} {ro ro' uo uo' : Nat} (b : Book ν) (hb : Own others b)
    (hr : Behind (ResultAbout others) (some r) (some r') ro ro') (hu : Behind (UpdateAbout others) (some u) (some u') uo uo') :
    (pollBoth ign r' u' ⟨b, ro', uo'⟩).2 = (pollBoth ign r u ⟨b, ro, uo⟩).2 ∧
    (pollBoth ign r' u' ⟨b, ro', uo'⟩).1.book = (pollBoth ign r u ⟨b, ro, uo⟩).1.book ∧
    dkeys (pollBoth ign r u ⟨b, ro, uo⟩).1.book = dkeys b ∧
    Behind (ResultAbout others) (some r) (some r') (pollBoth ign r u ⟨b, ro, uo⟩).1.resOff (pollBoth ign r' u' ⟨b, ro', uo'⟩).1.resOff ∧
    Behind (UpdateAbout others) (some u) (some u') (pollBoth ign r u ⟨b, ro, uo⟩).1.updOff (pollBoth ign r' u' ⟨b, ro', uo'⟩).1.updOff := by
  obtain ⟨a1, a2, a3⟩ := pollResults_behind (ign := ign) hr b hb
  have a4 := pollResults_dkeys ign r b ro
  simp only [pollBoth]
  cases hp : pollResults ign r b ro with
  | mk q e =>
    cases hp' : pollResults ign r' b ro' with
    | mk q' e' =>
      obtain ⟨bb, oo⟩ := q
      obtain ⟨bb', oo'⟩ := q'
      rw [hp, hp'] at a1 a2 a3
      rw [hp] at a4
      simp only at a1 a2 a3 a4
      subst a1 a2
      have hown : Own others bb' := by intro id hid; exact hb id (a4 ▸ hid)
      obtain ⟨c1, c2, c3⟩ := pollUpdates_behind (ign := ign) hu bb' hown
      have c4 := pollUpdates_dkeys ign u bb' uo
      have tail : ∀ {x x' : (Book ν × Nat) × PollEnd}, pollUpdates ign u bb' uo = x → pollUpdates ign u' bb' uo' = x' →
          x'.1.1 = x.1.1 ∧ x'.2 = x.2 ∧ Behind (UpdateAbout others) (some u) (some u') x.1.2 x'.1.2 ∧ dkeys x.1.1 = dkeys b := by
        rintro _ _ rfl rfl; exact ⟨c1, c2, c3, c4.trans a4⟩
      cases e' with
      | raised x => exact ⟨rfl, rfl, a4, a3, hu⟩
      | eof =>
        simp only
        cases hq : pollUpdates ign u bb' uo with
        | mk y f =>
          cases hq' : pollUpdates ign u' bb' uo' with
          | mk y' f' =>
            obtain ⟨t1, t2, t3, t4⟩ := tail hq hq'
            obtain ⟨y1, y2⟩ := y
            obtain ⟨y1', y2'⟩ := y'
            simp only at t1 t2 t3 t4
            subst t1 t2
            cases f' <;> exact ⟨rfl, rfl, t4, a3, t3⟩
      | stopped =>
        simp only
        cases hq : pollUpdates ign u bb' uo with
        | mk y f =>
          cases hq' : pollUpdates ign u' bb' uo' with
          | mk y' f' =>
            obtain ⟨t1, t2, t3, t4⟩ := tail hq hq'
            obtain ⟨y1, y2⟩ := y
            obtain ⟨y1', y2'⟩ := y'
            simp only at t1 t2 t3 t4
            subst t1 t2
            cases f' <;> exact ⟨rfl, rfl, t4, a3, t3⟩

/-- Gates that see the same, up to what concerns the others. -/
structure SameGate (D : Str) (others : Str → Prop) (s t : AX ν) : Prop where
  conf : t.conf = s.conf
  day : s.conf.dataDay = D
  book : t.book = s.book
  ok : DictOk s.book
  own : Own others s.book
  synced : t.synced = s.synced
  data : t.files (.data D) = s.files (.data D)
  safe : ∀ text (b : Book ν), s.files (.data D) = some text → Store.load text = some b → Own others b
  results : Behind (ResultAbout others) (s.files (.results D)) (t.files (.results D)) s.resOff t.resOff
  updates : Behind (UpdateAbout others) (s.files (.updates D)) (t.files (.updates D)) s.updOff t.updOff

theorem saveOrders_twice (day : Str) (env : Env) (b : Book ν) (fs fs' : Files) (h : fs' (.data day) = fs (.data day)) :
    (saveOrders day env b fs').2 = (saveOrders day env b fs).2 ∧
    (saveOrders day env b fs').1 (.data day) = (saveOrders day env b fs).1 (.data day) := by
  simp only [saveOrders]
  cases env.save <;> simp only <;> (try exact ⟨rfl, h⟩) <;> cases Store.dump b <;> simp [Files.set, h]

theorem saveOrders_safe [LawfulStore ν] (day : Str) (env : Env) (b : Book ν) (hb : DictOk b) (ho : Own others b) (fs : Files)
    (h : ∀ text (b : Book ν), fs (.data day) = some text → Store.load text = some b → Own others b) :
    ∀ text (b' : Book ν), (saveOrders day env b fs).1 (.data day) = some text → Store.load text = some b' → Own others b' := by
  have whole : ∀ text (b' : Book ν), Store.dump b = some text → Store.load text = some b' → Own others b' := by
    intro text b' h1 h2
    rw [LawfulStore.load_dump b text hb h1] at h2
    cases h2; exact ho
  have cut : ∀ text n (b' : Book ν), Store.dump b = some text → Store.load (text.take n) = some b' → Own others b' := by
    intro text n b' h1 h2
    by_cases hn : text.drop n = []
    · have : text.take n = text := by
        have := List.take_append_drop n text
        rwa [hn, List.append_nil] at this
      rw [this] at h2
      exact whole text b' h1 h2
    · have := LawfulStore.load_cut b (text.take n) (text.drop n) (by rw [List.take_append_drop]; exact h1) hn
      rw [this] at h2; cases h2
  intro text b' h1 h2
  simp only [saveOrders] at h1
  cases hs : env.save <;> rw [hs] at h1 <;> simp only at h1 <;> (try exact h text b' h1 h2) <;>
    cases hd : Store.dump b with
    | none => rw [hd] at h1; simp [Files.set] at h1; exact h text b' h1 h2
    | some t =>
      rw [hd] at h1
      simp [Files.set] at h1
      first
        | exact h text b' h1 h2
        | (subst h1; first | exact whole _ b' hd h2 | exact cut _ _ b' hd h2)

/-- The parts of the gates that are left alone. -/
theorem SameGate.save [LawfulStore ν] {D : Str} {s t : AX ν} (h : SameGate D others s t) (env : Env) (b : Book ν) (hb : DictOk b)
    (ho : Own others b) {ro uo ro' uo' : Nat} (y : Bool) (hr : Behind (ResultAbout others) (s.files (.results D)) (t.files (.results D)) ro ro')
    (hu : Behind (UpdateAbout others) (s.files (.updates D)) (t.files (.updates D)) uo uo') :
    SameGate D others
      { s with book := b, resOff := ro, updOff := uo, synced := y, files := (saveOrders s.conf.dataDay env b s.files).1 }
      { t with book := b, resOff := ro', updOff := uo', synced := y, files := (saveOrders t.conf.dataDay env b t.files).1 } ∧
    (saveOrders t.conf.dataDay env b t.files).2 = (saveOrders s.conf.dataDay env b s.files).2 := by
  obtain ⟨tc, tb, tr, tu, ty, tf⟩ := t
  obtain ⟨sc, sb, sr, su, sy, sf⟩ := s
  obtain rfl : tc = sc := h.conf
  obtain rfl := h.day
  simp only at *
  obtain ⟨h1, h2⟩ := saveOrders_twice tc.dataDay env b sf tf h.data
  refine ⟨⟨rfl, rfl, rfl, hb, ho, rfl, h2, saveOrders_safe tc.dataDay env b hb ho sf h.safe, ?_, ?_⟩, h1⟩
  · simp only
    rw [saveOrders_other tc.dataDay env b sf (by simp) (by simp), saveOrders_other tc.dataDay env b tf (by simp) (by simp)]
    exact hr
  · simp only
    rw [saveOrders_other tc.dataDay env b sf (by simp) (by simp), saveOrders_other tc.dataDay env b tf (by simp) (by simp)]
    exact hu

/-- Appending to a file that does not matter. -/
theorem appendLine_result (win : Bool) (fault : WriteFault) (f : FileId) (header line : Str) (fs fs' : Files) :
    (appendLine win fault f header line fs').2 = (appendLine win fault f header line fs).2 := by
  simp only [appendLine]
  cases fault <;> rfl

theorem SameGate.files {D : Str} {s t : AX ν} (h : SameGate D others s t) {fs fs' : Files}
    (hs : ∀ f, f = .data D ∨ f = .results D ∨ f = .updates D → fs f = s.files f)
    (ht : ∀ f, f = .data D ∨ f = .results D ∨ f = .updates D → fs' f = t.files f) :
    SameGate D others { s with files := fs } { t with files := fs' } := by
  refine ⟨h.conf, h.day, h.book, h.ok, h.own, h.synced, ?_, ?_, ?_, ?_⟩
  · simp only [hs _ (.inl rfl), ht _ (.inl rfl)]; exact h.data
  · simp only [hs _ (.inl rfl)]; exact h.safe
  · simp only [hs _ (.inr (.inl rfl)), ht _ (.inr (.inl rfl))]; exact h.results
  · simp only [hs _ (.inr (.inr rfl)), ht _ (.inr (.inr rfl))]; exact h.updates

theorem SameGate.cancel {D : Str} {s t : AX ν} (h : SameGate D others s t) (env : Env) (id : Str) :
    SameGate D others (s.cancel env id).1 (t.cancel env id).1 ∧ (t.cancel env id).2 = (s.cancel env id).2 := by
  obtain ⟨tc, tb, tr, tu, ty, tf⟩ := t
  obtain ⟨sc, sb, sr, su, sy, sf⟩ := s
  obtain rfl : tc = sc := h.conf
  simp only [AX.cancel]
  refine ⟨h.files ?_ ?_, appendLine_result _ _ _ _ _ _ _⟩ <;>
  · rintro f (rfl | rfl | rfl) <;> exact appendLine_other _ _ _ _ _ _ (by simp)

theorem SameGate.order [LawfulStore ν] {D : Str} {s t : AX ν} (h : SameGate D others s t) (env : Env) (o : Order ν) (ho : ¬ others o.orderId) :
    SameGate D others (s.order env o).1 (t.order env o).1 ∧ (t.order env o).2 = (s.order env o).2 := by
  obtain ⟨tc, tb, tr, tu, ty, tf⟩ := t
  obtain ⟨sc, sb, sr, su, sy, sf⟩ := s
  obtain rfl : tc = sc := h.conf
  obtain rfl : tb = sb := h.book
  obtain rfl : ty = sy := h.synced
  simp only [AX.order]
  cases orderFields tc env.now o with
  | error e => exact ⟨h, rfl⟩
  | ok items =>
    simp only
    generalize hline : joinWith c!"," items ++ linesep tc.win = line
    have hres := appendLine_result tc.win env.write (.orders env.day) orderHeader line sf tf
    have hf : SameGate D others (⟨tc, tb, sr, su, ty, (appendLine tc.win env.write (.orders env.day) orderHeader line sf).1⟩ : AX ν)
        (⟨tc, tb, tr, tu, ty, (appendLine tc.win env.write (.orders env.day) orderHeader line tf).1⟩ : AX ν) := by
      refine h.files ?_ ?_ <;>
      · rintro f (rfl | rfl | rfl) <;> exact appendLine_other _ _ _ _ _ _ (by simp)
    cases e1 : appendLine tc.win env.write (.orders env.day) orderHeader line sf with
    | mk fs r =>
      cases e2 : appendLine tc.win env.write (.orders env.day) orderHeader line tf with
      | mk fs' r' =>
        rw [e1, e2] at hres hf
        simp only at hres hf
        subst hres
        cases r' with
        | error e => exact ⟨hf, rfl⟩
        | ok u =>
          simp only [AX.remember]
          cases o.json with
          | error e => exact ⟨hf, rfl⟩
          | ok info =>
            have hown : Own others (dset tb o.orderId info) := by
              intro id hid
              rw [dkeys_dset] at hid
              split at hid
              · exact h.own id hid
              · rcases List.mem_append.mp hid with hid | hid
                · exact h.own id hid
                · rw [List.mem_singleton.mp hid]; exact ho
            exact hf.save env (dset tb o.orderId info) (h.ok.dset _ _) hown ty hf.results hf.updates

theorem SameGate.syncOrders [LawfulStore ν] {D : Str} {s t : AX ν} (h : SameGate D others s t) (env : Env) (hd : env.day = D) :
    SameGate D others (s.syncOrders env).1 (t.syncOrders env).1 ∧ (t.syncOrders env).2 = (s.syncOrders env).2 := by
  obtain ⟨tc, tb, tr, tu, ty, tf⟩ := t
  obtain ⟨sc, sb, sr, su, sy, sf⟩ := s
  obtain rfl : tc = sc := h.conf
  obtain rfl : tb = sb := h.book
  obtain rfl : ty = sy := h.synced
  have hu := h.updates
  have hr := h.results
  simp only [AX.syncOrders, hd]
  simp only at hu hr
  cases e1 : sf (.updates D) with
  | none =>
    have : tf (.updates D) = none := by
      have := hu.there
      rw [e1] at this
      simpa using this
    rw [this]; exact ⟨h, rfl⟩
  | some u =>
    obtain ⟨u', e2⟩ : ∃ u', tf (.updates D) = some u' := by
      have := hu.there
      rw [e1] at this
      exact Option.isSome_iff_exists.mp this
    rw [e2]
    cases e3 : sf (.results D) with
    | none =>
      have : tf (.results D) = none := by
        have := hr.there
        rw [e3] at this
        simpa using this
      rw [this]; exact ⟨h, rfl⟩
    | some r =>
      obtain ⟨r', e4⟩ : ∃ r', tf (.results D) = some r' := by
        have := hr.there
        rw [e3] at this
        exact Option.isSome_iff_exists.mp this
      rw [e4]
      rw [e1, e2] at hu
      rw [e3, e4] at hr
      simp only
      obtain ⟨b1, b2, b3, b4, b5⟩ := pollBoth_behind (ign := tc.ignoreErr) tb h.own hr hu
      cases hp : pollBoth tc.ignoreErr r u ⟨tb, sr, su⟩ with
      | mk q e =>
        cases hp' : pollBoth tc.ignoreErr r' u' ⟨tb, tr, tu⟩ with
        | mk q' e' =>
          rw [hp, hp'] at b1 b2 b4 b5
          rw [hp] at b3
          simp only at b1 b2 b3 b4 b5
          subst b1
          obtain ⟨qb, qr, qu⟩ := q
          obtain ⟨qb', qr', qu'⟩ := q'
          simp only at b2 b3 b4 b5
          subst b2
          have hok : DictOk qb' := by rw [DictOk, b3]; exact h.ok
          have hown : Own others qb' := by intro id hid; exact h.own id (b3 ▸ hid)
          have b4' := b4
          have b5' := b5
          rw [← e3, ← e4] at b4'
          rw [← e1, ← e2] at b5'
          cases e' with
          | error x =>
            refine ⟨⟨rfl, h.day, rfl, hok, hown, rfl, h.data, h.safe, b4', b5'⟩, rfl⟩
          | ok _ =>
            obtain ⟨k1, k2⟩ := h.save env qb' hok hown true b4' b5'
            cases w : saveOrders tc.dataDay env qb' sf with
            | mk fs x =>
              cases w' : saveOrders tc.dataDay env qb' tf with
              | mk fs' x' =>
                rw [w, w'] at k1 k2
                simp only at k2
                subst k2
                simp only [w, w']
                cases x' <;> exact ⟨k1, rfl⟩

theorem SameGate.balance {D : Str} {s t : AX ν} (h : SameGate D others s t) (env : Env) : t.balance env = s.balance env := by
  simp only [AX.balance, h.conf]

/-! ## The account -/

/-- The gates with the same day, nobody touching the files during the call. -/
structure SameAXG (D : Str) (others : Str → Prop) (g h : AXG ν) : Prop where
  env : h.env = g.env
  n : h.n = g.n
  quiet : ∀ i, (g.env i).ext = id ∧ (g.env i).day = D
  ax : SameGate D others g.ax h.ax

theorem SameAXG.ready {D : Str} {g h : AXG ν} (H : SameAXG D others g h) : SameGate D others g.ready h.ready ∧ h.cur = g.cur ∧ g.cur.day = D := by
  have hc : h.cur = g.cur := by simp only [AXG.cur, H.env, H.n]
  refine ⟨?_, hc, (H.quiet _).2⟩
  have : g.cur.ext = id := (H.quiet _).1
  simp only [AXG.ready, hc, this, id]
  exact H.ax

theorem SameAXG.next {D : Str} {g h : AXG ν} (H : SameAXG D others g h) {s t : AX ν} (hs : SameGate D others s t) :
    SameAXG D others (g.next s) (h.next t) := ⟨H.env, by simp only [AXG.next, H.n], H.quiet, hs⟩

theorem step_office [LawfulStore ν] {D : Str} (op : AOp ν) (hop : ∀ id ∈ op.draws, ¬ others id) {a b : Acct (AXG ν) ν}
    (h : SameBut (SameAXG D others) a b) : SameRes (SameAXG D others) (a.step (axGate ν) op) (b.step (axGate ν) op) := by
  obtain ⟨hr, hb⟩ := h
  generalize b.gate = g at hr hb
  subst hb
  obtain ⟨hs, hc, hd⟩ := hr.ready
  cases op with
  | syncBalance =>
    refine sameRes_map _ (sameRes_try _ ?_)
    have h1 : SameAXG D others ((axGate ν).balance a.gate).1 ((axGate ν).balance g).1 := hr.next hs
    have h2 : ((axGate ν).balance g).2 = ((axGate ν).balance a.gate).2 := by
      simp only [axGate, hc]; exact hs.balance _
    simp only [Acct.syncBalanceBody]
    cases e1 : (axGate ν).balance a.gate with
    | mk g1 r1 =>
      cases e2 : (axGate ν).balance g with
      | mk g2 r2 =>
        rw [e1, e2] at h1 h2
        simp only at h1 h2
        subst h2
        cases r2 with
        | error e => exact ⟨⟨h1, rfl⟩, rfl⟩
        | ok info =>
          have e := applyBalance_at info a
          refine ⟨?_, ?_⟩
          · have h3 := sameBut_at (a.applyBalance info).1 h1
            have k1 : ((a.at g1).applyBalance info).1 = (a.applyBalance info).1.at g1 := congrArg Prod.fst (e g1)
            have k2 : ((a.at g2).applyBalance info).1 = (a.applyBalance info).1.at g2 := congrArg Prod.fst (e g2)
            rw [← k1, ← k2] at h3
            exact h3
          · exact (congrArg Prod.snd (e g1)).trans (congrArg Prod.snd (e g2)).symm
  | syncOrders =>
    refine sameRes_map _ (sameRes_try _ ?_)
    obtain ⟨q1, q2⟩ := hs.syncOrders a.gate.cur hd
    have h1 : SameAXG D others ((axGate ν).orders a.gate).1 ((axGate ν).orders g).1 := by
      simp only [axGate, hc]; exact hr.next q1
    have h2 : ((axGate ν).orders g).2 = ((axGate ν).orders a.gate).2 := by
      simp only [axGate, hc]; exact q2
    simp only [Acct.syncOrdersBody]
    cases e1 : (axGate ν).orders a.gate with
    | mk g1 r1 =>
      cases e2 : (axGate ν).orders g with
      | mk g2 r2 =>
        rw [e1, e2] at h1 h2
        simp only at h1 h2
        subst h2
        cases r2 with
        | error e => exact ⟨⟨h1, rfl⟩, rfl⟩
        | ok infos =>
          have e := mergeOrders_at infos a
          simp only
          rw [show ({ a with gate := g1 } : Acct (AXG ν) ν) = a.at g1 from rfl, show ({ a with gate := g2 } : Acct (AXG ν) ν) = a.at g2 from rfl, e, e]
          cases Acct.mergeOrders infos a with
          | mk b r =>
            cases r with
            | error e => exact ⟨sameBut_at _ h1, rfl⟩
            | ok u => exact ⟨⟨h1, rfl⟩, rfl⟩
  | order idn now code amount style side =>
    simp only [Acct.step, Acct.order]
    rw [load_newOrderInfo]
    simp only
    refine sameRes_try _ ?_
    have hid : ¬ others (newOrder (natStr idn) now code amount style).orderId := hop _ (by simp [AOp.draws, newOrder])
    generalize newOrder (natStr idn) now code amount style = o at hid
    obtain ⟨q1, q2⟩ := hs.order a.gate.cur o hid
    have h1 : SameAXG D others ((axGate ν).order a.gate o).1 ((axGate ν).order g o).1 := by
      simp only [axGate, hc]; exact hr.next q1
    have h2 : ((axGate ν).order g o).2 = ((axGate ν).order a.gate o).2 := by
      simp only [axGate, hc]; exact q2
    simp only [Acct.orderBody, Acct.putOrder]
    cases e1 : (axGate ν).order a.gate o with
    | mk g1 r1 =>
      cases e2 : (axGate ν).order g o with
      | mk g2 r2 =>
        rw [e1, e2] at h1 h2
        simp only at h1 h2
        subst h2
        cases r2 with
        | error e => exact ⟨⟨h1, rfl⟩, rfl⟩
        | ok u =>
          have := onCreated_at ({ a with oheap := a.oheap ++ [o], orders := dset a.orders (natStr idn) a.oheap.length } : Acct (AXG ν) ν)
          refine ⟨?_, rfl⟩
          have h3 := sameBut_at (({ a with oheap := a.oheap ++ [o], orders := dset a.orders (natStr idn) a.oheap.length } : Acct (AXG ν) ν).onCreated o) h1
          rw [← this g1 o, ← this g2 o] at h3
          exact h3
  | cancel id =>
    refine sameRes_map _ (sameRes_try _ ?_)
    obtain ⟨q1, q2⟩ := hs.cancel a.gate.cur id
    have h1 : SameAXG D others ((axGate ν).cancel a.gate id).1 ((axGate ν).cancel g id).1 := by
      simp only [axGate, hc]; exact hr.next q1
    have h2 : ((axGate ν).cancel g id).2 = ((axGate ν).cancel a.gate id).2 := by
      simp only [axGate, hc]; exact q2
    simp only [Acct.cancelBody]
    split
    · exact ⟨⟨h1, rfl⟩, h2.symm⟩
    · exact ⟨⟨hr, rfl⟩, rfl⟩

/-! ## The office -/

/-- The file is left alone by what the gates do. -/
theorem step_files (a : Acct (AXG ν) ν) (op : AOp ν) (hq : a.gate.cur.ext = id) {f : FileId} (h1 : f ≠ .data a.gate.ax.conf.dataDay)
    (h2 : f ≠ .tmp a.gate.ax.conf.dataDay) (h3 : ∀ d, f ≠ .orders d) (h4 : ∀ d, f ≠ .cancels d) :
    (a.step (axGate ν) op).1.gate.ax.files f = a.gate.ax.files f := by
  have hr : a.gate.ready = a.gate.ax := by simp only [AXG.ready, hq, id]
  cases op with
  | order idn now code amount style side =>
    simp only [Acct.step, order_gate, axGate, AXG.next, hr]
    generalize newOrder (natStr idn) now code amount style = o
    simp only [AX.order]
    split
    · rfl
    · rename_i items _
      have ha := appendLine_other a.gate.ax.conf.win a.gate.cur.write (.orders a.gate.cur.day) orderHeader (joinWith c!"," items ++ linesep a.gate.ax.conf.win)
        a.gate.ax.files (h3 a.gate.cur.day)
      split
      · rename_i e; rw [e] at ha; exact ha
      · rename_i e
        rw [e] at ha
        simp only [AX.remember]
        split
        · exact ha
        · simp only
          rw [saveOrders_other _ _ _ _ h1 h2]; exact ha
  | cancel id =>
    simp only [Acct.step]
    rcases cancel_gate (axGate ν) id a with h | h
    · rw [h]
    · rw [h]
      simp only [axGate, AXG.next, hr, AX.cancel]
      exact appendLine_other _ _ _ _ _ _ (h4 _)
  | syncBalance => simp only [Acct.step, syncBalance_gate, axGate, AXG.next, hr]
  | syncOrders =>
    simp only [Acct.step, syncOrders_gate, axGate, AXG.next, hr]
    exact ax_syncOrders_files _ _ h1 h2

/-- The offices are the same for the task `t`. -/
structure SameOffice (O : OfficeConf) (t : Nat) (others : Str → Prop) (o o' : Office ν) : Prop where
  account : o'.task t = { o.task t with gate := (o'.task t).gate }
  gate : SameGate O.day others { (o.task t).gate.ax with files := o.view O t } { (o'.task t).gate.ax with files := o'.view O t }

theorem view_data (O : OfficeConf) (t : Nat) (o : Office ν) : o.view O t (.data O.day) = o.data (dataFile O.dir (O.name t) O.day) := by
  simp [Office.view]

theorem put_view (O : OfficeConf) (t : Nat) (fs : Files) (a : Acct (AXG ν) ν) (o : Office ν) :
    ∀ f, f = .data O.day ∨ f = .results O.day ∨ f = .updates O.day → (o.put O t fs a).view O t f = fs f := by
  rintro f (rfl | rfl | rfl) <;> simp [Office.view, Office.put]

/-- The files of `t` are not among those of another task. -/
def Apart (O : OfficeConf) (t : Nat) : Prop :=
  ∀ j, j ≠ t → dataFile O.dir (O.name t) O.day ≠ dataFile O.dir (O.name j) O.day ∧ dataFile O.dir (O.name t) O.day ≠ tmpFile O.dir (O.name j) O.day

theorem put_other_view {O : OfficeConf} {t j : Nat} (hO : Apart O t) (hj : j ≠ t) (fs : Files) (a : Acct (AXG ν) ν) (o : Office ν)
    (h1 : fs (.results O.day) = o.shared (.results O.day)) (h2 : fs (.updates O.day) = o.shared (.updates O.day)) :
    ∀ f, f = .data O.day ∨ f = .results O.day ∨ f = .updates O.day → (o.put O j fs a).view O t f = o.view O t f := by
  obtain ⟨k1, k2⟩ := hO j hj
  rintro f (rfl | rfl | rfl)
  · simp [Office.view, Office.put, k1, k2]
  · simpa [Office.view, Office.put] using h1
  · simpa [Office.view, Office.put] using h2

theorem put_other_task {O : OfficeConf} {t j : Nat} (hj : j ≠ t) (fs : Files) (a : Acct (AXG ν) ν) (o : Office ν) :
    (o.put O j fs a).task t = o.task t := by
  simp [Office.put, Ne.symm hj]

theorem put_task (O : OfficeConf) (t : Nat) (fs : Files) (a : Acct (AXG ν) ν) (o : Office ν) : (o.put O t fs a).task t = a := by
  simp [Office.put]

variable {O : OfficeConf} {t : Nat} {o o' : Office ν}

theorem SameOffice.sameFiles (h : SameOffice O t others o o') : SameFiles O t others o o' := by
  refine ⟨?_, ?_, h.gate.results.toSameLines, h.gate.updates.toSameLines⟩
  · have := h.gate.data
    simpa only [view_data] using this
  · have := h.gate.safe
    simp only [view_data] at this
    exact this

theorem SameFiles.start [LawfulStore ν] (h : SameFiles O t others o o') (conf : AXConf) (hc : conf.dataDay = O.day) :
    SameOffice O t others (o.step O (.start t conf)).1 (o'.step O (.start t conf)).1 := by
  have hd : o'.view O t (.data O.day) = o.view O t (.data O.day) := by rw [view_data, view_data]; exact h.data
  have hb : loadOrders (ν := ν) conf.dataDay (o'.view O t) = loadOrders conf.dataDay (o.view O t) := by
    rw [hc]; simp only [loadOrders, hd]
  have hok : DictOk (loadOrders (ν := ν) conf.dataDay (o.view O t)) ∧ Own others (loadOrders (ν := ν) conf.dataDay (o.view O t)) := by
    rw [hc]
    simp only [loadOrders, view_data]
    split
    · exact ⟨DictOk.nil, by intro id hid; simp [dkeys] at hid⟩
    · split
      · rename_i ht _ _ hl; exact ⟨LawfulStore.load_ok _ _ hl, h.own _ _ ht hl⟩
      · exact ⟨DictOk.nil, by intro id hid; simp [dkeys] at hid⟩
  have hg : SameGate O.day others (AX.setup (ν := ν) conf (o.view O t)) (AX.setup conf (o'.view O t)) := by
    refine ⟨rfl, hc, hb, hok.1, hok.2, rfl, hd, ?_, h.results.behind, h.updates.behind⟩
    simp only [AX.setup, view_data]; exact h.own
  simp only [Office.step]
  refine ⟨?_, ?_⟩
  · simp only [put_task]; rfl
  · simp only [put_task]
    exact hg.files (put_view O t _ _ o) (put_view O t _ _ o')

theorem SameOffice.call [LawfulStore ν] (h : SameOffice O t others o o') (env : Env) (hd : env.day = O.day) (op : AOp ν)
    (hop : ∀ id ∈ op.draws, ¬ others id) :
    SameOffice O t others (o.step O (.call t env op)).1 (o'.step O (.call t env op)).1 ∧
    (o'.step O (.call t env op)).2 = (o.step O (.call t env op)).2 := by
  have hs : SameBut (SameAXG O.day others) (o.at O t env) (o'.at O t env) := by
    refine ⟨⟨rfl, rfl, fun _ => ⟨rfl, hd⟩, h.gate⟩, ?_⟩
    have := h.account
    simp only [Office.at]
    rw [this]
  obtain ⟨⟨h1, h2⟩, h3⟩ := step_office op hop hs
  simp only [Office.step]
  refine ⟨⟨?_, ?_⟩, h3.symm⟩
  · simp only [put_task]; exact h2
  · simp only [put_task]
    exact h1.ax.files (put_view O t _ _ o) (put_view O t _ _ o')

theorem SameOffice.otherCall (hO : Apart O t) {j : Nat} (hj : j ≠ t) (h : SameOffice O t others o o') (env : Env) (op : AOp ν) :
    SameOffice O t others (o.step O (.call j env op)).1 o' := by
  simp only [Office.step]
  have hf : ∀ f, f = .results O.day ∨ f = .updates O.day →
      ((o.at O j env).step (axGate ν) op).1.gate.ax.files f = o.shared f := by
    rintro f (rfl | rfl) <;> exact step_files (o.at O j env) op rfl (by simp) (by simp) (by simp) (by simp)
  refine ⟨?_, ?_⟩
  · rw [put_other_task hj]; exact h.account
  · rw [put_other_task hj]
    exact h.gate.files (put_other_view hO hj _ _ o (hf _ (.inl rfl)) (hf _ (.inr rfl))) (fun _ _ => rfl)

theorem SameOffice.otherStart (hO : Apart O t) {j : Nat} (hj : j ≠ t) (h : SameOffice O t others o o') (conf : AXConf) :
    SameOffice O t others (o.step O (.start j conf)).1 o' := by
  simp only [Office.step]
  refine ⟨?_, ?_⟩
  · rw [put_other_task hj]; exact h.account
  · rw [put_other_task hj]
    exact h.gate.files (put_other_view hO hj _ _ o rfl rfl) (fun _ _ => rfl)

theorem SameOffice.broker (h : SameOffice O t others o o') {r u r' u' : Str} (hr : SameLines (ResultAbout others) (some r) (some r'))
    (hu : SameLines (UpdateAbout others) (some u) (some u')) :
    SameOffice O t others (o.step O (.broker r u)).1 (o'.step O (.broker r' u')).1 := by
  simp only [Office.step]
  refine ⟨h.account, ⟨h.gate.conf, h.gate.day, h.gate.book, h.gate.ok, h.gate.own, h.gate.synced, ?_, ?_, ?_, ?_⟩⟩
  · simpa only [view_data] using h.gate.data
  · simpa only [view_data] using h.gate.safe
  · simpa [Office.view, Files.set] using h.gate.results.grow hr
  · simpa [Office.view, Files.set] using h.gate.updates.grow hu

/-- All events. -/
theorem SameOffice.run [LawfulStore ν] (hO : Apart O t) {es es' : List (OEv ν)} (ha : Alone O t others es es') (h : SameOffice O t others o o') :
    SameOffice O t others (o.run O t es).1 (o'.run O t es').1 ∧ (o'.run O t es').2 = (o.run O t es).2 := by
  induction ha generalizing o o' with
  | nil => exact ⟨h, rfl⟩
  | call env op hd hop _ ih =>
    obtain ⟨h1, h2⟩ := h.call env hd op hop
    obtain ⟨k1, k2⟩ := ih h1
    exact ⟨k1, by simp only [Office.run, if_true, h2, k2]⟩
  | start conf hc _ ih =>
    obtain ⟨k1, k2⟩ := ih (h.sameFiles.start conf hc)
    exact ⟨k1, by simp only [Office.run, k2]⟩
  | broker r u r' u' hr hu _ ih =>
    obtain ⟨k1, k2⟩ := ih (h.broker hr hu)
    exact ⟨k1, by simp only [Office.run, k2]⟩
  | otherCall env op hj _ ih =>
    obtain ⟨k1, k2⟩ := ih (h.otherCall hO hj env op)
    exact ⟨k1, by simp only [Office.run, if_neg hj, List.nil_append, k2]⟩
  | otherStart conf hj _ ih =>
    obtain ⟨k1, k2⟩ := ih (h.otherStart hO hj conf)
    exact ⟨k1, by simp only [Office.run, List.nil_append, k2]⟩

end

/-! ## Paths -/

theorem splitOn_end (s w : Str) (h : '/' ∉ w) : ∃ ps p, splitOn '/' s = ps ++ [p] ∧ splitOn '/' (s ++ w) = ps ++ [p ++ w] := by
  induction s with
  | nil => exact ⟨[], [], rfl, splitOn_not_mem h⟩
  | cons c s ih =>
    obtain ⟨ps, p, h1, h2⟩ := ih
    simp only [List.cons_append, splitOn, h1, h2]
    split
    · exact ⟨[] :: ps, p, rfl, rfl⟩
    · cases ps with
      | nil => exact ⟨[], c :: p, rfl, rfl⟩
      | cons q qs => exact ⟨(c :: q) :: qs, p, rfl, rfl⟩

/-- The file of a path with more text at its end. -/
theorem fileAt_append (s w : Str) (h : '/' ∉ w) : fileAt (s ++ w) = ((fileAt s).1, (fileAt s).2 ++ w) := by
  obtain ⟨ps, p, h1, h2⟩ := splitOn_end s w h
  simp [fileAt, h1, h2]

theorem dataPath_json (dir name day : Str) : ∃ x, dataPath dir name day = x ++ c!".json" := by
  simp only [dataPath, joinPath]
  split
  · exact ⟨name ++ c!"_" ++ day, rfl⟩
  · split
    · exact ⟨dir ++ (name ++ c!"_" ++ day), by simp⟩
    · exact ⟨dir ++ '/' :: (name ++ c!"_" ++ day), by simp⟩

theorem tmp_ne_data (dir name name' day : Str) : dataFile dir name day ≠ tmpFile dir name' day := by
  obtain ⟨x, hx⟩ := dataPath_json dir name day
  intro h
  simp only [dataFile, tmpFile] at h
  rw [hx, fileAt_append x _ (by decide), fileAt_append _ c!".tmp" (by decide)] at h
  have := congrArg (fun q : Path => q.2.getLast?) h
  simp at this

/-- The name of a file in a directory. -/
theorem fileAt_join (dir w : Str) (hp : '/' ∉ w) : (fileAt (joinPath dir w)).2 = w := by
  have hend : ∀ x : Str, x = [] ∨ x.getLast? = some '/' → (fileAt x).2 = [] := by
    rintro x (rfl | hx)
    · rfl
    · have : ∃ y, x = y ++ ['/'] := by
        obtain ⟨y, z, e⟩ : ∃ y z, x = y ++ [z] := ⟨x.dropLast, x.getLast (by rintro rfl; simp at hx), (List.dropLast_concat_getLast _).symm⟩
        rw [e] at hx; simp at hx
        exact ⟨y, by rw [e, hx]⟩
      obtain ⟨y, rfl⟩ := this
      clear hx
      have : ∀ y : Str, ∃ ps, splitOn '/' (y ++ ['/']) = ps ++ [[]] := by
        intro y
        induction y with
        | nil => exact ⟨[[]], rfl⟩
        | cons c y ih =>
          obtain ⟨ps, h1⟩ := ih
          simp only [List.cons_append, splitOn, h1]
          split
          · exact ⟨[] :: ps, rfl⟩
          · cases ps with
            | nil =>
              have := congrArg List.length h1
              have h3 : 2 ≤ (splitOn '/' (y ++ ['/'])).length := by
                clear h1 this
                induction y with
                | nil => decide
                | cons d y ih =>
                  simp only [List.cons_append, splitOn]
                  split
                  · simp; omega
                  · revert ih; cases splitOn '/' (y ++ ['/']) <;> simp
              rw [this] at h3; simp at h3
            | cons q qs => exact ⟨(c :: q) :: qs, rfl⟩
      obtain ⟨ps, h1⟩ := this y
      simp [fileAt, h1]
  simp only [joinPath]
  split
  · rename_i hh
    exact absurd (List.mem_of_mem_head? hh) hp
  · split
    · rename_i hdir
      rw [fileAt_append dir _ hp, hend dir hdir]; rfl
    · rw [show dir ++ '/' :: w = (dir ++ ['/']) ++ w by simp,
        fileAt_append _ _ hp, hend (dir ++ ['/']) (.inr (by simp))]; rfl

/-- A name without slashes is the beginning of the name of the file. -/
theorem dataFile_plain (dir name day : Str) (hn : '/' ∉ name) (hd : '/' ∉ day) : (dataFile dir name day).2 = name ++ c!"_" ++ day ++ c!".json" :=
  fileAt_join dir _ (by simp [hn, hd])

end Jq
