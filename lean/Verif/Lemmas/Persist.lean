import Verif.Model.Persist
import Verif.Lemmas.GateRun
import Verif.Lemmas.Store
import Verif.Spec.OrderSync
set_option linter.unusedSectionVars false
/-! Facts about crashes. -/
namespace Jq

theorem runOps_append (fs : Files) (a b : List FOp) : runOps fs (a ++ b) = runOps (runOps fs a) b := by simp [runOps]

/-- The files an operation may change. -/
def FOp.Touches (f : FileId) : FOp → Prop
  | .touch g => g = f
  | .truncate g => g = f
  | .append g _ => g = f
  | .rename g h => g = f ∨ h = f
  | .remove g => g = f

theorem runOps_untouched {f : FileId} (ops : List FOp) (h : ∀ o ∈ ops, ¬ o.Touches f) (fs : Files) : runOps fs ops f = fs f := by
  induction ops generalizing fs with
  | nil => rfl
  | cons o ops ih =>
    have h1 := h o (by simp)
    rw [show runOps fs (o :: ops) = runOps (o.run fs) ops from rfl, ih (fun x hx => h x (List.mem_cons_of_mem _ hx))]
    cases o with
    | touch g => simp only [FOp.Touches] at h1; exact Files.set_ne _ (Ne.symm h1) _
    | truncate g => simp only [FOp.Touches] at h1; exact Files.set_ne _ (Ne.symm h1) _
    | append g s => simp only [FOp.Touches] at h1; exact Files.set_ne _ (Ne.symm h1) _
    | remove g => simp only [FOp.Touches] at h1; exact Files.set_ne _ (Ne.symm h1) _
    | rename g k =>
      simp only [FOp.Touches, not_or] at h1
      simp only [FOp.run]
      rw [Files.set_ne _ (Ne.symm h1.1), Files.set_ne _ (Ne.symm h1.2)]

theorem runOps_appends (f : FileId) (pieces : List Str) (fs : Files) (old : Str) (h : fs f = some old) :
    runOps fs (pieces.map (.append f)) f = some (old ++ pieces.flatten) := by
  induction pieces generalizing fs old with
  | nil => rw [List.flatten_nil, List.append_nil]; exact h
  | cons p ps ih =>
    rw [List.map_cons, show runOps fs (FOp.append f p :: ps.map (.append f)) = runOps (FOp.run fs (.append f p)) (ps.map (.append f)) from rfl]
    rw [ih _ (old ++ p) (by simp only [FOp.run, Files.set_self, h, Option.getD_some])]
    simp

/-- A prefix of `a ++ [x]` is a prefix of `a` or everything. -/
theorem prefix_snoc {α : Type} {p a : List α} {x : α} (h : p <+: a ++ [x]) : p <+: a ∨ p = a ++ [x] := by
  rcases Nat.lt_or_ge p.length (a.length + 1) with hl | hl
  · left
    exact List.prefix_of_prefix_length_le h (List.prefix_append a [x]) (by omega)
  · right
    exact h.eq_of_length (by have := h.length_le; simp at this ⊢; omega)

theorem prefix_append {α : Type} {p a b : List α} (h : p <+: a ++ b) : p <+: a ∨ ∃ q, p = a ++ q ∧ q <+: b := by
  rcases Nat.lt_or_ge a.length p.length with hl | hl
  · right
    have h1 : a <+: p := List.prefix_of_prefix_length_le (List.prefix_append a b) h (by omega)
    obtain ⟨q, rfl⟩ := h1
    exact ⟨q, rfl, (List.prefix_append_right_inj a).1 h⟩
  · left
    exact List.prefix_of_prefix_length_le h (List.prefix_append a b) hl

variable {ν : Type} [CellNum ν] [Store ν]

/-- POSIX, or no data file yet: killed while saving, the data file is as before or complete. -/
theorem saveOps_data {win : Bool} {day : Str} {b : Book ν} {there : Bool} {ops pre : List FOp} (hw : (win && there) = false)
    (h : SaveOps win day b there ops) (hp : pre <+: ops) (fs : Files) :
    runOps fs pre (.data day) = fs (.data day) ∨
    ∃ text, Store.dump b = some text ∧ runOps fs pre (.data day) = some text ∧ pre = ops := by
  have hnot : ∀ (pieces : List Str), ∀ o ∈ (FOp.truncate (.tmp day) :: pieces.map (.append (.tmp day))), ¬ o.Touches (.data day) := by
    intro pieces o ho
    simp only [List.mem_cons, List.mem_map] at ho
    rcases ho with rfl | ⟨p, _, rfl⟩ <;> simp [FOp.Touches]
  cases h with
  | @saved text pieces copied h1 h2 h3 =>
    simp only [saveOps, hw, Bool.false_eq_true, if_false] at hp ⊢
    rcases prefix_snoc hp with hp | hp
    · left
      exact runOps_untouched _ (fun o ho => hnot pieces o (hp.subset ho)) fs
    · right
      refine ⟨text, h1, ?_, hp⟩
      rw [hp, runOps_append]
      simp only [runOps, List.foldl_cons, List.foldl_nil, FOp.run]
      rw [Files.set_ne _ (by simp), Files.set_self]
      have := runOps_appends (.tmp day) pieces (fs.set (.tmp day) (some [])) [] (Files.set_self _ _ _)
      simp only [runOps, List.nil_append] at this
      rw [this, h2]
  | refused h1 =>
    left
    exact runOps_untouched _ (fun o ho => hnot _ o (hp.subset ho)) fs

theorem writeOps_untouched {f g : FileId} (h : f ≠ g) (pieces : List Str) : ∀ o ∈ writeOps f pieces, ¬ o.Touches g := by
  intro o ho
  simp only [writeOps, List.mem_cons, List.mem_map] at ho
  rcases ho with rfl | ⟨p, _, rfl⟩ <;> simp [FOp.Touches, h]

/-- Saving step by step does what `saveOrders` says. -/
theorem saveOps_complete {win : Bool} {day : Str} {b : Book ν} {there : Bool} {ops : List FOp} (h : SaveOps win day b there ops) (env : Env)
    (he : env.save = .none) (fs : Files) (hd : (Store.dump b).isSome) :
    runOps fs ops = (saveOrders day env b fs).1 ∧ (saveOrders day env b fs).2 = .ok () := by
  cases h with
  | refused h1 => rw [h1] at hd; cases hd
  | @saved text pieces copied h1 h2 h3 =>
    simp only [saveOrders, he, h1, saveOps, and_true]
    rw [runOps_append]
    have h4 := runOps_appends (.tmp day) pieces (fs.set (.tmp day) (some [])) [] (Files.set_self _ _ _)
    simp only [List.nil_append, h2] at h4
    have h5 : ∀ g, g ≠ .tmp day → runOps (fs.set (.tmp day) (some [])) (pieces.map (.append (.tmp day))) g = fs g := by
      intro g hg2
      have h5 := runOps_untouched (f := g) (pieces.map (.append (.tmp day))) (by
        intro o ho
        simp only [List.mem_map] at ho
        obtain ⟨p, _, rfl⟩ := ho
        exact fun e => hg2 e.symm) (fs.set (.tmp day) (some []))
      rw [Files.set_ne _ hg2] at h5
      exact h5
    show runOps (runOps (fs.set (.tmp day) (some [])) (pieces.map (.append (.tmp day)))) _ = _
    generalize runOps (fs.set (.tmp day) (some [])) (pieces.map (.append (.tmp day))) = gs at h4 h5
    cases hw : win && there with
    | false =>
      simp only [Bool.false_eq_true, if_false, runOps, List.foldl_cons, List.foldl_nil, FOp.run]
      funext g
      by_cases hg : g = .data day
      · subst hg
        rw [Files.set_ne _ (by simp), Files.set_self, Files.set_self]
        exact h4
      · by_cases hg2 : g = .tmp day
        · subst hg2
          rw [Files.set_self, Files.set_ne _ (by simp), Files.set_self]
        · rw [Files.set_ne _ hg2, Files.set_ne _ hg, Files.set_ne _ hg, Files.set_ne _ hg2]
          exact h5 g hg2
    | true =>
      simp only [if_true]
      show runOps (gs.set (.data day) (some [])) (copied.map (.append (.data day)) ++ [.remove (.tmp day)]) = _
      rw [runOps_append]
      have h6 := runOps_appends (.data day) copied (gs.set (.data day) (some [])) [] (Files.set_self _ _ _)
      simp only [List.nil_append, h3] at h6
      show FOp.run (runOps (gs.set (.data day) (some [])) (copied.map (.append (.data day)))) (.remove (.tmp day)) = _
      simp only [FOp.run]
      funext g
      by_cases hg : g = .data day
      · subst hg
        rw [Files.set_ne _ (by simp), Files.set_self]
        exact h6
      · by_cases hg2 : g = .tmp day
        · subst hg2
          rw [Files.set_self, Files.set_ne _ (by simp), Files.set_self]
        · rw [Files.set_ne _ hg2, Files.set_ne _ hg, Files.set_ne _ hg2]
          have h7 := runOps_untouched (f := g) (copied.map (.append (.data day))) (by
            intro o ho
            simp only [List.mem_map] at ho
            obtain ⟨p, _, rfl⟩ := ho
            exact fun e => hg e.symm) (gs.set (.data day) (some []))
          rw [h7, Files.set_ne _ hg]
          exact h5 g hg2

/-! ## The book keeps every order -/

/-- The same orders, each with the same request. -/
def BookExt (b b' : Book ν) : Prop := dkeys b' = dkeys b ∧ ∀ id o, dget b id = some o → ∃ o', dget b' id = some o' ∧ SameRequest o o'

theorem SameRequest.refl' (o : OrderInfo ν) : SameRequest o o := ⟨rfl, rfl, rfl, rfl, rfl, rfl, rfl, rfl, rfl⟩

theorem SameRequest.trans' {a b c : OrderInfo ν} (h : SameRequest a b) (h' : SameRequest b c) : SameRequest a c := by
  obtain ⟨h1, h2, h3, h4, h5, h6, h7, h8, h9⟩ := h
  obtain ⟨g1, g2, g3, g4, g5, g6, g7, g8, g9⟩ := h'
  exact ⟨g1.trans h1, g2.trans h2, g3.trans h3, g4.trans h4, g5.trans h5, g6.trans h6, g7.trans h7, g8.trans h8, g9.trans h9⟩

theorem BookExt.refl (b : Book ν) : BookExt b b := ⟨rfl, fun _ o h => ⟨o, h, .refl' o⟩⟩

theorem BookExt.trans {a b c : Book ν} (h : BookExt a b) (h' : BookExt b c) : BookExt a c := by
  refine ⟨h'.1.trans h.1, fun id o ho => ?_⟩
  obtain ⟨o1, h1, h2⟩ := h.2 id o ho
  obtain ⟨o2, h3, h4⟩ := h'.2 id o1 h1
  exact ⟨o2, h3, h2.trans' h4⟩

theorem bookExt_dset {b : Book ν} {id : Str} {o o' : OrderInfo ν} (h : dget b id = some o) (hs : SameRequest o o') : BookExt b (dset b id o') := by
  refine ⟨?_, fun i x hx => ?_⟩
  · rw [dkeys_dset, if_pos ((mem_dkeys_iff b id).2 (by rw [h]; rfl))]
  · by_cases hi : id = i
    · subst hi
      rw [h] at hx
      injection hx with hx
      subst hx
      exact ⟨o', by rw [dget_dset_self], hs⟩
    · exact ⟨x, by rw [dget_dset_ne _ hi]; exact hx, .refl' x⟩

theorem updateOrder_same' (o : OrderInfo ν) (l : OrderLine) : SameRequest o (updateOrder o l).1 := by
  simp only [updateOrder]
  repeat' split
  all_goals exact ⟨rfl, rfl, rfl, rfl, rfl, rfl, rfl, rfl, rfl⟩

theorem updateLine_ext (b : Book ν) (items : List Str) : (∀ b', updateLine b items = .done b' → BookExt b b') ∧
    ∀ b' e, updateLine b items = .failed b' e → BookExt b b' := by
  simp only [updateLine]
  cases OrderLine.ofItems items with
  | error e => simp only; exact ⟨fun b' h => (by cases h), fun b' e h => (by injection h with h; subst h; exact .refl _)⟩
  | ok l =>
    simp only
    cases ho : dget b l.custBatchNo with
    | none => simp only; exact ⟨fun b' h => (by cases h), fun b' e h => (by cases h)⟩
    | some o =>
      simp only
      have hs := updateOrder_same' o l
      cases hu : updateOrder o l with
      | mk o' r =>
        rw [hu] at hs
        cases r with
        | ok u =>
          simp only
          exact ⟨fun b' h => (by injection h with h; subst h; exact bookExt_dset ho hs), fun b' e h => (by cases h)⟩
        | error e =>
          simp only
          exact ⟨fun b' h => (by cases h), fun b' e h => (by injection h with h; subst h; exact bookExt_dset ho hs)⟩

theorem resultLine_ext (b : Book ν) (items : List Str) : (∀ b', resultLine b items = .done b' → BookExt b b') ∧
    ∀ b' e, resultLine b items = .failed b' e → BookExt b b' := by
  simp only [resultLine]
  split
  · split
    · split
      · rename_i o ho
        refine ⟨fun b' h => ?_, fun b' e h => (by cases h)⟩
        injection h with h; subst h
        exact bookExt_dset ho ⟨rfl, rfl, rfl, rfl, rfl, rfl, rfl, rfl, rfl⟩
      · exact ⟨fun b' h => (by injection h with h; subst h; exact .refl _), fun b' e h => (by cases h)⟩
    · exact ⟨fun b' h => (by injection h with h; subst h; exact .refl _), fun b' e h => (by cases h)⟩
  · exact ⟨fun b' h => (by cases h), fun b' e h => (by injection h with h; subst h; exact .refl _)⟩

theorem pollLoop_ext (cols : Nat) (f : Book ν → List Str → LineRes ν) (hf : ∀ b items, (∀ b', f b items = .done b' → BookExt b b') ∧
    ∀ b' e, f b items = .failed b' e → BookExt b b') (ign : Bool) (ls : List (Str × Nat)) (pos : Nat) (b : Book ν) (off : Nat) :
    BookExt b (pollLoop cols f ign ls pos b off).1.1 := by
  induction ls generalizing pos b off with
  | nil => exact .refl b
  | cons l ls ih =>
    obtain ⟨raw, n⟩ := l
    simp only [pollLoop]
    cases lineKind cols raw with
    | stop => exact .refl b
    | header => exact ih _ _ _
    | fields items =>
      simp only
      cases hr : f b items with
      | unknown => exact ih _ _ _
      | done b' => exact ((hf b items).1 b' hr).trans (ih _ _ _)
      | failed b' e =>
        simp only
        split
        · exact ((hf b items).2 b' e hr).trans (ih _ _ _)
        · exact (hf b items).2 b' e hr

theorem pollBoth_ext (ign : Bool) (results updates : Str) (s : SyncState ν) : BookExt s.book (pollBoth ign results updates s).1.book := by
  simp only [pollBoth]
  have h1 : BookExt s.book (pollResults ign results s.book s.resOff).1.1 := pollLoop_ext _ _ (fun b i => resultLine_ext b i) _ _ _ _ _
  cases hr : pollResults ign results s.book s.resOff with
  | mk p e =>
    obtain ⟨b, ro⟩ := p
    rw [hr] at h1
    have h2 : BookExt b (pollUpdates ign updates b s.updOff).1.1 := pollLoop_ext _ _ (fun b i => updateLine_ext b i) _ _ _ _ _
    cases hu : pollUpdates ign updates b s.updOff with
    | mk q e' =>
      obtain ⟨b', uo⟩ := q
      rw [hu] at h2
      cases e <;> cases e' <;> (try exact h1) <;> (simp only [hu]; exact h1.trans h2)

/-- What a synchronisation does to book and data file. -/
theorem ax_syncOrders_book (env : Env) (hren : env.Renames) (s : AX ν) : BookExt s.book (s.syncOrders env).1.book ∧
    ((s.syncOrders env).1.files (.data s.conf.dataDay) = s.files (.data s.conf.dataDay) ∨
     ∃ text, Store.dump (s.syncOrders env).1.book = some text ∧ (s.syncOrders env).1.files (.data s.conf.dataDay) = some text) := by
  simp only [AX.syncOrders]
  split
  · rename_i updates results _ _
    have h := pollBoth_ext s.conf.ignoreErr results updates ⟨s.book, s.resOff, s.updOff⟩
    cases hp : pollBoth s.conf.ignoreErr results updates ⟨s.book, s.resOff, s.updOff⟩ with
    | mk t r =>
      rw [hp] at h
      cases r with
      | error e => exact ⟨h, .inl rfl⟩
      | ok u =>
        simp only
        have hd := saveOrders_data s.conf.dataDay env hren t.book s.files
        cases hs : saveOrders s.conf.dataDay env t.book s.files with
        | mk fs r =>
          rw [hs] at hd
          cases r with
          | error e =>
            rcases hd with ⟨hd, _⟩ | ⟨_, hd⟩
            · cases hd
            · exact ⟨h, .inl hd⟩
          | ok u =>
            rcases hd with ⟨_, text, h1, h2⟩ | ⟨⟨e, hd⟩, _⟩
            · exact ⟨h, .inr ⟨text, h1, h2⟩⟩
            · cases hd
  · exact ⟨.refl _, .inl rfl⟩

end Jq
