import Verif.Spec.Bus
import Verif.Lemmas.Dict
import Verif.Lemmas.Sort
set_option linter.unusedSectionVars false
namespace Jq

/-- A stably sorted list is determined by its parts of equal key. -/
theorem sorted_unique {α : Type} (key : α → Int) {xs ys : List α}
    (hx : xs.Pairwise (fun a b => key a ≤ key b)) (hy : ys.Pairwise (fun a b => key a ≤ key b))
    (h : ∀ t, xs.filter (fun a => decide (key a = t)) = ys.filter (fun a => decide (key a = t))) : xs = ys := by
  induction xs generalizing ys with
  | nil =>
    cases ys with
    | nil => rfl
    | cons y ys => have := h (key y); simp at this
  | cons x xs ih =>
    cases ys with
    | nil => have := h (key x); simp at this
    | cons y ys =>
      rw [List.pairwise_cons] at hx hy
      have hxy : key x = key y := by
        have h1 : y ∈ (x :: xs).filter (fun a => decide (key a = key y)) := by rw [h]; simp
        have h2 : x ∈ (y :: ys).filter (fun a => decide (key a = key x)) := by rw [← h]; simp
        simp only [List.mem_filter, List.mem_cons] at h1 h2
        have a1 : key x ≤ key y := by
          rcases h1.1 with rfl | hm
          · exact Int.le_refl _
          · exact hx.1 _ hm
        have a2 : key y ≤ key x := by
          rcases h2.1 with rfl | hm
          · exact Int.le_refl _
          · exact hy.1 _ hm
        omega
      have hh := h (key x)
      simp only [List.filter_cons, hxy, decide_true, if_true, List.cons.injEq] at hh
      obtain ⟨rfl, hh⟩ := hh
      congr 1
      refine ih hx.2 hy.2 fun t => ?_
      have := h t
      simp only [List.filter_cons] at this
      by_cases ht : key x = t
      · simpa [ht] using this
      · simpa [ht] using this

variable {C K : Type} [DecidableEq C] [DecidableEq K]

/-- The callbacks of the registrations for a class and priority, in order. -/
def regsAt (rs : List (Reg C K)) (c : C) (p : Int) : List K :=
  (rs.filter fun r => decide (r.cls = c ∧ r.prio = p)).map (·.cb)

/-- The bus represents a list of registrations and a class order. -/
structure Represents (b : Bus C K) (cs : List C) (rs : List (Reg C K)) : Prop where
  keys : dkeys b = cs
  nodup : cs.Nodup
  prios : ∀ c d, (c, d) ∈ b → DictOk d
  lists : ∀ c d, (c, d) ∈ b → ∀ p, (dget d p).getD [] = regsAt rs c p
  cover : ∀ r ∈ rs, ∃ d, (r.cls, d) ∈ b ∧ r.prio ∈ dkeys d

theorem regsAt_append (rs : List (Reg C K)) (r : Reg C K) (c : C) (p : Int) :
    regsAt (rs ++ [r]) c p = regsAt rs c p ++ if r.cls = c ∧ r.prio = p then [r.cb] else [] := by
  simp only [regsAt, List.filter_append, List.map_append, List.filter_cons, List.filter_nil]
  congr 1
  by_cases h : r.cls = c ∧ r.prio = p
  · rw [if_pos h, if_pos (by simpa using h)]; rfl
  · rw [if_neg h, if_neg (by simpa using h)]; rfl

theorem regsAt_drop (c : C) (cb : K) (seen : List Int) (rs : List (Reg C K)) (c' : C) (p : Int) :
    regsAt (dropRegs c cb seen rs) c' p =
      if c' = c ∧ p ∉ seen then (removeFirst cb (regsAt rs c' p)).getD (regsAt rs c' p) else regsAt rs c' p := by
  induction rs generalizing seen with
  | nil => simp [dropRegs, regsAt, removeFirst]
  | cons r rs ih =>
    have hcons : ∀ (r : Reg C K) (l : List (Reg C K)), regsAt (r :: l) c' p =
        if r.cls = c' ∧ r.prio = p then r.cb :: regsAt l c' p else regsAt l c' p := by
      intro r l
      simp only [regsAt, List.filter_cons]
      by_cases h : r.cls = c' ∧ r.prio = p
      · rw [if_pos h, if_pos (by simpa using h)]; rfl
      · rw [if_neg h, if_neg (by simpa using h)]
    simp only [dropRegs]
    by_cases hd : r.cls = c ∧ r.cb = cb ∧ r.prio ∉ seen
    · rw [if_pos hd, ih, hcons]
      obtain ⟨h1, h2, h3⟩ := hd
      by_cases hp : r.cls = c' ∧ r.prio = p
      · obtain ⟨rfl, rfl⟩ := hp
        simp [h1, h2, h3, removeFirst]
      · rw [if_neg hp]
        by_cases hc : c' = c
        · subst hc
          have : r.prio ≠ p := fun e => hp ⟨h1, e⟩
          have h' : ¬ p = r.prio := fun e => this e.symm
          simp [h']
        · simp [hc]
    · rw [if_neg hd, hcons, hcons, ih]
      by_cases hp : r.cls = c' ∧ r.prio = p
      · rw [if_pos hp, if_pos hp]
        obtain ⟨rfl, rfl⟩ := hp
        by_cases hc : r.cls = c ∧ r.prio ∉ seen
        · have hcb : ¬ r.cb = cb := fun e => hd ⟨hc.1, e, hc.2⟩
          rw [if_pos hc, if_pos hc]
          simp only [removeFirst, if_neg hcb]
          cases removeFirst cb (regsAt rs r.cls r.prio) <;> simp
        · rw [if_neg hc, if_neg hc]
      · rw [if_neg hp, if_neg hp]

theorem mem_dropRegs {c : C} {cb : K} {seen : List Int} {rs : List (Reg C K)} {r : Reg C K}
    (h : r ∈ dropRegs c cb seen rs) : r ∈ rs := by
  induction rs generalizing seen with
  | nil => simp [dropRegs] at h
  | cons x xs ih =>
    simp only [dropRegs] at h
    split at h
    · exact List.mem_cons_of_mem _ (ih h)
    · rcases List.mem_cons.1 h with rfl | h
      · simp
      · exact List.mem_cons_of_mem _ (ih h)

theorem busOk {b : Bus C K} {cs : List C} {rs : List (Reg C K)} (h : Represents b cs rs) : DictOk b := by
  rw [DictOk, h.keys]; exact h.nodup

theorem represents_register {b : Bus C K} {cs : List C} {rs : List (Reg C K)} (h : Represents b cs rs) (c : C) (cb : K)
    (p : Int) : Represents (b.register c cb p) (if c ∈ cs then cs else cs ++ [c]) (rs ++ [⟨c, p, cb⟩]) := by
  have hok := busOk h
  have hok' : DictOk (b.register c cb p) := hok.dset _ _
  have hdok : DictOk ((dget b c).getD []) := by
    cases hg : dget b c with
    | none => exact DictOk.nil
    | some d => exact h.prios c d (mem_of_dget hg)
  have hdl : ∀ q, (dget ((dget b c).getD []) q).getD [] = regsAt rs c q := by
    intro q
    cases hg : dget b c with
    | none =>
      have hnm : c ∉ dkeys b := (dget_eq_none b c).1 hg
      have : regsAt rs c q = [] := by
        simp only [regsAt, List.map_eq_nil_iff, List.filter_eq_nil_iff]
        intro r hr hc
        simp only [decide_eq_true_eq] at hc
        obtain ⟨d, hd, _⟩ := h.cover r hr
        exact hnm (List.mem_map.2 ⟨_, hc.1 ▸ hd, rfl⟩)
      simp [this]
    | some d => exact h.lists c d (mem_of_dget hg) q
  have hk : dkeys (b.register c cb p) = if c ∈ cs then cs else cs ++ [c] := by
    simp only [Bus.register, dkeys_dset, h.keys]
  refine ⟨hk, by rw [← hk]; exact hok', ?_, ?_, ?_⟩
  · intro c' d hm
    rw [mem_iff_dget hok'] at hm
    simp only [Bus.register, dget_dset] at hm
    split at hm
    · injection hm with hm; subst hm; exact hdok.dset _ _
    · exact h.prios c' d (mem_of_dget hm)
  · intro c' d hm q
    rw [mem_iff_dget hok'] at hm
    simp only [Bus.register, dget_dset] at hm
    rw [regsAt_append]
    split at hm
    · rename_i hc
      subst hc
      injection hm with hm
      subst hm
      rw [dget_dset]
      by_cases hq : p = q
      · subst hq; simp [hdl]
      · simp [hq, hdl]
    · rename_i hc
      rw [h.lists c' d (mem_of_dget hm) q, if_neg (by simp [hc])]
      simp
  · intro r hr
    rw [List.mem_append] at hr
    have key : ∀ c' d, (c', d) ∈ b → ∃ d', (c', d') ∈ b.register c cb p ∧ ∀ x ∈ dkeys d, x ∈ dkeys d' := by
      intro c' d hm
      by_cases hc : c = c'
      · subst hc
        refine ⟨dset ((dget b c).getD []) p (((dget ((dget b c).getD []) p)).getD [] ++ [cb]),
          mem_of_dget (by simp [Bus.register, dget_dset]), ?_⟩
        intro x hx
        rw [dget_of_mem hok hm]
        rw [dkeys_dset]
        simp only [Option.getD_some]
        split <;> simp [hx]
      · exact ⟨d, mem_of_dget (by simp [Bus.register, dget_dset, hc, dget_of_mem hok hm]), fun x hx => hx⟩
    rcases hr with hr | hr
    · obtain ⟨d, hd, hp⟩ := h.cover r hr
      obtain ⟨d', hd', hsub⟩ := key _ d hd
      exact ⟨d', hd', hsub _ hp⟩
    · simp only [List.mem_singleton] at hr
      subst hr
      refine ⟨dset ((dget b c).getD []) p (((dget ((dget b c).getD []) p)).getD [] ++ [cb]),
          mem_of_dget (by simp [Bus.register, dget_dset]), ?_⟩
      rw [dkeys_dset]
      split
      · assumption
      · simp

theorem dget_map_snd {κ β : Type} [DecidableEq κ] (d : Dict κ β) (f : β → β) (k : κ) :
    dget (d.map fun e => (e.1, f e.2)) k = (dget d k).map f := by
  induction d with
  | nil => rfl
  | cons e d ih =>
    simp only [List.map_cons, dget, ih]
    split <;> simp

theorem dkeys_map_snd {κ β : Type} (d : Dict κ β) (f : β → β) :
    dkeys (d.map fun e => (e.1, f e.2)) = dkeys d := by
  simp [dkeys]

theorem represents_unregister {b : Bus C K} {cs : List C} {rs : List (Reg C K)} (h : Represents b cs rs) (c : C) (cb : K) :
    Represents (b.unregister c cb) cs (dropRegs c cb [] rs) := by
  have hok := busOk h
  cases hg : dget b c with
  | none =>
    have hnm : c ∉ dkeys b := (dget_eq_none b c).1 hg
    have hne : ∀ r ∈ rs, r.cls ≠ c := by
      intro r hr hc
      obtain ⟨d, hd, _⟩ := h.cover r hr
      exact hnm (List.mem_map.2 ⟨_, hc ▸ hd, rfl⟩)
    have hdrop : ∀ (l : List (Reg C K)) seen, (∀ r ∈ l, r.cls ≠ c) → dropRegs c cb seen l = l := by
      intro l
      induction l with
      | nil => intros; rfl
      | cons x xs ih =>
        intro seen hl
        simp only [dropRegs]
        rw [if_neg (fun e => hl x (by simp) e.1), ih _ (fun r hr => hl r (List.mem_cons_of_mem _ hr))]
    rw [hdrop rs [] hne]
    simpa [Bus.unregister, hg] using h
  | some d0 =>
    have e0 : b.unregister c cb = dset b c (d0.map fun e => (e.1, (removeFirst cb e.2).getD e.2)) := by
      simp [Bus.unregister, hg]
    have hmem : c ∈ cs := by rw [← h.keys, mem_dkeys_iff]; simp [hg]
    rw [e0]
    have hok' := hok.dset c (d0.map fun e => (e.1, (removeFirst cb e.2).getD e.2))
    refine ⟨by rw [dkeys_dset, h.keys, if_pos hmem], h.nodup, ?_, ?_, ?_⟩
    · intro c' d hm
      rw [mem_iff_dget hok', dget_dset] at hm
      split at hm
      · injection hm with hm
        subst hm
        rw [DictOk, dkeys_map_snd d0 (fun l => (removeFirst cb l).getD l)]
        exact h.prios c d0 (mem_of_dget hg)
      · exact h.prios c' d (mem_of_dget hm)
    · intro c' d hm p
      rw [mem_iff_dget hok', dget_dset] at hm
      rw [regsAt_drop]
      split at hm
      · rename_i hc
        subst hc
        injection hm with hm
        subst hm
        rw [dget_map_snd d0 (fun l => (removeFirst cb l).getD l), if_pos ⟨rfl, by simp⟩]
        rw [← h.lists c d0 (mem_of_dget hg) p]
        cases dget d0 p with
        | none => simp [removeFirst]
        | some l => simp
      · rename_i hc
        rw [if_neg (fun e => hc e.1.symm)]
        exact h.lists c' d (mem_of_dget hm) p
    · intro r hr
      obtain ⟨d, hd, hp⟩ := h.cover r (mem_dropRegs hr)
      by_cases hc : c = r.cls
      · refine ⟨d0.map fun e => (e.1, (removeFirst cb e.2).getD e.2), mem_of_dget (by simp [dget_dset, hc]), ?_⟩
        rw [dkeys_map_snd d0 (fun l => (removeFirst cb l).getD l)]
        have := dget_of_mem hok hd
        rw [← hc, hg] at this
        injection this with this
        rw [this]; exact hp
      · exact ⟨d, mem_of_dget (by simp [dget_dset, hc, dget_of_mem hok hd]), hp⟩

/-- What one class contributes to an emission. -/
theorem class_calls {b : Bus C K} {cs : List C} {rs : List (Reg C K)} (h : Represents b cs rs) {c : C} {d : Dict Int (List K)}
    (hm : (c, d) ∈ b) :
    (sortBy (fun p => -p) (dkeys d)).flatMap (fun p => (dget d p).getD []) =
      (sortBy (fun r : Reg C K => -r.prio) (rs.filter fun r => decide (r.cls = c))).map (·.cb) := by
  have hok := busOk h
  have hd := h.prios c d hm
  have hcov : ∀ r ∈ rs, r.cls = c → r.prio ∈ dkeys d := by
    intro r hr hc
    obtain ⟨d', hd', hp⟩ := h.cover r hr
    have h1 := dget_of_mem hok hd'
    rw [hc, dget_of_mem hok hm] at h1
    injection h1 with h1
    rw [h1]; exact hp
  generalize hps : sortBy (fun p => -p) (dkeys d) = ps
  have hsort : ps.Pairwise (fun a b => -a ≤ -b) := hps ▸ sortBy_sorted (fun p : Int => -p) (dkeys d)
  have hperm : ps.Perm (dkeys d) := hps ▸ sortBy_perm (fun p : Int => -p) (dkeys d)
  have hnd : ps.Nodup := (hperm.nodup_iff).2 hd
  have e1 : ps.flatMap (fun p => (dget d p).getD []) =
      (ps.flatMap fun p => rs.filter fun r => decide (r.cls = c ∧ r.prio = p)).map (·.cb) := by
    rw [List.map_flatMap]
    congr 1
    funext p
    rw [h.lists c d hm p]; rfl
  rw [e1]
  congr 1
  apply sorted_unique (fun r : Reg C K => -r.prio)
  · -- sorted
    rw [List.pairwise_flatMap]
    constructor
    · intro p _
      rw [List.pairwise_filter]
      exact List.pairwise_of_forall (by
        intro x y hx hy
        simp only [decide_eq_true_eq] at hx hy
        omega)
    · refine hsort.imp ?_
      intro p q hpq x hx y hy
      simp only [List.mem_filter, decide_eq_true_eq] at hx hy
      omega
  · exact sortBy_sorted _ _
  · intro t
    rw [sortBy_stable, List.filter_filter, List.filter_flatMap]
    have : (ps.flatMap fun p => (rs.filter fun r => decide (r.cls = c ∧ r.prio = p)).filter fun r => decide (-r.prio = t)) =
        if -t ∈ ps then rs.filter (fun r => decide (r.cls = c ∧ r.prio = -t)) else [] := by
      clear hps hsort hperm e1
      induction ps with
      | nil => simp
      | cons p ps ih =>
        rw [List.nodup_cons] at hnd
        rw [List.flatMap_cons, ih hnd.2, List.filter_filter]
        by_cases hp : p = -t
        · subst hp
          rw [if_neg hnd.1, if_pos (by simp), List.append_nil]
          congr 1; funext r
          by_cases h1 : r.cls = c <;> by_cases h2 : r.prio = -t <;> simp [h1, h2] <;> omega
        · have : ¬ -t = p := fun e => hp e.symm
          have e2 : (rs.filter fun r => decide (-r.prio = t) && decide (r.cls = c ∧ r.prio = p)) = [] := by
            rw [List.filter_eq_nil_iff]
            intro r _
            simp only [Bool.and_eq_true, decide_eq_true_eq]
            omega
          rw [e2]
          simp [this]
    rw [this]
    split
    · congr 1; funext r
      by_cases h1 : r.cls = c <;> by_cases h2 : r.prio = -t <;> simp [h1, h2] <;> omega
    · rename_i hnot
      symm
      rw [List.filter_eq_nil_iff]
      intro r hr
      simp only [Bool.and_eq_true, decide_eq_true_eq]
      rintro ⟨h1, h2⟩
      apply hnot
      rw [hperm.mem_iff, show -t = r.prio by omega]
      exact hcov r hr h2

theorem represents_emit {b : Bus C K} {cs : List C} {rs : List (Reg C K)} (h : Represents b cs rs)
    (sub : C → C → Bool) (ec : C) :
    b.emit sub ec = (cs.filter (sub ec)).flatMap fun c =>
      (sortBy (fun r : Reg C K => -r.prio) (rs.filter fun r => decide (r.cls = c))).map (·.cb) := by
  have key : ∀ l : Bus C K, (∀ e ∈ l, e ∈ b) → l.emit sub ec = ((dkeys l).filter (sub ec)).flatMap fun c =>
      (sortBy (fun r : Reg C K => -r.prio) (rs.filter fun r => decide (r.cls = c))).map (·.cb) := by
    intro l
    induction l with
    | nil => intro _; rfl
    | cons e l ih =>
      intro hl
      have ih' := ih (fun x hx => hl x (List.mem_cons_of_mem _ hx))
      obtain ⟨c, d⟩ := e
      simp only [Bus.emit, List.flatMap_cons, dkeys, List.map_cons, List.filter_cons] at *
      rw [ih']
      by_cases hs : sub ec c = true
      · rw [if_pos hs, if_pos hs, List.flatMap_cons]
        congr 1
        exact class_calls h (hl _ (by simp))
      · rw [if_neg hs, if_neg hs, List.nil_append]
  rw [key b (fun e he => he), h.keys]

theorem represents_history (ops : List (BusOp C K)) :
    Represents (ops.foldl Bus.apply []) (classOrder ops) (inForce ops) := by
  have key : ∀ (ops : List (BusOp C K)) (b : Bus C K) cs rs, Represents b cs rs →
      Represents (ops.foldl Bus.apply b)
        (ops.foldl (fun cs op => match op with
          | .register c _ _ => if c ∈ cs then cs else cs ++ [c]
          | .unregister _ _ => cs) cs)
        (ops.foldl (fun rs op => match op with
          | .register c cb p => rs ++ [⟨c, p, cb⟩]
          | .unregister c cb => dropRegs c cb [] rs) rs) := by
    intro ops
    induction ops with
    | nil => intro b cs rs h; exact h
    | cons op ops ih =>
      intro b cs rs h
      cases op with
      | register c cb p => exact ih _ _ _ (represents_register h c cb p)
      | unregister c cb => exact ih _ _ _ (represents_unregister h c cb)
  exact key ops [] [] [] ⟨rfl, by simp, by simp, by simp, by simp⟩

end Jq
