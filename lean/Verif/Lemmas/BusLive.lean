import Verif.Spec.BusLive
import Verif.Lemmas.Bus
set_option linter.unusedSectionVars false
namespace Jq

variable {C K σ : Type} [DecidableEq C] [DecidableEq K]

/-! ## The lists of the bus -/

theorem at_register (b : Bus C K) (c c' : C) (k : K) (p p' : Int) :
    (b.register c' k p').at c p = if c = c' ∧ p = p' then b.at c p ++ [k] else b.at c p := by
  simp only [Bus.at, Bus.register, dget_dset]
  by_cases hc : c' = c
  · subst hc
    simp only [if_true, Option.bind_some, dget_dset, true_and]
    by_cases hp : p' = p
    · subst hp
      cases dget b c' <;> simp
    · rw [if_neg hp, if_neg (fun e => hp e.symm)]
      cases dget b c' <;> simp
  · rw [if_neg hc, if_neg (fun e => hc e.1.symm)]

theorem at_unregister (b : Bus C K) (c c' : C) (k : K) (p : Int) :
    (b.unregister c' k).at c p = if c = c' then (removeFirst k (b.at c p)).getD (b.at c p) else b.at c p := by
  simp only [Bus.at, Bus.unregister]
  cases hg : dget b c' with
  | none =>
    by_cases hc : c = c'
    · subst hc; simp [hg, removeFirst]
    · simp [hc]
  | some d =>
    simp only [dget_dset]
    by_cases hc : c' = c
    · subst hc
      simp only [if_true, Option.bind_some, hg]
      rw [dget_map_snd d (fun l => (removeFirst k l).getD l)]
      cases dget d p <;> simp [removeFirst]
    · rw [if_neg hc, if_neg (fun e => hc e.symm)]

theorem removeFirst_append {k : K} {l r : List K} (h : k ∉ l) : removeFirst k (l ++ r) = (removeFirst k r).map (l ++ ·) := by
  induction l with
  | nil => simp
  | cons a l ih =>
    simp only [List.mem_cons, not_or] at h
    simp only [List.cons_append, removeFirst]
    rw [if_neg (fun e => h.1 e.symm), ih h.2]
    cases removeFirst k r <;> simp

theorem removeFirst_count {k k' : K} {l l' : List K} (h : removeFirst k l = some l') (hne : k' ≠ k) : l'.count k' = l.count k' := by
  induction l generalizing l' with
  | nil => cases h
  | cons a l ih =>
    simp only [removeFirst] at h
    split at h
    · rename_i e
      subst e
      cases h
      rw [List.count_cons_of_ne (fun e => hne e.symm)]
    · simp only [Option.map_eq_some_iff] at h
      obtain ⟨l'', h1, rfl⟩ := h
      rw [List.count_cons, List.count_cons, ih h1]

/-- The operations of a callback leave alone what they do not name. -/
theorem foldl_at_count (c : C) (p : Int) (k : K) (ops : List (BusOp C K)) (b : Bus C K)
    (h1 : .unregister c k ∉ ops) (h2 : .register c k p ∉ ops) : ((ops.foldl Bus.apply b).at c p).count k = (b.at c p).count k := by
  induction ops generalizing b with
  | nil => rfl
  | cons o ops ih =>
    simp only [List.mem_cons, not_or] at h1 h2
    rw [List.foldl_cons, ih _ h1.2 h2.2]
    cases o with
    | register c' k' p' =>
      simp only [Bus.apply, at_register]
      split
      · rename_i h
        obtain ⟨rfl, rfl⟩ := h
        rw [List.count_append]
        have : k' ≠ k := fun e => h2.1 (by rw [e])
        simp [this]
      · rfl
    | unregister c' k' =>
      simp only [Bus.apply, at_unregister]
      split
      · rename_i h
        subst h
        have hne : k ≠ k' := fun e => h1.1 (by rw [e])
        cases hr : removeFirst k' (b.at c p) with
        | none => rfl
        | some l => exact removeFirst_count hr hne
      · rfl

/-- What has been called stays at the front of its list, if it is not unregistered. -/
theorem foldl_at_front (c : C) (p : Int) (P : List K) (ops : List (BusOp C K)) (b : Bus C K) (T : List K) (hb : b.at c p = P ++ T)
    (h : ∀ k ∈ P, .unregister c k ∉ ops) : ∃ T', (ops.foldl Bus.apply b).at c p = P ++ T' := by
  induction ops generalizing b T with
  | nil => exact ⟨T, hb⟩
  | cons o ops ih =>
    have h' : ∀ k ∈ P, .unregister c k ∉ ops := fun k hk hm => h k hk (List.mem_cons_of_mem _ hm)
    rw [List.foldl_cons]
    cases o with
    | register c' k' p' =>
      have e := at_register b c c' k' p p'
      split at e
      · exact ih _ (T ++ [k']) (by simp only [Bus.apply]; rw [e, hb, List.append_assoc]) h'
      · exact ih _ T (by simp only [Bus.apply]; rw [e, hb]) h'
    | unregister c' k' =>
      have e := at_unregister b c c' k' p
      split at e
      · rename_i hc
        subst hc
        have hk : k' ∉ P := fun hm => h k' hm (List.mem_cons_self ..)
        rw [hb, removeFirst_append hk] at e
        cases hr : removeFirst k' T with
        | none => exact ih _ T (by simp only [Bus.apply]; rw [e, hr]; rfl) h'
        | some l => exact ih _ l (by simp only [Bus.apply]; rw [e, hr]; rfl) h'
      · exact ih _ T (by simp only [Bus.apply]; rw [e, hb]) h'

/-! ## The bus is always the result of a history -/

/-- The bus is what the history `H` and the calls logged so far have made it. -/
def EmitSt.From (H : List (BusOp C K)) (s : EmitSt C K σ) : Prop := s.bus = (H ++ s.log.flatMap (·.ops)).foldl Bus.apply []

theorem call_from {H : List (BusOp C K)} {act : BusAct C K σ} {c : C} {p : Int} {k : K} {s : EmitSt C K σ} (h : s.From H) :
    (s.call act c p k).1.From H := by
  simp only [EmitSt.From] at h ⊢
  simp only [EmitSt.call, List.flatMap_append, List.flatMap_cons, List.flatMap_nil, List.append_nil]
  rw [← List.append_assoc, List.foldl_append, ← h]

/-- A part of an emission: it only adds to the log, and keeps the bus in step with it. -/
structure EmitPart (H : List (BusOp C K)) (s s' : EmitSt C K σ) : Prop where
  grows : ∃ more, s'.log = s.log ++ more
  from' : s.From H → s'.From H

theorem EmitPart.refl (H : List (BusOp C K)) (s : EmitSt C K σ) : EmitPart H s s := ⟨⟨[], by simp⟩, id⟩

theorem EmitPart.trans {H : List (BusOp C K)} {a b c : EmitSt C K σ} (h : EmitPart H a b) (h' : EmitPart H b c) : EmitPart H a c := by
  obtain ⟨m, e⟩ := h.grows
  obtain ⟨m', e'⟩ := h'.grows
  exact ⟨⟨m ++ m', by rw [e', e, List.append_assoc]⟩, fun x => h'.from' (h.from' x)⟩

theorem call_part (H : List (BusOp C K)) (act : BusAct C K σ) (c : C) (p : Int) (k : K) (s : EmitSt C K σ) :
    EmitPart H s (s.call act c p k).1 := ⟨⟨_, rfl⟩, call_from⟩

theorem emitAt_part (H : List (BusOp C K)) (act : BusAct C K σ) (c : C) (p : Int) (n j : Nat) (s s' : EmitSt C K σ) (e : Option PyErr)
    (h : s.emitAt act c p n j = some (s', e)) : EmitPart H s s' := by
  induction n generalizing j s with
  | zero => cases h
  | succ n ih =>
    simp only [EmitSt.emitAt] at h
    split at h
    · cases h; exact .refl ..
    · rename_i k hk
      have hc := call_part H act c p k s
      split at h
      · rename_i hh; rw [hh] at hc; cases h; exact hc
      · rename_i hh; rw [hh] at hc; exact hc.trans (ih _ _ h)

theorem emitPrios_part (H : List (BusOp C K)) (act : BusAct C K σ) (fuel : Nat) (c : C) (ps : List Int) (s s' : EmitSt C K σ)
    (e : Option PyErr) (h : s.emitPrios act fuel c ps = some (s', e)) : EmitPart H s s' := by
  induction ps generalizing s with
  | nil => cases h; exact .refl ..
  | cons p ps ih =>
    simp only [EmitSt.emitPrios] at h
    split at h
    · cases h
    · rename_i hh; cases h; exact emitAt_part H act _ _ _ _ _ _ _ hh
    · rename_i hh; exact (emitAt_part H act _ _ _ _ _ _ _ hh).trans (ih _ h)

theorem emitClass_part (H : List (BusOp C K)) (act : BusAct C K σ) (fuel : Nat) (sub : C → C → Bool) (ec c : C) (s s' : EmitSt C K σ)
    (e : Option PyErr) (h : s.emitClass act fuel sub ec c = some (s', e)) : EmitPart H s s' := by
  simp only [EmitSt.emitClass] at h
  split at h
  · exact emitPrios_part H act _ _ _ _ _ _ h
  · cases h; exact .refl ..

theorem emitClasses_part (H : List (BusOp C K)) (act : BusAct C K σ) (fuel : Nat) (sub : C → C → Bool) (ec : C) (n : Nat) (cs : List C)
    (s s' : EmitSt C K σ) (e : Option PyErr) (h : s.emitClasses act fuel sub ec n cs = some (s', e)) : EmitPart H s s' := by
  induction cs generalizing s with
  | nil => cases h; exact .refl ..
  | cons c cs ih =>
    simp only [EmitSt.emitClasses] at h
    split at h
    · cases h
    · rename_i hh; cases h; exact emitClass_part H act _ _ _ _ _ _ _ hh
    · rename_i hh
      have hp := emitClass_part H act _ _ _ _ _ _ _ hh
      split at h
      · cases h; exact hp
      · exact hp.trans (ih _ h)

/-! ## One list -/

theorem NeverBack.front {log : List (BusCall C K)} (h : NeverBack log) {l m : List (BusCall C K)} (e : log = l ++ m) : NeverBack l := by
  intro before x after hl
  exact h before x (after ++ m) (by rw [e, hl]; simp)

/-- The loop over a list calls, in order, exactly what is in the list when it ends. -/
theorem emitAt_calls (act : BusAct C K σ) (c : C) (p : Int) (n : Nat) (s s' : EmitSt C K σ) (L0 LD : List (BusCall C K)) (T : List K)
    (h : s.emitAt act c p n LD.length = some (s', none)) (hlog : s.log = L0 ++ LD) (hLD : ∀ e ∈ LD, e.cls = c ∧ e.prio = p)
    (hat : s.bus.at c p = LD.map (·.cb) ++ T) (hnb : NeverBack s'.log) :
    ∃ LF, s'.log = L0 ++ LF ∧ (∀ e ∈ LF, e.cls = c ∧ e.prio = p) ∧ LF.map (·.cb) = s'.bus.at c p := by
  induction n generalizing s LD T with
  | zero => cases h
  | succ n ih =>
    have hg := emitAt_part [] act _ _ _ _ _ _ _ h
    simp only [EmitSt.emitAt] at h
    split at h
    · rename_i hk
      cases h
      rw [hat, List.getElem?_eq_none_iff] at hk
      simp only [List.length_append, List.length_map] at hk
      have hT : T = [] := List.length_eq_zero_iff.1 (by omega)
      exact ⟨LD, hlog, hLD, by rw [hat, hT, List.append_nil]⟩
    · rename_i k hk
      rw [hat, List.getElem?_append_right (by simp), List.length_map, Nat.sub_self] at hk
      obtain ⟨T', rfl⟩ : ∃ T', T = k :: T' := by
        cases T with
        | nil => cases hk
        | cons a T' => simp only [List.getElem?_cons_zero, Option.some.injEq] at hk; exact ⟨T', by rw [hk]⟩
      split at h
      · cases h
      · rename_i s1 hh
        have e1 : s1 = (s.call act c p k).1 := by rw [hh]
        have hlog1 : s1.log = L0 ++ (LD ++ [⟨c, p, k, (act k s.st).2.1⟩]) := by
          rw [e1, ← List.append_assoc, ← hlog]; rfl
        have hg1 := emitAt_part [] act _ _ _ _ _ _ _ h
        obtain ⟨more, hmore⟩ := hg1.grows
        have hbus1 : s1.bus = (act k s.st).2.1.foldl Bus.apply s.bus := by rw [e1]; rfl
        have hne := hnb (L0 ++ LD) ⟨c, p, k, (act k s.st).2.1⟩ more (by rw [hmore, hlog1]; simp)
        obtain ⟨T'', hT''⟩ := foldl_at_front c p (LD.map (·.cb) ++ [k]) (act k s.st).2.1 s.bus T' (by rw [hat]; simp) (by
          intro x hx hu
          obtain ⟨h1, h2⟩ := hne x hu
          simp only [List.mem_append, List.mem_map, List.mem_singleton] at hx
          rcases hx with ⟨e', he', rfl⟩ | rfl
          · exact h2 e' (List.mem_append_right _ he') (hLD e' he').1 (hLD e' he').2 rfl
          · exact h1 rfl)
        refine ih s1 (LD ++ [⟨c, p, k, (act k s.st).2.1⟩]) T'' ?_ hlog1 ?_ ?_
        · simpa using h
        · intro e he
          rcases List.mem_append.1 he with he | he
          · exact hLD e he
          · simp only [List.mem_singleton] at he; subst he; exact ⟨rfl, rfl⟩
        · rw [hbus1, hT'']; simp

/-! ## Counting -/

/-- Nothing in this part of the log unregisters `k` from `c`, nor registers it for `c` and `p`. -/
def Untouched (log : List (BusCall C K)) (c : C) (p : Int) (k : K) : Prop :=
  ∀ e ∈ log, .unregister c k ∉ e.ops ∧ .register c k p ∉ e.ops

theorem count_from {H : List (BusOp C K)} {s : EmitSt C K σ} (h : s.From H) {c : C} {p : Int} {k : K} (hu : Untouched s.log c p k) :
    (s.bus.at c p).count k = ((H.foldl Bus.apply []).at c p).count k := by
  rw [h, List.foldl_append]
  refine foldl_at_count c p k _ _ ?_ ?_
  · intro hm
    obtain ⟨e, he, hm⟩ := List.mem_flatMap.1 hm
    exact (hu e he).1 hm
  · intro hm
    obtain ⟨e, he, hm⟩ := List.mem_flatMap.1 hm
    exact (hu e he).2 hm

theorem timesCalled_append (l m : List (BusCall C K)) (c : C) (p : Int) (k : K) :
    timesCalled (l ++ m) c p k = timesCalled l c p k + timesCalled m c p k := by
  simp [timesCalled]

theorem timesCalled_other {l : List (BusCall C K)} {c c' : C} {p p' : Int} (h : ∀ e ∈ l, e.cls = c' ∧ e.prio = p')
    (hne : ¬ (c' = c ∧ p' = p)) (k : K) : timesCalled l c p k = 0 := by
  simp only [timesCalled, List.length_eq_zero_iff, List.filter_eq_nil_iff, decide_eq_true_eq]
  intro e he h'
  exact hne ⟨(h e he).1.symm.trans h'.1, (h e he).2.symm.trans h'.2.1⟩

theorem timesCalled_all {l : List (BusCall C K)} {c : C} {p : Int} (h : ∀ e ∈ l, e.cls = c ∧ e.prio = p) (k : K) :
    timesCalled l c p k = (l.map (·.cb)).count k := by
  induction l with
  | nil => rfl
  | cons e l ih =>
    have := ih fun e he => h e (List.mem_cons_of_mem _ he)
    obtain ⟨h1, h2⟩ := h e (List.mem_cons_self ..)
    have e' : timesCalled (e :: l) c p k = timesCalled [e] c p k + timesCalled l c p k := timesCalled_append [e] l c p k
    rw [e', this, List.map_cons, List.count_cons]
    by_cases hk : e.cb = k
    · simp [timesCalled, h1, h2, hk, Nat.add_comm]
    · simp [timesCalled, h1, h2, hk]

theorem Untouched.front {l m : List (BusCall C K)} {c : C} {p : Int} {k : K} (h : Untouched (l ++ m) c p k) : Untouched l c p k :=
  fun e he => h e (List.mem_append_left _ he)

/-- Over the priorities of a class. -/
theorem emitPrios_count {H : List (BusOp C K)} (act : BusAct C K σ) (fuel : Nat) (c : C) (ps : List Int) (hps : ps.Nodup)
    (s s' : EmitSt C K σ) (h : s.emitPrios act fuel c ps = some (s', none)) (hf : s.From H) (hnb : NeverBack s'.log)
    {p : Int} {k : K} (hu : Untouched s'.log c p k) :
    timesCalled s'.log c p k = timesCalled s.log c p k + if p ∈ ps then ((H.foldl Bus.apply []).at c p).count k else 0 := by
  induction ps generalizing s with
  | nil => cases h; simp
  | cons q ps ih =>
    simp only [EmitSt.emitPrios] at h
    split at h
    · cases h
    · cases h
    · rename_i s1 hh
      obtain ⟨more, hmore⟩ := (emitPrios_part H act _ _ _ _ _ _ h).grows
      have hp1 := emitAt_part H act _ _ _ _ _ _ _ hh
      obtain ⟨LF, e1, e2, e3⟩ := emitAt_calls act c q fuel s s1 s.log [] (s.bus.at c q) (by simpa using hh) (by simp) (by simp) (by simp) (hnb.front hmore)
      rw [hmore] at hu
      rw [ih (List.nodup_cons.1 hps).2 s1 h (hp1.from' hf) , e1, timesCalled_append]
      by_cases hq : q = p
      · subst hq
        rw [timesCalled_all e2, e3, count_from (hp1.from' hf) hu.front]
        simp [(List.nodup_cons.1 hps).1]
      · rw [timesCalled_other e2 (fun e => hq e.2)]
        simp only [List.mem_cons]
        have : ¬ p = q := fun e => hq e.symm
        simp [this]

theorem emitPrios_cls (act : BusAct C K σ) (fuel : Nat) (c : C) (ps : List Int) (s s' : EmitSt C K σ)
    (h : s.emitPrios act fuel c ps = some (s', none)) {c' : C} (hc : c ≠ c') (p : Int) (k : K) :
    timesCalled s'.log c' p k = timesCalled s.log c' p k := by
  have haux : ∀ n j q (s s' : EmitSt C K σ) e, s.emitAt act c q n j = some (s', e) →
      timesCalled s'.log c' p k = timesCalled s.log c' p k := by
    intro n
    induction n with
    | zero => intro j q s s' e h; cases h
    | succ n ih =>
      intro j q s s' e h
      simp only [EmitSt.emitAt] at h
      split at h
      · cases h; rfl
      · rename_i x _
        have : timesCalled (s.call act c q x).1.log c' p k = timesCalled s.log c' p k := by
          simp only [EmitSt.call, timesCalled_append]
          simp [timesCalled, hc]
        split at h
        · rename_i hh; rw [hh] at this; cases h; exact this
        · rename_i hh; rw [hh] at this; rw [ih _ _ _ _ _ h, this]
  induction ps generalizing s with
  | nil => cases h; rfl
  | cons q ps ih =>
    simp only [EmitSt.emitPrios] at h
    split at h
    · cases h
    · cases h
    · rename_i hh; rw [ih _ h, haux _ _ _ _ _ _ hh]

/-- Over the classes. -/
theorem emitClasses_count {H : List (BusOp C K)} (act : BusAct C K σ) (fuel : Nat) (sub : C → C → Bool) (ec : C) (n : Nat) (cs : List C)
    (hcs : cs.Nodup) (s s' : EmitSt C K σ) (h : s.emitClasses act fuel sub ec n cs = some (s', none)) (hf : s.From H)
    (hnb : NeverBack s'.log) {c : C} (hc : sub ec c = true) {p : Int} {k : K} (hu : Untouched s'.log c p k) :
    timesCalled s'.log c p k = timesCalled s.log c p k + if c ∈ cs then ((H.foldl Bus.apply []).at c p).count k else 0 := by
  induction cs generalizing s with
  | nil => cases h; simp
  | cons d cs ih =>
    simp only [EmitSt.emitClasses] at h
    split at h
    · cases h
    · cases h
    · rename_i s1 hh
      split at h
      · cases h
      obtain ⟨more, hmore⟩ := (emitClasses_part H act _ _ _ _ _ _ _ _ h).grows
      have hp1 := emitClass_part H act _ _ _ _ _ _ _ hh
      rw [ih (List.nodup_cons.1 hcs).2 s1 h (hp1.from' hf)]
      simp only [EmitSt.emitClass] at hh
      by_cases hd : d = c
      · subst hd
        rw [if_pos hc] at hh
        have hrep := represents_history (H ++ s.log.flatMap (·.ops))
        rw [← hf] at hrep
        have hok : DictOk ((dget s.bus d).getD []) := by
          cases hg : dget s.bus d with
          | none => exact DictOk.nil
          | some x => exact hrep.prios d x (mem_of_dget hg)
        have hu' := hu
        rw [hmore] at hu
        rw [emitPrios_count (H := H) act fuel d _ ((sortBy_perm _ _).nodup_iff.2 hok) s s1 hh hf (hnb.front hmore) hu.front]
        simp only [(List.nodup_cons.1 hcs).1, if_false, Nat.add_zero, List.mem_cons, true_or, if_true]
        congr 1
        split
        · rfl
        · rename_i hn
          rw [(sortBy_perm _ _).mem_iff, ← dget_eq_none] at hn
          obtain ⟨more1, hmore1⟩ := hp1.grows
          rw [hmore1] at hu
          rw [← count_from hf hu.front.front]
          have : s.bus.at d p = [] := by
            simp only [Bus.at]
            cases hg : dget s.bus d with
            | none => rfl
            | some x => rw [hg] at hn; simp only [Option.getD_some] at hn; simp [hn]
          rw [this]; rfl
      · have : timesCalled s1.log c p k = timesCalled s.log c p k := by
          split at hh
          · exact emitPrios_cls act fuel d _ s s1 hh hd p k
          · cases hh; rfl
        have h' : ¬ c = d := fun e => hd e.symm
        simp [this, h']

end Jq
