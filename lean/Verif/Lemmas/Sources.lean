import Verif.Spec.Merge
import Verif.Lemmas.Loop

namespace Jq
variable {ε : Type} {S : Sources ε}

theorem FireLe.trans {a b c : Int × Int} (h : FireLe a b) (h' : FireLe b c) : FireLe a c := by
  unfold FireLe at *; omega

theorem fireLe_of_not_keyLt {κ} {a b : Msg κ} (h : ¬ keyLt b a) :
    FireLe (a.time, a.priority) (b.time, b.priority) := by
  unfold keyLt at h; unfold FireLe; simp only; omega

/-- Messages pending: in the queue or held by `check_queue`. -/
def LoopSt.held {σ κ} (s : LoopSt σ κ ε) : List (Msg κ) :=
  match s.phase with
  | .holding m => [m]
  | _ => []

def LoopSt.pending {σ κ} (s : LoopSt σ κ ε) : List (Msg κ) := s.held ++ s.queue

/-- Result of handling a message of source `i` whose next event exists. -/
theorem handle_source (s : LoopSt Delivered Nat ε) (m : Msg Nat) (now : Int) (a : Int × Int)
    (hev : S.ev m.data (s.world m.data) = some a) :
    let w' : Delivered := fun j => if j = m.data then s.world m.data + 1 else s.world j
    let t := s.handle (sourceExec S) m now
    t.world = w' ∧ t.fired = s.fired ++ [(m, now)] ∧ t.phase = s.phase ∧
    ((∃ e, S.fails m.data (s.world m.data) = some e ∧ t.stopRequested = true ∧
        t.queue = s.queue ∧ t.counter = s.counter) ∨
     (S.fails m.data (s.world m.data) = none ∧ t.stopRequested = s.stopRequested ∧
        S.ev m.data (s.world m.data + 1) = none ∧ t.queue = s.queue ∧ t.counter = s.counter) ∨
     (S.fails m.data (s.world m.data) = none ∧ t.stopRequested = s.stopRequested ∧
       ∃ b, S.ev m.data (s.world m.data + 1) = some b ∧
        t.queue = ⟨b.1, b.2, s.counter + 1, m.data⟩ :: s.queue ∧ t.counter = s.counter + 1)) := by
  simp only
  have f := LoopSt.handle_frame (exec := sourceExec S) s m now
  refine ⟨?_, f.fired, f.phase, ?_⟩
  · rw [f.world]; simp only [sourceExec, hev]; split <;> rfl
  · cases hf : S.fails m.data (s.world m.data) with
    | some e =>
      left
      refine ⟨e, rfl, ?_, ?_⟩
      · apply f.errStop; simp [sourceExec, hev, hf]
      · simp only [LoopSt.handle, sourceExec, hev, hf, List.foldl_nil]
        exact LoopSt.stop_queue _
    | none =>
      right
      cases hb : S.ev m.data (s.world m.data + 1) with
      | none =>
        left
        simp [LoopSt.handle, sourceExec, hev, hf, pushNext, hb]
      | some b =>
        right
        refine ⟨rfl, ?_, b, rfl, ?_⟩
        · simp [LoopSt.handle, sourceExec, hev, hf, pushNext, hb, LoopSt.act, LoopSt.pushNew]
        · simp [LoopSt.handle, sourceExec, hev, hf, pushNext, hb, LoopSt.act, LoopSt.pushNew, pushMsg]

/-- The events of source `i` among the fired ones. -/
def firedOf {σ} (i : Nat) (s : LoopSt σ Nat ε) : List (Option (Int × Int)) :=
  (s.fired.filter (fun f => f.1.data = i)).map (fun f => some (f.1.time, f.1.priority))

structure SInv (S : Sources ε) (k : Nat) (s : LoopSt Delivered Nat ε) : Prop where
  ev : ∀ m ∈ s.pending, m.data < k ∧ S.ev m.data (s.world m.data) = some (m.time, m.priority)
  all : s.stopRequested = false → ∀ i, i < k → S.ev i (s.world i) ≠ none →
    ∃ m ∈ s.pending, m.data = i
  nodup : (s.pending.map (·.data)).Nodup
  seq : SeqNodup s.pending
  bound : ∀ m ∈ s.pending, m.seq ≤ s.counter
  hold : ∀ m, s.phase = .holding m → s.stopRequested = false ∧ ∀ x ∈ s.queue, ¬ keyLt x m
  fired : ∀ i, firedOf i s = firstEvents S i (s.world i)
  range : ∀ f ∈ s.fired, f.1.data < k

theorem LoopSt.pending_of_held_nil {σ κ} {s : LoopSt σ κ ε} (h : ∀ m, s.phase ≠ .holding m) :
    s.pending = s.queue := by
  unfold LoopSt.pending LoopSt.held
  split
  · rename_i m hm; exact absurd hm (h m)
  · rfl

theorem pending_nil_of_phase {σ κ} {s : LoopSt σ κ ε} {p} (h : s.phase = p)
    (hp : ∀ m, p ≠ .holding m) : s.pending = s.queue :=
  LoopSt.pending_of_held_nil (fun m => h ▸ hp m)

theorem pending_holding {σ κ} {s : LoopSt σ κ ε} {m} (h : s.phase = .holding m) :
    s.pending = m :: s.queue := by
  simp [LoopSt.pending, LoopSt.held, h]

/-- If the pending messages only lose members (and nothing else relevant changes), the invariant
stays. -/
theorem SInv.shrink {k} {s t : LoopSt Delivered Nat ε} (i : SInv S k s)
    (hw : t.world = s.world) (hc : t.counter = s.counter) (hf : t.fired = s.fired)
    (hsub : ∃ l, s.pending.Perm (l ++ t.pending))
    (hall : t.stopRequested = false → s.pending.Perm t.pending ∧ s.stopRequested = false)
    (hhold : ∀ m, t.phase = .holding m → t.stopRequested = false ∧ ∀ x ∈ t.queue, ¬ keyLt x m) :
    SInv S k t := by
  obtain ⟨l, hl⟩ := hsub
  have hmem : ∀ m ∈ t.pending, m ∈ s.pending := fun m hm =>
    hl.mem_iff.2 (List.mem_append_right _ hm)
  refine ⟨?_, ?_, ?_, ?_, ?_, hhold, ?_, ?_⟩
  · intro m hm; rw [hw]; exact i.ev m (hmem m hm)
  · intro hst j hj hne
    rw [hw] at hne
    obtain ⟨m, hm, he⟩ := i.all (hall hst).2 j hj hne
    exact ⟨m, (hall hst).1.mem_iff.1 hm, he⟩
  · have := (hl.map (·.data)).nodup i.nodup
    rw [List.map_append] at this
    exact (List.nodup_append.1 this).2.1
  · have := i.seq.perm hl
    unfold SeqNodup at *
    rw [List.map_append] at this
    exact (List.nodup_append.1 this).2.1
  · intro m hm; rw [hc]; exact i.bound m (hmem m hm)
  · intro j; unfold firedOf; rw [hf, hw]; exact i.fired j
  · rw [hf]; exact i.range

theorem nodup_ne_of_cons {α β} {f : α → β} {m : α} {q : List α} (h : ((m :: q).map f).Nodup)
    {x} (hx : x ∈ q) : f x ≠ f m := by
  simp only [List.map_cons, List.nodup_cons] at h
  exact fun e => h.1 (List.mem_map.2 ⟨x, hx, e⟩)

theorem firstEvents_succ (i n : Nat) :
    firstEvents S i (n + 1) = firstEvents S i n ++ [S.ev i n] := by
  simp [firstEvents, List.range_succ]

/-- Firing preserves the invariant. -/
theorem SInv.fire {k} {s : LoopSt Delivered Nat ε} {m now} (i : SInv S k s)
    (hp : s.phase = .holding m) :
    SInv S k (({ s with phase := .checking } : LoopSt Delivered Nat ε).handle (sourceExec S) m now) := by
  have hpend := pending_holding hp
  have hm := i.ev m (by rw [hpend]; exact List.mem_cons_self ..)
  obtain ⟨hw, hf, hph, hcases⟩ := handle_source (S := S)
    ({ s with phase := .checking } : LoopSt Delivered Nat ε) m now _ hm.2
  generalize LoopSt.handle (sourceExec S) _ m now = t at *
  simp only at hw hf hph hcases
  have htp : t.pending = t.queue := pending_nil_of_phase hph (by simp)
  have hnd := i.nodup; rw [hpend] at hnd
  have hsq := i.seq; rw [hpend] at hsq
  have hwx : ∀ x ∈ s.queue, t.world x.data = s.world x.data := by
    intro x hx; rw [hw]; simp [nodup_ne_of_cons hnd hx]
  have hq_ev : ∀ x ∈ s.queue, x.data < k ∧ S.ev x.data (t.world x.data) = some (x.time, x.priority) := by
    intro x hx; rw [hwx x hx]; exact i.ev x (by rw [hpend]; exact List.mem_cons_of_mem _ hx)
  have hq_nd : (s.queue.map (·.data)).Nodup := by
    simp only [List.map_cons, List.nodup_cons] at hnd; exact hnd.2
  have hq_sq : SeqNodup s.queue := by
    simp only [SeqNodup, List.map_cons, List.nodup_cons] at hsq; exact hsq.2
  have hq_b : ∀ x ∈ s.queue, x.seq ≤ s.counter := fun x hx =>
    i.bound x (by rw [hpend]; exact List.mem_cons_of_mem _ hx)
  have hfired : ∀ j, firedOf j t = firstEvents S j (t.world j) := by
    intro j
    have := i.fired j
    unfold firedOf at *
    rw [hf, List.filter_append, List.map_append, this, hw]
    by_cases hj : j = m.data
    · subst hj
      simp [firstEvents_succ, hm.2]
    · have : ¬ m.data = j := fun e => hj e.symm
      simp [hj, this]
  have hrange : ∀ f ∈ t.fired, f.1.data < k := by
    rw [hf]; intro f hf
    rcases List.mem_append.1 hf with hf | hf
    · exact i.range f hf
    · simp at hf; subst hf; exact hm.1
  have hphase : ∀ m', t.phase = .holding m' → t.stopRequested = false ∧
      ∀ x ∈ t.queue, ¬ keyLt x m' := by intro m' hm'; rw [hph] at hm'; cases hm'
  rcases hcases with ⟨e, hfail, hstop, hq, hc⟩ | ⟨hfail, hstop, hev', hq, hc⟩ |
      ⟨hfail, hstop, b, hev', hq, hc⟩
  · refine ⟨?_, ?_, ?_, ?_, ?_, hphase, hfired, hrange⟩
    · rw [htp, hq]; exact hq_ev
    · rw [hstop]; intro h; cases h
    · rw [htp, hq]; exact hq_nd
    · rw [htp, hq]; exact hq_sq
    · rw [htp, hq, hc]; exact hq_b
  · refine ⟨?_, ?_, ?_, ?_, ?_, hphase, hfired, hrange⟩
    · rw [htp, hq]; exact hq_ev
    · rw [htp, hq]
      intro hst j hj hne
      by_cases hjm : j = m.data
      · subst hjm; rw [hw] at hne; simp [hev'] at hne
      · have hwj : t.world j = s.world j := by rw [hw]; simp [hjm]
        rw [hwj] at hne
        rw [hstop] at hst
        obtain ⟨x, hx, hxe⟩ := i.all hst j hj hne
        rw [hpend] at hx
        rcases List.mem_cons.1 hx with rfl | hx
        · exact absurd hxe.symm hjm
        · exact ⟨x, hx, hxe⟩
    · rw [htp, hq]; exact hq_nd
    · rw [htp, hq]; exact hq_sq
    · rw [htp, hq, hc]; exact hq_b
  · refine ⟨?_, ?_, ?_, ?_, ?_, hphase, hfired, hrange⟩
    · rw [htp, hq]
      intro x hx
      rcases List.mem_cons.1 hx with rfl | hx
      · refine ⟨hm.1, ?_⟩
        simp only
        rw [hw]; simp [hev']
      · exact hq_ev x hx
    · rw [htp, hq]
      intro hst j hj hne
      by_cases hjm : j = m.data
      · exact ⟨_, List.mem_cons_self .., hjm.symm⟩
      · have hwj : t.world j = s.world j := by rw [hw]; simp [hjm]
        rw [hwj] at hne
        rw [hstop] at hst
        obtain ⟨x, hx, hxe⟩ := i.all hst j hj hne
        rw [hpend] at hx
        rcases List.mem_cons.1 hx with rfl | hx
        · exact absurd hxe.symm hjm
        · exact ⟨x, List.mem_cons_of_mem _ hx, hxe⟩
    · rw [htp, hq]
      simp only [List.map_cons, List.nodup_cons]
      simp only [List.map_cons, List.nodup_cons] at hnd
      exact hnd
    · rw [htp, hq]
      simp only [SeqNodup, List.map_cons, List.nodup_cons]
      refine ⟨?_, hq_sq⟩
      intro hc'
      obtain ⟨x, hx, hxe⟩ := List.mem_map.1 hc'
      have := hq_b x hx
      omega
    · rw [htp, hq, hc]
      intro x hx
      rcases List.mem_cons.1 hx with rfl | hx
      · exact Nat.le_refl _
      · have := hq_b x hx; omega

theorem SInv.step {k} {s t : LoopSt Delivered Nat ε} {l : Label Nat} (i : SInv S k s)
    (hl : l.isInternal = true) (h : s.step (sourceExec S) l = some t) : SInv S k t := by
  rcases step_cases h with ⟨-, hp, hn, rfl⟩ | ⟨-, hp, hn, rfl⟩ | ⟨-, hp, hn, rfl⟩ |
    ⟨-, hp, hst, hq, rfl⟩ | ⟨-, hp, hst, m, r, hq, rfl⟩ | ⟨now, exits, m, -, hp, hlt, he, rfl⟩ |
    ⟨now, exits, m, -, hp, hlt, he, rfl⟩ | ⟨now, exits, m, -, hp, hle, rfl⟩ | ⟨-, hp, rfl⟩ |
    ⟨t, p, d, rfl, rfl⟩
  · have e : s.pending = s.queue := pending_nil_of_phase hp (by simp)
    refine i.shrink rfl rfl rfl ⟨[], ?_⟩ ?_ (by simp)
    · rw [e]; exact List.Perm.refl _
    · intro hs; rw [e]; exact ⟨List.Perm.refl _, hs⟩
  · have e : s.pending = s.queue := pending_nil_of_phase hp (by simp)
    refine i.shrink rfl rfl rfl ⟨[], ?_⟩ ?_ (by simp)
    · rw [e]; exact List.Perm.refl _
    · intro hs; rw [e]; exact ⟨List.Perm.refl _, hs⟩
  · have e : s.pending = s.queue := pending_nil_of_phase hp (by simp)
    refine i.shrink rfl rfl rfl ⟨[], ?_⟩ ?_ (by simp)
    · rw [e]; exact List.Perm.refl _
    · intro hs; rw [e]; exact ⟨List.Perm.refl _, hs⟩
  · have e : s.pending = s.queue := pending_nil_of_phase hp (by simp)
    refine i.shrink rfl rfl rfl ⟨[], ?_⟩ ?_ (by simp)
    · rw [e]; exact List.Perm.refl _
    · intro hs; simp at hs
  · have e : s.pending = s.queue := pending_nil_of_phase hp (by simp)
    have e' : ({ s with queue := r, phase := .holding m } : LoopSt Delivered Nat ε).pending = m :: r :=
      pending_holding rfl
    refine i.shrink rfl rfl rfl ⟨[], ?_⟩ ?_ ?_
    · rw [e, e']; exact popMin_perm hq
    · intro hs; rw [e, e']; exact ⟨popMin_perm hq, hst⟩
    · intro m' hm'
      simp only [Phase.holding.injEq] at hm'
      subst hm'
      exact ⟨hst, fun x hx => popMin_le hq x ((popMin_perm hq).mem_iff.2 (List.mem_cons_of_mem _ hx))⟩
  · have e := pending_holding hp
    have f := s.stop_frame
    refine i.shrink f.world (LoopSt.stop_queue s).2 f.fired ⟨[m], ?_⟩ ?_ (by simp)
    · rw [e]
      have : ({ s.stop with phase := .idle, halted := true } : LoopSt Delivered Nat ε).pending = s.queue := by
        rw [← (LoopSt.stop_queue s).1]; rfl
      rw [this]; exact List.Perm.refl _
    · intro hs; have := s.stop_stopRequested; simp at hs; simp [this] at hs
  · have e := pending_holding hp
    refine i.shrink rfl rfl rfl ⟨[], ?_⟩ ?_ (by simp)
    · rw [e]; exact List.Perm.refl _
    · intro hs; rw [e]; exact ⟨List.Perm.refl _, hs⟩
  · exact i.fire hp
  · have e : s.pending = s.queue := pending_nil_of_phase hp (by simp)
    have f := s.stop_frame
    have e' : s.stop.pending = s.queue := by
      rw [pending_nil_of_phase (f.phase.trans hp) (by simp), (LoopSt.stop_queue s).1]
    refine i.shrink f.world (LoopSt.stop_queue s).2 f.fired ⟨[], ?_⟩ ?_ ?_
    · rw [e, e']; exact List.Perm.refl _
    · intro hs; have := s.stop_stopRequested; simp [this] at hs
    · intro m hm; rw [f.phase, hp] at hm; cases hm
  · simp [Label.isInternal] at hl

theorem scheduleAll_succ (k : Nat) : scheduleAll S (k + 1) =
    (pushNext S k (scheduleAll S k).world).foldl LoopSt.act (scheduleAll S k) := by
  simp [scheduleAll, List.range_succ]

theorem scheduleAll_frame (k : Nat) : (scheduleAll S k).world = (fun _ => 0) ∧
    (scheduleAll S k).phase = .idle ∧ (scheduleAll S k).stopRequested = false ∧
    (scheduleAll S k).fired = [] ∧ (scheduleAll S k).errs = [] ∧
    (scheduleAll S k).halted = false ∧ (scheduleAll S k).exception = none := by
  induction k with
  | zero => simp [scheduleAll]
  | succ k ih =>
    rw [scheduleAll_succ]
    have f := (scheduleAll S k).foldl_act_frame (pushNext S k (scheduleAll S k).world)
    refine ⟨f.world.trans ih.1, f.phase.trans ih.2.1, ?_, f.fired.trans ih.2.2.2.1,
      f.errs.trans ih.2.2.2.2.1, f.halted.trans ih.2.2.2.2.2.1, f.exc.trans ih.2.2.2.2.2.2⟩
    simp only [pushNext]
    split
    · exact ih.2.2.1
    · exact ih.2.2.1

theorem SInv_scheduleAll (k : Nat) : SInv S k (scheduleAll S k) := by
  have fr : ∀ k, _ := scheduleAll_frame (S := S)
  have hfo : ∀ k i, firedOf i (scheduleAll S k) = firstEvents S i ((scheduleAll S k).world i) := by
    intro k i; unfold firedOf; rw [(fr k).2.2.2.1, (fr k).1]; rfl
  have hpe : ∀ k, (scheduleAll S k).pending = (scheduleAll S k).queue := fun k =>
    pending_nil_of_phase (fr k).2.1 (by simp)
  induction k with
  | zero =>
    refine ⟨?_, ?_, ?_, ?_, ?_, ?_, hfo 0, ?_⟩ <;>
      simp [scheduleAll, SeqNodup, LoopSt.pending, LoopSt.held]
  | succ k ih =>
    have hrange : ∀ f ∈ (scheduleAll S (k+1)).fired, f.1.data < k + 1 := by
      rw [(fr (k+1)).2.2.2.1]; simp
    have hhold : ∀ m, (scheduleAll S (k+1)).phase = .holding m →
        (scheduleAll S (k+1)).stopRequested = false ∧
        ∀ x ∈ (scheduleAll S (k+1)).queue, ¬ keyLt x m := by
      rw [(fr (k+1)).2.1]; simp
    obtain ⟨i1, i2, i3, i4, i5, -, -, -⟩ := ih
    rw [hpe] at i1 i2 i3 i4 i5
    have hw := (fr k).1
    have hsucc := scheduleAll_succ (S := S) k
    cases hev : S.ev k 0 with
    | none =>
      have : pushNext S k (scheduleAll S k).world = [] := by simp [pushNext, hw, hev]
      rw [this, List.foldl_nil] at hsucc
      refine ⟨?_, ?_, ?_, ?_, ?_, hhold, hfo _, hrange⟩ <;> rw [hpe, hsucc]
      · intro m hm; have := i1 m hm; exact ⟨by omega, this.2⟩
      · intro hst i hi hne
        by_cases hik : i = k
        · subst hik; rw [hw, hev] at hne; exact absurd rfl hne
        · exact i2 hst i (by omega) hne
      · exact i3
      · exact i4
      · exact i5
    | some b =>
      have : pushNext S k (scheduleAll S k).world = [.push b.1 b.2 k] := by
        simp [pushNext, hw, hev]
      rw [this] at hsucc
      simp only [List.foldl_cons, List.foldl_nil, LoopSt.act, LoopSt.pushNew, pushMsg] at hsucc
      refine ⟨?_, ?_, ?_, ?_, ?_, hhold, hfo _, hrange⟩ <;> rw [hpe, hsucc]
      · intro m hm
        rcases List.mem_cons.1 hm with rfl | hm
        · simp [hw, hev]
        · have := i1 m hm; exact ⟨by omega, this.2⟩
      · intro hst i hi hne
        by_cases hik : i = k
        · exact ⟨_, List.mem_cons_self .., hik.symm⟩
        · obtain ⟨m, hm, he⟩ := i2 hst i (by omega) hne
          exact ⟨m, List.mem_cons_of_mem _ hm, he⟩
      · simp only [List.map_cons, List.nodup_cons]
        refine ⟨?_, i3⟩
        intro hc
        obtain ⟨x, hx, hxe⟩ := List.mem_map.1 hc
        have := (i1 x hx).1
        omega
      · simp only [SeqNodup, List.map_cons, List.nodup_cons]
        refine ⟨?_, i4⟩
        intro hc
        obtain ⟨x, hx, hxe⟩ := List.mem_map.1 hc
        have := i5 x hx
        omega
      · intro m hm
        rcases List.mem_cons.1 hm with rfl | hm
        · exact Nat.le_refl _
        · have := i5 m hm; simp only; omega

/-- Induction over executions with a condition on the labels. -/
theorem LoopSt.run_induct' {σ κ} {exec : κ → σ → σ × List (Act κ) × Option ε} {C : Label κ → Prop}
    {P : LoopSt σ κ ε → Prop} {s s' : LoopSt σ κ ε} {ls}
    (h : s.run exec ls = some s') (hC : ∀ l ∈ ls, C l) (h0 : P s)
    (hs : ∀ a l b, P a → C l → a.step exec l = some b → P b) : P s' := by
  induction ls generalizing s with
  | nil => simp [LoopSt.run] at h; exact h ▸ h0
  | cons l ls ih =>
    simp only [LoopSt.run, Option.bind_eq_some_iff] at h
    obtain ⟨b, hb, hr⟩ := h
    exact ih hr (fun x hx => hC x (List.mem_cons_of_mem _ hx))
      (hs _ _ _ h0 (hC l (List.mem_cons_self ..)) hb)

theorem SInv_run {k ls} {s : LoopSt Delivered Nat ε}
    (h : (scheduleAll S k).run (sourceExec S) ls = some s)
    (hl : ∀ l ∈ ls, l.isInternal = true) : SInv S k s :=
  LoopSt.run_induct' h hl (SInv_scheduleAll k) fun _ _ _ i c hs => i.step c hs

end Jq
