import Verif.Lemmas.Sources
/-! C05: scheduled work runs in order of scheduled time and priority, whatever the clock does. -/
namespace Jq
variable {ε : Type} {S : Sources ε}

/-- `a` fired before `b` rightly. -/
private def firedLe {σ} (s : LoopSt σ Nat ε) : Prop :=
  s.fired.Pairwise (fun a b => FireLe (a.1.time, a.1.priority) (b.1.time, b.1.priority))

private def firedPending {σ} (s : LoopSt σ Nat ε) : Prop :=
  ∀ f ∈ s.fired, ∀ m ∈ s.pending, FireLe (f.1.time, f.1.priority) (m.time, m.priority)

private theorem ord_step (hs : S.Sorted) {k} {s t : LoopSt Delivered Nat ε} {l : Label Nat}
    (i : SInv S k s) (hl : l.isInternal = true) (h : s.step (sourceExec S) l = some t)
    (o1 : firedLe s) (o2 : firedPending s) : firedLe t ∧ firedPending t := by
  have easy : ∀ t : LoopSt Delivered Nat ε, t.fired = s.fired → (∀ m ∈ t.pending, m ∈ s.pending) →
      firedLe t ∧ firedPending t := by
    intro t hf hp
    refine ⟨by unfold firedLe; rw [hf]; exact o1, ?_⟩
    unfold firedPending; rw [hf]; exact fun f hf m hm => o2 f hf m (hp m hm)
  rcases step_cases h with ⟨-, hp, hn, rfl⟩ | ⟨-, hp, hn, rfl⟩ | ⟨-, hp, hn, rfl⟩ |
    ⟨-, hp, hst, hq, rfl⟩ | ⟨-, hp, hst, m, r, hq, rfl⟩ | ⟨now, exits, m, -, hp, hlt, he, rfl⟩ |
    ⟨now, exits, m, -, hp, hlt, he, rfl⟩ | ⟨now, exits, m, -, hp, hle, rfl⟩ | ⟨-, hp, rfl⟩ |
    ⟨t, p, d, rfl, rfl⟩
  · have e : s.pending = s.queue := pending_nil_of_phase hp (by simp)
    exact easy _ rfl (by rw [e]; exact fun m hm => hm)
  · have e : s.pending = s.queue := pending_nil_of_phase hp (by simp)
    exact easy _ rfl (by rw [e]; exact fun m hm => hm)
  · have e : s.pending = s.queue := pending_nil_of_phase hp (by simp)
    exact easy _ rfl (by rw [e]; exact fun m hm => hm)
  · have e : s.pending = s.queue := pending_nil_of_phase hp (by simp)
    exact easy _ rfl (by rw [e]; exact fun m hm => hm)
  · have e : s.pending = s.queue := pending_nil_of_phase hp (by simp)
    exact easy _ rfl (by rw [e]; exact fun x hx => (popMin_perm hq).mem_iff.2 hx)
  · have e := pending_holding hp
    refine easy _ s.stop_frame.fired ?_
    rw [e]
    intro x hx
    have : x ∈ s.stop.queue := hx
    rw [(LoopSt.stop_queue s).1] at this
    exact List.mem_cons_of_mem _ this
  · have e := pending_holding hp
    exact easy _ rfl (by rw [e]; exact fun m hm => hm)
  · have hpend := pending_holding hp
    have hm := i.ev m (by rw [hpend]; exact List.mem_cons_self ..)
    have hhold := (i.hold m hp).2
    obtain ⟨hw, hf, hph, hcases⟩ := handle_source (S := S)
      ({ s with phase := .checking } : LoopSt Delivered Nat ε) m now _ hm.2
    generalize LoopSt.handle (sourceExec S) _ m now = t at *
    simp only at hw hf hph hcases
    have htp : t.pending = t.queue := pending_nil_of_phase hph (by simp)
    have hfm : ∀ f ∈ s.fired, FireLe (f.1.time, f.1.priority) (m.time, m.priority) :=
      fun f hf => o2 f hf m (by rw [hpend]; exact List.mem_cons_self ..)
    have hmq : ∀ x ∈ t.queue, FireLe (m.time, m.priority) (x.time, x.priority) := by
      have hq : ∀ x ∈ s.queue, FireLe (m.time, m.priority) (x.time, x.priority) :=
        fun x hx => fireLe_of_not_keyLt (hhold x hx)
      rcases hcases with ⟨e, -, -, e2, -⟩ | ⟨-, -, -, e2, -⟩ | ⟨-, -, b, hb, e2, -⟩
      · rw [e2]; exact hq
      · rw [e2]; exact hq
      · rw [e2]
        intro x hx
        rcases List.mem_cons.1 hx with rfl | hx
        · exact hs _ _ _ _ hm.2 hb
        · exact hq x hx
    constructor
    · unfold firedLe
      rw [hf, List.pairwise_append]
      refine ⟨o1, by simp, ?_⟩
      intro a ha b hb
      simp at hb; subst hb
      exact hfm a ha
    · intro f hff x hx
      rw [hf] at hff
      rw [htp] at hx
      rcases List.mem_append.1 hff with hff | hff
      · exact (hfm f hff).trans (hmq x hx)
      · simp at hff; subst hff; exact hmq x hx
  · have e : s.pending = s.queue := pending_nil_of_phase hp (by simp)
    refine easy _ s.stop_frame.fired ?_
    rw [e, pending_nil_of_phase (s.stop_frame.phase.trans hp) (by simp), (LoopSt.stop_queue s).1]
    exact fun m hm => hm
  · simp [Label.isInternal] at hl

/-- Events fire in non-decreasing scheduled time and, at one scheduled time, in non-increasing
priority: for all sorted sources, all clock readings and all schedules. -/
theorem c05_fires_in_order (hs : S.Sorted) (k : Nat) (ls : List (Label Nat))
    (s : LoopSt Delivered Nat ε) (h : (scheduleAll S k).run (sourceExec S) ls = some s)
    (hl : ∀ l ∈ ls, l.isInternal = true) :
    s.firedEvents.Pairwise (fun a b => FireLe a.2 b.2) := by
  have := LoopSt.run_induct' (C := fun l => l.isInternal = true)
    (P := fun t => SInv S k t ∧ firedLe t ∧ firedPending t) h hl
    ⟨SInv_scheduleAll k, ?_, ?_⟩ ?_
  · rw [LoopSt.firedEvents, List.pairwise_map]; exact this.2.1
  · unfold firedLe; rw [(scheduleAll_frame k).2.2.2.1]; exact List.Pairwise.nil
  · unfold firedPending; rw [(scheduleAll_frame k).2.2.2.1]; simp
  · rintro a l b ⟨i, o1, o2⟩ hc hst
    exact ⟨i.step hc hst, ord_step hs i hc hst o1 o2⟩

/-- `context.strategy_dt` never goes backwards: the scheduled times of the fired events are
non-decreasing. -/
theorem c05_strategy_dt_monotone (hs : S.Sorted) (k : Nat) (ls : List (Label Nat))
    (s : LoopSt Delivered Nat ε) (h : (scheduleAll S k).run (sourceExec S) ls = some s)
    (hl : ∀ l ∈ ls, l.isInternal = true) :
    (s.fired.map (fun f => f.1.time)).Pairwise (· ≤ ·) := by
  have h1 := c05_fires_in_order hs k ls s h hl
  rw [LoopSt.firedEvents, List.pairwise_map] at h1
  rw [List.pairwise_map]
  refine h1.imp ?_
  intro a b hab
  simp only [FireLe] at hab
  omega

/-- The events of each source fire in its own order, none skipped and none repeated: those fired so
far are exactly its first `n` events for some `n`; and nothing else fires. -/
theorem c05_each_source_in_sequence (k : Nat) (ls : List (Label Nat))
    (s : LoopSt Delivered Nat ε) (h : (scheduleAll S k).run (sourceExec S) ls = some s)
    (hl : ∀ l ∈ ls, l.isInternal = true) :
    (∀ i, ∃ n, (s.firedEvents.filter (fun e => e.1 = i)).map (fun e => some e.2) =
      firstEvents S i n) ∧ ∀ e ∈ s.firedEvents, e.1 < k := by
  have i := SInv_run h hl
  constructor
  · intro j
    refine ⟨s.world j, ?_⟩
    rw [← i.fired j]
    simp [LoopSt.firedEvents, firedOf, List.filter_map, Function.comp_def]
  · intro e he
    obtain ⟨f, hf, rfl⟩ := List.mem_map.1 he
    exact i.range f hf

/-- When an event fires, no source is behind: the next event of every source is not due before it (nor at the same
time with a higher priority).  So whatever is due earlier has fired earlier.  This does not need sorted sources. -/
theorem c05_no_overtaking (k : Nat) (ls : List (Label Nat))
    (s : LoopSt Delivered Nat ε) (h : (scheduleAll S k).run (sourceExec S) ls = some s)
    (hl : ∀ l ∈ ls, l.isInternal = true) (before after : List (Msg Nat × Int)) (f : Msg Nat × Int)
    (hs : s.fired = before ++ f :: after) (i : Nat) (hi : i < k) (a : Int × Int)
    (ha : S.ev i (before.filter (fun g => g.1.data = i)).length = some a) :
    FireLe (f.1.time, f.1.priority) a := by
  have key := LoopSt.run_induct' (C := fun l => l.isInternal = true)
    (P := fun t => SInv S k t ∧ ∀ before after f, t.fired = before ++ f :: after → ∀ i, i < k → ∀ a,
      S.ev i (before.filter (fun g => g.1.data = i)).length = some a → FireLe (f.1.time, f.1.priority) a) h hl
    ⟨SInv_scheduleAll k, ?_⟩ ?_
  · exact key.2 before after f hs i hi a ha
  · intro before after f he
    rw [(scheduleAll_frame k).2.2.2.1] at he
    simp at he
  · rintro s l t ⟨inv, ih⟩ hc hst
    refine ⟨inv.step hc hst, ?_⟩
    have easy : t.fired = s.fired → ∀ before after f, t.fired = before ++ f :: after → ∀ i, i < k → ∀ a,
        S.ev i (before.filter (fun g => g.1.data = i)).length = some a → FireLe (f.1.time, f.1.priority) a := by
      intro e; rw [e]; exact ih
    rcases step_cases hst with ⟨-, hp, hn, rfl⟩ | ⟨-, hp, hn, rfl⟩ | ⟨-, hp, hn, rfl⟩ |
      ⟨-, hp, hst, hq, rfl⟩ | ⟨-, hp, hst, m, r, hq, rfl⟩ | ⟨now, exits, m, -, hp, hlt, he, rfl⟩ |
      ⟨now, exits, m, -, hp, hlt, he, rfl⟩ | ⟨now, exits, m, -, hp, hle, rfl⟩ | ⟨-, hp, rfl⟩ |
      ⟨t, p, d, rfl, rfl⟩
    · exact easy rfl
    · exact easy rfl
    · exact easy rfl
    · exact easy rfl
    · exact easy rfl
    · exact easy s.stop_frame.fired
    · exact easy rfl
    · rw [(LoopSt.handle_frame (exec := sourceExec S) ({ s with phase := .checking } : LoopSt Delivered Nat ε) m now).fired]
      intro before after f he i hi a ha
      rcases List.eq_nil_or_concat after with rfl | ⟨after', x, rfl⟩
      · -- the message that fires now
        obtain ⟨rfl, hf⟩ := List.append_inj' he rfl
        simp only [List.cons.injEq, and_true] at hf
        subst hf
        simp only
        have hcount : (s.fired.filter (fun g => g.1.data = i)).length = s.world i := by
          have := congrArg List.length (inv.fired i)
          simpa [firedOf, firstEvents] using this
        have ha' : S.ev i (s.world i) = some a := by rw [← hcount]; exact ha
        obtain ⟨hstop, hmin⟩ := inv.hold m hp
        obtain ⟨x, hx, hxi⟩ := inv.all hstop i hi (by rw [ha']; simp)
        have hxev := (inv.ev x hx).2
        rw [hxi, ha'] at hxev
        have ea : a = (x.time, x.priority) := Option.some.inj hxev
        rw [pending_holding hp] at hx
        rcases List.mem_cons.1 hx with rfl | hx
        · rw [ea]; exact .inr ⟨rfl, Int.le_refl _⟩
        · rw [ea]; exact fireLe_of_not_keyLt (hmin x hx)
      · -- one that fired before
        have he' : s.fired ++ [(m, now)] = (before ++ f :: after') ++ [x] := by rw [he]; simp
        obtain ⟨h1, _⟩ := List.append_inj' he' rfl
        exact ih before after' f h1 i hi a ha
    · exact easy s.stop_frame.fired
    · simp [Label.isInternal] at hc

/-- A label that neither is a signal nor makes an exit checker answer true. -/
def Label.isQuiet {κ} : Label κ → Bool
  | .signal => false
  | .clock _ exits => !exits.any id
  | .external .. => false
  | _ => true

/-- If the loop has ended without a signal, an exit checker or a failing handler, then every event
of every source has fired. -/
theorem c05_normal_end_complete (k : Nat) (ls : List (Label Nat))
    (s : LoopSt Delivered Nat ε) (h : (scheduleAll S k).run (sourceExec S) ls = some s)
    (hl : ∀ l ∈ ls, l.isQuiet = true) (hfail : ∀ i n, S.fails i n = none)
    (hend : s.halted = true) :
    ∀ i, i < k → ∃ n, (s.firedEvents.filter (fun e => e.1 = i)).map (fun e => some e.2) =
      firstEvents S i n ∧ S.ev i n = none := by
  have := LoopSt.run_induct' (C := fun l => l.isQuiet = true)
    (P := fun t => SInv S k t ∧ (t.stopRequested = true → ∀ i, i < k → S.ev i (t.world i) = none) ∧
      (t.halted = true → t.stopRequested = true)) h hl
    ⟨SInv_scheduleAll k, ?_, ?_⟩ ?_
  · obtain ⟨i, h1, h2⟩ := this
    intro j hj
    refine ⟨s.world j, ?_, h1 (h2 hend) j hj⟩
    rw [← i.fired j]
    simp [LoopSt.firedEvents, firedOf, List.filter_map, Function.comp_def]
  · rw [(scheduleAll_frame k).2.2.1]; simp
  · rw [(scheduleAll_frame k).2.2.2.2.2.1]; simp
  · rintro s l t ⟨i, hstop, hhalt⟩ hc hstp
    have hint : l.isInternal = true := by cases l <;> simp_all [Label.isQuiet, Label.isInternal]
    refine ⟨i.step hint hstp, ?_⟩
    rcases step_cases hstp with ⟨-, hp, hn, rfl⟩ | ⟨-, hp, hn, rfl⟩ | ⟨-, hp, hn, rfl⟩ |
      ⟨-, hp, hst, hq, rfl⟩ | ⟨-, hp, hst, m, r, hq, rfl⟩ | ⟨now, exits, m, rfl, hp, hlt, he, rfl⟩ |
      ⟨now, exits, m, -, hp, hlt, he, rfl⟩ | ⟨now, exits, m, -, hp, hle, rfl⟩ | ⟨rfl, hp, rfl⟩ |
      ⟨t, p, d, rfl, rfl⟩
    · exact ⟨hstop, hhalt⟩
    · exact ⟨hstop, hhalt⟩
    · exact ⟨hstop, fun _ => hn⟩
    · refine ⟨fun _ j hj => ?_, fun _ => rfl⟩
      have e : s.pending = s.queue := pending_nil_of_phase hp (by simp)
      have hq0 := popMin_none.1 hq
      cases hev : S.ev j (s.world j) with
      | none => rfl
      | some a =>
        obtain ⟨m, hm, -⟩ := i.all hst j hj (by simp [hev])
        rw [e, hq0] at hm; cases hm
    · exact ⟨hstop, hhalt⟩
    · exfalso
      simp only [Label.isQuiet, he] at hc
      exact absurd hc (by simp)
    · exact ⟨hstop, hhalt⟩
    · have hpend := pending_holding hp
      have hm := i.ev m (by rw [hpend]; exact List.mem_cons_self ..)
      have hns := (i.hold m hp).1
      have hf := LoopSt.handle_frame (exec := sourceExec S)
        ({ s with phase := .checking } : LoopSt Delivered Nat ε) m now
      obtain ⟨hw, hfd, hph, hcases⟩ := handle_source (S := S)
        ({ s with phase := .checking } : LoopSt Delivered Nat ε) m now _ hm.2
      generalize LoopSt.handle (sourceExec S) _ m now = t at *
      simp only at hw hph hcases
      have hts : t.stopRequested = false := by
        rcases hcases with ⟨e, he, -⟩ | ⟨-, e, -⟩ | ⟨-, e, -⟩
        · rw [hfail] at he; cases he
        · rw [e]; exact hns
        · rw [e]; exact hns
      refine ⟨by rw [hts]; simp, ?_⟩
      rw [hf.halted]
      intro hh
      have := hhalt hh
      simp [hns] at this
    · simp [Label.isQuiet] at hc
    · simp [Label.isQuiet] at hc

/-! ### Independence from the clock -/

/-- A merge that ignores clocks and wake-ups altogether: repeatedly fire the least pending message and
push the next event of its source. -/
private structure MSt where
  queue : List (Msg Nat)
  counter : Nat
  world : Delivered
  fired : List (Msg Nat)

private def mstep (S : Sources ε) (t : MSt) : MSt :=
  match popMin t.queue with
  | none => t
  | some (m, r) =>
    let w' : Delivered := fun j => if j = m.data then t.world m.data + 1 else t.world j
    let fired := t.fired ++ [m]
    match S.fails m.data (t.world m.data) with
    | some _ => ⟨r, t.counter, w', fired⟩
    | none =>
      match S.ev m.data (t.world m.data + 1) with
      | none => ⟨r, t.counter, w', fired⟩
      | some b => ⟨⟨b.1, b.2, t.counter + 1, m.data⟩ :: r, t.counter + 1, w', fired⟩

private def mrun (S : Sources ε) (t : MSt) : Nat → MSt
  | 0 => t
  | n + 1 => mstep S (mrun S t n)

private def mstart (S : Sources ε) (k : Nat) : MSt :=
  ⟨(scheduleAll S k).queue, (scheduleAll S k).counter, fun _ => 0, []⟩

private theorem mrun_prefix (S : Sources ε) (t : MSt) (n d : Nat) :
    (mrun S t n).fired <+: (mrun S t (n + d)).fired := by
  induction d with
  | zero => exact List.prefix_refl _
  | succ d ih =>
    refine ih.trans ?_
    show (mrun S t (n + d)).fired <+: (mstep S (mrun S t (n + d))).fired
    generalize mrun S t (n + d) = u
    unfold mstep
    split
    · exact List.prefix_refl _
    · simp only
      split
      · exact List.prefix_append _ _
      · split <;> exact List.prefix_append _ _

private structure MRel (S : Sources ε) (k : Nat) (s : LoopSt Delivered Nat ε) : Prop where
  fired : s.fired.map (·.1) = (mrun S (mstart S k) s.fired.length).fired
  rest : s.stopRequested = false →
    s.pending.Perm (mrun S (mstart S k) s.fired.length).queue ∧
    s.counter = (mrun S (mstart S k) s.fired.length).counter ∧
    s.world = (mrun S (mstart S k) s.fired.length).world

private theorem MRel.same {k} {s t : LoopSt Delivered Nat ε} (r : MRel S k s)
    (hf : t.fired = s.fired)
    (h : t.stopRequested = false → s.stopRequested = false ∧ t.pending.Perm s.pending ∧
      t.counter = s.counter ∧ t.world = s.world) : MRel S k t := by
  constructor
  · rw [hf]; exact r.fired
  · intro hs
    obtain ⟨h1, h2, h3, h4⟩ := h hs
    obtain ⟨r1, r2, r3⟩ := r.rest h1
    rw [hf]
    exact ⟨h2.trans r1, h3.trans r2, h4.trans r3⟩

private theorem MRel.step {k} {s t : LoopSt Delivered Nat ε} {l : Label Nat}
    (i : SInv S k s) (r : MRel S k s) (hl : l.isInternal = true)
    (h : s.step (sourceExec S) l = some t) : MRel S k t := by
  rcases step_cases h with ⟨-, hp, hn, rfl⟩ | ⟨-, hp, hn, rfl⟩ | ⟨-, hp, hn, rfl⟩ |
    ⟨-, hp, hst, hq, rfl⟩ | ⟨-, hp, hst, m, rq, hq, rfl⟩ | ⟨now, exits, m, -, hp, hlt, he, rfl⟩ |
    ⟨now, exits, m, -, hp, hlt, he, rfl⟩ | ⟨now, exits, m, -, hp, hle, rfl⟩ | ⟨-, hp, rfl⟩ |
    ⟨t, p, d, rfl, rfl⟩
  · have e : s.pending = s.queue := pending_nil_of_phase hp (by simp)
    exact r.same rfl fun hs => ⟨hs, by rw [e]; exact List.Perm.refl _, rfl, rfl⟩
  · have e : s.pending = s.queue := pending_nil_of_phase hp (by simp)
    exact r.same rfl fun hs => ⟨hs, by rw [e]; exact List.Perm.refl _, rfl, rfl⟩
  · have e : s.pending = s.queue := pending_nil_of_phase hp (by simp)
    exact r.same rfl fun hs => ⟨hs, by rw [e]; exact List.Perm.refl _, rfl, rfl⟩
  · exact r.same rfl fun hs => by simp at hs
  · have e : s.pending = s.queue := pending_nil_of_phase hp (by simp)
    refine r.same rfl fun hs => ⟨hs, ?_, rfl, rfl⟩
    rw [e]; exact (popMin_perm hq).symm
  · exact r.same s.stop_frame.fired fun hs => by
      have := s.stop_stopRequested; simp at hs; simp [this] at hs
  · have e := pending_holding hp
    refine r.same rfl fun hs => ⟨hs, ?_, rfl, rfl⟩
    rw [e]; exact List.Perm.refl _
  · have hpend := pending_holding hp
    have hm := i.ev m (by rw [hpend]; exact List.mem_cons_self ..)
    obtain ⟨hns, hhold⟩ := i.hold m hp
    obtain ⟨r1, r2, r3⟩ := r.rest hns
    obtain ⟨hw, hf, hph, hcases⟩ := handle_source (S := S)
      ({ s with phase := .checking } : LoopSt Delivered Nat ε) m now _ hm.2
    generalize LoopSt.handle (sourceExec S) _ m now = t at *
    simp only at hw hf hph hcases
    have htp : t.pending = t.queue := pending_nil_of_phase hph (by simp)
    have hlen : t.fired.length = s.fired.length + 1 := by rw [hf]; simp
    have rf := r.fired
    have hstep : mrun S (mstart S k) t.fired.length =
        mstep S (mrun S (mstart S k) s.fired.length) := by rw [hlen]; rfl
    generalize mrun S (mstart S k) s.fired.length = u at *
    -- the clock-free merge pops the same message
    obtain ⟨q', hpop, hq'⟩ : ∃ q', popMin u.queue = some (m, q') ∧ s.queue.Perm q' := by
      have hmu : m ∈ u.queue := r1.mem_iff.1 (by rw [hpend]; exact List.mem_cons_self ..)
      cases hu : popMin u.queue with
      | none => rw [popMin_none.1 hu] at hmu; cases hmu
      | some p =>
        obtain ⟨m', q'⟩ := p
        have hm's : m' ∈ s.pending := r1.mem_iff.2 (popMin_mem hu)
        have e : m = m' := by
          by_cases e : m = m'
          · exact e
          · have h1 := popMin_lt (i.seq.perm r1) hu m hmu e
            rw [hpend] at hm's
            rcases List.mem_cons.1 hm's with h2 | h2
            · exact h2.symm
            · exact absurd h1 (hhold m' h2)
        subst e
        refine ⟨q', rfl, ?_⟩
        rw [hpend] at r1
        exact (r1.trans (popMin_perm hu)).cons_inv
    have hwu : u.world = s.world := r3.symm
    constructor
    · rw [hstep, hf, List.map_append, rf]
      simp only [mstep, hpop, hwu]
      split
      · rfl
      · split <;> rfl
    · intro hts
      rw [hstep, htp]
      simp only [mstep, hpop, hwu]
      rcases hcases with ⟨e, h1, h2, h3, h4⟩ | ⟨h1, h2, h3, h4, h5⟩ | ⟨h1, h2, b, h3, h4, h5⟩
      · simp [h2] at hts
      · rw [h1]; simp only [h3]
        exact ⟨by rw [h4]; exact hq', h5.trans r2, hw⟩
      · rw [h1]; simp only [h3]
        refine ⟨?_, ?_, hw⟩
        · rw [h4, r2]; exact hq'.cons _
        · rw [h5, r2]
  · have e : s.pending = s.queue := pending_nil_of_phase hp (by simp)
    exact r.same s.stop_frame.fired fun hs => by
      have := s.stop_stopRequested; simp [this] at hs
  · simp [Label.isInternal] at hl

private theorem MRel_run {k ls} {s : LoopSt Delivered Nat ε}
    (h : (scheduleAll S k).run (sourceExec S) ls = some s)
    (hl : ∀ l ∈ ls, l.isInternal = true) : MRel S k s := by
  refine (LoopSt.run_induct' (C := fun l => l.isInternal = true)
    (P := fun t => SInv S k t ∧ MRel S k t) h hl ⟨SInv_scheduleAll k, ?_⟩
    fun _ _ _ i c hs => ⟨i.1.step c hs, MRel.step i.1 i.2 c hs⟩).2
  have fr := scheduleAll_frame (S := S) k
  constructor
  · rw [fr.2.2.2.1]; rfl
  · intro _
    rw [fr.2.2.2.1, pending_nil_of_phase fr.2.1 (by simp)]
    exact ⟨List.Perm.refl _, rfl, fr.1⟩

/-- What fires, and in which order, does not depend on the clock, the wake-ups or the moment the
loop is stopped: of two executions over the same sources, the firing sequence of one is a prefix of
the other's. -/
theorem c05_clock_independent (k : Nat) (ls₁ ls₂ : List (Label Nat))
    (s₁ s₂ : LoopSt Delivered Nat ε)
    (h₁ : (scheduleAll S k).run (sourceExec S) ls₁ = some s₁)
    (h₂ : (scheduleAll S k).run (sourceExec S) ls₂ = some s₂)
    (hl₁ : ∀ l ∈ ls₁, l.isInternal = true) (hl₂ : ∀ l ∈ ls₂, l.isInternal = true) :
    s₁.firedEvents <+: s₂.firedEvents ∨ s₂.firedEvents <+: s₁.firedEvents := by
  have e : ∀ s : LoopSt Delivered Nat ε, s.firedEvents =
      (s.fired.map (·.1)).map (fun m => (m.data, (m.time, m.priority))) := by
    intro s; simp [LoopSt.firedEvents, Function.comp_def]
  rw [e s₁, e s₂, (MRel_run h₁ hl₁).fired, (MRel_run h₂ hl₂).fired]
  rcases Nat.le_total s₁.fired.length s₂.fired.length with hle | hle
  · left
    obtain ⟨d, hd⟩ := Nat.exists_eq_add_of_le hle
    rw [hd]; exact (mrun_prefix S _ _ d).map _
  · right
    obtain ⟨d, hd⟩ := Nat.exists_eq_add_of_le hle
    rw [hd]; exact (mrun_prefix S _ _ d).map _

/-! ### A concrete case: an account synchronisation every 10 s, a daily task at 20 s and 40 s. -/

private def demoSrc : Sources String where
  ev := fun i n => if i = 0 then (if n < 2 then some (20 * (n + 1), 0) else none)
    else if i = 1 then some (10 * (n + 1), 2) else none
  fails := fun _ _ => none

private theorem demoSrc_sorted : demoSrc.Sorted := by
  intro i n a b ha hb
  simp only [demoSrc] at ha hb
  unfold FireLe
  by_cases h0 : i = 0
  · simp only [h0, if_true] at ha hb
    split at ha <;> split at hb <;> simp at ha hb
    subst ha; subst hb; simp; omega
  · by_cases h1 : i = 1
    · simp [h1] at ha hb
      subst ha; subst hb; simp; omega
    · simp [h0, h1] at ha

private def demoRun : List (Label Nat) :=
  [.wakeNotify, .pop, .clock 9 [], .wakeTimer, .pop, .clock 35 [], .pop, .clock 35 [], .pop,
   .clock 20 [], .pop, .clock 3 []]

/-- The synchronisation at 20 fires before the daily task at 20, although both are late. -/
example : ((scheduleAll demoSrc 2).run (sourceExec demoSrc) demoRun).map LoopSt.firedEvents =
    some [(1, (10, 2)), (1, (20, 2)), (0, (20, 0))] ∧
    (∀ l ∈ demoRun, l.isInternal = true) := by decide

example : demoSrc.Sorted := demoSrc_sorted

/-- `c05_no_overtaking` at the last of these firings: the next synchronisation is due at 30. -/
example : demoSrc.ev 1 ([(1, (10, 2)), (1, (20, 2))].filter (fun (e : Nat × Int × Int) => e.1 = 1)).length = some (30, 2) ∧
    FireLe (20, 0) (30, 2) := ⟨by decide, .inl (by decide)⟩

/-- `c05_normal_end_complete` applies: one source with two events, run to the end. -/
example : ((scheduleAll demoSrc 1).run (sourceExec demoSrc)
      [.wakeNotify, .pop, .clock 50 [], .pop, .clock 50 [], .pop]).map
    (fun s => (s.halted, s.firedEvents)) = some (true, [(0, (20, 0)), (0, (40, 0))]) := by decide

end Jq
