import Verif.Model.Loop
import Verif.Lemmas.Queue

namespace Jq
variable {σ κ ε : Type} {exec : κ → σ → σ × List (Act κ) × Option ε}

/-- Induction over executions. -/
theorem LoopSt.run_induct {P : LoopSt σ κ ε → Prop} {s s' : LoopSt σ κ ε} {ls}
    (h : s.run exec ls = some s') (h0 : P s)
    (hs : ∀ a l b, P a → a.step exec l = some b → P b) : P s' := by
  induction ls generalizing s with
  | nil => simp [LoopSt.run] at h; exact h ▸ h0
  | cons l ls ih =>
    simp only [LoopSt.run, Option.bind_eq_some_iff] at h
    obtain ⟨b, hb, hr⟩ := h
    exact ih hr (hs _ _ _ h0 hb)

theorem LoopSt.run_append {s s' : LoopSt σ κ ε} {l1 l2}
    (h : s.run exec (l1 ++ l2) = some s') :
    ∃ m, s.run exec l1 = some m ∧ m.run exec l2 = some s' := by
  induction l1 generalizing s with
  | nil => exact ⟨s, rfl, h⟩
  | cons l ls ih =>
    simp only [List.cons_append, LoopSt.run, Option.bind_eq_some_iff] at h
    obtain ⟨b, hb, hr⟩ := h
    obtain ⟨m, h1, h2⟩ := ih hr
    exact ⟨m, by simp [LoopSt.run, hb, h1], h2⟩

theorem LoopSt.run_append' {s m s' : LoopSt σ κ ε} {l1 l2}
    (h1 : s.run exec l1 = some m) (h2 : m.run exec l2 = some s') :
    s.run exec (l1 ++ l2) = some s' := by
  induction l1 generalizing s with
  | nil => simp [LoopSt.run] at h1; subst h1; exact h2
  | cons l ls ih =>
    simp only [LoopSt.run, Option.bind_eq_some_iff] at h1
    obtain ⟨b, hb, hr⟩ := h1
    simp only [List.cons_append, LoopSt.run, Option.bind_eq_some_iff]
    exact ⟨b, hb, ih hr⟩

/-- What the actions of a callback leave alone, and what they can do. -/
structure ActFrame (s t : LoopSt σ κ ε) : Prop where
  exc : t.exception = s.exception
  errs : t.errs = s.errs
  fired : t.fired = s.fired
  phase : t.phase = s.phase
  timer : t.timer = s.timer
  halted : t.halted = s.halted
  world : t.world = s.world
  stime : t.strategyTime = s.strategyTime
  stop : s.stopRequested = true → t.stopRequested = true
  notif : s.notified = true → t.notified = true
  stopNot : t.stopRequested = true → s.stopRequested = true ∨ t.notified = true

theorem LoopSt.stop_frame (s : LoopSt σ κ ε) : ActFrame s s.stop := by
  unfold LoopSt.stop
  split <;> constructor <;> simp_all

theorem LoopSt.stop_stopRequested (s : LoopSt σ κ ε) : s.stop.stopRequested = true := by
  unfold LoopSt.stop; split <;> simp_all

theorem LoopSt.stop_queue (s : LoopSt σ κ ε) : s.stop.queue = s.queue ∧ s.stop.counter = s.counter := by
  unfold LoopSt.stop; split <;> simp

theorem LoopSt.act_frame (s : LoopSt σ κ ε) (a : Act κ) : ActFrame s (s.act a) := by
  cases a with
  | push t p d => simp only [LoopSt.act, LoopSt.pushNew]; constructor <;> simp
  | stop => exact s.stop_frame

theorem ActFrame.trans {a b c : LoopSt σ κ ε} (h : ActFrame a b) (h' : ActFrame b c) :
    ActFrame a c where
  exc := h'.exc.trans h.exc
  errs := h'.errs.trans h.errs
  fired := h'.fired.trans h.fired
  phase := h'.phase.trans h.phase
  timer := h'.timer.trans h.timer
  halted := h'.halted.trans h.halted
  world := h'.world.trans h.world
  stime := h'.stime.trans h.stime
  stop := fun x => h'.stop (h.stop x)
  notif := fun x => h'.notif (h.notif x)
  stopNot := fun x => by
    rcases h'.stopNot x with h1 | h1
    · rcases h.stopNot h1 with h2 | h2
      · exact .inl h2
      · exact .inr (h'.notif h2)
    · exact .inr h1

theorem LoopSt.foldl_act_frame (s : LoopSt σ κ ε) (as : List (Act κ)) :
    ActFrame s (as.foldl LoopSt.act s) := by
  induction as generalizing s with
  | nil => simp only [List.foldl_nil]; constructor <;> simp +contextual
  | cons a as ih => exact (s.act_frame a).trans (ih _)

/-- Effects of `handle_message`. -/
structure HandleFrame (exec : κ → σ → σ × List (Act κ) × Option ε) (s t : LoopSt σ κ ε)
    (m : Msg κ) (now : Int) : Prop where
  exc : t.exception = match (exec m.data s.world).2.2 with | none => s.exception | some e => some e
  errs : t.errs = s.errs ++ (exec m.data s.world).2.2.toList
  fired : t.fired = s.fired ++ [(m, now)]
  phase : t.phase = s.phase
  timer : t.timer = s.timer
  halted : t.halted = s.halted
  world : t.world = (exec m.data s.world).1
  stime : t.strategyTime = some m.time
  stop : s.stopRequested = true → t.stopRequested = true
  errStop : (exec m.data s.world).2.2 ≠ none → t.stopRequested = true
  stopNot : t.stopRequested = true → s.stopRequested = true ∨ t.notified = true

theorem LoopSt.handle_frame (s : LoopSt σ κ ε) (m : Msg κ) (now : Int) :
    HandleFrame exec s (s.handle exec m now) m now := by
  unfold LoopSt.handle
  simp only
  have f := LoopSt.foldl_act_frame { s with strategyTime := some m.time, fired := s.fired ++ [(m, now)], world := (exec m.data s.world).1 } (exec m.data s.world).2.1
  generalize List.foldl LoopSt.act _ _ = s2 at f ⊢
  obtain ⟨f1, f2, f3, f4, f5, f6, f7, f8, f9, f10, f11⟩ := f
  simp only at f1 f2 f3 f4 f5 f6 f7 f8 f9 f10 f11
  cases he : (exec m.data s.world).2.2 with
  | none => constructor <;> simp_all
  | some e =>
    have g := LoopSt.stop_frame { s2 with exception := some e, errs := s2.errs ++ [e] }
    have g' := LoopSt.stop_stopRequested { s2 with exception := some e, errs := s2.errs ++ [e] }
    simp only
    generalize LoopSt.stop _ = s3 at g g' ⊢
    obtain ⟨g1, g2, g3, g4, g5, g6, g7, g8, g9, g10, g11⟩ := g
    simp only at g1 g2 g3 g4 g5 g6 g7 g8 g9 g10 g11
    constructor <;> simp_all
    rcases g11 with h | h
    · rcases f11 h with h | h
      · exact .inl h
      · exact .inr (g10 h)
    · exact .inr h

/-- All transitions, with their guards and results. -/
theorem step_cases {s s' : LoopSt σ κ ε} {l : Label κ} (h : s.step exec l = some s') :
    (l = .wakeNotify ∧ s.phase = .idle ∧ s.notified = true ∧
      s' = { s with phase := .checking, notified := false }) ∨
    (l = .wakeTimer ∧ s.phase = .idle ∧ (∃ t, s.timer = some t) ∧
      s' = { s with phase := .checking, timer := none }) ∨
    (l = .pop ∧ s.phase = .checking ∧ s.stopRequested = true ∧
      s' = { s with phase := .idle, halted := true }) ∨
    (l = .pop ∧ s.phase = .checking ∧ s.stopRequested = false ∧ popMin s.queue = none ∧
      s' = { s with stopRequested := true, phase := .idle, halted := true }) ∨
    (l = .pop ∧ s.phase = .checking ∧ s.stopRequested = false ∧ ∃ m r, popMin s.queue = some (m, r) ∧
      s' = { s with queue := r, phase := .holding m }) ∨
    (∃ now exits m, l = .clock now exits ∧ s.phase = .holding m ∧ m.time > now ∧
      exits.any id = true ∧ s' = { s.stop with phase := .idle, halted := true }) ∨
    (∃ now exits m, l = .clock now exits ∧ s.phase = .holding m ∧ m.time > now ∧
      exits.any id = false ∧
      s' = { s with timer := some m.time, queue := pushMsg s.queue m, phase := .idle }) ∨
    (∃ now exits m, l = .clock now exits ∧ s.phase = .holding m ∧ m.time ≤ now ∧
      s' = ({ s with phase := .checking } : LoopSt σ κ ε).handle exec m now) ∨
    (l = .signal ∧ s.phase = .idle ∧ s' = s.stop) ∨
    (∃ t p d, l = .external t p d ∧ s' = s.pushNew t p d) := by
  cases l with
  | wakeNotify =>
    simp only [LoopSt.step] at h
    split at h
    · simp at h; left; exact ⟨rfl, by assumption, by assumption, h.symm⟩
    · simp at h
  | wakeTimer =>
    simp only [LoopSt.step] at h
    split at h
    · simp at h; right; left; exact ⟨rfl, by assumption, ⟨_, by assumption⟩, h.symm⟩
    · simp at h
  | pop =>
    simp only [LoopSt.step] at h
    split at h
    · rename_i hp
      split at h
      · simp at h; right; right; left; exact ⟨rfl, hp, by assumption, h.symm⟩
      · rename_i hstop
        split at h
        · rename_i hq
          simp at h; right; right; right; left
          exact ⟨rfl, hp, by simpa using hstop, hq, h.symm⟩
        · rename_i m r hq
          simp at h; right; right; right; right; left
          exact ⟨rfl, hp, by simpa using hstop, m, r, hq, h.symm⟩
    · simp at h
  | clock now exits =>
    simp only [LoopSt.step] at h
    split at h
    · rename_i m hp
      split at h
      · rename_i hlt
        split at h
        · rename_i he
          simp only [Option.some.injEq] at h
          right; right; right; right; right; left
          exact ⟨now, exits, m, rfl, hp, hlt, he, h.symm⟩
        · rename_i he
          simp only [Option.some.injEq] at h
          right; right; right; right; right; right; left
          exact ⟨now, exits, m, rfl, hp, hlt, by simpa using he, h.symm⟩
      · rename_i hlt
        simp only [Option.some.injEq] at h
        right; right; right; right; right; right; right; left
        exact ⟨now, exits, m, rfl, hp, by omega, h.symm⟩
    · simp at h
  | signal =>
    simp only [LoopSt.step] at h
    split at h
    · simp at h; right; right; right; right; right; right; right; right; left
      exact ⟨rfl, by assumption, h.symm⟩
    · simp at h
  | external t p d =>
    simp only [LoopSt.step, Option.some.injEq] at h
    right; right; right; right; right; right; right; right; right
    exact ⟨t, p, d, rfl, h.symm⟩

end Jq
