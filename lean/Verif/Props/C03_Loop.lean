import Verif.Lemmas.Loop
/-! C03, C04, C06: the event loop never fires early, loses no wake-up, and stops. -/
namespace Jq
variable {σ κ ε : Type} {exec : κ → σ → σ × List (Act κ) × Option ε}

/-- The loop before `run()`: nothing pushed yet. -/
def LoopSt.init (w : σ) : LoopSt σ κ ε := { world := w }

/-- Everything C03, C04, C06 need, as one invariant. -/
private structure LInv (s : LoopSt σ κ ε) : Prop where
  notEarly : ∀ f ∈ s.fired, f.1.time ≤ f.2
  wake : s.phase = .idle → s.stopRequested = false → s.notified = false → s.queue ≠ [] →
    ∃ m ∈ s.queue, s.timer = some m.time ∧ ∀ x ∈ s.queue, m.time ≤ x.time
  hold : ∀ m, s.phase = .holding m → s.stopRequested = false ∧
    (s.notified = false → ∀ x ∈ s.queue, m.time ≤ x.time)
  stopWake : s.stopRequested = true → s.halted = false →
    (s.phase = .idle ∧ s.notified = true) ∨ s.phase = .checking
  exc : s.exception = s.errs.head?
  errs : s.errs.length ≤ 1 ∧ (s.errs ≠ [] → s.stopRequested = true)
  halt : s.halted = true → s.stopRequested = true

private theorem LInv_init (w : σ) : LInv (LoopSt.init w : LoopSt σ κ ε) := by
  constructor <;> simp [LoopSt.init]

private theorem LInv_step {s s' : LoopSt σ κ ε} (l) (i : LInv s) (h : s.step exec l = some s') :
    LInv s' := by
  obtain ⟨i1, i2, i3, i4, i5, ⟨i6, i7⟩, i8⟩ := i
  rcases step_cases h with ⟨-, hp, hn, rfl⟩ | ⟨-, hp, hn, rfl⟩ | ⟨-, hp, hn, rfl⟩ |
    ⟨-, hp, hst, hq, rfl⟩ | ⟨-, hp, hst, m, r, hq, rfl⟩ | ⟨now, exits, m, -, hp, hlt, he, rfl⟩ |
    ⟨now, exits, m, -, hp, hlt, he, rfl⟩ | ⟨now, exits, m, -, hp, hle, rfl⟩ | ⟨-, hp, rfl⟩ |
    ⟨t, p, d, -, rfl⟩
  · constructor <;> simp_all
  · constructor <;> simp_all
  · constructor <;> simp_all
  · constructor <;> simp_all
  · constructor <;> simp_all
    · intro _ x hx
      have hx' := (popMin_perm hq).mem_iff.2 (List.mem_cons_of_mem _ hx)
      have := popMin_le hq x hx'
      unfold keyLt at this; omega
  · have f := s.stop_frame
    have f' := s.stop_stopRequested
    obtain ⟨f1, f2, f3, f4, f5, f6, f7, f8, f9, f10, f11⟩ := f
    constructor <;> simp_all
  · constructor <;> simp_all [pushMsg]
  · have f := LoopSt.handle_frame (exec := exec) { s with phase := .checking } m now
    obtain ⟨f1, f2, f3, f4, f5, f6, f7, f8, f9, f10, f11⟩ := f
    have herr : s.errs = [] := by
      cases he : s.errs with
      | nil => rfl
      | cons a b =>
        have := i7 (by simp [he])
        have := (i3 m hp).1
        simp_all
    constructor
    · rw [f3]; intro f hf
      rcases List.mem_append.1 hf with hf | hf
      · exact i1 f hf
      · simp at hf; subst hf; exact hle
    · rw [f4]; simp
    · rw [f4]; simp
    · rw [f4]; simp
    · rw [f1, f2, herr]
      simp only
      have : s.exception = none := by rw [i5, herr]; rfl
      cases (exec m.data s.world).2.2 <;> simp [this]
    · refine ⟨?_, ?_⟩
      · rw [f2, herr]; cases (exec m.data s.world).2.2 <;> simp
      · intro hne
        apply f10
        rw [f2, herr] at hne
        simpa using hne
    · rw [f6]; intro hh; exact f9 (i8 hh)
  · have f := s.stop_frame
    have f' := s.stop_stopRequested
    obtain ⟨f1, f2, f3, f4, f5, f6, f7, f8, f9, f10, f11⟩ := f
    constructor
    · rw [f3]; exact i1
    · simp [f']
    · rw [f4, hp]; simp
    · intro _ hh
      left
      refine ⟨f4.trans hp, ?_⟩
      rcases f11 f' with hs | hs
      · rw [f6] at hh
        rcases i4 hs hh with hx | hx
        · exact f10 hx.2
        · rw [hp] at hx; cases hx
      · exact hs
    · rw [f1, f2]; exact i5
    · rw [f2]; exact ⟨i6, fun _ => f'⟩
    · intro _; exact f'
  · constructor
    · exact i1
    · simp [LoopSt.pushNew]
    · intro m hm; exact ⟨(i3 m hm).1, by simp [LoopSt.pushNew]⟩
    · intro h1 h2
      rcases i4 h1 h2 with hx | hx
      · exact .inl ⟨hx.1, rfl⟩
      · exact .inr hx
    · exact i5
    · exact ⟨i6, i7⟩
    · exact i8

private theorem LInv_run {w : σ} {ls} {s : LoopSt σ κ ε}
    (h : (LoopSt.init w).run exec ls = some s) : LInv s :=
  LoopSt.run_induct h (LInv_init w) fun _ l _ i hs => LInv_step l i hs

/-! ## C03 -/

/-- A callback runs only at a clock reading at or after the time of its message, in every
execution. -/
theorem c03_never_early (w : σ) (ls : List (Label κ)) (s : LoopSt σ κ ε)
    (h : (LoopSt.init w).run exec ls = some s) :
    ∀ m now, (m, now) ∈ s.fired → m.time ≤ now :=
  fun m now hm => (LInv_run h).notEarly (m, now) hm

/-- While a callback runs, and until the next one, `strategy_dt` is the time of its message. -/
theorem c03_strategy_dt (w : σ) (ls : List (Label κ)) (s : LoopSt σ κ ε)
    (h : (LoopSt.init w).run exec ls = some s) :
    s.strategyTime = s.fired.getLast?.map (fun f => f.1.time) := by
  refine LoopSt.run_induct (P := fun s => s.strategyTime = s.fired.getLast?.map (fun f => f.1.time))
    h (by simp [LoopSt.init]) ?_
  intro a l b i hs
  rcases step_cases hs with ⟨-, hp, hn, rfl⟩ | ⟨-, hp, hn, rfl⟩ | ⟨-, hp, hn, rfl⟩ |
    ⟨-, hp, hst, hq, rfl⟩ | ⟨-, hp, hst, m, r, hq, rfl⟩ | ⟨now, exits, m, -, hp, hlt, he, rfl⟩ |
    ⟨now, exits, m, -, hp, hlt, he, rfl⟩ | ⟨now, exits, m, -, hp, hle, rfl⟩ | ⟨-, hp, rfl⟩ |
    ⟨t, p, d, -, rfl⟩
  · exact i
  · exact i
  · exact i
  · exact i
  · exact i
  · have f := a.stop_frame; simp only [f.stime, f.fired]; exact i
  · exact i
  · have f := LoopSt.handle_frame (exec := exec) { a with phase := .checking } m now
    rw [f.stime, f.fired]; simp
  · have f := a.stop_frame; rw [f.stime, f.fired]; exact i
  · exact i

/-! ## C04 -/

/-- Whenever the loop is idle, not stopping and something is pending, a notification is
outstanding or the timer is armed for the earliest pending time. -/
theorem c04_no_lost_wakeup (w : σ) (ls : List (Label κ)) (s : LoopSt σ κ ε)
    (h : (LoopSt.init w).run exec ls = some s)
    (hidle : s.phase = .idle) (hrun : s.stopRequested = false) (hq : s.queue ≠ []) :
    s.notified = true ∨
    ∃ m ∈ s.queue, s.timer = some m.time ∧ ∀ x ∈ s.queue, m.time ≤ x.time := by
  cases hn : s.notified with
  | true => exact .inl rfl
  | false => exact .inr ((LInv_run h).wake hidle hrun hn hq)

/-- Progress: in such a state the loop can be woken, and if then the clock reads a time at or after
the earliest pending message, exactly that message's callback runs, at that reading. -/
theorem c04_due_message_fires (w : σ) (ls : List (Label κ)) (s : LoopSt σ κ ε)
    (h : (LoopSt.init w).run exec ls = some s)
    (hidle : s.phase = .idle) (hrun : s.stopRequested = false) (hq : s.queue ≠ []) :
    ∃ m ∈ s.queue, (∀ x ∈ s.queue, m.time ≤ x.time) ∧
      ∃ wake, (wake = .wakeNotify ∨ wake = .wakeTimer) ∧
        ∀ now exits, m.time ≤ now →
          ∃ s', s.run exec [wake, .pop, .clock now exits] = some s' ∧
            s'.fired = s.fired ++ [(m, now)] ∧ s'.strategyTime = some m.time := by
  cases hp : popMin s.queue with
  | none => exact absurd (popMin_none.1 hp) hq
  | some p =>
    obtain ⟨m, r⟩ := p
    refine ⟨m, popMin_mem hp, ?_, ?_⟩
    · intro x hx
      have := popMin_le hp x hx
      unfold keyLt at this; omega
    · have key : ∀ s1 : LoopSt σ κ ε, s1.queue = s.queue → s1.phase = .checking →
          s1.stopRequested = false → s1.fired = s.fired → ∀ now exits, m.time ≤ now →
          ∃ s', s1.run exec [.pop, .clock now exits] = some s' ∧
            s'.fired = s.fired ++ [(m, now)] ∧ s'.strategyTime = some m.time := by
        intro s1 e1 e2 e3 e4 now exits hle
        have f := LoopSt.handle_frame (exec := exec)
          { s1 with queue := r, phase := .checking } m now
        have hng : ¬ (m.time > now) := by omega
        refine ⟨({ s1 with queue := r, phase := .checking } : LoopSt σ κ ε).handle exec m now,
          ?_, ?_, f.stime⟩
        · simp [LoopSt.run, LoopSt.step, e1, e2, e3, hp, hng]
        · rw [f.fired, ← e4]
      rcases c04_no_lost_wakeup w ls s h hidle hrun hq with hn | ⟨m', -, ht, -⟩
      · refine ⟨.wakeNotify, .inl rfl, ?_⟩
        intro now exits hle
        obtain ⟨s', h1, h2⟩ := key { s with phase := .checking, notified := false } rfl rfl hrun rfl
          now exits hle
        refine ⟨s', ?_, h2⟩
        rw [LoopSt.run]
        simp [LoopSt.step, hidle, hn]
        exact h1
      · refine ⟨.wakeTimer, .inr rfl, ?_⟩
        intro now exits hle
        obtain ⟨s', h1, h2⟩ := key { s with phase := .checking, timer := none } rfl rfl hrun rfl
          now exits hle
        refine ⟨s', ?_, h2⟩
        rw [LoopSt.run]
        simp [LoopSt.step, hidle, ht]
        exact h1

/-! ## C06 -/

/-- Once stopping, no callback runs in any continuation and the stop is not undone. -/
theorem c06_nothing_after_stop (w : σ) (ls more : List (Label κ)) (s s' : LoopSt σ κ ε)
    (h : (LoopSt.init w).run exec ls = some s) (hstop : s.stopRequested = true)
    (h' : s.run exec more = some s') :
    s'.fired = s.fired ∧ s'.stopRequested = true ∧ s'.exception = s.exception := by
  have := LoopSt.run_induct
    (P := fun t => LInv t ∧ t.fired = s.fired ∧ t.stopRequested = true ∧ t.exception = s.exception)
    h' ⟨LInv_run h, rfl, hstop, rfl⟩ ?_
  · exact this.2
  · rintro a l b ⟨i, e1, e2, e3⟩ hs
    refine ⟨LInv_step l i hs, ?_⟩
    rcases step_cases hs with ⟨-, hp, hn, rfl⟩ | ⟨-, hp, hn, rfl⟩ | ⟨-, hp, hn, rfl⟩ |
      ⟨-, hp, hst, hq, rfl⟩ | ⟨-, hp, hst, m, r, hq, rfl⟩ | ⟨now, exits, m, -, hp, hlt, he, rfl⟩ |
      ⟨now, exits, m, -, hp, hlt, he, rfl⟩ | ⟨now, exits, m, -, hp, hle, rfl⟩ | ⟨-, hp, rfl⟩ |
      ⟨t, p, d, -, rfl⟩
    · exact ⟨e1, e2, e3⟩
    · exact ⟨e1, e2, e3⟩
    · exact ⟨e1, e2, e3⟩
    · simp [e2] at hst
    · simp [e2] at hst
    · have f := a.stop_frame
      exact ⟨f.fired.trans e1, a.stop_stopRequested, f.exc.trans e3⟩
    · exact ⟨e1, e2, e3⟩
    · exact absurd e2 (by simp [(i.hold m hp).1])
    · have f := a.stop_frame
      exact ⟨f.fired.trans e1, a.stop_stopRequested, f.exc.trans e3⟩
    · exact ⟨e1, e2, e3⟩

/-- A signal handled while the loop is idle, a callback that calls `stop()` and a callback that
raises all make the loop stop. -/
theorem c06_signal_stops (s s' : LoopSt σ κ ε) (h : s.step exec .signal = some s') :
    s'.stopRequested = true ∧ s'.fired = s.fired := by
  rcases step_cases h with ⟨h, -⟩ | ⟨h, -⟩ | ⟨h, -⟩ | ⟨h, -⟩ | ⟨h, -⟩ | ⟨_, _, _, h, -⟩ |
    ⟨_, _, _, h, -⟩ | ⟨_, _, _, h, -⟩ | ⟨-, -, rfl⟩ | ⟨_, _, _, h, -⟩ <;> try cases h
  exact ⟨s.stop_stopRequested, s.stop_frame.fired⟩

/-- A callback that raises `e` stops the loop, and `e` is what `run()` raises after any
continuation. -/
theorem c06_callback_error_surfaces (w : σ) (ls more : List (Label κ)) (s s1 s' : LoopSt σ κ ε)
    (m : Msg κ) (now : Int) (exits : List Bool) (e : ε)
    (h : (LoopSt.init w).run exec ls = some s) (hhold : s.phase = .holding m) (hdue : m.time ≤ now)
    (hraise : (exec m.data s.world).2.2 = some e)
    (h1 : s.step exec (.clock now exits) = some s1) (h' : s1.run exec more = some s') :
    s1.stopRequested = true ∧ s'.runRaises = some e ∧ s'.fired = s1.fired := by
  have hr1 : (LoopSt.init w).run exec (ls ++ [.clock now exits]) = some s1 :=
    LoopSt.run_append' h (by simp [LoopSt.run, h1])
  have hs1 : s1.stopRequested = true ∧ s1.exception = some e := by
    rcases step_cases h1 with ⟨h, -⟩ | ⟨h, -⟩ | ⟨h, -⟩ | ⟨h, -⟩ | ⟨h, -⟩ | ⟨_, _, m', h, hp, hlt, -⟩ |
      ⟨_, _, m', h, hp, hlt, -⟩ | ⟨_, _, m', h, hp, hle, rfl⟩ | ⟨h, -⟩ | ⟨_, _, _, h, -⟩ <;> cases h
    · rw [hhold] at hp; cases hp; omega
    · rw [hhold] at hp; cases hp; omega
    · rw [hhold] at hp; cases hp
      have f := LoopSt.handle_frame (exec := exec) { s with phase := .checking } m now
      refine ⟨f.errStop (by simp [hraise]), ?_⟩
      rw [f.exc]; simp [hraise]
  obtain ⟨a, b, c⟩ := c06_nothing_after_stop w _ more s1 s' hr1 hs1.1 h'
  exact ⟨hs1.1, by rw [LoopSt.runRaises, c, hs1.2], a⟩

/-- A callback that calls `stop()` (without raising) stops the loop. -/
theorem c06_callback_stop_stops (s s1 : LoopSt σ κ ε) (m : Msg κ) (now : Int) (exits : List Bool)
    (hhold : s.phase = .holding m) (hdue : m.time ≤ now)
    (hcalls : Act.stop ∈ (exec m.data s.world).2.1)
    (h1 : s.step exec (.clock now exits) = some s1) : s1.stopRequested = true := by
  have aux : ∀ (as : List (Act κ)) (t : LoopSt σ κ ε), Act.stop ∈ as →
      (as.foldl LoopSt.act t).stopRequested = true := by
    intro as
    induction as with
    | nil => intro t h; cases h
    | cons a as ih =>
      intro t h
      rcases List.mem_cons.1 h with rfl | h
      · exact (LoopSt.foldl_act_frame _ as).stop t.stop_stopRequested
      · exact ih _ h
  rcases step_cases h1 with ⟨h, -⟩ | ⟨h, -⟩ | ⟨h, -⟩ | ⟨h, -⟩ | ⟨h, -⟩ | ⟨_, _, m', h, hp, hlt, -⟩ |
    ⟨_, _, m', h, hp, hlt, -⟩ | ⟨_, _, m', h, hp, hle, rfl⟩ | ⟨h, -⟩ | ⟨_, _, _, h, -⟩ <;> cases h
  · rw [hhold] at hp; cases hp; omega
  · rw [hhold] at hp; cases hp; omega
  · rw [hhold] at hp; cases hp
    simp only [LoopSt.handle]
    split
    · exact aux _ _ hcalls
    · exact LoopSt.stop_stopRequested _

/-- `run()` raises only an exception that some callback raised. -/
theorem c06_raises_only_callback_errors (w : σ) (ls : List (Label κ)) (s : LoopSt σ κ ε)
    (h : (LoopSt.init w).run exec ls = some s) :
    s.runRaises = s.errs.head? ∧ s.errs.length ≤ 1 :=
  ⟨(LInv_run h).exc, (LInv_run h).errs.1⟩

/-- The loop ends at its next check: while stopping and not yet ended it can always be woken (or is
being checked), and the next queue check ends it. -/
theorem c06_stop_ends_loop (w : σ) (ls : List (Label κ)) (s : LoopSt σ κ ε)
    (h : (LoopSt.init w).run exec ls = some s) (hstop : s.stopRequested = true)
    (hh : s.halted = false) :
    (∃ s', s.run exec [.pop] = some s' ∧ s'.halted = true) ∨
    (∃ s', s.run exec [.wakeNotify, .pop] = some s' ∧ s'.halted = true) := by
  rcases (LInv_run h).stopWake hstop hh with ⟨hp, hn⟩ | hp
  · right
    simp [LoopSt.run, LoopSt.step, hp, hn, hstop]
  · left
    simp [LoopSt.run, LoopSt.step, hp, hstop]

/-- The loop has ended only if it was stopping (see `c05_normal_end_complete` for what an end without
stop request, failure and exit checker means). -/
theorem c06_halts_only_when_stopping (w : σ) (ls : List (Label κ)) (s : LoopSt σ κ ε)
    (h : (LoopSt.init w).run exec ls = some s) (hh : s.halted = true) :
    s.stopRequested = true :=
  (LInv_run h).halt hh

/-! ## Concrete cases -/

/-- A callback world counting runs; callback 7 raises, callback 3 pushes another message. -/
private def demoExec : Nat → Nat → Nat × List (Act Nat) × Option String :=
  fun d w => if d = 7 then (w, [], some "boom") else if d = 3 then (w + 1, [.push 20 0 7], none)
    else (w + 1, [], none)

private def demoLabels : List (Label Nat) :=
  [.external 10 0 3, .external 5 0 1, .wakeNotify, .pop, .clock 6 [], .pop, .clock 8 [],
   .wakeTimer, .pop, .clock 11 []]

/-- After `demoLabels`: two callbacks ran (at 6 for 5, at 11 for 10), a third is pending. -/
example : ((LoopSt.init 0).run demoExec demoLabels).map (fun s => (s.fired.map (fun f => (f.1.time, f.2)),
    s.queue.length, s.stopRequested)) = some ([(5, 6), (10, 11)], 1, false) := by decide

/-- The hypotheses of `c04_no_lost_wakeup` are met with the timer armed and no notification. -/
example : ((LoopSt.init 0).run demoExec (demoLabels.take 7)).map
    (fun s => (s.stopRequested, s.queue.length, s.notified, s.timer)) =
    some (false, 1, false, some 10) := by decide

/-- The hypotheses of `c06_callback_error_surfaces` are met: the third callback raises. -/
example : ((LoopSt.init 0).run demoExec (demoLabels ++ [.pop, .clock 25 [], .pop])).map
    (fun s => (s.stopRequested, s.halted, s.runRaises, s.fired.length)) =
    some (true, true, some "boom", 3) := by decide

/-- A signal while idle. -/
example : ((LoopSt.init 0).run demoExec (demoLabels.take 7 ++ [.signal, .wakeNotify, .pop])).map
    (fun s => (s.stopRequested, s.halted, s.runRaises, s.fired.length)) =
    some (true, true, none, 1) := by decide

end Jq
