import Verif.Lemmas.Run
import Verif.Props.C63_Run
set_option linter.unusedSectionVars false
/-! # C72: a failure in a whole run -/
namespace Jq
variable {α : Type}

/-- The state after some calls. -/
private abbrev stAfter (R : RunEnv α) (a : α) (cs : List Cb) : α := cs.foldl (fun a cb => (R.act cb a).1) a

/-- What is known of the calls `cs` made from the state `a`, `err` being how they ended. -/
private structure Calls (R : RunEnv α) (a : α) (cs : List Cb) (err : Option PyErr) (other : PyErr → Prop) : Prop where
  last : ∀ pre cb post, cs = pre ++ cb :: post → ∀ e, (R.act cb (stAfter R a pre)).2 = some e → post = [] ∧ err = some e
  cause : ∀ e, err = some e → (∃ pre cb, cs = pre ++ [cb] ∧ (R.act cb (stAfter R a pre)).2 = some e) ∨ other e
  real : ∀ cb ∈ cs, ∀ k, cb ≠ .user k none

private theorem calls_nil (R : RunEnv α) (a : α) (err : Option PyErr) (other : PyErr → Prop) (h : ∀ e, err = some e → other e) :
    Calls R a [] err other :=
  ⟨fun pre cb post h => by simp at h, fun e he => .inr (h e he), fun cb h => (by cases h)⟩

private theorem runEmit_calls (R : RunEnv α) (cbs : List Cb) (w : RunW α) :
    ∃ cs, cs <+: cbs ∧ (runEmit R cbs w).1 = { w with calls := w.calls ++ cs, st := stAfter R w.st cs } ∧
      ((runEmit R cbs w).2 = none → cs = cbs) ∧
      Calls R w.st cs (runEmit R cbs w).2 (fun e => e = .typeError ∧ ∃ k, Cb.user k none ∈ cbs) := by
  induction cbs generalizing w with
  | nil => exact ⟨[], List.prefix_refl _, by simp [runEmit, stAfter], fun _ => rfl, calls_nil _ _ _ _ fun e h => (by cases h)⟩
  | cons cb cbs ih =>
    by_cases hm : ∃ k, cb = .user k none
    · obtain ⟨k, rfl⟩ := hm
      refine ⟨[], List.nil_prefix, by simp [runEmit, stAfter], fun h => (by simp [runEmit] at h), calls_nil _ _ _ _ fun e h => ?_⟩
      simp only [runEmit, Option.some.injEq] at h
      exact ⟨h.symm, k, by simp⟩
    · have hstep : runEmit R (cb :: cbs) w =
          match R.act cb w.st with
          | (a, some e) => ({ w with st := a, calls := w.calls ++ [cb] }, some e)
          | (a, none) => runEmit R cbs { w with st := a, calls := w.calls ++ [cb] } := by
        cases cb with
        | account k => rfl
        | user i h => cases h with
          | none => exact absurd ⟨i, rfl⟩ hm
          | some f => rfl
      rw [hstep]
      have hreal : ∀ k, cb ≠ .user k none := fun k h => hm ⟨k, h⟩
      cases hr : R.act cb w.st with
      | mk a r =>
        cases r with
        | some e =>
          refine ⟨[cb], ⟨cbs, rfl⟩, by simp [stAfter, hr], fun h => (by cases h), ⟨?_, ?_, ?_⟩⟩
          · intro pre c post h e' he'
            have h' := h.symm
            rw [List.append_eq_singleton_iff] at h'
            rcases h' with ⟨rfl, h'⟩ | ⟨-, h'⟩
            · simp only [List.cons.injEq] at h'
              obtain ⟨rfl, rfl⟩ := h'
              simp only [stAfter, List.foldl_nil, hr] at he'
              exact ⟨rfl, he'⟩
            · cases h'
          · intro e' he'
            exact .inl ⟨[], cb, rfl, by simp only [stAfter, List.foldl_nil, hr]; exact he'⟩
          · intro c hc; rw [List.mem_singleton] at hc; subst hc; exact hreal
        | none =>
          obtain ⟨cs, h1, h2, h3, h4⟩ := ih { w with st := a, calls := w.calls ++ [cb] }
          have hst : ∀ pre, stAfter R w.st (cb :: pre) = stAfter R a pre := fun pre => by simp [stAfter, hr]
          refine ⟨cb :: cs, (List.cons_prefix_cons).2 ⟨rfl, h1⟩, ?_, fun h => (by rw [h3 h]), ⟨?_, ?_, ?_⟩⟩
          · simp only; rw [h2, hst]; simp
          · intro pre c post h e he
            cases pre with
            | nil =>
              simp only [List.nil_append, List.cons.injEq] at h
              obtain ⟨rfl, rfl⟩ := h
              simp only [stAfter, List.foldl_nil, hr] at he
              cases he
            | cons p pre =>
              simp only [List.cons_append, List.cons.injEq] at h
              obtain ⟨rfl, h⟩ := h
              rw [hst] at he
              exact h4.last pre c post h e he
          · intro e he
            rcases h4.cause e he with ⟨pre, c, h, h'⟩ | ⟨h, k, hk⟩
            · exact .inl ⟨cb :: pre, c, by rw [h]; rfl, by rw [hst]; exact h'⟩
            · exact .inr ⟨h, k, List.mem_cons_of_mem _ hk⟩
          · intro c hc
            rcases List.mem_cons.1 hc with rfl | hc
            · exact hreal
            · exact h4.real c hc

/-- Other reasons for an exception: a scheduled function that does not exist, or an event source. -/
def OtherFailure (R : RunEnv α) (e : PyErr) : Prop :=
  (e = .typeError ∧ ∃ cls k, Cb.user k none ∈ R.bus.emit sameClass cls) ∨
  ∃ (src src' : ESrc Str) (dates : Nat → Int),
    src.getNext R.cfg dates R.fuel = some (src', .error e) ∨ src.peek R.cfg dates R.fuel = some (src', .error e)

private theorem runPush_calls (R : RunEnv α) (i : Nat) (w : RunW α) :
    (runPush R i w).1.calls = w.calls ∧ (runPush R i w).1.st = w.st ∧ (∀ x ∈ (runPush R i w).2.1, ∃ t p d, x = .push t p d) ∧
    ∀ e, (runPush R i w).2.2 = some e → OtherFailure R e := by
  simp only [runPush]
  split
  · exact ⟨rfl, rfl, by simp, by simp⟩
  · rename_i s e h
    exact ⟨rfl, rfl, by simp, fun e' he => by simp only [Option.some.injEq] at he; subst he; exact .inr ⟨_, _, _, .inr h⟩⟩
  · exact ⟨rfl, rfl, by simp, by simp⟩
  · exact ⟨rfl, rfl, by simp, by simp⟩

private theorem runExec_calls (R : RunEnv α) (i : Nat) (w : RunW α) :
    ∃ cs, (runExec R i w).1.calls = w.calls ++ cs ∧ (runExec R i w).1.st = stAfter R w.st cs ∧
      (∀ x ∈ (runExec R i w).2.1, ∃ t p d, x = .push t p d) ∧ Calls R w.st cs (runExec R i w).2.2 (OtherFailure R) := by
  simp only [runExec]
  split
  · exact ⟨[], by simp, rfl, by simp, calls_nil _ _ _ _ (by simp)⟩
  · rename_i s e h
    refine ⟨[], by simp [RunW.polled], rfl, by simp, calls_nil _ _ _ _ fun e' he => ?_⟩
    simp only [Option.some.injEq] at he
    subst he
    exact .inr ⟨_, _, _, .inl h⟩
  · exact ⟨[], by simp [RunW.polled], rfl, by simp, calls_nil _ _ _ _ (by simp)⟩
  · rename_i s dt cls h
    obtain ⟨cs, h1, h2, h3, h4⟩ := runEmit_calls R (R.bus.emit sameClass cls) (w.polled i s)
    cases hr : runEmit R (R.bus.emit sameClass cls) (w.polled i s) with
    | mk w' err =>
      rw [hr] at h2 h3 h4
      simp only at h2 h4
      have hst : (w.polled i s).st = w.st := rfl
      have hca : (w.polled i s).calls = w.calls := rfl
      rw [hst] at h4
      cases err with
      | some e =>
        refine ⟨cs, by simp [h2, hca], by simp [h2, hst], by simp, ⟨h4.last, fun e' he => ?_, h4.real⟩⟩
        rcases h4.cause e' he with h | ⟨h, k, hk⟩
        · exact .inl h
        · exact .inr (.inl ⟨h, cls, k, hk⟩)
      | none =>
        obtain ⟨p1, p2, p3, p4⟩ := runPush_calls R i w'
        refine ⟨cs, by rw [p1, h2, hca], by rw [p2, h2, hst], p3, ⟨fun pre cb post h e he => ?_, fun e he => .inr (p4 e he), h4.real⟩⟩
        have := (h4.last pre cb post h e he).2
        cases this

private theorem acts_frame {σ κ ε : Type} (as : List (Act κ)) (ha : ∀ x ∈ as, ∃ t p d, x = .push t p d) (s : LoopSt σ κ ε) :
    (as.foldl LoopSt.act s).world = s.world ∧ (as.foldl LoopSt.act s).exception = s.exception ∧
    (as.foldl LoopSt.act s).stopRequested = s.stopRequested ∧ (as.foldl LoopSt.act s).phase = s.phase ∧ (as.foldl LoopSt.act s).fired = s.fired := by
  induction as generalizing s with
  | nil => exact ⟨rfl, rfl, rfl, rfl, rfl⟩
  | cons a as ih =>
    obtain ⟨t, p, d, rfl⟩ := ha a (List.mem_cons_self ..)
    exact ih (fun x hx => ha x (List.mem_cons_of_mem _ hx)) _

/-- The invariant of a run that started in the state `a0`. -/
private structure FInv72 (R : RunEnv α) (a0 : α) (s : LoopSt (RunW α) Nat PyErr) : Prop where
  st : s.world.st = stAfter R a0 s.world.calls
  calls : Calls R a0 s.world.calls s.exception (OtherFailure R)
  held : ∀ m, s.phase = .holding m → s.stopRequested = false
  exc : s.stopRequested = false → s.exception = none

private theorem finv72_step {R : RunEnv α} {a0 : α} {s s' : LoopSt (RunW α) Nat PyErr} {l : Label Nat} (h : FInv72 R a0 s)
    (hs : s.step (runExec R) l = some s') : FInv72 R a0 s' ∧ (s.stopRequested = true → s'.stopRequested = true ∧ s'.world = s.world ∧ s'.exception = s.exception) := by
  have hstop : ∀ t : LoopSt (RunW α) Nat PyErr, t.stop.stopRequested = true ∧ t.stop.world = t.world ∧ t.stop.exception = t.exception ∧ t.stop.phase = t.phase := by
    intro t
    simp only [LoopSt.stop]
    split
    · rename_i h; exact ⟨h, rfl, rfl, rfl⟩
    · exact ⟨rfl, rfl, rfl, rfl⟩
  rcases step_cases hs with ⟨-, hp, hn, rfl⟩ | ⟨-, hp, hn, rfl⟩ | ⟨-, hp, hn, rfl⟩ |
    ⟨-, hp, hst, hq, rfl⟩ | ⟨-, hp, hst, m, r, hq, rfl⟩ | ⟨now, exits, m, -, hp, hlt, he, rfl⟩ |
    ⟨now, exits, m, -, hp, hlt, he, rfl⟩ | ⟨now, exits, m, -, hp, hle, rfl⟩ | ⟨-, hp, rfl⟩ |
    ⟨t, p, d, -, rfl⟩
  · exact ⟨⟨h.st, h.calls, fun m hm => (by cases hm), h.exc⟩, fun hh => ⟨hh, rfl, rfl⟩⟩
  · exact ⟨⟨h.st, h.calls, fun m hm => (by cases hm), h.exc⟩, fun hh => ⟨hh, rfl, rfl⟩⟩
  · exact ⟨⟨h.st, h.calls, fun m hm => (by cases hm), h.exc⟩, fun hh => ⟨hh, rfl, rfl⟩⟩
  · exact ⟨⟨h.st, h.calls, fun m hm => (by cases hm), fun hc => (by cases hc)⟩, fun hh => ⟨rfl, rfl, rfl⟩⟩
  · exact ⟨⟨h.st, h.calls, fun m hm => hst, h.exc⟩, fun hh => ⟨hh, rfl, rfl⟩⟩
  · obtain ⟨g1, g2, g3, g4⟩ := hstop s
    refine ⟨⟨?_, ?_, fun m hm => (by cases hm), fun hc => (by simp only at hc; rw [g1] at hc; cases hc)⟩, fun hh => ⟨g1, g2, g3⟩⟩
    · simp only [g2]; exact h.st
    · simp only [g2, g3]; exact h.calls
  · exact ⟨⟨h.st, h.calls, fun m hm => (by cases hm), h.exc⟩, fun hh => ⟨hh, rfl, rfl⟩⟩
  · have hns := h.held m hp
    have hne := h.exc hns
    have hcalls := h.calls
    rw [hne] at hcalls
    refine ⟨?_, fun hh => (by rw [hns] at hh; cases hh)⟩
    simp only [LoopSt.handle]
    obtain ⟨cs, e1, e2, e3, e4⟩ := runExec_calls R m.data s.world
    obtain ⟨f1, f2, f3, f4, -⟩ := acts_frame _ e3 ({ ({ s with phase := .checking } : LoopSt (RunW α) Nat PyErr) with
      strategyTime := some m.time, fired := s.fired ++ [(m, now)], world := (runExec R m.data s.world).1 })
    simp only at f1 f2 f3 f4
    have key : stAfter R a0 (s.world.calls ++ cs) = stAfter R s.world.st cs := by
      simp only [stAfter, List.foldl_append]
      rw [h.st]
    have hC : Calls R a0 (s.world.calls ++ cs) (runExec R m.data s.world).2.2 (OtherFailure R) := by
      refine ⟨fun pre cb post hx e he => ?_, fun e he => ?_, fun cb hcb => ?_⟩
      · rcases List.append_eq_append_iff.1 hx with ⟨as, rfl, h'⟩ | ⟨bs, h', h''⟩
        · -- the failing call is one of the new ones
          refine e4.last as cb post h' e ?_
          rw [h.st]
          simpa only [stAfter, List.foldl_append] using he
        · cases bs with
          | nil =>
            simp only [List.append_nil] at h'
            rw [List.nil_append] at h''
            refine e4.last [] cb post h''.symm e ?_
            rw [h.st, h']; exact he
          | cons b bs =>
            simp only [List.cons_append, List.cons.injEq] at h''
            obtain ⟨rfl, h''⟩ := h''
            have := (hcalls.last pre cb bs h' e he).2
            cases this
      · rcases e4.cause e he with ⟨pre, cb, rfl, h'⟩ | h'
        · refine .inl ⟨s.world.calls ++ pre, cb, by simp, ?_⟩
          rw [h.st] at h'
          simpa only [stAfter, List.foldl_append] using h'
        · exact .inr h'
      · rcases List.mem_append.1 hcb with hcb | hcb
        · exact hcalls.real cb hcb
        · exact e4.real cb hcb
    cases hr : (runExec R m.data s.world).2.2 with
    | none =>
      rw [hr] at hC
      refine ⟨?_, ?_, fun m' hm' => ?_, fun _ => ?_⟩
      · rw [f1, e1, key, e2]
      · rw [f1, e1, f2, hne]; exact hC
      · rw [f4] at hm'; cases hm'
      · rw [f2, hne]
    | some e =>
      rw [hr] at hC
      simp only
      obtain ⟨g1, g2, g3, g4⟩ := hstop { (List.foldl LoopSt.act ({ ({ s with phase := .checking } : LoopSt (RunW α) Nat PyErr) with
        strategyTime := some m.time, fired := s.fired ++ [(m, now)], world := (runExec R m.data s.world).1 }) (runExec R m.data s.world).2.1) with
        exception := some e, errs := (List.foldl LoopSt.act ({ ({ s with phase := .checking } : LoopSt (RunW α) Nat PyErr) with
        strategyTime := some m.time, fired := s.fired ++ [(m, now)], world := (runExec R m.data s.world).1 }) (runExec R m.data s.world).2.1).errs ++ [e] }
      refine ⟨?_, ?_, fun m' hm' => ?_, fun hc => ?_⟩
      · rw [g2]; simp only; rw [f1, e1, key, e2]
      · rw [g2, g3]; simp only; rw [f1, e1]; exact hC
      · rw [g4] at hm'; simp only at hm'; rw [f4] at hm'; cases hm'
      · rw [g1] at hc; cases hc
  · obtain ⟨g1, g2, g3, g4⟩ := hstop s
    refine ⟨⟨?_, ?_, fun m hm => (by rw [g4, hp] at hm; cases hm), fun hc => (by rw [g1] at hc; cases hc)⟩, fun hh => ⟨g1, g2, g3⟩⟩
    · rw [g2]; exact h.st
    · rw [g2, g3]; exact h.calls
  · exact ⟨⟨h.st, h.calls, h.held, h.exc⟩, fun hh => ⟨hh, rfl, rfl⟩⟩

private theorem runStart_frame (R : RunEnv α) (srcs : List (ESrc Str × Py Unit)) (i : Nat) (l : LoopSt (RunW α) Nat PyErr) :
    (runStart R i srcs l).1.world.st = l.world.st ∧ (runStart R i srcs l).1.world.calls = l.world.calls ∧
    (runStart R i srcs l).1.exception = l.exception ∧ (runStart R i srcs l).1.stopRequested = l.stopRequested ∧
    (runStart R i srcs l).1.phase = l.phase := by
  induction srcs generalizing i l with
  | nil => exact ⟨rfl, rfl, rfl, rfl, rfl⟩
  | cons x srcs ih =>
    obtain ⟨src, r⟩ := x
    cases r with
    | error e => exact ⟨rfl, rfl, rfl, rfl, rfl⟩
    | ok u =>
      simp only [runStart]
      obtain ⟨p1, p2, p3, -⟩ := runPush_calls R i { l.world with srcs := fun j => if j = i then src else l.world.srcs j }
      generalize runPush R i { l.world with srcs := fun j => if j = i then src else l.world.srcs j } = q at *
      obtain ⟨w, acts, err⟩ := q
      simp only at p1 p2 p3 ⊢
      obtain ⟨f1, f2, f3, f4, -⟩ := acts_frame acts p3 { l with world := w }
      simp only at f1 f2 f3 f4
      cases err with
      | some e => exact ⟨by rw [f1, p2], by rw [f1, p1], f2, f3, f4⟩
      | none =>
        obtain ⟨i1, i2, i3, i4, i5⟩ := ih (i + 1) (acts.foldl LoopSt.act { l with world := w })
        exact ⟨by rw [i1, f1, p2], by rw [i2, f1, p1], i3.trans f2, i4.trans f3, i5.trans f4⟩

private theorem finv72_run {R : RunEnv α} {a0 : α} {srcs : List (ESrc Str × Py Unit)} {l0 : LoopSt (RunW α) Nat PyErr} {err : Option PyErr}
    (hstart : runStart R 0 srcs (runEmpty a0) = (l0, err)) {ls : List (Label Nat)} {s : LoopSt (RunW α) Nat PyErr}
    (h : l0.run (runExec R) ls = some s) : FInv72 R a0 s := by
  refine LoopSt.run_induct h ?_ fun a l b i hs => (finv72_step i hs).1
  obtain ⟨f1, f2, f3, f4, f5⟩ := runStart_frame R srcs 0 (runEmpty a0)
  rw [hstart] at f1 f2 f3 f4 f5
  simp only [runEmpty] at f1 f2 f3 f4 f5
  refine ⟨by rw [f1, f2]; rfl, ?_, fun m hm => (by rw [f5] at hm; cases hm), fun _ => f3⟩
  rw [f2, f3]
  exact calls_nil _ _ _ _ (by simp)

/-- A call that raises is the last call of the whole run, and its exception is what the run raises. -/
theorem c72_failure_is_last (R : RunEnv α) (a0 : α) (srcs : List (ESrc Str × Py Unit)) (l0 : LoopSt (RunW α) Nat PyErr)
    (hstart : runStart R 0 srcs (runEmpty a0) = (l0, none)) (ls : List (Label Nat)) (s : LoopSt (RunW α) Nat PyErr)
    (h : l0.run (runExec R) ls = some s) (before after : List Cb) (cb : Cb) (hc : s.world.calls = before ++ cb :: after) (e : PyErr)
    (he : (R.act cb (before.foldl (fun a c => (R.act c a).1) a0)).2 = some e) :
    after = [] ∧ s.runRaises = some e :=
  (finv72_run hstart h).calls.last before cb after hc e he

/-- What the run raises was raised by its last call, unless a scheduled function did not exist or an event source failed. -/
theorem c72_raises_last_failure (R : RunEnv α) (a0 : α) (srcs : List (ESrc Str × Py Unit)) (l0 : LoopSt (RunW α) Nat PyErr)
    (hstart : runStart R 0 srcs (runEmpty a0) = (l0, none)) (ls : List (Label Nat)) (s : LoopSt (RunW α) Nat PyErr)
    (h : l0.run (runExec R) ls = some s) (e : PyErr) (he : s.runRaises = some e) :
    (∃ before cb, s.world.calls = before ++ [cb] ∧ (R.act cb (before.foldl (fun a c => (R.act c a).1) a0)).2 = some e) ∨ OtherFailure R e :=
  (finv72_run hstart h).calls.cause e he

/-- After that nothing is called any more and nothing changes, whatever happens. -/
theorem c72_nothing_afterwards (R : RunEnv α) (a0 : α) (srcs : List (ESrc Str × Py Unit)) (l0 : LoopSt (RunW α) Nat PyErr)
    (hstart : runStart R 0 srcs (runEmpty a0) = (l0, none)) (ls more : List (Label Nat)) (s s' : LoopSt (RunW α) Nat PyErr)
    (h : l0.run (runExec R) ls = some s) (e : PyErr) (he : s.runRaises = some e) (h' : s.run (runExec R) more = some s') :
    s'.world = s.world ∧ s'.runRaises = some e := by
  have hi := finv72_run hstart h
  have hs : s.stopRequested = true := by
    cases hx : s.stopRequested with
    | true => rfl
    | false => have := hi.exc hx; rw [LoopSt.runRaises] at he; rw [he] at this; cases this
  have := LoopSt.run_induct (P := fun t => FInv72 R a0 t ∧ t.stopRequested = true ∧ t.world = s.world ∧ t.exception = s.exception) h'
    ⟨hi, hs, rfl, rfl⟩ fun a l b i hst => by
      obtain ⟨j1, j2, j3, j4⟩ := i
      obtain ⟨k1, k2⟩ := finv72_step j1 hst
      obtain ⟨k3, k4, k5⟩ := k2 j2
      exact ⟨k1, k3, k4.trans j3, k5.trans j4⟩
  exact ⟨this.2.2.1, this.2.2.2.trans he⟩

/-- A firing whose event has a function that does not exist, after functions that succeed, calls these and then raises
`TypeError`; the functions after it are not called and the event source is not asked again. -/
theorem c72_missing_function (R : RunEnv α) (l s : LoopSt (RunW α) Nat PyErr) (m : Msg Nat) (now : Int) (exits : List Bool)
    (hhold : l.phase = .holding m) (hdue : m.time ≤ now) (hstep : l.step (runExec R) (.clock now exits) = some s)
    (src : ESrc Str) (dt : Int) (cls : Str) (hget : (l.world.srcs m.data).getNext R.cfg (R.dates l.world.polls) R.fuel = some (src, .ok (some (dt, cls))))
    (pre post : List Cb) (k : Nat) (hcbs : R.bus.emit sameClass cls = pre ++ .user k none :: post)
    (hreal : ∀ cb ∈ pre, ∀ k, cb ≠ .user k none) (hok : ∀ cb ∈ pre, ∀ a, (R.act cb a).2 = none) :
    s.runRaises = some .typeError ∧ s.stopRequested = true ∧ s.world.calls = l.world.calls ++ pre ∧ s.queue = l.queue := by
  have hemit : ∀ w : RunW α, runEmit R (pre ++ .user k none :: post) w =
      ({ w with calls := w.calls ++ pre, st := stAfter R w.st pre }, some .typeError) := by
    clear hcbs
    induction pre with
    | nil => intro w; simp [runEmit, stAfter]
    | cons cb pre ih =>
      intro w
      have hstep : runEmit R (cb :: (pre ++ .user k none :: post)) w =
          match R.act cb w.st with
          | (a, some e) => ({ w with st := a, calls := w.calls ++ [cb] }, some e)
          | (a, none) => runEmit R (pre ++ .user k none :: post) { w with st := a, calls := w.calls ++ [cb] } := by
        cases cb with
        | account k => rfl
        | user i h => cases h with
          | none => exact absurd rfl (hreal _ (List.mem_cons_self ..) i)
          | some f => rfl
      rw [List.cons_append, hstep]
      have := hok cb (List.mem_cons_self ..) w.st
      cases hr : R.act cb w.st with
      | mk a r =>
        rw [hr] at this
        simp only at this
        subst this
        simp only
        rw [ih (fun c hc => hreal c (List.mem_cons_of_mem _ hc)) (fun c hc => hok c (List.mem_cons_of_mem _ hc))]
        simp [stAfter, hr]
  have hx : runExec R m.data l.world = ({ l.world.polled m.data src with calls := l.world.calls ++ pre, st := stAfter R l.world.st pre }, [], some .typeError) := by
    simp only [runExec, hget, hcbs, hemit]
    rfl
  simp only [LoopSt.step, hhold, if_neg (show ¬ m.time > now by omega), Option.some.injEq] at hstep
  subst hstep
  simp only [LoopSt.handle, hx, List.foldl_nil, LoopSt.stop, LoopSt.runRaises]
  split
  · rename_i hh; exact ⟨rfl, hh, rfl, rfl⟩
  · exact ⟨rfl, rfl, rfl, rfl⟩

/-! ## The set-up -/

/-- Making the source, or asking it for its first event (in poll `p` of the process), raises `e`. -/
def SetupFails (R : RunEnv α) (p : Nat) (x : ESrc Str × Py Unit) (e : PyErr) : Prop :=
  x.2 = .error e ∨ (x.2 = .ok () ∧ ∃ s, x.1.peek R.cfg (R.dates p) R.fuel = some (s, .error e))

/-- Neither happens. -/
def SetupWorks (R : RunEnv α) (p : Nat) (x : ESrc Str × Py Unit) : Prop :=
  x.2 = .ok () ∧ ∃ s r, x.1.peek R.cfg (R.dates p) R.fuel = some (s, .ok r)

private theorem start_polls (R : RunEnv α) (srcs : List (ESrc Str × Py Unit)) (i : Nat) (l : LoopSt (RunW α) Nat PyErr) (p : Nat) (hp : l.world.polls = p) :
    ((∀ j (hj : j < srcs.length), SetupWorks R (p + j) srcs[j]) → (runStart R i srcs l).2 = none) ∧
    (∀ pre x post e, srcs = pre ++ x :: post → (∀ j (hj : j < pre.length), SetupWorks R (p + j) pre[j]) →
      SetupFails R (p + pre.length) x e → (runStart R i srcs l).2 = some e) := by
  induction srcs generalizing i l p with
  | nil => exact ⟨fun _ => rfl, fun pre x post e h => by simp at h⟩
  | cons y srcs ih =>
    obtain ⟨src, r⟩ := y
    have hworks : SetupWorks R p (src, r) → ∃ l', runStart R i ((src, r) :: srcs) l = runStart R (i + 1) srcs l' ∧ l'.world.polls = p + 1 := by
      rintro ⟨h1, s, q, h2⟩
      simp only at h1 h2
      subst h1
      simp only [runStart]
      have hpush : ∃ w acts, runPush R i { l.world with srcs := fun j => if j = i then src else l.world.srcs j } = (w, acts, none) ∧ w.polls = p + 1 ∧
          ∀ x ∈ acts, ∃ t p d, x = .push t p d := by
        cases q with
        | none => exact ⟨RunW.polled { l.world with srcs := fun j => if j = i then src else l.world.srcs j } i s, [],
            by simp only [runPush, if_true, hp, h2], by simp [RunW.polled, hp], by simp⟩
        | some q =>
          obtain ⟨dt, cls⟩ := q
          exact ⟨RunW.polled { l.world with srcs := fun j => if j = i then src else l.world.srcs j } i s,
            [.push (dtToMillis dt) ((dget R.classes cls).getD 0) i],
            by simp only [runPush, if_true, hp, h2], by simp [RunW.polled, hp], by simp⟩
      obtain ⟨w, acts, e1, e2, e3⟩ := hpush
      rw [e1]
      exact ⟨_, rfl, by rw [(acts_frame acts e3 _).1]; exact e2⟩
    constructor
    · intro h
      obtain ⟨l', e1, e2⟩ := hworks (h 0 (by simp))
      rw [e1]
      refine (ih (i + 1) l' (p + 1) e2).1 fun j hj => ?_
      have := h (j + 1) (by simp; omega)
      rw [show p + 1 + j = p + (j + 1) by omega]
      simpa using this
    · intro pre x post e hsplit hpre hx
      cases pre with
      | nil =>
        simp only [List.nil_append, List.cons.injEq] at hsplit
        obtain ⟨rfl, rfl⟩ := hsplit
        rcases hx with h | ⟨h, s, h'⟩
        · simp only at h
          subst h
          simp [runStart]
        · simp only [List.length_nil, Nat.add_zero] at h h'
          subst h
          simp [runStart, runPush, hp, h']
      | cons y pre =>
        simp only [List.cons_append, List.cons.injEq] at hsplit
        obtain ⟨rfl, hsplit⟩ := hsplit
        obtain ⟨l', e1, e2⟩ := hworks (hpre 0 (by simp))
        rw [e1]
        refine (ih (i + 1) l' (p + 1) e2).2 pre x post e hsplit (fun j hj => ?_) ?_
        · have := hpre (j + 1) (by simp; omega)
          rw [show p + 1 + j = p + (j + 1) by omega]
          simpa using this
        · rw [show p + 1 + pre.length = p + (pre.length + 1) by omega]
          simpa using hx

/-- The set-up of a run succeeds if all sources can be made and asked; the first that cannot ends it with its exception. -/
theorem c72_setup (R : RunEnv α) (a0 : α) (srcs : List (ESrc Str × Py Unit)) :
    ((∀ j (hj : j < srcs.length), SetupWorks R j srcs[j]) → (runStart R 0 srcs (runEmpty a0)).2 = none) ∧
    (∀ before x after e, srcs = before ++ x :: after → (∀ j (hj : j < before.length), SetupWorks R j before[j]) →
      SetupFails R before.length x e → (runStart R 0 srcs (runEmpty a0)).2 = some e) := by
  have := start_polls R srcs 0 (runEmpty a0) 0 rfl
  simpa only [Nat.zero_add] using this

/-! ### A concrete case: `f` works, `g` raises, `h` does not exist, `bad` has no valid time. -/

private def fCfg : ECfg := ⟨false, 365, [(34200 * secUs, 41400 * secUs)]⟩
private def fSched (ts : List TaskDesc) : SchedSt := (SchedSt.schedule 10 5 fCfg.periods [(c!"f", 7), (c!"g", 8)] ts {}).getD {}
private def fAct : Cb → Nat → Nat × Option PyErr
  | .user _ (some 8), n => (n + 10, some .keyError)
  | _, n => (n + 1, none)
private def fEnv (ts : List TaskDesc) : RunEnv Nat := ⟨fCfg, 1000, (fSched ts).bus, (fSched ts).classes, fun _ _ => 5, fAct⟩
private def fStart (ts : List TaskDesc) : LoopSt (RunW Nat) Nat PyErr × Option PyErr :=
  runStart (fEnv ts) 0 (taskSources fCfg none (some (6 * dayUs)) (fun _ => 5 * dayUs) (fSched ts).sources) (runEmpty 0)
private def fLabels : List (Label Nat) := .wakeNotify :: (List.range 2).flatMap (fun _ => [.pop, .clock 700000000 []])

example : let ts := [⟨c!"f", c!"09:30"⟩, ⟨c!"g", c!"09:31"⟩, ⟨c!"f", c!"09:32"⟩]
    (fStart ts).2 = none ∧ ((fStart ts).1.run (runExec (fEnv ts)) fLabels).map (fun s => (s.world.calls, s.world.st, s.runRaises)) =
      some ([.user 0 (some 7), .user 1 (some 8)], 11, some .keyError) := by
  decide +kernel
example : let ts := [⟨c!"f", c!"09:30"⟩, ⟨c!"h", c!"09:31"⟩, ⟨c!"f", c!"09:32"⟩]
    (fStart ts).2 = none ∧ ((fStart ts).1.run (runExec (fEnv ts)) fLabels).map (fun s => (s.world.calls, s.world.st, s.runRaises)) =
      some ([.user 0 (some 7)], 1, some .typeError) := by
  decide +kernel
example : let ts := [⟨c!"f", c!"09:30"⟩, ⟨c!"g", c!"25:00"⟩]
    (fStart ts).2 = some .valueError := by
  decide +kernel

end Jq
