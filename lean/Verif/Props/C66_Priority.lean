import Verif.Props.C66_Numbering
/-!
# C66: the priorities in a process

Whatever `process_initialize` has done, the synchronisation events come after the events of the tasks with the same time.
-/
namespace Jq
variable {γ ν μ : Type} [PyNum ν]

/-- The synchronisation events have priority 2, those of the tasks 1 (every minute) or 0. -/
def PrioritiesOk (classes : Dict Str Int) : Prop :=
  ∀ c q, dget classes c = some q → if c = c!"AccountSyncEvent" then q = 2 else q = 0 ∨ q = 1

private theorem createClass_prio {s : SchedSt} {c : Str} {p : Int} (h : PrioritiesOk s.classes)
    (hp : if c = c!"AccountSyncEvent" then p = 2 else p = 0 ∨ p = 1) : PrioritiesOk (s.createClass c p).classes := by
  simp only [SchedSt.createClass]
  split
  · exact h
  · intro d q hd
    simp only [dget_dset] at hd
    split at hd
    · rename_i e
      injection hd with hd
      rw [← e, ← hd]; exact hp
    · exact h d q hd

private theorem registerSync_classes (n : Nat) (nb no : Bool) (s : SchedSt) :
    (s.registerSync n nb no).classes = (s.createClass accEvent 2).classes := by
  cases nb <;> cases no <;> rfl

private theorem timer_prio {E : StartEnv γ ν} {n : Nat} {o : Opts} {now : Int} {s s1 : StartSt γ ν μ} {r : Py Unit}
    (h : PrioritiesOk s.sched.classes) (ht : s.timer E n o now = some (s1, r)) : PrioritiesOk s1.sched.classes := by
  have h2 : PrioritiesOk (s.sched.createClass accEvent 2).classes := createClass_prio h (by simp [accEvent])
  simp only [StartSt.timer] at ht
  split at ht
  · cases ht
  · simp only [Option.some.injEq, Prod.mk.injEq] at ht
    rw [← ht.1]; exact h2
  · split at ht
    · cases ht
    · split at ht
      all_goals
        simp only [Option.some.injEq, Prod.mk.injEq] at ht
        rw [← ht.1]
        simp only [registerSync_classes]
        exact h2

private theorem setOptions_prio {E : StartEnv γ ν} {o : Opts} {inp : OptInputs γ} {s s1 : StartSt γ ν μ} {r : Py Unit}
    (h : PrioritiesOk s.sched.classes) (hs : s.setOptions E o inp = some (s1, r)) : PrioritiesOk s1.sched.classes := by
  simp only [StartSt.setOptions] at hs
  split at hs
  · simp only [Option.some.injEq, Prod.mk.injEq] at hs; rw [← hs.1]; exact h
  · split at hs
    · simp only [Option.some.injEq, Prod.mk.injEq] at hs; rw [← hs.1]; exact h
    · split at hs
      · simp only [Option.some.injEq, Prod.mk.injEq] at hs; rw [← hs.1]; exact h
      · split at hs
        · split at hs
          · simp only [Option.some.injEq, Prod.mk.injEq] at hs; rw [← hs.1]; exact h
          · split at hs
            · simp only [Option.some.injEq, Prod.mk.injEq] at hs; rw [← hs.1]; exact h
            · split at hs
              · simp only [Option.some.injEq, Prod.mk.injEq] at hs; rw [← hs.1]; exact h
              · simp only [StartSt.accountSetup] at hs
                split at hs
                · cases hs
                · rename_i t rt ht
                  simp only [Option.some.injEq, Prod.mk.injEq] at hs
                  rw [← hs.1]
                  show PrioritiesOk t.sched.classes
                  split at ht
                  · have := timer_prio (by exact h) ht
                    exact this
                  · simp only [Option.some.injEq, Prod.mk.injEq] at ht
                    rw [← ht.1]; exact h
        · simp only [Option.some.injEq, Prod.mk.injEq] at hs; rw [← hs.1]; exact h

private theorem init_prio (E : StartEnv γ ν) (p : InitProg γ ν μ) : ∀ (s s' : StartSt γ ν μ) (m : μ) (e : Option PyErr),
    PrioritiesOk s.sched.classes → p.run E s = some (s', m, e) → PrioritiesOk s'.sched.classes := by
  induction p with
  | done m e =>
    intro s s' m' e' h hr
    simp only [InitProg.run, Option.some.injEq, Prod.mk.injEq] at hr
    rw [← hr.1]; exact h
  | runDaily f t next ih =>
    intro s s' m e h hr
    simp only [InitProg.run] at hr
    exact ih _ { s with strat := (s.strat.runDaily f t).1 } _ _ _ h hr
  | setOptions o inp next ih =>
    intro s s' m e h hr
    simp only [InitProg.run] at hr
    cases hs : s.setOptions E o inp with
    | none => rw [hs] at hr; cases hr
    | some x =>
      obtain ⟨s1, r⟩ := x
      rw [hs] at hr
      exact ih _ _ _ _ _ _ (setOptions_prio h hs) hr
  | call c next ih =>
    intro s s' m e h hr
    simp only [InitProg.run] at hr
    exact ih _ _ { s with ctx := (s.ctx.call E.G E.udig c).1 } _ _ _ h hr

private theorem schedule_prio (fuel : Nat) (today : Int) (v : PerVal) (ns : Dict Str Nat) (ts : List TaskDesc) :
    ∀ (s s' : SchedSt) (r : Py Unit), PrioritiesOk s.classes → SchedSt.scheduleOf fuel today v ns ts s = some (s', r) →
      PrioritiesOk s'.classes := by
  induction ts with
  | nil =>
    intro s s' r h hs
    simp only [SchedSt.scheduleOf, Option.some.injEq, Prod.mk.injEq] at hs
    rw [← hs.1]; exact h
  | cons t ts ih =>
    intro s s' r h hs
    have hne : taskClassName t.name s.count ≠ c!"AccountSyncEvent" := by
      intro e; simp [taskClassName] at e
    have one : ∀ s1 r1, s.schedOneOf fuel today v ns t = some (s1, r1) → PrioritiesOk s1.classes := by
      intro s1 r1 h1
      simp only [SchedSt.schedOneOf] at h1
      split at h1
      · have := createClass_prio (c := taskClassName t.name s.count) (p := 1) h (by rw [if_neg hne]; exact Or.inr rfl)
        split at h1
        · cases h1
        all_goals
          simp only [Option.some.injEq, Prod.mk.injEq] at h1
          rw [← h1.1]; exact this
      · simp only [Option.some.injEq, Prod.mk.injEq] at h1
        rw [← h1.1]
        exact createClass_prio (c := taskClassName t.name s.count) (p := 0) h (by rw [if_neg hne]; exact Or.inl rfl)
    simp only [SchedSt.scheduleOf] at hs
    split at hs
    · cases hs
    · rename_i s1 e h1
      simp only [Option.some.injEq, Prod.mk.injEq] at hs
      rw [← hs.1]; exact one _ _ h1
    · rename_i s1 h1
      exact ih _ _ _ (one _ _ h1) hs

/-- C66, the order of events.  In a process, however it was started and whichever calls of `set_options` failed, the synchronisation
events have priority 2 and those of the tasks 0 or 1: of two messages with the same time the synchronisation is the first (`c05_fires_in_order`). -/
theorem c66_priorities (E : StartEnv γ ν) (p : Option (InitProg γ ν μ)) (m0 : μ) (ns : Dict Str Nat)
    (fns : Nat → μ → Ctx γ ν → Prog γ ν μ) (today : Int) (nows : Nat → Int)
    (l : LoopSt (RunW (PSt γ ν μ)) Nat PyErr) (R : RunEnv (PSt γ ν μ)) (e : Option PyErr)
    (h : E.start p m0 ns fns today nows = some (l, R, e)) : PrioritiesOk R.classes := by
  have h0 : PrioritiesOk (E.fresh (μ := μ) m0).sched.classes := by intro c q hc; cases hc
  cases p with
  | none =>
    simp only [StartEnv.start, Option.some.injEq, Prod.mk.injEq] at h
    rw [← h.2.1]; exact h0
  | some p =>
    simp only [StartEnv.start] at h
    split at h
    · cases h
    · rename_i s _ e1 hp
      simp only [Option.some.injEq, Prod.mk.injEq] at h
      rw [← h.2.1]; exact init_prio E p _ _ _ _ (by exact h0) hp
    · rename_i s m hp
      have h1 := init_prio E p _ _ _ _ (by exact h0) hp
      split at h
      · cases h
      · rename_i sc r hsc
        have h2 := schedule_prio _ _ _ _ _ _ _ _ h1 hsc
        split at h
        · cases h
        · split at h
          all_goals
            simp only [Option.some.injEq, Prod.mk.injEq] at h
            rw [← h.2.1]; exact h2

private def prEnv : StartEnv Nat Int :=
  ⟨⟨false, 1, .ofPeriods [(34200 * secUs, 34320 * secUs)], true, true, true, .ok (30 * secUs), .ofPeriods [(34200 * secUs, 34230 * secUs)]⟩, 100,
    ⟨fun g _ => (g, .ok ()), fun g _ => (g, .ok ()), fun g => (g, .error .runtimeError), fun g => (g, .error .runtimeError)⟩,
    fun _ => false, fun _ g => (g, .ok ()), 5 * dayUs, some (6 * dayUs), fun _ _ => 5⟩

/-- The first account cannot have a timer, which the user ignores; the second can. -/
private def prProg : InitProg Nat Int Unit :=
  .setOptions { accountNo := some c!"1", syncInternal := some (.error .valueError) } { gateCtor := .ok 0, now := 5 * dayUs } fun _ _ =>
    .setOptions { accountNo := some c!"1" } { gateCtor := .ok 0, now := 5 * dayUs } fun _ _ =>
      .runDaily ⟨1, some c!"f", true⟩ c!"every_minute" fun _ => .runDaily ⟨2, some c!"g", true⟩ c!"09:30:00" fun _ => .done () none

example : (prEnv.start (some prProg) () [(c!"f", 0), (c!"g", 1)] (fun _ m _ => .done m none) (5 * dayUs) fun _ => 5 * dayUs).map
    (fun x => (x.2.1.classes, x.2.2)) =
      some ([(c!"AccountSyncEvent", 2), (c!"Scheduler_f_0", 1), (c!"Scheduler_g_1", 0)], none) := by
  decide +kernel

end Jq
