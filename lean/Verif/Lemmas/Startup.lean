import Verif.Spec.Startup
import Verif.Lemmas.Options
import Verif.Lemmas.Process
import Verif.Lemmas.Timers
import Verif.Props.C76_Options
import Verif.Props.C65_Process
/-! Lemmas for C78: from `process_initialize` to the running loop. -/
namespace Jq

/-! ## All events of a source have one class -/

/-- All entries and events of a source are of class `c`. -/
def ESrc.AllOf {β : Type} (c : β) (s : ESrc β) : Prop := (∀ x ∈ s.daily, x.2 = c) ∧ ∀ e ∈ s.events, e.2 = c

section
variable {β : Type} {c : β}

theorem getDays_allOf {cfg : ECfg} {today : Int} {s : ESrc β} (h : s.AllOf c) : (s.getDays cfg today).1.AllOf c := by
  simp only [ESrc.getDays]
  split
  · split
    · exact h
    · split
      · exact h
      · exact h
  · exact h

theorem reset_allOf {cfg : ECfg} {today : Int} {s : ESrc β} (h : s.AllOf c) : (s.resetIfNeeded cfg today).1.AllOf c := by
  simp only [ESrc.resetIfNeeded]
  split
  · exact h
  · have h' : ({ s with events := [], hasHis := false } : ESrc β).AllOf c := ⟨h.1, by simp⟩
    have := getDays_allOf (cfg := cfg) (today := today) h'
    split
    · rename_i s' e hg; rw [hg] at this; exact this
    · rename_i s' ds hg; rw [hg] at this; exact this

theorem addEvent_allOf {cfg : ECfg} {day : Int} {x : Str} {s : ESrc β} (h : s.AllOf c) : (s.addEvent cfg day x c).1.AllOf c := by
  simp only [ESrc.addEvent]
  split
  · exact h
  · split
    · exact h
    · split
      · exact h
      · split
        · exact h
        · refine ⟨h.1, fun e he => ?_⟩
          rcases List.mem_append.1 he with he | he
          · exact h.2 e he
          · simp at he; rw [he]

theorem addEvents_allOf {cfg : ECfg} {day : Int} (xs : List (Str × β)) (hx : ∀ x ∈ xs, x.2 = c) : ∀ {s : ESrc β}, s.AllOf c →
    (ESrc.addEvents cfg day xs s).1.AllOf c := by
  induction xs with
  | nil => intro s h; exact h
  | cons x xs ih =>
    intro s h
    obtain ⟨e, d⟩ := x
    have hd : d = c := hx (e, d) (by simp)
    subst hd
    have h1 := addEvent_allOf (cfg := cfg) (day := day) (x := e) h
    simp only [ESrc.addEvents]
    split
    · rename_i s' er hg; rw [hg] at h1; exact h1
    · rename_i s' hg; rw [hg] at h1; exact ih (fun x hx' => hx x (by simp [hx'])) h1

theorem genLoop_allOf {cfg : ECfg} {clock : Nat → Int} (fuel : Nat) : ∀ (i : Nat) {s s' : ESrc β} {r : Py Unit}, s.AllOf c →
    ESrc.genLoop cfg clock fuel i s = some (s', r) → s'.AllOf c := by
  induction fuel with
  | zero => intro i s s' r _ h; cases h
  | succ n ih =>
    intro i s s' r hs h
    simp only [ESrc.genLoop] at h
    split at h
    · simp only [Option.some.injEq, Prod.mk.injEq] at h; rw [← h.1]; exact hs
    · have hg := getDays_allOf (cfg := cfg) (today := clock i) hs
      have key : ∀ r1 : ESrc β × Py Unit, r1.1.AllOf c → (match r1 with
          | (s, .error e) => some (s, .error e)
          | (s, .ok ()) =>
            match s.days with
            | [] => some (s, .ok ())
            | d :: ds =>
              match ({ s with days := ds } : ESrc β).addEvents cfg d s.daily with
              | (s', .error e) => some (s', .error e)
              | (s', .ok ()) => ESrc.genLoop cfg clock n (i + 1) s') = some (s', r) → s'.AllOf c := by
        rintro ⟨s1, r1⟩ h1 h
        cases r1 with
        | error e => simp only [Option.some.injEq, Prod.mk.injEq] at h; rw [← h.1]; exact h1
        | ok u =>
          simp only at h
          split at h
          · simp only [Option.some.injEq, Prod.mk.injEq] at h; rw [← h.1]; exact h1
          · rename_i d ds hd
            have h2 := addEvents_allOf (cfg := cfg) (day := d) s1.daily h1.1 (s := { s1 with days := ds }) ⟨h1.1, h1.2⟩
            split at h
            · rename_i s2 e hg; rw [hg] at h2
              simp only [Option.some.injEq, Prod.mk.injEq] at h; rw [← h.1]; exact h2
            · rename_i s2 hg; rw [hg] at h2; exact ih _ h2 h
      refine key _ ?_ h
      split
      · split
        · rename_i s1 e hg'; rw [hg'] at hg; exact hg
        · rename_i s1 ds hg'; rw [hg'] at hg; exact ⟨hg.1, hg.2⟩
      · exact hs

theorem peek_allOf {cfg : ECfg} {clock : Nat → Int} {fuel : Nat} {s s' : ESrc β} {x : Int × β} (hs : s.AllOf c)
    (h : s.peek cfg clock fuel = some (s', .ok (some x))) : x.2 = c := by
  simp only [ESrc.peek] at h
  have key : ∀ s1 r, s.genEvents cfg clock fuel = some (s1, r) → s1.AllOf c := by
    intro s1 r hg
    simp only [ESrc.genEvents] at hg
    have hr := reset_allOf (cfg := cfg) (today := clock 0) hs
    split at hg
    · rename_i s2 e h2; rw [h2] at hr
      simp only [Option.some.injEq, Prod.mk.injEq] at hg; rw [← hg.1]; exact hr
    · rename_i s2 h2; rw [h2] at hr
      split at hg
      · simp only [Option.some.injEq, Prod.mk.injEq] at hg; rw [← hg.1]; exact hr
      · split at hg
        · cases hg
        · rename_i s3 e h3
          simp only [Option.some.injEq, Prod.mk.injEq] at hg; rw [← hg.1]; exact genLoop_allOf _ _ hr h3
        · rename_i s3 h3
          have := genLoop_allOf _ _ hr h3
          simp only [Option.some.injEq, Prod.mk.injEq] at hg
          rw [← hg.1]
          exact ⟨this.1, fun e he => this.2 e ((sortBy_perm _ _).mem_iff.1 he)⟩
  split at h
  · cases h
  · simp only [Option.some.injEq, Prod.mk.injEq] at h; cases h.2
  · rename_i s1 hg
    simp only [Option.some.injEq, Prod.mk.injEq, Except.ok.injEq] at h
    exact (key _ _ hg).2 x (List.mem_of_head? h.2)

end

/-! ## The set-up of the sources -/

section
variable {α : Type}

/-- The first push depends on the settings, the dates and the priority of the class only. -/
theorem runPush_congr {R R' : RunEnv α} (hc : R.cfg = R'.cfg) (hf : R.fuel = R'.fuel) (hd : R.dates = R'.dates) {c : Str}
    (hcls : dget R.classes c = dget R'.classes c) (i : Nat) (w : RunW α) (hw : (w.srcs i).AllOf c) :
    runPush R i w = runPush R' i w := by
  simp only [runPush, hc, hf, hd]
  cases hp : (w.srcs i).peek R'.cfg (R'.dates w.polls) R'.fuel with
  | none => rfl
  | some x =>
    obtain ⟨s, r⟩ := x
    cases r with
    | error e => rfl
    | ok y =>
      cases y with
      | none => rfl
      | some z =>
        have := peek_allOf hw hp
        obtain ⟨dt, cls⟩ := z
        simp only at this
        subst this
        simp only [hcls]

theorem runPush_st (R : RunEnv α) (i : Nat) (w : RunW α) (b : α) :
    runPush R i { w with st := b } = ({ (runPush R i w).1 with st := b }, (runPush R i w).2) := by
  simp only [runPush]
  cases (w.srcs i).peek R.cfg (R.dates w.polls) R.fuel with
  | none => rfl
  | some x =>
    obtain ⟨s, r⟩ := x
    cases r with
    | error e => rfl
    | ok y =>
      cases y with
      | none => rfl
      | some z => rfl

/-- The loop with another state of the callbacks. -/
def setSt (l : LoopSt (RunW α) Nat PyErr) (b : α) : LoopSt (RunW α) Nat PyErr := { l with world := { l.world with st := b } }

theorem setSt_acts (b : α) (as : List (Act Nat)) : ∀ l : LoopSt (RunW α) Nat PyErr,
    as.foldl LoopSt.act (setSt l b) = setSt (as.foldl LoopSt.act l) b := by
  induction as with
  | nil => intro l; rfl
  | cons a as ih =>
    intro l
    have : (setSt l b).act a = setSt (l.act a) b := by
      cases a with
      | push t p d => rfl
      | stop =>
        by_cases hb : l.stopRequested = true
        · simp [LoopSt.act, LoopSt.stop, setSt, hb]
        · simp [LoopSt.act, LoopSt.stop, setSt, hb]
    rw [List.foldl_cons, List.foldl_cons, this, ih]

theorem runStart_st (R : RunEnv α) (bs : List (ESrc Str × Py Unit)) (b : α) : ∀ (i : Nat) (l : LoopSt (RunW α) Nat PyErr),
    runStart R i bs (setSt l b) = (setSt (runStart R i bs l).1 b, (runStart R i bs l).2) := by
  induction bs with
  | nil => intro i l; rfl
  | cons x bs ih =>
    intro i l
    obtain ⟨s, r⟩ := x
    cases r with
    | error e => rfl
    | ok u =>
      simp only [runStart]
      have e : runPush R i { (setSt l b).world with srcs := fun j => if j = i then s else (setSt l b).world.srcs j } =
          ({ (runPush R i { l.world with srcs := fun j => if j = i then s else l.world.srcs j }).1 with st := b },
            (runPush R i { l.world with srcs := fun j => if j = i then s else l.world.srcs j }).2) :=
        runPush_st R i { l.world with srcs := fun j => if j = i then s else l.world.srcs j } b
      rw [e]
      generalize runPush R i { l.world with srcs := fun j => if j = i then s else l.world.srcs j } = q
      obtain ⟨w, acts, err⟩ := q
      have e2 := setSt_acts b acts { l with world := w }
      cases err with
      | some er => simp only [← e2]; rfl
      | none =>
        simp only
        rw [← ih]
        rw [← e2]; rfl

theorem runStart_append (R : RunEnv α) (as bs : List (ESrc Str × Py Unit)) : ∀ (i : Nat) (l l' : LoopSt (RunW α) Nat PyErr),
    runStart R i as l = (l', none) → runStart R i (as ++ bs) l = runStart R (i + as.length) bs l' := by
  induction as with
  | nil => intro i l l' h; simp only [runStart, Prod.mk.injEq] at h; simp [h.1]
  | cons x as ih =>
    intro i l l' h
    obtain ⟨s, r⟩ := x
    cases r with
    | error e => simp only [runStart, Prod.mk.injEq] at h; cases h.2
    | ok u =>
      simp only [List.cons_append, runStart] at h ⊢
      generalize runPush R i { l.world with srcs := fun j => if j = i then s else l.world.srcs j } = q at h ⊢
      obtain ⟨w, acts, err⟩ := q
      cases err with
      | some er => simp only [Prod.mk.injEq] at h; cases h.2
      | none =>
        simp only at h ⊢
        rw [ih _ _ _ h, List.length_cons, Nat.add_right_comm, Nat.add_assoc]

theorem runStart_congr {R R' : RunEnv α} (hc : R.cfg = R'.cfg) (hf : R.fuel = R'.fuel) (hd : R.dates = R'.dates) {c : Str}
    (hcls : dget R.classes c = dget R'.classes c) (i : Nat) (s : ESrc Str) (hs : s.AllOf c) (l : LoopSt (RunW α) Nat PyErr) :
    runStart R i [(s, .ok ())] l = runStart R' i [(s, .ok ())] l := by
  simp only [runStart]
  rw [runPush_congr hc hf hd hcls i _ (by simpa using hs)]

end

/-! ## The timer -/

theorem forEntries_ofPeriods (qs : Periods) : (PerVal.ofPeriods qs).forEntries = qs := by
  have : pairsOf (qs.map fun p => .seq [.time p.1, .time p.2]) = some qs := by
    induction qs with
    | nil => rfl
    | cons q qs ih => simp only [List.map_cons, pairsOf, minutePair_times, ih, Option.map_some]
  simp only [PerVal.forEntries, PerVal.ofPeriods, this]

/-- Periods as they are kept stand for the periods `qs`; false values stand for none. -/
def StandsFor (v : PerVal) (qs : Periods) : Prop := (v = .falsy ∧ qs = []) ∨ v = .ofPeriods qs

theorem given_unique {ps : List PairVal} {qs qs' : Periods} (h : GivenPeriods ps qs) (h' : GivenPeriods ps qs') : qs = qs' := by
  have := ((convPairs_iff _ _).2 h).symm.trans ((convPairs_iff _ _).2 h')
  injection this

theorem periodsFrom_kept {c : PerVal} {a a' : Option PerVal} {qs : Periods} (h : PeriodsFrom c a qs) (hk : KeptOption a a') :
    a'.getD c = .ofPeriods qs := by
  cases h with
  | given hg =>
    cases hk with
    | some hk => cases hk with
      | seq hg' => rw [given_unique hg hg']; rfl
  | configured hc => cases hk; exact hc

theorem syncTimes_standsFor {v : PerVal} {qs : Periods} (h : StandsFor v qs) (fuel : Nat) (now0 step : Int) :
    syncTimes fuel now0 step v = (if qs = [] then
      timesLoop (now0 / secUs * secUs / dayUs * dayUs + 86399 * secUs) step fuel (now0 / secUs * secUs + step)
    else periodTimes fuel (now0 / secUs * secUs / dayUs) step qs).map .ok := by
  rcases h with ⟨rfl, rfl⟩ | rfl
  · rfl
  · cases qs with
    | nil => rfl
    | cons q qs =>
      rw [if_neg (by simp), ← times_ofPeriods]
      rfl

variable {γ ν μ : Type} [PyNum ν]

omit [PyNum ν] in
theorem addDailies {β : Type} (c : β) (ts : List Str) : ∀ s : ESrc β,
    ts.foldl (fun s x => s.addDaily x c) s = (ts.map fun t => (t, c)).foldl (fun s e => s.addDaily e.1 e.2) s := by
  induction ts with
  | nil => intro s; rfl
  | cons t ts ih => intro s; simp only [List.foldl_cons, List.map_cons]; rw [ih]

theorem addDailies_allOf {β : Type} {c : β} (es : List (Str × β)) (he : ∀ e ∈ es, e.2 = c) : ∀ s : ESrc β, s.AllOf c →
    (es.foldl (fun s e => s.addDaily e.1 e.2) s).AllOf c := by
  induction es with
  | nil => intro s h; exact h
  | cons e es ih =>
    intro s h
    refine ih (fun x hx => he x (by simp [hx])) _ ⟨fun x hx => ?_, h.2⟩
    simp only [ESrc.addDaily, List.mem_append, List.mem_singleton] at hx
    rcases hx with hx | rfl
    · exact h.1 x hx
    · exact he e (by simp)

theorem timerSource_allOf {fuel : Nat} {a : Int} {b : Option Int} {now step : Int} {qs : Periods} {src : ESrc Str}
    (h : syncTimerSource fuel a b now step qs accEvent = some src) : src.AllOf accEvent := by
  simp only [syncTimerSource, syncTimerEntries, Option.map_map, Option.map_eq_some_iff] at h
  obtain ⟨ts, _, rfl⟩ := h
  refine addDailies_allOf _ ?_ _ ⟨by simp, by simp⟩
  intro e he
  obtain ⟨t, _, rfl⟩ := List.mem_map.1 he
  rfl

omit [PyNum ν] in
theorem timerSource_eq {E : StartEnv γ ν} {o o' : Opts} (hk : KeptOptions o o') {now : Int} {t : TimerSetup} (h : TimerFrom E o now t) :
    E.timerSource o' now = (syncTimerSource E.fuel E.ctxStart E.ctxEnd t.now t.step t.periods accEvent).map .ok := by
  have hi : E.cfg.interval o' = .ok t.step := by
    rw [ProcCfg.interval, hk.same.2.2.2.1]
    rcases h.interval with e | ⟨e, e'⟩
    · rw [e]; rfl
    · rw [e]; exact e'
  have hp : StandsFor (E.cfg.period o') t.periods := by
    have hkp := hk.period
    rcases h.period with e | ⟨e, e' | ⟨e', e2⟩⟩
    · exact Or.inr (periodsFrom_kept e hkp)
    · rw [e'] at hkp
      refine Or.inl ⟨?_, e⟩
      rw [ProcCfg.period]
      generalize o'.syncPeriod = w at hkp
      cases hkp with
      | some hk => cases hk; rfl
    · rw [e'] at hkp
      refine Or.inl ⟨?_, e⟩
      rw [ProcCfg.period]
      generalize o'.syncPeriod = w at hkp
      cases hkp
      exact e2
  simp only [StartEnv.timerSource, hi, syncTimes_standsFor hp, syncTimerSource, syncTimerEntries, ← h.clock]
  generalize (if t.periods = [] then _ else _ : Option (List Str)) = r
  cases r with
  | none => rfl
  | some ts => simp only [Option.map_some, addDailies]

theorem periodTimes_some (day step : Int) (hstep : 0 < step) (fuel : Nat) : ∀ ps : Periods, (ps.flatMap (stepTimes step)).length < fuel →
    ∃ ts, periodTimes fuel day step ps = some ts := by
  intro ps
  induction ps with
  | nil => intro _; exact ⟨[], rfl⟩
  | cons p ps ih =>
    intro h
    simp only [List.flatMap_cons, List.length_append] at h
    have h1 : ((p.2 - p.1) / step + 1).toNat < fuel := by
      have : (stepTimes step p).length = ((p.2 - p.1) / step + 1).toNat := by simp [stepTimes]
      omega
    obtain ⟨ts, e⟩ := ih (by omega)
    simp only [periodTimes, timesLoop_steps day p.1 p.2 step hstep fuel h1, e, Option.map_some]
    exact ⟨_, rfl⟩

omit [PyNum ν] in
theorem timer_made {E : StartEnv γ ν} {o o' : Opts} (hk : KeptOptions o o') {now : Int} {t : TimerSetup} (h : TimerFrom E o now t) (hf : t.times.length < E.fuel) :
    ∃ src, E.timerSource o' now = some (.ok src) ∧ src.AllOf accEvent ∧ t.Makes E.ctxStart E.ctxEnd src := by
  have key : ∃ src, syncTimerSource E.fuel E.ctxStart E.ctxEnd t.now t.step t.periods accEvent = some src := by
    simp only [syncTimerSource, syncTimerEntries, Option.map_map]
    by_cases hp : t.periods = []
    · simp only [if_pos hp]
      simp only [TimerSetup.times, if_pos hp] at hf
      have hl : ∀ p, (stepTimes t.step p).length = ((p.2 - p.1) / t.step + 1).toNat := fun p => by simp [stepTimes]
      rw [hl] at hf
      have := timesLoop_steps (t.now / secUs * secUs / dayUs) (t.now % dayUs / secUs * secUs + t.step) (86399 * secUs) t.step
        h.positive E.fuel hf
      rw [show t.now / secUs * secUs / dayUs * dayUs + (t.now % dayUs / secUs * secUs + t.step) = t.now / secUs * secUs + t.step from by
        simp only [secUs, dayUs]; omega] at this
      rw [this]
      exact ⟨_, rfl⟩
    · simp only [if_neg hp]
      simp only [TimerSetup.times, if_neg hp] at hf
      obtain ⟨ts, e⟩ := periodTimes_some (t.now / secUs * secUs / dayUs) t.step h.positive E.fuel t.periods hf
      rw [e]
      exact ⟨_, rfl⟩
  obtain ⟨src, hs⟩ := key
  refine ⟨src, by rw [timerSource_eq hk h, hs]; rfl, timerSource_allOf hs, h.positive, h.inDay, h.some, E.fuel, hs⟩

theorem schedule_some (fuel : Nat) (today : Int) (mp : Periods) (ns : Dict Str Nat) (hf : (mp.flatMap (stepTimes minUs)).length < fuel)
    (ts : List TaskDesc) : ∀ s : SchedSt, ∃ s', SchedSt.schedule fuel today mp ns ts s = some s' := by
  induction ts with
  | nil => intro s; exact ⟨s, rfl⟩
  | cons t ts ih =>
    intro s
    obtain ⟨xs, e⟩ := periodTimes_some today minUs (by decide) fuel mp hf
    have : ∃ s1, s.schedOne fuel today mp ns t = some s1 := by
      simp only [SchedSt.schedOne, everyMinuteEntries, e, Option.map_some]
      split <;> exact ⟨_, rfl⟩
    obtain ⟨s1, e1⟩ := this
    simp only [SchedSt.schedule, e1]
    exact ih s1

/-! ## `process_initialize` -/

/-- Nothing is done to the account when none is in use. -/
theorem Ctx.call_off (G : Gate γ ν) (udig : Char → Bool) (c : ApiCall ν) (x : Ctx γ ν) (h : x.useAccount = false) :
    (x.call G udig c).1 = x := by
  have ha : x.account = .error .invalidCall := by simp [Ctx.account, h]
  have ho : ∀ idn now code amount style side, (x.order G udig idn now code amount style side).1 = x := by
    intro idn now code amount style side
    simp only [Ctx.order, ha]
    cases checkRequest udig code amount style side <;> rfl
  have hb : ∀ es, (x.batch G udig es).1 = x := by
    intro es
    induction es with
    | nil => rfl
    | cons e es ih =>
      have : (x.batchOne G udig e).1 = x := by
        simp only [Ctx.batchOne]
        cases e.code with
        | none => rfl
        | some code =>
          cases e.amount with
          | none => rfl
          | some amount =>
            have := ho e.idn e.now code amount e.style e.side
            simp only
            split <;> rename_i heq <;> rw [heq] at this <;> exact this
      simp only [Ctx.batch, this]
      exact ih
  cases c with
  | order => exact ho _ _ _ _ _ _
  | cancel => simp [Ctx.call, Ctx.cancel, ha]
  | batchSubmit es => exact hb es
  | batchCancel ids => cases ids <;> simp [Ctx.call, Ctx.batchCancel, Ctx.cancel, ha]
  | syncBalance => simp [Ctx.call, Ctx.syncBalance, ha]
  | syncOrders => simp [Ctx.call, Ctx.syncOrders, ha]

/-- The state with more tasks. -/
def StartSt.withTasks (s : StartSt γ ν μ) (ts : List TaskDesc) : StartSt γ ν μ :=
  { s with strat := { s.strat with schedules := s.strat.schedules ++ ts } }

/-- The tasks that a call of `run_daily` adds. -/
def dailyTask (f : FuncObj) (t : Str) : List TaskDesc :=
  match f.fname with
  | some n => if f.callable then [⟨n, timeAlias t⟩] else []
  | none => []

omit [PyNum ν] in
theorem runDaily_tasks (s : StartSt γ ν μ) (h : s.strat.allowed = true) (f : FuncObj) (t : Str) :
    ({ s with strat := (s.strat.runDaily f t).1 } : StartSt γ ν μ) = s.withTasks (dailyTask f t) := by
  simp only [StratSt.runDaily, StartSt.withTasks, dailyTask]
  cases f.fname with
  | none => simp
  | some n => cases hc : f.callable <;> simp [h]; rw [← h]

omit [PyNum ν] in
theorem withTasks_append (s : StartSt γ ν μ) (xs ys : List TaskDesc) : (s.withTasks xs).withTasks ys = s.withTasks (xs ++ ys) := by
  simp [StartSt.withTasks]

/-- A part of `process_initialize` without `set_options`. -/
theorem init_quiet (E : StartEnv γ ν) (p : InitProg γ ν μ) : ∀ s : StartSt γ ν μ, s.strat.allowed = true → p.optionCalls E s = [] →
    ∃ m e x, p.run E s = some ({ s.withTasks (p.tasks E s) with ctx := x }, m, e) ∧
      ∀ a, s.ctx.acct = some a → x = s.ctx.after E.G a (p.ops E s) := by
  induction p with
  | done m e =>
    intro s _ _
    refine ⟨m, e, s.ctx, by simp [InitProg.run, InitProg.tasks, StartSt.withTasks], fun a ha => ?_⟩
    have hx : s.ctx = { s.ctx with acct := some a } := by rw [← ha]
    simpa [InitProg.ops, Ctx.after, Acct.run] using hx
  | runDaily f t next ih =>
    intro s h hc
    have e1 := runDaily_tasks s h f t
    simp only [InitProg.optionCalls, e1] at hc
    obtain ⟨m, e, x, h1, h2⟩ := ih (s.strat.runDaily f t).2 (s.withTasks (dailyTask f t)) h hc
    refine ⟨m, e, x, ?_, fun a ha => ?_⟩
    · simp only [InitProg.run, e1, h1, InitProg.tasks, withTasks_append]
      rfl
    · simp only [InitProg.ops, e1]
      exact h2 a ha
  | setOptions o inp next ih => intro s _ hc; simp [InitProg.optionCalls] at hc
  | call c next ih =>
    intro s h hc
    simp only [InitProg.optionCalls] at hc
    obtain ⟨m, e, x, h1, h2⟩ := ih _ _ { s with ctx := (s.ctx.call E.G E.udig c).1 } h hc
    refine ⟨m, e, x, ?_, fun a ha => ?_⟩
    · simp only [InitProg.run, h1, InitProg.tasks]; rfl
    · have h3 := Ctx.call_ops E.G E.udig c s.ctx a ha
      have := h2 (a.run E.G (if s.ctx.useAccount then c.ops E.udig else [])) (by simp only [h3]; rfl)
      rw [this]
      simp only [InitProg.ops, Ctx.after, Acct.run_append, h3]

/-- `process_initialize` up to its only call of `set_options`. -/
theorem init_split (E : StartEnv γ ν) (o : Opts) (inp : OptInputs γ) (p : InitProg γ ν μ) : ∀ s : StartSt γ ν μ,
    s.strat.allowed = true → s.ctx.useAccount = false → p.optionCalls E s = [(o, inp)] →
    ∃ (ts : List TaskDesc) (next : Ctx γ ν → Py Unit → InitProg γ ν μ), ∀ s2 r, (s.withTasks ts).setOptions E o inp = some (s2, r) →
      p.run E s = (next s2.ctx r).run E s2 ∧ (next s2.ctx r).optionCalls E s2 = [] ∧
      p.tasks E s = ts ++ (next s2.ctx r).tasks E s2 ∧ p.ops E s = (next s2.ctx r).ops E s2 := by
  induction p with
  | done m e => intro s _ _ hc; simp [InitProg.optionCalls] at hc
  | runDaily f t next ih =>
    intro s h hu hc
    have e1 := runDaily_tasks s h f t
    simp only [InitProg.optionCalls, e1] at hc
    obtain ⟨ts, nx, hx⟩ := ih (s.strat.runDaily f t).2 (s.withTasks (dailyTask f t)) h hu hc
    refine ⟨dailyTask f t ++ ts, nx, fun s2 r hs => ?_⟩
    rw [← withTasks_append] at hs
    obtain ⟨k1, k2, k3, k4⟩ := hx s2 r hs
    refine ⟨?_, k2, ?_, ?_⟩
    · simp only [InitProg.run, e1, k1]
    · simp only [InitProg.tasks, e1, k3, List.append_assoc]; rfl
    · simp only [InitProg.ops, e1, k4]
  | setOptions o' inp' next ih =>
    intro s h hu hc
    simp only [InitProg.optionCalls, List.cons.injEq, Prod.mk.injEq] at hc
    obtain ⟨⟨rfl, rfl⟩, hc⟩ := hc
    refine ⟨[], next, fun s2 r hs => ?_⟩
    have e : s.withTasks [] = s := by simp [StartSt.withTasks]
    rw [e] at hs
    rw [hs] at hc
    exact ⟨by simp only [InitProg.run, hs], hc, by simp only [InitProg.tasks, hs, List.nil_append], by simp only [InitProg.ops, hs]⟩
  | call c next ih =>
    intro s h hu hc
    have e1 := Ctx.call_off E.G E.udig c s.ctx hu
    have e2 : ({ s with ctx := (s.ctx.call E.G E.udig c).1 } : StartSt γ ν μ) = s := by rw [e1]
    simp only [InitProg.optionCalls, e2] at hc
    obtain ⟨ts, nx, hx⟩ := ih _ _ s h hu hc
    refine ⟨ts, nx, fun s2 r hs => ?_⟩
    obtain ⟨k1, k2, k3, k4⟩ := hx s2 r hs
    refine ⟨?_, k2, ?_, ?_⟩
    · simp only [InitProg.run, e2, k1]
    · simp only [InitProg.tasks, e2, k3]
    · simp only [InitProg.ops, hu, e2, k4, Bool.false_eq_true, if_false, List.nil_append]

/-! ## `set_options` -/

/-- The settings with which the source of the timer is scheduled. -/
def StartEnv.timerEnv (E : StartEnv γ ν) (o' : Opts) (nb no : Bool) : RunEnv (PSt γ ν μ) :=
  ⟨E.ecfg (E.cfg.market o').forEntries, E.fuel, (SchedSt.accountSetup 0 nb no {}).bus, (SchedSt.accountSetup 0 nb no {}).classes,
    E.dates, fun _ p => (p, none)⟩

/-- The account after `set_options`. -/
def StartEnv.account (E : StartEnv γ ν) (o' : Opts) (g : γ) (nb no : Bool) : Acct γ ν :=
  ({ Acct.init g with gate := (E.gateSetup o' g).1 } : Acct γ ν).run E.G (syncOps nb no)

theorem accountSetup_works (E : StartEnv γ ν) (o' : Opts) (g : γ) (now : Int) (s : StartSt γ ν μ) (hs : s.sched = {}) (h0 : s.sources = 0)
    (hg : (E.gateSetup o' g).2 = .ok ()) (acc : Option (TimerSetup × ESrc Str))
    (hacc0 : acc.isSome = (E.cfg.needBalance o' || E.cfg.needOrders o'))
    (hacc : ∀ x ∈ acc, E.timerSource o' now = some (.ok x.2)) (l : LoopSt (RunW (PSt γ ν μ)) Nat PyErr)
    (hl : runStart (E.timerEnv o' (E.cfg.needBalance o') (E.cfg.needOrders o')) 0 (acc.toList.map fun x => (x.2, .ok ())) s.loop = (l, none))
    (hh : l.world.hung = false) :
    s.accountSetup E 0 o' g now = some ({ s with
      sched := SchedSt.accountSetup 0 (E.cfg.needBalance o') (E.cfg.needOrders o') {}
      ctx := { s.ctx with acct := some (E.account o' g (E.cfg.needBalance o') (E.cfg.needOrders o')) }
      loop := l
      sources := acc.toList.length }, .ok ()) := by
  have hset := c65_setup E.G (E.gateSetup o') (E.cfg.needBalance o') (E.cfg.needOrders o') (.ok ()) (Acct.init g)
  have h1 := hset.1.2 ⟨hg, fun _ => rfl⟩
  have h2 := hset.2.1 h1
  have h3 : (Acct.init (ν := ν) g).setup E.G (E.gateSetup o') (E.cfg.needBalance o') (E.cfg.needOrders o') (.ok ()) =
      (E.account o' g (E.cfg.needBalance o') (E.cfg.needOrders o'), .ok ()) := Prod.ext h2 h1
  cases acc with
  | none =>
    simp only [Option.isSome_none] at hacc0
    simp only [Option.toList_none, List.map_nil, runStart, Prod.mk.injEq, and_true] at hl
    have e : SchedSt.accountSetup 0 (E.cfg.needBalance o') (E.cfg.needOrders o') {} = {} := by
      simp only [SchedSt.accountSetup, ← hacc0, Bool.false_eq_true, if_false]
    rw [e]
    simp only [StartSt.accountSetup, ← hacc0, Bool.and_false, Bool.false_eq_true, if_false, h3, ← hl, Option.toList_none, List.length_nil]
    rw [← hs, ← h0]
  | some x =>
    simp only [Option.isSome_some] at hacc0
    have e : SchedSt.accountSetup 0 (E.cfg.needBalance o') (E.cfg.needOrders o') {} =
        SchedSt.registerSync 0 (E.cfg.needBalance o') (E.cfg.needOrders o') {} := by
      simp only [SchedSt.accountSetup, ← hacc0, if_true]
    simp only [StartEnv.timerEnv, Option.toList_some, List.map_cons, List.map_nil, e] at hl
    have ht : s.timer E 0 o' now = some ({ s with
        sched := SchedSt.accountSetup 0 (E.cfg.needBalance o') (E.cfg.needOrders o') {}, loop := l, sources := 1 }, .ok ()) := by
      simp only [StartSt.timer, hacc x rfl, hs, h0, hl, hh, e, Bool.false_eq_true, if_false, Nat.zero_add]
    simp only [StartSt.accountSetup, hg, ← hacc0, Except.isOk, Except.toBool, Bool.and_true, if_true, ht, h3]
    rfl

theorem setOptions_works (E : StartEnv γ ν) (p : InitProg γ ν μ) (m0 : μ) (o o' : Opts) (inp : OptInputs γ) (g : γ)
    (s' : StartSt γ ν μ) (m : μ) (W : WorkingInit E p m0 o o' inp g s' m) (s : StartSt γ ν μ) (ha : s.strat.allowed = true)
    (hc : s.strat.setupAccountCfg = E.cfg.setupAccount) (hn : s.strat.account = none) (hs : s.sched = {}) (h0 : s.sources = 0)
    (hx : s.ctx.acct = none) (ho : s.olds = []) (acc : Option (TimerSetup × ESrc Str))
    (hacc0 : acc.isSome = (E.cfg.needBalance o' || E.cfg.needOrders o'))
    (hacc : ∀ x ∈ acc, E.timerSource o' inp.now = some (.ok x.2)) (l : LoopSt (RunW (PSt γ ν μ)) Nat PyErr)
    (hl : runStart (E.timerEnv o' (E.cfg.needBalance o') (E.cfg.needOrders o')) 0 (acc.toList.map fun x => (x.2, .ok ())) s.loop = (l, none))
    (hh : l.world.hung = false) :
    s.setOptions E o inp = some ({
      strat := { s.strat with options := o', useAccount := some true, account := some 0 }
      sched := SchedSt.accountSetup 0 (E.cfg.needBalance o') (E.cfg.needOrders o') {}
      ctx := ⟨true, some (E.account o' g (E.cfg.needBalance o') (E.cfg.needOrders o'))⟩
      loop := l
      sources := acc.toList.length }, .ok ()) := by
  have hu : o'.useAccount.getD s.strat.setupAccountCfg = true := by rw [W.kept.same.1, hc]; exact W.use
  have hno : o'.accountNo.isNone = false := by
    have := W.number
    rw [W.kept.same.2.2.2.2]
    cases h : o.accountNo <;> simp_all
  simp only [StartSt.setOptions, ha, Bool.not_true, Bool.false_eq_true, if_false, (parse_iff _ _).2 W.kept, W.dir, hu, if_true, hno,
    W.configured, W.ctor, hn, Option.elim_none]
  rw [accountSetup_works E o' g inp.now
    ⟨⟨true, s.strat.schedules, o', some true, some 0, s.strat.setupAccountCfg⟩, s.sched, ⟨true, s.ctx.acct⟩, s.loop, s.sources,
      s.olds ++ s.ctx.acct.toList⟩
    hs h0 W.gate acc hacc0 hacc l hl hh]
  simp [hx, ho]

/-- The state after `process_initialize`. -/
theorem init_works (E : StartEnv γ ν) (p : InitProg γ ν μ) (m0 : μ) (o o' : Opts) (inp : OptInputs γ) (g : γ)
    (s' : StartSt γ ν μ) (m : μ) (W : WorkingInit E p m0 o o' inp g s' m)
    (acc : Option (TimerSetup × ESrc Str))
    (hacc0 : acc.isSome = (E.cfg.needBalance o' || E.cfg.needOrders o'))
    (hacc : ∀ x ∈ acc, E.timerSource o' inp.now = some (.ok x.2)) (l : LoopSt (RunW (PSt γ ν μ)) Nat PyErr)
    (hl : runStart (E.timerEnv o' (E.cfg.needBalance o') (E.cfg.needOrders o')) 0 (acc.toList.map fun x => (x.2, .ok ()))
      (runEmpty ⟨⟨false, none⟩, m0, []⟩) = (l, none))
    (hh : l.world.hung = false) :
    s'.strat.options = o' ∧ s'.strat.schedules = p.tasks E (E.entered m0) ∧
      s'.sched = SchedSt.accountSetup 0 (E.cfg.needBalance o') (E.cfg.needOrders o') {} ∧
      s'.ctx = ⟨true, some ((E.account o' g (E.cfg.needBalance o') (E.cfg.needOrders o')).run E.G (p.ops E (E.entered m0)))⟩ ∧
      s'.loop = l ∧ s'.sources = acc.toList.length ∧ s'.olds = [] := by
  obtain ⟨ts, next, hx⟩ := init_split E o inp p (E.entered m0) rfl rfl W.once
  have hset := setOptions_works E p m0 o o' inp g s' m W ((E.entered m0).withTasks ts) rfl rfl rfl rfl rfl rfl rfl acc hacc0 hacc l hl hh
  obtain ⟨k1, k2, k3, k4⟩ := hx _ _ hset
  obtain ⟨m2, e2, x, h1, h2⟩ := init_quiet E _ _ (by rfl) k2
  have hr := W.runs
  rw [k1, h1] at hr
  simp only [Option.some.injEq, Prod.mk.injEq] at hr
  have hx2 := h2 _ rfl
  rw [← hr.1, k3, k4]
  refine ⟨rfl, ?_, rfl, ?_, rfl, rfl, rfl⟩
  · simp [StartSt.withTasks, StartEnv.entered, StartEnv.fresh]
  · simp only [hx2, Ctx.after]

end Jq
