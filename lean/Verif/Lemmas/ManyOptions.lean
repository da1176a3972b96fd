import Verif.Lemmas.NoAccount
import Verif.Props.C66_Numbering
/-! Lemmas for C78 with any number of calls of `set_options`. -/
namespace Jq

/-! ## Sources whose entries are times of day -/

/-- All entries are texts of times of day and there is a start: what the synchronisation timer makes. -/
def ESrc.Plain {β : Type} (s : ESrc β) : Prop := (∀ x ∈ s.daily, ∃ t, x.1 = hmsStr t) ∧ s.start.isSome = true

/-- The settings differ in the trading periods only. -/
def ECfg.Alike (c d : ECfg) : Prop := c.historyStart = d.historyStart ∧ c.count = d.count

section
variable {β : Type} {c d : ECfg}

theorem entryTime_plain (mp mp' : Periods) (day t : Int) :
    entryTime mp day (hmsStr t) = entryTime mp' day (hmsStr t) ∧ ∃ v, entryTime mp day (hmsStr t) = .ok v := by
  have hc : ':' ∈ hmsStr t := by simp [hmsStr, two]
  have h0 := entryTime_hms mp t
  simp only [entryTime, if_pos hc] at h0 ⊢
  refine ⟨trivial, ?_⟩
  cases h : clockTime (hmsStr t) with
  | error e => rw [h] at h0; cases h0
  | ok v => exact ⟨_, rfl⟩

theorem getDays_alike (h : c.Alike d) (today : Int) (s : ESrc β) (hs : s.Plain) :
    s.getDays c today = s.getDays d today ∧ (s.getDays c today).1.Plain ∧ ∃ ds, (s.getDays c today).2 = .ok ds := by
  obtain ⟨st, hst⟩ := Option.isSome_iff_exists.1 hs.2
  simp only [ESrc.getDays, h.1, h.2, hst]
  refine ⟨trivial, ?_, ?_⟩
  · split
    · split
      · exact hs
      · exact ⟨hs.1, rfl⟩
    · exact ⟨hs.1, rfl⟩
  · split
    · split
      · exact ⟨_, rfl⟩
      · exact ⟨_, rfl⟩
    · exact ⟨_, rfl⟩

theorem reset_alike (h : c.Alike d) (today : Int) (s : ESrc β) (hs : s.Plain) :
    s.resetIfNeeded c today = s.resetIfNeeded d today ∧ (s.resetIfNeeded c today).1.Plain ∧ (s.resetIfNeeded c today).2 = .ok () := by
  simp only [ESrc.resetIfNeeded]
  split
  · exact ⟨rfl, hs, rfl⟩
  · obtain ⟨h1, h2, ds, h3⟩ := getDays_alike h today ({ s with events := [], hasHis := false } : ESrc β) hs
    rw [← h1]
    generalize ({ s with events := [], hasHis := false } : ESrc β).getDays c today = q at h2 h3
    obtain ⟨s', r⟩ := q
    simp only at h3
    subst h3
    exact ⟨rfl, h2, rfl⟩

theorem addEvents_alike (day : Int) (xs : List (Str × β)) (hx : ∀ x ∈ xs, ∃ t, x.1 = hmsStr t) : ∀ (s : ESrc β), s.Plain →
    s.addEvents c day xs = s.addEvents d day xs ∧ (s.addEvents c day xs).1.Plain ∧ (s.addEvents c day xs).2 = .ok () := by
  induction xs with
  | nil => intro s hs; exact ⟨rfl, hs, rfl⟩
  | cons x xs ih =>
    intro s hs
    obtain ⟨e, b⟩ := x
    obtain ⟨t, ht⟩ := hx (e, b) (List.mem_cons_self ..)
    simp only at ht
    subst ht
    obtain ⟨h1, v, h2⟩ := entryTime_plain c.periods d.periods day t
    have key : s.addEvent c day (hmsStr t) b = s.addEvent d day (hmsStr t) b ∧ (s.addEvent c day (hmsStr t) b).1.Plain ∧
        (s.addEvent c day (hmsStr t) b).2 = .ok () := by
      obtain ⟨st, hst⟩ := Option.isSome_iff_exists.1 hs.2
      simp only [ESrc.addEvent, ← h1, h2, hst]
      refine ⟨trivial, ?_⟩
      split
      · exact ⟨hs, rfl⟩
      · split
        · exact ⟨hs, rfl⟩
        · exact ⟨⟨hs.1, rfl⟩, rfl⟩
    obtain ⟨k1, k2, k3⟩ := key
    simp only [ESrc.addEvents, ← k1]
    generalize s.addEvent c day (hmsStr t) b = q at k2 k3
    obtain ⟨s', r⟩ := q
    simp only at k3
    subst k3
    exact ih (fun x h => hx x (List.mem_cons_of_mem _ h)) s' k2

theorem genLoop_alike (h : c.Alike d) (clock : Nat → Int) (fuel : Nat) : ∀ (i : Nat) (s : ESrc β), s.Plain →
    ESrc.genLoop c clock fuel i s = ESrc.genLoop d clock fuel i s ∧
      ∀ s' r, ESrc.genLoop c clock fuel i s = some (s', r) → s'.Plain ∧ r = .ok () := by
  induction fuel with
  | zero => intro i s _; exact ⟨rfl, fun s' r h => by cases h⟩
  | succ n ih =>
    intro i s hs
    simp only [ESrc.genLoop]
    split
    · refine ⟨rfl, fun s' r h => ?_⟩
      simp only [Option.some.injEq, Prod.mk.injEq] at h
      rw [← h.1, ← h.2]; exact ⟨hs, rfl⟩
    · have rest : ∀ s1 : ESrc β, s1.Plain →
          (match s1.days with
            | [] => some (s1, Except.ok ())
            | x :: xs =>
              match ({ s1 with days := xs } : ESrc β).addEvents c x s1.daily with
              | (s', .error e) => some (s', Except.error e)
              | (s', .ok ()) => ESrc.genLoop c clock n (i + 1) s') =
          (match s1.days with
            | [] => some (s1, Except.ok ())
            | x :: xs =>
              match ({ s1 with days := xs } : ESrc β).addEvents d x s1.daily with
              | (s', .error e) => some (s', Except.error e)
              | (s', .ok ()) => ESrc.genLoop d clock n (i + 1) s') ∧
          ∀ s' r, (match s1.days with
            | [] => some (s1, Except.ok ())
            | x :: xs =>
              match ({ s1 with days := xs } : ESrc β).addEvents c x s1.daily with
              | (s', .error e) => some (s', Except.error e)
              | (s', .ok ()) => ESrc.genLoop c clock n (i + 1) s') = some (s', r) → s'.Plain ∧ r = .ok () := by
        intro s1 p1
        cases hx : s1.days with
        | nil =>
          refine ⟨rfl, fun s' r h => ?_⟩
          simp only [Option.some.injEq, Prod.mk.injEq] at h
          rw [← h.1, ← h.2]; exact ⟨p1, rfl⟩
        | cons x xs =>
          obtain ⟨a1, a2, a3⟩ := addEvents_alike (c := c) (d := d) x s1.daily p1.1 ({ s1 with days := xs } : ESrc β) p1
          simp only [← a1]
          generalize ({ s1 with days := xs } : ESrc β).addEvents c x s1.daily = q at a2 a3
          obtain ⟨s', r⟩ := q
          simp only at a3
          subst a3
          exact ih (i + 1) s' a2
      by_cases hd : s.days = []
      · simp only [if_pos hd]
        obtain ⟨h1, h2, ds, h3⟩ := getDays_alike h (clock i) s hs
        rw [← h1]
        generalize s.getDays c (clock i) = q at h2 h3
        obtain ⟨s', r⟩ := q
        simp only at h3
        subst h3
        exact rest { s' with days := ds } h2
      · simp only [if_neg hd]
        exact rest s hs

theorem peek_alike (h : c.Alike d) (clock : Nat → Int) (fuel : Nat) (s : ESrc β) (hs : s.Plain) :
    s.peek c clock fuel = s.peek d clock fuel ∧ ∀ s' e, s.peek c clock fuel ≠ some (s', .error e) := by
  have key : s.genEvents c clock fuel = s.genEvents d clock fuel ∧ ∀ s' e, s.genEvents c clock fuel ≠ some (s', .error e) := by
    obtain ⟨h1, h2, h3⟩ := reset_alike h (clock 0) s hs
    simp only [ESrc.genEvents, ← h1]
    generalize s.resetIfNeeded c (clock 0) = q at h2 h3
    obtain ⟨s1, r⟩ := q
    simp only at h3
    subst h3
    simp only
    split
    · exact ⟨rfl, fun s' e he => by cases he⟩
    · obtain ⟨g1, g2⟩ := genLoop_alike h clock fuel 0 s1 h2
      rw [← g1]
      refine ⟨rfl, fun s' e he => ?_⟩
      cases hg : ESrc.genLoop c clock fuel 0 s1 with
      | none => rw [hg] at he; cases he
      | some x =>
        obtain ⟨s2, r⟩ := x
        obtain ⟨_, rfl⟩ := g2 s2 r hg
        rw [hg] at he
        cases he
  simp only [ESrc.peek, ← key.1]
  refine ⟨trivial, fun s' e he => ?_⟩
  cases hg : s.genEvents c clock fuel with
  | none => rw [hg] at he; cases he
  | some x =>
    obtain ⟨s2, r⟩ := x
    rw [hg] at he
    cases r with
    | error e' => exact key.2 _ _ hg
    | ok u => cases he

end

section
variable {α : Type}

/-- The first push of a plain source does not depend on the trading periods, and does not raise. -/
theorem runPush_alike {R R' : RunEnv α} (hc : R.cfg.Alike R'.cfg) (hf : R.fuel = R'.fuel) (hd : R.dates = R'.dates) {c : Str}
    (hcls : dget R.classes c = dget R'.classes c) (i : Nat) (w : RunW α) (hw : (w.srcs i).AllOf c) (hp : (w.srcs i).Plain) :
    runPush R i w = runPush R' i w ∧ (runPush R i w).2.2 = none := by
  obtain ⟨h1, h2⟩ := peek_alike hc (R'.dates w.polls) R'.fuel (w.srcs i) hp
  simp only [runPush, hf, hd, ← h1]
  cases hp : (w.srcs i).peek R.cfg (R'.dates w.polls) R'.fuel with
  | none => exact ⟨rfl, rfl⟩
  | some x =>
    obtain ⟨s, r⟩ := x
    cases r with
    | error e => exact absurd hp (h2 s e)
    | ok y =>
      cases y with
      | none => exact ⟨rfl, rfl⟩
      | some z =>
        have := peek_allOf hw hp
        obtain ⟨dt, cls⟩ := z
        simp only at this
        subst this
        simp only [hcls]
        exact ⟨trivial, trivial⟩

theorem runStart_alike {R R' : RunEnv α} (hc : R.cfg.Alike R'.cfg) (hf : R.fuel = R'.fuel) (hd : R.dates = R'.dates) {c : Str}
    (ss : List (ESrc Str)) (hcls : ss ≠ [] → dget R.classes c = dget R'.classes c) (hs : ∀ s ∈ ss, s.AllOf c ∧ s.Plain) :
    ∀ (i : Nat) (l : LoopSt (RunW α) Nat PyErr),
    runStart R i (ss.map fun s => (s, .ok ())) l = runStart R' i (ss.map fun s => (s, .ok ())) l ∧
      (runStart R i (ss.map fun s => (s, .ok ())) l).2 = none := by
  induction ss with
  | nil => intro i l; exact ⟨rfl, rfl⟩
  | cons s ss ih =>
    intro i l
    have hs1 := hs s (List.mem_cons_self ..)
    have hcl := hcls (by simp)
    obtain ⟨h1, h2⟩ := runPush_alike (R := R) (R' := R') hc hf hd hcl i
      { l.world with srcs := fun j => if j = i then s else l.world.srcs j } (by simpa using hs1.1) (by simpa using hs1.2)
    simp only [List.map_cons, runStart, ← h1]
    generalize runPush R i { l.world with srcs := fun j => if j = i then s else l.world.srcs j } = q at h2
    obtain ⟨w, acts, err⟩ := q
    simp only at h2
    subst h2
    exact ih (fun _ => hcl) (fun s h => hs s (List.mem_cons_of_mem _ h)) _ _

end

/-! ## The timers -/

theorem timesLoop_plain (endT step : Int) (fuel : Nat) : ∀ (cur : Int) (ts : List Str), timesLoop endT step fuel cur = some ts →
    ∀ x ∈ ts, ∃ t, x = hmsStr t := by
  induction fuel with
  | zero => intro cur ts h; cases h
  | succ n ih =>
    intro cur ts h
    simp only [timesLoop] at h
    split at h
    · obtain ⟨us, h1, rfl⟩ := Option.map_eq_some_iff.1 h
      intro x hx
      rcases List.mem_cons.1 hx with rfl | hx
      · exact ⟨_, rfl⟩
      · exact ih _ _ h1 x hx
    · cases h; intro x hx; cases hx

theorem pairTimes_plain (fuel : Nat) (day step : Int) (ps : List PairVal) : ∀ ts, pairTimes fuel day step ps = some (.ok ts) →
    ∀ x ∈ ts, ∃ t, x = hmsStr t := by
  induction ps with
  | nil => intro ts h; cases h; intro x hx; cases hx
  | cons p ps ih =>
    intro ts h
    simp only [pairTimes] at h
    split at h
    · cases h
    · split at h
      · cases h
      · rename_i us hus
        split at h
        · cases h
        · cases h
        · rename_i vs hvs
          cases h
          intro x hx
          rcases List.mem_append.1 hx with hx | hx
          · exact timesLoop_plain _ _ _ _ _ hus x hx
          · exact ih _ hvs x hx

theorem syncTimes_plain (fuel : Nat) (now0 step : Int) (v : PerVal) (ts : List Str) (h : syncTimes fuel now0 step v = some (.ok ts)) :
    ∀ x ∈ ts, ∃ t, x = hmsStr t := by
  have loop : ∀ e c, (timesLoop e step fuel c).map Except.ok = some (Except.ok (ε := PyErr) ts) → ∀ x ∈ ts, ∃ t, x = hmsStr t := by
    intro e c h
    obtain ⟨us, h1, h2⟩ := Option.map_eq_some_iff.1 h
    cases h2
    exact timesLoop_plain _ _ _ _ _ h1
  cases v with
  | falsy => exact loop _ _ h
  | scalar => cases h
  | seq ps =>
    cases ps with
    | nil => exact loop _ _ h
    | cons p ps => exact pairTimes_plain _ _ _ _ _ h

variable {γ ν μ : Type} [PyNum ν]

omit [PyNum ν] in
theorem timerSource_plain (E : StartEnv γ ν) (o : Opts) (now : Int) (src : ESrc Str) (h : E.timerSource o now = some (.ok src)) :
    src.AllOf accEvent ∧ src.Plain := by
  simp only [StartEnv.timerSource] at h
  split at h
  · cases h
  · split at h
    · cases h
    · cases h
    · rename_i ts hts
      cases h
      have hx := syncTimes_plain _ _ _ _ _ hts
      rw [addDailies]
      refine ⟨addDailies_allOf _ (by intro e he; obtain ⟨_, _, rfl⟩ := List.mem_map.1 he; rfl) _ ⟨by simp, by simp⟩, ?_⟩
      have : ∀ (es : List (Str × Str)), (∀ e ∈ es, ∃ t, e.1 = hmsStr t) → ∀ s : ESrc Str, s.Plain →
          (es.foldl (fun s e => s.addDaily e.1 e.2) s).Plain := by
        intro es
        induction es with
        | nil => intro _ s hs; exact hs
        | cons e es ih =>
          intro he s hs
          refine ih (fun x hx => he x (List.mem_cons_of_mem _ hx)) _ ⟨fun x hx => ?_, hs.2⟩
          simp only [ESrc.addDaily, List.mem_append, List.mem_singleton] at hx
          rcases hx with hx | rfl
          · exact hs.1 x hx
          · exact he e (List.mem_cons_self ..)
      refine this _ ?_ _ ⟨by simp, rfl⟩
      intro e he
      obtain ⟨t, ht, rfl⟩ := List.mem_map.1 he
      exact hx t ht

omit [PyNum ν] in
theorem timerSource_makes (E : StartEnv γ ν) {o o' : Opts} (hk : KeptOptions o o') {now : Int} {t : TimerSetup} (h : TimerFrom E o now t)
    {src : ESrc Str} (hs : E.timerSource o' now = some (.ok src)) : t.Makes E.ctxStart E.ctxEnd src := by
  rw [timerSource_eq hk h] at hs
  obtain ⟨x, h1, h2⟩ := Option.map_eq_some_iff.1 hs
  cases h2
  exact ⟨h.positive, h.inDay, h.some, E.fuel, h1⟩

/-! ## `set_options` -/

omit [PyNum ν] in
theorem want_need (E : StartEnv γ ν) {o o' : Opts} (hk : KeptOptions o o') :
    E.cfg.needBalance o' = wantBalance E o ∧ E.cfg.needOrders o' = wantOrders E o := by
  simp only [ProcCfg.needBalance, ProcCfg.needOrders, wantBalance, wantOrders, hk.same.2.1, hk.same.2.2.1]
  constructor
  · cases o.syncBalance <;> rfl
  · cases o.syncOrder <;> rfl

theorem dkeys_dset_sub {β : Type} (d : Dict Str β) (k k' : Str) (v : β) (h : k' ∈ dkeys (dset d k v)) : k' = k ∨ k' ∈ dkeys d := by
  rw [mem_dkeys_iff, dget_dset] at h
  by_cases e : k = k'
  · exact Or.inl e.symm
  · rw [if_neg e, ← mem_dkeys_iff] at h
    exact Or.inr h

/-- The classes and the bus while `process_initialize` runs. -/
structure SyncOnly (s : SchedSt) : Prop where
  init : AfterInit s
  two : ∀ p, dget s.classes accEvent = some p → p = 2

theorem createClass_syncOnly {s : SchedSt} (h : SyncOnly s) : SyncOnly (s.createClass accEvent 2) ∧
    dget (s.createClass accEvent 2).classes accEvent = some 2 := by
  obtain ⟨⟨h1, h2, h3, h4⟩, h5⟩ := h
  simp only [SchedSt.createClass]
  cases hc : dget s.classes accEvent with
  | some p => exact ⟨⟨⟨h1, h2, h3, h4⟩, h5⟩, by rw [hc, h5 p hc]⟩
  | none =>
    refine ⟨⟨⟨h1, h2, h3, ?_⟩, ?_⟩, ?_⟩
    · intro c hm
      exact (dkeys_dset_sub _ _ _ _ hm).elim id (h4 c)
    · intro p hp
      rw [dget_dset_self] at hp
      exact (Option.some.inj hp).symm
    · exact dget_dset_self ..

theorem registerSync_syncOnly {s : SchedSt} (h : SyncOnly s) (n : Nat) (nb no : Bool) : SyncOnly (s.registerSync n nb no) ∧
    dget (s.registerSync n nb no).classes accEvent = some 2 := by
  have hreg : ∀ (s : SchedSt) (c : Cb), SyncOnly s → SyncOnly { s with bus := s.bus.register accEvent c 0 } := by
    rintro s c ⟨⟨h1, h2, h3, h4⟩, h5⟩
    refine ⟨⟨h1, h2, ?_, h4⟩, h5⟩
    intro k hk
    exact (dkeys_dset_sub _ _ _ _ hk).elim id (h3 k)
  have hc := createClass_syncOnly h
  simp only [SchedSt.registerSync]
  cases nb <;> cases no
  · exact hc
  · exact ⟨hreg _ _ hc.1, hc.2⟩
  · exact ⟨hreg _ _ hc.1, hc.2⟩
  · exact ⟨hreg _ _ (hreg _ _ hc.1), hc.2⟩

/-- The state during `process_initialize`, with the sources of the timers made so far. -/
structure ManyInv (E : StartEnv γ ν) (m0 : μ) (s : StartSt γ ν μ) (srcs : List (ESrc Str)) : Prop where
  allowed : s.strat.allowed = true
  cfg : s.strat.setupAccountCfg = E.cfg.setupAccount
  count : s.sources = srcs.length
  sync : SyncOnly s.sched
  cls : srcs ≠ [] → dget s.sched.classes accEvent = some 2
  plain : ∀ x ∈ srcs, x.AllOf accEvent ∧ x.Plain
  loop : ∀ R : RunEnv (PSt γ ν μ), R.cfg.Alike (E.ecfg []) → R.fuel = E.fuel → R.dates = E.dates →
    (srcs ≠ [] → dget R.classes accEvent = some 2) →
    runStart R 0 (srcs.map fun x => (x, .ok ())) (runEmpty ⟨⟨false, none⟩, m0, []⟩) = (s.loop, none)

omit [PyNum ν] in
theorem timer_many (E : StartEnv γ ν) (m0 : μ) (n : Nat) (o : Opts) (now : Int) (s s' : StartSt γ ν μ) (r : Py Unit) (srcs : List (ESrc Str))
    (h : ManyInv E m0 s srcs) (ht : s.timer E n o now = some (s', r)) :
    s'.strat = s.strat ∧ s'.ctx = s.ctx ∧
    ((∃ e, r = .error e ∧ s'.sched.bus = s.sched.bus ∧ ManyInv E m0 s' srcs) ∨
      ∃ src, r = .ok () ∧ E.timerSource o now = some (.ok src) ∧ ManyInv E m0 s' (srcs ++ [src])) := by
  simp only [StartSt.timer] at ht
  split at ht
  · cases ht
  · simp only [Option.some.injEq, Prod.mk.injEq] at ht
    obtain ⟨rfl, rfl⟩ := ht
    have hc := createClass_syncOnly h.sync
    exact ⟨rfl, rfl, Or.inl ⟨_, rfl, by simp only [SchedSt.createClass]; split <;> rfl, h.allowed, h.cfg, h.count, hc.1, fun _ => hc.2, h.plain, h.loop⟩⟩
  · rename_i src hsrc
    have hp := timerSource_plain E o now src hsrc
    have hc := registerSync_syncOnly h.sync n (E.cfg.needBalance o) (E.cfg.needOrders o)
    have step : ∀ R : RunEnv (PSt γ ν μ), R.cfg.Alike (E.ecfg []) → R.fuel = E.fuel → R.dates = E.dates →
        dget R.classes accEvent = some 2 →
        runStart ⟨E.ecfg (E.cfg.market o).forEntries, E.fuel, (s.sched.registerSync n (E.cfg.needBalance o) (E.cfg.needOrders o)).bus,
          (s.sched.registerSync n (E.cfg.needBalance o) (E.cfg.needOrders o)).classes, E.dates, fun _ p => (p, none)⟩ s.sources
            [(src, .ok ())] s.loop = runStart R s.sources [(src, .ok ())] s.loop ∧
          (runStart R s.sources [(src, .ok ())] s.loop).2 = none := by
      intro R h1 h2 h3 h4
      have := runStart_alike (R := R)
        (R' := ⟨E.ecfg (E.cfg.market o).forEntries, E.fuel, (s.sched.registerSync n (E.cfg.needBalance o) (E.cfg.needOrders o)).bus,
          (s.sched.registerSync n (E.cfg.needBalance o) (E.cfg.needOrders o)).classes, E.dates, fun _ p => (p, none)⟩)
        (c := accEvent) ⟨h1.1, h1.2⟩ h2 h3 [src] (fun _ => by rw [h4, hc.2]) (by simpa using hp) s.sources s.loop
      exact ⟨this.1.symm, this.2⟩
    have here := step ⟨E.ecfg (E.cfg.market o).forEntries, E.fuel, (s.sched.registerSync n (E.cfg.needBalance o) (E.cfg.needOrders o)).bus,
          (s.sched.registerSync n (E.cfg.needBalance o) (E.cfg.needOrders o)).classes, E.dates, fun _ p => (p, none)⟩ ⟨rfl, rfl⟩ rfl rfl hc.2
    cases hl : runStart ⟨E.ecfg (E.cfg.market o).forEntries, E.fuel,
      (s.sched.registerSync n (E.cfg.needBalance o) (E.cfg.needOrders o)).bus,
      (s.sched.registerSync n (E.cfg.needBalance o) (E.cfg.needOrders o)).classes, E.dates, fun _ p => (p, none)⟩ s.sources
        [(src, .ok ())] s.loop with | mk l err
    rw [hl] at ht
    rw [hl] at here
    have herr : err = none := here.2
    subst herr
    simp only at ht
    split at ht
    · cases ht
    · simp only [Option.some.injEq, Prod.mk.injEq] at ht
      obtain ⟨rfl, rfl⟩ := ht
      refine ⟨rfl, rfl, Or.inr ⟨src, rfl, hsrc, h.allowed, h.cfg, ?_, hc.1, fun _ => hc.2, ?_, ?_⟩⟩
      · simp only [h.count, List.length_append, List.length_singleton]
      · intro x hx
        rcases List.mem_append.1 hx with hx | hx
        · exact h.plain x hx
        · rw [List.mem_singleton.1 hx]; exact hp
      · intro R h1 h2 h3 h4
        have h4 := h4 (by simp)
        rw [List.map_append, runStart_append R _ _ _ _ _ (h.loop R h1 h2 h3 fun _ => h4)]
        simp only [List.length_map, Nat.zero_add, List.map_cons, List.map_nil]
        rw [← h.count, ← (step R h1 h2 h3 h4).1]
        exact hl

theorem accountSetup_many (E : StartEnv γ ν) (m0 : μ) (n : Nat) (o : Opts) (g : γ) (now : Int) (s s' : StartSt γ ν μ) (r : Py Unit)
    (srcs : List (ESrc Str)) (h : ManyInv E m0 s srcs) (hs : s.accountSetup E n o g now = some (s', r)) :
    s'.strat = s.strat ∧ s'.ctx.useAccount = s.ctx.useAccount ∧
    ((¬ (r = .ok () ∧ (E.cfg.needBalance o || E.cfg.needOrders o) = true) ∧ s'.sched.bus = s.sched.bus ∧ ManyInv E m0 s' srcs) ∨
      ((r = .ok () ∧ (E.cfg.needBalance o || E.cfg.needOrders o) = true) ∧ ∃ src, E.timerSource o now = some (.ok src) ∧
        ManyInv E m0 s' (srcs ++ [src]))) := by
  have hset := fun t => c65_setup E.G (E.gateSetup o) (E.cfg.needBalance o) (E.cfg.needOrders o) t (Acct.init (ν := ν) g)
  simp only [StartSt.accountSetup] at hs
  by_cases hc : ((E.gateSetup o g).2.isOk && (E.cfg.needBalance o || E.cfg.needOrders o)) = true
  · rw [if_pos hc] at hs
    simp only [Bool.and_eq_true] at hc
    cases ht : s.timer E n o now with
    | none => rw [ht] at hs; cases hs
    | some x =>
      obtain ⟨s1, t⟩ := x
      rw [ht] at hs
      simp only at hs
      obtain ⟨k1, k2, k3⟩ := timer_many E m0 n o now s s1 t srcs h ht
      have hset := (hset t).1
      generalize (Acct.init g).setup E.G (E.gateSetup o) (E.cfg.needBalance o) (E.cfg.needOrders o) t = q at hs hset
      obtain ⟨a, r'⟩ := q
      simp only [Option.some.injEq, Prod.mk.injEq] at hs
      obtain ⟨rfl, rfl⟩ := hs
      refine ⟨k1, by rw [k2], ?_⟩
      rcases k3 with ⟨e, rfl, kb, k3⟩ | ⟨src, rfl, k3, k4⟩
      · refine Or.inl ⟨fun hr => ?_, kb, ⟨k3.allowed, k3.cfg, k3.count, k3.sync, k3.cls, k3.plain, k3.loop⟩⟩
        have := (hset.1 hr.1).2 (by simpa using hc.2)
        cases this
      · refine Or.inr ⟨⟨hset.2 ⟨?_, fun _ => rfl⟩, hc.2⟩, src, k3, ⟨k4.allowed, k4.cfg, k4.count, k4.sync, k4.cls, k4.plain, k4.loop⟩⟩
        have := hc.1
        show (E.gateSetup o g).2 = _
        cases hx : (E.gateSetup o g).2 with
        | error e => rw [hx] at this; cases this
        | ok u => rfl
  · rw [if_neg hc] at hs
    simp only at hs
    have hset := (hset (.ok ())).1
    generalize (Acct.init g).setup E.G (E.gateSetup o) (E.cfg.needBalance o) (E.cfg.needOrders o) (.ok ()) = q at hs hset
    obtain ⟨a, r'⟩ := q
    simp only [Option.some.injEq, Prod.mk.injEq] at hs
    obtain ⟨rfl, rfl⟩ := hs
    refine ⟨rfl, rfl, Or.inl ⟨fun hr => hc ?_, rfl, ⟨h.allowed, h.cfg, h.count, h.sync, h.cls, h.plain, h.loop⟩⟩⟩
    have := (hset.1 hr.1).1
    rw [Bool.and_eq_true]
    exact ⟨by rw [show (E.gateSetup o g).2 = .ok () from this]; rfl, hr.2⟩

/-- What one call of `set_options` does to the timers. -/
theorem setOptions_many (E : StartEnv γ ν) (m0 : μ) (o : Opts) (inp : OptInputs γ) (s s' : StartSt γ ν μ) (r : Py Unit) (srcs : List (ESrc Str))
    (h : ManyInv E m0 s srcs) (hs : s.setOptions E o inp = some (s', r)) :
    s'.strat.options = optionsAfter s.strat.options [(o, inp)] ∧ s'.strat.schedules = s.strat.schedules ∧
    ((¬ (r = .ok () ∧ s'.ctx.useAccount = true ∧ (wantBalance E o || wantOrders E o) = true) ∧ s'.sched.bus = s.sched.bus ∧ ManyInv E m0 s' srcs) ∨
      ((r = .ok () ∧ s'.ctx.useAccount = true ∧ (wantBalance E o || wantOrders E o) = true) ∧ ∃ o' src, KeptOptions o o' ∧
        E.timerSource o' inp.now = some (.ok src) ∧ ManyInv E m0 s' (srcs ++ [src]))) := by
  simp only [StartSt.setOptions, show (!s.strat.allowed) = false by rw [h.allowed]; rfl, Bool.false_eq_true, if_false, optionsAfter,
    List.foldl_cons, List.foldl_nil] at hs ⊢
  cases hp : o.parse with
  | error e =>
    rw [hp] at hs
    simp only [Option.some.injEq, Prod.mk.injEq] at hs
    obtain ⟨rfl, rfl⟩ := hs
    exact ⟨rfl, rfl, Or.inl ⟨(fun h => by cases h.1), rfl, h⟩⟩
  | ok o' =>
    have hk := (parse_iff _ _).1 hp
    obtain ⟨w1, w2⟩ := want_need E hk
    rw [hp] at hs
    simp only at hs ⊢
    cases hm : inp.mkdir with
    | error e =>
      rw [hm] at hs
      simp only [Option.some.injEq, Prod.mk.injEq] at hs
      obtain ⟨rfl, rfl⟩ := hs
      exact ⟨rfl, rfl, Or.inl ⟨(fun h => by cases h.1), rfl, ⟨h.allowed, h.cfg, h.count, h.sync, h.cls, h.plain, h.loop⟩⟩⟩
    | ok u =>
      rw [hm] at hs
      simp only at hs
      split at hs
      · rename_i hu
        split at hs
        · simp only [Option.some.injEq, Prod.mk.injEq] at hs
          obtain ⟨rfl, rfl⟩ := hs
          exact ⟨rfl, rfl, Or.inl ⟨(fun h => by cases h.1), rfl, ⟨h.allowed, h.cfg, h.count, h.sync, h.cls, h.plain, h.loop⟩⟩⟩
        · split at hs
          · simp only [Option.some.injEq, Prod.mk.injEq] at hs
            obtain ⟨rfl, rfl⟩ := hs
            exact ⟨rfl, rfl, Or.inl ⟨(fun h => by cases h.1), rfl, ⟨h.allowed, h.cfg, h.count, h.sync, h.cls, h.plain, h.loop⟩⟩⟩
          · cases hg : inp.gateCtor with
            | error e =>
              rw [hg] at hs
              simp only [Option.some.injEq, Prod.mk.injEq] at hs
              obtain ⟨rfl, rfl⟩ := hs
              exact ⟨rfl, rfl, Or.inl ⟨(fun h => by cases h.1), rfl, ⟨h.allowed, h.cfg, h.count, h.sync, h.cls, h.plain, h.loop⟩⟩⟩
            | ok g =>
              rw [hg] at hs
              simp only at hs
              have K := fun h' => accountSetup_many E m0 _ o' g inp.now _ s' r srcs h' hs
              obtain ⟨k1, k2, k3⟩ := K ⟨h.allowed, h.cfg, h.count, h.sync, h.cls, h.plain, h.loop⟩
              rw [w1, w2] at k3
              refine ⟨by rw [k1], by rw [k1], ?_⟩
              rcases k3 with ⟨k3, kb, k4⟩ | ⟨k3, src, k4, k5⟩
              · exact Or.inl ⟨fun h => k3 ⟨h.1, h.2.2⟩, kb, k4⟩
              · exact Or.inr ⟨⟨k3.1, by rw [k2]; exact hu, k3.2⟩, o', src, hk, k4, k5⟩
      · rename_i hu
        simp only [Option.some.injEq, Prod.mk.injEq] at hs
        obtain ⟨rfl, rfl⟩ := hs
        exact ⟨rfl, rfl, Or.inl ⟨fun h => hu h.2.1, rfl, ⟨h.allowed, h.cfg, h.count, h.sync, h.cls, h.plain, h.loop⟩⟩⟩

/-- What one call of `set_options` adds to the callbacks. -/
theorem setOptions_cbs (E : StartEnv γ ν) (m0 : μ) (o : Opts) (inp : OptInputs γ) (s s' : StartSt γ ν μ) (r : Py Unit) (srcs : List (ESrc Str))
    (h : ManyInv E m0 s srcs) (hn : Numbered s) (hs : s.setOptions E o inp = some (s', r)) :
    s'.syncCbs = s.syncCbs ++
      if r = .ok () ∧ s'.ctx.useAccount = true then cbsOf s.accounts.length (wantBalance E o) (wantOrders E o) else [] := by
  obtain ⟨_, _, h1⟩ := setOptions_many E m0 o inp s s' r srcs h hs
  obtain ⟨_, h2⟩ := setOptions_numbered E o inp s s' r hn hs
  by_cases hc : r = .ok () ∧ s'.ctx.useAccount = true
  · rw [if_pos hc]
    rcases h2 with ⟨_, _, _, h2⟩ | ⟨_, _, _, h2 | ⟨_, e, h2⟩⟩
    · have := h2 hc.1; rw [hc.2] at this; cases this
    · exact h2
    · rw [hc.1] at h2; cases h2
  · rw [if_neg hc, List.append_nil]
    rcases h1 with ⟨_, h1, _⟩ | ⟨h1, _⟩
    · simp only [StartSt.syncCbs, h1]
    · exact absurd ⟨h1.1, h1.2.1⟩ hc

/-- What `process_initialize` does to the timers, the options and the tasks. -/
theorem init_many (E : StartEnv γ ν) (m0 : μ) (p : InitProg γ ν μ) :
    ∀ (s s' : StartSt γ ν μ) (m : μ) (e : Option PyErr) (srcs : List (ESrc Str)), ManyInv E m0 s srcs → Numbered s →
    p.run E s = some (s', m, e) →
    s'.strat.options = optionsAfter s.strat.options (p.optionCalls E s) ∧ s'.strat.schedules = s.strat.schedules ++ p.tasks E s ∧
      s'.syncCbs = s.syncCbs ++ p.syncCalls E s ∧
      ∃ accs : List ((Opts × OptInputs γ) × ESrc Str), accs.map (·.1) = p.timerCalls E s ∧
        (∀ x ∈ accs, ∃ o', KeptOptions x.1.1 o' ∧ E.timerSource o' x.1.2.now = some (.ok x.2)) ∧
        ManyInv E m0 s' (srcs ++ accs.map (·.2)) := by
  induction p with
  | done m e =>
    intro s s' m' e' srcs h _ hr
    simp only [InitProg.run, Option.some.injEq, Prod.mk.injEq] at hr
    obtain ⟨rfl, rfl, rfl⟩ := hr
    exact ⟨rfl, by simp [InitProg.tasks], by simp [InitProg.syncCalls], [], rfl, by simp, by simpa using h⟩
  | runDaily f t next ih =>
    intro s s' m e srcs h hn hr
    have e1 := runDaily_tasks s h.allowed f t
    simp only [InitProg.run, e1] at hr
    obtain ⟨h1, h2, h3, h4⟩ := ih _ (s.withTasks (dailyTask f t)) s' m e srcs
      ⟨h.allowed, h.cfg, h.count, h.sync, h.cls, h.plain, h.loop⟩ ⟨hn.bus, hn.count, hn.below⟩ hr
    refine ⟨?_, ?_, ?_, ?_⟩
    · simp only [h1, InitProg.optionCalls, e1]; rfl
    · simp only [h2, InitProg.tasks, e1, StartSt.withTasks, List.append_assoc]; rfl
    · simp only [h3, InitProg.syncCalls, e1]; rfl
    · simp only [InitProg.timerCalls, e1]; exact h4
  | setOptions o inp next ih =>
    intro s s' m e srcs h hn hr
    simp only [InitProg.run] at hr
    cases hs : s.setOptions E o inp with
    | none => rw [hs] at hr; cases hr
    | some x =>
      obtain ⟨s1, r⟩ := x
      rw [hs] at hr
      simp only at hr
      obtain ⟨k1, k2, k3⟩ := setOptions_many E m0 o inp s s1 r srcs h hs
      have hn1 := (setOptions_numbered E o inp s s1 r hn hs).1
      have hcb := setOptions_cbs E m0 o inp s s1 r srcs h hn hs
      have hopt : ∀ cs, optionsAfter s1.strat.options cs = optionsAfter s.strat.options ((o, inp) :: cs) := by
        intro cs; rw [k1]; rfl
      rcases k3 with ⟨k3, _, k4⟩ | ⟨k3, o', src, hk, k4, k5⟩
      · obtain ⟨h1, h2, h3, h4⟩ := ih _ _ s1 s' m e srcs k4 hn1 hr
        refine ⟨?_, ?_, ?_, ?_⟩
        · rw [h1, hopt]; simp only [InitProg.optionCalls, hs]
        · rw [h2, k2]; simp only [InitProg.tasks, hs]
        · rw [h3, hcb]; simp only [InitProg.syncCalls, hs, List.append_assoc]
        · simp only [InitProg.timerCalls, hs, if_neg k3, List.nil_append]; exact h4
      · obtain ⟨h1, h2, h6, accs, h3, h4, h5⟩ := ih _ _ s1 s' m e _ k5 hn1 hr
        refine ⟨?_, ?_, ?_, ((o, inp), src) :: accs, ?_, ?_, ?_⟩
        · rw [h1, hopt]; simp only [InitProg.optionCalls, hs]
        · rw [h2, k2]; simp only [InitProg.tasks, hs]
        · rw [h6, hcb]; simp only [InitProg.syncCalls, hs, List.append_assoc]
        · simp only [InitProg.timerCalls, hs, if_pos k3, List.singleton_append, List.map_cons, h3]
        · intro x hx
          rcases List.mem_cons.1 hx with rfl | hx
          · exact ⟨o', hk, k4⟩
          · exact h4 x hx
        · rw [List.map_cons, ← List.singleton_append, ← List.append_assoc]; exact h5
  | call c next ih =>
    intro s s' m e srcs h hn hr
    have hl : ({ s with ctx := (s.ctx.call E.G E.udig c).1 } : StartSt γ ν μ).accounts.length = s.accounts.length := by
      simp only [StartSt.accounts, List.length_append, acct_isSome]
    exact ih _ _ { s with ctx := (s.ctx.call E.G E.udig c).1 } s' m e srcs
      ⟨h.allowed, h.cfg, h.count, h.sync, h.cls, h.plain, h.loop⟩
      ⟨hn.bus, hl.trans hn.count, by rw [hl]; exact hn.below⟩ hr

omit [PyNum ν] in
theorem entered_many (E : StartEnv γ ν) (m0 : μ) : ManyInv E m0 (E.entered m0) [] ∧ Numbered (E.entered m0) := by
  refine ⟨⟨rfl, rfl, rfl, ⟨⟨rfl, rfl, (by intro c h; cases h), (by intro c h; cases h)⟩, by intro p h; cases h⟩, by simp, by simp, fun R _ _ _ _ => rfl⟩,
    rfl, rfl, by intro cb hcb; cases hcb⟩

end Jq
