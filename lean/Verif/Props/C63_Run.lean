import Verif.Spec.Run
import Verif.Lemmas.Run
import Verif.Lemmas.Timers
import Verif.Props.C05_Order
import Verif.Props.C11_Timers
import Verif.Props.C12_Strategy
import Verif.Props.C53_Millis
/-!
# C63: a whole run

From `process_initialize` to the calls of the user's functions: set-up of the tasks, real event sources, the bus, the
queue and the loop together.
-/
namespace Jq

/-! ## Times of the entries -/

private theorem chunksDelta_whole (cs : List (Str × Char)) : chunksDelta cs % secUs = 0 := by
  simp only [chunksDelta]; exact Int.mul_emod_left _ _

private theorem parseOffset_whole {s : Str} {d : Int} (h : parseOffset s = .ok d) : d % secUs = 0 := by
  simp only [parseOffset] at h
  split at h
  · cases h; exact chunksDelta_whole _
  · cases h

private theorem parseExpr_whole {e : Str} {r : Str × Str × Int} (h : parseExpr e = .ok r) : r.2.2 % secUs = 0 := by
  simp only [parseExpr] at h
  split at h
  · split at h
    · cases h; rfl
    · cases h
  · rename_i base op offset _
    cases hp : parseOffset offset with
    | error er => rw [hp] at h; cases h
    | ok d => rw [hp] at h; cases h; exact parseOffset_whole hp
  · cases h

private theorem entryTime_whole {mp : Periods} (hw : WholeSeconds mp) {e : Str} {r : Int} (h : entryTime mp 0 e = .ok r) :
    r % secUs = 0 := by
  by_cases hc : ':' ∈ e
  · obtain ⟨_, _, _, hh, mm, ss, _, _, _, _, _, _, _, _, _, _, rfl⟩ := c10_accepted_in_range_partial mp 0 e r hc h
    simp only [Int.zero_mul, Int.zero_add]
    exact Int.mul_emod_left _ _
  · simp only [entryTime, if_neg hc, exprToTime] at h
    split at h
    · rename_i first last hf hl
      have h1 := hw first (List.mem_of_head? hf)
      have h2 := hw last (List.mem_of_getLast? hl)
      cases hp : parseExpr e with
      | error er => rw [hp] at h; cases h
      | ok x =>
        have h3 := parseExpr_whole hp
        obtain ⟨base, op, off⟩ := x
        rw [hp] at h
        simp only [secUs, dayUs] at h h1 h2 h3 ⊢
        split at h
        · cases h
        · rename_i t ht
          have : t % 1000000 = 0 := by
            split at ht
            · cases ht; omega
            · split at ht
              · cases ht; omega
              · cases ht
          split at h <;> cases h <;> omega
    · cases h

private theorem timesLoop_fuel {endT step : Int} {fuel fuel' : Nat} {cur : Int} {ts ts' : List Str}
    (h : timesLoop endT step fuel cur = some ts) (h' : timesLoop endT step fuel' cur = some ts') : ts = ts' := by
  induction fuel generalizing fuel' cur ts ts' with
  | zero => cases h
  | succ n ih =>
    cases fuel' with
    | zero => cases h'
    | succ m =>
      simp only [timesLoop] at h h'
      split at h
      · rename_i hc
        rw [if_pos hc] at h'
        simp only [Option.map_eq_some_iff] at h h'
        obtain ⟨a, ha, rfl⟩ := h
        obtain ⟨b, hb, rfl⟩ := h'
        rw [ih ha hb]
      · rename_i hc
        rw [if_neg hc] at h'
        rw [← Option.some.inj h, ← Option.some.inj h']

private theorem periodTimes_fuel {day step : Int} {fuel fuel' : Nat} {ps : Periods} {ts ts' : List Str}
    (h : periodTimes fuel day step ps = some ts) (h' : periodTimes fuel' day step ps = some ts') : ts = ts' := by
  induction ps generalizing ts ts' with
  | nil => simp only [periodTimes, Option.some.injEq] at h h'; rw [← h, ← h']
  | cons p ps ih =>
    simp only [periodTimes] at h h'
    cases h1 : timesLoop (day * dayUs + p.2) step fuel (day * dayUs + p.1) with
    | none => rw [h1] at h; cases h
    | some a =>
      cases h2 : timesLoop (day * dayUs + p.2) step fuel' (day * dayUs + p.1) with
      | none => rw [h2] at h'; cases h'
      | some b =>
        rw [h1] at h; rw [h2] at h'
        simp only [Option.map_eq_some_iff] at h h'
        obtain ⟨x, hx, rfl⟩ := h
        obtain ⟨y, hy, rfl⟩ := h'
        rw [timesLoop_fuel h1 h2, ih hx hy]

private theorem stepTimes_range {mp : Periods} (hin : PeriodsInDay mp) {o : Int}
    (h : o ∈ mp.flatMap (stepTimes (60 * secUs))) : 0 ≤ o ∧ o < dayUs ∧ o % secUs = 0 := by
  obtain ⟨p, hp, ho⟩ := List.mem_flatMap.1 h
  obtain ⟨k, hk, rfl⟩ := ((c11_steps_meaning _ (by decide) p).1 o).1 ho
  obtain ⟨h1, h2, h3, h4⟩ := hin p hp
  simp only [dayUs, secUs] at *
  omega

/-! ## The scheduled tasks -/

/-- The entries of a task: all of one class, at the times the task asks for. -/
private theorem task_entries {fuel : Nat} {today : Int} {mp : Periods} (hin : PeriodsInDay mp) (hw : WholeSeconds mp)
    {t : TaskDesc} {os : List Int} (hos : TaskTimes mp t os) {cls : Str} {es : List (Str × Str)}
    (h : if t.time = c!"every_minute" then everyMinuteEntries fuel today mp cls = some es else es = [(t.time, cls)])
    (cfg : ECfg) (hcfg : cfg.periods = mp) :
    EntryTimes cfg es (os.map fun o => (o, cls)) ∧ (∀ o ∈ os, o % secUs = 0) ∧
      (∀ o ∈ os, ∀ o' ∈ os, o ≤ o' + dayUs) := by
  subst hcfg
  simp only [TaskTimes] at hos
  split at hos
  · rename_i ht
    rw [if_pos ht] at h
    obtain ⟨N, hN⟩ := c11_every_minute cfg today cls hin
    obtain ⟨es', h1, h2⟩ := hN N (Nat.le_refl _)
    have : es = es' := by
      simp only [everyMinuteEntries, Option.map_eq_some_iff] at h h1
      obtain ⟨a, ha, rfl⟩ := h
      obtain ⟨b, hb, rfl⟩ := h1
      rw [periodTimes_fuel ha hb]
    subst this
    subst hos
    refine ⟨h2, fun o ho => (stepTimes_range hin ho).2.2, ?_⟩
    intro o ho o' ho'
    have a := stepTimes_range hin ho
    have b := stepTimes_range hin ho'
    omega
  · rename_i ht
    rw [if_neg ht] at h
    obtain ⟨o, ho, rfl⟩ := hos
    subst h
    refine ⟨by simp [EntryTimes, ho], ?_, ?_⟩
    · intro x hx
      simp only [List.mem_singleton] at hx
      subst hx
      exact entryTime_whole hw ho
    · intro x hx y hy
      simp only [List.mem_singleton] at hx hy
      subst hx; subst hy
      have : 0 ≤ dayUs := by decide
      omega

private theorem schedule_entries {fuel : Nat} {today : Int} {mp : Periods} {ns : Dict Str Nat} (ts : List TaskDesc)
    (s s' : SchedSt) (h : SchedSt.schedule fuel today mp ns ts s = some s') :
    ∃ more, s'.sources = s.sources ++ more ∧ more.length = ts.length ∧
      ∀ i (hi : i < ts.length) (hi' : i < more.length), (more[i]).1 = taskClassName ts[i].name (s.count + i) ∧
        (if ts[i].time = c!"every_minute" then
          everyMinuteEntries fuel today mp (taskClassName ts[i].name (s.count + i)) = some (more[i]).2
        else (more[i]).2 = [(ts[i].time, taskClassName ts[i].name (s.count + i))]) := by
  induction ts generalizing s with
  | nil =>
    simp only [SchedSt.schedule, Option.some.injEq] at h
    subst h
    exact ⟨[], by simp, rfl, fun i hi => absurd hi (by simp)⟩
  | cons t ts ih =>
    simp only [SchedSt.schedule] at h
    cases h1 : s.schedOne fuel today mp ns t with
    | none => rw [h1] at h; cases h
    | some s1 =>
      rw [h1] at h
      obtain ⟨e1, _, ⟨es, e3, _, e4⟩, _⟩ := schedOne_spec h1
      obtain ⟨more, m1, m2, m3⟩ := ih s1 h
      refine ⟨(taskClassName t.name s.count, es) :: more, by rw [m1, e3]; simp, by simp [m2], ?_⟩
      intro i hi hi'
      cases i with
      | zero => exact ⟨rfl, e4⟩
      | succ i =>
        have := m3 i (by simpa using hi) (by simpa using hi')
        rw [e1, show s.count + 1 + i = s.count + (i + 1) by omega] at this
        exact this

/-! ## Events and due times -/

private theorem insertBy_map {α β : Type} (k : β → Int) (f : α → β) (x : α) (l : List α) :
    insertBy k (f x) (l.map f) = (insertBy (fun a => k (f a)) x l).map f := by
  induction l with
  | nil => rfl
  | cons a l ih =>
    simp only [List.map_cons, insertBy]
    split
    · rfl
    · rw [ih]; rfl

private theorem sortBy_map {α β : Type} (k : β → Int) (f : α → β) (l : List α) :
    sortBy k (l.map f) = (sortBy (fun a => k (f a)) l).map f := by
  induction l with
  | nil => rfl
  | cons a l ih => simp only [List.map_cons, sortBy]; rw [ih, insertBy_map]

private theorem eventsOf_class (st : Int) (en : Option Int) (os : List Int) (c : Str) (ds : List Int) :
    eventsOf st en (os.map fun o => (o, c)) ds =
      (eventsOf st en (os.map fun o => (o, ())) ds).map fun e => (e.1, c) := by
  simp only [eventsOf, List.map_flatMap]
  congr 1
  funext d
  simp only [dayEvents]
  rw [← sortBy_map (fun e : Int × Str => e.1) (fun e : Int × Unit => (e.1, c))]
  congr 1
  simp only [rawDay, List.map_map, List.filter_map]
  simp [Function.comp_def]

private theorem dueTimes_eq (st : Int) (en : Option Int) (os : List Int) (c : Str) (a b : Int) :
    (eventsOf st en (os.map fun o => (o, c)) (daysFromTo a b)).map (·.1) = dueTimes st en os a b := by
  rw [eventsOf_class, List.map_map]; rfl

private theorem eventsOf_whole {st : Int} {en : Option Int} {os : List Int} {c : Str} {ds : List Int}
    (h : ∀ o ∈ os, o % secUs = 0) :
    ∀ e ∈ eventsOf st en (os.map fun o => (o, c)) ds, e.1 % secUs = 0 ∧ e.2 = c := by
  intro e he
  simp only [eventsOf, List.mem_flatMap] at he
  obtain ⟨d, _, he⟩ := he
  obtain ⟨o, ho, rfl⟩ := dayEvents_mem he
  obtain ⟨x, hx, rfl⟩ := List.mem_map.1 ho
  have := h x hx
  simp only [secUs, dayUs] at *
  exact ⟨by omega, trivial⟩

/-! ## What holds while the run follows the plan -/

section
variable {α : Type}

/-- The entries of each source are of one class and at whole seconds within one day of each other. -/
private structure PlanOk (P : RunPlan) (os : Nat → List Int) (cls : Nat → Str) : Prop where
  offs : ∀ i, i < P.k → P.offs i = (os i).map fun o => (o, cls i)
  whole : ∀ i, i < P.k → ∀ o ∈ os i, o % secUs = 0
  span : ∀ i, i < P.k → ∀ o ∈ os i, ∀ o' ∈ os i, o ≤ o' + dayUs
  first : ∀ i, i < P.k → ∃ a b, P.first i = eventsOf (P.st i) P.en (P.offs i) (daysFromTo a b)

private theorem PlanOk.secs {P : RunPlan} {os : Nat → List Int} {cls : Nat → Str} (h : PlanOk P os cls) (cfg : ECfg)
    (ws : Nat → List Int) {i : Nat} (hi : i < P.k) : ∀ e ∈ P.L cfg ws i, e.1 % secUs = 0 := by
  intro e he
  rcases List.mem_append.1 he with he | he
  · obtain ⟨a, b, hab⟩ := h.first i hi
    rw [hab, h.offs i hi] at he
    exact (eventsOf_whole (h.whole i hi) e he).1
  · obtain ⟨w, _, he⟩ := List.mem_flatMap.1 he
    rw [h.offs i hi] at he
    exact (eventsOf_whole (h.whole i hi) e he).1

private theorem plan_sorted {P : RunPlan} {cfg : ECfg} {ws : Nat → List Int} {fails : Nat → Nat → Option PyErr}
    (hs : ∀ i, i < P.k → (P.L cfg ws i).Pairwise fun x y => x.1 ≤ y.1)
    (hw : ∀ i, i < P.k → ∀ e ∈ P.L cfg ws i, e.1 % secUs = 0) : (P.sources cfg ws fails).Sorted := by
  intro i n a b ha hb
  obtain ⟨hk, hn, rfl⟩ := ev_lt ha
  obtain ⟨_, hn', rfl⟩ := ev_lt hb
  have hle := List.pairwise_iff_getElem.1 (hs i hk) n (n + 1) hn hn' (by omega)
  have h1 := hw i hk _ (List.getElem_mem hn)
  have h2 := hw i hk _ (List.getElem_mem hn')
  have h3 := c53_whole_seconds_order_partial (P.L cfg ws i)[n + 1].1 (P.L cfg ws i)[n].1 h2 h1
  simp only [FireLe]
  by_cases hlt : dtToMillis (P.L cfg ws i)[n].1 < dtToMillis (P.L cfg ws i)[n + 1].1
  · exact .inl hlt
  · right
    refine ⟨?_, Int.le_refl _⟩
    have : ¬ dtToMillis (P.L cfg ws i)[n + 1].1 < dtToMillis (P.L cfg ws i)[n].1 := by rw [h3]; omega
    omega

private theorem first_map {P : RunPlan} {cfg : ECfg} {ws : Nat → List Int} {fails : Nat → Nat → Option PyErr} {i : Nat}
    (hw : ∀ e ∈ P.L cfg ws i, e.1 % secUs = 0) (xs : List (Int × Int)) (n : Nat)
    (h : xs.map some = firstEvents (P.sources cfg ws fails) i n) :
    xs.map (fun x => millisToDt x.1) = ((P.L cfg ws i).map (·.1)).take n ∧ n ≤ (P.L cfg ws i).length := by
  have hlen : xs.length = n := by
    have := congrArg List.length h
    simpa [firstEvents] using this
  have hget : ∀ m (hm : m < n), ∃ hm' : m < (P.L cfg ws i).length, xs[m]? = some (dtToMillis ((P.L cfg ws i)[m]).1, P.prio i) := by
    intro m hm
    have := congrArg (fun l : List (Option (Int × Int)) => l[m]?) h
    simp only [firstEvents, List.getElem?_map, List.getElem?_range hm, Option.map_some] at this
    rw [List.getElem?_eq_getElem (by omega)] at this ⊢
    simp only [Option.map_some, Option.some.injEq] at this
    obtain ⟨_, hm', e⟩ := ev_lt this.symm
    exact ⟨hm', by rw [e]⟩
  have hn : n ≤ (P.L cfg ws i).length := by
    cases n with
    | zero => exact Nat.zero_le _
    | succ m => obtain ⟨hm', _⟩ := hget m (by omega); omega
  refine ⟨?_, hn⟩
  apply List.ext_getElem?
  intro m
  by_cases hm : m < n
  · obtain ⟨hm', e⟩ := hget m hm
    rw [List.getElem?_map, e, List.getElem?_take_of_lt hm, List.getElem?_map, List.getElem?_eq_getElem hm']
    simp only [Option.map_some]
    rw [c53_whole_seconds_partial _ (hw _ (List.getElem_mem hm'))]
  · rw [List.getElem?_eq_none (by simp; omega), List.getElem?_eq_none (by simp; omega)]

private theorem firedEvents_filter {σ : Type} (s : LoopSt σ Nat PyErr) (i : Nat) :
    ((s.firedEvents.filter (fun e => e.1 = i)).map (fun e => e.2)).map (fun x => millisToDt x.1) = firingsOf s i := by
  simp [LoopSt.firedEvents, firingsOf, firingsIn, List.filter_map, Function.comp_def]

private theorem run_not_early {R : RunEnv α} {l s : LoopSt (RunW α) Nat PyErr} {ls : List (Label Nat)} (h0 : l.fired = [])
    (h : l.run (runExec R) ls = some s) : ∀ f ∈ s.fired, f.1.time ≤ f.2 := by
  refine LoopSt.run_induct' (C := fun _ => True) (P := fun u => ∀ f ∈ u.fired, f.1.time ≤ f.2) h (fun _ _ => trivial)
    (by rw [h0]; simp) ?_
  intro a l b ha _ hst
  rcases step_cases hst with ⟨-, hp, hn, rfl⟩ | ⟨-, hp, hn, rfl⟩ | ⟨-, hp, hn, rfl⟩ |
    ⟨-, hp, hst, hq, rfl⟩ | ⟨-, hp, hst, m, r, hq, rfl⟩ | ⟨now, exits, m, -, hp, hlt, he, rfl⟩ |
    ⟨now, exits, m, -, hp, hlt, he, rfl⟩ | ⟨now, exits, m, -, hp, hle, rfl⟩ | ⟨-, hp, rfl⟩ |
    ⟨t, p, d, rfl, rfl⟩
  any_goals exact ha
  · rw [show ({ a.stop with phase := .idle, halted := true } : LoopSt (RunW α) Nat PyErr).fired = a.stop.fired from rfl,
      a.stop_frame.fired]
    exact ha
  · rw [(LoopSt.handle_frame (exec := runExec R) _ m now).fired]
    intro f hf
    rcases List.mem_append.1 hf with hf | hf
    · exact ha f hf
    · simp at hf; subst hf; exact hle
  · rw [a.stop_frame.fired]
    exact ha

private theorem secs_lt {t : Int} (x : Int) (ht : t % secUs = 0) (hx : dtToMillis t = x) : millisToDt x = t := by
  rw [← hx]; exact c53_whole_seconds_partial _ ht

/-- Everything about a run that follows a plan. -/
private theorem run_core {P : RunPlan} {os : Nat → List Int} {cls : Nat → Str} (hp : PlanOk P os cls) {R : RunEnv α} {a0 : α}
    {C : Label Nat → Prop} (hC : ∀ l, C l → l.isInternal = true) {l s : LoopSt (RunW α) Nat PyErr} {ls0 : List (Label Nat)}
    (h0 : l.fired = []) (hrun0 : l.run (runExec R) ls0 = some s) {ws : Nat → List Int} {fails : Nat → Nat → Option PyErr}
    {d : Delivered} {ls : List (Label Nat)} (hs : RunSimAt P R C a0 s ws fails d ls) :
    RunsAsDue R.act a0 P.k P.prio P.cbs (fun i => (P.L R.cfg ws i).map (·.1)) s ∧
    ((∀ i, i < P.k → (P.L R.cfg ws i).Pairwise fun x y => x.1 ≤ y.1) → InOrder P.prio s) := by
  have hw : ∀ i, i < P.k → ∀ e ∈ P.L R.cfg ws i, e.1 % secUs = 0 := fun i hi => hp.secs R.cfg ws hi
  have hint : ∀ l ∈ ls, l.isInternal = true := fun l hl => hC l (hs.labels l hl)
  obtain ⟨h2, h3⟩ := c05_each_source_in_sequence P.k ls _ hs.run hint
  have hfir : ∀ f ∈ s.fired, f.1.data < P.k ∧ f.1.priority = P.prio f.1.data ∧
      ∃ e : Int, e % secUs = 0 ∧ dtToMillis e = f.1.time := by
    intro f hf
    have hk := h3 _ (List.mem_map.2 ⟨f, hf, rfl⟩)
    refine ⟨hk, ?_⟩
    obtain ⟨n, hn⟩ := h2 f.1.data
    have hm : some (f.1.time, f.1.priority) ∈ firstEvents (P.sources R.cfg ws fails) f.1.data n := by
      rw [← hn]
      refine List.mem_map.2 ⟨(f.1.data, (f.1.time, f.1.priority)), List.mem_filter.2 ⟨List.mem_map.2 ⟨f, hf, rfl⟩, ?_⟩, rfl⟩
      simp
    obtain ⟨m, _, hm⟩ := List.mem_map.1 hm
    obtain ⟨_, hm', e⟩ := ev_lt hm
    exact ⟨(Prod.mk.inj e).2, _, hw _ hk _ (List.getElem_mem hm'), (Prod.mk.inj e).1.symm⟩
  refine ⟨⟨hs.rel.hung, hs.calls, hs.st, fun f hf => ⟨(hfir f hf).1, run_not_early h0 hrun0 f hf⟩, ?_, ?_⟩, ?_⟩
  · intro i hi
    obtain ⟨n, hn⟩ := h2 i
    obtain ⟨g1, g2⟩ := first_map (hw i hi) (((s.withWorld d).firedEvents.filter (fun e => e.1 = i)).map (fun e => e.2)) n
      (by rw [List.map_map]; exact hn)
    have : firingsOf s i = ((P.L R.cfg ws i).map (·.1)).take n := by
      rw [← g1, firedEvents_filter]; rfl
    rw [this]
    exact List.take_prefix _ _
  · intro before f after hsplit j hj t ht
    have hlen : (firingsIn before j).length = (before.filter (fun g => g.1.data = j)).length := by simp [firingsIn]
    rw [hlen, List.getElem?_map, Option.map_eq_some_iff] at ht
    obtain ⟨e, he, rfl⟩ := ht
    have hev : (P.sources R.cfg ws fails).ev j (before.filter (fun g => g.1.data = j)).length =
        some (dtToMillis e.1, P.prio j) := by
      simp only [RunPlan.sources, if_pos hj, he, Option.map_some]
    have hle := c05_no_overtaking P.k ls _ hs.run hint before after f hsplit j hj _ hev
    obtain ⟨hk, hprio, e', he1, he2⟩ := hfir f (by rw [hsplit]; simp)
    have hsec := hw j hj _ (List.mem_of_getElem? he)
    simp only [FireLe, hprio, ← he2] at hle
    rw [secs_lt f.1.time he1 he2]
    have hlt := c53_whole_seconds_order_partial e' e.1 he1 hsec
    rcases hle with hle | ⟨hle, hpr⟩
    · exact .inl (hlt.1 hle)
    · right
      refine ⟨?_, hpr⟩
      rw [← c53_whole_seconds_partial e' he1, ← c53_whole_seconds_partial e.1 hsec, hle]
  · intro hsort
    have h1 := c05_fires_in_order (plan_sorted hsort hw) P.k ls _ hs.run hint
    rw [LoopSt.firedEvents, List.pairwise_map] at h1
    have : s.fired.Pairwise (fun a b => (a ∈ s.fired ∧ b ∈ s.fired) ∧
        FireLe (a.1.time, a.1.priority) (b.1.time, b.1.priority)) :=
      List.Pairwise.and (List.pairwise_iff_forall_sublist.2 fun hsub => ⟨hsub.subset (by simp), hsub.subset (by simp)⟩) h1
    refine this.imp ?_
    rintro a b ⟨⟨ha, hb⟩, hab⟩
    simpa only [FireLe, (hfir a ha).2.1, (hfir b hb).2.1] using hab

private theorem run_complete {P : RunPlan} {os : Nat → List Int} {cls : Nat → Str} (hp : PlanOk P os cls) {R : RunEnv α} {a0 : α}
    (hfail : ∀ j, j < P.k → ∀ cb ∈ P.cbs j, ∀ a, (R.act cb a).2 = none) {s : LoopSt (RunW α) Nat PyErr} {ws : Nat → List Int}
    {fails : Nat → Nat → Option PyErr} {d : Delivered} {ls : List (Label Nat)}
    (hs : RunSimAt P R (fun l => l.isQuiet = true) a0 s ws fails d ls)
    (hend : s.halted = true) : ∀ i, i < P.k → firingsOf s i = (P.L R.cfg ws i).map (·.1) := by
  intro i hi
  obtain ⟨n, hn, hnone⟩ := c05_normal_end_complete P.k ls _ hs.run hs.labels (hs.fails hfail) hend i hi
  obtain ⟨g1, g2⟩ := first_map (hp.secs R.cfg ws hi) (((s.withWorld d).firedEvents.filter (fun e => e.1 = i)).map (fun e => e.2)) n
    (by rw [List.map_map]; exact hn)
  have hlen := ev_none hi hnone
  rw [List.take_of_length_le (by simp; omega)] at g1
  rw [← g1, firedEvents_filter]
  rfl

/-! ## The sources of the account -/

private theorem stepTimes_whole {step : Int} {p : Int × Int} {o : Int} (h : o ∈ stepTimes step p) : o % secUs = 0 := by
  simp only [stepTimes, List.mem_map] at h
  obtain ⟨k, _, rfl⟩ := h
  exact Int.mul_emod_left _ _

private theorem stepTimes_in {step : Int} (hs : 0 < step) {p : Int × Int} (h0 : 0 ≤ p.1) (h1 : p.2 < dayUs) {o : Int}
    (h : o ∈ stepTimes step p) : 0 ≤ o ∧ o < dayUs := by
  simp only [stepTimes, List.mem_map, List.mem_range] at h
  obtain ⟨k, hk, rfl⟩ := h
  have h2 : (k : Int) * step ≤ p.2 - p.1 := Int.mul_le_of_le_ediv hs (by omega)
  have : 0 ≤ (k : Int) * step := Int.mul_nonneg (by omega) (by omega)
  generalize (k : Int) * step = w at *
  simp only [secUs, dayUs] at *
  omega

theorem timer_times_in {t : TimerSetup} (hs : 0 < t.step) (hp : PeriodsInDay t.periods) {o : Int} (h : o ∈ t.times) :
    0 ≤ o ∧ o < dayUs ∧ o % secUs = 0 := by
  simp only [TimerSetup.times] at h
  split at h
  · have := stepTimes_in hs (p := (t.now % dayUs / secUs * secUs + t.step, 86399 * secUs))
      (by simp only [secUs, dayUs]; omega) (by show 86399 * secUs < dayUs; decide) h
    exact ⟨this.1, this.2, stepTimes_whole h⟩
  · obtain ⟨p, hpm, ho⟩ := List.mem_flatMap.1 h
    have := stepTimes_in hs (hp p hpm).1 (hp p hpm).2.2.2 ho
    exact ⟨this.1, this.2, stepTimes_whole ho⟩

private theorem timesLoop_mono {endT step : Int} {fuel : Nat} {cur : Int} {ts : List Str}
    (h : timesLoop endT step fuel cur = some ts) : ∀ fuel', fuel ≤ fuel' → timesLoop endT step fuel' cur = some ts := by
  induction fuel generalizing cur ts with
  | zero => cases h
  | succ n ih =>
    intro fuel' hf
    obtain ⟨m, rfl⟩ : ∃ m, fuel' = m + 1 := ⟨fuel' - 1, by omega⟩
    simp only [timesLoop] at h ⊢
    split at h
    · rename_i hc
      rw [if_pos hc]
      simp only [Option.map_eq_some_iff] at h ⊢
      obtain ⟨a, ha, rfl⟩ := h
      exact ⟨a, ih ha m (by omega), rfl⟩
    · rename_i hc
      rw [if_neg hc]; exact h

private theorem periodTimes_mono {day step : Int} {fuel : Nat} {ps : Periods} {ts : List Str}
    (h : periodTimes fuel day step ps = some ts) : ∀ fuel', fuel ≤ fuel' → periodTimes fuel' day step ps = some ts := by
  induction ps generalizing ts with
  | nil => intro fuel' _; exact h
  | cons p ps ih =>
    intro fuel' hf
    simp only [periodTimes] at h ⊢
    cases h1 : timesLoop (day * dayUs + p.2) step fuel (day * dayUs + p.1) with
    | none => rw [h1] at h; cases h
    | some a =>
      rw [h1] at h
      rw [timesLoop_mono h1 fuel' hf]
      simp only [Option.map_eq_some_iff] at h ⊢
      obtain ⟨x, hx, rfl⟩ := h
      exact ⟨x, ih hx fuel' hf, rfl⟩

private theorem syncTimer_mono {γ : Type} {fuel : Nat} {cs : Int} {ce : Option Int} {now step : Int} {ps : Periods} {c : γ} {src : ESrc γ}
    (h : syncTimerSource fuel cs ce now step ps c = some src) (fuel' : Nat) (hf : fuel ≤ fuel') :
    syncTimerSource fuel' cs ce now step ps c = some src := by
  simp only [syncTimerSource, syncTimerEntries, Option.map_eq_some_iff] at h ⊢
  obtain ⟨es, ⟨ts, h1, rfl⟩, rfl⟩ := h
  refine ⟨_, ⟨ts, ?_, rfl⟩, rfl⟩
  split at h1
  · rename_i hp; rw [if_pos hp]; exact timesLoop_mono h1 _ hf
  · rename_i hp; rw [if_neg hp]; exact periodTimes_mono h1 _ hf

private theorem makes_spec (cfg : ECfg) {t : TimerSetup} {cs : Int} {en : Option Int} {src : ESrc Str} (h : t.Makes cs en src) :
    src.start = some cs ∧ src.endAt = en ∧ src.need = true ∧
      EntryTimes cfg src.daily (t.times.map fun o => (o, c!"AccountSyncEvent")) := by
  obtain ⟨h1, h2, _, fuel, h4⟩ := h
  by_cases hp : t.periods = []
  · obtain ⟨N, hN⟩ := c54_no_period_times cfg cs en t.now t.step c!"AccountSyncEvent" h1
    obtain ⟨src', g1, g2⟩ := hN (N + fuel) (by omega)
    rw [hp] at h4
    rw [syncTimer_mono h4 (N + fuel) (by omega)] at g1
    cases g1
    simpa only [TimerSetup.times, if_pos hp] using g2
  · obtain ⟨N, hN⟩ := c54_with_periods cfg cs en t.now t.step c!"AccountSyncEvent" h1 t.periods hp h2
    obtain ⟨src', g1, g2⟩ := hN (N + fuel) (by omega)
    rw [syncTimer_mono h4 (N + fuel) (by omega)] at g1
    cases g1
    simpa only [TimerSetup.times, if_neg hp] using g2

/-- Its first poll with an end. -/
private theorem timer_reset_end {cfg : ECfg} {t : TimerSetup} {cs endT : Int} {src : ESrc Str} (h : t.Makes cs (some endT) src)
    (clock : Int) : ∃ s', src.resetIfNeeded cfg clock = (s', .ok ()) ∧
      s'.Ok cfg cs (t.times.map fun o => (o, c!"AccountSyncEvent")) ∧ s'.endAt = some endT ∧ s'.hasHis = true ∧
      s'.events = [] ∧ s'.days = daysFromTo (cs / dayUs) (endT / dayUs) := by
  obtain ⟨h1, h2, h3, h4⟩ := makes_spec cfg h
  obtain ⟨dl, ev, ds, sa, en, nd, hh⟩ := src
  simp only at h1 h2 h3 h4
  subst h1 h2 h3
  exact ⟨⟨dl, [], daysFromTo (cs / dayUs) (endT / dayUs), some cs, some endT, false, true⟩,
    by simp [ESrc.resetIfNeeded, ESrc.getDays, dayRange, daysFromTo], ⟨rfl, rfl, h4⟩, rfl, rfl, rfl, rfl⟩

/-- Its first poll in live mode. -/
private theorem timer_reset_live {cfg : ECfg} (hl : LiveCfg cfg) {t : TimerSetup} {cs : Int} {src : ESrc Str} (h : t.Makes cs none src)
    (today : Int) : ∃ s', src.resetIfNeeded cfg today = (s', .ok ()) ∧
      s'.Ok cfg cs (t.times.map fun o => (o, c!"AccountSyncEvent")) ∧ s'.endAt = none ∧
      s'.events = [] ∧ s'.days = daysFromTo today (today + cfg.count - 1) := by
  obtain ⟨h1, h2, h3, h4⟩ := makes_spec cfg h
  obtain ⟨dl, ev, ds, sa, en, nd, hh⟩ := src
  simp only at h1 h2 h3 h4
  subst h1 h2 h3
  refine ⟨⟨dl, [], dayRange today cfg.count, some cs, none, false, true⟩,
    by simp [ESrc.resetIfNeeded, ESrc.getDays, hl.1], ⟨rfl, rfl, h4⟩, rfl, rfl, ?_⟩
  simp only [dayRange, daysFromTo]; congr 2; omega

/-! ## The plan of a process -/

private def taskName (ts : List TaskDesc) (i : Nat) : Str := taskClassName ((ts[i]?.map (·.name)).getD []) i

private def srcClass (timers : List TimerSetup) (ts : List TaskDesc) : Nat → Str :=
  bySource (timers.map fun _ => c!"AccountSyncEvent") (taskName ts)

private theorem bySource_lt {β γ : Type} (l : List γ) (f : γ → β) (g : Nat → β) {j : Nat} (h : j < l.length) :
    bySource (l.map f) g j = f l[j] := by
  simp [bySource, h]

private theorem bySource_ge {β γ : Type} (l : List γ) (f : γ → β) (g : Nat → β) (i : Nat) :
    bySource (l.map f) g (l.length + i) = g i := by
  rw [bySource, dif_neg (by simp), List.length_map, Nat.add_sub_cancel_left]

private def planOf (timers : List TimerSetup) (ts : List TaskDesc) (en : Option Int) (st : Nat → Int) (os : Nat → List Int)
    (days : Nat → List Int) (accCbs : List Cb) (fn : Nat → Nat) : RunPlan where
  k := timers.length + ts.length
  en := en
  st := st
  offs j := (os j).map fun o => (o, srcClass timers ts j)
  first j := eventsOf (st j) en ((os j).map fun o => (o, srcClass timers ts j)) (days j)
  prio := srcPrio timers ts
  cbs := srcCbs timers accCbs fn

/-- Everything that the theorems have in common. -/
private theorem run_setup {cfg : ECfg} {fuel0 fuel : Nat} {today : Int} {ns : Dict Str Nat} {ts : List TaskDesc}
    {s0 s1 : SchedSt} (h0 : AfterInit s0) (hsched : SchedSt.schedule fuel0 today cfg.periods ns ts s0 = some s1)
    (hin : PeriodsInDay cfg.periods) (hsec : WholeSeconds cfg.periods) (fn : Nat → Nat)
    (hfn : ∀ i (hi : i < ts.length), dget ns ts[i].name = some (fn i)) (os : Nat → List Int)
    (hos : ∀ i (hi : i < ts.length), TaskTimes cfg.periods ts[i] (os i))
    (accs : List (TimerSetup × ESrc Str)) (ctxStart : Int) (start en : Option Int)
    (hacc : ∀ x ∈ accs, x.1.Makes ctxStart en x.2)
    (hcls : accs ≠ [] → dget s0.classes c!"AccountSyncEvent" = some 2)
    (dates : Nat → Nat → Int) (act : Cb → α → α × Option PyErr)
    (hcb : ∀ cb ∈ s0.bus.emit sameClass c!"AccountSyncEvent", (∃ k, cb = .account k) ∧ ∀ a, (act cb a).2 = none)
    (nows stT : Nat → Int) (days : Nat → List Int) (hdays : ∀ j, j < accs.length + ts.length → ∃ a b, days j = daysFromTo a b) :
    let timers := accs.map (·.1)
    let accCbs := s0.bus.emit sameClass c!"AccountSyncEvent"
    let st := bySource (timers.map fun _ => ctxStart) stT
    let osA := bySource (timers.map TimerSetup.times) os
    let P := planOf timers ts en st osA days accCbs fn
    let R : RunEnv α := ⟨cfg, fuel, s1.bus, s1.classes, dates, act⟩
    (P.en = none → LiveCfg R.cfg ∧ 2 * R.cfg.count + 2 ≤ R.fuel ∧
      ∀ i, i < P.k → 0 < (P.first i).length ∧ ∀ p j, windowEvents R.cfg (P.st i) (P.offs i) (R.dates p j) ≠ []) →
    (∀ j (hj : j < accs.length), SrcStarts P R j (accs[j].2, .ok ())) →
    (∀ i (_ : i < ts.length) (es : List (Str × Str)), EntryTimes cfg es ((os i).map fun o => (o, taskName ts i)) →
      SrcStarts P R (accs.length + i) (ESrc.build cfg start en (nows i) es)) →
    PlanOk P osA (srcClass timers ts) ∧ P.Fits R ∧
    ∀ a0 : α, ∃ l0, runStart R 0 (accs.map (fun x => (x.2, .ok ())) ++ taskSources cfg start en nows s1.sources)
        (runEmpty a0) = (l0, none) ∧ l0.fired = [] ∧ ∀ C, RunSim P R C a0 l0 := by
  intro timers accCbs st osA P R hlive hsa hst
  have htl : timers.length = accs.length := by simp [timers]
  have hname : ∀ i (hi : i < ts.length), taskName ts i = taskClassName ts[i].name i := by
    intro i hi; simp [taskName, List.getElem?_eq_getElem hi]
  obtain ⟨more, m1, m2, m3⟩ := schedule_entries ts s0 s1 hsched
  rw [h0.1] at m3
  rw [h0.2.1, List.nil_append] at m1
  have hent : ∀ i (hi : i < ts.length) (hi' : i < more.length),
      EntryTimes cfg (more[i]).2 ((os i).map fun o => (o, taskName ts i)) ∧ (∀ o ∈ os i, o % secUs = 0) ∧
        (∀ o ∈ os i, ∀ o' ∈ os i, o ≤ o' + dayUs) := by
    intro i hi hi'
    obtain ⟨_, g⟩ := m3 i hi hi'
    rw [Nat.zero_add] at g
    have := task_entries hin hsec (hos i hi) g cfg rfl
    rw [hname i hi]
    exact this
  /- a source is a timer or a task -/
  have hcase : ∀ j, j < P.k → (∃ hj : j < timers.length, osA j = timers[j].times ∧ srcClass timers ts j = c!"AccountSyncEvent" ∧
        P.prio j = 2 ∧ P.cbs j = accCbs) ∨
      (∃ i, i < ts.length ∧ j = timers.length + i ∧ osA j = os i ∧ srcClass timers ts j = taskName ts i ∧
        P.prio j = (if (ts[i]?.map (·.time)) = some c!"every_minute" then 1 else 0) ∧ P.cbs j = [.user i (some (fn i))]) := by
    intro j hj
    by_cases h : j < timers.length
    · left
      have e1 : srcPrio timers ts j = 2 := bySource_lt timers (fun _ => 2) _ h
      have e2 : srcCbs timers accCbs fn j = accCbs := bySource_lt timers (fun _ => accCbs) _ h
      exact ⟨h, bySource_lt _ _ _ h, bySource_lt _ _ _ h, e1, e2⟩
    · right
      have hj' : j < timers.length + ts.length := hj
      obtain ⟨i, rfl⟩ : ∃ i, j = timers.length + i := ⟨j - timers.length, by omega⟩
      have e1 : srcPrio timers ts (timers.length + i) = _ := bySource_ge timers (fun _ => (2 : Int)) _ i
      have e2 : srcCbs timers accCbs fn (timers.length + i) = _ := bySource_ge timers (fun _ => accCbs) _ i
      exact ⟨i, by omega, rfl, bySource_ge _ _ _ _, bySource_ge _ _ _ _, e1, e2⟩
  have hmk : ∀ j (hj : j < timers.length), ∃ src, (timers[j]).Makes ctxStart en src ∧ accs ≠ [] := by
    intro j hj
    have hj' : j < accs.length := by omega
    refine ⟨accs[j].2, ?_, fun e => by simp [e] at hj'⟩
    have := hacc _ (List.getElem_mem hj')
    simpa [timers] using this
  have hplan : PlanOk P osA (srcClass timers ts) := by
    refine ⟨fun _ _ => rfl, ?_, ?_, ?_⟩
    · intro j hj
      rcases hcase j hj with ⟨h, e, _⟩ | ⟨i, hi, _, e, _⟩
      · obtain ⟨src, ⟨a1, a2, _⟩, _⟩ := hmk j h
        intro o ho
        rw [e] at ho
        exact (timer_times_in a1 a2 ho).2.2
      · rw [e]; exact (hent i hi (by omega)).2.1
    · intro j hj
      rcases hcase j hj with ⟨h, e, _⟩ | ⟨i, hi, _, e, _⟩
      · obtain ⟨src, ⟨a1, a2, _⟩, _⟩ := hmk j h
        intro o ho o' ho'
        rw [e] at ho ho'
        have := timer_times_in a1 a2 ho
        have := timer_times_in a1 a2 ho'
        omega
      · rw [e]; exact (hent i hi (by omega)).2.2
    · intro j hj
      obtain ⟨a, b, hab⟩ := hdays j (by rw [← htl]; exact hj)
      exact ⟨a, b, by simp only [P, planOf, hab]⟩
  obtain ⟨_, _, _, g4, g5⟩ := c12_own_callback fuel0 today cfg.periods ns ts s0 s1 h0 hsched
  have hfits : P.Fits R := by
    refine ⟨?_, ?_, ?_, ?_, ?_, hlive⟩
    · intro j hj o ho
      obtain ⟨x, _, rfl⟩ := List.mem_map.1 ho
      show s1.bus.emit sameClass (srcClass timers ts j) = P.cbs j
      rcases hcase j hj with ⟨_, _, e1, _, e2⟩ | ⟨i, hi, _, _, e1, _, e2⟩
      · rw [e1, e2, g5]
      · rw [e1, e2, hname i hi, g4 i hi, hfn i hi]
    · intro j hj o ho
      obtain ⟨x, _, rfl⟩ := List.mem_map.1 ho
      show dget s1.classes (srcClass timers ts j) = some (P.prio j)
      rcases hcase j hj with ⟨h, _, e1, e2, _⟩ | ⟨i, hi, _, _, e1, e2, _⟩
      · obtain ⟨_, _, hne⟩ := hmk j h
        rw [e1, e2]
        exact c12_keeps_classes fuel0 today cfg.periods ns ts s0 s1 h0 hsched _ _ (hcls hne)
      · rw [e1, e2, hname i hi, c12_priorities fuel0 today cfg.periods ns ts s0 s1 h0 hsched i hi]
        simp only [List.getElem?_eq_getElem hi, Option.map_some, Option.some.injEq]
    · intro j hj e he
      have hw := eventsOf_whole (hplan.whole j hj) e he
      simp only [P, planOf, eventsOf, List.mem_flatMap] at he
      obtain ⟨d, _, he⟩ := he
      obtain ⟨o, ho, rfl⟩ := dayEvents_mem he
      exact ⟨o, ho, rfl⟩
    · intro j hj cb hmem
      rcases hcase j hj with ⟨_, _, _, _, e2⟩ | ⟨i, hi, _, _, _, _, e2⟩
      · rw [e2] at hmem
        obtain ⟨⟨k, rfl⟩, _⟩ := hcb cb hmem
        rfl
      · rw [e2] at hmem
        simp only [List.mem_singleton] at hmem
        subst hmem; rfl
    · intro j hj cb hmem
      rcases hcase j hj with ⟨_, _, _, _, e2⟩ | ⟨i, hi, _, _, _, _, e2⟩
      · rw [e2] at hmem
        exact (hcb cb (List.dropLast_subset _ hmem)).2
      · rw [e2] at hmem
        simp at hmem
  refine ⟨hplan, hfits, fun a0 => ?_⟩
  refine runStart_ok hfits _ ?_ ?_ a0
  · simp only [List.length_append, List.length_map, taskSources, List.length_mapIdx, m1, m2]
    show _ = timers.length + ts.length
    omega
  · intro j hj
    by_cases h : j < accs.length
    · rw [List.getElem_append_left (by simpa using h)]
      simpa using hsa j h
    · obtain ⟨i, rfl⟩ : ∃ i, j = accs.length + i := ⟨j - accs.length, by omega⟩
      rw [List.getElem_append_right (by simp)]
      have hi : i < ts.length := by
        simp only [List.length_append, List.length_map, taskSources, List.length_mapIdx, m1, m2] at hj
        omega
      have hm : i < more.length := by omega
      simp only [List.length_map, Nat.add_sub_cancel_left, taskSources, List.getElem_mapIdx]
      have e : s1.sources[i]'(by rw [m1]; exact hm) = more[i] := by simp [m1]
      rw [e]
      exact hst i hi _ (hent i hi hm).1

/-- C63 with an end date.  Whatever the clock reads, whenever the loop is woken or stopped, whatever the callbacks do
and whichever calls of the user's functions raise: the set-up succeeds, and at every moment of the run the account has
been synchronised and the functions of the tasks have been called exactly at their due times, in order
(`RunsAsDue`, `InOrder`).  If the loop ended by itself and no call raised, everything has happened at every one of its
due times. -/
theorem c63_run_with_end (cfg : ECfg) (fuel0 fuel : Nat) (today : Int) (ns : Dict Str Nat) (ts : List TaskDesc)
    (s0 s1 : SchedSt) (h0 : AfterInit s0) (hsched : SchedSt.schedule fuel0 today cfg.periods ns ts s0 = some s1)
    (hin : PeriodsInDay cfg.periods) (hsec : WholeSeconds cfg.periods)
    (fn : Nat → Nat) (hfn : ∀ i (hi : i < ts.length), dget ns ts[i].name = some (fn i))
    (os : Nat → List Int) (hos : ∀ i (hi : i < ts.length), TaskTimes cfg.periods ts[i] (os i))
    (accs : List (TimerSetup × ESrc Str)) (ctxStart : Int) (start : Option Int) (endT : Int)
    (hacc : ∀ x ∈ accs, x.1.Makes ctxStart (some endT) x.2)
    (hcls : accs ≠ [] → dget s0.classes c!"AccountSyncEvent" = some 2)
    (nows : Nat → Int) (dates : Nat → Nat → Int) (act : Cb → α → α × Option PyErr) (a0 : α)
    (hcb : ∀ cb ∈ s0.bus.emit sameClass c!"AccountSyncEvent", (∃ k, cb = .account k) ∧ ∀ a, (act cb a).2 = none)
    (hfa : accs ≠ [] → (endT / dayUs - ctxStart / dayUs + 1).toNat + 1 ≤ fuel)
    (hf : ∀ i, i < ts.length → (endT / dayUs - effectiveStart cfg start (nows i) / dayUs + 1).toNat + 1 ≤ fuel) :
    let R : RunEnv α := ⟨cfg, fuel, s1.bus, s1.classes, dates, act⟩
    let timers := accs.map (·.1)
    let st := bySource (timers.map fun _ => ctxStart) fun i => effectiveStart cfg start (nows i)
    let due : Nat → List Int := fun j => dueTimes (st j) (some endT) (bySource (timers.map TimerSetup.times) os j)
      (st j / dayUs) (endT / dayUs)
    ∃ l0, runStart R 0 (accs.map (fun x => (x.2, .ok ())) ++ taskSources cfg start (some endT) nows s1.sources)
        (runEmpty a0) = (l0, none) ∧
      ∀ ls s, l0.run (runExec R) ls = some s → (∀ l ∈ ls, l.isInternal = true) →
        RunsAsDue act a0 (timers.length + ts.length) (srcPrio timers ts)
          (srcCbs timers (s0.bus.emit sameClass c!"AccountSyncEvent") fn) due s ∧
        InOrder (srcPrio timers ts) s ∧
        ((∀ l ∈ ls, l.isQuiet = true) → (∀ i, i < ts.length → ∀ a, (act (.user i (some (fn i))) a).2 = none) → s.halted = true →
          ∀ j, j < timers.length + ts.length → firingsOf s j = due j) := by
  intro R timers st due
  have htl : timers.length = accs.length := by simp [timers]
  have hsetup := run_setup (fuel := fuel) h0 hsched hin hsec fn hfn os hos accs ctxStart start (some endT) hacc hcls
    dates act hcb nows (fun i => effectiveStart cfg start (nows i)) (fun j => daysFromTo (st j / dayUs) (endT / dayUs))
    (fun j _ => ⟨_, _, rfl⟩) (by intro h; cases h)
    (by
      intro j hj
      have hj' : j < (accs.map (·.1)).length := by simpa using hj
      obtain ⟨s', b1, b2, b3, b4, b5, b6⟩ := timer_reset_end (cfg := cfg) (hacc _ (List.getElem_mem hj)) (dates j 0)
      have e1 : bySource ((accs.map (·.1)).map fun _ => ctxStart) (fun i => effectiveStart cfg start (nows i)) j = ctxStart :=
        bySource_lt _ _ _ hj'
      have e2 : bySource ((accs.map (·.1)).map TimerSetup.times) os j = (accs[j]).1.times := by
        rw [bySource_lt _ _ _ hj']; simp
      have e3 : srcClass (accs.map (·.1)) ts j = c!"AccountSyncEvent" := bySource_lt _ _ _ hj'
      have e4 : st j = ctxStart := e1
      refine ⟨rfl, s', b1, ?_⟩
      simp only [planOf, e1, e2, e3, e4]
      refine ⟨b2, b3, ?_, ?_, fun _ => b4, fun e => by cases e⟩
      · simp only [ESrc.rem, b5, b6, b3, List.nil_append, List.drop_zero]
      · rw [b6]; simp [daysFromTo]
        exact hfa (fun e => by simp [e] at hj))
    (by
      intro i hi es hes
      obtain ⟨s, s', b1, b2, b3, b4, b5, b6, b7⟩ := build_end (start := start) (endT := endT) (now := nows i) hes
        (dates (accs.length + i) 0)
      have hl : (accs.map (·.1)).length = accs.length := by simp
      have e1 : bySource ((accs.map (·.1)).map fun _ => ctxStart) (fun i => effectiveStart cfg start (nows i)) (accs.length + i) =
          effectiveStart cfg start (nows i) := by
        rw [← hl]; exact bySource_ge _ _ _ _
      have e2 : bySource ((accs.map (·.1)).map TimerSetup.times) os (accs.length + i) = os i := by
        rw [← hl]; exact bySource_ge _ _ _ _
      have e3 : srcClass (accs.map (·.1)) ts (accs.length + i) = taskName ts i := by
        rw [← hl]; exact bySource_ge _ _ _ _
      have e4 : st (accs.length + i) = effectiveStart cfg start (nows i) := e1
      refine ⟨by rw [b1], s', by rw [b1]; exact b2, ?_⟩
      simp only [planOf, e1, e2, e3, e4]
      refine ⟨b3, b4, ?_, ?_, fun _ => b5, fun e => by cases e⟩
      · simp only [ESrc.rem, b6, b7, b4, List.nil_append, List.drop_zero]
      · rw [b7]; simp [daysFromTo]; exact hf i hi)
  obtain ⟨k1, k2, k3⟩ := hsetup
  obtain ⟨l0, k4, k5, k6⟩ := k3 a0
  refine ⟨l0, k4, fun ls s hrun hl => ?_⟩
  have hdue : ∀ ws, (∀ i, ws i = []) → (fun i => ((planOf timers ts (some endT) st
      (bySource (timers.map TimerSetup.times) os) (fun j => daysFromTo (st j / dayUs) (endT / dayUs))
      (s0.bus.emit sameClass c!"AccountSyncEvent") fn).L cfg ws i).map (·.1)) = due := by
    intro ws hws
    funext i
    simp only [RunPlan.L, hws, List.flatMap_nil, List.append_nil]
    exact dueTimes_eq _ _ _ _ _ _
  obtain ⟨ws, fails, d, ls', hs⟩ := RunSim.run k2 (C := fun l => l.isInternal = true) (fun l h => h) (k6 _) hl hrun
  have hws := hs.ended rfl
  obtain ⟨r1, r2⟩ := run_core k1 (fun l h => h) k5 hrun hs
  refine ⟨?_, ?_, ?_⟩
  · rw [← hdue ws hws]; exact r1
  · apply r2
    intro i hi
    simp only [RunPlan.L, hws, List.flatMap_nil, List.append_nil]
    apply c07_events_in_order
    intro o ho o' ho'
    obtain ⟨x, hx, rfl⟩ := List.mem_map.1 ho
    obtain ⟨y, hy, rfl⟩ := List.mem_map.1 ho'
    exact k1.span i hi x hx y hy
  · intro hq hr hend j hj
    have hqi : ∀ l : Label Nat, l.isQuiet = true → l.isInternal = true := by
      intro l hl; cases l <;> simp_all [Label.isQuiet, Label.isInternal]
    obtain ⟨ws, fails, d, ls', hs⟩ := RunSim.run k2 (C := fun l => l.isQuiet = true) hqi (k6 _) hq hrun
    rw [run_complete k1 ?_ hs hend j hj]
    · exact congrFun (hdue ws (hs.ended rfl)) j
    · intro j hj cb hm a
      have hm : cb ∈ srcCbs timers (s0.bus.emit sameClass c!"AccountSyncEvent") fn j := hm
      have hj : j < timers.length + ts.length := hj
      by_cases hlt : j < timers.length
      · rw [srcCbs, bySource, dif_pos (by simpa using hlt)] at hm
        exact (hcb cb (by simpa using hm)).2 a
      · rw [srcCbs, bySource, dif_neg (by simpa using hlt)] at hm
        simp only [List.length_map, List.mem_singleton] at hm
        subst hm
        exact hr _ (by omega) a

/-- C63 in live mode (what `start_task` runs), for ever.  The first window of source `j` begins on the date at its set-up,
each further one on a date that the clock showed when the window before it was used up; a source whose first window is
not used up has had no other.  Everything fires in order as long as no window begins before the end of the window
before it, for which see `c08_last_day_repeats_refuted`. -/
theorem c63_live_run (cfg : ECfg) (hlive : LiveCfg cfg) (fuel0 fuel : Nat) (today : Int) (ns : Dict Str Nat)
    (ts : List TaskDesc) (s0 s1 : SchedSt) (h0 : AfterInit s0)
    (hsched : SchedSt.schedule fuel0 today cfg.periods ns ts s0 = some s1)
    (hin : PeriodsInDay cfg.periods) (hsec : WholeSeconds cfg.periods)
    (fn : Nat → Nat) (hfn : ∀ i (hi : i < ts.length), dget ns ts[i].name = some (fn i))
    (os : Nat → List Int) (hos : ∀ i (hi : i < ts.length), TaskTimes cfg.periods ts[i] (os i))
    (accs : List (TimerSetup × ESrc Str)) (ctxStart : Int) (start : Option Int)
    (hacc : ∀ x ∈ accs, x.1.Makes ctxStart none x.2)
    (hcls : accs ≠ [] → dget s0.classes c!"AccountSyncEvent" = some 2)
    (nows : Nat → Int) (dates : Nat → Nat → Int) (act : Cb → α → α × Option PyErr) (a0 : α)
    (hcb : ∀ cb ∈ s0.bus.emit sameClass c!"AccountSyncEvent", (∃ k, cb = .account k) ∧ ∀ a, (act cb a).2 = none)
    (hne : ∀ j, j < accs.length + ts.length → ∀ p q, dueTimes (bySource ((accs.map (·.1)).map fun _ => ctxStart) nows j) none
      (bySource ((accs.map (·.1)).map TimerSetup.times) os j) (dates p q) (dates p q + cfg.count - 1) ≠ [])
    (hf : 2 * cfg.count + 2 ≤ fuel) :
    let R : RunEnv α := ⟨cfg, fuel, s1.bus, s1.classes, dates, act⟩
    let timers := accs.map (·.1)
    let st := bySource (timers.map fun _ => ctxStart) nows
    let due : List Int → Nat → List Int := fun ws j => windowsDue cfg.count (st j) (bySource (timers.map TimerSetup.times) os j) ws
    ∃ l0, runStart R 0 (accs.map (fun x => (x.2, .ok ())) ++ taskSources cfg start none nows s1.sources)
        (runEmpty a0) = (l0, none) ∧
      ∀ ls s, l0.run (runExec R) ls = some s → (∀ l ∈ ls, l.isInternal = true) →
        ∃ ws : Nat → List Int, (∀ j, ∀ w ∈ ws j, ∃ p q, w = dates p q) ∧
          (∀ j, j < timers.length + ts.length → (firingsOf s j).length < (due [dates j 0] j).length → ws j = []) ∧
          RunsAsDue act a0 (timers.length + ts.length) (srcPrio timers ts)
            (srcCbs timers (s0.bus.emit sameClass c!"AccountSyncEvent") fn) (fun j => due (dates j 0 :: ws j) j) s ∧
          ((∀ j, j < timers.length + ts.length → (dates j 0 :: ws j).Pairwise fun v w : Int => v + cfg.count ≤ w) →
            InOrder (srcPrio timers ts) s) := by
  intro R timers st due
  have htl : timers.length = accs.length := by simp [timers]
  have hw : ∀ j u, (eventsOf (st j) none ((bySource (timers.map TimerSetup.times) os j).map fun o => (o, srcClass timers ts j))
      (daysFromTo u (u + cfg.count - 1))).map (·.1) =
      dueTimes (st j) none (bySource (timers.map TimerSetup.times) os j) u (u + cfg.count - 1) :=
    fun j u => dueTimes_eq _ _ _ _ _ _
  have hnil : ∀ j, j < timers.length + ts.length → ∀ p q,
      eventsOf (st j) none ((bySource (timers.map TimerSetup.times) os j).map fun o => (o, srcClass timers ts j))
        (daysFromTo (dates p q) (dates p q + cfg.count - 1)) ≠ [] := by
    intro j hj p q e
    refine hne j (by rw [← htl]; exact hj) p q ?_
    have := hw j (dates p q)
    rw [e] at this
    exact this.symm
  have hos0 : ∀ j, j < timers.length + ts.length → bySource (timers.map TimerSetup.times) os j ≠ [] := by
    intro j hj e
    refine hnil j hj 0 0 ?_
    rw [e]
    simp [eventsOf, dayEvents, rawDay, sortBy]
  have hsetup := run_setup (fuel := fuel) h0 hsched hin hsec fn hfn os hos accs ctxStart start none hacc hcls
    dates act hcb nows nows (fun j => daysFromTo (dates j 0) (dates j 0 + cfg.count - 1))
    (fun j _ => ⟨_, _, rfl⟩)
    (fun _ => ⟨hlive, hf, fun j hj => ⟨List.length_pos_iff.2 (hnil j hj j 0), fun p q => hnil j hj p q⟩⟩)
    (by
      intro j hj
      have hj' : j < (accs.map (·.1)).length := by simpa using hj
      obtain ⟨s', b1, b2, b3, b5, b6⟩ := timer_reset_live hlive (hacc _ (List.getElem_mem hj)) (dates j 0)
      have e1 : bySource ((accs.map (·.1)).map fun _ => ctxStart) nows j = ctxStart := bySource_lt _ _ _ hj'
      have e2 : bySource ((accs.map (·.1)).map TimerSetup.times) os j = (accs[j]).1.times := by
        rw [bySource_lt _ _ _ hj']; simp
      have e3 : srcClass (accs.map (·.1)) ts j = c!"AccountSyncEvent" := bySource_lt _ _ _ hj'
      refine ⟨rfl, s', b1, ?_⟩
      simp only [planOf, e1, e2, e3]
      refine ⟨b2, b3, ?_, ?_, (fun e => by cases e), ?_⟩
      · simp only [ESrc.rem, b5, b6, b3, List.nil_append, List.drop_zero]
      · rw [b6]; simp [daysFromTo]; omega
      · intro _; rw [b6]; simp [daysFromTo]; omega)
    (by
      intro i hi es hes
      have hl : (accs.map (·.1)).length = accs.length := by simp
      have e1 : bySource ((accs.map (·.1)).map fun _ => ctxStart) nows (accs.length + i) = nows i := by
        rw [← hl]; exact bySource_ge _ _ _ _
      have e2 : bySource ((accs.map (·.1)).map TimerSetup.times) os (accs.length + i) = os i := by
        rw [← hl]; exact bySource_ge _ _ _ _
      have e3 : srcClass (accs.map (·.1)) ts (accs.length + i) = taskName ts i := by
        rw [← hl]; exact bySource_ge _ _ _ _
      have hes0 : es ≠ [] := by
        rintro rfl
        refine hos0 (accs.length + i) (by omega) ?_
        have h := hes
        simp only [EntryTimes, List.map_nil, List.map_map] at h
        exact e2.trans (List.map_eq_nil_iff.1 h.symm)
      obtain ⟨s, s', b1, b2, b3, b4, b6, b7⟩ := build_live hlive (start := start) (now := nows i) hes0 hes
        (dates (accs.length + i) 0)
      refine ⟨by rw [b1], s', by rw [b1]; exact b2, ?_⟩
      simp only [planOf, e1, e2, e3]
      refine ⟨b3, b4, ?_, ?_, (fun e => by cases e), ?_⟩
      · simp only [ESrc.rem, b6, b7, b4, List.nil_append, List.drop_zero]
      · rw [b7]; simp [daysFromTo]; omega
      · intro _; rw [b7]; simp [daysFromTo]; omega)
  obtain ⟨k1, k2, k3⟩ := hsetup
  obtain ⟨l0, k4, k5, k6⟩ := k3 a0
  refine ⟨l0, k4, fun ls s hrun hl => ?_⟩
  obtain ⟨ws, fails, d, ls', hs⟩ := RunSim.run k2 (C := fun l => l.isInternal = true) (fun l h => h) (k6 _) hl hrun
  obtain ⟨r1, r2⟩ := run_core k1 (fun l h => h) k5 hrun hs
  have hL : ∀ i, (planOf timers ts none st
      (bySource (timers.map TimerSetup.times) os) (fun j => daysFromTo (dates j 0) (dates j 0 + cfg.count - 1))
      (s0.bus.emit sameClass c!"AccountSyncEvent") fn).L cfg ws i =
      eventsOf (st i) none ((bySource (timers.map TimerSetup.times) os i).map fun o => (o, srcClass timers ts i))
        ((dates i 0 :: ws i).flatMap fun u => daysFromTo u (u + cfg.count - 1)) := by
    intro i
    simp only [RunPlan.L, planOf, eventsOf, List.flatMap_cons, List.flatMap_append, List.flatMap_assoc]
    rfl
  have hdue : (fun i => ((planOf timers ts none st
      (bySource (timers.map TimerSetup.times) os) (fun j => daysFromTo (dates j 0) (dates j 0 + cfg.count - 1))
      (s0.bus.emit sameClass c!"AccountSyncEvent") fn).L cfg ws i).map (·.1)) = fun i => due (dates i 0 :: ws i) i := by
    funext i
    rw [hL]
    simp only [due, windowsDue, ← hw, eventsOf, List.map_flatMap, List.flatMap_assoc]
  refine ⟨ws, hs.dates, ?_, ?_, ?_⟩
  · intro j hj hlt
    apply Classical.byContradiction
    intro hc
    have h1 := hs.past j hc
    rw [← hs.count (fun l h => h) j] at h1
    have h2 : (due [dates j 0] j).length = (eventsOf (st j) none
        ((bySource (timers.map TimerSetup.times) os j).map fun o => (o, srcClass timers ts j))
        (daysFromTo (dates j 0) (dates j 0 + cfg.count - 1))).length := by
      simp only [due, windowsDue, List.flatMap_cons, List.flatMap_nil, List.append_nil, ← hw, List.length_map]
    rw [h2] at hlt
    have h3 : (firingsOf s j).length = firedCount s j := by simp [firingsOf, firingsIn, firedCount]
    rw [h3] at hlt
    exact absurd h1 (Nat.not_le.2 hlt)
  · rw [← hdue]; exact r1
  · intro hsep
    apply r2
    intro i hi
    refine (show List.Pairwise _ (RunPlan.L _ cfg ws i) from ?_)
    rw [hL]
    refine eventsOf_sorted ?_ ?_
    · intro o ho o' ho'
      obtain ⟨x, hx, rfl⟩ := List.mem_map.1 ho
      obtain ⟨y, hy, rfl⟩ := List.mem_map.1 ho'
      exact k1.span i hi x hx y hy
    · refine List.pairwise_flatMap.2 ⟨fun u _ => daysFromTo_increasing _ _, ?_⟩
      refine (hsep i hi).imp ?_
      intro v w hvw x hx y hy
      have := daysFromTo_mem.1 hx
      have := daysFromTo_mem.1 hy
      omega

/-- When no window is empty: with two days in a window, a source with a time of day is due in every window that does
not begin before its start. -/
theorem c63_windows_not_empty (count : Nat) (hc : 2 ≤ count) (st : Int) (os : List Int) (o : Int) (ho : o ∈ os) (h0 : 0 ≤ o)
    (w : Int) (hw : st / dayUs ≤ w) : dueTimes st none os w (w + count - 1) ≠ [] := by
  intro e
  have hm : ((w + 1) * dayUs + o) ∈ dueTimes st none os w (w + count - 1) := by
    simp only [dueTimes, eventsOf, List.mem_map, List.mem_flatMap]
    refine ⟨((w + 1) * dayUs + o, ()), ⟨w + 1, daysFromTo_mem.2 (by omega), ?_⟩, rfl⟩
    apply (sortBy_perm _ _).mem_iff.2
    simp only [rawDay, List.mem_filter, List.mem_map]
    refine ⟨⟨(o, ()), ⟨o, ho, rfl⟩, rfl⟩, ?_⟩
    have : st ≤ (w + 1) * dayUs + o := by simp only [dayUs, secUs] at *; omega
    simp [this]
  rw [e] at hm
  simp at hm

end

/-! ### A concrete case: a daily function at the close, a function every minute and an account synchronised every 30 s of
that minute, for two days. -/

private def demoCfg : ECfg := ⟨false, 365, [(34200 * secUs, 34260 * secUs)]⟩
private def demoTasks : List TaskDesc := [⟨c!"f", c!"close+0m"⟩, ⟨c!"g", c!"every_minute"⟩]
private def demoNs : Dict Str Nat := [(c!"f", 7), (c!"g", 8)]
private def demoOs (i : Nat) : List Int := if i = 0 then [34260 * secUs] else [34200 * secUs, 34260 * secUs]
/-- The account has registered `sync_balance` and `sync_orders`. -/
private def demoInit : SchedSt :=
  { classes := [(c!"AccountSyncEvent", 2)],
    bus := ((Bus.register [] c!"AccountSyncEvent" (.account 0) 0).register c!"AccountSyncEvent" (.account 1) 0) }
private def demoSched : SchedSt := (SchedSt.schedule 10 5 demoCfg.periods demoNs demoTasks demoInit).getD {}
private def demoTimer : TimerSetup := ⟨5 * dayUs + 28800 * secUs, 30 * secUs, [(34230 * secUs, 34260 * secUs)]⟩
private def demoAcc (en : Option Int) : List (TimerSetup × ESrc Str) :=
  [(demoTimer, (syncTimerSource 10 (5 * dayUs + 28800 * secUs) en demoTimer.now demoTimer.step demoTimer.periods
    c!"AccountSyncEvent").getD { start := none, endAt := none })]
/-- The state counts the calls; the fourth call of `f` would raise. -/
private def demoAct : Cb → Nat → Nat × Option PyErr
  | .user 0 _, n => (n + 100, if 400 ≤ n then some .valueError else none)
  | _, n => (n + 1, none)
private def demoEnv : RunEnv Nat := ⟨demoCfg, 1000, demoSched.bus, demoSched.classes, fun _ _ => 5, demoAct⟩
private def demoEnd : Int := 6 * dayUs + 43200 * secUs
/-- Started on day 5 at 08:00, ending on day 6 at 12:00. -/
private def demoStart : LoopSt (RunW Nat) Nat PyErr × Option PyErr :=
  runStart demoEnv 0 ((demoAcc (some demoEnd)).map (fun x => (x.2, .ok ())) ++
    taskSources demoCfg none (some demoEnd) (fun _ => 5 * dayUs + 28800 * secUs) demoSched.sources) (runEmpty 0)
/-- All firings are late. -/
private def demoLabels : List (Label Nat) :=
  .wakeNotify :: (List.range 10).flatMap (fun _ => [.pop, .clock 700000000 []]) ++ [.pop]

/-- At 09:31 all three are due: the account goes first, then the `every_minute` task. -/
example : (demoStart.1.run (runExec demoEnv) demoLabels).map (fun s => (s.halted, s.world.calls, s.world.st, s.fired.map (·.1.data))) =
      some (true, [.user 1 (some 8), .account 0, .account 1, .account 0, .account 1, .user 1 (some 8), .user 0 (some 7),
        .user 1 (some 8), .account 0, .account 1, .account 0, .account 1, .user 1 (some 8), .user 0 (some 7)], 212,
        [2, 0, 0, 2, 1, 2, 0, 0, 2, 1]) ∧
    (∀ l ∈ demoLabels, l.isQuiet = true) := by
  refine ⟨by decide +kernel, by decide⟩
example : dueTimes (5 * dayUs + 28800 * secUs) (some demoEnd) (demoOs 0) 5 6 = [466260000000, 552660000000] := by decide
private theorem demo_makes (en : Option Int) : ∀ x ∈ demoAcc en, x.1.Makes (5 * dayUs + 28800 * secUs) en x.2 := by
  intro x hx
  simp only [demoAcc, List.mem_singleton] at hx
  subst hx
  refine ⟨show 0 < demoTimer.step by decide, ?_, show demoTimer.times ≠ [] by decide, 10, rfl⟩
  intro p hp
  simp [demoTimer] at hp
  subst hp; decide
example : AfterInit demoInit ∧ SchedSt.schedule 10 5 demoCfg.periods demoNs demoTasks demoInit = some demoSched ∧
    PeriodsInDay demoCfg.periods ∧ WholeSeconds demoCfg.periods ∧
    (∀ i (hi : i < demoTasks.length), dget demoNs demoTasks[i].name = some (7 + i)) ∧
    (∀ i (hi : i < demoTasks.length), TaskTimes demoCfg.periods demoTasks[i] (demoOs i)) ∧ LiveCfg demoCfg ∧
    dget demoInit.classes c!"AccountSyncEvent" = some 2 ∧
    (∀ cb ∈ demoInit.bus.emit sameClass c!"AccountSyncEvent", (∃ k, cb = .account k) ∧ ∀ a, (demoAct cb a).2 = none) ∧
    (∀ j, j < 3 → ∀ p q : Nat, dueTimes (5 * dayUs) none (bySource [demoTimer.times] demoOs j) (demoEnv.dates p q)
      (demoEnv.dates p q + demoCfg.count - 1) ≠ []) := by
  refine ⟨⟨rfl, rfl, by decide, by decide⟩, rfl, ?_, ?_, by decide, ?_, ⟨rfl, by decide⟩, by decide, ?_, ?_⟩
  · intro p hp; simp [demoCfg] at hp; subst hp; decide
  · intro p hp; simp [demoCfg] at hp; subst hp; decide
  · intro i hi
    match i, hi with
    | 0, _ => exact ⟨34260 * secUs, rfl, rfl⟩
    | 1, _ => show demoOs 1 = demoCfg.periods.flatMap (stepTimes (60 * secUs)); decide
  · intro cb hcb
    have : cb ∈ [Cb.account 0, Cb.account 1] := hcb
    simp only [List.mem_cons, List.not_mem_nil, or_false] at this
    rcases this with rfl | rfl
    · exact ⟨⟨0, rfl⟩, fun _ => rfl⟩
    · exact ⟨⟨1, rfl⟩, fun _ => rfl⟩
  · intro j hj p q
    refine c63_windows_not_empty _ (by decide) _ _ (34260 * secUs) ?_ (by decide) _ (show 5 * dayUs / dayUs ≤ 5 by decide)
    match j, hj with
    | 0, _ => decide
    | 1, _ => decide
    | 2, _ => decide

end Jq
