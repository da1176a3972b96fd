import Verif.Lemmas.Timers
import Verif.Props.C07_Daily
/-! # C11, C54: repeating timers -/
namespace Jq
variable {γ : Type}

/-! ## C11 -/

private theorem entryTimes_map (cfg : ECfg) (ts : List Str) (os : List Int) (c : γ)
    (h : ts.map (entryTime cfg.periods 0) = os.map .ok) :
    EntryTimes cfg (ts.map fun t => (t, c)) (os.map fun o => (o, c)) := by
  simp only [EntryTimes, List.map_map]
  have := congrArg (List.map fun r : Py Int => (r, c)) h
  simpa [List.map_map, Function.comp_def] using this

/-- The entries of an `every_minute` task denote exactly the times of day `start + k·60 s ≤ end` of each
trading period, period by period (fractions of a second in the period bounds are dropped), whatever the day
the strategy was started. -/
theorem c11_every_minute (cfg : ECfg) (today : Int) (c : γ) (hin : PeriodsInDay cfg.periods) :
    ∃ N, ∀ fuel, N ≤ fuel → ∃ es, everyMinuteEntries fuel today cfg.periods c = some es ∧
      EntryTimes cfg es ((cfg.periods.flatMap (stepTimes (60 * secUs))).map fun o => (o, c)) := by
  obtain ⟨N, hN⟩ := periodTimes_eq cfg.periods today minUs (by decide) cfg.periods
    (fun p hp => ⟨(hin p hp).1, (hin p hp).2.2.2⟩)
  refine ⟨N, fun fuel hf => ?_⟩
  obtain ⟨ts, h1, h2⟩ := hN fuel hf
  exact ⟨ts.map fun t => (t, c), by rw [everyMinuteEntries, h1]; rfl, entryTimes_map cfg ts _ c h2⟩

/-- What `stepTimes` lists: exactly the steps inside the period, in increasing order without repetition
(for steps of at least a second). -/
theorem c11_steps_meaning (step : Int) (hstep : secUs ≤ step) (p : Int × Int) :
    (∀ t, t ∈ stepTimes step p ↔ ∃ k : Nat, p.1 + k * step ≤ p.2 ∧ t = (p.1 + k * step) / secUs * secUs) ∧
    (stepTimes step p).Pairwise (· < ·) := by
  have hpos : 0 < step := Int.lt_of_lt_of_le (by decide) hstep
  refine ⟨fun t => ?_, ?_⟩
  · simp only [stepTimes, List.mem_map, List.mem_range]
    constructor
    · rintro ⟨k, hk, rfl⟩
      exact ⟨k, step_le hpos hk, rfl⟩
    · rintro ⟨k, hk, rfl⟩
      refine ⟨k, ?_, rfl⟩
      have : (k : Int) ≤ (p.2 - p.1) / step := Int.le_ediv_of_mul_le hpos (by omega)
      omega
  · simp only [stepTimes, List.pairwise_map]
    refine List.pairwise_lt_range.imp fun {i j} hij => ?_
    have h1 : ((i : Int) + 1) * step ≤ j * step := Int.mul_le_mul_of_nonneg_right (by omega) (by omega)
    rw [Int.add_mul, Int.one_mul] at h1
    have h2 : (p.1 + i * step) / secUs + 1 ≤ (p.1 + j * step) / secUs := by
      have : (p.1 + i * step + 1 * secUs) / secUs ≤ (p.1 + j * step) / secUs :=
        Int.ediv_le_ediv (by decide) (by omega)
      rwa [Int.add_mul_ediv_right _ _ (by decide)] at this
    exact Int.mul_lt_mul_of_pos_right (by omega) (by decide)

/-- When the period bounds are whole seconds nothing is dropped: the times are `start + k·60 s`. -/
theorem c11_whole_seconds (p : Int × Int) (a : Int) (ha : p.1 = a * secUs) (t : Int) :
    t ∈ stepTimes (60 * secUs) p ↔ ∃ k : Nat, t = p.1 + k * (60 * secUs) ∧ t ≤ p.2 := by
  rw [(c11_steps_meaning _ (by decide) p).1]
  have e : ∀ k : Nat, (p.1 + k * (60 * secUs)) / secUs * secUs = p.1 + k * (60 * secUs) := by
    intro k
    rw [show p.1 + (k : Int) * (60 * secUs) = (a + k * 60) * secUs by rw [ha, Int.add_mul, Int.mul_assoc],
      Int.mul_ediv_cancel _ (by decide)]
  constructor
  · rintro ⟨k, h1, rfl⟩
    exact ⟨k, e k, by rw [e]; exact h1⟩
  · rintro ⟨k, rfl, h2⟩
    exact ⟨k, h2, (e k).symm⟩

/-- Non-vacuity: the default trading periods; the morning has 121 steps, the first at 09:30, the last at
11:30. -/
example : PeriodsInDay [(34200 * secUs, 41400 * secUs), (46800 * secUs, 54000 * secUs)] ∧
    (stepTimes (60 * secUs) (34200 * secUs, 41400 * secUs)).length = 121 ∧
    41400 * secUs ∈ stepTimes (60 * secUs) (34200 * secUs, 41400 * secUs) ∧
    everyMinuteEntries 5 17 [(34200 * secUs, 34320 * secUs), (54000 * secUs, 54000 * secUs)] 'x' =
      some [(c!"09:30:00", 'x'), (c!"09:31:00", 'x'), (c!"09:32:00", 'x'), (c!"15:00:00", 'x')] := by
  refine ⟨?_, by decide, ?_, by decide⟩
  · intro p hp
    rcases List.mem_cons.1 hp with rfl | hp
    · decide
    · rcases List.mem_cons.1 hp with rfl | hp
      · decide
      · exact absurd hp (by simp)
  · exact (c11_whole_seconds _ 34200 rfl _).2 ⟨120, by decide, by decide⟩

/-! ## C54 -/

private theorem syncSource_daily (cs : Int) (ce : Option Int) (es : List (Str × γ)) :
    (es.foldl (fun s e => s.addDaily e.1 e.2) ({ start := some cs, endAt := ce } : ESrc γ)) =
      { daily := es, start := some cs, endAt := ce } := by
  rw [foldl_addDaily]; simp

/-- With no `sync_period` the timer's daily times are exactly `s + k·interval` for `k = 1, 2, …` up to
23:59:59, where `s` is the time of day at which the strategy was started (to the second). -/
theorem c54_no_period_times (cfg : ECfg) (ctxStart : Int) (ctxEnd : Option Int) (now step : Int) (c : γ)
    (hstep : 0 < step) :
    ∃ N, ∀ fuel, N ≤ fuel → ∃ src, syncTimerSource fuel ctxStart ctxEnd now step [] c = some src ∧
      src.start = some ctxStart ∧ src.endAt = ctxEnd ∧ src.need = true ∧
      EntryTimes cfg src.daily
        ((stepTimes step (now % dayUs / secUs * secUs + step, 86399 * secUs)).map fun o => (o, c)) := by
  have hday : now / secUs * secUs = now / dayUs * dayUs + now % dayUs / secUs * secUs := by
    simp only [dayUs, secUs]; omega
  have hday2 : now / secUs * secUs / dayUs = now / dayUs := by
    simp only [dayUs, secUs]; omega
  have h0 : 0 ≤ now % dayUs / secUs * secUs := by
    simp only [dayUs, secUs]; omega
  refine ⟨((86399 * secUs - (now % dayUs / secUs * secUs + step)) / step + 1).toNat + 1, fun fuel hf => ?_⟩
  have hl := timesLoop_steps (now / dayUs) (now % dayUs / secUs * secUs + step) (86399 * secUs) step hstep fuel (by omega)
  refine ⟨{ daily := ((List.range ((86399 * secUs - (now % dayUs / secUs * secUs + step)) / step + 1).toNat).map
      fun (k : Nat) => hmsStr (now / dayUs * dayUs + (now % dayUs / secUs * secUs + step + k * step))).map fun t => (t, c),
            start := some ctxStart, endAt := ctxEnd }, ?_, ?_⟩
  · simp only [syncTimerSource, syncTimerEntries, if_true, hday2]
    rw [show now / secUs * secUs + step = now / dayUs * dayUs + (now % dayUs / secUs * secUs + step) by omega, hl]
    simp only [Option.map_some, syncSource_daily]
  · refine ⟨rfl, rfl, rfl, ?_⟩
    apply entryTimes_map
    rw [List.map_map]
    exact entryTime_steps cfg.periods (now / dayUs) (now % dayUs / secUs * secUs + step, 86399 * secUs) step hstep
      (by simp only; omega) (show 86399 * secUs < dayUs by decide)

/-- With `sync_period` the daily times are the steps of each period, on every day. -/
theorem c54_with_periods (cfg : ECfg) (ctxStart : Int) (ctxEnd : Option Int) (now step : Int) (c : γ)
    (hstep : 0 < step) (ps : Periods) (hne : ps ≠ []) (hin : PeriodsInDay ps) :
    ∃ N, ∀ fuel, N ≤ fuel → ∃ src, syncTimerSource fuel ctxStart ctxEnd now step ps c = some src ∧
      src.start = some ctxStart ∧ src.endAt = ctxEnd ∧ src.need = true ∧
      EntryTimes cfg src.daily ((ps.flatMap (stepTimes step)).map fun o => (o, c)) := by
  obtain ⟨N, hN⟩ := periodTimes_eq cfg.periods (now / secUs * secUs / dayUs) step hstep ps
    (fun p hp => ⟨(hin p hp).1, (hin p hp).2.2.2⟩)
  refine ⟨N, fun fuel hf => ?_⟩
  obtain ⟨ts, h1, h2⟩ := hN fuel hf
  refine ⟨{ daily := ts.map fun t => (t, c), start := some ctxStart, endAt := ctxEnd }, ?_, rfl, rfl, rfl,
    entryTimes_map cfg ts _ c h2⟩
  simp only [syncTimerSource, syncTimerEntries, if_neg hne, h1, Option.map_some, syncSource_daily]

/-- In live mode the events of such a source are its daily times on every day of the window, from the start of
the process on. -/
theorem c54_events_partial (cfg : ECfg) (hl : LiveCfg cfg) (s : ESrc γ) (st : Int) (offs : List (Int × γ))
    (hs : s.start = some st) (hend : s.endAt = none) (hneed : s.need = true) (h : EntryTimes cfg s.daily offs)
    (clocks : Nat → Nat → Int) (today : Int) (ht : clocks 0 0 = today) (fuel : Nat) (hf : cfg.count + 1 ≤ fuel) (n : Nat)
    (hn : n ≤ (eventsOf st none offs (daysFromTo today (today + cfg.count - 1))).length) :
    ∃ s', s.getMany cfg fuel clocks n = some (s',
        ((eventsOf st none offs (daysFromTo today (today + cfg.count - 1))).take n).map fun e => .ok (some e)) := by
  have hw : dayRange today cfg.count = daysFromTo today (today + cfg.count - 1) := by
    simp only [dayRange, daysFromTo]; congr 2; omega
  cases n with
  | zero => exact ⟨s, by simp [ESrc.getMany]⟩
  | succ n =>
    obtain ⟨dl, ev, ds, sa, en, nd, hh⟩ := s
    simp only at hs hend hneed h
    subst hs hend hneed
    have hr : ESrc.resetIfNeeded cfg (clocks 0 0) (⟨dl, ev, ds, some st, none, true, hh⟩ : ESrc γ) =
        (⟨dl, [], daysFromTo today (today + cfg.count - 1), some st, none, false, true⟩, .ok ()) := by
      simp [ESrc.resetIfNeeded, ESrc.getDays, hl.1, ht, hw]
    rw [getMany_reset hr rfl (n + 1) (by omega)]
    obtain ⟨s', g, _⟩ := getMany_window (cfg := cfg) (st := st) (offs := offs)
      (s := ⟨dl, [], daysFromTo today (today + cfg.count - 1), some st, none, false, true⟩) ⟨rfl, rfl, h⟩ clocks fuel
      (by simp only [daysFromTo, List.length_map, List.length_range]; omega) (n + 1) (by simpa [ESrc.rem] using hn)
    exact ⟨s', by simpa [ESrc.rem] using g⟩

/-- The statement of C54 fails: with no `sync_period` no synchronisation ever happens, on any day, at a time of
day up to that of the start of the process plus the interval. -/
theorem c54_mornings_missed_refuted (now step st : Int) (hstep : secUs ≤ step) (c : γ) (ds : List Int) (e : Int × γ)
    (he : e ∈ eventsOf st none ((stepTimes step (now % dayUs / secUs * secUs + step, 86399 * secUs)).map fun o => (o, c)) ds) :
    now % dayUs < e.1 % dayUs := by
  simp only [eventsOf, List.mem_flatMap] at he
  obtain ⟨d, _, he⟩ := he
  have he := (sortBy_perm _ _).mem_iff.1 he
  simp only [rawDay, List.mem_filter, List.mem_map] at he
  obtain ⟨⟨x, ⟨t, ht, rfl⟩, rfl⟩, _⟩ := he
  obtain ⟨k, hk, rfl⟩ := ((c11_steps_meaning step hstep _).1 _).1 ht
  simp only at hk ⊢
  obtain ⟨b1, b2⟩ := tod_bounds now
  generalize now % dayUs = v at *
  have hk0 : 0 ≤ (k : Int) * step := Int.mul_nonneg (by omega) (by simp only [secUs] at hstep; omega)
  generalize (k : Int) * step = w at *
  rw [Int.add_comm, Int.mul_comm d, Int.add_mul_emod_self_left]
  simp only [secUs, dayUs] at *
  omega

/-- Non-vacuity and concrete violation: started at 15:00:00 with the default interval of 5 s, the synchronisation
times of every later day start at 15:00:05, so nothing is synchronised during the whole trading day before. -/
example : ∀ e ∈ eventsOf (54000 * secUs) none
      ((stepTimes (5 * secUs) ((54000 * secUs) % dayUs / secUs * secUs + 5 * secUs, 86399 * secUs)).map fun o => (o, ()))
      (daysFromTo 0 364), 54000 * secUs < e.1 % dayUs :=
  fun e he => c54_mornings_missed_refuted (54000 * secUs) (5 * secUs) (54000 * secUs) (by decide) () _ e he

example : (54005 * secUs, ()) ∈ eventsOf (54000 * secUs) none
      ((stepTimes (5 * secUs) ((54000 * secUs) % dayUs / secUs * secUs + 5 * secUs, 86399 * secUs)).map fun o => (o, ()))
      (daysFromTo 0 364) := by
  simp only [eventsOf, List.mem_flatMap]
  refine ⟨0, daysFromTo_mem.2 (by decide), ?_⟩
  apply (sortBy_perm _ _).mem_iff.2
  simp only [rawDay, List.mem_filter, List.mem_map]
  refine ⟨⟨(54005 * secUs, ()), ⟨54005 * secUs, ((c11_steps_meaning _ (by decide) _).1 _).2 ⟨0, by decide, by decide⟩, rfl⟩,
    by decide⟩, by decide⟩

/-- A process started in the last interval before midnight gets a timer without entries, and scheduling it
never returns. -/
theorem c54_late_start_hangs_refuted (cfg : ECfg) (hl : LiveCfg cfg) (ctxStart now step : Int) (c : γ)
    (hlate : 86399 * secUs < now % dayUs / secUs * secUs + step) :
    ∀ fuel, 0 < fuel → ∃ src, syncTimerSource fuel ctxStart none now step [] c = some src ∧
      ∀ clock fuel', src.peek cfg clock fuel' = none := by
  intro fuel hf
  obtain ⟨f, rfl⟩ : ∃ f, fuel = f + 1 := ⟨fuel - 1, by omega⟩
  refine ⟨{ start := some ctxStart, endAt := none }, ?_, fun clock fuel' =>
    c15_empty_source_refuted cfg hl _ rfl rfl rfl clock fuel'⟩
  have : ¬ now / secUs * secUs + step ≤ now / secUs * secUs / dayUs * dayUs + 86399 * secUs := by
    simp only [dayUs, secUs] at *; omega
  simp only [syncTimerSource, syncTimerEntries, if_true, timesLoop, if_neg this]
  rfl

example : 86399 * secUs < (3 * dayUs + 86396 * secUs) % dayUs / secUs * secUs + 5 * secUs := by decide

/-- An interval of zero makes the setup of the timer loop for ever. -/
theorem c54_zero_interval_refuted (ctxStart now : Int) (ctxEnd : Option Int) (c : γ)
    (fuel : Nat) : syncTimerSource fuel ctxStart ctxEnd now 0 [] c = none := by
  have key : ∀ fuel cur e, cur ≤ e → timesLoop e 0 fuel cur = none := by
    intro fuel
    induction fuel with
    | zero => intros; rfl
    | succ f ih =>
      intro cur e h
      simp only [timesLoop, if_pos h, Int.add_zero, ih cur e h, Option.map_none]
  simp only [syncTimerSource, syncTimerEntries, if_true]
  rw [key]
  · rfl
  · simp only [dayUs, secUs]; omega

end Jq
