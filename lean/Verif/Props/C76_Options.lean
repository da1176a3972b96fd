import Verif.Lemmas.Options
import Verif.Model.Startup
import Verif.Props.C12_Strategy
import Verif.Props.C09_TimeExpr
import Verif.Spec.Run
/-!
# C76–C78: what `set_options` takes, and what it is used for
-/
namespace Jq

/-! ## C76: which options are understood, and which stay in effect -/

/-- Which values are accepted as a time of day, and as which: a `datetime.time`, or a text `h:m:s` of one or two digits each, in
range.  Everything else is a `ValueError`. -/
theorem c76_times (v : TimeVal) :
    (∀ t, parseTime v = .ok t ↔ GivenTime v t) ∧ ((∀ t, ¬ GivenTime v t) → parseTime v = .error .valueError) := by
  refine ⟨parseTime_iff v, fun h => ?_⟩
  cases hp : parseTime v with
  | ok t => exact absurd ((parseTime_iff v t).1 hp) (h t)
  | error e => rw [parseTime_error hp]

example : parseTime (.text c!"9:05:7") = .ok ((9 * 3600 + 5 * 60 + 7) * secUs) ∧ parseTime (.text c!"09:30") = .error .valueError ∧
    parseTime (.text c!"09:30:60") = .error .valueError ∧ parseTime (.text c!"09:30:00 ") = .error .valueError ∧
    parseTime (.text c!"24:00:00") = .error .valueError := by decide +kernel

/-- A call of `set_options` in `process_initialize` whose values can all be understood replaces all options by its own; one with a
value that cannot is refused with an exception and changes nothing. -/
theorem c76_set_options (s : StratSt) (h : s.allowed = true) (o : Opts) (env : OptEnv) :
    (∀ o', KeptOptions o o' → (s.setOptions o env).1.options = o') ∧
    (¬ Understood o → (s.setOptions o env).1 = s ∧
      ∃ e, (s.setOptions o env).2 = .error e ∧ (e = .valueError ∨ e = .typeError ∨ o.syncInternal = some (.error e))) := by
  constructor
  · intro o' hk
    simp only [StratSt.setOptions, h, Bool.not_true, Bool.false_eq_true, if_false, (parse_iff _ _).2 hk]
    cases env.mkdir with
    | error e => rfl
    | ok u =>
      simp only
      split
      · simp only [StratSt.setupAccount]
        split
        · rfl
        · split
          · rfl
          · split <;> rfl
      · rfl
  · intro hn
    cases hp : o.parse with
    | ok o' => exact absurd ⟨o', (parse_iff _ _).1 hp⟩ hn
    | error e =>
      have hs : s.setOptions o env = (s, .error e) := by
        simp only [StratSt.setOptions, h, Bool.not_true, Bool.false_eq_true, if_false, hp]
      rw [hs]
      refine ⟨rfl, e, rfl, ?_⟩
      simp only [Opts.parse] at hp
      split at hp
      · rename_i hm; injection hp with hp; subst hp
        rcases convOpt_error hm with h | h
        · exact Or.inl h
        · exact Or.inr (Or.inl h)
      · split at hp
        · rename_i hi; injection hp with hp; subst hp; exact Or.inr (Or.inr hi)
        · split at hp
          · rename_i hm; injection hp with hp; subst hp
            rcases convOpt_error hm with h | h
            · exact Or.inl h
            · exact Or.inr (Or.inl h)
          · cases hp

example : Understood { marketPeriod := some (.seq [.seq [.text c!"9:30:00", .time (41400 * secUs)]]), syncInternal := some (.ok 5000000) } ∧
    ¬ Understood { marketPeriod := some (.seq [.seq [.text c!"9:30"]]) } :=
  ⟨(understood_iff _).2 (by decide +kernel), fun h => absurd ((understood_iff _).1 h) (by decide +kernel)⟩

private theorem call_options (s : StratSt) (h : s.allowed = true) (c : InitCall) :
    (∀ f t, c = .runDaily f t → (s.call c).1.options = s.options) ∧
    (∀ o env, c = .setOptions o env → (∀ o', KeptOptions o o' → (s.call c).1.options = o') ∧
      (¬ Understood o → (s.call c).1.options = s.options)) := by
  constructor
  · rintro f t rfl
    simp only [StratSt.call, StratSt.runDaily]
    cases f.fname with
    | none => rfl
    | some n => simp only [h]; cases f.callable <;> rfl
  · rintro o env rfl
    obtain ⟨h1, h2⟩ := c76_set_options s h o env
    exact ⟨h1, fun hn => by simp only [StratSt.call]; rw [(h2 hn).1]⟩

/-- The last call of `set_options` in a body whose values can be understood. -/
def LastUnderstood (b : List (InitCall × Bool)) (o : Opts) : Prop :=
  ∃ pre env c post, b = pre ++ (.setOptions o env, c) :: post ∧ Understood o ∧
    ∀ o' env' c', (InitCall.setOptions o' env', c') ∈ post → ¬ Understood o'

theorem lastUnderstood_unique {b : List (InitCall × Bool)} {o o' : Opts} (h : LastUnderstood b o) (h' : LastUnderstood b o') : o = o' := by
  obtain ⟨pre, env, c, post, hb, hu, hp⟩ := h
  obtain ⟨pre', env', c', post', hb', hu', hp'⟩ := h'
  rw [hb] at hb'
  rcases List.append_eq_append_iff.1 hb' with ⟨as, h1, h2⟩ | ⟨as, h1, h2⟩
  · cases as with
    | nil => simp at h2; exact h2.1.1.1
    | cons a as =>
      simp at h2
      exact absurd hu' (hp o' env' c' (by rw [h2.2]; simp))
  · cases as with
    | nil => simp at h2; exact h2.1.1.1.symm
    | cons a as =>
      simp at h2
      exact absurd hu (hp' o env c (by rw [h2.2]; simp))

private theorem runInit_options (b : List (InitCall × Bool)) : ∀ (s : StratSt), s.allowed = true →
    ((s.runInit b).2 = .ok ()) →
    ((∀ o env c, (InitCall.setOptions o env, c) ∈ b → ¬ Understood o) ∧ (s.runInit b).1.options = s.options) ∨
    ∃ o, LastUnderstood b o ∧ KeptOptions o (s.runInit b).1.options := by
  induction b with
  | nil => intro s _ _; exact Or.inl ⟨(by simp), rfl⟩
  | cons c b ih =>
    intro s ha hok
    obtain ⟨c, caught⟩ := c
    have hal := call_allowed s ha c
    obtain ⟨hr, ho⟩ := call_options s ha c
    have key : ∃ s1, s1 = (s.call c).1 ∧ s.runInit ((c, caught) :: b) = s1.runInit b := by
      refine ⟨_, rfl, ?_⟩
      simp only [StratSt.runInit] at hok ⊢
      cases hcall : s.call c with
      | mk s1 r =>
        rw [hcall] at hok
        cases r with
        | ok u => rfl
        | error e =>
          simp only at hok ⊢
          cases caught with
          | true => rfl
          | false => simp at hok
    obtain ⟨s1, e1, e2⟩ := key
    rw [e2] at hok ⊢
    rw [← e1] at hal hr ho
    rcases ih s1 hal hok with ⟨h1, h2⟩ | ⟨o, ⟨pre, env, cc, post, hb, hu, hp⟩, hk⟩
    · by_cases hc : ∃ o env, c = .setOptions o env ∧ Understood o
      · obtain ⟨o, env, rfl, o', hk⟩ := hc
        refine Or.inr ⟨o, ⟨[], env, caught, b, rfl, ⟨o', hk⟩, h1⟩, ?_⟩
        rw [h2, (ho o env rfl).1 o' hk]; exact hk
      · refine Or.inl ⟨?_, ?_⟩
        · intro o env c' hm
          rcases List.mem_cons.1 hm with hm | hm
          · injection hm with e1 e2
            intro hu; exact hc ⟨o, env, e1.symm, hu⟩
          · exact h1 o env c' hm
        · rw [h2]
          cases c with
          | runDaily f t => exact hr f t rfl
          | setOptions o env => exact (ho o env rfl).2 fun hu => hc ⟨o, env, rfl, hu⟩
    · exact Or.inr ⟨o, ⟨(c, caught) :: pre, env, cc, post, by rw [hb]; rfl, hu, hp⟩, hk⟩

/-- The options after `process_initialize`: those of the last call whose values could be understood, all other calls are forgotten;
without such a call there are none.  It does not matter whether that call raised later on, for example because the account could
not be set up, and was caught. -/
theorem c76_last_call (s s' : StratSt) (b : List (InitCall × Bool)) (h : s.setup (some b) = (s', .ok ())) :
    ((∀ o env c, (InitCall.setOptions o env, c) ∈ b → ¬ Understood o) ∧ s'.options = s.options) ∨
    ∃ o, LastUnderstood b o ∧ KeptOptions o s'.options := by
  simp only [StratSt.setup] at h
  cases hr : ({ s with allowed := true } : StratSt).runInit b with
  | mk s1 r =>
    rw [hr] at h
    cases r with
    | error e => simp at h
    | ok u =>
      simp only [Prod.mk.injEq] at h
      have := runInit_options b { s with allowed := true } rfl (by rw [hr])
      rw [hr] at this
      rw [← h.1]
      exact this

/-- Non-vacuity: the second call replaces the first although the account cannot be set up, the third is refused. -/
example : ∃ s', StratSt.setup {} (some [
      (.setOptions { marketPeriod := some (.seq [.seq [.text c!"9:30:00", .text c!"11:30:00"]]), useAccount := some false } {}, false),
      (.setOptions { syncInternal := some (.ok 1) } {}, true),
      (.setOptions { marketPeriod := some .scalar } {}, true)]) = (s', .ok ()) ∧
    s'.options = { syncInternal := some (.ok 1) } := by
  refine ⟨_, rfl, ?_⟩
  decide +kernel

/-! ## C77: the trading periods in effect -/

theorem minutePair_times (p : Int × Int) : minutePair (.seq [.time p.1, .time p.2]) = .ok p := rfl

theorem pairTimes_ofPeriods (fuel : Nat) (day step : Int) (qs : Periods) :
    pairTimes fuel day step (qs.map fun p => .seq [.time p.1, .time p.2]) = (periodTimes fuel day step qs).map .ok := by
  induction qs with
  | nil => rfl
  | cons q qs ih =>
    simp only [List.map_cons, pairTimes, minutePair_times, periodTimes, ih]
    cases timesLoop (day * dayUs + q.2) step fuel (day * dayUs + q.1) with
    | none => rfl
    | some ts => cases periodTimes fuel day step qs <;> rfl

/-- The times of an `every_minute` task and of the timer are those of the periods. -/
theorem times_ofPeriods (fuel : Nat) (day step : Int) (qs : Periods) :
    (PerVal.ofPeriods qs).times fuel day step = (periodTimes fuel day step qs).map .ok :=
  pairTimes_ofPeriods fuel day step qs

theorem openClose_ofPeriods (qs : Periods) : (PerVal.ofPeriods qs).openClose = (match qs.head?, qs.getLast? with
    | some p, some q => .ok (p.1, q.2)
    | _, _ => .error .indexError) := by
  simp only [PerVal.ofPeriods, PerVal.openClose, List.head?_map, List.getLast?_map]
  cases qs.head? with
  | none => rfl
  | some p => cases qs.getLast? <;> rfl

theorem exprTimeOf_ofPeriods (qs : Periods) (day : Int) (expr : Str) : exprTimeOf (.ofPeriods qs) day expr = exprToTime qs day expr := by
  simp only [exprTimeOf, openClose_ofPeriods, exprToTime]
  cases qs.head? with
  | none => rfl
  | some p => cases qs.getLast? <;> rfl

theorem entryTimeOf_ofPeriods (qs : Periods) (day : Int) (expr : Str) : entryTimeOf (.ofPeriods qs) day expr = entryTime qs day expr := by
  simp only [entryTimeOf, entryTime, exprTimeOf_ofPeriods]

theorem schedOneOf_ofPeriods (s : SchedSt) (fuel : Nat) (today : Int) (qs : Periods) (ns : Dict Str Nat) (t : TaskDesc) :
    s.schedOneOf fuel today (.ofPeriods qs) ns t = (s.schedOne fuel today qs ns t).map (·, .ok ()) := by
  simp only [SchedSt.schedOneOf, SchedSt.schedOne, times_ofPeriods, everyMinuteEntries]
  split
  · cases periodTimes fuel today minUs qs <;> rfl
  · rfl

theorem scheduleOf_ofPeriods (fuel : Nat) (today : Int) (qs : Periods) (ns : Dict Str Nat) (ts : List TaskDesc) : ∀ s : SchedSt,
    SchedSt.scheduleOf fuel today (.ofPeriods qs) ns ts s = (SchedSt.schedule fuel today qs ns ts s).map (·, .ok ()) := by
  induction ts with
  | nil => intro s; rfl
  | cons t ts ih =>
    intro s
    simp only [SchedSt.scheduleOf, SchedSt.schedule, schedOneOf_ofPeriods]
    cases s.schedOne fuel today qs ns t with
    | none => rfl
    | some s => exact ih s

private theorem kept_last {o o' : Opts} (h : KeptOptions o o') {ps : List PairVal} (hm : o.marketPeriod = some (.seq ps)) {qs : Periods}
    (hg : GivenPeriods ps qs) : o'.marketPeriod = some (.ofPeriods qs) := by
  have := h.market
  rw [hm] at this
  generalize o'.marketPeriod = w at this
  cases this with
  | some hk =>
    cases hk with
    | seq hg' =>
      have := ((convPairs_iff _ _).2 hg).symm.trans ((convPairs_iff _ _).2 hg')
      injection this with e
      rw [e]

/-- What the rest of the program makes of trading periods `v`: exactly what it makes of the periods `qs` as times.  (What that is
for `open`, `close` and `every_minute` is the subject of C09 and C11.) -/
structure MeansPeriods (v : PerVal) (qs : Periods) : Prop where
  entry : ∀ day expr, entryTimeOf v day expr = entryTime qs day expr
  sched : ∀ fuel today ns ts s, SchedSt.scheduleOf fuel today v ns ts s = (SchedSt.schedule fuel today qs ns ts s).map (·, .ok ())
  minutes : ∀ fuel day, v.times fuel day minUs = (periodTimes fuel day minUs qs).map .ok

theorem means_ofPeriods (qs : Periods) : MeansPeriods (.ofPeriods qs) qs :=
  ⟨entryTimeOf_ofPeriods qs, fun fuel today ns ts s => scheduleOf_ofPeriods fuel today qs ns ts s, fun fuel day => times_ofPeriods fuel day minUs qs⟩

/-- C77, for the last call that is understood: the trading periods that it gives, as texts or as times, are those by which all tasks
are scheduled, wherever in `process_initialize` they were added.  Missing for the full statement: periods given by an earlier call
(`c77_forgotten_refuted`). -/
theorem c77_given_partial (c : ProcCfg) (s s' : StratSt) (b : List (InitCall × Bool)) (h : s.setup (some b) = (s', .ok ()))
    (o : Opts) (ho : LastUnderstood b o) (ps : List PairVal) (hm : o.marketPeriod = some (.seq ps)) (qs : Periods)
    (hg : GivenPeriods ps qs) : MeansPeriods (c.market s'.options) qs := by
  have hl := c76_last_call s s' b h
  rcases hl with ⟨h1, _⟩ | ⟨o2, ho2, hk⟩
  · obtain ⟨pre, env, cc, post, hb, hu, _⟩ := ho
    exact absurd hu (h1 o env cc (by rw [hb]; simp))
  · have e : o2 = o := lastUnderstood_unique ho2 ho
    subst e
    rw [ProcCfg.market, kept_last hk hm hg]
    exact means_ofPeriods qs

/-- Without periods in that call, or without such a call, the configuration decides: what an earlier call said is forgotten. -/
theorem c77_configured (c : ProcCfg) (s' : StratSt) (b : List (InitCall × Bool))
    (h : StratSt.setup { setupAccountCfg := c.setupAccount } (some b) = (s', .ok ()))
    (hb : ∀ o, LastUnderstood b o → o.marketPeriod = none) : c.market s'.options = c.marketPeriod := by
  rcases c76_last_call _ s' b h with ⟨_, h2⟩ | ⟨o, ho, hk⟩
  · rw [ProcCfg.market, h2]; rfl
  · have hm := hk.market
    rw [hb o ho] at hm
    generalize hw : s'.options.marketPeriod = w at hm
    cases hm
    rw [ProcCfg.market, hw]; rfl

/-- C77 is false as stated: whatever periods a first call gives and whatever is configured, a second call that is understood and
says nothing about them (the usual way to name the account, say) puts the configured periods back in effect. -/
theorem c77_forgotten_refuted (c : ProcCfg) (o : Opts) (ho : Understood o) (hu : o.useAccount = some false) (o2 : Opts)
    (ho2 : Understood o2) (hu2 : o2.useAccount = some false) (hm2 : o2.marketPeriod = none) :
    ∃ s', StratSt.setup { setupAccountCfg := c.setupAccount } (some [(.setOptions o {}, false), (.setOptions o2 {}, false)]) = (s', .ok ()) ∧
      c.market s'.options = c.marketPeriod := by
  have call : ∀ (s : StratSt) (o : Opts), s.allowed = true → Understood o → o.useAccount = some false →
      ∃ s', s'.allowed = true ∧ s.call (.setOptions o {}) = (s', .ok ()) := by
    intro s o ha hk hu
    obtain ⟨o', hk⟩ := hk
    have hu' : o'.useAccount = some false := by rw [hk.same.1, hu]
    exact ⟨{ s with options := o', useAccount := some false }, ha, by
      simp [StratSt.call, StratSt.setOptions, ha, (parse_iff _ _).2 hk, hu']⟩
  obtain ⟨s1, a1, e1⟩ := call { setupAccountCfg := c.setupAccount, allowed := true } o rfl ho hu
  obtain ⟨s2, a2, e2⟩ := call s1 o2 a1 ho2 hu2
  have hs : StratSt.setup { setupAccountCfg := c.setupAccount } (some [(.setOptions o {}, false), (.setOptions o2 {}, false)]) =
      ({ s2 with allowed := false }, .ok ()) := by
    simp only [StratSt.setup, StratSt.runInit, e1, e2]
  refine ⟨_, hs, c77_configured c _ _ hs fun o' h' => ?_⟩
  have : LastUnderstood [(.setOptions o {}, false), (.setOptions o2 {}, false)] o2 :=
    ⟨[(.setOptions o {}, false)], {}, false, [], rfl, ho2, by simp⟩
  rw [lastUnderstood_unique h' this, hm2]

/-- The open of a day in the example below is 09:30 again, not 09:00. -/
example : ∃ s', StratSt.setup {} (some [
      (.setOptions { marketPeriod := some (.seq [.seq [.text c!"9:00:00", .text c!"15:00:00"]]), useAccount := some false } {}, false),
      (.runDaily ⟨1, some c!"f", true⟩ c!"open", false),
      (.setOptions { useAccount := some false } {}, false)]) = (s', .ok ()) ∧
    entryTimeOf (ProcCfg.market ⟨false, 365, .ofPeriods [(34200 * secUs, 54000 * secUs)], true, true, true, .ok 5000000, .falsy⟩ s'.options)
      0 c!"open+0m" = .ok (34200 * secUs) := by
  refine ⟨_, rfl, ?_⟩
  decide +kernel

theorem given_openClose {ps : List PairVal} {qs : Periods} (h : GivenPeriods ps qs) :
    (PerVal.seq ps).openClose = (PerVal.ofPeriods qs).openClose := by
  have hf : ∀ {p : PairVal} {q : Int × Int}, GivenPeriod p q → p.first = .ok q.1 ∧ p.last = .ok q.2 := by
    rintro p q ⟨ha, hb⟩
    exact ⟨(parseTime_iff _ _).2 ha, (parseTime_iff _ _).2 hb⟩
  have hl : ∀ (ps : List PairVal) (qs : Periods), GivenPeriods ps qs →
      (ps.getLast? = none ∧ qs.getLast? = none) ∨ ∃ p q, ps.getLast? = some p ∧ qs.getLast? = some q ∧ GivenPeriod p q := by
    intro ps qs h
    induction h with
    | nil => exact Or.inl ⟨rfl, rfl⟩
    | @cons p q ps qs hp hps ih =>
      refine Or.inr ?_
      rw [List.getLast?_cons, List.getLast?_cons]
      rcases ih with ⟨e1, e2⟩ | ⟨p', q', e1, e2, e3⟩
      · exact ⟨p, q, by rw [e1]; rfl, by rw [e2]; rfl, hp⟩
      · exact ⟨p', q', by rw [e1]; rfl, by rw [e2]; rfl, e3⟩
  rw [openClose_ofPeriods]
  simp only [PerVal.openClose]
  cases h with
  | nil => rfl
  | @cons p q ps qs hp hps =>
    rcases hl _ _ (GivenPeriods.cons hp hps) with ⟨e1, _⟩ | ⟨p', q', e1, e2, e3⟩
    · simp at e1
    · simp only [List.head?_cons, e1, e2, (hf hp).1, (hf e3).2]

/-- Periods that are configured need not be times: `open` and `close` understand texts as well, with the same meaning … -/
theorem c77_configured_texts (ps : List PairVal) (qs : Periods) (h : GivenPeriods ps qs) (day : Int) (expr : Str) :
    entryTimeOf (.seq ps) day expr = entryTime qs day expr := by
  rw [← entryTimeOf_ofPeriods]
  simp only [entryTimeOf, exprTimeOf, given_openClose h]

/-- … but an `every_minute` task does not: when one of the periods has a text, scheduling it is a `ValueError` that ends the
process (if the loops over the periods before it end, which they do with enough fuel). -/
theorem c77_minutes_texts_refuted (ps : List PairVal) (qs : Periods) (h : GivenPeriods ps qs) (fuel : Nat) (day step : Int)
    (hf : periodTimes fuel day step qs ≠ none) (ht : (PerVal.seq ps) ≠ .ofPeriods qs) :
    (PerVal.seq ps).times fuel day step = some (.error .valueError) := by
  have key : pairTimes fuel day step ps = some (.error .valueError) ∨ ps = qs.map fun p => .seq [.time p.1, .time p.2] := by
    clear ht
    induction h with
    | nil => exact Or.inr rfl
    | @cons p q ps qs hp hps ih =>
      simp only [periodTimes] at hf
      have hf1 : timesLoop (day * dayUs + q.2) step fuel (day * dayUs + q.1) ≠ none := by
        intro e; rw [e] at hf; exact hf rfl
      have hf2 : periodTimes fuel day step qs ≠ none := by
        intro e; rw [e] at hf
        apply hf
        cases timesLoop (day * dayUs + q.2) step fuel (day * dayUs + q.1) <;> rfl
      cases hp with
      | @mk a b x y ha hb =>
        cases ha with
        | text => exact Or.inl (by cases hb <;> rfl)
        | time =>
          cases hb with
          | text => exact Or.inl rfl
          | time =>
            obtain ⟨ts, hts⟩ := Option.ne_none_iff_exists'.1 hf1
            rcases ih hf2 with e | e
            · refine Or.inl ?_
              have hm : minutePair (.seq [.time x, .time y]) = .ok (x, y) := rfl
              simp only [pairTimes, hm, hts, e]
            · exact Or.inr (by rw [e]; rfl)
  rcases key with e | e
  · exact e
  · exact absurd (by rw [e]; rfl) ht

example : let v : PerVal := .seq [.seq [.text c!"09:30:00", .text c!"09:31:00"]]
    entryTimeOf v 0 c!"open+1m" = .ok (34260 * secUs) ∧ v.times 100 0 minUs = some (.error .valueError) ∧
    (PerVal.ofPeriods [(34200 * secUs, 34260 * secUs)]).times 100 0 minUs = some (.ok [c!"09:30:00", c!"09:31:00"]) := by
  decide +kernel

/-- An empty list of periods is understood too, but then no task at the open or the close can be scheduled (`IndexError`), and a
task of every minute has no time at all. -/
theorem c77_empty_refuted (c : ProcCfg) (s : StratSt) (h : s.allowed = true) :
    let s' := (s.setOptions { marketPeriod := some (.seq []), useAccount := some false } {}).1
    (s.setOptions { marketPeriod := some (.seq []), useAccount := some false } {}).2 = .ok () ∧
      (∀ day expr, ':' ∉ expr → entryTimeOf (c.market s'.options) day expr = .error .indexError) ∧
      ∀ fuel day, (c.market s'.options).times fuel day minUs = some (.ok []) := by
  have e : s.setOptions { marketPeriod := some (.seq []), useAccount := some false } {} =
      ({ s with options := { marketPeriod := some (.seq []), useAccount := some false }, useAccount := some false }, .ok ()) := by
    simp [StratSt.setOptions, h, Opts.parse, convOpt, PerVal.convert, Except.map]
  rw [e]
  refine ⟨rfl, fun day expr hc => ?_, fun fuel day => rfl⟩
  simp only [entryTimeOf, if_neg hc, ProcCfg.market, exprTimeOf]
  rfl

end Jq
