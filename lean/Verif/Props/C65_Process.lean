import Verif.Lemmas.Process
import Verif.Props.C63_Run
/-!
# C65: a process with an account

What happens to the account in a whole run, when the user's functions are arbitrary programs that call the API.
-/
namespace Jq
variable {γ ν μ : Type} [PyNum ν]

/-! ## Set-up -/

/-- `Account.setup` that succeeds has set up the gate and then synchronised what is to be synchronised; it fails only when the
gate or the timer cannot be set up, not because of the synchronisation, and then nothing has been synchronised. -/
theorem c65_setup (G : Gate γ ν) (gateSetup : γ → γ × Py Unit) (needBalance needOrders : Bool) (timer : Py Unit) (a : Acct γ ν) :
    (((a.setup G gateSetup needBalance needOrders timer).2 = .ok ()) ↔
      (gateSetup a.gate).2 = .ok () ∧ ((needBalance = true ∨ needOrders = true) → timer = .ok ())) ∧
    ((a.setup G gateSetup needBalance needOrders timer).2 = .ok () →
      (a.setup G gateSetup needBalance needOrders timer).1 =
        ({ a with gate := (gateSetup a.gate).1 } : Acct γ ν).run G (syncOps needBalance needOrders)) ∧
    (∀ e, (a.setup G gateSetup needBalance needOrders timer).2 = .error e →
      (a.setup G gateSetup needBalance needOrders timer).1 = { a with gate := (gateSetup a.gate).1 } ∧
      ((gateSetup a.gate).2 = .error e ∨ (gateSetup a.gate).2 = .ok () ∧ timer = .error e)) := by
  simp only [Acct.setup]
  cases hg : gateSetup a.gate with
  | mk g r =>
    cases r with
    | error e => simp
    | ok u =>
      simp only
      generalize ({ a with gate := g } : Acct γ ν) = b
      have h1 := Acct.syncBalance_ok G b
      have h2 := Acct.syncOrders_ok G b
      have h3 := Acct.syncOrders_ok G (b.syncBalance G).1
      cases hs : b.syncBalance G with
      | mk c r =>
        rw [hs] at h1 h3
        cases h1
        cases timer with
        | error e => cases needBalance <;> cases needOrders <;> simp [syncOps, Acct.run]
        | ok v => cases needBalance <;> cases needOrders <;> simp_all [syncOps, Acct.run, Acct.step]

/-! ## The account's part of the schedule -/

theorem accountSetup_init (nb no : Bool) : AfterInit (SchedSt.accountSetup 0 nb no {}) := by
  cases nb <;> cases no <;> exact ⟨rfl, rfl, by decide, by decide⟩

theorem accountSetup_class (nb no : Bool) (h : (nb || no) = true) :
    dget (SchedSt.accountSetup 0 nb no {}).classes c!"AccountSyncEvent" = some 2 := by
  cases nb <;> cases no <;> first | rfl | (cases h)

theorem accountSetup_emit (nb no : Bool) :
    (SchedSt.accountSetup 0 nb no {}).bus.emit sameClass c!"AccountSyncEvent" = accCbs nb no := by
  cases nb <;> cases no <;> rfl

theorem accountSetup_silent (G : Gate γ ν) (udig : Char → Bool) (fns : Nat → μ → Ctx γ ν → Prog γ ν μ) (nb no : Bool) :
    ∀ cb ∈ (SchedSt.accountSetup 0 nb no {}).bus.emit sameClass c!"AccountSyncEvent",
      (∃ k, cb = .account k) ∧ ∀ a, (procAct G udig fns cb a).2 = none := by
  rw [accountSetup_emit]
  intro cb hcb
  have : ∃ k, cb = .account k := by
    cases nb <;> cases no <;> simp [accCbs] at hcb <;> (try rcases hcb with rfl | rfl) <;> (try subst hcb) <;> exact ⟨_, rfl⟩
  refine ⟨this, fun a => ?_⟩
  obtain ⟨k, rfl⟩ := this
  exact procAct_account G udig fns a k

/-- C66, when the account is set up once: an event of the timer calls each method that was asked for exactly once, `sync_balance`
first. -/
theorem c66_once_partial (n : Nat) (nb no : Bool) : (SchedSt.accountSetup n nb no {}).bus.emit sameClass c!"AccountSyncEvent" =
    (if nb then [.account (2 * n)] else []) ++ if no then [.account (2 * n + 1)] else [] := by
  cases nb <;> cases no <;> rfl

/-- C66 is false when it is set up again.  Each account object registers its own callbacks and none is ever removed: when `set_options` is called again with an
account, every synchronisation event, of the old timer and of the new one, also calls the methods of the account object that
is not used any more.  So "a synchronisation event synchronises the account once" fails after the second call. -/
theorem c66_options_twice_refuted (n m : Nat) (nb no nb' no' : Bool) (h : (nb || no) = true) (h' : (nb' || no') = true) :
    let first := (SchedSt.accountSetup n nb no {}).bus.emit sameClass c!"AccountSyncEvent"
    let second := (SchedSt.accountSetup m nb' no' {}).bus.emit sameClass c!"AccountSyncEvent"
    ((SchedSt.accountSetup n nb no {}).accountSetup m nb' no').bus.emit sameClass c!"AccountSyncEvent" = first ++ second ∧
      first ≠ [] ∧ second ≠ [] := by
  refine ⟨?_, ?_, ?_⟩
  · cases nb <;> cases no <;> cases nb' <;> cases no' <;> rfl
  · cases nb <;> cases no <;> first | (cases h; done) | (intro e; cases e)
  · cases nb' <;> cases no' <;> first | (cases h'; done) | (intro e; cases e)

example : ((SchedSt.accountSetup 0 true true {}).accountSetup 1 true true).bus.emit sameClass c!"AccountSyncEvent" =
    [.account 0, .account 1, .account 2, .account 3] := by decide

/-! ## The account in a run -/

/-- The account during a run, from the firings of the run. -/
theorem c65_account_in_run (G : Gate γ ν) (udig : Char → Bool) (fns : Nat → μ → Ctx γ ν → Prog γ ν μ) (needBalance needOrders : Bool)
    (timers : List TimerSetup) (fn : Nat → Nat) (k : Nat) (prio : Nat → Int) (due : Nat → List Int) (p0 : PSt γ ν μ) (a0 : Acct γ ν)
    (h0 : p0.ctx = ⟨true, some a0⟩) (ho : p0.olds = []) (s : LoopSt (RunW (PSt γ ν μ)) Nat PyErr)
    (h : RunsAsDue (procAct G udig fns) p0 k prio (srcCbs timers (accCbs needBalance needOrders) fn) due s) :
    ∃ ops, AccountInRun G udig fns needBalance needOrders timers fn p0 a0 s ops := by
  exact ⟨_, accountInRun_of G udig fns needBalance needOrders timers fn p0 a0 h0 ho s (by rw [h.state, h.calls, stateAfter, List.take_length])⟩

/-- Every synchronisation that is due when a task fires has been done before. -/
theorem c65_synced_before_tasks {α : Type} (act : Cb → α → α × Option PyErr) (a0 : α) (timers : List TimerSetup) (ts : List TaskDesc)
    (cbs : Nat → List Cb) (due : Nat → List Int) (s : LoopSt (RunW α) Nat PyErr)
    (h : RunsAsDue act a0 (timers.length + ts.length) (srcPrio timers ts) cbs due s) (ho : InOrder (srcPrio timers ts) s)
    (hdue : ∀ j, j < timers.length → (due j).Pairwise (· ≤ ·)) : SyncedBeforeTasks timers.length due s := by
  intro before f after hs hf j hj
  have hpre : firingsIn before j <+: due j := by
    refine List.IsPrefix.trans ?_ (h.fires j (by omega))
    rw [firingsOf, hs]
    exact ⟨firingsIn (f :: after) j, by simp [firingsIn, List.filter_append]⟩
  have hle : ∀ t ∈ firingsIn before j, t ≤ millisToDt f.1.time := by
    intro t ht
    obtain ⟨g, hg, rfl⟩ := List.mem_map.1 ht
    have hg := (List.mem_filter.1 hg).1
    have ho := ho
    rw [InOrder, hs, List.pairwise_append] at ho
    have := ho.2.2 g hg f (List.mem_cons_self)
    simp only [millisToDt]
    omega
  obtain ⟨rest, hrest⟩ := hpre
  have hnext : ∀ t ∈ rest, millisToDt f.1.time < t := by
    intro t ht
    cases rest with
    | nil => simp at ht
    | cons u rest =>
      have h1 := h.next before f after hs j (by omega) u (by rw [← hrest]; simp)
      have hp1 : srcPrio timers ts j = 2 := by simp [srcPrio, bySource, hj]
      have hp2 : srcPrio timers ts f.1.data ≤ 1 := by
        simp only [srcPrio, bySource, List.length_map, Nat.not_lt.2 hf, dite_false]
        split <;> omega
      have h2 : millisToDt f.1.time < u := by
        rcases h1 with h1 | ⟨_, h1⟩
        · exact h1
        · omega
      have hsrt := hdue j hj
      rw [← hrest, List.pairwise_append] at hsrt
      rcases List.mem_cons.1 ht with rfl | ht
      · exact h2
      · have := (List.pairwise_cons.1 hsrt.2.1).1 t ht
        omega
  rw [← hrest, List.filter_append, List.filter_eq_self.2 (fun t ht => decide_eq_true (hle t ht)),
    List.filter_eq_nil_iff.2 (fun t ht => by have := hnext t ht; simp; omega), List.append_nil]

theorem dueTimes_map (st : Int) (en : Option Int) (os : List Int) (a b : Int) :
    dueTimes st en os a b = (eventsOf st en (os.map fun o => (o, ())) (daysFromTo a b)).map (·.1) := rfl

theorem timer_span {t : TimerSetup} (hs : 0 < t.step) (hp : PeriodsInDay t.periods) :
    ∀ o ∈ t.times.map (fun o => (o, ())), ∀ o' ∈ t.times.map (fun o => (o, ())), o.1 ≤ o'.1 + dayUs := by
  intro o ho o' ho'
  obtain ⟨x, hx, rfl⟩ := List.mem_map.1 ho
  obtain ⟨y, hy, rfl⟩ := List.mem_map.1 ho'
  have := timer_times_in hs hp hx
  have := timer_times_in hs hp hy
  simp only
  omega

theorem windowsDue_sorted {count : Nat} {st : Int} {os : List Int}
    (hspan : ∀ o ∈ os.map (fun o => (o, ())), ∀ o' ∈ os.map (fun o => (o, ())), o.1 ≤ o'.1 + dayUs) {ws : List Int}
    (hsep : ws.Pairwise fun v w : Int => v + count ≤ w) : (windowsDue count st os ws).Pairwise (· ≤ ·) := by
  have e : windowsDue count st os ws =
      (eventsOf st none (os.map fun o => (o, ())) (ws.flatMap fun u => daysFromTo u (u + count - 1))).map (·.1) := by
    simp only [windowsDue, dueTimes_map, eventsOf, List.map_flatMap, List.flatMap_assoc]
  rw [e, List.pairwise_map]
  refine eventsOf_sorted hspan (List.pairwise_flatMap.2 ⟨fun u _ => daysFromTo_increasing _ _, hsep.imp ?_⟩)
  intro v w hvw x hx y hy
  have := daysFromTo_mem.1 hx
  have := daysFromTo_mem.1 hy
  omega

/-- C65 with an end date.  The process starts its loop, and at every moment of the run, whatever the gate answers or raises:
the account is the result of the synchronisations and of what the user's functions did, in the order of the firings; when a
task fires, every synchronisation due until then has been done.  If the loop ended by itself and no function of the user
raised, everything has happened at every one of its due times: a gate that fails stops nothing. -/
theorem c65_process_with_end (G : Gate γ ν) (udig : Char → Bool) (fns : Nat → μ → Ctx γ ν → Prog γ ν μ) (nb no : Bool) (p0 : PSt γ ν μ)
    (a0 : Acct γ ν) (ha : p0.ctx = ⟨true, some a0⟩) (ho : p0.olds = [])
    (cfg : ECfg) (fuel0 fuel : Nat) (today : Int) (ns : Dict Str Nat) (ts : List TaskDesc) (s1 : SchedSt)
    (hsched : SchedSt.schedule fuel0 today cfg.periods ns ts (SchedSt.accountSetup 0 nb no {}) = some s1)
    (hin : PeriodsInDay cfg.periods) (hsec : WholeSeconds cfg.periods)
    (fn : Nat → Nat) (hfn : ∀ i (hi : i < ts.length), dget ns ts[i].name = some (fn i))
    (os : Nat → List Int) (hos : ∀ i (hi : i < ts.length), TaskTimes cfg.periods ts[i] (os i))
    (acc : Option (TimerSetup × ESrc Str)) (ctxStart : Int) (start : Option Int) (endT : Int)
    (hacc0 : acc.isSome = (nb || no)) (hacc : ∀ x ∈ acc, x.1.Makes ctxStart (some endT) x.2)
    (nows : Nat → Int) (dates : Nat → Nat → Int)
    (hfa : acc.isSome → (endT / dayUs - ctxStart / dayUs + 1).toNat + 1 ≤ fuel)
    (hf : ∀ i, i < ts.length → (endT / dayUs - effectiveStart cfg start (nows i) / dayUs + 1).toNat + 1 ≤ fuel) :
    let R : RunEnv (PSt γ ν μ) := ⟨cfg, fuel, s1.bus, s1.classes, dates, procAct G udig fns⟩
    let timers := acc.toList.map (·.1)
    let st := bySource (timers.map fun _ => ctxStart) fun i => effectiveStart cfg start (nows i)
    let due : Nat → List Int := fun j => dueTimes (st j) (some endT) (bySource (timers.map TimerSetup.times) os j)
      (st j / dayUs) (endT / dayUs)
    ∃ l0, runStart R 0 (acc.toList.map (fun x => (x.2, .ok ())) ++ taskSources cfg start (some endT) nows s1.sources)
        (runEmpty p0) = (l0, none) ∧
      ∀ ls s, l0.run (runExec R) ls = some s → (∀ l ∈ ls, l.isInternal = true) →
        RunsAsDue (procAct G udig fns) p0 (timers.length + ts.length) (srcPrio timers ts) (srcCbs timers (accCbs nb no) fn) due s ∧
        InOrder (srcPrio timers ts) s ∧
        (∃ ops, AccountInRun G udig fns nb no timers fn p0 a0 s ops) ∧
        SyncedBeforeTasks timers.length due s ∧
        ((∀ l ∈ ls, l.isQuiet = true) → NeverRaise G udig fns → s.halted = true →
          ∀ j, j < timers.length + ts.length → firingsOf s j = due j) := by
  intro R timers st due
  have hmem : ∀ x, x ∈ acc.toList ↔ x ∈ acc := fun x => by cases acc <;> simp [eq_comm]
  have hne : acc.toList ≠ [] → (nb || no) = true := by
    rw [← hacc0]; cases acc <;> simp
  obtain ⟨l0, h1, h2⟩ := c63_run_with_end cfg fuel0 fuel today ns ts _ s1 (accountSetup_init nb no) hsched hin hsec fn hfn os hos
    acc.toList ctxStart start endT (fun x hx => hacc x ((hmem x).1 hx)) (fun h => accountSetup_class nb no (hne h)) nows dates
    (procAct G udig fns) p0
    (accountSetup_silent G udig fns nb no)
    (fun h => hfa (by cases acc <;> simp_all)) hf
  refine ⟨l0, h1, fun ls s hrun hl => ?_⟩
  obtain ⟨r1, r2, r3⟩ := h2 ls s hrun hl
  rw [accountSetup_emit] at r1
  refine ⟨r1, r2, c65_account_in_run G udig fns nb no timers fn _ _ due p0 a0 ha ho s r1, ?_, ?_⟩
  · refine c65_synced_before_tasks _ p0 timers ts _ due s r1 r2 fun j hj => ?_
    have hj' : j < acc.toList.length := by simpa [timers] using hj
    obtain ⟨m1, m2, _⟩ := hacc _ ((hmem _).1 (List.getElem_mem hj'))
    have e : bySource (timers.map TimerSetup.times) os j = (acc.toList[j]).1.times := by
      simp [bySource, timers, hj']
    simp only [due, dueTimes_map, e, List.pairwise_map]
    exact c07_events_in_order _ _ _ _ _ (timer_span m1 m2)
  · exact fun hq hr => r3 hq fun i _ p => hr (fn i) p.mem p.ctx

/-- C65 in live mode: the same, with the windows of C63; the synchronisations are before the tasks as long as no window begins
before the end of the window before it. -/
theorem c65_process_live (G : Gate γ ν) (udig : Char → Bool) (fns : Nat → μ → Ctx γ ν → Prog γ ν μ) (nb no : Bool) (p0 : PSt γ ν μ)
    (a0 : Acct γ ν) (ha : p0.ctx = ⟨true, some a0⟩) (ho : p0.olds = [])
    (cfg : ECfg) (hlive : LiveCfg cfg) (fuel0 fuel : Nat) (today : Int) (ns : Dict Str Nat) (ts : List TaskDesc) (s1 : SchedSt)
    (hsched : SchedSt.schedule fuel0 today cfg.periods ns ts (SchedSt.accountSetup 0 nb no {}) = some s1)
    (hin : PeriodsInDay cfg.periods) (hsec : WholeSeconds cfg.periods)
    (fn : Nat → Nat) (hfn : ∀ i (hi : i < ts.length), dget ns ts[i].name = some (fn i))
    (os : Nat → List Int) (hos : ∀ i (hi : i < ts.length), TaskTimes cfg.periods ts[i] (os i))
    (acc : Option (TimerSetup × ESrc Str)) (ctxStart : Int) (start : Option Int)
    (hacc0 : acc.isSome = (nb || no)) (hacc : ∀ x ∈ acc, x.1.Makes ctxStart none x.2)
    (nows : Nat → Int) (dates : Nat → Nat → Int)
    (hne : ∀ j, j < acc.toList.length + ts.length → ∀ p q,
      dueTimes (bySource ((acc.toList.map (·.1)).map fun _ => ctxStart) nows j) none
        (bySource ((acc.toList.map (·.1)).map TimerSetup.times) os j) (dates p q) (dates p q + cfg.count - 1) ≠ [])
    (hf : 2 * cfg.count + 2 ≤ fuel) :
    let R : RunEnv (PSt γ ν μ) := ⟨cfg, fuel, s1.bus, s1.classes, dates, procAct G udig fns⟩
    let timers := acc.toList.map (·.1)
    let st := bySource (timers.map fun _ => ctxStart) nows
    let due : List Int → Nat → List Int := fun ws j => windowsDue cfg.count (st j) (bySource (timers.map TimerSetup.times) os j) ws
    ∃ l0, runStart R 0 (acc.toList.map (fun x => (x.2, .ok ())) ++ taskSources cfg start none nows s1.sources)
        (runEmpty p0) = (l0, none) ∧
      ∀ ls s, l0.run (runExec R) ls = some s → (∀ l ∈ ls, l.isInternal = true) →
        ∃ ws : Nat → List Int, (∀ j, ∀ w ∈ ws j, ∃ p q, w = dates p q) ∧
          (∀ j, j < timers.length + ts.length → (firingsOf s j).length < (due [dates j 0] j).length → ws j = []) ∧
          RunsAsDue (procAct G udig fns) p0 (timers.length + ts.length) (srcPrio timers ts) (srcCbs timers (accCbs nb no) fn)
            (fun j => due (dates j 0 :: ws j) j) s ∧
          (∃ ops, AccountInRun G udig fns nb no timers fn p0 a0 s ops) ∧
          ((∀ j, j < timers.length + ts.length → (dates j 0 :: ws j).Pairwise fun v w : Int => v + cfg.count ≤ w) →
            InOrder (srcPrio timers ts) s ∧ SyncedBeforeTasks timers.length (fun j => due (dates j 0 :: ws j) j) s) := by
  intro R timers st due
  have hmem : ∀ x, x ∈ acc.toList ↔ x ∈ acc := fun x => by cases acc <;> simp [eq_comm]
  have hne' : acc.toList ≠ [] → (nb || no) = true := by
    rw [← hacc0]; cases acc <;> simp
  obtain ⟨l0, h1, h2⟩ := c63_live_run cfg hlive fuel0 fuel today ns ts _ s1 (accountSetup_init nb no) hsched hin hsec fn hfn os hos
    acc.toList ctxStart start (fun x hx => hacc x ((hmem x).1 hx)) (fun h => accountSetup_class nb no (hne' h)) nows dates
    (procAct G udig fns) p0 (accountSetup_silent G udig fns nb no) hne hf
  refine ⟨l0, h1, fun ls s hrun hl => ?_⟩
  obtain ⟨ws, r0, r1, r2, r3⟩ := h2 ls s hrun hl
  rw [accountSetup_emit] at r2
  refine ⟨ws, r0, r1, r2, c65_account_in_run G udig fns nb no timers fn _ _ _ p0 a0 ha ho s r2, fun hsep => ?_⟩
  refine ⟨r3 hsep, c65_synced_before_tasks _ p0 timers ts _ _ s r2 (r3 hsep) fun j hj => ?_⟩
  have hj' : j < acc.toList.length := by simpa [timers] using hj
  obtain ⟨m1, m2, _⟩ := hacc _ ((hmem _).1 (List.getElem_mem hj'))
  have e : bySource (timers.map TimerSetup.times) os j = (acc.toList[j]).1.times := by
    simp [bySource, timers, hj']
  simp only [due, e]
  exact windowsDue_sorted (timer_span m1 m2) (hsep j (by omega))

/-! ### A concrete case: a function at the close that orders and synchronises, a function every minute, and an account
synchronised at 09:30:30 and 09:31 with a gate that accepts orders and whose balance and orders cannot be read. -/

private def pCfg : ECfg := ⟨false, 365, [(34200 * secUs, 34260 * secUs)]⟩
private def pTasks : List TaskDesc := [⟨c!"f", c!"close+0m"⟩, ⟨c!"g", c!"every_minute"⟩]
private def pNs : Dict Str Nat := [(c!"f", 7), (c!"g", 8)]
private def pOs (i : Nat) : List Int := if i = 0 then [34260 * secUs] else [34200 * secUs, 34260 * secUs]
/-- The state counts the polls. -/
private def pGate : Gate Nat Int :=
  ⟨fun g _ => (g, .ok ()), fun g _ => (g, .ok ()), fun g => (g + 1, .error .runtimeError), fun g => (g + 100, .error .runtimeError)⟩
private def pFns : Nat → Nat → Ctx Nat Int → Prog Nat Int Nat
  | 7, m, _ => .call (.order m ⟨2021, 3, 4, 9, 31, 0, 0⟩ c!"000001.XSHE" (.int 100) .falsy .falsy) fun _ _ =>
      .call .syncOrders fun _ _ => .done (m + 1) none
  | _, m, _ => .done m none
private def pSched : SchedSt := (SchedSt.schedule 10 5 pCfg.periods pNs pTasks (SchedSt.accountSetup 0 true true {})).getD {}
private def pTimer : TimerSetup := ⟨5 * dayUs + 28800 * secUs, 30 * secUs, [(34230 * secUs, 34260 * secUs)]⟩
private def pEnd : Int := 6 * dayUs + 43200 * secUs
private def pAcc (en : Option Int) : Option (TimerSetup × ESrc Str) :=
  some (pTimer, (syncTimerSource 10 (5 * dayUs + 28800 * secUs) en pTimer.now pTimer.step pTimer.periods
    c!"AccountSyncEvent").getD { start := none, endAt := none })
private def pEnv : RunEnv (PSt Nat Int Nat) := ⟨pCfg, 1000, pSched.bus, pSched.classes, fun _ _ => 5, procAct pGate (fun _ => false) pFns⟩
private def p0 : PSt Nat Int Nat := ⟨⟨true, some ((Acct.init 0).setup pGate (fun g => (g, .ok ())) true true (.ok ())).1⟩, 70, []⟩
private def pStart : LoopSt (RunW (PSt Nat Int Nat)) Nat PyErr × Option PyErr :=
  runStart pEnv 0 ((pAcc (some pEnd)).toList.map (fun x => (x.2, .ok ())) ++
    taskSources pCfg none (some pEnd) (fun _ => 5 * dayUs + 28800 * secUs) pSched.sources) (runEmpty p0)
private def pLabels : List (Label Nat) :=
  .wakeNotify :: (List.range 10).flatMap (fun _ => [.pop, .clock 700000000 []]) ++ [.pop]

private instance : DecidableEq (Nat × List Str) := inferInstance
private instance : DecidableEq (Bool × List Nat × Nat × Option (Nat × List Str)) := inferInstance
/-- One poll of each kind at set-up, four by the timer, and two of the orders by the function; two orders. -/
example : (pStart.1.run (runExec pEnv) pLabels).map (fun s => (s.halted, s.fired.map (·.1.data), s.world.st.mem,
      s.world.st.ctx.acct.map fun a => (a.gate, dkeys a.orders))) =
    some (true, [2, 0, 0, 2, 1, 2, 0, 0, 2, 1], 72, some (705, [c!"70", c!"71"])) := by
  decide +kernel
example : SchedSt.schedule 10 5 pCfg.periods pNs pTasks (SchedSt.accountSetup 0 true true {}) = some pSched ∧
    PeriodsInDay pCfg.periods ∧ WholeSeconds pCfg.periods ∧
    (∀ i (hi : i < pTasks.length), dget pNs pTasks[i].name = some (7 + i)) ∧
    (∀ i (hi : i < pTasks.length), TaskTimes pCfg.periods pTasks[i] (pOs i)) ∧ LiveCfg pCfg ∧
    (∀ en, ∀ x ∈ pAcc en, x.1.Makes (5 * dayUs + 28800 * secUs) en x.2) ∧ (∀ l ∈ pLabels, l.isQuiet = true) ∧
    NeverRaise pGate (fun _ => false) pFns ∧
    (∀ j, j < 3 → ∀ p q : Nat, dueTimes (5 * dayUs) none (bySource [pTimer.times] pOs j) (pEnv.dates p q)
      (pEnv.dates p q + pCfg.count - 1) ≠ []) := by
  refine ⟨rfl, ?_, ?_, by decide, ?_, ⟨rfl, by decide⟩, ?_, by decide, ?_, ?_⟩
  · intro p hp; simp [pCfg] at hp; subst hp; decide
  · intro p hp; simp [pCfg] at hp; subst hp; decide
  · intro i hi
    match i, hi with
    | 0, _ => exact ⟨34260 * secUs, rfl, rfl⟩
    | 1, _ => show pOs 1 = pCfg.periods.flatMap (stepTimes (60 * secUs)); decide
  · intro en x hx
    simp only [pAcc, Option.mem_def, Option.some.injEq] at hx
    subst hx
    refine ⟨show 0 < pTimer.step by decide, ?_, show pTimer.times ≠ [] by decide, 10, rfl⟩
    intro p hp
    simp [pTimer] at hp
    subst hp; decide
  · intro f m x
    by_cases h : f = 7
    · subst h; rfl
    · simp only [pFns]
      rfl
  · intro j hj p q
    refine c63_windows_not_empty _ (by decide) _ _ (34260 * secUs) ?_ (by decide) _ (show 5 * dayUs / dayUs ≤ 5 by decide)
    match j, hj with
    | 0, _ => decide
    | 1, _ => decide
    | 2, _ => decide
/-- The set-up of the concrete case succeeds. -/
example : ((Acct.init (ν := Int) 0).setup pGate (fun g => (g, .ok ())) true true (.ok ())).2 = .ok () := by decide

end Jq
