import Verif.Model.Process
import Verif.Model.Periods
/-!
# From `process_initialize` to the running loop

Puts together `Strategy.setup` (`strategy.py:64-77`), what a call of `set_options` does at once (`strategy.py:162-246`,
`account.py:92-159`) and `Strategy.schedule` (`strategy.py:98-131`), with the options and the configuration as they are given.
`process_initialize` is an arbitrary program that calls `run_daily`, `set_options` and the API, and may catch what they raise.

The accounts made by earlier calls of `set_options` are kept in `olds`: the context refers to the last one only, but the callbacks of
the others stay on the bus (see C66, C83).  The sources of the tasks are made after all entries have been computed, not one by one; an exception ends the
process in both cases.
-/
namespace Jq

/-- The settings that are used (`scheduler/config.py:14-31`, `account/config.py:8-26`). -/
structure ProcCfg where
  historyStart : Bool
  count : Nat
  marketPeriod : PerVal
  setupAccount : Bool
  syncBalance : Bool
  syncOrder : Bool
  /-- the outcome of `float`, in microseconds -/
  syncInternal : Py Int
  syncPeriod : PerVal

/-- `strategy.py:111`, `event_source.py:164`. -/
def ProcCfg.market (c : ProcCfg) (o : Opts) : PerVal := o.marketPeriod.getD c.marketPeriod

/-- `account.py:115-117` `need_sync_balance`. -/
def ProcCfg.needBalance (c : ProcCfg) (o : Opts) : Bool := o.syncBalance.getD c.syncBalance

/-- `account.py:119-121` `need_sync_order`. -/
def ProcCfg.needOrders (c : ProcCfg) (o : Opts) : Bool := o.syncOrder.getD c.syncOrder

/-- `account.py:132`. -/
def ProcCfg.interval (c : ProcCfg) (o : Opts) : Py Int := o.syncInternal.getD c.syncInternal

/-- `account.py:133`. -/
def ProcCfg.period (c : ProcCfg) (o : Opts) : PerVal := o.syncPeriod.getD c.syncPeriod

/-! ## Scheduling with the periods as they are given -/

/-- `strategy.py:98-131` one iteration, see `SchedSt.schedOne`.  A period that is wrong raises after the class has been made. -/
def SchedSt.schedOneOf (s : SchedSt) (fuel : Nat) (today : Int) (v : PerVal) (ns : Dict Str Nat) (t : TaskDesc) :
    Option (SchedSt × Py Unit) :=
  let cls := taskClassName t.name s.count
  let add (s : SchedSt) (entries : List (Str × Str)) : SchedSt :=
    { s with bus := s.bus.register cls (.user s.count (dget ns t.name)) 0,
             sources := s.sources ++ [(cls, entries)], count := s.count + 1 }
  if t.time = c!"every_minute" then
    let s := s.createClass cls 1
    match v.times fuel today minUs with
    | none => none
    | some (.error e) => some (s, .error e)
    | some (.ok ts) => some (add s (ts.map fun x => (x, cls)), .ok ())
  else some (add (s.createClass cls 0) [(t.time, cls)], .ok ())

/-- `strategy.py:98-131` `schedule`. -/
def SchedSt.scheduleOf (fuel : Nat) (today : Int) (v : PerVal) (ns : Dict Str Nat) : List TaskDesc → SchedSt → Option (SchedSt × Py Unit)
  | [], s => some (s, .ok ())
  | t :: ts, s =>
    match s.schedOneOf fuel today v ns t with
    | none => none
    | some (s, .error e) => some (s, .error e)
    | some (s, .ok ()) => SchedSt.scheduleOf fuel today v ns ts s

/-- The periods, when each consists of two `datetime.time`s. -/
def pairsOf : List PairVal → Option Periods
  | [] => some []
  | p :: ps =>
    match minutePair p with
    | .error _ => none
    | .ok x => (pairsOf ps).map (x :: ·)

/-- What an event source uses of the periods (`event_source.py:163-166`): the open and the close.  Simplified: which exception an
unusable value raises. -/
def PerVal.forEntries (v : PerVal) : Periods :=
  match v with
  | .seq ps =>
    match pairsOf ps with
    | some qs => qs
    | none =>
      match v.openClose with
      | .ok p => [p]
      | .error _ => []
  | _ => []

/-! ## `set_options` and the account -/

variable {γ ν μ : Type} [PyNum ν]

/-- What does not change while a process starts. -/
structure StartEnv (γ ν : Type) where
  cfg : ProcCfg
  fuel : Nat
  G : Gate γ ν
  udig : Char → Bool
  /-- `trade_gate.setup(options)` -/
  gateSetup : Opts → γ → γ × Py Unit
  ctxStart : Int
  ctxEnd : Option Int
  /-- the dates read by the polls of the sources, as in `RunEnv` -/
  dates : Nat → Nat → Int

/-- What a call of `set_options` meets: creating the runtime directory, whether a trade gate is configured, constructing it, and
the clock when the timer is made. -/
structure OptInputs (γ : Type) where
  mkdir : Py Unit := .ok ()
  gateConfigured : Bool := true
  gateCtor : Py γ
  now : Int

/-- The state of a process that is starting; `sources` is the number of sources scheduled so far. -/
structure StartSt (γ ν μ : Type) where
  strat : StratSt
  sched : SchedSt := {}
  ctx : Ctx γ ν := ⟨false, none⟩
  loop : LoopSt (RunW (PSt γ ν μ)) Nat PyErr
  sources : Nat := 0
  /-- the accounts that have been replaced -/
  olds : List (Acct γ ν) := []

/-- The settings of the event sources. -/
def StartEnv.ecfg (E : StartEnv γ ν) (periods : Periods) : ECfg := ⟨E.cfg.historyStart, E.cfg.count, periods⟩

/-- `account.py:129-151`: the source of the timer. -/
def StartEnv.timerSource (E : StartEnv γ ν) (o : Opts) (now : Int) : Option (Py (ESrc Str)) :=
  match E.cfg.interval o with
  | .error e => some (.error e)
  | .ok step =>
    match syncTimes E.fuel now step (E.cfg.period o) with
    | none => none
    | some (.error e) => some (.error e)
    | some (.ok ts) =>
      some (.ok (ts.foldl (fun s x => s.addDaily x accEvent) { start := some E.ctxStart, endAt := E.ctxEnd }))

/-- `account.py:123-159` `_setup_sync_timer` of the `n`-th account object. `none`: it does not return. -/
def StartSt.timer (E : StartEnv γ ν) (n : Nat) (o : Opts) (now : Int) (s : StartSt γ ν μ) : Option (StartSt γ ν μ × Py Unit) :=
  match E.timerSource o now with
  | none => none
  | some (.error e) => some ({ s with sched := s.sched.createClass accEvent 2 }, .error e)
  | some (.ok src) =>
    let s := { s with sched := s.sched.registerSync n (E.cfg.needBalance o) (E.cfg.needOrders o) }
    let R : RunEnv (PSt γ ν μ) := ⟨E.ecfg (E.cfg.market o).forEntries, E.fuel, s.sched.bus, s.sched.classes, E.dates, fun _ p => (p, none)⟩
    match runStart R s.sources [(src, .ok ())] s.loop with
    | (l, err) =>
      if l.world.hung then none
      else
        let s := { s with loop := l, sources := s.sources + 1 }
        match err with
        | some e => some (s, .error e)
        | none => some (s, .ok ())

/-- `account.py:92-113` `Account.setup` of a new account object. -/
def StartSt.accountSetup (E : StartEnv γ ν) (n : Nat) (o : Opts) (g : γ) (now : Int) (s : StartSt γ ν μ) :
    Option (StartSt γ ν μ × Py Unit) :=
  let nb := E.cfg.needBalance o
  let no := E.cfg.needOrders o
  match (if (E.gateSetup o g).2.isOk && (nb || no) then s.timer E n o now else some (s, .ok ())) with
  | none => none
  | some (s, t) =>
    match (Acct.init g).setup E.G (E.gateSetup o) nb no t with
    | (a, r) => some ({ s with ctx := { s.ctx with acct := some a } }, r)

/-- `strategy.py:162-246` `set_options` with `setup_account`. -/
def StartSt.setOptions (E : StartEnv γ ν) (o : Opts) (inp : OptInputs γ) (s : StartSt γ ν μ) : Option (StartSt γ ν μ × Py Unit) :=
  if !s.strat.allowed then some (s, .error .invalidCall)
  else
    match o.parse with
    | .error e => some (s, .error e)
    | .ok o =>
      let s := { s with strat := { s.strat with options := o } }
      match inp.mkdir with
      | .error e => some (s, .error e)
      | .ok () =>
        let use := o.useAccount.getD s.strat.setupAccountCfg
        let s := { s with strat := { s.strat with useAccount := some use }, ctx := { s.ctx with useAccount := use } }
        if use then
          if o.accountNo.isNone then some (s, .error .invalidParam)
          else if !inp.gateConfigured then some (s, .error .configError)
          else
            match inp.gateCtor with
            | .error e => some (s, .error e)
            | .ok g =>
              let n := s.strat.account.elim 0 (· + 1)
              ({ s with
                strat := { s.strat with account := some n }
                olds := s.olds ++ s.ctx.acct.toList } : StartSt γ ν μ).accountSetup E n o g inp.now
        else some (s, .ok ())

/-! ## `process_initialize` -/

/-- What `process_initialize` does from some point on: it ends, with values of the user's variables `μ` and possibly an exception,
or it makes a call and goes on depending on the outcome and on what the API shows. -/
inductive InitProg (γ ν μ : Type) where
  | done (m : μ) (raised : Option PyErr)
  | runDaily (f : FuncObj) (time : Str) (next : Py Unit → InitProg γ ν μ)
  | setOptions (o : Opts) (inp : OptInputs γ) (next : Ctx γ ν → Py Unit → InitProg γ ν μ)
  | call (c : ApiCall ν) (next : Ctx γ ν → Py ApiRes → InitProg γ ν μ)

/-- Run it. `none`: it does not return. -/
def InitProg.run (E : StartEnv γ ν) : InitProg γ ν μ → StartSt γ ν μ → Option (StartSt γ ν μ × μ × Option PyErr)
  | .done m e, s => some (s, m, e)
  | .runDaily f t next, s =>
    match s.strat.runDaily f t with
    | (st, r) => (next r).run E { s with strat := st }
  | .setOptions o inp next, s =>
    match s.setOptions E o inp with
    | none => none
    | some (s', r) => (next s'.ctx r).run E s'
  | .call c next, s =>
    match s.ctx.call E.G E.udig c with
    | (x, r) => (next x r).run E { s with ctx := x }

/-- A process before `process_initialize` (`strategy.py:48-62`, `context.py:15-36`). -/
def StartEnv.fresh (E : StartEnv γ ν) (m0 : μ) : StartSt γ ν μ :=
  { strat := { setupAccountCfg := E.cfg.setupAccount }, loop := runEmpty ⟨⟨false, none⟩, m0, []⟩ }

/-- `strategy.py:64-77` `setup`, with `make_apis` (the module `ns` and its functions) and `schedule`; `nows i` is the clock at the
set-up of the source of the `i`-th task.  The result is the loop and the environment in which it will run. -/
def StartEnv.start (E : StartEnv γ ν) (p : Option (InitProg γ ν μ)) (m0 : μ) (ns : Dict Str Nat)
    (fns : Nat → μ → Ctx γ ν → Prog γ ν μ) (today : Int) (nows : Nat → Int) :
    Option (LoopSt (RunW (PSt γ ν μ)) Nat PyErr × RunEnv (PSt γ ν μ) × Option PyErr) :=
  let s0 : StartSt γ ν μ := E.fresh m0
  let env (periods : Periods) (s : SchedSt) : RunEnv (PSt γ ν μ) :=
    ⟨E.ecfg periods, E.fuel, s.bus, s.classes, E.dates, procAct E.G E.udig fns⟩
  match p with
  | none => some (s0.loop, env [] {}, some .taskError)
  | some p =>
    match p.run E { s0 with strat := { s0.strat with allowed := true } } with
    | none => none
    | some (s, _, some e) => some (s.loop, env [] s.sched, some e)
    | some (s, m, none) =>
      let v := E.cfg.market s.strat.options
      match SchedSt.scheduleOf E.fuel today v ns s.strat.schedules s.sched with
      | none => none
      | some (sc, r) =>
        -- the sources of the tasks before the one that raises have been scheduled by then
        let l := { s.loop with world := { s.loop.world with st := ⟨s.ctx, m, s.olds⟩ } }
        match runStart (env v.forEntries sc) s.sources (taskSources (E.ecfg v.forEntries) (some E.ctxStart) E.ctxEnd nows sc.sources) l with
        | (l, err) =>
          if l.world.hung then none
          else
            match err, r with
            | some e, _ => some (l, env v.forEntries sc, some e)
            | none, .error e => some (l, env v.forEntries sc, some e)
            | none, .ok () => some (l, env v.forEntries sc, none)

end Jq
