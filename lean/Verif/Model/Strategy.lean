import Verif.Model.Bus
import Verif.Model.Timers
import Verif.Model.Periods
/-!
# Strategy set-up

Models `Strategy.run_daily`, `set_options`, `setup_account`, `setup` and `schedule`
(`strategy.py:64-77`, `93-160`, `162-246`) and `create_event_class` (`event.py:23-29`).

Python objects are numbers; the user's module is a dictionary from names to objects.  What the operating
system, the trade gate's constructor and `Account.setup` do is an input (their outcome).  The values of the
options other than those the strategy looks at are not modelled.
-/
namespace Jq

/-- A Python object passed to `run_daily`: its identity, its `__name__` (if it has one) and whether it is
callable. -/
structure FuncObj where
  ident : Nat
  fname : Option Str
  callable : Bool
deriving DecidableEq, Repr

/-- An entry of `_schedules` (`strategy.py:142-147`; the module name is stored but not used). -/
structure TaskDesc where
  name : Str
  time : Str
deriving DecidableEq, Repr

/-- The arguments of `set_options` that the program looks at, `none` when absent.  For the three flags: the truth of the value
given (`strategy.py:167-168`, `182-186`).  For the interval: the outcome of `float` (`188-189`), in microseconds. -/
structure Opts where
  useAccount : Option Bool := none
  marketPeriod : Option PerVal := none
  syncBalance : Option Bool := none
  syncOrder : Option Bool := none
  syncInternal : Option (Py Int) := none
  syncPeriod : Option PerVal := none
  accountNo : Option Str := none
deriving DecidableEq

/-- Outcomes of the environment during `set_options`: creating the runtime directory, whether a trade gate is
configured, constructing it, and `Account.setup`. -/
structure OptEnv where
  mkdir : Py Unit := .ok ()
  gateConfigured : Bool := true
  gateCtor : Py Unit := .ok ()
  acctSetup : Py Unit := .ok ()

/-- The state of the strategy and of the context (`strategy.py:48-62`, `context.py:28-33`). `account` counts the
account objects created so far; the context refers to the last. -/
structure StratSt where
  allowed : Bool := false
  schedules : List TaskDesc := []
  options : Opts := {}
  useAccount : Option Bool := none
  account : Option Nat := none
  setupAccountCfg : Bool := true
deriving DecidableEq

/-- `strategy.py:133-147` `run_daily` and `149-153` `_check_handle`. -/
def StratSt.runDaily (s : StratSt) (f : FuncObj) (time : Str) : StratSt × Py Unit :=
  match f.fname with
  | none => (s, .error .attributeError)
  | some n =>
    if !s.allowed then (s, .error .invalidCall)
    else if !f.callable then (s, .error .invalidParam)
    else ({ s with schedules := s.schedules ++ [⟨n, timeAlias time⟩] }, .ok ())

/-- `strategy.py:215-246` `setup_account`. -/
def StratSt.setupAccount (s : StratSt) (o : Opts) (env : OptEnv) : StratSt × Py Unit :=
  if o.accountNo.isNone then (s, .error .invalidParam)
  else if !env.gateConfigured then (s, .error .configError)
  else
    match env.gateCtor with
    | .error e => (s, .error e)
    | .ok () => ({ s with account := some (s.account.elim 0 (· + 1)) }, env.acctSetup)

/-- Convert an option that may be absent. -/
def convOpt : Option PerVal → Py (Option PerVal)
  | none => .ok none
  | some v => v.convert.map some

/-- The conversions of `strategy.py:166-198`: the options to keep; the first failure is raised. -/
def Opts.parse (o : Opts) : Py Opts :=
  match convOpt o.marketPeriod with
  | .error e => .error e
  | .ok mp =>
    match o.syncInternal with
    | some (.error e) => .error e
    | _ =>
      match convOpt o.syncPeriod with
      | .error e => .error e
      | .ok sp => .ok { o with marketPeriod := mp, syncPeriod := sp }

/-- The conversions leave the flags, the interval and the account number alone. -/
theorem Opts.parse_keeps {o o' : Opts} (h : o.parse = .ok o') : o'.useAccount = o.useAccount ∧ o'.syncBalance = o.syncBalance ∧
    o'.syncOrder = o.syncOrder ∧ o'.syncInternal = o.syncInternal ∧ o'.accountNo = o.accountNo := by
  simp only [Opts.parse] at h
  split at h
  · simp at h
  · split at h
    · simp at h
    · split at h
      · simp at h
      · injection h with h; subst h; exact ⟨rfl, rfl, rfl, rfl, rfl⟩

/-- `strategy.py:162-213` `set_options`. -/
def StratSt.setOptions (s : StratSt) (o : Opts) (env : OptEnv) : StratSt × Py Unit :=
  if !s.allowed then (s, .error .invalidCall)
  else
    match o.parse with
    | .error e => (s, .error e)
    | .ok o =>
      let s := { s with options := o }
      match env.mkdir with
      | .error e => (s, .error e)
      | .ok () =>
        let use := o.useAccount.getD s.setupAccountCfg
        let s := { s with useAccount := some use }
        if use then s.setupAccount o env else (s, .ok ())

/-- A call made by the user's `process_initialize`. -/
inductive InitCall where
  | runDaily (f : FuncObj) (time : Str)
  | setOptions (o : Opts) (env : OptEnv)

/-- Perform a call. -/
def StratSt.call (s : StratSt) : InitCall → StratSt × Py Unit
  | .runDaily f t => s.runDaily f t
  | .setOptions o env => s.setOptions o env

/-- The body of `process_initialize` as the sequence of calls it makes; the flag says whether the user's code
catches an exception of that call. -/
def StratSt.runInit (s : StratSt) : List (InitCall × Bool) → StratSt × Py Unit
  | [] => (s, .ok ())
  | (c, caught) :: rest =>
    match s.call c with
    | (s', .ok ()) => s'.runInit rest
    | (s', .error e) => if caught then s'.runInit rest else (s', .error e)

/-- `strategy.py:64-75` `setup` up to the end of `process_initialize`: the flag is set before and cleared
after; an exception leaves it set (and ends the process). `none`: the module has no `process_initialize`. -/
def StratSt.setup (s : StratSt) (body : Option (List (InitCall × Bool))) : StratSt × Py Unit :=
  match body with
  | none => (s, .error .taskError)
  | some b =>
    match ({ s with allowed := true } : StratSt).runInit b with
    | (s', .ok ()) => ({ s' with allowed := false }, .ok ())
    | (s', .error e) => (s', .error e)

/-! ## Scheduling -/

/-- `strategy.py:103`: `f"Scheduler_{name}_{count}"`. -/
def taskClassName (name : Str) (count : Nat) : Str := c!"Scheduler_" ++ name ++ '_' :: natStr count

/-- A callback on the bus: the closure made by `wrap_user_callback` for the `i`-th task around the handle
resolved for it (`none`: the module has no such attribute), or one of the account's own callbacks. -/
inductive Cb where
  | user (i : Nat) (handle : Option Nat)
  | account (k : Nat)
deriving DecidableEq, Repr

/-- What scheduling changes: the global class table (name → priority), the bus, the counter and the scheduled
sources (their class and entries). -/
structure SchedSt where
  classes : Dict Str Int := []
  bus : Bus Str Cb := []
  count : Nat := 0
  sources : List (Str × List (Str × Str)) := []

/-- `event.py:26-29` `create_event_class`: a class is identified by its name; an existing one is reused with the
priority it has. -/
def SchedSt.createClass (s : SchedSt) (name : Str) (prio : Int) : SchedSt :=
  match dget s.classes name with
  | some _ => s
  | none => { s with classes := dset s.classes name prio }

/-- `strategy.py:98-131` one iteration of `schedule`.  `ns` is the user's module (`_get_handle`,
`strategy.py:155-156`).  The source is set up (C07, C08) and handed to the scheduler, which is where an invalid
time raises; that outcome is not part of this definition. `none`: the loop over the trading periods does not end. -/
def SchedSt.schedOne (s : SchedSt) (fuel : Nat) (today : Int) (mp : Periods) (ns : Dict Str Nat) (t : TaskDesc) :
    Option SchedSt :=
  let cls := taskClassName t.name s.count
  let add (s : SchedSt) (entries : List (Str × Str)) : SchedSt :=
    { s with bus := s.bus.register cls (.user s.count (dget ns t.name)) 0,
             sources := s.sources ++ [(cls, entries)], count := s.count + 1 }
  if t.time = c!"every_minute" then
    let s := s.createClass cls 1
    match everyMinuteEntries fuel today mp cls with
    | none => none
    | some es => some (add s es)
  else some (add (s.createClass cls 0) [(t.time, cls)])

/-- `strategy.py:98-131` `schedule`. -/
def SchedSt.schedule (fuel : Nat) (today : Int) (mp : Periods) (ns : Dict Str Nat) : List TaskDesc → SchedSt → Option SchedSt
  | [], s => some s
  | t :: ts, s =>
    match s.schedOne fuel today mp ns t with
    | none => none
    | some s => SchedSt.schedule fuel today mp ns ts s

/-- Instances of an event class are instances of that class only: all of them derive directly from `Event`
(`event.py:28`), for which nothing is registered. -/
def sameClass (c c' : Str) : Bool := decide (c = c')

/-- `strategy.py:93-96`: calling the wrapped callback calls the handle with the user context; `None` is not
callable. -/
def Cb.fire : Cb → Py (Option Nat)
  | .user _ (some f) => .ok (some f)
  | .user _ none => .error .typeError
  | .account _ => .ok none

end Jq
