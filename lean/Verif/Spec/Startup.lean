import Verif.Model.Startup
import Verif.Spec.Options
import Verif.Spec.Process
/-! Specification vocabulary for the start of a process (C78). -/
namespace Jq

variable {γ ν μ : Type} [PyNum ν]

/-- The calls of `set_options` that `process_initialize` makes. -/
def InitProg.optionCalls (E : StartEnv γ ν) : InitProg γ ν μ → StartSt γ ν μ → List (Opts × OptInputs γ)
  | .done _ _, _ => []
  | .runDaily f t next, s => (next (s.strat.runDaily f t).2).optionCalls E { s with strat := (s.strat.runDaily f t).1 }
  | .setOptions o inp next, s => (o, inp) ::
      match s.setOptions E o inp with
      | none => []
      | some (s', r) => (next s'.ctx r).optionCalls E s'
  | .call c next, s => (next (s.ctx.call E.G E.udig c).1 (s.ctx.call E.G E.udig c).2).optionCalls E { s with ctx := (s.ctx.call E.G E.udig c).1 }

/-- The tasks that it adds: one for each `run_daily` of a callable object with a name, in order. -/
def InitProg.tasks (E : StartEnv γ ν) : InitProg γ ν μ → StartSt γ ν μ → List TaskDesc
  | .done _ _, _ => []
  | .runDaily f t next, s =>
      (match f.fname with
        | some n => if f.callable then [⟨n, timeAlias t⟩] else []
        | none => []) ++
      (next (s.strat.runDaily f t).2).tasks E { s with strat := (s.strat.runDaily f t).1 }
  | .setOptions o inp next, s =>
      match s.setOptions E o inp with
      | none => []
      | some (s', r) => (next s'.ctx r).tasks E s'
  | .call c next, s => (next (s.ctx.call E.G E.udig c).1 (s.ctx.call E.G E.udig c).2).tasks E { s with ctx := (s.ctx.call E.G E.udig c).1 }

/-- The operations on the account that it asks for, once an account is in use. -/
def InitProg.ops (E : StartEnv γ ν) : InitProg γ ν μ → StartSt γ ν μ → List (AOp ν)
  | .done _ _, _ => []
  | .runDaily f t next, s => (next (s.strat.runDaily f t).2).ops E { s with strat := (s.strat.runDaily f t).1 }
  | .setOptions o inp next, s =>
      match s.setOptions E o inp with
      | none => []
      | some (s', r) => (next s'.ctx r).ops E s'
  | .call c next, s => (if s.ctx.useAccount then c.ops E.udig else []) ++
      (next (s.ctx.call E.G E.udig c).1 (s.ctx.call E.G E.udig c).2).ops E { s with ctx := (s.ctx.call E.G E.udig c).1 }

/-- A process inside `process_initialize`. -/
def StartEnv.entered (E : StartEnv γ ν) (m0 : μ) : StartSt γ ν μ :=
  { E.fresh m0 with strat := { (E.fresh m0).strat with allowed := true } }

/-- `process_initialize` returns, leaving the state `s` and the user's variables `m`.  It calls `set_options` once, with options `o`
that are understood as `o'` and ask for an account; the directory can be made, a trade gate is configured and can be constructed
(`g`) and set up. -/
structure WorkingInit (E : StartEnv γ ν) (p : InitProg γ ν μ) (m0 : μ) (o o' : Opts) (inp : OptInputs γ) (g : γ)
    (s : StartSt γ ν μ) (m : μ) : Prop where
  runs : p.run E (E.entered m0) = some (s, m, none)
  once : p.optionCalls E (E.entered m0) = [(o, inp)]
  kept : KeptOptions o o'
  use : o.useAccount.getD E.cfg.setupAccount = true
  number : o.accountNo.isSome = true
  dir : inp.mkdir = .ok ()
  configured : inp.gateConfigured = true
  ctor : inp.gateCtor = .ok g
  gate : (E.gateSetup o' g).2 = .ok ()

/-- Where periods come from: from the option if it is given, else from the configuration. -/
inductive PeriodsFrom (configured : PerVal) : Option PerVal → Periods → Prop where
  | given {ps : List PairVal} {qs : Periods} (h : GivenPeriods ps qs) : PeriodsFrom configured (some (.seq ps)) qs
  | configured {qs : Periods} (h : configured = .ofPeriods qs) : PeriodsFrom configured none qs

/-- The interval and the periods given by the options `o`, or else by the configuration, make a timer `t` at `now`, with at least one
time of day.  Periods that count as false mean the rest of the day. -/
structure TimerFrom (E : StartEnv γ ν) (o : Opts) (now : Int) (t : TimerSetup) : Prop where
  clock : t.now = now
  interval : o.syncInternal = some (.ok t.step) ∨ (o.syncInternal = none ∧ E.cfg.syncInternal = .ok t.step)
  period : PeriodsFrom E.cfg.syncPeriod o.syncPeriod t.periods ∨
    (t.periods = [] ∧ (o.syncPeriod = some .falsy ∨ (o.syncPeriod = none ∧ E.cfg.syncPeriod = .falsy)))
  positive : 0 < t.step
  inDay : PeriodsInDay t.periods
  some : t.times ≠ []

/-- Whether the balance (the orders) are to be synchronised: the option, or else the configuration. -/
def wantBalance (E : StartEnv γ ν) (o : Opts) : Bool := match o.syncBalance with | some b => b | none => E.cfg.syncBalance
def wantOrders (E : StartEnv γ ν) (o : Opts) : Bool := match o.syncOrder with | some b => b | none => E.cfg.syncOrder

/-- The timers of the process. -/
def timersOf (E : StartEnv γ ν) (o : Opts) (t : TimerSetup) : List TimerSetup := if wantBalance E o || wantOrders E o then [t] else []

/-- The account when the loop starts: new, with the gate set up, synchronised, and after what `process_initialize` did to it. -/
def initialAccount (E : StartEnv γ ν) (p : InitProg γ ν μ) (m0 : μ) (o o' : Opts) (g : γ) : Acct γ ν :=
  ({ Acct.init g with gate := (E.gateSetup o' g).1 } : Acct γ ν).run E.G
    (syncOps (wantBalance E o) (wantOrders E o) ++ p.ops E (E.entered m0))

/-! ## Any number of calls of `set_options` -/

/-- The calls of `set_options` that make a timer: those that return, with an account that is to be synchronised. -/
def InitProg.timerCalls (E : StartEnv γ ν) : InitProg γ ν μ → StartSt γ ν μ → List (Opts × OptInputs γ)
  | .done _ _, _ => []
  | .runDaily f t next, s => (next (s.strat.runDaily f t).2).timerCalls E { s with strat := (s.strat.runDaily f t).1 }
  | .setOptions o inp next, s =>
      match s.setOptions E o inp with
      | none => []
      | some (s', r) => (if r = .ok () ∧ s'.ctx.useAccount = true ∧ (wantBalance E o || wantOrders E o) = true then [(o, inp)] else []) ++
          (next s'.ctx r).timerCalls E s'
  | .call c next, s => (next (s.ctx.call E.G E.udig c).1 (s.ctx.call E.G E.udig c).2).timerCalls E { s with ctx := (s.ctx.call E.G E.udig c).1 }

/-! ## Without an account -/

/-- `process_initialize` returns, leaving the state `s` and the user's variables `m`, and none of its calls of `set_options`, however
many there are, asks for an account. -/
structure NoAccountInit (E : StartEnv γ ν) (p : InitProg γ ν μ) (m0 : μ) (s : StartSt γ ν μ) (m : μ) : Prop where
  runs : p.run E (E.entered m0) = some (s, m, none)
  none : ∀ c ∈ p.optionCalls E (E.entered m0), c.1.useAccount.getD E.cfg.setupAccount = false

/-- The trading periods after some calls of `set_options`: those of the last call that is understood, or the configured ones if that
call gives none or there is no such call. -/
def MarketAfter (E : StartEnv γ ν) (calls : List (Opts × OptInputs γ)) (qs : Periods) : Prop :=
  (∃ before o inp after, calls = before ++ (o, inp) :: after ∧ Understood o ∧ (∀ c ∈ after, ¬ Understood c.1) ∧
    PeriodsFrom E.cfg.marketPeriod o.marketPeriod qs) ∨
  ((∀ c ∈ calls, ¬ Understood c.1) ∧ E.cfg.marketPeriod = .ofPeriods qs)

end Jq
