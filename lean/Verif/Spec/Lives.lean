import Verif.Spec.Shown
/-! Specification vocabulary for processes that are started again and again on one day (C65). -/
namespace Jq
variable {ν : Type} [CellNum ν] [Store ν]

/-- What a process has done to its account: the set-up synchronises, `process_initialize` goes on with `ini`, and in the loop the
timers and the user's functions do the rest. -/
structure ProcessDid (R U : Nat → Option Str) (t : PState ν) (nb : Bool) (done : List (AOp ν)) : Prop where
  /-- ids are drawn that are new, on dates that exist, and that the broker has not reported on -/
  fresh : FreshFor R U t.used t.acct done
  /-- … in the set-up, in `process_initialize`, or in a run of the loop -/
  by_process : (∃ more, done ++ more = syncOps nb true) ∨
    ∃ ini, done = syncOps nb true ++ ini ∨
      ∃ (μ : Type) (udig : Char → Bool) (fns : Nat → μ → Ctx (AXG ν) ν → Prog (AXG ν) ν μ) (timers : List TimerSetup) (fn : Nat → Nat)
        (p0 : PSt (AXG ν) ν μ) (s : LoopSt (RunW (PSt (AXG ν) ν μ)) Nat PyErr) (ops : List (List (AOp ν))) (more : List (AOp ν)),
        AccountInRun (axGate ν) udig fns nb true timers fn p0 (t.acct.run (axGate ν) (syncOps nb true ++ ini)) s ops ∧
        done ++ more = syncOps nb true ++ ini ++ ops.flatten

/-- The process after it has done this. -/
def PState.after (t : PState ν) (done : List (AOp ν)) : PState ν :=
  ⟨t.acct.run (axGate ν) done, t.acks ++ acksOf t.acct done, t.used ++ done.flatMap AOp.draws⟩

/-- A day with any number of processes, one after the other: the state when the last of them has just constructed its gate.  Each
process before it was killed, in the middle of an operation or between two. -/
inductive Lives (R U : Nat → Option Str) (start : PState ν) : PState ν → Prop
  | first : Lives R U start start
  | killed {t u : PState ν} {nb : Bool} {done : List (AOp ν)} {op : AOp ν} {fops pre : List FOp} : Lives R U start t →
      ProcessDid R U t nb (done ++ [op]) →
      CallOps (t.after done).acct.gate.cur (t.after done).acct.gate.ready op fops → pre <+: fops →
      u = ⟨Acct.init ⟨AX.setup (t.after done).acct.gate.ax.conf (runOps (t.after done).acct.gate.ready.files pre), (t.after done).acct.gate.env,
        (t.after done).acct.gate.n + 1⟩, (t.after done).acks, (t.after done).used ++ op.draws⟩ →
      Lives R U start u
  | stopped {t u : PState ν} {nb : Bool} {done : List (AOp ν)} : Lives R U start t → ProcessDid R U t nb done →
      u = ⟨Acct.init ⟨AX.setup (t.after done).acct.gate.ax.conf (t.after done).acct.gate.ready.files, (t.after done).acct.gate.env,
        (t.after done).acct.gate.n + 1⟩, (t.after done).acks, (t.after done).used⟩ →
      Lives R U start u

end Jq
