import Verif.Model.GateSetup
import Verif.Model.Startup
/-!
# A process with the built-in trade gate

What `set_options` passes on: `strategy.py:209-211` hands all its keyword arguments to `setup_account`, which hands them to
`Account.setup` (`strategy.py:246`), which hands them to the `setup` of the gate (`account.py:101`).
-/
namespace Jq

/-- The options as the gate gets them: the account number and the others, `rest`, that only the gate looks at.  Simplified: the
options that the gate does not look at are left out. -/
def gateOptions (rest : GOpts) (o : Opts) : GOpts :=
  match o.accountNo with
  | some n => (c!"account_no", .str n) :: rest
  | none => rest

/-- `account.py:101` `self._ctx.trade_gate.setup(options)` with the built-in gate (`trade_gate.py:519-555`). -/
def builtInSetup {ν : Type} [CellNum ν] [Store ν] (S : SetupEnv) (rest : GOpts) (o : Opts) (g : GateIn ν) : GateIn ν × Py Unit :=
  let r := g.st.setup S (gateOptions rest o)
  ({ g with st := r.1 }, r.2)

end Jq
