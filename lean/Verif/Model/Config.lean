import Verif.Py.Str
import Verif.Py.Dict
/-!
# Configuration files

Models `scheduler/config.py:39-60` and `account/config.py:33-53`.  Running the configuration file is left out: its
variables, in the order of their definition, are the input.
-/
namespace Jq
variable {V : Type}

/-- `scheduler/config.py:47` `"SCHEDULER_"`. -/
def schedulerPrefix : Str := c!"SCHEDULER_"

/-- `account/config.py:41` `"ACCOUNT_"`. -/
def accountPrefix : Str := c!"ACCOUNT_"

/-- `name.lstrip(chars)`: removes leading characters that occur in `chars`. -/
def lstripChars (chars name : Str) : Str := lstripBy (fun c => decide (c ∈ chars)) name

/-- `d.update(e)`. -/
def dupdate (d e : Dict Str V) : Dict Str V := e.foldl (fun d x => dset d x.1 x.2) d

/-- `config.py:39-48` `_load_config`: the variables with the prefix, renamed by `lstrip`. -/
def loadConfig (pre : Str) (vars : Dict Str V) : Dict Str V :=
  vars.foldl (fun out x => if pre.isPrefixOf x.1 then dset out (lstripChars pre x.1) x.2 else out) []

/-- `config.py:56-61` `setup_scheduler_config`, `account/config.py:49-53` `setup_account_config`: the options
(`__dict__`) are updated. -/
def setupConfig (pre : Str) (options vars : Dict Str V) : Dict Str V := dupdate options (loadConfig pre vars)

end Jq
