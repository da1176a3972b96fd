import Verif.Model.Launch
/-!
# The command line

`main` (`__main__.py:5-43`): the parser, its three sub-commands, and which function runs.

`argparse` is modelled as far as these parsers use it: which words are options (exact, joined to a value, abbreviated, several
short ones in a word), which are values, and what is refused.  A command line that is refused and one that asks for help both end
the program (`SystemExit`) and are not told apart.  The word `--` is refused by these
parsers wherever it stands (CPython 3.11; tested on 65000 random lines), as here (`c75_double_dash`).  In a word of several short
options the value is everything after the option's letter (Python before 3.12 keeps a `=` in front of it, as here).  The digits
of a negative number are the ASCII ones.
-/
namespace Jq

/-- Where an option's value goes. -/
inductive Dest where
  | help | version | name | code | out | env | config | debug | pid | all | force
deriving DecidableEq, Repr

/-- `action="store_true"` and the help options take no value, the others take one. -/
def Dest.takes : Dest → Bool
  | .name | .code | .out | .env | .config | .pid => true
  | _ => false

/-- The option words of a parser (`_option_string_actions`). -/
abbrev Parser := Dict Str Dest

/-- Every parser has these. -/
def helpOptions : Parser := [(c!"-h", .help), (c!"--help", .help)]

/-- `__main__.py:6-8`. -/
def mainParser : Parser := helpOptions ++ [(c!"-V", .version), (c!"--version", .version)]

/-- `__main__.py:13-22`. -/
def startParser : Parser := helpOptions ++
  [(c!"-n", .name), (c!"--name", .name), (c!"-c", .code), (c!"--code", .code), (c!"-o", .out), (c!"--out", .out), (c!"-e", .env),
   (c!"--env", .env), (c!"--config", .config), (c!"--debug", .debug)]

/-- `__main__.py:25-26`. -/
def listParser : Parser := helpOptions

/-- `__main__.py:29-35`. -/
def stopParser : Parser := helpOptions ++
  [(c!"-n", .name), (c!"--name", .name), (c!"-p", .pid), (c!"--pid", .pid), (c!"--all", .all), (c!"-f", .force), (c!"--force", .force)]

/-- What a word of the command line is taken for. -/
inductive ArgKind where
  | value
  /-- an option, the word that it is written with, and a value in the same word -/
  | option (d : Dest) (word : Str) (explicit : Option Str)
  /-- an option that the parser does not have -/
  | unknown
  | ambiguous
deriving DecidableEq, Repr

/-- `str.partition("=")`: nothing if there is no `=`. -/
def partitionEq : Str → Option (Str × Str)
  | [] => none
  | c :: s => if c = '=' then some ([], s) else (partitionEq s).map fun p => (c :: p.1, p.2)

/-- `_negative_number_matcher`: `^-\d+$|^-\d*\.\d+$`; `$` also matches before a final newline. -/
def looksNegative (s : Str) : Bool :=
  let t := if s.getLast? = some '\n' then s.dropLast else s
  match t with
  | '-' :: ds =>
    let a := ds.takeWhile Char.isDigit
    match ds.dropWhile Char.isDigit with
    | [] => a ≠ []
    | '.' :: b => b ≠ [] && b.all Char.isDigit
    | _ => false
  | _ => false

/-- `_get_option_tuples`: the options that a word may stand for. -/
def optionTuples (p : Parser) (a : Str) : List (Dest × Str × Option Str) :=
  if a.take 2 = c!"--" then
    let pre := match partitionEq a with
      | some (w, _) => w
      | none => a
    (p.filter fun e => pre.isPrefixOf e.1).map fun e => (e.2, e.1, (partitionEq a).map (·.2))
  else
    p.filterMap fun e =>
      if e.1 = a.take 2 then some (e.2, e.1, some (a.drop 2))
      else if a.isPrefixOf e.1 then some (e.2, e.1, none)
      else none

/-- `_parse_optional`. -/
def classify (p : Parser) (a : Str) : ArgKind :=
  if a.head? ≠ some '-' then .value
  else
    match dget p a with
    | some d => .option d a none
    | none =>
      if a.length = 1 then .value
      else
        match (partitionEq a).bind fun s => (dget p s.1).map fun d => (d, s.1, s.2) with
        | some (d, w, v) => .option d w (some v)
        | none =>
          match optionTuples p a with
          | [(d, w, v)] => .option d w v
          | _ :: _ :: _ => .ambiguous
          | [] => if looksNegative a || a.contains ' ' then .value else .unknown

/-- An option as it was given. -/
abbrev OptAct := Dest × Option Str

/-- The options in the rest of a word, `d` being the one before the rest; at the end there may be one that takes the next word. -/
def shortOptions (p : Parser) (d : Dest) : Str → Option (List OptAct × Option Dest)
  | [] => some (if d.takes then ([], some d) else ([(d, none)], none))
  | c :: e =>
    if d.takes then some ([(d, some (c :: e))], none)
    else
      match dget p ['-', c] with
      | none => none
      | some d' => (shortOptions p d' e).map fun r => ((d, none) :: r.1, r.2)

/-- `consume_optional`: the options in one word, and the one that takes the next word; `none`: an error. -/
def wordOptions (p : Parser) (d : Dest) (word : Str) : Option Str → Option (List OptAct × Option Dest)
  | none => shortOptions p d []
  | some v =>
    if d.takes then some ([(d, some v)], none)
    else if word.take 2 = c!"--" ∨ v = [] then none
    else shortOptions p d v

/-- `_parse_known_args` of a parser without positional arguments: the options in order; `none`: an error. -/
def readArgs (p : Parser) : List Str → Option (List OptAct)
  | [] => some []
  | a :: rest =>
    match classify p a with
    | .option d w e =>
      match wordOptions p d w e with
      | none => none
      | some (acts, none) => (readArgs p rest).map fun l => acts ++ l
      | some (acts, some d') =>
        match rest with
        | [] => none
        | v :: rest => if classify p v = .value then (readArgs p rest).map fun l => acts ++ (d', some v) :: l else none
    | _ => none

/-- The value of an option after all were stored. -/
def stored (acts : List OptAct) (d : Dest) : Option Str := (acts.filterMap fun a => if a.1 = d then a.2 else none).getLast?

/-- An option without a value was given. -/
def flagged (acts : List OptAct) (d : Dest) : Bool := acts.any fun a => a.1 = d

/-- The options of `start_task`. -/
structure StartOpts where
  name : Str
  code : Str
  out : Option Str := none
  env : Option Str := none
  config : Option Str := none
  debug : Bool := false
deriving DecidableEq, Repr

/-- What the command line asks for. -/
inductive Command where
  | start (o : StartOpts)
  | list
  | stop (o : StopOpts)
  | version
  /-- neither a command nor `-V`: `options.func` does not exist -/
  | nothing
  /-- help or a message about wrong usage -/
  | exit
deriving DecidableEq, Repr

/-- The sub-command `start_task`: `-n` and `-c` are required. -/
def startCommand (args : List Str) : Command :=
  match readArgs startParser args with
  | none => .exit
  | some acts =>
    if flagged acts .help then .exit
    else
      match stored acts .name, stored acts .code with
      | some name, some code =>
        .start { name := name, code := code, out := stored acts .out, env := stored acts .env, config := stored acts .config
                 debug := flagged acts .debug }
      | _, _ => .exit

/-- The sub-command `get_tasks`. -/
def listCommand (args : List Str) : Command :=
  match readArgs listParser args with
  | none => .exit
  | some acts => if flagged acts .help then .exit else .list

/-- The sub-command `stop_task`: every value of `-p` must be an integer. -/
def stopCommand (args : List Str) : Command :=
  match readArgs stopParser args with
  | none => .exit
  | some acts =>
    if flagged acts .help || acts.any fun a => decide (a.1 = .pid) && (a.2.bind pyInt).isNone then .exit
    else .stop { name := stored acts .name, pid := (stored acts .pid).bind pyInt, all := flagged acts .all, force := flagged acts .force }

/-- The sub-command. -/
def subCommand (name : Str) (args : List Str) : Command :=
  if name = c!"start_task" then startCommand args
  else if name = c!"get_tasks" then listCommand args
  else if name = c!"stop_task" then stopCommand args
  else .exit

/-- The words before the sub-command, which takes all the rest; `-V` comes first in `__main__.py:39-43`. -/
def readMain (version : Bool) : List Str → Command
  | [] => if version then .version else .nothing
  | a :: rest =>
    match classify mainParser a with
    | .value =>
      match subCommand a rest with
      | .exit => .exit
      | c => if version then .version else c
    | .option d w e =>
      match wordOptions mainParser d w e with
      | some (acts, none) => if flagged acts .help then .exit else readMain true rest
      | _ => .exit
    | _ => .exit

/-- `__main__.py:37` `parser.parse_args()` and the choice after it. -/
def readCommand (argv : List Str) : Command := readMain false argv

end Jq
