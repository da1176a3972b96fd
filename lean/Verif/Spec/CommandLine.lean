import Verif.Model.Args
/-!
# How options can be written

What the help text of a command lists, and the ways in which a user can write an option and its value.
-/
namespace Jq

/-- A line of the help text: a letter (`-n`), a long word (`--name`). -/
structure HelpLine where
  dest : Dest
  letter : Option Char
  long : Str
deriving DecidableEq, Repr

/-- `start_task --help`. -/
def startHelp : List HelpLine :=
  [⟨.help, some 'h', c!"--help"⟩, ⟨.name, some 'n', c!"--name"⟩, ⟨.code, some 'c', c!"--code"⟩, ⟨.out, some 'o', c!"--out"⟩,
   ⟨.env, some 'e', c!"--env"⟩, ⟨.config, none, c!"--config"⟩, ⟨.debug, none, c!"--debug"⟩]

/-- `jqtrade --help`: the options before the sub-command. -/
def mainHelp : List HelpLine := [⟨.help, some 'h', c!"--help"⟩, ⟨.version, some 'V', c!"--version"⟩]

/-- `stop_task --help`. -/
def stopHelp : List HelpLine :=
  [⟨.help, some 'h', c!"--help"⟩, ⟨.name, some 'n', c!"--name"⟩, ⟨.pid, some 'p', c!"--pid"⟩, ⟨.all, none, c!"--all"⟩,
   ⟨.force, some 'f', c!"--force"⟩]

/-- `w` is the long word of the line, or a beginning of it with which no other long word begins. -/
def Abbrev (H : List HelpLine) (w : Str) (l : HelpLine) : Prop := w <+: l.long ∧ ∀ l' ∈ H, w <+: l'.long → l' = l

/-- `OptWord H l a e`: the word `a` is the option `l`, with the value `e` in the same word if there is one. -/
inductive OptWord (H : List HelpLine) (l : HelpLine) : Str → Option Str → Prop
  /-- `-n` -/
  | short (c : Char) : l.letter = some c → OptWord H l ['-', c] none
  /-- `-ndemo` -/
  | shortJoined (c : Char) (v : Str) : l.letter = some c → v ≠ [] → v.head? ≠ some '=' → OptWord H l ('-' :: c :: v) (some v)
  /-- `-n=demo` -/
  | shortEq (c : Char) (v : Str) : l.letter = some c → OptWord H l ('-' :: c :: '=' :: v) (some v)
  /-- `--name`, `--na` -/
  | long (w : Str) : Abbrev H w l → OptWord H l w none
  /-- `--name=demo`, `--na=demo` -/
  | longEq (w v : Str) : Abbrev H w l → OptWord H l (w ++ '=' :: v) (some v)

/-- A word that begins like an option of the command. -/
def LikeOption (H : List HelpLine) (a : Str) : Prop :=
  (∃ l ∈ H, ∃ c, l.letter = some c ∧ ['-', c] <+: a) ∨
  (c!"--" <+: a ∧ ∃ l ∈ H, (a.takeWhile fun c => c != '=') <+: l.long)

/-- A negative number: `-`, then digits, or digits (none are needed), a point and digits; a line end after it does not matter. -/
def NegativeNumber (a : Str) : Prop :=
  ∃ core end_ : Str, a = '-' :: core ++ end_ ∧ (end_ = [] ∨ end_ = ['\n']) ∧
    ((core ≠ [] ∧ ∀ c ∈ core, '0' ≤ c ∧ c ≤ '9') ∨
     ∃ x y : Str, core = x ++ '.' :: y ∧ y ≠ [] ∧ ∀ c ∈ x ++ y, '0' ≤ c ∧ c ≤ '9')

/-- A word that can be the value of an option: it does not begin with `-`, or it is `-`, or it begins with `-` but not like an option
and is a negative number or has a blank. -/
def IsValue (H : List HelpLine) (a : Str) : Prop :=
  a.head? ≠ some '-' ∨ a = c!"-" ∨ (¬ LikeOption H a ∧ (NegativeNumber a ∨ ' ' ∈ a))

/-- An option as written: what it is, its value, the words, and whether it is written with its letter or its full long word and its
value in a word of its own. -/
structure Written where
  dest : Dest
  value : Option Str
  words : List Str
  plain : Bool
deriving DecidableEq, Repr

/-- The ways to write an option. -/
inductive Writes (H : List HelpLine) : Written → Prop
  /-- an option without value: `--debug`, `--d` -/
  | flag (l : HelpLine) (a : Str) : l ∈ H → l.dest.takes = false → OptWord H l a none →
      Writes H ⟨l.dest, none, [a], decide (a = l.long) || decide (some a = l.letter.map fun c => ['-', c])⟩
  /-- the value is the next word: `-n demo`, `--name demo`, `--na demo` -/
  | apart (l : HelpLine) (a v : Str) : l ∈ H → l.dest.takes = true → OptWord H l a none → IsValue H v →
      Writes H ⟨l.dest, some v, [a, v], decide (a = l.long) || decide (some a = l.letter.map fun c => ['-', c])⟩
  /-- the value is in the word: `-ndemo`, `-n=demo`, `--name=demo` -/
  | joined (l : HelpLine) (a v : Str) : l ∈ H → l.dest.takes = true → OptWord H l a (some v) →
      Writes H ⟨l.dest, some v, [a], false⟩

/-- `Letters H s os w`: the letters `s` in one word are the options `os`; an option that still takes the next word is `w`. -/
inductive Letters (H : List HelpLine) : Str → List (Dest × Option Str) → Option Dest → Prop
  /-- the last letter, without a value -/
  | flag (l : HelpLine) (c : Char) : l ∈ H → l.letter = some c → l.dest.takes = false → Letters H [c] [(l.dest, none)] none
  /-- the last letter; its value is the next word -/
  | waits (l : HelpLine) (c : Char) : l ∈ H → l.letter = some c → l.dest.takes = true → Letters H [c] [] (some l.dest)
  /-- the value is the rest of the word -/
  | value (l : HelpLine) (c : Char) (v : Str) : l ∈ H → l.letter = some c → l.dest.takes = true → v ≠ [] → Letters H (c :: v) [(l.dest, some v)] none
  | more (l : HelpLine) (c : Char) (s : Str) (os : List (Dest × Option Str)) (w : Option Dest) : l ∈ H → l.letter = some c →
      l.dest.takes = false → Letters H s os w → Letters H (c :: s) ((l.dest, none) :: os) w

/-- `WritesItem H os ws`: the words `ws` write the options `os`: one option, or several letters in one word. -/
inductive WritesItem (H : List HelpLine) : List (Dest × Option Str) → List Str → Prop
  | one (g : Written) : Writes H g → WritesItem H [(g.dest, g.value)] g.words
  /-- `-fn`, `-fndemo`; `-f=n` is taken for `-fn` -/
  | cluster (l : HelpLine) (c : Char) (a s : Str) (os : List (Dest × Option Str)) : l ∈ H → l.letter = some c → l.dest.takes = false →
      a = '-' :: c :: s ∨ a = '-' :: c :: '=' :: s → Letters H s os none → WritesItem H ((l.dest, none) :: os) [a]
  /-- `-fn demo` -/
  | clusterApart (l : HelpLine) (c : Char) (a s : Str) (os : List (Dest × Option Str)) (d : Dest) (v : Str) : l ∈ H → l.letter = some c →
      l.dest.takes = false → a = '-' :: c :: s ∨ a = '-' :: c :: '=' :: s → Letters H s os (some d) → IsValue H v →
      WritesItem H ((l.dest, none) :: os ++ [(d, some v)]) [a, v]

/-- The value of an option in a line: the last one counts. -/
def lastGiven (d : Dest) (ws : List Written) : Option Str := (ws.filterMap fun w => if w.dest = d then w.value else none).getLast?

end Jq
