import Verif.Py.Str
/-!
# Time expressions of `run_daily`

Models `TimeExprParser` (`event_source.py:237-263`), `EventSource.expr_to_time`
(`event_source.py:161-179`), the part of `add_event` that computes the time
(`event_source.py:137-151`) and `Strategy.TIME_DICT` (`strategy.py:41-46`, `138`).

Times are microseconds; a day is a number; the datetime of day `d` at time of day `t` is
`d * dayUs + t` (`datetime.combine`).  The range of Python's `datetime` (years 1-9999) is not modelled.
-/
namespace Jq

/-- Microseconds per second. -/
def secUs : Int := 1000000
/-- Microseconds per day. -/
def dayUs : Int := 86400 * secUs

/-- A pattern matcher: all ways to match a prefix, in the order in which Python's backtracking `re` tries
them, with the rest of the input. -/
abbrev Pat := Str → List (Str × Str)

/-- One character satisfying `p`. -/
def pChar (p : Char → Bool) : Pat
  | [] => []
  | c :: cs => if p c then [([c], cs)] else []

/-- Concatenation. -/
def pSeq (a b : Pat) : Pat := fun s =>
  (a s).flatMap fun (x, r) => (b r).map fun (y, r') => (x ++ y, r')

/-- Greedy repetition `a{1,k+1}`. -/
def pRep (a : Pat) : Nat → Pat
  | 0 => a
  | k + 1 => fun s =>
    (a s).flatMap fun (x, r) => ((pRep a k) r).map (fun (y, r') => (x ++ y, r')) ++ [(x, r)]

/-- `$`: at the end, or before a newline at the end. -/
def atDollar (s : Str) : Bool := s = [] || s = ['\n']

/-- `[hms]`. -/
def isUnit (c : Char) : Bool := c = 'h' || c = 'm' || c = 's'

/-- `[0-9]{1,2}[hms]`. -/
def pChunk : Pat := pSeq (pRep (pChar isDig) 1) (pChar isUnit)

/-- `event_source.py:244`: `re.match(r'^(([0-9]{1,2}[hms]){1,3})$', offset)` succeeds. -/
def offsetMatches (s : Str) : Bool := (pRep pChunk 2 s).any fun (_, r) => atDollar r

/-- First match of `([0-9]{1,2})([hms])` at the beginning of the string: digits, unit, rest. -/
def chunkAt (s : Str) : Option (Str × Char × Str) :=
  match s with
  | d1 :: d2 :: u :: r =>
    if isDig d1 && isDig d2 && isUnit u then some ([d1, d2], u, r)
    else if isDig d1 && isUnit d2 then some ([d1], d2, u :: r)
    else none
  | [d1, u] => if isDig d1 && isUnit u then some ([d1], u, []) else none
  | _ => none

/-- Scan for `findChunks` with at most `n` steps; each step consumes at least one character. -/
def findChunksN : Nat → Str → List (Str × Char)
  | 0, _ => []
  | n + 1, s =>
    match chunkAt s with
    | some (d, u, r) => (d, u) :: findChunksN n r
    | none => findChunksN n s.tail

/-- `event_source.py:247` `re.findall(r'([0-9]{1,2})([hms])', offset)`: scan from left to right, resuming
after each match.  (As many steps as characters are enough.) -/
def findChunks (s : Str) : List (Str × Char) := findChunksN s.length s

/-- `ret.get(unit, 0)` of the dict built at line 248: the last pair for a unit wins. -/
def unitCount (cs : List (Str × Char)) (u : Char) : Nat :=
  match (cs.reverse.find? fun c => c.2 = u) with
  | some (d, _) => natOfDigits d
  | none => 0

/-- `event_source.py:249` the `timedelta`, in microseconds. -/
def chunksDelta (cs : List (Str × Char)) : Int :=
  ((unitCount cs 'h' : Int) * 3600 + (unitCount cs 'm' : Int) * 60 + (unitCount cs 's' : Int)) * secUs

/-- `event_source.py:243-249` `_parse_offset`. -/
def parseOffset (s : Str) : Py Int :=
  if offsetMatches s then .ok (chunksDelta (findChunks s)) else .error .invalidParam

/-- `event_source.py:253` `re.split(r'([+-])', expr)`: parts and separators alternate. -/
def splitSign : Str → List Str
  | [] => [[]]
  | c :: cs =>
    if c = '+' || c = '-' then [] :: [c] :: splitSign cs
    else
      match splitSign cs with
      | [] => [[c]]
      | p :: ps => (c :: p) :: ps

/-- `event_source.py:251-263` `TimeExprParser.parse`: (base, op, offset).  With an offset the base is not
checked (line 262). -/
def parseExpr (expr : Str) : Py (Str × Str × Int) :=
  match splitSign expr with
  | [base] => if base = c!"open" || base = c!"close" then .ok (base, c!"+", 0) else .error .invalidParam
  | [base, op, offset] => (parseOffset offset).map fun d => (base, op, d)
  | _ => .error .invalidParam

/-- Trading periods: start and end times of day, in microseconds. -/
abbrev Periods := List (Int × Int)

/-- `event_source.py:161-179` `expr_to_time`: open is the start of the first period, close the end of the
last (lines 165-166; an empty list raises `IndexError`); an unknown base raises `KeyError` (line 174). -/
def exprToTime (mp : Periods) (day : Int) (expr : Str) : Py Int :=
  match mp.head?, mp.getLast? with
  | some first, some last =>
    match parseExpr expr with
    | .error e => .error e
    | .ok (base, op, off) =>
      let b : Option Int :=
        if base = c!"open" then some (day * dayUs + first.1)
        else if base = c!"close" then some (day * dayUs + last.2) else none
      match b with
      | none => .error .keyError
      | some t => if op = c!"+" then .ok (t + off) else .ok (t - off)
  | _, _ => .error .indexError

/-- `datetime.time(hour, minute, second)`: `ValueError` when out of range. -/
def mkTime (h m s : Int) : Py Int :=
  if 0 ≤ h ∧ h < 24 ∧ 0 ≤ m ∧ m < 60 ∧ 0 ≤ s ∧ s < 60 then .ok ((h * 3600 + m * 60 + s) * secUs)
  else .error .valueError

/-- `event_source.py:138-149`: a time with colons.  `time_info[:2]` must have two parts (it has, as there
is a colon); a missing third part means second 0; further parts are ignored. -/
def clockTime (expr : Str) : Py Int :=
  match splitOn ':' expr with
  | hs :: ms :: rest =>
    match pyInt hs, pyInt ms, (match rest with | [] => some 0 | ss :: _ => pyInt ss) with
    | some h, some m, some s => mkTime h m s
    | _, _, _ => .error .valueError
  | _ => .error .valueError

/-- `event_source.py:137-151`: the datetime of an entry on a day. -/
def entryTime (mp : Periods) (day : Int) (expr : Str) : Py Int :=
  if ':' ∈ expr then (clockTime expr).map fun t => day * dayUs + t
  else exprToTime mp day expr

/-- `strategy.py:41-46`, `138`: `TIME_DICT.get(time) or time`. -/
def timeAlias (time : Str) : Str :=
  if time = c!"open" then c!"open+0m"
  else if time = c!"close" then c!"close+0m"
  else if time = c!"before_open" then c!"open-30m"
  else if time = c!"after_close" then c!"close+30m"
  else time

end Jq
