import Verif.Py.Time
import Verif.Model.Timers
/-!
# Trading periods as they are given

`set_options(market_period=…, sync_period=…)` and the configuration give periods as Python values: a sequence of pairs of
times, each a `datetime.time` or a text.  Models `parse_time` (`common/utils.py:48-54`), the conversions of `set_options`
(`strategy.py:170-178`, `190-198`) and the two places that use the result (`event_source.py:163-166`, `strategy.py:112-117`).

Lists and tuples are not distinguished; a text as a whole is the sequence of its characters.  Other containers (dictionaries,
sets, generators, dates) are not modelled.
-/
namespace Jq

/-- A value where a time is expected. -/
inductive TimeVal where
  /-- a `datetime.time`, in microseconds since midnight -/
  | time (t : Int)
  | text (s : Str)
  /-- anything else -/
  | other
deriving DecidableEq, Repr

/-- A value where a period is expected. -/
inductive PairVal where
  | seq (xs : List TimeVal)
  | text (s : Str)
  /-- something without a length: a number, a time, `None` -/
  | other
deriving DecidableEq, Repr

/-- A value where periods are expected. -/
inductive PerVal where
  | seq (ps : List PairVal)
  /-- `None`, `False`, `0` -/
  | falsy
  /-- something else that cannot be iterated: `True`, a number, a time -/
  | scalar
deriving DecidableEq, Repr

/-- `%H:%M:%S`. -/
def mClock : Str → Matches (Nat × Nat × Nat) :=
  mbind fHour fun h => mbind (fLit ':') fun _ => mbind fMinute fun mi => mbind (fLit ':') fun _ => mbind fSecond fun sec s =>
    [((h, mi, sec), s)]

/-- `datetime.datetime.strptime(t, "%H:%M:%S").time()`: the first match, nothing left over; the seconds 60 and 61 are matched but
not accepted by `datetime`. -/
def clockText (s : Str) : Py Int :=
  match (mClock s).head? with
  | some ((h, m, sec), []) => if sec < 60 then .ok (((h * 3600 + m * 60 + sec : Nat) : Int) * secUs) else .error .valueError
  | _ => .error .valueError

/-- `utils.py:48-54` `parse_time`. -/
def parseTime : TimeVal → Py Int
  | .time t => .ok t
  | .text s => clockText s
  | .other => .error .valueError

/-- `strategy.py:174-177`, `194-197`: one period, `len(_period) != 2` and the unpacking.  The characters of a text are no times. -/
def convPair : PairVal → Py (Int × Int)
  | .seq [a, b] =>
    match parseTime a with
    | .error e => .error e
    | .ok x =>
      match parseTime b with
      | .error e => .error e
      | .ok y => .ok (x, y)
  | .seq _ => .error .valueError
  | .text _ => .error .valueError
  | .other => .error .typeError

/-- The periods one after the other; the first failure is raised. -/
def convPairs : List PairVal → Py (List (Int × Int))
  | [] => .ok []
  | p :: ps =>
    match convPair p with
    | .error e => .error e
    | .ok x =>
      match convPairs ps with
      | .error e => .error e
      | .ok xs => .ok (x :: xs)

/-- Periods that have been converted. -/
def PerVal.ofPeriods (ps : Periods) : PerVal := .seq (ps.map fun p => .seq [.time p.1, .time p.2])

/-- `strategy.py:170-178`, `190-198`: a false value is left as it is. -/
def PerVal.convert : PerVal → Py PerVal
  | .falsy => .ok .falsy
  | .scalar => .error .typeError
  | .seq [] => .ok (.seq [])
  | .seq (p :: ps) => (convPairs (p :: ps)).map PerVal.ofPeriods

/-- `p[0]` as a time. -/
def PairVal.first : PairVal → Py Int
  | .seq (a :: _) => parseTime a
  | .seq [] => .error .indexError
  | .text (c :: _) => clockText [c]
  | .text [] => .error .indexError
  | .other => .error .typeError

/-- `p[-1]` as a time. -/
def PairVal.last : PairVal → Py Int
  | .seq xs =>
    match xs.getLast? with
    | some a => parseTime a
    | none => .error .indexError
  | .text s =>
    match s.getLast? with
    | some c => clockText [c]
    | none => .error .indexError
  | .other => .error .typeError

/-- `event_source.py:164-166`: the open and the close. -/
def PerVal.openClose : PerVal → Py (Int × Int)
  | .falsy => .error .typeError
  | .scalar => .error .typeError
  | .seq ps =>
    match ps.head?, ps.getLast? with
    | some p, some q =>
      match p.first with
      | .error e => .error e
      | .ok o =>
        match q.last with
        | .error e => .error e
        | .ok c => .ok (o, c)
    | _, _ => .error .indexError

/-- `event_source.py:161-179` `expr_to_time` with the periods as they are given. -/
def exprTimeOf (v : PerVal) (day : Int) (expr : Str) : Py Int :=
  match v.openClose with
  | .error e => .error e
  | .ok p => exprToTime [p] day expr

/-- `event_source.py:137-151`: the datetime of an entry on a day. -/
def entryTimeOf (v : PerVal) (day : Int) (expr : Str) : Py Int :=
  if ':' ∈ expr then (clockTime expr).map fun t => day * dayUs + t else exprTimeOf v day expr

/-- `strategy.py:113-117`, `account.py:141-145`: a period must consist of two `datetime.time`s. -/
def minutePair : PairVal → Py (Int × Int)
  | .seq [.time a, .time b] => .ok (a, b)
  | .other => .error .typeError
  | _ => .error .valueError

/-- The periods one after the other (`strategy.py:112-123`, `account.py:140-151`): each is checked, then the texts of its times
are made, from its start to its end in steps of `step`. -/
def pairTimes (fuel : Nat) (day step : Int) : List PairVal → Option (Py (List Str))
  | [] => some (.ok [])
  | p :: ps =>
    match minutePair p with
    | .error e => some (.error e)
    | .ok x =>
      match timesLoop (day * dayUs + x.2) step fuel (day * dayUs + x.1) with
      | none => none
      | some ts =>
        match pairTimes fuel day step ps with
        | none => none
        | some (.error e) => some (.error e)
        | some (.ok us) => some (.ok (ts ++ us))

/-- `for _period in …`. -/
def PerVal.times (fuel : Nat) (day step : Int) : PerVal → Option (Py (List Str))
  | .falsy => some (.error .typeError)
  | .scalar => some (.error .typeError)
  | .seq ps => pairTimes fuel day step ps

/-- `account.py:130-151`: the texts of the times of the synchronisation timer made at `now0`; false periods (line 134) mean the
rest of the day. -/
def syncTimes (fuel : Nat) (now0 step : Int) (periods : PerVal) : Option (Py (List Str)) :=
  let now := now0 / secUs * secUs
  match periods with
  | .falsy | .seq [] => (timesLoop (now / dayUs * dayUs + 86399 * secUs) step fuel (now + step)).map .ok
  | v => v.times fuel (now / dayUs) step

end Jq
