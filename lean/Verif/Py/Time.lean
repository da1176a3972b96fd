import Verif.Py.Str
/-!
# Datetimes with `strftime` and `strptime`

A naive `datetime.datetime` as its fields.  `strptime` follows CPython's `_strptime`: the format becomes a
regular expression, matched at the start with the alternatives of each directive tried in the order in which
CPython writes them, the first match being used; text left over is an error.  A directive is modelled by the
list of its matches (value, rest) in the order in which the backtracking matcher tries them.
Only ASCII digits (CPython's `\d` also accepts other Unicode digits).
-/
namespace Jq

structure DT where
  year : Nat
  month : Nat
  day : Nat
  hour : Nat
  minute : Nat
  second : Nat
  us : Nat
deriving DecidableEq, Repr

def isLeap (y : Nat) : Bool := y % 4 = 0 && (y % 100 ≠ 0 || y % 400 = 0)

def daysInMonth (y m : Nat) : Nat :=
  if m = 2 then (if isLeap y then 29 else 28)
  else if m = 4 ∨ m = 6 ∨ m = 9 ∨ m = 11 then 30 else 31

/-- The fields `datetime.datetime(…)` accepts. -/
def DT.valid (d : DT) : Bool :=
  1 ≤ d.year && d.year ≤ 9999 && 1 ≤ d.month && d.month ≤ 12 && 1 ≤ d.day && d.day ≤ daysInMonth d.year d.month &&
  d.hour < 24 && d.minute < 60 && d.second < 60 && d.us < 1000000

/-- `%f`. -/
def six (n : Nat) : Str := two (n / 10000) ++ two (n / 100 % 100) ++ two (n % 100)

/-- `strftime("%Y-%m-%d %H:%M:%S.%f")`; `%Y` is not padded (glibc). -/
def DT.full (d : DT) : Str :=
  natStr d.year ++ '-' :: (two d.month ++ '-' :: (two d.day ++ ' ' :: (two d.hour ++ ':' :: (two d.minute ++
    ':' :: (two d.second ++ '.' :: six d.us)))))

/-- `strftime("%H%M%S.%f")`. -/
def DT.hmsf (d : DT) : Str := two d.hour ++ (two d.minute ++ (two d.second ++ '.' :: six d.us))

/-- `strftime("%Y%m%d")`. -/
def DT.ymd (d : DT) : Str := natStr d.year ++ (two d.month ++ two d.day)

abbrev Matches (α : Type) := List (α × Str)

def inR (lo hi c : Char) : Bool := lo ≤ c && c ≤ hi

/-- Two characters, read as a two-digit number. -/
def twoAlt (p q : Char → Bool) : Str → Matches Nat
  | a :: b :: r => if p a && q b then [(10 * digVal a + digVal b, r)] else []
  | _ => []

def oneAlt (p : Char → Bool) : Str → Matches Nat
  | a :: r => if p a then [(digVal a, r)] else []
  | _ => []

/-- `%Y`: `\d\d\d\d`. -/
def fYear (s : Str) : Matches Nat :=
  if (s.take 4).length = 4 && (s.take 4).all isDig then [(natOfDigits (s.take 4), s.drop 4)] else []

/-- `%m`: `1[0-2]|0[1-9]|[1-9]`. -/
def fMonth (s : Str) : Matches Nat :=
  twoAlt (· == '1') (inR '0' '2') s ++ twoAlt (· == '0') (inR '1' '9') s ++ oneAlt (inR '1' '9') s

/-- `%d`: `3[0-1]|[1-2]\d|0[1-9]|[1-9]| [1-9]`. -/
def fDay (s : Str) : Matches Nat :=
  twoAlt (· == '3') (inR '0' '1') s ++ twoAlt (inR '1' '2') isDig s ++ twoAlt (· == '0') (inR '1' '9') s ++
  oneAlt (inR '1' '9') s ++ (match s with | ' ' :: s => oneAlt (inR '1' '9') s | _ => [])

/-- `%H`: `2[0-3]|[0-1]\d|\d`. -/
def fHour (s : Str) : Matches Nat :=
  twoAlt (· == '2') (inR '0' '3') s ++ twoAlt (inR '0' '1') isDig s ++ oneAlt isDig s

/-- `%M`: `[0-5]\d|\d`. -/
def fMinute (s : Str) : Matches Nat := twoAlt (inR '0' '5') isDig s ++ oneAlt isDig s

/-- `%S`: `6[0-1]|[0-5]\d|\d`. -/
def fSecond (s : Str) : Matches Nat :=
  twoAlt (· == '6') (inR '0' '1') s ++ twoAlt (inR '0' '5') isDig s ++ oneAlt isDig s

/-- `%f`: `[0-9]{1,6}`, the value padded with zeros on the right. -/
def fMicro (s : Str) : Matches Nat :=
  [6, 5, 4, 3, 2, 1].filterMap fun k =>
    if (s.take k).length = k && (s.take k).all isDig then some (natOfDigits (s.take k) * 10 ^ (6 - k), s.drop k) else none

/-- A literal character. -/
def fLit (c : Char) : Str → Matches Unit
  | a :: r => if a = c then [((), r)] else []
  | [] => []

/-- A blank in the format: `\s+`. -/
def fSpace : Str → Matches Unit
  | a :: r => if isSpace a then fSpace r ++ [((), r)] else []
  | [] => []

/-- Sequencing of matchers. -/
def mbind {α β : Type} (m : Str → Matches α) (f : α → Str → Matches β) (s : Str) : Matches β :=
  (m s).flatMap fun x => f x.1 x.2

/-- `%Y-%m-%d %H:%M:%S` followed by `rest`. -/
def mDateTime (rest : Str → Matches Nat) : Str → Matches DT :=
  mbind fYear fun y => mbind (fLit '-') fun _ => mbind fMonth fun mo => mbind (fLit '-') fun _ => mbind fDay fun d =>
  mbind fSpace fun _ => mbind fHour fun h => mbind (fLit ':') fun _ => mbind fMinute fun mi =>
  mbind (fLit ':') fun _ => mbind fSecond fun sec => mbind rest fun us s => [(⟨y, mo, d, h, mi, sec, us⟩, s)]

/-- `%Y%m%d%H%M%S`. -/
def mCompact : Str → Matches DT :=
  mbind fYear fun y => mbind fMonth fun mo => mbind fDay fun d => mbind fHour fun h => mbind fMinute fun mi =>
  mbind fSecond fun sec s => [(⟨y, mo, d, h, mi, sec, 0⟩, s)]

/-- `datetime.strptime`: the first match, nothing left over, valid fields. -/
def strptime (m : Str → Matches DT) (s : Str) : Py DT :=
  match (m s).head? with
  | some (d, []) => if d.valid then .ok d else .error .valueError
  | _ => .error .valueError

/-- `%f` after a dot. -/
def mFrac : Str → Matches Nat := mbind (fLit '.') fun _ => fMicro

/-- Nothing: the microseconds are 0. -/
def mNone (s : Str) : Matches Nat := [(0, s)]

/-- `utils.py:36-45` `parse_dt` of a string. -/
def parseDtStr (s : Str) : Py DT :=
  if '.' ∈ s then strptime (mDateTime mFrac) s else strptime (mDateTime mNone) s

/-- A value given as a datetime: an object or a string. -/
inductive DtVal where
  | dt (d : DT)
  | str (s : Str)
deriving DecidableEq, Repr

/-- `utils.py:36-45` `parse_dt` (for values that are neither, `ValueError`: not modelled). -/
def parseDt : DtVal → Py DT
  | .dt d => .ok d
  | .str s => parseDtStr s

end Jq
