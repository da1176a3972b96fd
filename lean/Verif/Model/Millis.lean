import Verif.Py.Float
/-!
# Datetimes and milliseconds

Models `common/utils.py:57-62`.  A datetime is its number of microseconds since the epoch of the local calendar (time
zone fixed).  First with exact arithmetic, as the models of runs use it, then with the float operations of the program, `rnd`
being their rounding (`double`); the two are compared in `Props/C53_Millis.lean`.  With floats, times before the epoch are not
modelled.
-/
namespace Jq

/-- `dt.microsecond`. -/
def microsecondOf (dt : Int) : Int := dt % 1000000

/-- `int(x / 1000)` for a number `x` of microseconds: towards zero. -/
def intMillis (x : Int) : Int := x.tdiv 1000

/-- `common/utils.py:57-58` `int(dt.timestamp() * 1000 + dt.microsecond / 1000)`; the timestamp has the microseconds
already.  Exact arithmetic. -/
def dtToMillis (dt : Int) : Int := intMillis (dt + microsecondOf dt)

/-- `common/utils.py:61-62` `fromtimestamp(milliseconds / 1000.)`.  Exact arithmetic. -/
def millisToDt (ms : Int) : Int := ms * 1000

/-- `datetime.timestamp` of a datetime without a time zone (`_datetimemodule.c`): the whole seconds plus `microsecond / 1e6`. -/
def timestampOf (rnd : Rat → Rat) (dt : Int) : Rat := rnd ((dt / 1000000 : Int) + rnd ((microsecondOf dt : Rat) / 1000000))

/-- `common/utils.py:57-58` with float operations. -/
def floatMillis (rnd : Rat → Rat) (dt : Int) : Int :=
  (rnd (rnd (timestampOf rnd dt * 1000) + rnd ((microsecondOf dt : Rat) / 1000))).floor

/-- `datetime.fromtimestamp` (`_PyTime_DoubleToDenominator`): the parts before and after the point, the second rounded to
microseconds. -/
def fromTimestamp (rnd : Rat → Rat) (t : Rat) : Int := t.floor * 1000000 + roundEven (rnd ((t - t.floor) * 1000000))

/-- `common/utils.py:61-62` with float operations. -/
def floatDt (rnd : Rat → Rat) (ms : Int) : Int := fromTimestamp rnd (rnd ((ms : Rat) / 1000))

end Jq
