import Verif.Model.Api
import Verif.Model.Store
/-!
# What a strategy sees when it prints its objects, and the lines of the log

Models the `__str__` methods of `account/api.py`, `account/order.py` and `account/portfolio.py`, and the format of `common/log.py`.
`num` is `str` of a price or a sum of money, `quote` is `repr` of a string, `address` the text of the address of the object made for a key
of a dictionary.
-/
namespace Jq

variable {γ ν : Type}

/-- `str(x)` where `x` may be `None`. -/
def orNone {α : Type} (f : α → Str) : Option α → Str
  | none => c!"None"
  | some a => f a

/-- `str(d)` of a datetime: `isoformat(' ')`, the year in four digits, the microseconds only if there are any. -/
def DT.iso (d : DT) : Str :=
  two (d.year / 100) ++ (two (d.year % 100) ++ '-' :: (two d.month ++ '-' :: (two d.day ++ ' ' :: (two d.hour ++ ':' :: (two d.minute ++
    ':' :: (two d.second ++ if d.us = 0 then [] else '.' :: six d.us))))))

/-- `order.py:126-127` `OrderStyle.__str__` (for the two classes of the module). -/
def Style.text (num : ν → Str) : Style ν → Str
  | .market p => c!"MarketOrderStyle(price=" ++ num p ++ c!")"
  | .limit p => c!"LimitOrderStyle(price=" ++ num p ++ c!")"

/-- `api.py:252-256` `UserOrder.__str__`: `status` and `side` are `.value` of the attributes (`api.py:192-198`), which `None` has not. -/
def Order.text (num : ν → Str) (o : Order ν) : Py Str := do
  let status ← needAttr o.status
  let side ← needAttr o.side
  return c!"UserOrder(order_id=" ++ o.orderId ++ c!", code=" ++ o.code ++ c!", amount=" ++ intStr o.amount ++
    c!", style=" ++ orNone (Style.text num) o.style ++ c!"), status=" ++ status.name ++ c!", action=" ++ o.action.name ++
    c!", side=" ++ side.name ++ c!", filled_amount=" ++ intStr o.filled ++ c!", avg_price=" ++ orNone num o.avgCost ++
    c!", deal_balance=" ++ num o.dealBalance ++ c!", canceled_amount=" ++ intStr o.canceled ++
    c!", create_time=" ++ orNone DT.iso o.createTime

/-- `api.py:317-320` `UserPosition.__str__`. -/
def Pos.text (num : ν → Str) (p : Pos ν) : Str :=
  c!"UserPosition(security=" ++ p.code ++ c!", total_amount=" ++ intStr p.amount ++ c!", closeable_amount=" ++ intStr p.avail ++
    c!", avg_cost=" ++ num p.avgCost ++ c!", side=" ++ p.side.name ++ c!", last_price=" ++ orNone num p.lastPrice ++
    c!", position_value=" ++ orNone num p.value ++ c!")"

/-- `str` of a dictionary whose values have no `__repr__` of their own: `UserOrder` and `UserPosition` do not derive from `_UserObject`
(`api.py:178-184`, `api.py:273`), so `object.__repr__` is used. -/
def objectsText (quote address : Str → Str) (cls : Str) (keys : List Str) : Str :=
  c!"{" ++ joinWith c!", " (keys.map fun k => quote k ++ c!": <jqtrade.account.api." ++ cls ++ c!" object at " ++ address k ++ c!">") ++ c!"}"

/-- `portfolio.py:44-47` `Portfolio.__str__`; the dictionaries are those of `portfolio.py:13-26`. -/
def Acct.portfolioText (num : ν → Str) (quote address : Str → Str) (a : Acct γ ν) : Str :=
  c!"Portfolio(total_assert=" ++ num a.total ++ c!", available_assert=" ++ num a.avail ++ c!", locked_cash=" ++ num a.locked ++
    c!", long_positions=" ++ objectsText quote address c!"UserPosition" (dkeys a.long) ++
    c!", short_positions=" ++ objectsText quote address c!"UserPosition" (dkeys a.short)

/-- `str(get_orders())`: `api.py:121`. -/
def ordersText (quote address : Str → Str) (d : Dict Str Nat) : Str := objectsText quote address c!"UserOrder" (dkeys d)

/-- `logging.LogRecord`, as far as `log.py:22` shows it; `message` is the formatted message, with the traceback if there is one
(`logging.Formatter.format` puts it on lines of its own). -/
structure LogRec where
  time : DT
  level : Str
  process : Nat
  name : Str
  message : Str
deriving DecidableEq, Repr

/-- `log.py:11-18`, `log.py:22`, `log.py:29`: `[time] [level] [process] [name] message`, the time with `%Y-%m-%d %H:%M:%S.%f`; a line end
follows (`logging.StreamHandler.terminator`). -/
def LogRec.text (r : LogRec) : Str :=
  c!"[" ++ r.time.full ++ c!"] [" ++ r.level ++ c!"] [" ++ natStr r.process ++ c!"] [" ++ r.name ++ c!"] " ++ r.message

end Jq
