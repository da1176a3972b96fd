import Verif.Model.Show
/-! Specification vocabulary for printed objects and log lines (C86, C87). -/
namespace Jq
variable {ν : Type}

/-- Numbers are written without commas, different ones differently, and never as `None`: true of `str(float)` and `str(int)`, except that all
the NaNs look alike. -/
structure NumText (num : ν → Str) : Prop where
  inj : ∀ x y, num x = num y → x = y
  comma : ∀ x, ',' ∉ num x
  notNone : ∀ x, num x ≠ c!"None"

/-- What can be seen of an order when it is printed. -/
structure SameShown (o o' : Order ν) : Prop where
  id : o.orderId = o'.orderId
  code : o.code = o'.code
  amount : o.amount = o'.amount
  style : o.style = o'.style
  status : o.status = o'.status
  action : o.action = o'.action
  side : o.side = o'.side
  filled : o.filled = o'.filled
  avgCost : o.avgCost = o'.avgCost
  dealBalance : o.dealBalance = o'.dealBalance
  canceled : o.canceled = o'.canceled
  createTime : o.createTime = o'.createTime

/-- A printed dictionary names the keys `ks`: between its commas it has one part for each of them, in this order, which begins with the key. -/
def NamesKeys (quote : Str → Str) (text : Str) (ks : List Str) : Prop :=
  (ks = [] → text = c!"{}") ∧
  (ks ≠ [] → (splitOn ',' text).length = ks.length ∧
    ∀ i k, ks[i]? = some k → ∃ rest, (splitOn ',' text)[i]? = some ((if i = 0 then '{' else ' ') :: (quote k ++ c!": <" ++ rest)))

/-- One moment before another, by the fields of the calendar and the clock. -/
inductive DT.Before : DT → DT → Prop
  | year {a b : DT} : a.year < b.year → DT.Before a b
  | month {a b : DT} : a.year = b.year → a.month < b.month → DT.Before a b
  | day {a b : DT} : a.year = b.year → a.month = b.month → a.day < b.day → DT.Before a b
  | hour {a b : DT} : a.year = b.year → a.month = b.month → a.day = b.day → a.hour < b.hour → DT.Before a b
  | minute {a b : DT} : a.year = b.year → a.month = b.month → a.day = b.day → a.hour = b.hour → a.minute < b.minute → DT.Before a b
  | second {a b : DT} : a.year = b.year → a.month = b.month → a.day = b.day → a.hour = b.hour → a.minute = b.minute →
      a.second < b.second → DT.Before a b
  | us {a b : DT} : a.year = b.year → a.month = b.month → a.day = b.day → a.hour = b.hour → a.minute = b.minute →
      a.second = b.second → a.us < b.us → DT.Before a b

end Jq
