import Verif.Model.Account
/-! Specification vocabulary for what the account tells about its orders (C29, C30). -/
namespace Jq
variable {ν : Type} [PyNum ν]

/-- The report says nothing new about the order: status, confirm id and quantities are the same, the sums are equal for Python. -/
structure Order.SameState (r l : Order ν) : Prop where
  status : r.status = l.status
  confirmId : r.confirmId = l.confirmId
  filled : r.filled = l.filled
  canceled : r.canceled = l.canceled
  balance : PyNum.eqv r.dealBalance l.dealBalance = true
  cost : (r.avgCost = none ∧ l.avgCost = none) ∨ ∃ x y, r.avgCost = some x ∧ l.avgCost = some y ∧ PyNum.eqv x y = true
  commission : PyNum.eqv r.commission l.commission = true

/-- An order that may still change. -/
def Unfinished (s : Option Status) : Prop := s ≠ some .filled ∧ s ≠ some .partlyCanceled ∧ s ≠ some .canceled ∧ s ≠ some .rejected

/-- What is worth telling when an order goes from one status to another (or is reported again with the same one). -/
inductive News (old : Option Status) : Option Status → NoteKind → Prop
  | confirmed : old = some .new → News old (some .opened) .confirmed
  | partDeal : Unfinished old → News old (some .filling) .partDeal
  | deal : Unfinished old → News old (some .filled) .deal
  | canceling : Unfinished old → old ≠ some .canceling → News old (some .canceling) .canceling
  | partlyCanceled : Unfinished old → News old (some .partlyCanceled) .canceled
  | canceled : Unfinished old → News old (some .canceled) .canceled
  | rejected : Unfinished old → News old (some .rejected) .rejected

end Jq
