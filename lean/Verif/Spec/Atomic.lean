import Verif.Model.ThreadQueue
/-! Specification of the thread-safe queue (C02): the atomic queue. -/
namespace Jq

/-- The atomic queue operation. -/
def atomicOp {α} (lt : α → α → Bool) : TOp α → List α → List α × TRes α
  | .push x, h => (heappush lt h x, .pushed)
  | .pop, h =>
    match heappop lt h with
    | none => (h, .popped none)
    | some (x, h') => (h', .popped (some x))
  | .top, h => (h, .top h.head?)
  | .empty, h => (h, .empty (h.length == 0))

/-- Running operations one after another: final state and results. -/
def seqRun {S Op R} (f : Op → S → S × R) (s : S) : List Op → S × List R
  | [] => (s, [])
  | o :: os => let r := f o s; let r' := seqRun f r.1 os; (r'.1, r.2 :: r'.2)

end Jq
