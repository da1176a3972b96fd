/-! `list.sort(key=…)`: stable insertion sort (Python's sort is stable; the result of a stable sort is
determined by the keys and the order of the input). -/
namespace Jq

/-- Insert before the first element with a greater key (elements coming from the right, so equal keys
stay in front). -/
def insertBy {α} (key : α → Int) (x : α) : List α → List α
  | [] => [x]
  | y :: ys => if key x ≤ key y then x :: y :: ys else y :: insertBy key x ys

/-- Stable sort by an integer key. -/
def sortBy {α} (key : α → Int) : List α → List α
  | [] => []
  | x :: xs => insertBy key x (sortBy key xs)

end Jq
