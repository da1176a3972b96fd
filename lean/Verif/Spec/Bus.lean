import Verif.Model.Bus
/-! Specification of the bus: the list of registrations in force, in the order they were made. -/
namespace Jq

variable {C K : Type} [DecidableEq C] [DecidableEq K]

/-- A registration. -/
structure Reg (C K : Type) where
  cls : C
  prio : Int
  cb : K
deriving DecidableEq

/-- `unregister`: the earliest registration of the callback for the class at each priority goes
(`seen`: the priorities that are done). -/
def dropRegs (c : C) (cb : K) : List Int → List (Reg C K) → List (Reg C K)
  | _, [] => []
  | seen, r :: rs =>
    if r.cls = c ∧ r.cb = cb ∧ r.prio ∉ seen then dropRegs c cb (r.prio :: seen) rs
    else r :: dropRegs c cb seen rs

/-- The registrations in force after a history. -/
def inForce : List (BusOp C K) → List (Reg C K)
  | ops => ops.foldl (fun rs op => match op with
      | .register c cb p => rs ++ [⟨c, p, cb⟩]
      | .unregister c cb => dropRegs c cb [] rs) []

/-- The classes in the order of their first registration. -/
def classOrder (ops : List (BusOp C K)) : List C :=
  ops.foldl (fun cs op => match op with
    | .register c _ _ => if c ∈ cs then cs else cs ++ [c]
    | .unregister _ _ => cs) []

/-- The callbacks that an event must call: class by class, higher priority first, registration order within a
priority. -/
def expectedCalls (sub : C → C → Bool) (ops : List (BusOp C K)) (ec : C) : List K :=
  ((classOrder ops).filter (sub ec)).flatMap fun c =>
    (sortBy (fun r => -r.prio) ((inForce ops).filter fun r => decide (r.cls = c))).map (·.cb)

end Jq
