import Verif.Model.Bus
import Verif.Py.Str
/-!
# Emission while callbacks change the bus

Models `EventBus.emit` (`bus.py:47-62`) with callbacks that call `register` and `unregister` of the bus that is calling them.
The loops run over the objects themselves: the list of a class and priority is read anew for every index; the priorities
of a class are sorted once (`sorted` makes a new list); the iterator of the `OrderedDict` raises `RuntimeError` when it is
asked for a further key after one was added (when the last key has been given it just ends).

Simplified: callbacks that emit events themselves are not modelled.
-/
namespace Jq

variable {C K σ : Type} [DecidableEq C] [DecidableEq K]

/-- `_subscribes[c][p]`: the list object of a class and a priority. -/
def Bus.at (b : Bus C K) (c : C) (p : Int) : List K := ((dget b c).bind fun d => dget d p).getD []

/-- A call of a callback, and what it did to the bus. -/
structure BusCall (C K : Type) where
  cls : C
  prio : Int
  cb : K
  ops : List (BusOp C K)

/-- The bus, the state of the callbacks and the calls made so far. -/
structure EmitSt (C K σ : Type) where
  bus : Bus C K
  st : σ
  log : List (BusCall C K)

/-- What a callback does: the new state, its calls of `register` and `unregister` in order, and the exception it ends with. -/
abbrev BusAct (C K σ : Type) := K → σ → σ × List (BusOp C K) × Option PyErr

/-- `bus.py:61` one call. -/
def EmitSt.call (act : BusAct C K σ) (c : C) (p : Int) (k : K) (s : EmitSt C K σ) : EmitSt C K σ × Option PyErr :=
  match act k s.st with
  | (st, ops, e) => (⟨ops.foldl Bus.apply s.bus, st, s.log ++ [⟨c, p, k, ops⟩]⟩, e)

/-- `bus.py:59-61`: the loop over the list of a class and a priority, from index `j` on. -/
def EmitSt.emitAt (act : BusAct C K σ) (c : C) (p : Int) : Nat → Nat → EmitSt C K σ → Option (EmitSt C K σ × Option PyErr)
  | 0, _, _ => none
  | n + 1, j, s =>
    match (s.bus.at c p)[j]? with
    | none => some (s, none)
    | some k =>
      match s.call act c p k with
      | (s, some e) => some (s, some e)
      | (s, none) => EmitSt.emitAt act c p n (j + 1) s

/-- `bus.py:58`: the loop over the sorted priorities. -/
def EmitSt.emitPrios (act : BusAct C K σ) (fuel : Nat) (c : C) : List Int → EmitSt C K σ → Option (EmitSt C K σ × Option PyErr)
  | [], s => some (s, none)
  | p :: ps, s =>
    match s.emitAt act c p fuel 0 with
    | none => none
    | some (s, some e) => some (s, some e)
    | some (s, none) => EmitSt.emitPrios act fuel c ps s

/-- `bus.py:54-61` for one class. -/
def EmitSt.emitClass (act : BusAct C K σ) (fuel : Nat) (sub : C → C → Bool) (ec c : C) (s : EmitSt C K σ) :
    Option (EmitSt C K σ × Option PyErr) :=
  if sub ec c then s.emitPrios act fuel c (sortBy (fun p => -p) (dkeys ((dget s.bus c).getD []))) else some (s, none)

/-- `bus.py:54`: the loop over the classes; `n` is the number of keys when the iterator was made. -/
def EmitSt.emitClasses (act : BusAct C K σ) (fuel : Nat) (sub : C → C → Bool) (ec : C) (n : Nat) :
    List C → EmitSt C K σ → Option (EmitSt C K σ × Option PyErr)
  | [], s => some (s, none)
  | c :: cs, s =>
    match s.emitClass act fuel sub ec c with
    | none => none
    | some (s, some e) => some (s, some e)
    | some (s, none) =>
      if cs ≠ [] ∧ s.bus.length ≠ n then some (s, some .runtimeError)
      else EmitSt.emitClasses act fuel sub ec n cs s

/-- `bus.py:47-62` `emit`.  `none`: it does not return within the fuel. -/
def Bus.emitLive (act : BusAct C K σ) (fuel : Nat) (sub : C → C → Bool) (b : Bus C K) (ec : C) (st : σ) :
    Option (EmitSt C K σ × Option PyErr) :=
  EmitSt.emitClasses act fuel sub ec b.length (dkeys b) ⟨b, st, []⟩

end Jq
