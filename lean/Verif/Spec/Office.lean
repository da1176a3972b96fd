import Verif.Model.Office
import Verif.Model.Persist
import Verif.Spec.OrderSync
import Verif.Spec.TradeGate
/-! Specification vocabulary for several tasks in one order directory (C91). -/
namespace Jq
variable {ν : Type}

/-- The second list is the first without some lines, all of which are of the kind `P`. -/
inductive Without (P : Str × Nat → Prop) : List (Str × Nat) → List (Str × Nat) → Prop
  | nil : Without P [] []
  | keep (l : Str × Nat) {ls ls' : List (Str × Nat)} : Without P ls ls' → Without P (l :: ls) (l :: ls')
  | drop {l : Str × Nat} {ls ls' : List (Str × Nat)} : P l → Without P ls ls' → Without P (l :: ls) ls'

/-- The line of the update file is about one of these orders. -/
def UpdateAbout (ids : Str → Prop) (l : Str × Nat) : Prop := ∃ id, ids id ∧ IsUpdateOf id l.1

/-- The line of the result file is about one of these orders. -/
def ResultAbout (ids : Str → Prop) (l : Str × Nat) : Prop := ∃ id, ids id ∧ ∃ t k s c m, lineKind 6 l.1 = .fields [t, k, id, s, c, m]

/-- The same file, or the same without some lines of the kind `P`; whole lines. -/
structure SameLines (P : Str × Nat → Prop) (c c' : Option Str) : Prop where
  there : c'.isSome = c.isSome
  whole : WholeLines (c.getD [])
  whole' : WholeLines (c'.getD [])
  lines : Without P (rawLines (c.getD [])) (rawLines (c'.getD []))

/-- What happens, and what of it happens when only task `t` is there: nothing that the other tasks do, and the broker may be silent about
the orders `others`, which task `t` never places. -/
inductive Alone (O : OfficeConf) (t : Nat) (others : Str → Prop) : List (OEv ν) → List (OEv ν) → Prop
  | nil : Alone O t others [] []
  | call {es es' : List (OEv ν)} (env : Env) (op : AOp ν) : env.day = O.day → (∀ id ∈ op.draws, ¬ others id) → Alone O t others es es' →
      Alone O t others (.call t env op :: es) (.call t env op :: es')
  | start {es es' : List (OEv ν)} (conf : AXConf) : conf.dataDay = O.day → Alone O t others es es' →
      Alone O t others (.start t conf :: es) (.start t conf :: es')
  | broker {es es' : List (OEv ν)} (r u r' u' : Str) : SameLines (ResultAbout others) (some r) (some r') →
      SameLines (UpdateAbout others) (some u) (some u') → Alone O t others es es' → Alone O t others (.broker r u :: es) (.broker r' u' :: es')
  | otherCall {es es' : List (OEv ν)} {j : Nat} (env : Env) (op : AOp ν) : j ≠ t → Alone O t others es es' →
      Alone O t others (.call j env op :: es) es'
  | otherStart {es es' : List (OEv ν)} {j : Nat} (conf : AXConf) : j ≠ t → Alone O t others es es' → Alone O t others (.start j conf :: es) es'

/-- The files are the same for task `t`: its data file, and what the broker has written about its orders. -/
structure SameFiles [Store ν] (O : OfficeConf) (t : Nat) (others : Str → Prop) (o o' : Office ν) : Prop where
  data : o'.data (dataFile O.dir (O.name t) O.day) = o.data (dataFile O.dir (O.name t) O.day)
  own : ∀ text (b : Book ν), o.data (dataFile O.dir (O.name t) O.day) = some text → Store.load text = some b → ∀ id ∈ dkeys b, ¬ others id
  results : SameLines (ResultAbout others) (o.shared (.results O.day)) (o'.shared (.results O.day))
  updates : SameLines (UpdateAbout others) (o.shared (.updates O.day)) (o'.shared (.updates O.day))

/-- The same account: orders, positions, cash, messages, and the same orders in the gate. -/
structure SameAccount (a a' : Acct (AXG ν) ν) : Prop where
  account : a' = { a with gate := a'.gate }
  book : a'.gate.ax.book = a.gate.ax.book
  conf : a'.gate.ax.conf = a.gate.ax.conf

/-- On the day, no disk filling up in mid-line, no amount of zero, not on Windows. -/
def OEv.Regular (O : OfficeConf) : OEv ν → Prop
  | .call _ env op => env.day = O.day ∧ (∀ e k, env.write ≠ .flush e k) ∧ ∀ idn now code n st sd, op = .order idn now code n st sd → n ≠ 0
  | .start _ conf => conf.win = false
  | .broker _ _ => True

/-- No task has on the day of `O'` the data file that task `t` has on the day of `O`, nor a temporary file of this name. -/
def OtherData (O : OfficeConf) (t : Nat) (O' : OfficeConf) : Prop :=
  ∀ i, dataFile O.dir (O.name t) O.day ≠ dataFile O'.dir (O'.name i) O'.day ∧
    dataFile O.dir (O.name t) O.day ≠ ((dataFile O'.dir (O'.name i) O'.day).1, (dataFile O'.dir (O'.name i) O'.day).2 ++ c!".tmp")

/-- The records that the events put into the order file: one for every order that has a code, if the gate is configured and the file can be
written; the task gets its id, unless the order book cannot be saved. -/
inductive Sent [CellNum ν] [Store ν] (O : OfficeConf) : Office ν → List (OEv ν) → List (List Str) → Prop
  | nil (o : Office ν) : Sent O o [] []
  | sent {o : Office ν} {es : List (OEv ν)} {new : List (List Str)} (i : Nat) (env : Env) (idn : Nat) (now : DT) (code : Str) (n : Int) (st : Style ν)
      (sd : Side) {enc : Str} {items : List Str} : encodeSecurity code = .ok enc → ¬ Unconfigured (o.task i).gate.ax.conf → env.write = .none →
      OrderRecord (o.task i).gate.ax.conf env.now (natStr idn) enc n st items →
      ((o.step O (.call i env (.order idn now code n st sd))).2 = .ok none ∨
        (o.step O (.call i env (.order idn now code n st sd))).2 = .ok (some (natStr idn))) →
      Sent O (o.step O (.call i env (.order idn now code n st sd))).1 es new → Sent O o (.call i env (.order idn now code n st sd) :: es) (items :: new)
  | nothing {o : Office ν} {e : OEv ν} {es : List (OEv ν)} {new : List (List Str)} :
      (∀ i env idn now code n st sd, e = .call i env (.order idn now code n st sd) →
        env.write ≠ .none ∨ Unconfigured (o.task i).gate.ax.conf ∨ ∀ enc, encodeSecurity code ≠ .ok enc) →
      (∀ id, (o.step O e).2 ≠ .ok (some id)) → Sent O (o.step O e).1 es new → Sent O o (e :: es) new

/-- The records that the events put into the cancel file: one for every cancel of an order that the task knows, if the file can be written. -/
inductive Withdrawn [CellNum ν] [Store ν] (O : OfficeConf) : Office ν → List (OEv ν) → List (List Str) → Prop
  | nil (o : Office ν) : Withdrawn O o [] []
  | cancel {o : Office ν} {es : List (OEv ν)} {new : List (List Str)} (i : Nat) (env : Env) (id : Str) : (o.task i).find id ≠ none → env.write = .none →
      Withdrawn O (o.step O (.call i env (.cancel id))).1 es new →
      Withdrawn O o (.call i env (.cancel id) :: es) ([env.now.hmsf, id] :: new)
  | nothing {o : Office ν} {e : OEv ν} {es : List (OEv ν)} {new : List (List Str)} :
      (∀ i env id, e = .call i env (.cancel id) → (o.task i).find id = none ∨ env.write ≠ .none) →
      Withdrawn O (o.step O e).1 es new → Withdrawn O o (e :: es) new

end Jq
