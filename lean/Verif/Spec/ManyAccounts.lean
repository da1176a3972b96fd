import Verif.Spec.Startup
/-! Specification vocabulary for accounts that were replaced by later calls of `set_options` (C83). -/
namespace Jq

variable {γ ν μ : Type} [PyNum ν]

/-- The two accounts are the same except that their gates are only related. -/
def SameBut (R : γ → γ → Prop) (a b : Acct γ ν) : Prop := R a.gate b.gate ∧ b = { a with gate := b.gate }

/-- Gates related by `R` cannot be told apart by what they answer to questions for the balance and the orders, and asking does not
change what a gate will answer. -/
structure PollingIsHarmless (G : Gate γ ν) (R : γ → γ → Prop) : Prop where
  symm : ∀ g h, R g h → R h g
  trans : ∀ g h k, R g h → R h k → R g k
  balance : ∀ g h, R g h → R (G.balance g).1 (G.balance h).1 ∧ (G.balance g).2 = (G.balance h).2
  orders : ∀ g h, R g h → R (G.orders g).1 (G.orders h).1 ∧ (G.orders g).2 = (G.orders h).2
  askBalance : ∀ g, R g g → R g (G.balance g).1
  askOrders : ∀ g, R g g → R g (G.orders g).1

/-- … nor by how they take orders and cancellations. -/
structure AskingIsHarmless (G : Gate γ ν) (R : γ → γ → Prop) : Prop extends PollingIsHarmless G R where
  order : ∀ g h o, R g h → R (G.order g o).1 (G.order h o).1 ∧ (G.order g o).2 = (G.order h o).2
  cancel : ∀ g h i, R g h → R (G.cancel g i).1 (G.cancel h i).1 ∧ (G.cancel g i).2 = (G.cancel h i).2

/-- What a program of the user sees of the gate is only what the gate answers. -/
def Prog.Blind (R : γ → γ → Prop) : Prog γ ν μ → Prop
  | .done _ _ => True
  | .call _ next => ∀ a b r, SameBut R a b → next ⟨true, some a⟩ r = next ⟨true, some b⟩ r ∧ (next ⟨true, some a⟩ r).Blind R

/-- … and so of all functions of the module. -/
def SeeAnswersOnly (R : γ → γ → Prop) (fns : Nat → μ → Ctx γ ν → Prog γ ν μ) : Prop :=
  ∀ f m (a b : Acct γ ν), SameBut R a b → fns f m ⟨true, some a⟩ = fns f m ⟨true, some b⟩ ∧ (fns f m ⟨true, some a⟩).Blind R

/-- The callbacks of the `k`-th account object. -/
def cbsOf (k : Nat) (needBalance needOrders : Bool) : List Cb :=
  (if needBalance then [.account (2 * k)] else []) ++ if needOrders then [.account (2 * k + 1)] else []

/-- The accounts that a process has made so far: those that were replaced and the one in use. -/
def StartSt.accounts (s : StartSt γ ν μ) : List (Acct γ ν) := s.olds ++ s.ctx.acct.toList

/-- What a synchronisation event calls after `process_initialize`: for each account object that got a timer, its methods; the objects
are numbered in the order in which they are made. -/
def InitProg.syncCalls (E : StartEnv γ ν) : InitProg γ ν μ → StartSt γ ν μ → List Cb
  | .done _ _, _ => []
  | .runDaily f t next, s => (next (s.strat.runDaily f t).2).syncCalls E { s with strat := (s.strat.runDaily f t).1 }
  | .setOptions o inp next, s =>
      match s.setOptions E o inp with
      | none => []
      | some (s', r) => (if r = .ok () ∧ s'.ctx.useAccount = true then cbsOf s.accounts.length (wantBalance E o) (wantOrders E o) else []) ++
          (next s'.ctx r).syncCalls E s'
  | .call c next, s => (next (s.ctx.call E.G E.udig c).1 (s.ctx.call E.G E.udig c).2).syncCalls E { s with ctx := (s.ctx.call E.G E.udig c).1 }

end Jq
