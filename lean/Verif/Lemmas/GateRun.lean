import Verif.Lemmas.TradeGate
set_option linter.unusedSectionVars false
/-! Histories of the account with the built-in trade gate. -/
namespace Jq

section Generic
variable {γ ν : Type} [PyNum ν]

theorem loadPositions_gate (ps : List (PosInfo ν)) (a : Acct γ ν) : (a.loadPositions ps).1.gate = a.gate := by
  induction ps generalizing a with
  | nil => rfl
  | cons i is ih =>
    simp only [Acct.loadPositions]
    split
    · rfl
    · rw [ih]; simp only [Acct.putPos]; split <;> rfl

theorem applyBalance_gate (i : BalInfo ν) (a : Acct γ ν) : (a.applyBalance i).1.gate = a.gate := by
  simp only [Acct.applyBalance]
  split
  · rfl
  · split
    · rfl
    · exact loadPositions_gate _ _

theorem mergeOrder_gate (i : OrderInfo ν) (a : Acct γ ν) : (a.mergeOrder i).1.gate = a.gate := by
  simp only [Acct.mergeOrder]
  split
  · rfl
  · split
    · rfl
    · split
      · rfl
      · split <;> rfl

theorem mergeOrders_gate (is : List (OrderInfo ν)) (a : Acct γ ν) : (a.mergeOrders is).1.gate = a.gate := by
  induction is generalizing a with
  | nil => rfl
  | cons i is ih =>
    simp only [Acct.mergeOrders]
    have h := mergeOrder_gate i a
    cases hm : a.mergeOrder i with
    | mk b r =>
      rw [hm] at h
      cases r with
      | error e => exact h
      | ok u => exact (ih b).trans h

theorem tryExcept_fst' {σ α : Type} (d : α) (r : σ × Py α) : (tryExcept d r).1 = r.1 := by
  obtain ⟨s, r⟩ := r; cases r <;> rfl

theorem syncBalance_gate (G : Gate γ ν) (a : Acct γ ν) : (a.syncBalance G).1.gate = (G.balance a.gate).1 := by
  simp only [Acct.syncBalance, tryExcept_fst', Acct.syncBalanceBody]
  cases hG : G.balance a.gate with
  | mk g r => cases r <;> simp [applyBalance_gate]

theorem syncOrders_gate (G : Gate γ ν) (a : Acct γ ν) : (a.syncOrders G).1.gate = (G.orders a.gate).1 := by
  simp only [Acct.syncOrders, tryExcept_fst', Acct.syncOrdersBody]
  cases hG : G.orders a.gate with
  | mk g r =>
    cases r with
    | error e => rfl
    | ok infos =>
      have h := mergeOrders_gate infos ({ a with gate := g } : Acct γ ν)
      simp only
      cases hm : Acct.mergeOrders infos ({ a with gate := g } : Acct γ ν) with
      | mk b r => rw [hm] at h; cases r <;> exact h

theorem order_gate (G : Gate γ ν) (idn : Nat) (now : DT) (code : Str) (amount : Int) (style : Style ν) (side : Side) (a : Acct γ ν) :
    (a.order G idn now code amount style side).1.gate = (G.order a.gate (newOrder (natStr idn) now code amount style)).1 := by
  rcases order_cases G idn now code amount style side a with ⟨g, e, h1, h2⟩ | ⟨g, h1, h2⟩
  · rw [h2, h1]
  · rw [h2, h1]; exact (onCreated_orders _ _).2.2.2.2.2

theorem cancel_gate (G : Gate γ ν) (id : Str) (a : Acct γ ν) :
    (a.cancel G id).1 = a ∨ (a.cancel G id).1 = { a with gate := (G.cancel a.gate id).1 } := by
  simp only [Acct.cancel, tryExcept_fst', Acct.cancelBody]
  split
  · exact .inr rfl
  · exact .inl rfl

end Generic

variable {ν : Type} [CellNum ν] [Store ν]

theorem ax_syncOrders_files (env : Env) (s : AX ν) {f : FileId} (h1 : f ≠ .data s.conf.dataDay) (h2 : f ≠ .tmp s.conf.dataDay) :
    (s.syncOrders env).1.files f = s.files f := by
  simp only [AX.syncOrders]
  split
  · split
    · rfl
    · rename_i t _
      have h := saveOrders_other s.conf.dataDay env t.book s.files h1 h2
      split <;> (rename_i hs; rw [hs] at h; exact h)
  · rfl

theorem ax_syncOrders_conf (env : Env) (s : AX ν) : (s.syncOrders env).1.conf = s.conf := by
  simp only [AX.syncOrders]
  split
  · split
    · rfl
    · split <;> rfl
  · rfl

theorem ax_order_conf (env : Env) (o : Order ν) (s : AX ν) : (s.order env o).1.conf = s.conf := by
  simp only [AX.order]
  split
  · rfl
  · split
    · rfl
    · simp only [AX.remember]; split <;> rfl

/-- An order whose code cannot be encoded is refused before anything is written. -/
theorem ax_order_badcode (env : Env) (s : AX ν) (now : DT) (id code : Str) (n : Int) (st : Style ν) {e : PyErr} (h : encodeSecurity code = .error e) :
    ∃ e, s.order env (newOrder id now code n st) = (s, .error e) := by
  have : ∃ e, orderFields s.conf env.now (newOrder id now code n st) = .error e := by
    simp only [orderFields, bind, Except.bind]
    split
    · exact ⟨_, rfl⟩
    · split
      · exact ⟨_, rfl⟩
      · split
        · exact ⟨_, rfl⟩
        · rw [show (newOrder id now code n st).code = code from rfl, h]
          exact ⟨_, rfl⟩
  obtain ⟨e, he⟩ := this
  exact ⟨e, by simp only [AX.order, he]⟩

/-- What stays the same in the gate from call to call. -/
theorem axg_step_static (a : Acct (AXG ν) ν) (op : AOp ν) :
    (a.step (axGate ν) op).1.gate.env = a.gate.env ∧ (a.step (axGate ν) op).1.gate.ax.conf = a.gate.ax.conf := by
  cases op with
  | order idn now code amount style side =>
    simp only [Acct.step, order_gate, axGate, AXG.next, ax_order_conf]; exact ⟨trivial, rfl⟩
  | cancel id =>
    simp only [Acct.step]
    rcases cancel_gate (axGate ν) id a with h | h <;> rw [h] <;> exact ⟨rfl, rfl⟩
  | syncBalance => simp only [Acct.step, syncBalance_gate]; exact ⟨rfl, rfl⟩
  | syncOrders => simp only [Acct.step, syncOrders_gate, axGate, AXG.next, ax_syncOrders_conf]; exact ⟨trivial, rfl⟩

end Jq
