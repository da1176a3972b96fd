import Verif.Model.Api
import Verif.Lemmas.Dict
import Verif.Lemmas.Time
set_option linter.unusedSectionVars false
namespace Jq
variable {γ ν : Type}

/-! ## Invariant -/

/-- The dictionaries of the account refer to existing objects that carry their key. -/
structure Acct.WF (a : Acct γ ν) : Prop where
  ordersOk : DictOk a.orders
  orders : ∀ id n, dget a.orders id = some n → ∃ o, a.oheap[n]? = some o ∧ o.orderId = id
  longOk : DictOk a.long
  shortOk : DictOk a.short
  long : ∀ c n, dget a.long c = some n → ∃ p, a.pheap[n]? = some p ∧ p.code = c ∧ p.side = .long
  short : ∀ c n, dget a.short c = some n → ∃ p, a.pheap[n]? = some p ∧ p.code = c ∧ p.side = .short

theorem getElem?_append_some {α : Type} {l l' : List α} {n : Nat} {x : α} (h : l[n]? = some x) : (l ++ l')[n]? = some x := by
  have := (List.getElem?_eq_some_iff.1 h).1
  rw [List.getElem?_append_left this]; exact h

theorem wf_init [PyNum ν] (g : γ) : (Acct.init g : Acct γ ν).WF :=
  ⟨by simp [Acct.init, DictOk, dkeys], by simp [Acct.init], by simp [Acct.init, DictOk, dkeys], by simp [Acct.init, DictOk, dkeys],
    by simp [Acct.init], by simp [Acct.init]⟩

theorem wf_putOrder {a : Acct γ ν} (h : a.WF) {id : Str} {o : Order ν} (ho : o.orderId = id) : (a.putOrder id o).WF := by
  refine ⟨h.ordersOk.dset _ _, ?_, h.longOk, h.shortOk, h.long, h.short⟩
  intro id' n hn
  simp only [Acct.putOrder] at hn ⊢
  rw [dget_dset] at hn
  split at hn
  · rename_i e
    simp only [Option.some.injEq] at hn
    subst hn
    exact ⟨o, by simp, ho.trans e⟩
  · obtain ⟨o', h1, h2⟩ := h.orders id' n hn
    exact ⟨o', getElem?_append_some h1, h2⟩

theorem find_putOrder {a : Acct γ ν} (h : a.WF) (id : Str) (o : Order ν) (id' : Str) :
    (a.putOrder id o).find id' = if id = id' then some o else a.find id' := by
  simp only [Acct.putOrder, Acct.find, dget_dset]
  split
  · simp
  · cases hg : dget a.orders id' with
    | none => rfl
    | some n =>
      obtain ⟨o', h1, _⟩ := h.orders id' n hg
      simp only [Option.bind_some, h1]
      exact getElem?_append_some h1

theorem find_id {a : Acct γ ν} (h : a.WF) {id : Str} {o : Order ν} (hf : a.find id = some o) : o.orderId = id := by
  simp only [Acct.find, Option.bind_eq_some_iff] at hf
  obtain ⟨n, h1, h2⟩ := hf
  obtain ⟨o', h3, h4⟩ := h.orders id n h1
  rw [h2] at h3
  injection h3 with h3
  rw [h3]; exact h4

theorem find_isSome {a : Acct γ ν} (h : a.WF) (id : Str) : (a.find id).isSome ↔ id ∈ dkeys a.orders := by
  rw [mem_dkeys_iff]
  simp only [Acct.find]
  cases hg : dget a.orders id with
  | none => simp
  | some n =>
    obtain ⟨o, h1, _⟩ := h.orders id n hg
    simp [h1]

/-! ### Positions -/

theorem onCreated_code (p : Pos ν) (o : Order ν) : (p.onCreated o).code = p.code ∧ (p.onCreated o).side = p.side ∧
    (p.onCreated o).amount = p.amount ∧ (p.onCreated o).avgCost = p.avgCost := by
  simp only [Pos.onCreated]; split <;> simp

theorem modify_getElem? {α : Type} (l : List α) (i j : Nat) (f : α → α) :
    (l.modify i f)[j]? = if i = j then l[j]?.map f else l[j]? := by
  rw [List.getElem?_modify]
  split <;> simp

theorem wf_onCreated {a : Acct γ ν} (h : a.WF) (o : Order ν) : (a.onCreated o).WF := by
  simp only [Acct.onCreated]
  split
  · exact h
  · rename_i p hp
    refine ⟨h.ordersOk, h.orders, h.longOk, h.shortOk, ?_, ?_⟩
    · intro c n hn
      obtain ⟨q, h1, h2, h3⟩ := h.long c n hn
      simp only [modify_getElem?]
      split
      · exact ⟨q.onCreated o, by simp [h1], by rw [(onCreated_code q o).1, h2], by rw [(onCreated_code q o).2.1, h3]⟩
      · exact ⟨q, h1, h2, h3⟩
    · intro c n hn
      obtain ⟨q, h1, h2, h3⟩ := h.short c n hn
      simp only [modify_getElem?]
      split
      · exact ⟨q.onCreated o, by simp [h1], by rw [(onCreated_code q o).1, h2], by rw [(onCreated_code q o).2.1, h3]⟩
      · exact ⟨q, h1, h2, h3⟩

theorem wf_putPos {a : Acct γ ν} (h : a.WF) (p : Pos ν) : (a.putPos p).WF := by
  have ext : ∀ {d : Dict Str Nat} {s : Side}, (∀ c n, dget d c = some n → ∃ q, a.pheap[n]? = some q ∧ q.code = c ∧ q.side = s) →
      ∀ c n, dget d c = some n → ∃ q, (a.pheap ++ [p])[n]? = some q ∧ q.code = c ∧ q.side = s := by
    intro d s hd c n hn
    obtain ⟨q, h1, h2⟩ := hd c n hn
    exact ⟨q, getElem?_append_some h1, h2⟩
  have new : ∀ {d : Dict Str Nat} {s : Side}, p.side = s →
      (∀ c n, dget d c = some n → ∃ q, a.pheap[n]? = some q ∧ q.code = c ∧ q.side = s) →
      ∀ c n, dget (dset d p.code a.pheap.length) c = some n → ∃ q, (a.pheap ++ [p])[n]? = some q ∧ q.code = c ∧ q.side = s := by
    intro d s hs hd c n hn
    rw [dget_dset] at hn
    split at hn
    · rename_i e
      simp only [Option.some.injEq] at hn
      subst hn
      exact ⟨p, by simp, e, hs⟩
    · exact ext hd c n hn
  simp only [Acct.putPos]
  split
  · rename_i hs
    exact ⟨h.ordersOk, h.orders, h.longOk.dset _ _, h.shortOk, new hs h.long, ext h.short⟩
  · rename_i hs
    exact ⟨h.ordersOk, h.orders, h.longOk, h.shortOk.dset _ _, ext h.long, new hs h.short⟩

theorem wf_loadPositions {ps : List (PosInfo ν)} {a : Acct γ ν} (h : a.WF) : (a.loadPositions ps).1.WF := by
  induction ps generalizing a with
  | nil => exact h
  | cons i is ih =>
    simp only [Acct.loadPositions]
    split
    · exact h
    · exact ih (wf_putPos h _)

theorem wf_gate {a : Acct γ ν} (h : a.WF) (g : γ) : ({ a with gate := g } : Acct γ ν).WF :=
  ⟨h.ordersOk, h.orders, h.longOk, h.shortOk, h.long, h.short⟩

theorem wf_notes {a : Acct γ ν} (h : a.WF) (l : List Note) : ({ a with notes := l } : Acct γ ν).WF :=
  ⟨h.ordersOk, h.orders, h.longOk, h.shortOk, h.long, h.short⟩

theorem wf_synced {a : Acct γ ν} (h : a.WF) (l : Bool) : ({ a with synced := l } : Acct γ ν).WF :=
  ⟨h.ordersOk, h.orders, h.longOk, h.shortOk, h.long, h.short⟩

theorem tryExcept_fst {σ α : Type} (d : α) (r : σ × Py α) : (tryExcept d r).1 = r.1 := by
  obtain ⟨s, r⟩ := r; cases r <;> rfl

theorem tryExcept_ok {σ α : Type} (d : α) (r : σ × Py α) : ∃ a, (tryExcept d r).2 = .ok a := by
  obtain ⟨s, r⟩ := r; cases r <;> exact ⟨_, rfl⟩

variable [PyNum ν]

theorem wf_applyBalance {a : Acct γ ν} (h : a.WF) (info : BalInfo ν) : (a.applyBalance info).1.WF := by
  simp only [Acct.applyBalance]
  split
  · exact h
  · split
    · exact h
    · refine wf_loadPositions ⟨h.ordersOk, h.orders, ?_, ?_, ?_, ?_⟩ <;> simp [DictOk, dkeys]

theorem wf_syncBalance {a : Acct γ ν} (h : a.WF) (G : Gate γ ν) : (a.syncBalance G).1.WF := by
  simp only [Acct.syncBalance, tryExcept_fst, Acct.syncBalanceBody]
  split
  · exact wf_gate h _
  · exact wf_applyBalance (wf_gate h _) _

/-! ### Orders -/

theorem load_orderId {i : OrderInfo ν} {o : Order ν} (h : Order.load i = .ok o) : o.orderId = i.orderId.getD [] := by
  simp only [Order.load, bind, Except.bind, pure, Except.pure] at h
  repeat' (split at h <;> try cases h)
  all_goals rfl

theorem wf_mergeOrder {a : Acct γ ν} (h : a.WF) (i : OrderInfo ν) : (a.mergeOrder i).1.WF := by
  simp only [Acct.mergeOrder]
  split
  · exact h
  · rename_i id hid
    split
    · exact h
    · rename_i r hr
      have hro : r.orderId = id := by rw [load_orderId hr, hid]; rfl
      split
      · exact wf_putOrder h hro
      · split
        · exact h
        · exact wf_notes (wf_putOrder h hro) _

theorem wf_mergeOrders {is : List (OrderInfo ν)} {a : Acct γ ν} (h : a.WF) : (a.mergeOrders is).1.WF := by
  induction is generalizing a with
  | nil => exact h
  | cons i is ih =>
    simp only [Acct.mergeOrders]
    have := wf_mergeOrder h i
    cases hm : a.mergeOrder i with
    | mk a' r =>
      rw [hm] at this
      cases r with
      | error e => exact this
      | ok u => exact ih this

theorem wf_syncOrders {a : Acct γ ν} (h : a.WF) (G : Gate γ ν) : (a.syncOrders G).1.WF := by
  simp only [Acct.syncOrders, tryExcept_fst, Acct.syncOrdersBody]
  split
  · exact wf_gate h _
  · rename_i g infos _
    have := wf_mergeOrders (is := infos) (wf_gate h g)
    cases hm : Acct.mergeOrders infos ({ a with gate := g } : Acct γ ν) with
    | mk a' r =>
      rw [hm] at this
      cases r with
      | error e => exact this
      | ok u => exact wf_synced this _

/-- The order object made for a request. -/
def newOrder (id : Str) (now : DT) (code : Str) (amount : Int) (style : Style ν) : Order ν :=
  { code := code, price := style.price, amount := amount.natAbs, action := if amount < 0 then .close else .opened
    orderId := id, status := some .new, style := some style, createTime := some now, entrustTime := none
    side := some .long, confirmId := none, filled := 0, canceled := 0, dealBalance := PyNum.zero, avgCost := none
    commission := PyNum.zero, errMsg := [] }

theorem load_newOrderInfo (id : Str) (now : DT) (code : Str) (amount : Int) (style : Style ν) :
    Order.load (newOrderInfo id now code amount style) = .ok (newOrder id now code amount style) := by
  by_cases h : amount < 0
  · simp only [newOrderInfo, newOrder, if_pos h]; rfl
  · simp only [newOrderInfo, newOrder, if_neg h]; rfl

/-- The cases of `Account.order`. -/
theorem order_cases (G : Gate γ ν) (idn : Nat) (now : DT) (code : Str) (amount : Int) (style : Style ν) (side : Side)
    (a : Acct γ ν) :
    (∃ g e, G.order a.gate (newOrder (natStr idn) now code amount style) = (g, .error e) ∧
      a.order G idn now code amount style side =
        ({ a.putOrder (natStr idn) (newOrder (natStr idn) now code amount style) with gate := g }, .ok none)) ∨
    (∃ g, G.order a.gate (newOrder (natStr idn) now code amount style) = (g, .ok ()) ∧
      a.order G idn now code amount style side =
        (({ a.putOrder (natStr idn) (newOrder (natStr idn) now code amount style) with gate := g } : Acct γ ν).onCreated
          (newOrder (natStr idn) now code amount style), .ok (some (natStr idn)))) := by
  simp only [Acct.order, load_newOrderInfo, Acct.orderBody]
  have : (a.putOrder (natStr idn) (newOrder (natStr idn) now code amount style)).gate = a.gate := rfl
  rw [this]
  cases hG : G.order a.gate (newOrder (natStr idn) now code amount style) with
  | mk g r =>
    cases r with
    | error e => exact .inl ⟨g, e, rfl, rfl⟩
    | ok u => exact .inr ⟨g, rfl, rfl⟩

theorem wf_order {a : Acct γ ν} (h : a.WF) (G : Gate γ ν) (idn : Nat) (now : DT) (code : Str) (amount : Int)
    (style : Style ν) (side : Side) : (a.order G idn now code amount style side).1.WF := by
  rcases order_cases G idn now code amount style side a with ⟨g, e, _, h2⟩ | ⟨g, _, h2⟩ <;> rw [h2]
  · exact wf_gate (wf_putOrder h rfl) g
  · exact wf_onCreated (wf_gate (wf_putOrder h rfl) g) _

theorem wf_cancel {a : Acct γ ν} (h : a.WF) (G : Gate γ ν) (id : Str) : (a.cancel G id).1.WF := by
  simp only [Acct.cancel, tryExcept_fst, Acct.cancelBody]; split
  · exact wf_gate h _
  · exact h

theorem wf_step {a : Acct γ ν} (h : a.WF) (G : Gate γ ν) (op : AOp ν) : (a.step G op).1.WF := by
  cases op with
  | order idn now code amount style side => exact wf_order h G idn now code amount style side
  | cancel id => exact wf_cancel h G id
  | syncBalance => exact wf_syncBalance h G
  | syncOrders => exact wf_syncOrders h G

theorem wf_run {a : Acct γ ν} (h : a.WF) (G : Gate γ ν) (ops : List (AOp ν)) : (a.run G ops).WF := by
  induction ops generalizing a with
  | nil => exact h
  | cons op ops ih => exact ih (wf_step h G op)

/-! ### What operations leave alone -/

theorem onCreated_orders (a : Acct γ ν) (o : Order ν) : (a.onCreated o).oheap = a.oheap ∧ (a.onCreated o).orders = a.orders ∧
    (a.onCreated o).long = a.long ∧ (a.onCreated o).short = a.short ∧ (a.onCreated o).notes = a.notes ∧ (a.onCreated o).gate = a.gate := by
  simp only [Acct.onCreated]; split <;> simp

theorem find_congr {a b : Acct γ ν} (h1 : a.oheap = b.oheap) (h2 : a.orders = b.orders) (id : Str) : a.find id = b.find id := by
  simp [Acct.find, h1, h2]

theorem putPos_orders (a : Acct γ ν) (p : Pos ν) : (a.putPos p).oheap = a.oheap ∧ (a.putPos p).orders = a.orders ∧
    (a.putPos p).notes = a.notes ∧ (a.putPos p).pheap = a.pheap ++ [p] := by
  simp only [Acct.putPos]; split <;> simp

theorem loadPositions_orders (ps : List (PosInfo ν)) (a : Acct γ ν) : (a.loadPositions ps).1.oheap = a.oheap ∧
    (a.loadPositions ps).1.orders = a.orders ∧ (a.loadPositions ps).1.notes = a.notes ∧ a.pheap <+: (a.loadPositions ps).1.pheap := by
  induction ps generalizing a with
  | nil => exact ⟨rfl, rfl, rfl, List.prefix_refl _⟩
  | cons i is ih =>
    simp only [Acct.loadPositions]
    split
    · exact ⟨rfl, rfl, rfl, List.prefix_refl _⟩
    · rename_i p _
      obtain ⟨h1, h2, h3, h4⟩ := ih (a.putPos p)
      obtain ⟨g1, g2, g3, g4⟩ := putPos_orders a p
      exact ⟨h1.trans g1, h2.trans g2, h3.trans g3, (g4 ▸ List.prefix_append _ _ : a.pheap <+: (a.putPos p).pheap).trans h4⟩

theorem syncBalance_orders (G : Gate γ ν) (a : Acct γ ν) : (a.syncBalance G).1.oheap = a.oheap ∧
    (a.syncBalance G).1.orders = a.orders ∧ (a.syncBalance G).1.notes = a.notes ∧ a.pheap <+: (a.syncBalance G).1.pheap := by
  simp only [Acct.syncBalance, tryExcept_fst, Acct.syncBalanceBody, Acct.applyBalance]
  split
  · exact ⟨rfl, rfl, rfl, List.prefix_refl _⟩
  · split
    · exact ⟨rfl, rfl, rfl, List.prefix_refl _⟩
    · split
      · exact ⟨rfl, rfl, rfl, List.prefix_refl _⟩
      · exact loadPositions_orders _ _

theorem mergeOrder_pos (i : OrderInfo ν) (a : Acct γ ν) : (a.mergeOrder i).1.pheap = a.pheap ∧
    (a.mergeOrder i).1.long = a.long ∧ (a.mergeOrder i).1.short = a.short ∧ a.oheap <+: (a.mergeOrder i).1.oheap := by
  simp only [Acct.mergeOrder]
  split
  · exact ⟨rfl, rfl, rfl, List.prefix_refl _⟩
  · split
    · exact ⟨rfl, rfl, rfl, List.prefix_refl _⟩
    · split
      · exact ⟨rfl, rfl, rfl, List.prefix_append _ _⟩
      · split
        · exact ⟨rfl, rfl, rfl, List.prefix_refl _⟩
        · exact ⟨rfl, rfl, rfl, List.prefix_append _ _⟩

theorem mergeOrders_pos (is : List (OrderInfo ν)) (a : Acct γ ν) : (a.mergeOrders is).1.pheap = a.pheap ∧
    (a.mergeOrders is).1.long = a.long ∧ (a.mergeOrders is).1.short = a.short ∧ a.oheap <+: (a.mergeOrders is).1.oheap := by
  induction is generalizing a with
  | nil => exact ⟨rfl, rfl, rfl, List.prefix_refl _⟩
  | cons i is ih =>
    simp only [Acct.mergeOrders]
    have := mergeOrder_pos i a
    cases hm : a.mergeOrder i with
    | mk a' r =>
      rw [hm] at this
      cases r with
      | error e => exact this
      | ok u =>
        obtain ⟨h1, h2, h3, h4⟩ := ih a'
        exact ⟨h1.trans this.1, h2.trans this.2.1, h3.trans this.2.2.1, this.2.2.2.trans h4⟩

theorem syncOrders_pos (G : Gate γ ν) (a : Acct γ ν) : (a.syncOrders G).1.pheap = a.pheap ∧
    (a.syncOrders G).1.long = a.long ∧ (a.syncOrders G).1.short = a.short ∧ a.oheap <+: (a.syncOrders G).1.oheap := by
  simp only [Acct.syncOrders, tryExcept_fst, Acct.syncOrdersBody]
  split
  · exact ⟨rfl, rfl, rfl, List.prefix_refl _⟩
  · rename_i g infos _
    have := mergeOrders_pos infos ({ a with gate := g } : Acct γ ν)
    cases hm : Acct.mergeOrders infos ({ a with gate := g } : Acct γ ν) with
    | mk a' r =>
      rw [hm] at this
      cases r with
      | error e => exact this
      | ok u => exact this

theorem cancel_fields (G : Gate γ ν) (id : Str) (a : Acct γ ν) : (a.cancel G id).1.oheap = a.oheap ∧ (a.cancel G id).1.orders = a.orders ∧
    (a.cancel G id).1.pheap = a.pheap ∧ (a.cancel G id).1.long = a.long ∧ (a.cancel G id).1.short = a.short ∧ (a.cancel G id).1.notes = a.notes := by
  simp only [Acct.cancel, tryExcept_fst, Acct.cancelBody]; split <;> simp

theorem order_oheap (G : Gate γ ν) (idn : Nat) (now : DT) (code : Str) (amount : Int) (style : Style ν) (side : Side)
    (a : Acct γ ν) : a.oheap <+: (a.order G idn now code amount style side).1.oheap ∧
    (a.order G idn now code amount style side).1.long = a.long ∧ (a.order G idn now code amount style side).1.short = a.short ∧
    (a.order G idn now code amount style side).1.notes = a.notes := by
  rcases order_cases G idn now code amount style side a with ⟨g, e, _, h2⟩ | ⟨g, _, h2⟩ <;> rw [h2]
  · exact ⟨List.prefix_append _ _, rfl, rfl, rfl⟩
  · have := onCreated_orders ({ a.putOrder (natStr idn) (newOrder (natStr idn) now code amount style) with gate := g } : Acct γ ν)
      (newOrder (natStr idn) now code amount style)
    exact ⟨this.1 ▸ List.prefix_append _ _, this.2.2.1, this.2.2.2.1, this.2.2.2.2.1⟩

/-- The orders after `order`, accepted or not. -/
theorem order_find {a : Acct γ ν} (h : a.WF) (G : Gate γ ν) (idn : Nat) (now : DT) (code : Str) (amount : Int) (style : Style ν)
    (side : Side) (id : Str) : (a.order G idn now code amount style side).1.find id =
      if natStr idn = id then some (newOrder (natStr idn) now code amount style) else a.find id := by
  rw [← find_putOrder h]
  rcases order_cases G idn now code amount style side a with ⟨g, e, _, h2⟩ | ⟨g, _, h2⟩ <;> rw [h2]
  · exact find_congr rfl rfl id
  · exact find_congr (onCreated_orders _ _).1 (onCreated_orders _ _).2.1 id

/-- Order objects are never changed: the heap only grows. -/
theorem step_oheap (G : Gate γ ν) (a : Acct γ ν) (op : AOp ν) : a.oheap <+: (a.step G op).1.oheap := by
  cases op with
  | order idn now code amount style side => exact (order_oheap G idn now code amount style side a).1
  | cancel id => exact (cancel_fields G id a).1 ▸ List.prefix_refl _
  | syncBalance => exact (syncBalance_orders G a).1 ▸ List.prefix_refl _
  | syncOrders => exact (syncOrders_pos G a).2.2.2

theorem run_oheap (G : Gate γ ν) (a : Acct γ ν) (ops : List (AOp ν)) : a.oheap <+: (a.run G ops).oheap := by
  induction ops generalizing a with
  | nil => exact List.prefix_refl _
  | cons op ops ih => exact (step_oheap G a op).trans (ih _)

theorem getElem?_of_prefix {α : Type} {l l' : List α} (h : l <+: l') {n : Nat} {x : α} (hx : l[n]? = some x) : l'[n]? = some x := by
  obtain ⟨t, rfl⟩ := h
  exact getElem?_append_some hx

end Jq
