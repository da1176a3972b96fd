import Verif.Spec.UserView
import Verif.Props.C29_Orders
import Verif.Props.C89_Portfolio
/-!
# C99: what a strategy reads

The attributes of `UserOrder`, `UserPosition` and `Portfolio`, by the names that a strategy writes, in terms of what was asked of `order()` and
what the gate reported.
-/
namespace Jq
variable {γ ν : Type} [PyNum ν]

/-! ## Orders -/

omit [PyNum ν] in
private theorem account_of {x : Ctx γ ν} {a : Acct γ ν} (hu : x.useAccount = true) (ha : x.acct = some a) : x.account = .ok a := by
  simp [Ctx.account, hu, ha]

/-- `get_orders()[id]` is the order of the account. -/
theorem orderAttr_find {udig : Char → Bool} {x : Ctx γ ν} {a : Acct γ ν} (hu : x.useAccount = true) (ha : x.acct = some a) (hw : a.WF)
    (id name : Str) : x.orderAttr udig id name = match a.find id with | some o => o.attr name | none => .error .keyError := by
  obtain ⟨d, hd, hiff⟩ := getOrders_all (udig := udig) hu ha hw
  have he : (dget d id).bind a.userOrder = a.find id := by
    cases h : dget d id with
    | some n => simp only [Option.bind_some, Acct.userOrder, Acct.find, (hiff id n).1 h]
    | none =>
      cases h' : dget a.orders id with
      | none => simp [Acct.find, h']
      | some n => rw [(hiff id n).2 h'] at h; cases h
  simp only [Ctx.orderAttr, hd, account_of hu ha, bind, Except.bind, he]
  cases a.find id <;> rfl

/-- Right after `order()` returned an id, all attributes of the order say what was asked, and those of the other orders are as before. -/
theorem c99_new_order (G : Gate γ ν) (udig : Char → Bool) (idn : Nat) (now : DT) (code : Str) (amount : AmtArg) (style : StyleArg ν) (side : SideArg)
    (x x' : Ctx γ ν) (a : Acct γ ν) (hu : x.useAccount = true) (ha : x.acct = some a) (hwf : a.WF) (id : Str)
    (h : x.order G udig idn now code amount style side = (x', .ok (some id))) :
    ∃ n st sd, ValidRequest udig code amount style side n st sd ∧ Reads (x'.orderAttr udig id) (newOrderTable id code n st now) ∧
      ∀ id' name, id' ≠ id → x'.orderAttr udig id' name = x.orderAttr udig id' name := by
  obtain ⟨b, n, st, sd, hxa, hv, rfl, hr⟩ := ctx_order_ok h
  rw [ha] at hxa
  injection hxa with hxa
  subst hxa
  have hw' := wf_order hwf G idn now code n st sd
  have hid : natStr idn = id := by
    rcases order_cases G idn now code n st sd a with ⟨g, e, _, h2⟩ | ⟨g, _, h2⟩
    · rw [h2] at hr; simp at hr
    · rw [h2] at hr; simpa using hr
  subst hid
  have hfind := fun id' => order_find hwf G idn now code n st sd id'
  have hread := fun id' name => orderAttr_find (udig := udig) (x := { x with acct := some (a.order G idn now code n st sd).1 }) hu rfl hw' id' name
  refine ⟨n, st, sd, hv, ?_, fun id' name hne => ?_⟩
  · intro e he
    rw [hread, hfind, if_pos rfl]
    simp only [newOrderTable, List.mem_cons, List.not_mem_nil, or_false] at he
    rcases he with rfl | rfl | rfl | rfl | rfl | rfl | rfl | rfl | rfl | rfl | rfl | rfl | rfl | rfl | rfl | rfl <;> try rfl
    show Except.ok (AttrVal.str (if n < 0 then Action.close else Action.opened).name) = _
    split <;> rfl
  · rw [hread, hfind, if_neg (fun e => hne e.symm), orderAttr_find hu ha hwf]

/-- After a synchronisation with a well-formed report, the attributes of every reported order say what the last entry with its id says.  (Not
claimed, see below: that the status can be read.) -/
theorem c99_synced_order_partial (G : Gate γ ν) (udig : Char → Bool) (x : Ctx γ ν) (a : Acct γ ν) (hu : x.useAccount = true)
    (hwf : a.WF) (g : γ) (l1 l2 : List (OrderInfo ν)) (i : OrderInfo ν)
    (hG : G.orders a.gate = (g, .ok (l1 ++ i :: l2))) (hw : WellFormedReport (l1 ++ i :: l2)) (hlast : ∀ j ∈ l2, j.orderId ≠ i.orderId) :
    let read := ({ x with acct := some (a.syncOrders G).1 } : Ctx γ ν).orderAttr udig
    ∃ id, i.orderId = some id ∧ read id c!"order_id" = .ok (.str id) ∧
      (∀ s, i.status = some s → s ≠ [] → read id c!"status" = .ok (.str s)) ∧
      read id c!"filled_amount" = .ok (.int (i.filled.getD 0)) ∧ read id c!"canceled_amount" = .ok (.int (i.canceled.getD 0)) ∧
      (∃ v, read id c!"deal_balance" = .ok (.num v) ∧ SameNum v (i.dealBalance.getD PyNum.zero)) ∧
      (∃ v, read id c!"commission" = .ok (.num v) ∧ SameNum v (i.commission.getD PyNum.zero)) ∧
      (i.avgCost = none → read id c!"avg_price" = .ok .none) ∧
      (∀ y, i.avgCost = some y → ∃ v, read id c!"avg_price" = .ok (.num v) ∧ SameNum v y) := by
  intro read
  obtain ⟨id, o, hid, hf, hs⟩ := c29_reported_present G a hwf g l1 l2 i hG hw hlast
  have hr : ∀ name, read id name = o.attr name := by
    intro name
    have := orderAttr_find (udig := udig) (x := { x with acct := some (a.syncOrders G).1 }) hu rfl (wf_syncOrders hwf G) id name
    rw [hf] at this
    exact this
  have hoid : o.orderId = id := by
    have := hs.hId
    rw [hid] at this
    exact (Option.some.inj this).symm
  refine ⟨id, hid, ?_, ?_, ?_, ?_, ⟨o.dealBalance, by rw [hr]; rfl, hs.hBalance⟩, ⟨o.commission, by rw [hr]; rfl, hs.hCommission⟩, ?_, ?_⟩
  · rw [hr, ← hoid]; rfl
  · intro s h1 h2
    rcases hs.hStatus with ⟨_, h3 | h3⟩ | ⟨t, h3, h4⟩
    · rw [h1] at h3; cases h3
    · rw [h1] at h3; exact absurd (Option.some.inj h3) h2
    · rw [h1] at h4
      rw [hr, Option.some.inj h4]
      show (needAttr o.status).map _ = _
      rw [h3]; rfl
  · rw [hr, ← hs.hFilled]; rfl
  · rw [hr, ← hs.hCanceled]; rfl
  · intro h1
    rcases hs.hCost with ⟨h2, _⟩ | ⟨_, y, _, h3, _⟩
    · rw [hr]; show Except.ok (AttrVal.opt AttrVal.num o.avgCost) = _; rw [h2]; rfl
    · rw [h1] at h3; cases h3
  · intro y h1
    rcases hs.hCost with ⟨_, h2⟩ | ⟨v, y', h2, h3, h4⟩
    · rw [h1] at h2; cases h2
    · rw [h1] at h3
      rw [Option.some.inj h3]
      exact ⟨v, by rw [hr]; show Except.ok (AttrVal.opt AttrVal.num o.avgCost) = _; rw [h2]; rfl, h4⟩

omit [PyNum ν] in
/-- Reading the attributes of an order: the sixteen names and no others; only `status` and `side` can fail, when the order has none. -/
theorem c99_readable (o : Order ν) (name : Str) :
    (∃ v, o.attr name = .ok v) ↔ name ∈ orderNames ∧ (name = c!"status" → o.status ≠ none) ∧ (name = c!"side" → o.side ≠ none) := by
  by_cases hm : name ∈ orderNames
  · simp only [orderNames, List.mem_cons, List.not_mem_nil, or_false] at hm
    have st : o.attr c!"status" = (needAttr o.status).map fun s => .str s.name := rfl
    have sd : o.attr c!"side" = (needAttr o.side).map fun s => .str s.name := rfl
    rcases hm with rfl | rfl | rfl | rfl | rfl | rfl | rfl | rfl | rfl | rfl | rfl | rfl | rfl | rfl | rfl | rfl
    all_goals first
      | exact ⟨fun _ => ⟨by decide, fun h => absurd h (by decide), fun h => absurd h (by decide)⟩, fun _ => ⟨_, rfl⟩⟩
      | (rw [st]
         cases h : o.status with
         | none => simp [needAttr, Except.map]
         | some s => simp [needAttr, Except.map, orderNames])
      | (rw [sd]
         cases h : o.side with
         | none => simp [needAttr, Except.map]
         | some s => simp [needAttr, Except.map, orderNames])
  · constructor
    · rintro ⟨v, h⟩
      exfalso
      have hk : dget (orderAttrs (ν := ν)) name = none := by
        apply (dget_eq_none _ _).2
        exact hm
      simp only [Order.attr, hk] at h
      cases h
    · exact fun h => absurd h.1 hm

/-! ## The portfolio -/

/-- The amounts of the portfolio are the last ones reported that count as true, in all complete reports so far. -/
theorem c99_cash (G : Gate γ ν) (x : Ctx γ ν) (a : Acct γ ν) (ops : List (AOp ν)) (hu : x.useAccount = true) (ha : x.acct = some (a.run G ops)) :
    Reads x.portfolioAttr
      [(c!"total_value", .num (lastTruthy a.total ((reports G a ops).map (·.1.total)))),
       (c!"available_cash", .num (lastTruthy a.avail ((reports G a ops).map (·.1.avail)))),
       (c!"locked_cash", .num (lastTruthy a.locked ((reports G a ops).map (·.1.locked))))] := by
  obtain ⟨h1, h2, h3⟩ := c89_cash G a ops
  intro e he
  simp only [List.mem_cons, List.not_mem_nil, or_false] at he
  simp only [Ctx.portfolioAttr, account_of hu ha, bind, Except.bind]
  rcases he with rfl | rfl | rfl
  · rw [← h1]; rfl
  · rw [← h2]; rfl
  · rw [← h3]; rfl

private theorem long_reads {x : Ctx γ ν} {a : Acct γ ν} (hu : x.useAccount = true) (ha : x.acct = some a) {dict : Str}
    (hd : dict = c!"long_positions" ∨ dict = c!"positions") (code name : Str) :
    x.positionAttr dict code name = (a.longPosition code).attr name := by
  simp only [Ctx.positionAttr, account_of hu ha, bind, Except.bind]
  rcases hd with rfl | rfl <;> rfl

private theorem short_reads {x : Ctx γ ν} {a : Acct γ ν} (hu : x.useAccount = true) (ha : x.acct = some a) (code name : Str) :
    x.positionAttr c!"short_positions" code name = (a.shortPosition code).attr name := by
  simp only [Ctx.positionAttr, account_of hu ha, bind, Except.bind]
  rfl

omit [PyNum ν] in
private theorem pos_reads {p q : Pos ν} {v : Int} (h : q = { p with avail := v }) : Reads q.attr (positionTable p v) := by
  subst h
  intro e he
  simp only [positionTable, List.mem_cons, List.not_mem_nil, or_false] at he
  rcases he with rfl | rfl | rfl | rfl | rfl | rfl | rfl | rfl | rfl | rfl <;> try rfl
  all_goals first
    | (show Except.ok (AttrVal.opt AttrVal.num p.lastPrice) = _; cases p.lastPrice <;> rfl)
    | (show Except.ok (AttrVal.opt AttrVal.num p.value) = _; cases p.value <;> rfl)

private theorem empty_reads (code : Str) (side : Side) : Reads (emptyPos code side : Pos ν).attr (notHeldTable code side.name) := by
  intro e he
  simp only [notHeldTable, List.mem_cons, List.not_mem_nil, or_false] at he
  rcases he with rfl | rfl | rfl | rfl | rfl | rfl | rfl | rfl | rfl | rfl <;> rfl

/-- The attributes of the positions in the course of time.  Until the first complete balance report nothing is held.  After it, a position says
what the last complete report says of it (its last entry for the code, before the first malformed entry), and the closeable amount of a long
position is less by what was successfully sold since; a code that is not in the report is not held. -/
theorem c99_positions (G : Gate γ ν) (g : γ) (ops : List (AOp ν)) (x : Ctx γ ν) (hu : x.useAccount = true)
    (ha : x.acct = some ((Acct.init g).run G ops)) :
    (reports G (Acct.init g) ops = [] ∧ ∀ code, Reads (x.positionAttr c!"long_positions" code) (notHeldTable code c!"long") ∧
      Reads (x.positionAttr c!"short_positions" code) (notHeldTable code c!"short")) ∨
    ∃ before after cash is ps, ops = before ++ .syncBalance :: after ∧ Complete (G.balance ((Acct.init g).run G before).gate).2 cash is ∧
      reports G ((Acct.init g).run G (before ++ [.syncBalance])) after = [] ∧ GoodPrefix is ps ∧
      ∀ code,
        (∀ p, reported ps .long code = some p → Reads (x.positionAttr c!"long_positions" code)
          (positionTable p (closeable p.avail (sells G code ((Acct.init g).run G (before ++ [.syncBalance])) after)))) ∧
        (reported ps .long code = none → Reads (x.positionAttr c!"long_positions" code) (notHeldTable code c!"long")) ∧
        (∀ p, reported ps .short code = some p → Reads (x.positionAttr c!"short_positions" code) (positionTable p p.avail)) ∧
        (reported ps .short code = none → Reads (x.positionAttr c!"short_positions" code) (notHeldTable code c!"short")) := by
  have hl := fun code => funext fun name => long_reads hu ha (.inl rfl) code name
  have hs := fun code => funext fun name => short_reads hu ha code name
  rcases c89_positions G g ops with ⟨h1, h2⟩ | ⟨before, after, cash, is, ps, h1, h2, h3, h4, h5⟩
  · refine .inl ⟨h1, fun code => ⟨?_, ?_⟩⟩
    · rw [hl, Acct.longPosition, (h2 code).1]; exact empty_reads code .long
    · rw [hs, Acct.shortPosition, (h2 code).2]; exact empty_reads code .short
  · refine .inr ⟨before, after, cash, is, ps, h1, h2, h3, h4, fun code => ⟨fun p hp => ?_, fun hp => ?_, fun p hp => ?_, fun hp => ?_⟩⟩
    · rw [hl, Acct.longPosition, (h5 code).1, hp]; exact pos_reads rfl
    · rw [hl, Acct.longPosition, (h5 code).1, hp]; exact empty_reads code .long
    · rw [hs, Acct.shortPosition, (h5 code).2, hp]; exact pos_reads rfl
    · rw [hs, Acct.shortPosition, (h5 code).2, hp]; exact empty_reads code .short

/-- `portfolio.positions` is `portfolio.long_positions`, always. -/
theorem c99_positions_are_long (x : Ctx γ ν) (code name : Str) :
    x.positionAttr c!"positions" code name = x.positionAttr c!"long_positions" code name := by
  simp only [Ctx.positionAttr]; rfl

/-- Without `use_account` nothing can be read. -/
theorem c99_refused (udig : Char → Bool) (x : Ctx γ ν) (hu : x.useAccount = false) (dict id code name : Str) :
    x.portfolioAttr name = .error .invalidCall ∧ x.positionAttr dict code name = .error .invalidCall ∧
    x.orderAttr udig id name = .error .invalidCall := by
  have h : x.account = .error .invalidCall := by simp [Ctx.account, hu]
  refine ⟨?_, ?_, ?_⟩
  · simp [Ctx.portfolioAttr, h, bind, Except.bind]
  · simp [Ctx.positionAttr, h, bind, Except.bind]
  · simp [Ctx.orderAttr, Ctx.getOrders, h, bind, Except.bind, checkOptCode, checkOptStatus, optStr]

/-! ## Where it fails -/

/-- A gate that reports an order of which it knows neither status nor style: `get_orders` shows it, and reading its status or side raises. -/
theorem c99_status_unreadable_refuted :
    let i : OrderInfo Int := { orderId := some c!"1", code := some c!"000001.XSHE", price := some 10, amount := some 100, action := some c!"open" }
    let a := ((Acct.init [[i]] : Acct _ Int).run reportGate [.syncOrders])
    let x : Ctx _ Int := ⟨true, some a⟩
    x.orderAttr (fun _ => false) c!"1" c!"amount" = .ok (.int 100) ∧
    x.orderAttr (fun _ => false) c!"1" c!"status" = .error .attributeError ∧
    x.orderAttr (fun _ => false) c!"1" c!"side" = .error .attributeError := by
  decide +kernel

/-- The side that is shown is `long`, whatever was asked. -/
theorem c99_side_refuted (G : Gate γ ν) (udig : Char → Bool) (idn : Nat) (now : DT) (code : Str) (amount : AmtArg) (style : StyleArg ν)
    (x x' : Ctx γ ν) (a : Acct γ ν) (hu : x.useAccount = true) (ha : x.acct = some a) (hwf : a.WF) (id : Str)
    (h : x.order G udig idn now code amount style (.str c!"short") = (x', .ok (some id))) : x'.orderAttr udig id c!"side" = .ok (.str c!"long") := by
  obtain ⟨n, st, sd, _, hr, _⟩ := c99_new_order G udig idn now code amount style (.str c!"short") x x' a hu ha hwf id h
  exact hr (c!"side", .str c!"long") (by simp [newOrderTable])

/-- A limit order to sell, read back. -/
example :
    let x : Ctx Unit Int := ⟨true, some (Acct.init ())⟩
    let x' := (x.order okGate (fun _ => false) 7 t0 c!"600000.XSHG" (.int (-50)) (.style (.limit 3)) (.str c!"short")).1
    (x.order okGate (fun _ => false) 7 t0 c!"600000.XSHG" (.int (-50)) (.style (.limit 3)) (.str c!"short")).2 = .ok (some c!"7") ∧
    x'.orderAttr (fun _ => false) c!"7" c!"action" = .ok (.str c!"close") ∧ x'.orderAttr (fun _ => false) c!"7" c!"amount" = .ok (.int 50) ∧
    x'.orderAttr (fun _ => false) c!"7" c!"nosuch" = .error .attributeError ∧ x'.orderAttr (fun _ => false) c!"8" c!"amount" = .error .keyError := by
  decide +kernel

/-- A report that an order is filled; 100 shares reported, 30 and 20 of them sold. -/
example :
    let x : Ctx _ Int := ⟨true, some ((Acct.init [[orderEntry c!"1" c!"filled" 100]] : Acct _ Int).run reportGate
      [.order 1 t0 c!"000001.XSHE" 100 (.limit 1) .long, .syncOrders])⟩
    let y : Ctx _ Int := ⟨true, some ((Acct.init () : Acct Unit Int).run
      (balGate ⟨some ⟨some 900, some 500, some 1⟩, some [posEntry c!"000001.XSHE" c!"long" 100 90, posEntry c!"9" c!"short" 5 5,
        { posEntry c!"3" c!"long" 2 2 with lastPrice := some 7, value := some 14 }]⟩)
      [.syncBalance, .order 2 t0 c!"000001.XSHE" (-30) (.market 0) .long, .order 3 t0 c!"000001.XSHE" (-20) (.market 0) .long])⟩
    x.orderAttr (fun _ => false) c!"1" c!"status" = .ok (.str c!"filled") ∧
    x.orderAttr (fun _ => false) c!"1" c!"filled_amount" = .ok (.int 100) ∧
    y.positionAttr c!"positions" c!"000001.XSHE" c!"total_amount" = .ok (.int 100) ∧
    y.positionAttr c!"positions" c!"000001.XSHE" c!"closeable_amount" = .ok (.int 40) ∧
    [c!"avg_cost", c!"price", c!"last_price", c!"value", c!"position_value"].map (y.positionAttr c!"long_positions" c!"3") =
      [.ok (.num 10), .ok (.num 7), .ok (.num 7), .ok (.num 14), .ok (.num 14)] ∧
    y.positionAttr c!"long_positions" c!"9" c!"total_amount" = .ok (.int 0) ∧
    y.positionAttr c!"short_positions" c!"9" c!"total_amount" = .ok (.int 5) ∧
    y.portfolioAttr c!"total_value" = .ok (.num 900) ∧ y.portfolioAttr c!"position_value" = .error .attributeError := by
  decide +kernel

end Jq
