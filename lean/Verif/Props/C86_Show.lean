import Verif.Lemmas.Show
import Verif.Props.C26_Positions
import Verif.Props.C29_Orders
/-! # C86, C87: printed objects and log lines -/
namespace Jq
variable {γ ν : Type}

/-! ## C86 -/

private theorem order_text_parts {num : ν → Str} {o : Order ν} {t : Str} (h : o.text num = .ok t) :
    ∃ st sd, o.status = some st ∧ o.side = some sd ∧ t = joinWith [','] [c!"UserOrder(order_id=" ++ o.orderId, c!" code=" ++ o.code,
      c!" amount=" ++ intStr o.amount, c!" style=" ++ (orNone (Style.text num) o.style ++ c!")"), c!" status=" ++ st.name,
      c!" action=" ++ o.action.name, c!" side=" ++ sd.name, c!" filled_amount=" ++ intStr o.filled,
      c!" avg_price=" ++ orNone num o.avgCost, c!" deal_balance=" ++ num o.dealBalance, c!" canceled_amount=" ++ intStr o.canceled,
      c!" create_time=" ++ orNone DT.iso o.createTime] := by
  unfold Order.text at h
  cases hs : o.status with
  | none => rw [hs] at h; cases h
  | some st =>
    cases hd : o.side with
    | none => rw [hs, hd] at h; cases h
    | some sd =>
      rw [hs, hd] at h
      refine ⟨st, sd, rfl, rfl, ?_⟩
      rw [← Except.ok.inj h]
      simp only [joinWith, List.append_assoc, List.cons_append, List.nil_append]

private theorem order_parts_commas {num : ν → Str} (hn : NumText num) (o : Order ν) (st : Status) (sd : Side) (hi : ',' ∉ o.orderId)
    (hc : ',' ∉ o.code) (ht : ∀ d, o.createTime = some d → d.valid = true) :
    ∀ p ∈ [c!"UserOrder(order_id=" ++ o.orderId, c!" code=" ++ o.code,
    c!" amount=" ++ intStr o.amount, c!" style=" ++ (orNone (Style.text num) o.style ++ c!")"), c!" status=" ++ st.name,
    c!" action=" ++ o.action.name, c!" side=" ++ sd.name, c!" filled_amount=" ++ intStr o.filled,
    c!" avg_price=" ++ orNone num o.avgCost, c!" deal_balance=" ++ num o.dealBalance, c!" canceled_amount=" ++ intStr o.canceled,
    c!" create_time=" ++ orNone DT.iso o.createTime], ',' ∉ p := by
  intro p hp
  have app : ∀ a b : Str, ',' ∉ a → ',' ∉ b → ',' ∉ a ++ b := fun a b ha hb => by simp [ha, hb]
  simp only [List.mem_cons, List.not_mem_nil, or_false] at hp
  rcases hp with rfl | rfl | rfl | rfl | rfl | rfl | rfl | rfl | rfl | rfl | rfl | rfl
  · exact app _ _ (by decide) hi
  · exact app _ _ (by decide) hc
  · exact app _ _ (by decide) (intStr_no_comma _)
  · exact app _ _ (by decide) (app _ _ (orNone_no_comma fun s _ => style_no_comma hn s) (by decide))
  · exact app _ _ (by decide) (status_no_comma _)
  · exact app _ _ (by decide) (action_no_comma _)
  · exact app _ _ (by decide) (side_no_comma _)
  · exact app _ _ (by decide) (intStr_no_comma _)
  · exact app _ _ (by decide) (orNone_no_comma fun s _ => hn.comma s)
  · exact app _ _ (by decide) (hn.comma _)
  · exact app _ _ (by decide) (intStr_no_comma _)
  · exact app _ _ (by decide) (orNone_no_comma fun s hs => iso_no_comma (ht s hs))

/-- A printed order says what the order is: two orders with the same text agree in everything that the text mentions, as long as ids and
codes have no commas. -/
theorem c86_order_text (num : ν → Str) (hn : NumText num) (o o' : Order ν) (t : Str) (h : o.text num = .ok t) (h' : o'.text num = .ok t)
    (hi : ',' ∉ o.orderId) (hi' : ',' ∉ o'.orderId) (hc : ',' ∉ o.code) (hc' : ',' ∉ o'.code)
    (ht : ∀ d, o.createTime = some d → d.valid = true) (ht' : ∀ d, o'.createTime = some d → d.valid = true) : SameShown o o' := by
  obtain ⟨st, sd, hs, hd, e⟩ := order_text_parts h
  obtain ⟨st', sd', hs', hd', e'⟩ := order_text_parts h'
  have hj := congrArg (splitOn ',') (e.symm.trans e')
  rw [splitOn_joinWith (by simp) (order_parts_commas hn o st sd hi hc ht), splitOn_joinWith (by simp) (order_parts_commas hn o' st' sd' hi' hc' ht')] at hj
  simp only [List.cons.injEq, and_true, List.append_cancel_left_eq, List.append_cancel_right_eq] at hj
  obtain ⟨e1, e2, e3, e4, e5, e6, e7, e8, e9, e10, e11, e12⟩ := hj
  exact ⟨e1, e2, intStr_inj e3,
    orNone_inj (fun _ _ _ _ h => style_inj hn h) (fun s _ => style_ne_none s) (fun s _ => style_ne_none s) e4,
    by rw [hs, hs', status_inj e5], action_inj e6, by rw [hd, hd', side_inj e7], intStr_inj e8,
    orNone_inj (fun _ _ _ _ h => hn.inj _ _ h) (fun s _ => hn.notNone s) (fun s _ => hn.notNone s) e9, hn.inj _ _ e10, intStr_inj e11,
    orNone_inj (fun a b ha hb h => iso_inj (ht a ha) (ht' b hb) h) (fun s h => iso_ne_none (ht s h)) (fun s h => iso_ne_none (ht' s h)) e12⟩

/-- The fourth part of a printed order names the class of the style: a market order says so, a limit order too, and an order without a style
says `None`. -/
theorem c86_style_named (num : ν → Str) (hn : NumText num) (o : Order ν) (t : Str) (h : o.text num = .ok t) (hi : ',' ∉ o.orderId)
    (hc : ',' ∉ o.code) (ht : ∀ d, o.createTime = some d → d.valid = true) :
    ∃ part, (splitOn ',' t)[3]? = some part ∧ (c!" style=MarketOrderStyle(" <+: part ↔ ∃ p, o.style = some (.market p)) ∧
      (c!" style=LimitOrderStyle(" <+: part ↔ ∃ p, o.style = some (.limit p)) ∧ (c!" style=None" <+: part ↔ o.style = none) := by
  obtain ⟨st, sd, hs, hd, rfl⟩ := order_text_parts h
  rw [splitOn_joinWith (by simp) (order_parts_commas hn o st sd hi hc ht)]
  refine ⟨_, rfl, ?_⟩
  rcases o.style with _ | ⟨p⟩ | ⟨p⟩ <;> simp [orNone, Style.text, List.cons_prefix_cons]

/-- Printing an order raises for exactly those without a status or without a side (which a report without a style makes), always an
`AttributeError`. -/
theorem c86_order_raises (num : ν → Str) (o : Order ν) (e : PyErr) :
    o.text num = .error e ↔ e = .attributeError ∧ (o.status = none ∨ o.side = none) := by
  unfold Order.text
  cases o.status with
  | none => exact ⟨fun h => ⟨(Except.error.inj h).symm, .inl rfl⟩, fun h => by rw [h.1]; rfl⟩
  | some st =>
    cases o.side with
    | none => exact ⟨fun h => ⟨(Except.error.inj h).symm, .inr rfl⟩, fun h => by rw [h.1]; rfl⟩
    | some sd => exact ⟨fun h => (by cases h), fun h => (by rcases h.2 with h | h <;> cases h)⟩

/-- An order reported with a status and a style can be printed. -/
theorem c86_reported_prints [PyNum ν] (num : ν → Str) (i : OrderInfo ν) (o : Order ν) (h : Order.load i = .ok o) :
    (∃ t, o.text num = .ok t) ↔ optStr i.status ≠ none ∧ optStyle i.style ≠ none := by
  have h1 : (∃ t, o.text num = .ok t) ↔ o.status ≠ none ∧ o.side ≠ none := by
    unfold Order.text
    cases o.status with
    | none => exact ⟨fun ⟨t, h⟩ => (by cases h), fun h => absurd rfl h.1⟩
    | some st =>
      cases o.side with
      | none => exact ⟨fun ⟨t, h⟩ => (by cases h), fun h => absurd rfl h.2⟩
      | some sd => exact ⟨fun _ => ⟨by simp, by simp⟩, fun _ => ⟨_, rfl⟩⟩
  have h2 : optParse Status.get (optStr i.status) = .ok o.status ∧
      (if (optStyle i.style).isSome then (Side.get (i.side.getD c!"long")).map some else .ok none) = (.ok o.side : Py (Option Side)) := by
    simp only [Order.load, bind, Except.bind, pure, Except.pure] at h
    repeat' (split at h <;> try cases h)
    all_goals (refine ⟨by assumption, ?_⟩; first | assumption | (rw [if_pos (by assumption)]; assumption) | rw [if_neg (by assumption)])
  rw [h1]
  have a1 : o.status ≠ none ↔ optStr i.status ≠ none := by
    cases hs : optStr i.status with
    | none => rw [hs] at h2; simp only [optParse, Except.ok.injEq] at h2; simp [← h2.1]
    | some s =>
      rw [hs] at h2
      simp only [optParse] at h2
      cases hg : Status.get s with
      | error e => rw [hg] at h2; cases h2.1
      | ok t => rw [hg] at h2; simp [← Except.ok.inj h2.1]
  have a2 : o.side ≠ none ↔ optStyle i.style ≠ none := by
    cases hs : optStyle i.style with
    | none => rw [hs] at h2; simp at h2; simp [← h2.2]
    | some s =>
      rw [hs] at h2
      have h2 := h2.2
      simp only [Option.isSome_some, if_true] at h2
      cases hg : Side.get (i.side.getD c!"long") with
      | error e => rw [hg] at h2; cases h2
      | ok t => rw [hg] at h2; simp [← Except.ok.inj h2]
  rw [a1, a2]

/-- Non-vacuity: what an order of 500 shares looks like, and a report without a style. -/
example : (newOrder (ν := Int) c!"17" ⟨2024, 3, 4, 9, 31, 0, 250⟩ c!"600000.XSHG" (-500) (.limit 12) : Order Int).text intStr =
      .ok c!"UserOrder(order_id=17, code=600000.XSHG, amount=500, style=LimitOrderStyle(price=12)), status=new, action=close, side=long, filled_amount=0, avg_price=None, deal_balance=0, canceled_amount=0, create_time=2024-03-04 09:31:00.000250" ∧
    NumText intStr ∧
    ∃ o : Order Int, Order.load (ν := Int) {
      code := some c!"600000.XSHG"
      price := some 12
      amount := some 100
      action := some c!"open"
      orderId := some c!"3"
      status := some c!"open" } = .ok o ∧ o.text intStr = .error .attributeError := by
  refine ⟨by decide +kernel, ⟨fun _ _ h => intStr_inj h, intStr_no_comma, fun x h => ?_⟩, ?_⟩
  · have : 'N' ∈ intStr x := by rw [h]; decide
    unfold intStr at this
    split at this
    · rcases List.mem_cons.1 this with h | h
      · exact absurd h (by decide)
      · exact natStr_not_mem _ (by decide) h
    · exact natStr_not_mem _ (by decide) this
  · exact ⟨_, rfl, rfl⟩

/-- A printed position says what the position is. -/
theorem c86_position_text (num : ν → Str) (hn : NumText num) (p p' : Pos ν) (h : p.text num = p'.text num) (hc : ',' ∉ p.code)
    (hc' : ',' ∉ p'.code) : p = p' := by
  have parts : ∀ p : Pos ν, p.text num = joinWith [','] [c!"UserPosition(security=" ++ p.code, c!" total_amount=" ++ intStr p.amount,
      c!" closeable_amount=" ++ intStr p.avail, c!" avg_cost=" ++ num p.avgCost, c!" side=" ++ p.side.name,
      c!" last_price=" ++ orNone num p.lastPrice, c!" position_value=" ++ (orNone num p.value ++ c!")")] := by
    intro p
    simp only [Pos.text, joinWith, List.append_assoc, List.cons_append, List.nil_append]
  have key : ∀ p : Pos ν, ',' ∉ p.code → ∀ q ∈ [c!"UserPosition(security=" ++ p.code, c!" total_amount=" ++ intStr p.amount,
      c!" closeable_amount=" ++ intStr p.avail, c!" avg_cost=" ++ num p.avgCost, c!" side=" ++ p.side.name,
      c!" last_price=" ++ orNone num p.lastPrice, c!" position_value=" ++ (orNone num p.value ++ c!")")], ',' ∉ q := by
    intro p hc q hq
    have app : ∀ a b : Str, ',' ∉ a → ',' ∉ b → ',' ∉ a ++ b := fun a b ha hb => by simp [ha, hb]
    simp only [List.mem_cons, List.not_mem_nil, or_false] at hq
    rcases hq with rfl | rfl | rfl | rfl | rfl | rfl | rfl
    · exact app _ _ (by decide) hc
    · exact app _ _ (by decide) (intStr_no_comma _)
    · exact app _ _ (by decide) (intStr_no_comma _)
    · exact app _ _ (by decide) (hn.comma _)
    · exact app _ _ (by decide) (side_no_comma _)
    · exact app _ _ (by decide) (orNone_no_comma fun s _ => hn.comma s)
    · exact app _ _ (by decide) (app _ _ (orNone_no_comma fun s _ => hn.comma s) (by decide))
  rw [parts p, parts p'] at h
  have hj := congrArg (splitOn ',') h
  rw [splitOn_joinWith (by simp) (key p hc), splitOn_joinWith (by simp) (key p' hc')] at hj
  simp only [List.cons.injEq, and_true, List.append_cancel_left_eq, List.append_cancel_right_eq] at hj
  obtain ⟨e1, e2, e3, e4, e5, e6, e7⟩ := hj
  have e2 := intStr_inj e2
  have e3 := intStr_inj e3
  have e4 := hn.inj _ _ e4
  have e5 := side_inj e5
  have e6 := orNone_inj (fun _ _ _ _ h => hn.inj _ _ h) (fun s _ => hn.notNone s) (fun s _ => hn.notNone s) e6
  have e7 := orNone_inj (fun _ _ _ _ h => hn.inj _ _ h) (fun s _ => hn.notNone s) (fun s _ => hn.notNone s) e7
  cases p; cases p'
  simp only at *
  simp [*]

/-- The time of an order at a whole second, and at another moment. -/
example : (⟨2024, 3, 4, 9, 31, 0, 0⟩ : DT).iso = c!"2024-03-04 09:31:00" ∧ (⟨987, 12, 31, 23, 59, 59, 999999⟩ : DT).iso = c!"0987-12-31 23:59:59.999999" := by
  decide +kernel

/-- Non-vacuity. -/
example : (⟨c!"600000.XSHG", 500, 300, 12, .long, none, some 6000⟩ : Pos Int).text intStr =
    c!"UserPosition(security=600000.XSHG, total_amount=500, closeable_amount=300, avg_cost=12, side=long, last_price=None, position_value=6000)" := by
  decide +kernel

/-- A printed portfolio shows the cash. -/
theorem c86_portfolio_cash_partial (num : ν → Str) (hn : NumText num) (quote address : Str → Str) (a a' : Acct γ ν)
    (h : a.portfolioText num quote address = a'.portfolioText num quote address) :
    a.total = a'.total ∧ a.avail = a'.avail ∧ a.locked = a'.locked := by
  have parts : ∀ a : Acct γ ν, ∃ rest, splitOn ',' (a.portfolioText num quote address) = (c!"Portfolio(total_assert=" ++ num a.total) ::
      (c!" available_assert=" ++ num a.avail) :: (c!" locked_cash=" ++ num a.locked) :: rest := by
    intro a
    have e : a.portfolioText num quote address = (c!"Portfolio(total_assert=" ++ num a.total) ++ ',' ::
        ((c!" available_assert=" ++ num a.avail) ++ ',' :: ((c!" locked_cash=" ++ num a.locked) ++ ',' ::
        (c!" long_positions=" ++ (objectsText quote address c!"UserPosition" (dkeys a.long) ++
        (c!", short_positions=" ++ objectsText quote address c!"UserPosition" (dkeys a.short)))))) := by
      simp only [Acct.portfolioText, List.append_assoc, List.cons_append, List.nil_append]
    have app : ∀ a b : Str, ',' ∉ a → ',' ∉ b → ',' ∉ a ++ b := fun a b ha hb => by simp [ha, hb]
    rw [e, splitOn_append (app _ _ (by decide) (hn.comma _)), splitOn_append (app _ _ (by decide) (hn.comma _)),
      splitOn_append (app _ _ (by decide) (hn.comma _))]
    exact ⟨_, rfl⟩
  obtain ⟨r, e⟩ := parts a
  obtain ⟨r', e'⟩ := parts a'
  rw [h, e'] at e
  simp only [List.cons.injEq, List.append_cancel_left_eq] at e
  exact ⟨(hn.inj _ _ e.1).symm, (hn.inj _ _ e.2.1).symm, (hn.inj _ _ e.2.2.1).symm⟩

/-- But not the positions: after half of a position was sold, and even after a synchronisation that reports other amounts, the portfolio prints
the same text (for the same addresses), because `UserPosition` has no `__repr__`. -/
theorem c86_portfolio_positions_refuted :
    ∃ (a b c : Acct Unit Int) (quote address : Str → Str),
      b = (a.step (balGate {}) (.order 1 t0 c!"600000.XSHG" (-50) (.limit 12) .long)).1 ∧
      c = (b.step (balGate ⟨some {}, some [posEntry c!"600000.XSHG" c!"long" 20 10]⟩) .syncBalance).1 ∧
      a.longPosition c!"600000.XSHG" = ⟨c!"600000.XSHG", 100, 100, 10, .long, none, none⟩ ∧
      b.longPosition c!"600000.XSHG" = ⟨c!"600000.XSHG", 100, 50, 10, .long, none, none⟩ ∧
      c.longPosition c!"600000.XSHG" = ⟨c!"600000.XSHG", 20, 10, 10, .long, none, none⟩ ∧
      b.portfolioText intStr quote address = a.portfolioText intStr quote address ∧
      c.portfolioText intStr quote address = a.portfolioText intStr quote address ∧
      a.portfolioText intStr quote address =
        c!"Portfolio(total_assert=0, available_assert=0, locked_cash=0, long_positions={'600000.XSHG': <jqtrade.account.api.UserPosition object at 0x7f>}, short_positions={}" :=
  ⟨((Acct.init () : Acct Unit Int).syncBalance (balGate ⟨some {}, some [posEntry c!"600000.XSHG" c!"long" 100 100]⟩)).1, _, _,
    fun s => c!"'" ++ s ++ c!"'", fun _ => c!"0x7f", rfl, rfl, by decide +kernel, by decide +kernel, by decide +kernel, by decide +kernel,
    by decide +kernel, by decide +kernel⟩

/-- A gate that reports one order with a given status. -/
def oneOrderGate (status : Str) : Gate Unit Int :=
  ⟨fun g _ => (g, .ok ()), fun g _ => (g, .ok ()), fun g => (g, .ok {}), fun g => (g, .ok [{
    code := some c!"600000.XSHG"
    price := some 12
    amount := some 100
    action := some c!"open"
    orderId := some c!"7"
    style := some (.name c!"limit")
    status := some status }])⟩

/-- Nor does the printed result of `get_orders()` show anything but the ids: an order that is open and an order that is filled look the same. -/
theorem c86_get_orders_refuted (quote address : Str → Str) :
    ∃ (a b : Acct Unit Int) (d d' : Dict Str Nat) (n m : Nat), a = ((Acct.init ()).step (oneOrderGate c!"open") .syncOrders).1 ∧
      b = (a.step (oneOrderGate c!"filled") .syncOrders).1 ∧
      (⟨true, some a⟩ : Ctx Unit Int).getOrders (fun _ => false) none none none = .ok d ∧
      (⟨true, some b⟩ : Ctx Unit Int).getOrders (fun _ => false) none none none = .ok d' ∧
      dget d c!"7" = some n ∧ dget d' c!"7" = some m ∧ (a.userOrder n).map (·.status) = some (some .opened) ∧
      (b.userOrder m).map (·.status) = some (some .filled) ∧ ordersText quote address d = ordersText quote address d' :=
  ⟨_, _, [(c!"7", 0)], [(c!"7", 1)], 0, 1, rfl, rfl, by decide +kernel, by decide +kernel, rfl, rfl, by decide +kernel, by decide +kernel, rfl⟩

private theorem parts_of (f : Str → Str) (c0 : Char) (hc : c0 ≠ ',') (ks : List Str) (hne : ks ≠ []) (h : ∀ k ∈ ks, ',' ∉ f k) :
    (splitOn ',' (c0 :: (joinWith c!", " (ks.map f) ++ c!"}"))).length = ks.length ∧
    ∀ i k, ks[i]? = some k → ∃ e,
      (splitOn ',' (c0 :: (joinWith c!", " (ks.map f) ++ c!"}")))[i]? = some ((if i = 0 then c0 else ' ') :: (f k ++ e)) := by
  induction ks generalizing c0 with
  | nil => exact absurd rfl hne
  | cons k ks ih =>
    have hk := h k (List.mem_cons_self ..)
    cases ks with
    | nil =>
      have e : splitOn ',' (c0 :: (joinWith c!", " ([k].map f) ++ c!"}")) = [c0 :: (f k ++ c!"}")] := by
        refine splitOn_not_mem ?_
        simp only [List.map_cons, List.map_nil, joinWith, List.mem_cons, List.mem_append, List.not_mem_nil, or_false, not_or]
        exact ⟨fun e => hc e.symm, hk, by decide⟩
      rw [e]
      refine ⟨rfl, fun i x hx => ?_⟩
      cases i with
      | zero =>
        injection hx with hx
        subst hx
        exact ⟨_, rfl⟩
      | succ i => simp at hx
    | cons k' ks =>
      have e : c0 :: (joinWith c!", " ((k :: k' :: ks).map f) ++ c!"}") =
          (c0 :: f k) ++ ',' :: (' ' :: (joinWith c!", " ((k' :: ks).map f) ++ c!"}")) := by
        simp only [List.map_cons, joinWith_cons]
        simp
      have hn : ',' ∉ c0 :: f k := by
        simp only [List.mem_cons, not_or]
        exact ⟨fun e => hc e.symm, hk⟩
      obtain ⟨h1, h2⟩ := ih ' ' (by decide) (by simp) (fun x hx => h x (List.mem_cons_of_mem _ hx))
      rw [e, splitOn_append hn]
      refine ⟨by simp only [List.length_cons] at h1 ⊢; omega, fun i x hx => ?_⟩
      cases i with
      | zero =>
        injection hx with hx
        subst hx
        exact ⟨[], by simp⟩
      | succ i =>
        obtain ⟨z, hz⟩ := h2 i x hx
        refine ⟨z, ?_⟩
        rw [List.getElem?_cons_succ, hz]
        simp

private theorem objects_names (quote address : Str → Str) (cls : Str) (hcls : ',' ∉ cls) (ks : List Str)
    (hc : ∀ k ∈ ks, ',' ∉ quote k ∧ ',' ∉ address k) : NamesKeys quote (objectsText quote address cls ks) ks := by
  refine ⟨fun h => by rw [h]; rfl, fun hne => ?_⟩
  obtain ⟨h1, h2⟩ := parts_of
    (fun k => quote k ++ c!": <jqtrade.account.api." ++ cls ++ c!" object at " ++ address k ++ c!">") '{' (by decide) ks hne
    (by
      intro k hk
      obtain ⟨a1, a2⟩ := hc k hk
      simp only [List.mem_append, not_or]
      exact ⟨⟨⟨⟨⟨a1, by decide⟩, hcls⟩, by decide⟩, a2⟩, by decide⟩)
  refine ⟨h1, fun i k he => ?_⟩
  obtain ⟨z, hz⟩ := h2 i k he
  refine ⟨c!"jqtrade.account.api." ++ cls ++ c!" object at " ++ address k ++ c!">" ++ z, ?_⟩
  refine Eq.trans hz ?_
  simp

/-- What it does show: one entry for each order, in the order in which `get_orders()` gives them, and each begins with the id. -/
theorem c86_get_orders_ids_partial (quote address : Str → Str) (d : Dict Str Nat) (hc : ∀ e ∈ d, ',' ∉ quote e.1 ∧ ',' ∉ address e.1) :
    NamesKeys quote (ordersText quote address d) (d.map (·.1)) := by
  refine objects_names quote address _ (by decide) _ fun k hk => ?_
  obtain ⟨e, he, rfl⟩ := List.mem_map.1 hk
  exact hc e he

/-- Likewise the portfolio: the codes of the long positions, and those of the short ones. -/
theorem c86_portfolio_codes_partial (num : ν → Str) (quote address : Str → Str) (a : Acct γ ν)
    (hc : ∀ e ∈ a.long ++ a.short, ',' ∉ quote e.1 ∧ ',' ∉ address e.1) :
    ∃ cash long short, a.portfolioText num quote address = cash ++ c!", long_positions=" ++ long ++ c!", short_positions=" ++ short ∧
      NamesKeys quote long (a.long.map (·.1)) ∧ NamesKeys quote short (a.short.map (·.1)) := by
  refine ⟨_, _, _, rfl, objects_names quote address _ (by decide) _ fun k hk => ?_, objects_names quote address _ (by decide) _ fun k hk => ?_⟩
  · obtain ⟨e, he, rfl⟩ := List.mem_map.1 hk
    exact hc e (List.mem_append_left _ he)
  · obtain ⟨e, he, rfl⟩ := List.mem_map.1 hk
    exact hc e (List.mem_append_right _ he)

example : let a : Acct Unit Int := ((Acct.init () : Acct Unit Int).syncBalance (balGate ⟨some {}, some [posEntry c!"600000.XSHG" c!"long" 100 100,
      posEntry c!"000001.XSHE" c!"long" 300 200, posEntry c!"000002.XSHE" c!"short" 5 5]⟩)).1
    let q : Str → Str := fun k => c!"'" ++ k ++ c!"'"
    (∀ e ∈ a.long ++ a.short, ',' ∉ q e.1 ∧ ',' ∉ (fun _ => c!"0x7f" : Str → Str) e.1) ∧
    (a.long.map (·.1), a.short.map (·.1)) = ([c!"600000.XSHG", c!"000001.XSHE"], [c!"000002.XSHE"]) ∧
    a.portfolioText intStr q (fun _ => c!"0x7f") = c!"Portfolio(total_assert=0, available_assert=0, locked_cash=0, long_positions={'600000.XSHG': <jqtrade.account.api.UserPosition object at 0x7f>, '000001.XSHE': <jqtrade.account.api.UserPosition object at 0x7f>}, short_positions={'000002.XSHE': <jqtrade.account.api.UserPosition object at 0x7f>}" := by
  decide +kernel

example : let q : Str → Str := fun k => c!"'" ++ k ++ c!"'"
    (∀ e ∈ [(c!"7", 0), (c!"12", 1)], ',' ∉ q e.1 ∧ ',' ∉ (fun _ => c!"0x7f" : Str → Str) e.1) ∧
    ordersText q (fun _ => c!"0x7f") [(c!"7", 0), (c!"12", 1)] =
      c!"{'7': <jqtrade.account.api.UserOrder object at 0x7f>, '12': <jqtrade.account.api.UserOrder object at 0x7f>}" := by decide +kernel

/-! ## C87 -/

/-- Sorting the records of the log as texts sorts them by time, whatever they say. -/
theorem c87_sorts_by_time (r s : LogRec) (hr : r.time.ok) (hs : s.time.ok) :
    (r.time.Before s.time → r.text < s.text) ∧ (r.text < s.text → r.time.Before s.time ∨ r.time = s.time) := by
  refine ⟨fun h => ?_, fun h => ?_⟩
  · simp only [LogRec.text, List.append_assoc, List.cons_append, List.nil_append]
    rw [cons_lt_same, full_lt hr hs]
    exact .inl h
  · simp only [LogRec.text, List.append_assoc, List.cons_append, List.nil_append] at h
    rw [cons_lt_same, full_lt hr hs] at h
    exact h.imp_right And.left

/-- The time of a record can be read from its text, whatever the message: it is the 26 characters after the bracket. -/
theorem c87_time_of_record (r : LogRec) (hr : r.time.ok) : parseDt (.str ((r.text.drop 1).take 26)) = .ok r.time := by
  have hl : r.time.full.length = 26 := by
    rw [DT.full, natStr_four _ hr.2 (by have := valid_fields hr.1; omega)]
    simp [two, six]
  have : (r.text.drop 1).take 26 = r.time.full := by
    simp only [LogRec.text, List.append_assoc, List.cons_append, List.nil_append, List.drop_succ_cons, List.drop_zero]
    rw [← hl, List.take_left']
    rfl
  rw [this]
  exact parseDtStr_full hr.1 hr.2

/-- But a line of the log need not begin with a time: the message of a record may have several lines (the exceptions that the account logs all
do), and a line of a message may look like another record. -/
theorem c87_line_forged_refuted : ∃ r s : LogRec, r.time.ok ∧ s.time.ok ∧ s.text ∈ splitOn '\n' r.text ∧ s.text ≠ r.text ∧
    s.time.Before r.time :=
  ⟨⟨⟨2024, 3, 4, 9, 31, 0, 0⟩, c!"ERROR", 12, c!"system.account",
      c!"error=x\n[2024-03-04 09:30:00.000000] [INFO] [12] [user] sold"⟩,
    ⟨⟨2024, 3, 4, 9, 30, 0, 0⟩, c!"INFO", 12, c!"user", c!"sold"⟩, ⟨by decide, by decide⟩, ⟨by decide, by decide⟩, by decide +kernel,
    by decide +kernel, .minute rfl rfl rfl rfl (by decide)⟩

/-- With messages of one line every line of the log is a record: the log read as lines is the list of records. -/
theorem c87_lines_are_records_partial (rs : List LogRec) (h : ∀ r ∈ rs, '\n' ∉ r.level ∧ '\n' ∉ r.name ∧ '\n' ∉ r.message ∧ r.time.ok)
    (hne : rs ≠ []) : splitOn '\n' (joinWith ['\n'] (rs.map LogRec.text)) = rs.map LogRec.text := by
  refine splitOn_joinWith (by simpa using hne) ?_
  intro p hp
  obtain ⟨r, hr, rfl⟩ := List.mem_map.1 hp
  obtain ⟨h1, h2, h3, h4⟩ := h r hr
  have app : ∀ a b : Str, '\n' ∉ a → '\n' ∉ b → '\n' ∉ a ++ b := fun a b ha hb => by simp [ha, hb]
  have hf : '\n' ∉ r.time.full := by
    have f := valid_fields h4.1
    have m := daysInMonth_le r.time.year r.time.month
    have t := fun n (hn : n < 100) => two_not_mem (c := '\n') hn (by decide)
    simp only [DT.full, List.mem_append, List.mem_cons, not_or]
    exact ⟨natStr_not_mem _ (by decide), by decide, t _ (by omega), by decide, t _ (by omega), by decide, t _ (by omega), by decide,
      t _ (by omega), by decide, t _ (by omega), by decide, six_not_mem (by omega) (by decide)⟩
  exact app _ _ (app _ _ (app _ _ (app _ _ (app _ _ (app _ _ (app _ _ (app _ _ (app _ _ (by decide) hf) (by decide)) h1) (by decide))
    (natStr_not_mem _ (by decide))) (by decide)) h2) (by decide)) h3

/-- Non-vacuity: two records of one second. -/
example : (⟨⟨2024, 3, 4, 9, 31, 0, 250⟩, c!"INFO", 12, c!"system", c!"run"⟩ : LogRec).text = c!"[2024-03-04 09:31:00.000250] [INFO] [12] [system] run" ∧
    DT.Before ⟨2024, 3, 4, 9, 31, 0, 250⟩ ⟨2024, 3, 4, 9, 31, 0, 1000⟩ ∧
    (⟨⟨2024, 3, 4, 9, 31, 0, 250⟩, c!"INFO", 12, c!"system", c!"z"⟩ : LogRec).text <
      (⟨⟨2024, 3, 4, 9, 31, 0, 1000⟩, c!"DEBUG", 12, c!"system", c!"a"⟩ : LogRec).text :=
  ⟨by decide +kernel, .us rfl rfl rfl rfl rfl rfl (by decide), by decide +kernel⟩

end Jq
