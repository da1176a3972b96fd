import Verif.Spec.Told
import Verif.Props.C29_Orders
/-! # C29, C30: exactly what an order synchronisation tells, and that one that brings nothing new changes nothing -/
namespace Jq
variable {γ ν : Type} [PyNum ν]

theorem pyEq_iff (r l : Order ν) : r.pyEq l = true ↔ r.SameState l := by
  simp only [Order.pyEq, Bool.and_eq_true, decide_eq_true_eq]
  have hc : optEqv r.avgCost l.avgCost = true ↔
      ((r.avgCost = none ∧ l.avgCost = none) ∨ ∃ x y, r.avgCost = some x ∧ l.avgCost = some y ∧ PyNum.eqv x y = true) := by
    cases r.avgCost <;> cases l.avgCost <;> simp [optEqv]
  constructor
  · rintro ⟨⟨⟨⟨⟨⟨h1, h2⟩, h3⟩, h4⟩, h5⟩, h6⟩, h7⟩
    exact ⟨h1, h2, h3, h4, h5, hc.1 h6, h7⟩
  · rintro ⟨h1, h2, h3, h4, h5, h6, h7⟩
    exact ⟨⟨⟨⟨⟨⟨h1, h2⟩, h3⟩, h4⟩, h5⟩, hc.2 h6⟩, h7⟩

omit [PyNum ν] in
private theorem unfinished_iff (l : Order ν) : Unfinished l.status ↔ l.hasFinished = false := by
  unfold Unfinished Order.hasFinished
  cases l.status with
  | none => simp
  | some s => cases s <;> simp [Status.finished]

omit [PyNum ν] in
/-- What is logged about a changed order. -/
private theorem notify_news (l r : Order ν) :
    (∃ k, News l.status r.status k ∧ notify l r = [⟨k, r.orderId⟩]) ∨ ((∀ k, ¬ News l.status r.status k) ∧ notify l r = []) := by
  have hu := unfinished_iff l
  unfold notify
  by_cases hne : l.status ≠ r.status
  · rw [if_pos hne]
    cases hr : r.status with
    | none => exact .inr ⟨fun k h => (by cases h), rfl⟩
    | some s =>
      rw [hr] at hne
      cases hf : l.hasFinished with
      | false =>
        have hu := hu.2 hf
        cases s <;> simp only
        · exact .inr ⟨fun k h => (by cases h), trivial⟩
        · by_cases hn : l.status = some .new
          · exact .inl ⟨_, .confirmed hn, by rw [if_neg (fun h => h hn)]⟩
          · exact .inr ⟨fun k h => (by cases h with | confirmed h => exact hn h), by rw [if_pos hn]⟩
        · exact .inl ⟨_, .partDeal hu, by simp⟩
        · exact .inl ⟨_, .deal hu, by simp⟩
        · exact .inl ⟨_, .canceling hu hne, by simp⟩
        · exact .inl ⟨_, .partlyCanceled hu, by simp⟩
        · exact .inl ⟨_, .canceled hu, by simp⟩
        · exact .inl ⟨_, .rejected hu, by simp⟩
      | true =>
        have hu : ¬ Unfinished l.status := fun h => by rw [hu.1 h] at hf; cases hf
        have hn : l.status ≠ some .new := by
          intro e; simp [Order.hasFinished, e, Status.finished] at hf
        right
        constructor
        · intro k h
          cases h with
          | confirmed h => exact hn h
          | partDeal h => exact hu h
          | deal h => exact hu h
          | canceling h => exact hu h
          | partlyCanceled h => exact hu h
          | canceled h => exact hu h
          | rejected h => exact hu h
        · cases s <;> simp [hn]
  · rw [if_neg hne]
    have hne : l.status = r.status := Classical.not_not.1 hne
    by_cases hf : r.status = some .filling
    · have hu : Unfinished l.status := by rw [hne, hf]; exact ⟨by decide, by decide, by decide, by decide⟩
      rw [if_pos hf]
      have hl := (unfinished_iff l).1 hu
      exact .inl ⟨.partDeal, by rw [hf]; exact .partDeal hu, by simp [hl, hf]⟩
    · rw [if_neg hf]
      refine .inr ⟨fun k h => ?_, rfl⟩
      rw [hne] at h
      generalize r.status = st at h hf
      cases h with
      | confirmed h => cases h
      | partDeal h => exact hf rfl
      | deal h => exact h.1 rfl
      | canceling h h' => exact h' rfl
      | partlyCanceled h => exact h.2.1 rfl
      | canceled h => exact h.2.2.1 rfl
      | rejected h => exact h.2.2.2 rfl

/-- Merging reports about other orders: nothing is told about this one, and it stays. -/
private theorem merge_others {infos : List (OrderInfo ν)} {a : Acct γ ν} (hwf : a.WF) (hw : WellFormedReport infos) {id : Str}
    (hid : ∀ i ∈ infos, i.orderId ≠ some id) :
    (a.mergeOrders infos).2 = .ok () ∧ (a.mergeOrders infos).1.find id = a.find id ∧ (a.mergeOrders infos).1.WF ∧
    ∃ ns, (a.mergeOrders infos).1.notes = a.notes ++ ns ∧ notesOf id ns = [] := by
  have h0 := mergeOrders_ok hw hwf
  refine ⟨h0.1, h0.2 id hid, wf_mergeOrders hwf, ?_⟩
  clear h0
  induction infos generalizing a with
  | nil => exact ⟨[], by simp [Acct.mergeOrders], rfl⟩
  | cons i is ih =>
    obtain ⟨⟨k, hk⟩, r, hr⟩ := hw i (by simp)
    have hok := (mergeOrder_find hwf hk hr).1
    obtain ⟨n1, h1, h2, _⟩ := mergeOrder_notes hwf i id
    have hwf' := wf_mergeOrder hwf i
    obtain ⟨n2, g1, g2⟩ := ih hwf' (fun j hj => hw j (by simp [hj])) (fun j hj => hid j (by simp [hj]))
    have e : a.mergeOrders (i :: is) = (a.mergeOrder i).1.mergeOrders is := by
      simp only [Acct.mergeOrders]
      cases hm : a.mergeOrder i with
      | mk b v => rw [hm] at hok; simp only at hok; subst hok; rfl
    rw [e]
    refine ⟨n1 ++ n2, by rw [g1, h1, List.append_assoc], ?_⟩
    have := notesOf_none h2 (hid i (by simp))
    simp only [notesOf, List.filter_append, List.append_eq_nil_iff] at *
    exact ⟨this, g2⟩

/-- Exactly what a synchronisation tells about an order that the account knows, when the report has one entry about it: if the entry says
nothing new, nothing; otherwise the news, if the change is any, and nothing else. -/
theorem c30_told_exactly (G : Gate γ ν) (a : Acct γ ν) (hwf : a.WF) (g : γ) (l1 l2 : List (OrderInfo ν)) (i : OrderInfo ν)
    (hG : G.orders a.gate = (g, .ok (l1 ++ i :: l2))) (hw : WellFormedReport (l1 ++ i :: l2)) (id : Str) (hid : i.orderId = some id)
    (hother : ∀ j ∈ l1 ++ l2, j.orderId ≠ some id) (r l : Order ν) (hr : Order.load i = .ok r) (hl : a.find id = some l) :
    ∃ ns, (a.syncOrders G).1.notes = a.notes ++ ns ∧
      ((∃ k, ¬ r.SameState l ∧ News l.status r.status k ∧ notesOf id ns = [⟨k, id⟩]) ∨
       ((r.SameState l ∨ ∀ k, ¬ News l.status r.status k) ∧ notesOf id ns = [])) := by
  have hro : r.orderId = id := by rw [load_orderId hr, hid]; rfl
  have hwf0 : ({ a with gate := g } : Acct γ ν).WF := wf_gate hwf g
  obtain ⟨ok1, f1, wf1, n1, e1, z1⟩ := merge_others (infos := l1) hwf0 (fun j hj => hw j (by simp [hj])) (id := id)
    (fun j hj => hother j (by simp [hj]))
  generalize hb : (({ a with gate := g } : Acct γ ν).mergeOrders l1).1 = b at f1 wf1 e1
  have hm := mergeOrder_find wf1 hid hr
  have hwf2 := wf_mergeOrder wf1 i
  obtain ⟨ok3, f3, wf3, n3, e3, z3⟩ := merge_others (infos := l2) hwf2 (fun j hj => hw j (by simp [hj])) (id := id)
    (fun j hj => hother j (by simp [hj]))
  have hall : ({ a with gate := g } : Acct γ ν).mergeOrders (l1 ++ i :: l2) = (b.mergeOrder i).1.mergeOrders l2 := by
    rw [mergeOrders_append _ _ _ ok1, hb]
    simp only [Acct.mergeOrders]
    cases hm' : b.mergeOrder i with
    | mk c v => rw [hm'] at hm; obtain ⟨hm, _⟩ := hm; simp only at hm; subst hm; rfl
  have hsync : (a.syncOrders G).1.notes = ((b.mergeOrder i).1.mergeOrders l2).1.notes := by
    simp only [Acct.syncOrders, tryExcept_fst, Acct.syncOrdersBody, hG, hall]
    cases (b.mergeOrder i).1.mergeOrders l2 with
    | mk c v => cases v <;> rfl
  have hf : b.find id = some l := f1.trans hl
  have hone : ∃ n2, (b.mergeOrder i).1.notes = b.notes ++ n2 ∧
      ((∃ k, ¬ r.SameState l ∧ News l.status r.status k ∧ n2 = [⟨k, id⟩]) ∨
       ((r.SameState l ∨ ∀ k, ¬ News l.status r.status k) ∧ n2 = [])) := by
    simp only [Acct.mergeOrder, hid, hr, hf]
    by_cases hs : r.SameState l
    · rw [if_pos ((pyEq_iff r l).2 hs)]
      exact ⟨[], by simp, .inr ⟨.inl hs, rfl⟩⟩
    · rw [if_neg (fun h => hs ((pyEq_iff r l).1 h))]
      refine ⟨notify l r, rfl, ?_⟩
      rcases notify_news l r with ⟨k, hk, e⟩ | ⟨hk, e⟩
      · exact .inl ⟨k, hs, hk, by rw [e, hro]⟩
      · exact .inr ⟨.inr hk, e⟩
  obtain ⟨n2, e2, h2⟩ := hone
  refine ⟨n1 ++ (n2 ++ n3), by rw [hsync, e3, e2, e1]; simp, ?_⟩
  have hz : notesOf id (n1 ++ (n2 ++ n3)) = notesOf id n2 := by
    simp only [notesOf, List.filter_append] at *
    rw [z1, z3]; simp
  rw [hz]
  rcases h2 with ⟨k, h2, h3, rfl⟩ | ⟨h2, rfl⟩
  · exact .inl ⟨k, h2, h3, by simp [notesOf]⟩
  · exact .inr ⟨h2, rfl⟩

/-- Non-vacuity: an order goes from new over open (told) and a partial fill (told twice) to cancelled with a rest (told). -/
example : (((Acct.init [[orderEntry c!"1" c!"open" 0], [orderEntry c!"1" c!"open" 0], [orderEntry c!"1" c!"filling" 30],
      [orderEntry c!"1" c!"filling" 60], [orderEntry c!"1" c!"canceling" 60], [orderEntry c!"1" c!"partly_canceled" 60]] : Acct _ Int).run reportGate
      [.order 1 t0 c!"000001.XSHE" 100 (.limit 1) .long, .syncOrders, .syncOrders, .syncOrders, .syncOrders, .syncOrders, .syncOrders]).notes)
      = [⟨.confirmed, c!"1"⟩, ⟨.partDeal, c!"1"⟩, ⟨.partDeal, c!"1"⟩, ⟨.canceling, c!"1"⟩, ⟨.canceled, c!"1"⟩] := by decide +kernel

/-- A synchronisation that brings nothing new changes nothing: no order object is replaced and nothing is told. -/
theorem c29_nothing_new (G : Gate γ ν) (a : Acct γ ν) (g : γ) (infos : List (OrderInfo ν)) (hG : G.orders a.gate = (g, .ok infos))
    (h : ∀ i ∈ infos, ∃ id r l, i.orderId = some id ∧ Order.load i = .ok r ∧ a.find id = some l ∧ r.SameState l) :
    (a.syncOrders G).1 = { a with gate := g, synced := true } := by
  have key : ∀ (infos : List (OrderInfo ν)) (b : Acct γ ν), (∀ i ∈ infos, ∃ id r l, i.orderId = some id ∧ Order.load i = .ok r ∧
      b.find id = some l ∧ r.SameState l) → b.mergeOrders infos = (b, .ok ()) := by
    intro infos
    induction infos with
    | nil => intro b _; rfl
    | cons i is ih =>
      intro b hb
      obtain ⟨id, r, l, h1, h2, h3, h4⟩ := hb i (by simp)
      have : b.mergeOrder i = (b, .ok ()) := by
        simp only [Acct.mergeOrder, h1, h2, h3]
        rw [if_pos ((pyEq_iff r l).2 h4)]
      simp only [Acct.mergeOrders, this]
      exact ih b (fun j hj => hb j (by simp [hj]))
  simp only [Acct.syncOrders, tryExcept_fst, Acct.syncOrdersBody, hG]
  rw [key infos _ (fun i hi => ?_)]
  obtain ⟨id, r, l, h1, h2, h3, h4⟩ := h i hi
  exact ⟨id, r, l, h1, h2, h3, h4⟩

private theorem same_refl (hrefl : ∀ x : ν, PyNum.eqv x x = true) (r : Order ν) : r.SameState r :=
  ⟨rfl, rfl, rfl, rfl, hrefl _, by cases h : r.avgCost with
    | none => exact .inl ⟨rfl, rfl⟩
    | some x => exact .inr ⟨x, x, rfl, rfl, hrefl x⟩, hrefl _⟩

private theorem told_gate (is : List (OrderInfo ν)) (a : Acct γ ν) : (a.mergeOrders is).1.gate = a.gate := by
  induction is generalizing a with
  | nil => rfl
  | cons i is ih =>
    have h : (a.mergeOrder i).1.gate = a.gate := by
      simp only [Acct.mergeOrder]
      repeat' split
      all_goals rfl
    simp only [Acct.mergeOrders]
    cases hm : a.mergeOrder i with
    | mk b v =>
      rw [hm] at h
      cases v with
      | error e => exact h
      | ok u => exact (ih b).trans h

/-- After a synchronisation with a report about different orders, a second one with the same report changes nothing (numbers being equal to
themselves, which NaN is not). -/
theorem c29_second_sync (hrefl : ∀ x : ν, PyNum.eqv x x = true) (G : Gate γ ν) (a : Acct γ ν) (hwf : a.WF) (g g' : γ)
    (infos : List (OrderInfo ν)) (hw : WellFormedReport infos) (hnd : (infos.map (·.orderId)).Nodup)
    (h1 : G.orders a.gate = (g, .ok infos)) (h2 : G.orders g = (g', .ok infos)) :
    ((a.syncOrders G).1.syncOrders G).1 = { (a.syncOrders G).1 with gate := g' } := by
  have key : ∀ (infos : List (OrderInfo ν)) (b : Acct γ ν), b.WF → WellFormedReport infos → (infos.map (·.orderId)).Nodup →
      ∀ i ∈ infos, ∃ id r l, i.orderId = some id ∧ Order.load i = .ok r ∧ (b.mergeOrders infos).1.find id = some l ∧ r.SameState l := by
    intro infos
    induction infos with
    | nil => intro b _ _ _ i hi; simp at hi
    | cons j js ih =>
      intro b hb hwj hn i hi
      rw [List.map_cons, List.nodup_cons] at hn
      obtain ⟨⟨id, hid⟩, r, hr⟩ := hwj j (by simp)
      have hm := mergeOrder_find hb hid hr
      have hb' := wf_mergeOrder hb j
      have hw' : WellFormedReport js := fun k hk => hwj k (by simp [hk])
      have e : b.mergeOrders (j :: js) = (b.mergeOrder j).1.mergeOrders js := by
        simp only [Acct.mergeOrders]
        cases hm' : b.mergeOrder j with
        | mk c v => rw [hm'] at hm; obtain ⟨hm, _⟩ := hm; simp only at hm; subst hm; rfl
      rw [e]
      rcases List.mem_cons.1 hi with rfl | hi
      · have hkeep := (mergeOrders_ok hw' hb').2 id (fun k hk e => hn.1 (by rw [hid, ← e]; exact List.mem_map_of_mem hk))
        have : ∃ l, (b.mergeOrder i).1.find id = some l ∧ r.SameState l := by
          simp only [Acct.mergeOrder, hid, hr]
          cases hf : b.find id with
          | none => exact ⟨r, by simp only; rw [find_putOrder hb, if_pos rfl], same_refl hrefl r⟩
          | some l =>
            simp only
            split
            · rename_i hq
              exact ⟨l, hf, (pyEq_iff r l).1 hq⟩
            · exact ⟨r, (find_congr (b := b.putOrder id r) rfl rfl _).trans (by rw [find_putOrder hb, if_pos rfl]), same_refl hrefl r⟩
        obtain ⟨l, hl1, hl2⟩ := this
        exact ⟨id, r, l, hid, hr, hkeep.trans hl1, hl2⟩
      · exact ih _ hb' hw' hn.2 i hi
  have hm := mergeOrders_ok hw (wf_gate hwf g)
  have hk := key infos _ (wf_gate hwf g) hw hnd
  have hg : ∀ (infos : List (OrderInfo ν)) (b : Acct γ ν), (b.mergeOrders infos).1.gate = b.gate := told_gate
  have hg := hg infos { a with gate := g }
  generalize hb : (({ a with gate := g } : Acct γ ν).mergeOrders infos).1 = b at hk hg
  have hgate : (a.syncOrders G).1 = { b with synced := true } := by
    simp only [Acct.syncOrders, tryExcept_fst, Acct.syncOrdersBody, h1]
    cases hq : ({ a with gate := g } : Acct γ ν).mergeOrders infos with
    | mk c v => rw [hq] at hm hb; obtain ⟨hm, _⟩ := hm; simp only at hm hb; subst hm; subst hb; rfl
  rw [hgate]
  rw [c29_nothing_new G { b with synced := true } g' infos (by simpa only [hg] using h2) (fun i hi => hk i hi)]

/-- Non-vacuity: a partial fill, reported twice. -/
example : ∃ a, a = (Acct.init [[orderEntry c!"1" c!"filling" 30, orderEntry c!"2" c!"open" 0], [orderEntry c!"1" c!"filling" 30, orderEntry c!"2" c!"open" 0]] : Acct _ Int).run reportGate [.order 1 t0 c!"000001.XSHE" 100 (.limit 1) .long, .syncOrders] ∧
    a.notes = [⟨.partDeal, c!"1"⟩] ∧ a.oheap.length = 3 ∧
    (a.syncOrders reportGate).1 = { a with gate := ([] : List (List (OrderInfo Int))) } := ⟨_, rfl, by decide +kernel⟩

/-- A money type with a value that is not equal to itself. -/
instance : PyNum (Option Int) := ⟨fun a b => a.isSome && b.isSome && decide (a = b), fun a => decide (a ≠ some 0), some 0⟩

/-- With NaN in a report the same partial fill is told again at every synchronisation. -/
theorem c30_nan_told_again_witness : ∃ (a : Acct (List (List (OrderInfo (Option Int)))) (Option Int)) (i : OrderInfo (Option Int)) (id : Str),
    i.orderId = some id ∧ i.status = some c!"filling" ∧ i.dealBalance = some none ∧
    (a.run ⟨fun g _ => (g, .ok ()), fun g _ => (g, .ok ()), fun g => (g, .ok {}), fun g => (g, .ok [i])⟩ [.syncOrders, .syncOrders, .syncOrders]).notes =
      [⟨.partDeal, id⟩, ⟨.partDeal, id⟩] :=
  ⟨Acct.init [], {
    code := some c!"000001.XSHE"
    price := some (some 1)
    amount := some 100
    action := some c!"open"
    orderId := some c!"1"
    status := some c!"filling"
    style := some (.name c!"limit")
    dealBalance := some none }, c!"1", rfl, rfl, rfl, by decide +kernel⟩

end Jq
