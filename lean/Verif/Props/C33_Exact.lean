import Verif.Props.C29_Orders
/-!
# C33: exactly which orders survive being saved and loaded
-/
namespace Jq

/-- A datetime before the year 1000 is written with fewer than four digits and cannot be read back. -/
theorem parseDtStr_early (d : DT) (h : d.year < 1000) : parseDtStr d.full = .error .valueError := by
  have hy : fYear d.full = [] := by
    have hmem : '-' ∈ d.full.take 4 := by
      have hl : (natStr d.year).length ≤ 3 := by
        rw [natStr_eq]; split
        · simp
        · rw [natStr_eq]; split
          · simp
          · rw [natStr_eq, if_pos (by omega)]; simp
      rw [DT.full, List.take_append]
      refine List.mem_append.2 (.inr ?_)
      obtain ⟨k, hk⟩ : ∃ k, 4 - (natStr d.year).length = k + 1 := ⟨3 - (natStr d.year).length, by omega⟩
      rw [hk]; simp
    have hno : (d.full.take 4).all isDig = false := by
      rw [List.all_eq_false]; exact ⟨'-', hmem, by decide⟩
    rw [fYear, hno]; simp
  have hm : ∀ r, mDateTime r d.full = [] := by
    intro r
    show List.flatMap _ (fYear d.full) = []
    rw [hy]; rfl
  unfold parseDtStr
  split <;> (rw [strptime, hm]; rfl)

variable {ν : Type} [PyNum ν]

/-- **C33, exactly**: an order with a JSON form (its times are datetimes) is read back as it was if and only if it was
created and entrusted in the year 1000 or later and the price of its style is the price of the order. -/
theorem c33_exact (o : Order ν) (i : OrderInfo ν) (h : o.json = .ok i)
    (hc : ∀ d, o.createTime = some d → d.valid = true) (he : ∀ d, o.entrustTime = some d → d.valid = true) :
    Order.load i = .ok o ↔ (∀ d, o.createTime = some d → 1000 ≤ d.year) ∧ (∀ d, o.entrustTime = some d → 1000 ≤ d.year) ∧
      ∀ s, o.style = some s → s.price = o.price := by
  constructor
  · intro hl
    refine ⟨?_, ?_, ?_⟩
    · intro d hd
      refine Nat.le_of_not_lt fun hlt => ?_
      have hp := parseDtStr_early d hlt
      obtain ⟨code, price, amount, action, orderId, status, style, createTime, entrustTime, side, confirmId, filled, canceled,
        dealBalance, avgCost, commission, errMsg⟩ := o
      simp only at hd
      subst hd
      have hcr : i.createTime = some (.str d.full) := by
        simp only [Order.json, bind, Except.bind, pure, Except.pure, needAttr] at h
        repeat' (split at h <;> try cases h)
        rfl
      have : optParse parseDt (optDt i.createTime) = .error .valueError := by
        rw [hcr]
        have : optDt (some (.str d.full)) = some (.str d.full) := by
          simp only [optDt]
          split
          · rename_i e; simp only [Option.some.injEq, DtVal.str.injEq] at e; exact absurd e (full_ne_nil d)
          · rfl
        rw [this]; simp only [optParse, parseDt, hp, Except.map]
      simp only [Order.load, bind, Except.bind, this] at hl
      repeat' (split at hl <;> try cases hl)
    · intro d hd
      refine Nat.le_of_not_lt fun hlt => ?_
      have hp := parseDtStr_early d hlt
      have hcr : i.entrustTime = some (.str d.full) := by
        simp only [Order.json, bind, Except.bind, pure, Except.pure, needAttr] at h
        repeat' (split at h <;> try cases h)
        rw [hd]; rfl
      have : optParse parseDt (optDt i.entrustTime) = .error .valueError := by
        rw [hcr]
        have : optDt (some (.str d.full)) = some (.str d.full) := by
          simp only [optDt]
          split
          · rename_i e; simp only [Option.some.injEq, DtVal.str.injEq] at e; exact absurd e (full_ne_nil d)
          · rfl
        rw [this]; simp only [optParse, parseDt, hp, Except.map]
      simp only [Order.load, bind, Except.bind, this] at hl
      repeat' (split at hl <;> try cases hl)
    · intro s hs
      have : ∃ n, i.style = some (.name n) := by
        simp only [Order.json, bind, Except.bind, pure, Except.pure, needAttr] at h
        repeat' (split at h <;> try cases h)
        exact ⟨_, rfl⟩
      obtain ⟨n, hn⟩ := this
      exact c33_loaded_style_price i o n hn hl s hs
  · rintro ⟨h1, h2, h3⟩
    exact c33_round_trip o i h (fun d hd => ⟨hc d hd, h1 d hd⟩) (fun d hd => ⟨he d hd, h2 d hd⟩) h3

/-- Non-vacuity: one order that is read back, one of the year 999 that is not. -/
example : (∃ i, (newOrder c!"1" ⟨2024, 3, 4, 9, 31, 0, 0⟩ c!"000001.XSHE" 100 (.limit (1 : Int))).json = .ok i ∧
      Order.load i = .ok (newOrder c!"1" ⟨2024, 3, 4, 9, 31, 0, 0⟩ c!"000001.XSHE" 100 (.limit 1))) ∧
    (∃ i, (newOrder c!"1" ⟨999, 3, 4, 9, 31, 0, 0⟩ c!"000001.XSHE" 100 (.limit (1 : Int))).json = .ok i ∧
      Order.load i = .error .valueError) ∧ DT.valid ⟨999, 3, 4, 9, 31, 0, 0⟩ = true :=
  ⟨⟨_, rfl, by decide +kernel⟩, ⟨_, rfl, by decide +kernel⟩, by decide⟩

end Jq
