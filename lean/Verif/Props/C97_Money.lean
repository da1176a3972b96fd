import Verif.Lemmas.Shortest
import Verif.Props.C35_Exact
import Verif.Props.C36_OrderSync
import Verif.Props.C46_Balance
import Verif.Props.C61_DataFile
/-! # C97: prices and money to the last digit -/
namespace Jq

/-! ### `float(text)` and `repr` -/

/-- `float(text)` of a decimal number is the double nearest to it, of two the even one; from 2^1024 on infinite. -/
theorem c97_float (s b : Str) (neg : Bool) (d : Nat) (e : Int) (hs : SignOf s neg b) (hd : DecText b d e) :
    ∃ n, IsNearest (d * 10 ^ e.toNat * unit1) (10 ^ (-e).toNat) n ∧
      (n < tooLarge → ∃ ok, pyFloat s = some (.fin neg n ok)) ∧ (tooLarge ≤ n → pyFloat s = some (.inf neg)) := by
  refine ⟨nearest (d * 10 ^ e.toNat * unit1) (10 ^ (-e).toNat), nearest_best _ _ (pow_pos10 _), fun h => ?_, fun h => ?_⟩
  · refine ⟨isDouble_nearest (pow_pos10 _) h, ?_⟩
    rw [pyFloat_dec hs hd, ofDec_eq neg d e e.toNat (-e).toNat (by omega), Dbl.ofRatio, Dbl.mk_of]
  · rw [pyFloat_dec hs hd, ofDec_eq neg d e e.toNat (-e).toNat (by omega), Dbl.ofRatio, Dbl.mk, dif_neg]
    intro h1
    have := ((isDouble_iff _).1 h1).2
    omega

/-- Non-vacuity: one tenth. -/
example : SignOf c!"0.1" false c!"0.1" ∧ DecText c!"0.1" 1 (-1) := ⟨.inr ⟨.inl rfl, rfl⟩, (decParts_iff _ _ _).1 (by decide)⟩

/-- Of two equally near doubles the even one: 2^53 + 1 is read as 2^53. -/
example : (∃ ok, pyFloat c!"9007199254740993" = some (.fin false (2 ^ 53 * unit1) ok)) := ⟨by decide +kernel, by decide +kernel⟩

/-- `float(repr(x))` is `x`, for every double. -/
theorem c97_repr_read (x : Dbl) : pyFloat x.repr = some x := pyFloat_repr x

/-- `repr(x)` is the text of a decimal number that is read as `x`, with as few digits as possible, and with the given power of ten none is nearer to
`x`; of two that are equally near it is the even one. -/
theorem c97_repr_shortest (neg : Bool) (n : Nat) (ok : isDouble n = true) (h0 : n ≠ 0) :
    ∃ t d e c j, (Dbl.fin neg n ok).repr = (if neg then c!"-" else []) ++ t ∧ DecText t d e ∧ SameNumber d e c ((j : Nat) - 1074) ∧
      pyFloat (Dbl.fin neg n ok).repr = some (.fin neg n ok) ∧
      (∀ s b d' e', SignOf s neg b → DecText b d' e' → pyFloat s = some (.fin neg n ok) → (natStr c).length ≤ (natStr d').length) ∧
      (∀ s b c', SignOf s neg b → DecText b c' ((j : Nat) - 1074) → pyFloat s = some (.fin neg n ok) →
        c' = c ∨ gap (n * 10 ^ 1074) (10 ^ j * unit1) c < gap (n * 10 ^ 1074) (10 ^ j * unit1) c' ∨
          (gap (n * 10 ^ 1074) (10 ^ j * unit1) c = gap (n * 10 ^ 1074) (10 ^ j * unit1) c' ∧ c % 2 = 0)) := by
  obtain ⟨d, e, hd, he⟩ := reprUnits_text ok h0
  refine ⟨reprUnits n, d, e, (shortest unit1 tens n topTen).1, (shortest unit1 tens n topTen).2, rfl, hd, he, pyFloat_repr _, ?_, ?_⟩
  · intro s b d' e' hs hb hx
    rw [pyFloat_dec hs hb, Option.some.injEq] at hx
    exact shortest_fewest neg ok h0 (by rw [hx, Dbl.mk_of ok])
  · intro s b c' hs hb hx
    rw [pyFloat_dec hs hb, Option.some.injEq, ofDec_readTen neg c' _ _ rfl] at hx
    have hr : readTen unit1 tens c' (shortest unit1 tens n topTen).2 = n := by
      unfold Dbl.mk at hx
      split at hx
      · injection hx
      · cases hx
    have h1 := shortest_best unit1_pos tens_pos unit1_dvd_tens (isDouble_bits ok) topTen hr
    have h2 := shortest_even unit1_pos tens_pos unit1_dvd_tens (isDouble_bits ok) topTen hr
    rw [← show tens = 10 ^ 1074 by unfold tens; rfl]
    by_cases hc : c' = (shortest unit1 tens n topTen).1
    · exact .inl hc
    · rcases Nat.eq_or_lt_of_le h1 with h | h
      · exact .inr (.inr ⟨h, h2 hc h⟩)
      · exact .inr (.inl h)

example : isDouble (3 * unit1) = true ∧ 3 * unit1 ≠ 0 := ⟨by decide +kernel, by decide +kernel⟩

/-! ### Numbers of few digits -/

theorem pyFloat_place {s : Str} {neg : Bool} {k m : Nat} (h : PlaceText s neg k m) : pyFloat s = some (.ofDec neg k (-m)) := by
  obtain ⟨b, d, e, h1, h2, h3⟩ := h
  rw [pyFloat_dec h1 h2, ofDec_same neg h3]

/-- A text with at most `m` places is not changed by `round(float(text), m)`. -/
theorem c97_round_keeps (s : Str) (neg : Bool) (k m : Nat) (h : PlaceText s neg k m) (hk : k < 2 ^ 52) (hm : m ≤ 290) :
    ∃ x : PNum, GateNum.parse s = some x ∧ GateNum.round m x = x := by
  refine ⟨.flt (.ofDec neg k (-m)), ?_, ?_⟩
  · simp only [GateNum.parse, pyFloat_place h, Option.map_some]
  · simp only [GateNum.round, PNum.round, round_keeps neg hk hm]

/-- Non-vacuity: `1234567.25` has at most four places, and 12345672500 < 2^52. -/
example : PlaceText c!"1234567.25" false 12345672500 4 :=
  ⟨c!"1234567.25", 123456725, -2, .inr ⟨.inl rfl, rfl⟩, (decParts_iff _ _ _).1 (by decide), by unfold SameNumber; decide⟩

/-- An average price with a fourth place is changed. -/
theorem c97_fourth_place_refuted : ∃ s x, PlaceText s false 123456 4 ∧ (GateNum.parse s : Option PNum) = some x ∧ GateNum.round 3 x ≠ x ∧
    (GateNum.parse c!"12.346" : Option PNum) = some (GateNum.round 3 x) := by
  refine ⟨c!"12.3456", .flt (.ofDec false 123456 (-4)), ⟨c!"12.3456", 123456, -4, .inr ⟨.inl rfl, rfl⟩, (decParts_iff _ _ _).1 (by decide), rfl⟩, ?_, ?_, ?_⟩ <;>
    decide +kernel

/-- A number of at most fifteen digits (less than 2^52) is written by `str(float(text))` as the same number. -/
theorem c97_written (s b : Str) (neg : Bool) (d : Nat) (e : Int) (hs : SignOf s neg b) (hd : DecText b d e) (hlt : d < 2 ^ 52) (h1 : -290 ≤ e)
    (h2 : e ≤ 290) : ∃ (x : PNum) (t : Str) (d' : Nat) (e' : Int), GateNum.parse s = some x ∧
      GateNum.str x = (if neg then c!"-" else []) ++ t ∧ DecText t d' e' ∧ SameNumber d' e' d e := by
  obtain ⟨t, d', e', g1, g2, g3⟩ := repr_same neg hlt h1 h2
  refine ⟨.flt (.ofDec neg d e), t, d', e', ?_, g1, g2, g3⟩
  simp only [GateNum.parse, pyFloat_dec hs hd, Option.map_some]

/-- With sixteen digits two numbers may be the same double, so one of them is written as the other. -/
theorem c97_sixteen_digits_refuted : (GateNum.parse c!"9007199254740993" : Option PNum) = GateNum.parse c!"9007199254740992" ∧
    (GateNum.parse c!"9007199254740993" : Option PNum) ≠ none := ⟨by decide +kernel, by decide +kernel⟩

/-! ### The order file -/

theorem plain_chars {s : Str} (h : ∀ c ∈ s, isDig c = true ∨ c ∈ c!".eE+-") : PlainField s := by
  refine ⟨fun hc => ?_, fun hc => ?_, fun hc => ?_⟩ <;> exact absurd (h _ hc) (by decide)

/-- The text of a price has no comma and no line end, whatever number it is. -/
theorem price_plain (x : PNum) : PlainField (GateNum.str x) := by
  cases x with
  | int n =>
    show PlainField (intStr n)
    apply plain_chars
    intro c hc
    unfold intStr at hc
    split at hc
    · rcases List.mem_cons.1 hc with rfl | hc
      · exact .inr (by decide)
      · exact .inl (natStr_digits _ c hc)
    · exact .inl (natStr_digits _ c hc)
  | flt x =>
    show PlainField x.repr
    cases x with
    | nan => exact ⟨by decide, by decide, by decide⟩
    | inf neg => cases neg <;> exact ⟨by decide, by decide, by decide⟩
    | fin neg n ok =>
      apply plain_chars
      obtain ⟨d, e, hd, -⟩ := reprUnits_dec ok
      intro c hc
      rw [Dbl.repr] at hc
      rcases List.mem_append.1 hc with hc | hc
      · cases neg
        · cases hc
        · have : c = '-' := by simpa using hc
          subst this
          exact .inr (by decide)
      · exact dec_chars hd c hc

/-- A reader of cells for the examples: `float` and `int`. -/
@[reducible] def demoCells : PandasCells := ⟨fun _ c => c.bind GateNum.parse, fun _ c => c.bind pyInt⟩

variable [PandasCells]

/-- An account for the examples. -/
def demoMoney : Ctx (AXG PNum) PNum := ⟨true, some (Acct.init ⟨AX.setup (demoConf false) fun _ => none, fun _ => demoEnv, 0⟩)⟩

/-- **C35 for every number that Python has**: with a code without a comma and a line end the record has exactly twelve fields, whatever the price
is. -/
theorem c97_twelve_fields (udig : Char → Bool) (idn : Nat) (now : DT) (code : Str) (amount : AmtArg) (style : StyleArg PNum)
    (side : SideArg) (x : Ctx (AXG PNum) PNum) (id : Str) (h : (x.order (axGate PNum) udig idn now code amount style side).2 = .ok (some id))
    (hcode : PlainField code)
    (hconf : ∀ a, x.acct = some a → PlainField a.gate.ax.conf.counter ∧ PlainField a.gate.ax.conf.algo ∧
      (∀ n, a.gate.ax.conf.acctNo = some n → PlainField n) ∧ a.gate.cur.now.valid = true) :
    ∃ a a' old line, x.acct = some a ∧ (x.order (axGate PNum) udig idn now code amount style side).1.acct = some a' ∧
      a'.gate.ax.files (.orders a.gate.cur.day) = some (old ++ (line ++ lineEnd a.gate.ax.conf.win)) ∧
      (old = (a.gate.ready.files (.orders a.gate.cur.day)).getD [] ∨ old = joinWith c!"," orderColumns ++ lineEnd a.gate.ax.conf.win) ∧
      '\n' ∉ line ∧ '\r' ∉ line ∧ (splitOn ',' line).length = 12 ∧ (splitOn ',' line)[1]? = some id :=
  c35_twelve_fields_partial udig idn now code amount style side x id h hcode (fun p _ => price_plain p) hconf

/-- The price of a limit order in the order file is the number that the strategy wrote (at most fifteen digits), in both price columns. -/
theorem c97_price_in_file (udig : Char → Bool) (idn : Nat) (now : DT) (code : Str) (amount : AmtArg) (p : PNum)
    (side : SideArg) (x : Ctx (AXG PNum) PNum) (id : Str) (lit b : Str) (neg : Bool) (d : Nat) (e : Int)
    (h : (x.order (axGate PNum) udig idn now code amount (.style (.limit p)) side).2 = .ok (some id))
    (hp : GateNum.parse lit = some p) (hs : SignOf lit neg b) (hd : DecText b d e) (hlt : d < 2 ^ 52) (h1 : -290 ≤ e) (h2 : e ≤ 290) :
    ∃ a a' items t d' e', x.acct = some a ∧ (x.order (axGate PNum) udig idn now code amount (.style (.limit p)) side).1.acct = some a' ∧
      items.length = 12 ∧ items[8]? = some c!"AT" ∧
      items[10]? = some ((if neg then c!"-" else []) ++ t) ∧ items[11]? = some ((if neg then c!"-" else []) ++ t) ∧ DecText t d' e' ∧ SameNumber d' e' d e ∧
      ((a.gate.ax.conf.win = true → ∀ f ∈ items, '\n' ∉ f) →
        Appended a.gate.ax.conf.win orderColumns items (a.gate.ready.files (.orders a.gate.cur.day)) (a'.gate.ax.files (.orders a.gate.cur.day))) := by
  obtain ⟨a, a', n, st, sd, enc, items, g1, g2, g3, _, _, g6, g7, _⟩ := c18_one_record_partial udig idn now code amount _ side x id h
  obtain ⟨y, t, d', e', k1, k2, k3, k4⟩ := c97_written lit b neg d e hs hd hlt h1 h2
  rw [hp, Option.some.injEq] at k1
  subst k1
  have hst : st = .limit p := by
    rcases g3.2.2.1 with ⟨h, _⟩ | h
    · cases h
    · injection h with h; exact h.symm
  subst hst
  have hlen := g6.columns
  have hpr := g6.price
  match items, hlen with
  | [i0, i1, i2, i3, i4, i5, i6, i7, i8, i9, i10, i11], _ =>
    simp only [List.drop_succ_cons, List.drop_zero] at hpr
    cases hpr
    exact ⟨a, a', _, t, d', e', g1, g2, rfl, rfl, by simp [k2], by simp [k2], k3, k4, g7⟩

omit [PandasCells] in
/-- Non-vacuity: an accepted order with the price 10.25. -/
example : DecText c!"10.25" 1025 (-2) ∧ (letI := demoCells; (demoMoney.order (axGate PNum) (fun _ => false) 7 demoEnv.now c!"600000.XSHG" (.int 300)
    (.style (.limit (.flt (.ofDec false 1025 (-2))))) .falsy).2 = .ok (some c!"7")) :=
  ⟨(decParts_iff _ _ _).1 (by decide), by decide +kernel⟩

/-! ### What the broker reports -/

omit [PandasCells] in
/-- The balance and the average price of an order are the numbers that the broker wrote (four and three places, at most fifteen digits). -/
theorem c97_order_reported (o : OrderInfo PNum) (l : OrderLine) (h : o.SaysLine l) (neg neg' : Bool) (k k' : Nat) (hk : k < 2 ^ 52) (hk' : k' < 2 ^ 52)
    (h1 : PlaceText l.filledAmt neg k 4) (h2 : PlaceText l.avgPrice neg' k' 3) :
    o.dealBalance = GateNum.parse l.filledAmt ∧ o.avgCost = GateNum.parse l.avgPrice ∧ o.dealBalance ≠ none ∧ o.avgCost ≠ none := by
  obtain ⟨x, hx, hb⟩ := h.hBalance
  obtain ⟨y, hy, hc⟩ := h.hCost
  obtain ⟨x', gx, rx⟩ := c97_round_keeps _ neg k 4 h1 hk (by decide)
  obtain ⟨y', gy, ry⟩ := c97_round_keeps _ neg' k' 3 h2 hk' (by decide)
  rw [hx, Option.some.injEq] at gx
  rw [hy, Option.some.injEq] at gy
  subst gx gy
  rw [hb, hc, hx, hy, rx, ry]
  simp

omit [PandasCells] in
/-- Non-vacuity: 1050.25 at an average price of 10.503. -/
example : PlaceText c!"1050.25" false 10502500 4 ∧ PlaceText c!"10.503" false 10503 3 :=
  ⟨⟨c!"1050.25", 105025, -2, .inr ⟨.inl rfl, rfl⟩, (decParts_iff _ _ _).1 (by decide), by unfold SameNumber; decide⟩,
   ⟨c!"10.503", 10503, -3, .inr ⟨.inl rfl, rfl⟩, (decParts_iff _ _ _).1 (by decide), by unfold SameNumber; decide⟩⟩

/-- What pandas made of a cell with `k / 10 ^ m`: a double within an eighth of the last place. -/
def NearCell (x : PNum) (neg : Bool) (k m : Nat) : Prop :=
  ∃ n ok, x = .flt (.fin neg n ok) ∧ 8 * gap (k * unit1) (10 ^ m) n ≤ unit1

omit [PandasCells] in
/-- A double near to the number of a cell is rounded to the double of this number. -/
theorem c97_near_rounded (x : PNum) (s : Str) (neg : Bool) (k m : Nat) (h : PlaceText s neg k m) (hx : NearCell x neg k m) :
    GateNum.parse s = some (GateNum.round m x) := by
  obtain ⟨n, ok, rfl, hg⟩ := hx
  rw [gap_nat] at hg
  have hu := unit1_pos
  simp only [GateNum.parse, pyFloat_place h, Option.map_some, GateNum.round, PNum.round]
  rw [round_place neg (k := k) ok (by omega) (by omega)]

omit [PandasCells] in
/-- The double nearest to the number is near, so the condition can be met. -/
theorem near_parse (s : Str) (neg : Bool) (k m : Nat) (h : PlaceText s neg k m) (hk : k < 2 ^ 50) (hm : m ≤ 290) :
    ∃ x, GateNum.parse s = some x ∧ NearCell x neg k m := by
  have hp := place_near (k := k) (m := m) (by omega) hm
  refine ⟨.flt (.ofDec neg k (-m)), by simp only [GateNum.parse, pyFloat_place h, Option.map_some], _, _, by rw [ofDec_place neg (by omega) hm], ?_⟩
  rw [gap_nat]
  have h4 : k * unit1 ≤ 2 ^ 50 * unit1 := Nat.mul_le_mul_right _ (by omega)
  generalize nearest (k * unit1) (10 ^ m) * 10 ^ m = a at *
  generalize k * unit1 = c at *
  generalize unit1 = u at *
  omega

omit [PandasCells] in
/-- The difference of two amounts with `m` places is rounded to the difference of the numbers. -/
theorem c97_difference (x y : PNum) (k k' m : Nat) (hk : k < 2 ^ 50) (hk' : k' < 2 ^ 50) (hx : NearCell x false k m) (hy : NearCell y false k' m) :
    ∃ neg, GateNum.round m (GateNum.sub x y) = .flt (.ofDec neg ((k : Int) - k').natAbs (-m)) ∧ DiffSign k k' neg ∧ (x = y → neg = false) := by
  obtain ⟨n, ok, rfl, hg⟩ := hx
  obtain ⟨n', ok', rfl, hg'⟩ := hy
  rw [gap_nat] at hg hg'
  have hu := unit1_pos
  obtain ⟨neg, h1, h2, h3⟩ := round_sub ok ok' hk hk' (m := m) (by omega) (by omega) (by omega) (by omega)
  refine ⟨neg, ?_, h2, fun e => h3 ?_⟩
  · simp only [GateNum.round, GateNum.sub, PNum.sub, PNum.toFloat, PNum.round, h1]
  · injection e with e
    injection e

omit [PandasCells] in
/-- 0.3 - 0.1 is 0.19999999999999998 as a double, and 0.2 when rounded. -/
example : ∃ x y z : PNum, GateNum.parse c!"0.3" = some x ∧ GateNum.parse c!"0.1" = some y ∧ GateNum.parse c!"0.2" = some z ∧
    GateNum.sub x y ≠ z ∧ GateNum.round 4 (GateNum.sub x y) = z :=
  ⟨.flt (.ofDec false 3 (-1)), .flt (.ofDec false 1 (-1)), .flt (.ofDec false 2 (-1)), by decide +kernel, by decide +kernel, by decide +kernel,
    by decide +kernel, by decide +kernel⟩

/-- The cash that the account shows is what the broker's file says, to the last of four places: the total, what is available, and the difference
of the current balance and this as what is locked. -/
theorem c97_cash (t : Csv) (row : List (Option Str)) (c : CashInfo PNum) (h : c.SaysRow t row) (total enabled current : Str)
    (ht : t.Has row c!"totalAsset" (some total)) (he : t.Has row c!"enabledBalance" (some enabled)) (hc : t.Has row c!"currentBalance" (some current))
    (negT : Bool) (kt ke kc : Nat) (hke : ke < 2 ^ 50) (hkc : kc < 2 ^ 50)
    (pt : PlaceText total negT kt 4) (pe : PlaceText enabled false ke 4)
    (nt : ∀ x, PandasCells.num (t.column c!"totalAsset") (some total) = some x → NearCell x negT kt 4)
    (ne : ∀ x, PandasCells.num (t.column c!"enabledBalance") (some enabled) = some x → NearCell x false ke 4)
    (nc : ∀ x, PandasCells.num (t.column c!"currentBalance") (some current) = some x → NearCell x false kc 4) :
    c.total = GateNum.parse total ∧ c.avail = GateNum.parse enabled ∧
      ∃ neg, c.locked = some (.flt (.ofDec neg ((kc : Int) - ke).natAbs (-4))) ∧ DiffSign kc ke neg := by
  obtain ⟨x, y, z, ⟨a, ha, hx⟩, ⟨b, hb, hy⟩, ⟨d, hd, hz⟩, rfl⟩ := h
  have inj : ∀ {name : Str} {u v : Option Str}, t.Has row name u → t.Has row name v → u = v := by
    intro name u v h1 h2
    rw [Csv.Has] at h1 h2
    rw [h1] at h2
    injection h2
  rw [inj ha ht] at hx
  rw [inj hb he] at hy
  rw [inj hd hc] at hz
  obtain ⟨neg, g1, g2, _⟩ := c97_difference z y kc ke 4 hkc hke (nc z hz) (ne y hy)
  refine ⟨(c97_near_rounded x total negT kt 4 pt (nt x hx)).symm, (c97_near_rounded y enabled false ke 4 pe (ne y hy)).symm, neg, ?_, g2⟩
  simp only [g1]
  rfl

/-- The cost, the last price and the value of a position are what the broker's file says, to the last of three, three and four places. -/
theorem c97_position (t : Csv) (row : List (Option Str)) (p : PosInfo PNum) (h : p.SaysRow t row) (cost last value : Str)
    (hc : t.Has row c!"costPrice" (some cost)) (hl : t.Has row c!"lastPrice" (some last)) (hv : t.Has row c!"mktValue" (some value))
    (nc nl nv : Bool) (kc kl kv : Nat) (pc : PlaceText cost nc kc 3) (pl : PlaceText last nl kl 3) (pv : PlaceText value nv kv 4)
    (rc : ∀ x, PandasCells.num (t.column c!"costPrice") (some cost) = some x → NearCell x nc kc 3)
    (rl : ∀ x, PandasCells.num (t.column c!"lastPrice") (some last) = some x → NearCell x nl kl 3)
    (rv : ∀ x, PandasCells.num (t.column c!"mktValue") (some value) = some x → NearCell x nv kv 4) :
    p.avgCost = GateNum.parse cost ∧ p.lastPrice = GateNum.parse last ∧ p.value = GateNum.parse value := by
  obtain ⟨_, _, _, _, ⟨a, x, ha, hx, h1⟩, ⟨b, y, hb, hy, h2⟩, ⟨d, z, hd, hz, h3⟩⟩ := h
  have inj : ∀ {name : Str} {u v : Option Str}, t.Has row name u → t.Has row name v → u = v := by
    intro name u v h1 h2
    rw [Csv.Has] at h1 h2
    rw [h1] at h2
    injection h2
  rw [inj ha hc] at hx
  rw [inj hb hl] at hy
  rw [inj hd hv] at hz
  rw [h1, h2, h3]
  exact ⟨(c97_near_rounded x cost nc kc 3 pc (rc x hx)).symm, (c97_near_rounded y last nl kl 3 pl (rl y hy)).symm,
    (c97_near_rounded z value nv kv 4 pv (rv z hz)).symm⟩

/-- A row of money for the example. -/
def demoCash : Csv :=
  ⟨[c!"totalAsset", c!"enabledBalance", c!"currentBalance"], [[some c!"1000.5", some c!"0.1", some c!"0.3"]]⟩

omit [PandasCells] in
/-- Non-vacuity: a row whose cells are read as the nearest doubles; 0.2 is locked. -/
example : letI := demoCells
    ∃ c : CashInfo PNum, c.SaysRow demoCash (demoCash.rows.getD 0 []) ∧ demoCash.Has (demoCash.rows.getD 0 []) c!"currentBalance" (some c!"0.3") ∧
      c.locked = GateNum.parse c!"0.2" ∧
      (∀ x, PandasCells.num (demoCash.column c!"currentBalance") (some c!"0.3") = some x → NearCell x false 3000 4) := by
  letI := demoCells
  refine ⟨_, ⟨.flt (.ofDec false 10005 (-1)), .flt (.ofDec false 1 (-1)), .flt (.ofDec false 3 (-1)), ⟨some c!"1000.5", rfl, by decide +kernel⟩,
    ⟨some c!"0.1", rfl, by decide +kernel⟩, ⟨some c!"0.3", rfl, by decide +kernel⟩, rfl⟩, rfl, by decide +kernel, ?_⟩
  intro x hx
  obtain ⟨y, h1, h2⟩ := near_parse c!"0.3" false 3000 4
    ⟨c!"0.3", 3, -1, .inr ⟨.inl rfl, rfl⟩, (decParts_iff _ _ _).1 (by decide), by unfold SameNumber; decide⟩ (by decide) (by decide)
  have hx : (GateNum.parse c!"0.3" : Option PNum) = some x := hx
  rw [h1] at hx
  injection hx with hx
  rw [← hx]
  exact h2

/-! ### The data file -/

/-- The order as `Order.json` makes it: the style is a name, and times are texts. -/
def JsonReady (o : OrderInfo PNum) : Prop :=
  (∀ s, o.style ≠ some (.obj s)) ∧ (∀ d, o.createTime ≠ some (.dt d)) ∧ ∀ d, o.entrustTime ≠ some (.dt d)

omit [PandasCells] in
private theorem info_some {o : OrderInfo PNum} (h : JsonReady o) : ∃ v, infoJV o = some v := by
  obtain ⟨h1, h2, h3⟩ := h
  have num : ∀ x : Option PNum, ∃ v, jvNum x = some v := by
    intro x
    cases x with
    | none => exact ⟨_, rfl⟩
    | some x => exact ⟨_, rfl⟩
  have all : ∀ l : List (Str × Option (Option JV)), (∀ m ∈ l, m.2 ≠ none) → ∃ ms, collect l = some ms := by
    intro l
    induction l with
    | nil => intro _; exact ⟨_, rfl⟩
    | cons m l ih =>
      intro hl
      obtain ⟨ms, hms⟩ := ih fun m hm => hl m (List.mem_cons_of_mem _ hm)
      obtain ⟨k, v⟩ := m
      match v with
      | none => exact absurd rfl (hl _ (List.mem_cons_self ..))
      | some none => exact ⟨ms, hms⟩
      | some (some v) => exact ⟨_, by simp only [collect, hms]; rfl⟩
  have hstyle : jvStyle o.style ≠ none := by
    cases hs : o.style with
    | none => simp [jvStyle]
    | some s =>
      cases s with
      | name s => simp [jvStyle]
      | obj s => exact absurd hs (h1 s)
  have hdt : ∀ t : Option DtVal, (∀ d, t ≠ some (.dt d)) → jvDt t ≠ none := by
    intro t ht
    match t with
    | none => simp [jvDt]
    | some (.str s) => simp [jvDt]
    | some (.dt d) => exact absurd rfl (ht d)
  have hnum : ∀ x : Option PNum, jvNum x ≠ none := fun x => by obtain ⟨v, hv⟩ := num x; rw [hv]; simp
  have hnull : ∀ v, v ≠ none → orNull v ≠ none := by
    intro v hv
    cases v with
    | none => exact absurd rfl hv
    | some v => simp [orNull]
  obtain ⟨ms, hms⟩ := all (infoFields o) (by
    intro m hm
    simp only [infoFields, List.mem_cons, List.not_mem_nil, or_false] at hm
    rcases hm with rfl | rfl | rfl | rfl | rfl | rfl | rfl | rfl | rfl | rfl | rfl | rfl | rfl | rfl | rfl | rfl | rfl
    all_goals first
      | exact hnum _
      | exact hstyle
      | exact hdt _ h2
      | exact hnull _ (hdt _ h3)
      | exact hnull _ (hnum _)
      | simp [jvStr, jvInt, orNull])
  exact ⟨.obj ms, by rw [infoJV, hms]; rfl⟩

omit [PandasCells] in
/-- Every order book is saved, whatever numbers are in it (`nan` and infinite ones too), and read back with the same numbers: `-0.0` stays `-0.0`, an
`int` stays an `int`. -/
theorem c97_data_file (b : Book PNum) (hb : DictOk b) (h : ∀ id o, (id, o) ∈ b → JsonReady o) : ∃ text, dumpBook b = some text ∧ loadBook text = some b := by
  have hm : ∃ ms, bookMembers b = some ms := by
    clear hb
    induction b with
    | nil => exact ⟨_, rfl⟩
    | cons e b ih =>
      obtain ⟨id, o⟩ := e
      obtain ⟨v, hv⟩ := info_some (h id o (List.mem_cons_self ..))
      obtain ⟨ms, hms⟩ := ih fun id o ho => h id o (List.mem_cons_of_mem _ ho)
      exact ⟨(id, v) :: ms, by simp only [bookMembers, hv, hms]⟩
  obtain ⟨ms, hms⟩ := hm
  have hd : dumpBook b = some (JV.obj ms).dump := by rw [dumpBook, hms]; rfl
  exact ⟨_, hd, c61_round_trip b _ hb hd⟩

omit [PandasCells] in
/-- Non-vacuity: `-0.0`, `nan`, an infinite number and an `int`. -/
example : ∃ b : Book PNum, b.length = 2 ∧ DictOk b ∧ ∀ id o, (id, o) ∈ b → JsonReady o := by
  refine ⟨[(c!"7", { price := some (.flt (.ofDec true 0 0)), dealBalance := some (.flt .nan) }),
    (c!"8", { price := some (.int 10), dealBalance := some (.flt (.inf true)) })], rfl, by simp [DictOk, dkeys], ?_⟩
  intro id o h
  simp only [List.mem_cons, Prod.mk.injEq, List.not_mem_nil, or_false] at h
  rcases h with ⟨_, rfl⟩ | ⟨_, rfl⟩ <;> exact ⟨by simp, by simp, by simp⟩

end Jq
