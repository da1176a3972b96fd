import Verif.Lemmas.TimeExpr
import Verif.Lemmas.Csv
import Verif.Lemmas.Restart
import Verif.Model.Cli
import Verif.Model.Periods
import Verif.Model.TradeGate
import Verif.Props.C26_Positions
import Verif.Props.C36_OrderSync
import Verif.Props.C45_Retry
/-!
# C90: which exception is raised says what was wrong

For the functions that check what they are given: each kind of exception occurs for exactly one kind of mistake, and no other kind occurs.
-/
namespace Jq

/-! ## The time of a task -/

/-- An offset: one to three counts with units, and a newline or not. -/
def IsOffset (s : Str) : Prop :=
  ∃ (cs : List Chunk) (tail : Str), 1 ≤ cs.length ∧ cs.length ≤ 3 ∧ (∀ c ∈ cs, c.Valid) ∧ (tail = [] ∨ tail = ['\n']) ∧ s = renderChunks cs ++ tail

/-- Something, a sign, and an offset. -/
def HasOffset (expr b : Str) : Prop :=
  '+' ∉ b ∧ '-' ∉ b ∧ ∃ sg off, (sg = '+' ∨ sg = '-') ∧ IsOffset off ∧ expr = b ++ sg :: off

private theorem offset_iff (s : Str) : (∃ d, parseOffset s = .ok d) ↔ IsOffset s := by
  constructor
  · rintro ⟨d, h⟩
    obtain ⟨cs, tail, g1, g2, g3, g4, g5, _⟩ := parseOffset_ok h
    exact ⟨cs, tail, g1, g2, g3, g4, g5⟩
  · rintro ⟨cs, tail, g1, g2, g3, g4, rfl⟩
    exact ⟨_, parseOffset_render g1 g2 g3 g4⟩

private theorem offset_plain {s : Str} (h : IsOffset s) : '+' ∉ s ∧ '-' ∉ s := by
  obtain ⟨cs, tail, g1, g2, g3, g4, rfl⟩ := h
  have hno : ∀ x : Char, isDig x = false → isUnit x = false → x ≠ '\n' → x ∉ renderChunks cs ++ tail := by
    intro x hd hu hx hm
    rcases List.mem_append.1 hm with hm | hm
    · exact not_mem_render g3 hd hu hm
    · rcases g4 with rfl | rfl
      · cases hm
      · simp at hm; exact hx hm
  exact ⟨hno _ (by decide) (by decide) (by decide), hno _ (by decide) (by decide) (by decide)⟩

private theorem parse_offset {expr b : Str} (h : HasOffset expr b) : ∃ op d, parseExpr expr = .ok (b, op, d) := by
  obtain ⟨h1, h2, sg, off, hs, ho, rfl⟩ := h
  obtain ⟨p1, p2⟩ := offset_plain ho
  obtain ⟨d, hd⟩ := (offset_iff off).2 ho
  refine ⟨[sg], d, ?_⟩
  simp only [parseExpr, splitSign_append h1 h2 hs, splitSign_no p1 p2, hd]
  rfl

private theorem splitSign_head_plain (s : Str) : ∀ p rest, splitSign s = p :: rest → '+' ∉ p ∧ '-' ∉ p := by
  induction s with
  | nil => intro p rest h; simp only [splitSign, List.cons.injEq] at h; rw [← h.1]; simp
  | cons c s ih =>
    intro p rest h
    simp only [splitSign] at h
    split at h
    · simp only [List.cons.injEq] at h; rw [← h.1]; simp
    · rename_i hc
      simp only [Bool.or_eq_true, decide_eq_true_eq, not_or] at hc
      split at h
      · simp only [List.cons.injEq] at h; rw [← h.1]
        simp only [List.mem_singleton]; exact ⟨fun e => hc.1 e.symm, fun e => hc.2 e.symm⟩
      · rename_i q qs hq
        simp only [List.cons.injEq] at h
        rw [← h.1]
        obtain ⟨g1, g2⟩ := ih q qs hq
        simp only [List.mem_cons, not_or]
        exact ⟨⟨fun e => hc.1 e.symm, g1⟩, ⟨fun e => hc.2 e.symm, g2⟩⟩

/-- A time without a colon: `KeyError` exactly for a good offset from an unknown base, `InvalidParam` exactly for a text that is neither a base
nor anything with a good offset, `IndexError` exactly if there are no trading periods. -/
theorem c90_time_words (mp : Periods) (day : Int) (expr : Str) (hc : ':' ∉ expr) (e : PyErr) :
    entryTime mp day expr = .error e ↔
      (mp = [] ∧ e = .indexError) ∨
      (mp ≠ [] ∧ e = .keyError ∧ ∃ b, HasOffset expr b ∧ b ≠ c!"open" ∧ b ≠ c!"close") ∨
      (mp ≠ [] ∧ e = .invalidParam ∧ expr ≠ c!"open" ∧ expr ≠ c!"close" ∧ ∀ b, ¬ HasOffset expr b) := by
  cases mp with
  | nil => simp [entryTime, hc, exprToTime, eq_comm]
  | cons p ps =>
    have hl : (p :: ps).getLast? = some ((p :: ps).getLast (by simp)) := List.getLast?_eq_some_getLast _
    simp only [entryTime, if_neg hc, exprToTime, List.head?_cons, hl]
    by_cases ho : ∃ b, HasOffset expr b
    · obtain ⟨b, ho⟩ := ho
      obtain ⟨op, d, hp⟩ := parse_offset ho
      have huniq : ∀ b', HasOffset expr b' → b' = b := by
        intro b' h'
        obtain ⟨op', d', hp'⟩ := parse_offset h'
        rw [hp] at hp'
        simp only [Except.ok.injEq, Prod.mk.injEq] at hp'
        exact hp'.1.symm
      rw [hp]
      by_cases h1 : b = c!"open"
      · simp only [h1, if_true]
        constructor
        · intro h; split at h <;> cases h
        · rintro (⟨h, _⟩ | ⟨_, _, b', h', h2, _⟩ | ⟨_, _, _, _, h⟩)
          · cases h
          · exact absurd ((huniq b' h').trans h1) h2
          · exact absurd ho (h b)
      · by_cases h2 : b = c!"close"
        · simp only [h2, show ¬ (c!"close" = c!"open") from by decide, if_false, if_true]
          constructor
          · intro h; split at h <;> cases h
          · rintro (⟨h, _⟩ | ⟨_, _, b', h', _, h3⟩ | ⟨_, _, _, _, h⟩)
            · cases h
            · exact absurd ((huniq b' h').trans h2) h3
            · exact absurd ho (h b)
        · simp only [h1, h2, if_false, Except.error.injEq]
          constructor
          · rintro rfl; exact .inr (.inl ⟨by simp, rfl, b, ho, h1, h2⟩)
          · rintro (⟨h, _⟩ | ⟨_, h, _⟩ | ⟨_, _, _, _, h⟩)
            · cases h
            · exact h.symm
            · exact absurd ho (h b)
    · have hno : ∀ b, ¬ HasOffset expr b := fun b h => ho ⟨b, h⟩
      have hfl := splitSign_flatten expr
      have herr : ∀ x, parseExpr expr = .ok x → expr = c!"open" ∨ expr = c!"close" := by
        intro x h
        simp only [parseExpr] at h
        split at h
        · rename_i base hs
          rw [hs] at hfl
          simp at hfl
          split at h
          · rename_i hb
            rw [← hfl]
            simpa using hb
          · cases h
        · rename_i base op off hs
          rw [hs] at hfl
          cases hq : parseOffset off with
          | error x => rw [hq] at h; cases h
          | ok d =>
            exfalso
            obtain ⟨g1, g2⟩ := splitSign_head_plain expr _ _ hs
            refine hno base ⟨g1, g2, ?_⟩
            rcases splitSign_second hs with rfl | rfl
            · exact ⟨'+', off, .inl rfl, (offset_iff _).1 ⟨d, hq⟩, by rw [← hfl]; simp⟩
            · exact ⟨'-', off, .inr rfl, (offset_iff _).1 ⟨d, hq⟩, by rw [← hfl]; simp⟩
        · cases h
      have hkind : ∀ x, parseExpr expr = .error x → x = .invalidParam := by
        intro x h
        simp only [parseExpr] at h
        split at h
        · split at h
          · cases h
          · exact (Except.error.inj h).symm
        · rename_i off _
          simp only [parseOffset] at h
          split at h
          · cases h
          · exact (Except.error.inj h).symm
        · exact (Except.error.inj h).symm
      cases hp : parseExpr expr with
      | error x =>
        have hx := hkind x hp
        subst hx
        have hne : expr ≠ c!"open" ∧ expr ≠ c!"close" := by
          constructor <;> (rintro rfl; revert hp; decide)
        simp only [Except.error.injEq]
        constructor
        · rintro rfl; exact .inr (.inr ⟨by simp, rfl, hne.1, hne.2, hno⟩)
        · rintro (⟨h, _⟩ | ⟨_, _, b, h, _⟩ | ⟨_, h, _⟩)
          · cases h
          · exact absurd h (hno b)
          · exact h.symm
      | ok x =>
        have hb := herr x hp
        have hx : x.1 = expr := by
          rcases hb with rfl | rfl <;> (have := hp; revert this; simp [parseExpr, splitSign]; intro h; rw [← h])
        obtain ⟨b, op, d⟩ := x
        simp only at hx
        subst hx
        simp only
        constructor
        · intro h
          rcases hb with rfl | rfl <;> simp at h <;> split at h <;> cases h
        · rintro (⟨h, _⟩ | ⟨_, _, b', h, _⟩ | ⟨_, _, h1, h2, _⟩)
          · cases h
          · exact absurd h (hno b')
          · exact absurd hb (by simp [h1, h2])

/-- A time with a colon: always `ValueError`. -/
theorem c90_time_clock (mp : Periods) (day : Int) (expr : Str) (hc : ':' ∈ expr) (e : PyErr) (h : entryTime mp day expr = .error e) :
    e = .valueError := by
  simp only [entryTime, if_pos hc, clockTime, mkTime] at h
  repeat' (split at h)
  all_goals first | exact (Except.error.inj h).symm | cases h

/-- Non-vacuity: an unknown base, a misspelt base, an offset with four parts, an hour that does not exist. -/
example : entryTime [(0, 36000 * secUs)] 1 c!"noon+1h" = .error .keyError ∧ entryTime [(0, 36000 * secUs)] 1 c!"opne" = .error .invalidParam ∧
    entryTime [(0, 36000 * secUs)] 1 c!"open+1h1m1s1s" = .error .invalidParam ∧ entryTime [] 1 c!"open" = .error .indexError ∧
    entryTime [] 1 c!"24:00" = .error .valueError ∧ HasOffset c!"noon+1h" c!"noon" := by
  refine ⟨by decide, by decide, by decide, by decide, by decide, by decide, by decide, '+', c!"1h", .inl rfl, ?_, rfl⟩
  exact ⟨[⟨c!"1", 'h'⟩], [], by decide, by decide, by simp [Chunk.Valid, isDig], .inl rfl, rfl⟩

/-! ## Trading periods -/

/-- The open and the close of given periods: `IndexError` exactly if there is no first or last time, `TypeError` exactly if the periods, the
first or the last of them are no sequences, and `ValueError` exactly if the first or the last time is none.  The open is looked at first. -/
theorem c90_open_close (v : PerVal) (e : PyErr) :
    v.openClose = .error e ↔
      ((v = .falsy ∨ v = .scalar) ∧ e = .typeError) ∨ (v = .seq [] ∧ e = .indexError) ∨
      ∃ p ps q, v = .seq ps ∧ ps.head? = some p ∧ ps.getLast? = some q ∧
        (p.first = .error e ∨ (∃ o, p.first = .ok o) ∧ q.last = .error e) := by
  cases v with
  | falsy => simp [PerVal.openClose, eq_comm]
  | scalar => simp [PerVal.openClose, eq_comm]
  | seq ps =>
    cases ps with
    | nil => simp [PerVal.openClose, eq_comm]
    | cons p ps =>
      have hl : (p :: ps).getLast? = some ((p :: ps).getLast (by simp)) := List.getLast?_eq_some_getLast _
      simp only [PerVal.openClose, List.head?_cons, hl]
      constructor
      · intro h
        refine .inr (.inr ⟨p, _, _, rfl, rfl, hl, ?_⟩)
        cases hp : p.first with
        | error x => rw [hp] at h; exact .inl (congrArg Except.error (Except.error.inj h))
        | ok o =>
          rw [hp] at h
          refine .inr ⟨⟨o, rfl⟩, ?_⟩
          cases hq : ((p :: ps).getLast (by simp)).last with
          | error x => rw [hq] at h; exact congrArg Except.error (Except.error.inj h)
          | ok c => rw [hq] at h; cases h
      · rintro (⟨h | h, _⟩ | ⟨h, _⟩ | ⟨p', ps', q, h, hp, hq, hr⟩)
        · cases h
        · cases h
        · cases h
        · injection h with h
          subst h
          rw [hl] at hq
          simp only [List.head?_cons, Option.some.injEq] at hp hq
          subst hp; subst hq
          rcases hr with hr | ⟨⟨o, ho⟩, hr⟩
          · rw [hr]
          · rw [ho]; simp only; rw [hr]

/-- One end of a period: `TypeError` exactly if it is no sequence, `IndexError` exactly if it is empty, `ValueError` exactly if what is there is
no time. -/
theorem c90_period_ends (p : PairVal) (e : PyErr) :
    (p.first = .error e ↔ (p = .other ∧ e = .typeError) ∨ ((p = .seq [] ∨ p = .text []) ∧ e = .indexError) ∨
      (e = .valueError ∧ ((∃ a xs, p = .seq (a :: xs) ∧ ∀ t, parseTime a ≠ .ok t) ∨ ∃ c s, p = .text (c :: s)))) ∧
    (p.last = .error e ↔ (p = .other ∧ e = .typeError) ∨ ((p = .seq [] ∨ p = .text []) ∧ e = .indexError) ∨
      (e = .valueError ∧ ((∃ a xs, p = .seq (xs ++ [a]) ∧ ∀ t, parseTime a ≠ .ok t) ∨ ∃ c s, p = .text (s ++ [c])))) := by
  have hclock : ∀ (s : Str) x, clockText s = .error x → x = .valueError := by
    intro s x h
    simp only [clockText] at h
    repeat' (split at h)
    all_goals first | exact (Except.error.inj h).symm | cases h
  have hone : ∀ c : Char, clockText [c] = .error .valueError := by
    intro c
    have : mClock [c] = [] := by
      by_cases h : isDig c = true <;> simp [mClock, mbind, fHour, twoAlt, oneAlt, fLit, h]
    simp [clockText, this]
  have hsym : ∀ x : PyErr, ((.error x : Py Int) = .error e) ↔ e = x := fun x => ⟨fun h => (Except.error.inj h).symm, fun h => by rw [h]⟩
  have hpt : ∀ a, parseTime a = .error e ↔ e = .valueError ∧ ∀ t, parseTime a ≠ .ok t := by
    intro a
    cases a with
    | time t => simp [parseTime]
    | other => simp [parseTime, hsym]
    | text s =>
      simp only [parseTime]
      cases hq : clockText s with
      | error x => rw [hclock _ _ hq]; simp [hsym]
      | ok t => simp
  constructor
  · cases p with
    | other => simp [PairVal.first, hsym]
    | seq xs =>
      cases xs with
      | nil => simp [PairVal.first, hsym]
      | cons a xs =>
        simp only [PairVal.first, hpt]
        simp
    | text s =>
      cases s with
      | nil => simp [PairVal.first, hsym]
      | cons c s => simp [PairVal.first, hone, hsym]
  · cases p with
    | other => simp [PairVal.last, hsym]
    | seq xs =>
      rcases List.eq_nil_or_concat xs with rfl | ⟨xs, a, rfl⟩
      · simp [PairVal.last, hsym]
      · simp only [PairVal.last, List.concat_eq_append, List.getLast?_append, List.getLast?_singleton, Option.some_or, hpt]
        simp
    | text s =>
      rcases List.eq_nil_or_concat s with rfl | ⟨xs, a, rfl⟩
      · simp [PairVal.last, hsym]
      · simp [PairVal.last, hone, hsym]

/-- Non-vacuity: `None`, no periods at all, a number instead of a period, a text instead of a time. -/
example : PerVal.falsy.openClose = .error .typeError ∧ (PerVal.seq []).openClose = .error .indexError ∧
    (PerVal.seq [.seq [.time 0, .text c!"10:00:00"], .other]).openClose = .error .typeError ∧
    (PerVal.seq [.seq [.time 0, .text c!"10 o'clock"]]).openClose = .error .valueError ∧
    (PerVal.seq [.seq [.time 5, .text c!"10:00:00"]]).openClose = .ok (5, 36000000000) := by decide +kernel

/-! ## An order given to the trade gate -/
section gate
variable {ν : Type} [CellNum ν]

/-- The trade gate has an account number and trades stocks. -/
def AXConf.Trades (c : AXConf) : Prop := (∃ a, c.acctNo = some a ∧ a ≠ []) ∧ c.acctType = c!"STOCK"

/-- The trade gate refuses an order with `InvalidParam` exactly if it is not set up for trading or the order is not on the long side, with
`ValueError` exactly if it is and the code is of no known exchange, and with `AttributeError` exactly if all this is right but there is no style.
No other exception occurs. -/
theorem c90_order_refused (c : AXConf) (now : DT) (o : Order ν) (e : PyErr) :
    orderFields c now o = .error e ↔
      (e = .invalidParam ∧ ¬ (c.Trades ∧ o.side = some .long)) ∨
      (e = .valueError ∧ c.Trades ∧ o.side = some .long ∧ ¬ (c!"XSHE" <:+ o.code ∨ c!"XSHG" <:+ o.code)) ∨
      (e = .attributeError ∧ c.Trades ∧ o.side = some .long ∧ (c!"XSHE" <:+ o.code ∨ c!"XSHG" <:+ o.code) ∧ o.style = none) := by
  have hsym : ∀ x : PyErr, ((.error x : Py (List Str)) = .error e) ↔ e = x := fun x => ⟨fun h => (Except.error.inj h).symm, fun h => by rw [h]⟩
  have henc : (∃ s, encodeSecurity o.code = .ok s ∧ (c!"XSHE" <:+ o.code ∨ c!"XSHG" <:+ o.code)) ∨
      (encodeSecurity o.code = .error .valueError ∧ ¬ (c!"XSHE" <:+ o.code ∨ c!"XSHG" <:+ o.code)) := by
    by_cases h1 : c!"XSHE" <:+ o.code
    · have : endsWith o.code c!"XSHE" = true := by simpa [endsWith] using h1
      exact .inl ⟨_, by simp only [encodeSecurity, this, if_true]; rfl, .inl h1⟩
    · have h1' : endsWith o.code c!"XSHE" = false := by rw [Bool.eq_false_iff]; simpa [endsWith] using h1
      by_cases h2 : c!"XSHG" <:+ o.code
      · have : endsWith o.code c!"XSHG" = true := by simpa [endsWith] using h2
        exact .inl ⟨_, by simp only [encodeSecurity, this, h1', if_true]; rfl, .inr h2⟩
      · have h2' : endsWith o.code c!"XSHG" = false := by rw [Bool.eq_false_iff]; simpa [endsWith] using h2
        exact .inr ⟨by simp only [encodeSecurity, h1', h2']; rfl, by simp [h1, h2]⟩
  by_cases ht : c.Trades
  · obtain ⟨⟨a, ha, hne⟩, hty⟩ := id ht
    have hacc : c.account = .ok a := by simp [AXConf.account, ha, hne]
    by_cases hs : o.side = some .long
    · rcases henc with ⟨s, h1, h2⟩ | ⟨h1, h2⟩
      · cases hst : o.style with
        | none =>
          have : orderFields c now o = .error .attributeError := by
            simp only [orderFields, hacc, bind, Except.bind, hty, hs, h1, priceFields, hst]; rfl
          rw [this, hsym]; simp [ht, hs, h2]
        | some st =>
          have : ∃ l, orderFields c now o = .ok l := by
            simp only [orderFields, hacc, bind, Except.bind, hty, hs, h1, priceFields, hst]
            cases st <;> exact ⟨_, rfl⟩
          obtain ⟨l, hl⟩ := this
          rw [hl]; simp [ht, hs, h2]
      · have : orderFields c now o = .error .valueError := by
          simp only [orderFields, hacc, bind, Except.bind, hty, hs, h1]; rfl
        rw [this, hsym]
        simp only [ht, hs, h2, not_true_eq_false, and_false, false_or, not_false_eq_true, and_true, false_and, or_false]
    · have : orderFields c now o = .error .invalidParam := by
        simp only [orderFields, hacc, bind, Except.bind, hty]
        simp [hs]
      rw [this, hsym]; simp [hs]
  · have : orderFields c now o = .error .invalidParam := by
      simp only [orderFields, AXConf.account]
      cases ha : c.acctNo with
      | none => rfl
      | some a =>
        by_cases hne : a = []
        · simp [hne, bind, Except.bind]
        · have : c.acctType ≠ c!"STOCK" := fun h => ht ⟨⟨a, ha, hne⟩, h⟩
          simp [hne, bind, Except.bind, this]
    rw [this, hsym]; simp [ht]

end gate

/-! ## Order dictionaries -/
section load
variable {ν : Type} [PyNum ν]

/-- Something that an order cannot be made from is there, in spite of being given. -/
def OrderInfo.Unreadable (i : OrderInfo ν) : Prop :=
  (∃ a, i.action = some a ∧ a ≠ c!"open" ∧ a ≠ c!"close") ∨
  (∃ s, i.status = some s ∧ s ≠ [] ∧ ∀ x : Status, x.name ≠ s) ∨
  (∃ s, i.style = some (.name s) ∧ s ≠ [] ∧ s ≠ c!"market" ∧ s ≠ c!"limit") ∨
  (∃ s, (i.createTime = some (.str s) ∨ i.entrustTime = some (.str s)) ∧ s ≠ [] ∧ ∀ d, parseDt (.str s) ≠ .ok d) ∨
  (optStyle i.style ≠ none ∧ ∃ s, i.side = some s ∧ s ≠ c!"long" ∧ s ≠ c!"short")

private theorem action_kind (a : Str) : (Action.get a = .error .valueError ∧ a ≠ c!"open" ∧ a ≠ c!"close") ∨
    ((∃ x, Action.get a = .ok x) ∧ ¬ (a ≠ c!"open" ∧ a ≠ c!"close")) := by
  by_cases h1 : a = c!"open"
  · exact .inr ⟨⟨.opened, by rw [h1]; rfl⟩, fun h => h.1 h1⟩
  · by_cases h2 : a = c!"close"
    · exact .inr ⟨⟨.close, by rw [h2]; rfl⟩, fun h => h.2 h2⟩
    · exact .inl ⟨by simp [Action.get, h1, h2], h1, h2⟩

private theorem side_kind (a : Str) : (Side.get a = .error .valueError ∧ a ≠ c!"long" ∧ a ≠ c!"short") ∨
    ((∃ x, Side.get a = .ok x) ∧ ¬ (a ≠ c!"long" ∧ a ≠ c!"short")) := by
  by_cases h1 : a = c!"long"
  · exact .inr ⟨⟨.long, by rw [h1]; rfl⟩, fun h => h.1 h1⟩
  · by_cases h2 : a = c!"short"
    · exact .inr ⟨⟨.short, by rw [h2]; rfl⟩, fun h => h.2 h2⟩
    · exact .inl ⟨by simp [Side.get, h1, h2], h1, h2⟩

private theorem status_kind (x : Option Str) :
    (optParse Status.get (optStr x) = .error .valueError ∧ ∃ s, x = some s ∧ s ≠ [] ∧ ∀ y : Status, y.name ≠ s) ∨
    ((∃ y, optParse Status.get (optStr x) = .ok y) ∧ ¬ ∃ s, x = some s ∧ s ≠ [] ∧ ∀ y : Status, y.name ≠ s) := by
  cases x with
  | none => exact .inr ⟨⟨none, rfl⟩, by rintro ⟨s, h, _⟩; cases h⟩
  | some s =>
    by_cases hs : s = []
    · subst hs; exact .inr ⟨⟨none, rfl⟩, by rintro ⟨s, h, g, _⟩; injection h with h; exact g h.symm⟩
    · simp only [optStr, Option.bind_some, hs, if_false, optParse, Status.get]
      cases hf : Status.all.find? (fun x => decide (x.name = s)) with
      | none =>
        refine .inl ⟨rfl, s, rfl, by simp [hs], fun y hy => ?_⟩
        have := List.find?_eq_none.1 hf y (by cases y <;> decide)
        simp [hy] at this
      | some y =>
        refine .inr ⟨⟨some y, rfl⟩, ?_⟩
        rintro ⟨s', h, _, g⟩
        injection h with h
        have := List.find?_some hf
        simp only [decide_eq_true_eq] at this
        exact g y (this.trans h)

omit [PyNum ν] in
private theorem style_kind (x : Option (StyleVal ν)) (price : ν) :
    (optParse (fun v => Style.get v price) (optStyle x) = .error .valueError ∧ ∃ s, x = some (.name s) ∧ s ≠ [] ∧ s ≠ c!"market" ∧ s ≠ c!"limit") ∨
    ((∃ y, optParse (fun v => Style.get v price) (optStyle x) = .ok y) ∧
      ¬ ∃ s, x = some (.name s) ∧ s ≠ [] ∧ s ≠ c!"market" ∧ s ≠ c!"limit") := by
  cases x with
  | none => exact .inr ⟨⟨none, rfl⟩, by rintro ⟨s, h, _⟩; cases h⟩
  | some v =>
    cases v with
    | obj st => exact .inr ⟨⟨some st, rfl⟩, by rintro ⟨s, h, _⟩; cases h⟩
    | name s =>
      cases s with
      | nil => exact .inr ⟨⟨none, rfl⟩, by rintro ⟨s, h, g, _⟩; cases h; exact g rfl⟩
      | cons c s =>
        simp only [optStyle, optParse, Style.get]
        by_cases h1 : c :: s = c!"market"
        · rw [if_pos h1]; exact .inr ⟨⟨_, rfl⟩, by rintro ⟨s', h, _, g, _⟩; cases h; exact g h1⟩
        · rw [if_neg h1]
          by_cases h2 : c :: s = c!"limit"
          · rw [if_pos h2]; exact .inr ⟨⟨_, rfl⟩, by rintro ⟨s', h, _, _, g⟩; cases h; exact g h2⟩
          · rw [if_neg h2]; exact .inl ⟨rfl, _, rfl, by simp, h1, h2⟩

private theorem dt_kind (x : Option DtVal) :
    (optParse parseDt (optDt x) = .error .valueError ∧ ∃ s, x = some (.str s) ∧ s ≠ [] ∧ ∀ d, parseDt (.str s) ≠ .ok d) ∨
    ((∃ y, optParse parseDt (optDt x) = .ok y) ∧ ¬ ∃ s, x = some (.str s) ∧ s ≠ [] ∧ ∀ d, parseDt (.str s) ≠ .ok d) := by
  cases x with
  | none => exact .inr ⟨⟨none, rfl⟩, by rintro ⟨s, h, _⟩; cases h⟩
  | some v =>
    cases v with
    | dt d => exact .inr ⟨⟨some d, rfl⟩, by rintro ⟨s, h, _⟩; cases h⟩
    | str s =>
      cases s with
      | nil => exact .inr ⟨⟨none, rfl⟩, by rintro ⟨s, h, g, _⟩; cases h; exact g rfl⟩
      | cons c s =>
        simp only [optDt, optParse]
        cases hp : parseDt (.str (c :: s)) with
        | error x =>
          have hx : x = .valueError := by
            simp only [parseDt, parseDtStr, strptime] at hp
            repeat' (split at hp)
            all_goals first | exact (Except.error.inj hp).symm | cases hp
          subst hx
          exact .inl ⟨rfl, _, rfl, by simp, fun d hd => by rw [hp] at hd; cases hd⟩
        | ok d => exact .inr ⟨⟨some d, rfl⟩, by rintro ⟨s', h, _, g⟩; cases h; exact g d hp⟩

/-- An order is made from a dictionary with `TypeError` exactly if the code, the price, the amount or the action is missing, and otherwise with
`ValueError` exactly if one of the texts is none of those allowed. -/
theorem c90_order_unreadable (i : OrderInfo ν) (e : PyErr) :
    Order.load i = .error e ↔
      (e = .typeError ∧ (i.code = none ∨ i.price = none ∨ i.amount = none ∨ i.action = none)) ∨
      (e = .valueError ∧ i.code ≠ none ∧ i.price ≠ none ∧ i.amount ≠ none ∧ i.action ≠ none ∧ i.Unreadable) := by
  have hsym : ∀ x : PyErr, ((.error x : Py (Order ν)) = .error e) ↔ e = x := fun x => ⟨fun h => (Except.error.inj h).symm, fun h => by rw [h]⟩
  cases hcode : i.code with
  | none =>
    have : Order.load i = .error .typeError := by simp only [Order.load, hcode, needArg]; rfl
    rw [this, hsym]; simp
  | some code =>
  cases hprice : i.price with
  | none =>
    have : Order.load i = .error .typeError := by simp only [Order.load, hcode, hprice, needArg]; rfl
    rw [this, hsym]; simp
  | some price =>
  cases hamount : i.amount with
  | none =>
    have : Order.load i = .error .typeError := by simp only [Order.load, hcode, hprice, hamount, needArg]; rfl
    rw [this, hsym]; simp
  | some amount =>
  cases hact : i.action with
  | none =>
    have : Order.load i = .error .typeError := by simp only [Order.load, hcode, hprice, hamount, hact, needArg]; rfl
    rw [this, hsym]; simp
  | some act =>
  have key : (Order.load i = .error .valueError ∧ i.Unreadable) ∨ ((∃ o, Order.load i = .ok o) ∧ ¬ i.Unreadable) := by
    have ha := action_kind act
    have hs := status_kind i.status
    have hst := style_kind i.style price
    have hct := dt_kind i.createTime
    have het := dt_kind i.entrustTime
    have hsd := side_kind (i.side.getD c!"long")
    simp only [Order.load, hcode, hprice, hamount, hact, needArg, bind, Except.bind]
    rcases ha with ⟨ha, ga⟩ | ⟨⟨a, ha⟩, ga⟩
    · rw [ha]; exact .inl ⟨rfl, .inl ⟨act, hact, ga⟩⟩
    rw [ha]
    simp only
    rcases hs with ⟨hs, gs⟩ | ⟨⟨s, hs⟩, gs⟩
    · rw [hs]; exact .inl ⟨rfl, .inr (.inl gs)⟩
    rw [hs]
    simp only
    rcases hst with ⟨hst, gst⟩ | ⟨⟨st, hst⟩, gst⟩
    · rw [hst]; exact .inl ⟨rfl, .inr (.inr (.inl gst))⟩
    rw [hst]
    simp only
    rcases hct with ⟨hct, s, g1, g2⟩ | ⟨⟨ct, hct⟩, gct⟩
    · rw [hct]; exact .inl ⟨rfl, .inr (.inr (.inr (.inl ⟨s, .inl g1, g2⟩)))⟩
    rw [hct]
    simp only
    rcases het with ⟨het, s, g1, g2⟩ | ⟨⟨et, het⟩, get⟩
    · rw [het]; exact .inl ⟨rfl, .inr (.inr (.inr (.inl ⟨s, .inr g1, g2⟩)))⟩
    rw [het]
    simp only
    have hfin : ¬ (optStyle i.style ≠ none ∧ ∃ s, i.side = some s ∧ s ≠ c!"long" ∧ s ≠ c!"short") → ¬ i.Unreadable := by
      rintro h (⟨a, ha', g⟩ | h' | h' | ⟨s, h' | h', g⟩ | h')
      · rw [hact] at ha'; injection ha' with ha'; subst ha'; exact ga g
      · exact gs h'
      · exact gst h'
      · exact gct ⟨s, h', g⟩
      · exact get ⟨s, h', g⟩
      · exact h h'
    cases ho : optStyle i.style with
    | none =>
      refine .inr ⟨?_, hfin (by simp [ho])⟩
      simp only [Option.isSome_none, Bool.false_eq_true, if_false]
      exact ⟨_, rfl⟩
    | some v =>
      simp only [Option.isSome_some, if_true]
      rcases hsd with ⟨hsd, g1, g2⟩ | ⟨⟨sd, hsd⟩, g⟩
      · rw [hsd]
        refine .inl ⟨rfl, .inr (.inr (.inr (.inr ⟨by simp [ho], ?_⟩)))⟩
        cases hside : i.side with
        | none => rw [hside] at g1; exact absurd rfl g1
        | some s => rw [hside] at g1 g2; exact ⟨s, rfl, g1, g2⟩
      · rw [hsd]
        refine .inr ⟨⟨_, rfl⟩, hfin ?_⟩
        rintro ⟨_, s, hs', g1, g2⟩
        rw [hs'] at g
        exact g ⟨g1, g2⟩
  rcases key with ⟨h, g⟩ | ⟨⟨o, h⟩, g⟩
  · rw [h, hsym]; simp [g]
  · rw [h]; simp [g]

/-- Non-vacuity: a price is missing, a status is misspelt, a date does not exist; a side is only looked at if there is a style. -/
example : Order.load (ν := Int) { code := some c!"1", amount := some 1, action := some c!"sell" } = .error .typeError ∧
    Order.load (ν := Int) { code := some c!"1", price := some 1, amount := some 1, action := some c!"open", status := some c!"opened" } = .error .valueError ∧
    Order.load (ν := Int) { code := some c!"1", price := some 1, amount := some 1, action := some c!"open", createTime := some (.str c!"2023-02-29 10:00:00") } =
      .error .valueError ∧
    Order.load (ν := Int) { code := some c!"1", price := some 1, amount := some 1, action := some c!"open", style := some (.name c!"limit"), side := some c!"x" } =
      .error .valueError ∧
    ∃ o, Order.load (ν := Int) { code := some c!"1", price := some 1, amount := some 1, action := some c!"open", side := some c!"x" } = .ok o := by
  refine ⟨rfl, rfl, by decide +kernel, rfl, _, rfl⟩

end load

/-! ## Codes of the balance files -/

/-- A code of the balance file is refused exactly if it ends neither with SZ nor with SH. -/
theorem c90_code_refused (code : Str) (e : PyErr) :
    decodeSecurity code = .error e ↔ e = .valueError ∧ ∀ p : Str, code ≠ p ++ c!"SZ" ∧ code ≠ p ++ c!"SH" := by
  have hends : ∀ t : Str, endsWith code t = true ↔ ∃ p : Str, code = p ++ t := by
    intro t
    simp only [endsWith, List.isSuffixOf_iff_suffix]
    exact ⟨fun ⟨p, hp⟩ => ⟨p, hp.symm⟩, fun ⟨p, hp⟩ => ⟨p, hp.symm⟩⟩
  simp only [decodeSecurity]
  split
  · rename_i h
    obtain ⟨p, hp⟩ := (hends _).1 h
    exact ⟨fun h => (by cases h), fun h => absurd hp (h.2 p).1⟩
  · rename_i h1
    split
    · rename_i h
      obtain ⟨p, hp⟩ := (hends _).1 h
      exact ⟨fun h => (by cases h), fun h => absurd hp (h.2 p).2⟩
    · rename_i h2
      exact ⟨fun h => ⟨(Except.error.inj h).symm, fun p => ⟨fun h => h1 ((hends _).2 ⟨p, h⟩), fun h => h2 ((hends _).2 ⟨p, h⟩)⟩⟩, fun h => by rw [h.1]⟩

example : decodeSecurity c!"600000.SH" = .ok c!"600000.XSHG" ∧ decodeSecurity c!"600000.HK" = .error .valueError := by decide

/-! ## The tables -/

/-- The lines of a file that are not skipped. -/
def tableLines (text : Str) : List Str := ((rawLines text).map (·.1)).filter fun l => !blankLine l

private theorem splitOn_count (s : Str) : (splitOn ',' s).length = s.count ',' + 1 := by
  induction s with
  | nil => rfl
  | cons c s ih =>
    by_cases hc : c = ','
    · subst hc
      simp only [splitOn, if_true, List.length_cons, List.count_cons_self, ih]
    · simp only [splitOn, hc, if_false]
      rw [List.count_cons_of_ne hc, ← ih]
      cases hs : splitOn ',' s with
      | nil => exact absurd hs (splitOn_ne_nil ',' s)
      | cons p ps => simp

private theorem rowsOf_kind (h : Str) (ls : List Str) :
    (rowsOf (splitOn ',' h).length ls = .error .parserError ∧ ∃ l ∈ ls, h.count ',' < l.count ',') ∨
    ((∃ rows, rowsOf (splitOn ',' h).length ls = .ok rows) ∧ ∀ l ∈ ls, l.count ',' ≤ h.count ',') := by
  induction ls with
  | nil => exact .inr ⟨⟨[], rfl⟩, by simp⟩
  | cons l ls ih =>
    simp only [rowsOf, rowOf, List.length_map, splitOn_count] at ih ⊢
    by_cases hl : l.count ',' + 1 ≤ h.count ',' + 1
    · simp only [if_pos hl]
      rcases ih with ⟨h1, l', h2, h3⟩ | ⟨⟨rows, h1⟩, h2⟩
      · rw [h1]; exact .inl ⟨rfl, l', .tail _ h2, h3⟩
      · rw [h1]
        refine .inr ⟨⟨_, rfl⟩, fun x hx => ?_⟩
        cases hx with
        | head => omega
        | tail _ hx => exact h2 x hx
    · simp only [if_neg hl]
      exact .inl ⟨trivial, l, .head _, by omega⟩

/-- A table of the broker is refused with the exception that says what is wrong with the file: it is not there; it has no lines; a line has more
commas than the first; there is only the first line; the last line is not empty. -/
theorem c90_table_refused (file : Option Str) (e : PyErr) :
    readCsv file = .error e ↔
      (file = none ∧ e = .fileNotFound) ∨
      ∃ text, file = some text ∧
        ((tableLines text = [] ∧ e = .valueError) ∨
         ∃ h ls, tableLines text = h :: ls ∧
          (((∃ l ∈ ls, h.count ',' < l.count ',') ∧ e = .parserError) ∨
           ((∀ l ∈ ls, l.count ',' ≤ h.count ',') ∧
             ((ls = [] ∧ e = .keyError) ∨
              ∃ l, ls.getLast? = some l ∧ (∃ w ∈ splitOn ',' l, w ∉ naWords) ∧ e = .osError)))) := by
  have hsym : ∀ x : PyErr, ((.error x : Py Csv) = .error e) ↔ e = x := fun x => ⟨fun h => (Except.error.inj h).symm, fun h => by rw [h]⟩
  cases file with
  | none => simp only [readCsv, hsym]; simp
  | some text =>
    have hp : parseCsv text = (match tableLines text with
      | [] => .error .valueError
      | h :: ls =>
        match rowsOf (splitOn ',' h).length ls with
        | .error e => .error e
        | .ok rows => .ok ⟨splitOn ',' h, rows⟩) := rfl
    simp only [readCsv, hp]
    simp only [reduceCtorEq, false_and, false_or, Option.some.injEq, exists_eq_left']
    cases ht : tableLines text with
    | nil => simp only [hsym]; simp
    | cons h ls =>
      simp only [reduceCtorEq, false_and, false_or, List.cons.injEq]
      have hone : ∀ P : Str → List Str → Prop, (∃ h' ls', (h = h' ∧ ls = ls') ∧ P h' ls') ↔ P h ls :=
        fun P => ⟨fun ⟨_, _, ⟨a, b⟩, c⟩ => by rw [a, b]; exact c, fun c => ⟨h, ls, ⟨rfl, rfl⟩, c⟩⟩
      rw [hone (fun h ls => ((∃ l ∈ ls, h.count ',' < l.count ',') ∧ e = .parserError) ∨
           ((∀ l ∈ ls, l.count ',' ≤ h.count ',') ∧
             ((ls = [] ∧ e = .keyError) ∨
              ∃ l, ls.getLast? = some l ∧ (∃ w ∈ splitOn ',' l, w ∉ naWords) ∧ e = .osError)))]
      rcases rowsOf_kind h ls with ⟨h1, l, h2, h3⟩ | ⟨⟨rows, h1⟩, h2⟩
      · rw [h1]
        simp only [hsym]
        constructor
        · exact fun he => .inl ⟨⟨l, h2, h3⟩, he⟩
        · rintro (⟨_, he⟩ | ⟨h4, _⟩)
          · exact he
          · exact absurd (h4 l h2) (by omega)
      · rw [h1]
        simp only
        have hno : ¬ ∃ l ∈ ls, h.count ',' < l.count ',' := fun ⟨l, hl, hc⟩ => absurd (h2 l hl) (by omega)
        simp only [hno, false_and, false_or]
        rcases rowsOf_last h1 with ⟨rfl, rfl⟩ | ⟨l, r, h3, h4, h5⟩
        · simp only [List.getLast?_nil, hsym]; simp
        · rw [h4]
          have hne : ls ≠ [] := by rintro rfl; cases h3
          have hall : r.all (·.isNone) = true ↔ ∀ w ∈ splitOn ',' l, w ∈ naWords := by
            simp only [rowOf, List.length_map] at h5
            split at h5
            · cases h5
              rw [List.all_append, Bool.and_eq_true, List.all_eq_true, List.all_eq_true]
              constructor
              · rintro ⟨hx, _⟩ w hw
                have := hx (cellOf w) (List.mem_map_of_mem hw)
                simp only [cellOf] at this
                split at this
                · assumption
                · cases this
              · intro hx
                refine ⟨fun x hx' => ?_, fun x hx' => ?_⟩
                · obtain ⟨w, hw, rfl⟩ := List.mem_map.1 hx'
                  simp [cellOf, hx w hw]
                · rw [(List.mem_replicate.1 hx').2]; rfl
            · cases h5
          simp only [hne, false_and, false_or, h3, Option.some.injEq, exists_eq_left']
          by_cases hr : r.all (·.isNone) = true
          · simp only [hr, if_true]
            constructor
            · intro h; cases h
            · rintro ⟨_, ⟨w, hw, hw'⟩, _⟩
              exact absurd (hall.1 hr w hw) hw'
          · simp only [if_neg hr, hsym]
            constructor
            · intro he
              refine ⟨h2, ?_, he⟩
              false_or_by_contra
              rename_i hnot
              refine hr (hall.2 fun w hw => ?_)
              false_or_by_contra
              rename_i hw'
              exact hnot ⟨w, hw, hw'⟩
            · exact fun h => h.2.2

/-- Non-vacuity: each of the five, and a table that is accepted. -/
example : readCsv none = .error .fileNotFound ∧ readCsv (some c!" \n\n") = .error .valueError ∧ readCsv (some c!"a,b\n1,2,3\n,\n") = .error .parserError ∧
    readCsv (some c!"a,b\n") = .error .keyError ∧ readCsv (some c!"a,b\n1,2\n") = .error .osError ∧
    readCsv (some c!"a,b\n1,2\n,\n") = .ok ⟨[c!"a", c!"b"], [[some c!"1", some c!"2"], [none, none]]⟩ := by decide +kernel

private theorem bind_error {α β : Type} (x : Py α) (f : α → Py β) (e : PyErr) :
    (x >>= f) = .error e ↔ x = .error e ∨ ∃ a, x = .ok a ∧ f a = .error e := by
  cases x with
  | error y => simp [bind, Except.bind]
  | ok a => simp [bind, Except.bind]

/-- The balance is refused for the parameters exactly if the asset file is there and the account has no number; every other refusal is about the
files. -/
theorem c90_balance_refused {ν : Type} [CellNum ν] (env : Env) (s : AX ν) :
    (AX.balance env s = .error .invalidParam ↔ env.assetsThere = true ∧ s.conf.acctNo.getD [] = []) ∧
    ∀ e, AX.balance env s = .error e → e ∈ [PyErr.invalidParam, .fileNotFound, .valueError, .parserError, .keyError, .osError, .attributeError] := by
  have hread : ∀ (c : Nat → Option Str) (e : PyErr), (wrapAgain (fun n : Nat => (n + 1, readCsv (c n))) s.conf.maxAttempts 0).2 = .error e →
      e ∈ [PyErr.fileNotFound, .valueError, .parserError, .keyError, .osError] := by
    intro c e h
    obtain ⟨j, _, h2, _, _⟩ := c45_after_set_options_partial s.conf.maxAttempts (fun n => readCsv (c n)) 0
    have h3 : (wrapAgain (fun n : Nat => (n + 1, readCsv (c n))) s.conf.maxAttempts 0).2 = readCsv (c (0 + j)) := congrArg Prod.snd h2
    rw [h3] at h
    rcases (c90_table_refused _ e).1 h with ⟨_, rfl⟩ | ⟨t, _, ⟨_, rfl⟩ | ⟨_, _, _, ⟨_, rfl⟩ | ⟨_, ⟨_, rfl⟩ | ⟨_, _, _, rfl⟩⟩⟩⟩ <;> simp
  have hcol : ∀ (t : Csv) row name e, t.col row name = .error e → e = .attributeError := by
    intro t row name e h
    simp only [Csv.col] at h
    split at h
    · exact (Except.error.inj h).symm
    · cases h
  have hor : ∀ {α : Type} (x : Option α) e, orValueError x = .error e → e = .valueError := by
    intro α x e h
    cases x with
    | none => exact (Except.error.inj h).symm
    | some a => cases h
  have hnum : ∀ (t : Csv) row name e, (t.num row name : Py ν) = .error e → e = .attributeError ∨ e = .valueError := by
    intro t row name e h
    simp only [Csv.num] at h
    cases hc : t.col row name with
    | error x => rw [hc] at h; exact .inl ((Except.error.inj h).symm.trans (hcol _ _ _ _ hc))
    | ok c => rw [hc] at h; exact .inr (hor _ _ h)
  have hint : ∀ (t : Csv) row name e, (t.int ν row name) = .error e → e = .attributeError ∨ e = .valueError := by
    intro t row name e h
    simp only [Csv.int] at h
    cases hc : t.col row name with
    | error x => rw [hc] at h; exact .inl ((Except.error.inj h).symm.trans (hcol _ _ _ _ hc))
    | ok c => rw [hc] at h; exact .inr (hor _ _ h)
  have hcash : ∀ (acct : Str) (t : Csv) rows (c : Option (CashInfo ν)) e, cashLoop acct t rows c = .error e → e = .attributeError ∨ e = .valueError := by
    intro acct t rows
    induction rows with
    | nil => intro c e h; cases h
    | cons row rows ih =>
      intro c e h
      simp only [cashLoop, bind_error] at h
      rcases h with h | ⟨a, _, h⟩
      · exact .inl (hcol _ _ _ _ h)
      split at h
      · exact ih _ _ h
      rw [bind_error] at h
      rcases h with h | ⟨x, _, h⟩
      · exact .inl (hcol _ _ _ _ h)
      split at h
      · exact ih _ _ h
      rw [bind_error] at h
      rcases h with h | ⟨c', _, h⟩
      · simp only [cashOfRow, bind_error] at h
        rcases h with h | ⟨_, _, h | ⟨_, _, h | ⟨_, _, h | ⟨_, _, h⟩⟩⟩⟩
        · exact hnum _ _ _ _ h
        · exact hnum _ _ _ _ h
        · exact hnum _ _ _ _ h
        · exact hnum _ _ _ _ h
        · cases h
      · exact ih _ _ h
  have hpos : ∀ (acct : Str) (t : Csv) rows e, (posLoop acct t rows : Py (List (PosInfo ν))) = .error e → e = .attributeError ∨ e = .valueError := by
    intro acct t rows
    induction rows with
    | nil => intro e h; cases h
    | cons row rows ih =>
      intro e h
      simp only [posLoop, bind_error] at h
      rcases h with h | ⟨a, _, h⟩
      · exact .inl (hcol _ _ _ _ h)
      split at h
      · exact ih _ h
      rw [bind_error] at h
      rcases h with h | ⟨sym, _, h⟩
      · exact .inl (hcol _ _ _ _ h)
      cases sym with
      | none => cases h
      | some symbol =>
        simp only [bind_error] at h
        rcases h with h | ⟨q, _, h⟩
        · exact hint _ _ _ _ h
        split at h
        · exact ih _ h
        rw [bind_error] at h
        rcases h with h | ⟨p, _, h⟩
        · simp only [posOfRow, bind_error] at h
          rcases h with h | ⟨_, _, h | ⟨_, _, h | ⟨_, _, h | ⟨_, _, h | ⟨_, _, h | ⟨_, _, h⟩⟩⟩⟩⟩⟩
          · exact .inr ((c90_code_refused _ _).1 h).1
          · exact hint _ _ _ _ h
          · exact hint _ _ _ _ h
          · exact hnum _ _ _ _ h
          · exact hnum _ _ _ _ h
          · exact hnum _ _ _ _ h
          · cases h
        · rw [bind_error] at h
          rcases h with h | ⟨_, _, h⟩
          · exact ih _ h
          · cases h
  have hthere : ∀ b e, checkThere b = .error e → e = .fileNotFound := by
    intro b e h
    cases b with
    | false => exact (Except.error.inj h).symm
    | true => cases h
  -- after the number of the account
  have hrest : ∀ acct e, (do
      let t ← (wrapAgain (fun n : Nat => (n + 1, readCsv (env.assets n))) s.conf.maxAttempts 0).2
      let cash ← cashLoop acct t t.rows none
      checkThere env.positionsThere
      let p ← (wrapAgain (fun n : Nat => (n + 1, readCsv (env.positions n))) s.conf.maxAttempts 0).2
      let ps ← posLoop acct p p.rows
      return ⟨cash, some ps⟩ : Py (BalInfo ν)) = .error e → e ∈ [PyErr.fileNotFound, .valueError, .parserError, .keyError, .osError, .attributeError] := by
    intro acct e h
    have h' : e ∈ [PyErr.fileNotFound, .valueError, .parserError, .keyError, .osError] ∨ e = .attributeError ∨ e = .valueError := by
      rw [bind_error] at h
      rcases h with h | ⟨t, _, h⟩
      · exact .inl (hread _ _ h)
      rw [bind_error] at h
      rcases h with h | ⟨c, _, h⟩
      · exact .inr (hcash _ _ _ _ _ h)
      rw [bind_error] at h
      rcases h with h | ⟨_, _, h⟩
      · rw [hthere _ _ h]; simp
      rw [bind_error] at h
      rcases h with h | ⟨p, _, h⟩
      · exact .inl (hread _ _ h)
      rw [bind_error] at h
      rcases h with h | ⟨ps, _, h⟩
      · exact .inr (hpos _ _ _ _ h)
      · cases h
    rcases h' with h' | rfl | rfl
    · simp only [List.mem_cons, List.not_mem_nil, or_false] at h' ⊢
      rcases h' with h' | h' | h' | h' | h' <;> simp [h']
    · simp
    · simp
  simp only [AX.balance, balanceOf]
  cases hth : env.assetsThere with
  | false =>
    constructor
    · constructor
      · intro h; cases h
      · intro h; cases h.1
    · intro e h; cases h; simp
  | true =>
    cases ha : s.conf.acctNo with
    | none => exact ⟨⟨fun _ => ⟨rfl, rfl⟩, fun _ => rfl⟩, fun e h => by cases h; simp⟩
    | some a =>
      by_cases hn : a = []
      · subst hn
        exact ⟨⟨fun _ => ⟨rfl, rfl⟩, fun _ => rfl⟩, fun e h => by cases h; simp⟩
      · simp only [hn, if_false]
        refine ⟨⟨fun h => ?_, fun h => absurd h.2 hn⟩, fun e h => ?_⟩
        · have := hrest a _ h
          simp at this
        · exact List.mem_cons_of_mem _ (hrest a e h)

/-- Non-vacuity: no account, and no file; with an account, the file that is missing when it is read. -/
example : ∀ fs : Files,
    AX.balance (ν := Int) { now := ⟨2024, 1, 2, 9, 30, 0, 0⟩, day := c!"20240102" } ⟨{ acctNo := some [], dataDay := [] }, [], 0, 0, false, fs⟩ = .error .invalidParam ∧
    AX.balance (ν := Int) { now := ⟨2024, 1, 2, 9, 30, 0, 0⟩, day := c!"20240102", assetsThere := false }
      ⟨{ acctNo := none, dataDay := [] }, [], 0, 0, false, fs⟩ = .error .fileNotFound ∧
    AX.balance (ν := Int) { now := ⟨2024, 1, 2, 9, 30, 0, 0⟩, day := c!"20240102", assets := fun _ => some c!"acct\n1\n" }
      ⟨{ acctNo := some c!"1", dataDay := [] }, [], 0, 0, false, fs⟩ = .error .osError := fun _ => ⟨rfl, rfl, rfl⟩

/-! ## The reported balance -/

section balance
variable {ν : Type} [PyNum ν] {γ : Type}

/-- A reported position that misses a key. -/
def PosInfo.Misses (i : PosInfo ν) : Prop := i.side = none ∨ i.code = none ∨ i.amount = none ∨ i.avail = none ∨ i.avgCost = none

/-- A reported position with a side that is neither long nor short. -/
def PosInfo.OddSide (i : PosInfo ν) : Prop := ∃ s, i.side = some s ∧ s ≠ c!"long" ∧ s ≠ c!"short"

omit [PyNum ν] in
/-- A position is refused as incomplete exactly if a key is missing and its side, if there, is long or short; and as wrong exactly if its side is
neither. -/
theorem c90_position_refused (i : PosInfo ν) (e : PyErr) :
    Pos.load i = .error e ↔ (e = .valueError ∧ i.OddSide) ∨ (e = .keyError ∧ i.Misses ∧ ¬ i.OddSide) := by
  have hsym : ∀ x : PyErr, ((.error x : Py (Pos ν)) = .error e) ↔ e = x := fun x => ⟨fun h => (Except.error.inj h).symm, fun h => by rw [h]⟩
  simp only [PosInfo.OddSide, PosInfo.Misses, Pos.load]
  cases hs : i.side with
  | none => simp only [needKey, bind, Except.bind, hsym]; simp
  | some s =>
    rcases side_kind s with ⟨h1, h2, h3⟩ | ⟨⟨sd, h1⟩, h2⟩
    · simp only [needKey, bind, Except.bind, h1, hsym]
      simp [h2, h3]
    · have hodd : ¬ ∃ s', some s = some s' ∧ s' ≠ c!"long" ∧ s' ≠ c!"short" := by
        rintro ⟨s', h, h'⟩
        injection h with h
        subst h
        exact h2 h'
      simp only [needKey, bind, Except.bind, h1, hodd, and_false, false_or, not_false_eq_true, and_true, reduceCtorEq]
      cases i.code with
      | none => simp only [hsym]; simp
      | some _ =>
      cases i.amount with
      | none => simp only [hsym]; simp
      | some _ =>
      cases i.avail with
      | none => simp only [hsym]; simp
      | some _ =>
      cases i.avgCost with
      | none => simp only [hsym]; simp
      | some _ => simp [pure, Except.pure]

/-- What a synchronisation of the balance reports as an error: cash or positions are missing (`ValueError`), or the first position that cannot be
taken over, with its own exception. -/
theorem c90_balance_unreadable (info : BalInfo ν) (a : Acct γ ν) (e : PyErr) :
    (a.applyBalance info).2 = .error e ↔
      (e = .valueError ∧ (info.cash = none ∨ info.positions = none)) ∨
      (info.cash ≠ none ∧ ∃ pre i post, info.positions = some (pre ++ i :: post) ∧ (∀ j ∈ pre, ¬ j.Misses ∧ ¬ j.OddSide) ∧
        ((e = .valueError ∧ i.OddSide) ∨ (e = .keyError ∧ i.Misses ∧ ¬ i.OddSide))) := by
  have hsym : ∀ x : PyErr, ((.error x : Py Unit) = .error e) ↔ e = x := fun x => ⟨fun h => (Except.error.inj h).symm, fun h => by rw [h]⟩
  have hok : ∀ j : PosInfo ν, (∃ p, Pos.load j = .ok p) ↔ ¬ j.Misses ∧ ¬ j.OddSide := by
    intro j
    cases h : Pos.load j with
    | ok p =>
      refine ⟨fun _ => ?_, fun _ => ⟨p, rfl⟩⟩
      have h1 := (c90_position_refused j .valueError)
      have h2 := (c90_position_refused j .keyError)
      rw [h] at h1 h2
      simp only [reduceCtorEq, false_iff, true_and, false_and, or_false, false_or, not_and] at h1 h2
      exact ⟨fun hm => h2 hm h1, h1⟩
    | error x =>
      refine ⟨fun ⟨_, h'⟩ => (by cases h'), fun ⟨h1, h2⟩ => ?_⟩
      rcases (c90_position_refused j x).1 h with ⟨_, h3⟩ | ⟨_, h3, _⟩
      · exact absurd h3 h2
      · exact absurd h3 h1
  have hload : ∀ (ps : List (PosInfo ν)) (a : Acct γ ν), (Acct.loadPositions ps a).2 = .error e ↔
      ∃ pre i post, ps = pre ++ i :: post ∧ (∀ j ∈ pre, ¬ j.Misses ∧ ¬ j.OddSide) ∧
        ((e = .valueError ∧ i.OddSide) ∨ (e = .keyError ∧ i.Misses ∧ ¬ i.OddSide)) := by
    intro ps
    induction ps with
    | nil =>
      intro a
      simp only [Acct.loadPositions]
      constructor
      · intro h; cases h
      · rintro ⟨pre, i, post, h, _⟩; simp at h
    | cons q ps ih =>
      intro a
      simp only [Acct.loadPositions]
      cases hq : Pos.load q with
      | error x =>
        simp only [hsym]
        constructor
        · intro he
          exact ⟨[], q, ps, rfl, by simp, (c90_position_refused q e).1 (by rw [hq, he])⟩
        · rintro ⟨pre, i, post, h1, h2, h3⟩
          cases pre with
          | nil =>
            simp only [List.nil_append, List.cons.injEq] at h1
            have := (c90_position_refused i e).2 h3
            rw [← h1.1, hq] at this
            exact (Except.error.inj this).symm
          | cons j pre =>
            simp only [List.cons_append, List.cons.injEq] at h1
            obtain ⟨p, hp⟩ := (hok j).2 (h2 j (.head _))
            rw [← h1.1, hq] at hp
            cases hp
      | ok p =>
        simp only
        rw [ih]
        constructor
        · rintro ⟨pre, i, post, h1, h2, h3⟩
          refine ⟨q :: pre, i, post, by rw [h1]; rfl, fun j hj => ?_, h3⟩
          cases hj with
          | head => exact (hok q).1 ⟨p, hq⟩
          | tail _ hj => exact h2 j hj
        · rintro ⟨pre, i, post, h1, h2, h3⟩
          cases pre with
          | nil =>
            simp only [List.nil_append, List.cons.injEq] at h1
            have := (c90_position_refused i e).2 h3
            rw [← h1.1, hq] at this
            cases this
          | cons j pre =>
            simp only [List.cons_append, List.cons.injEq] at h1
            exact ⟨pre, i, post, h1.2, fun j hj => h2 j (.tail _ hj), h3⟩
  simp only [Acct.applyBalance]
  cases hc : info.cash with
  | none => simp only [hsym]; simp
  | some c =>
    cases hp : info.positions with
    | none => simp only [hsym]; simp
    | some ps =>
      simp only [hload]
      simp

/-- Non-vacuity: an unknown side is found only if the positions before it are complete. -/
example : (({ gate := (), total := 0, avail := 0, locked := 0 } : Acct Unit Int).applyBalance ⟨some ⟨none, none, none⟩, some [{ side := some c!"x" }]⟩).2 = .error .valueError ∧
    (({ gate := (), total := 0, avail := 0, locked := 0 } : Acct Unit Int).applyBalance ⟨some ⟨none, none, none⟩, some [{ side := some c!"long" }, { side := some c!"x" }]⟩).2 = .error .keyError ∧
    (({ gate := (), total := 0, avail := 0, locked := 0 } : Acct Unit Int).applyBalance ⟨none, some []⟩).2 = .error .valueError := ⟨rfl, rfl, rfl⟩

end balance

/-! ## A report about an order -/

/-- A report about an order is refused as unknown exactly if its status is none of the broker's, and otherwise as wrong exactly if its time or one
of its numbers cannot be read. -/
theorem c90_report_refused {ν : Type} [GateNum ν] (o : OrderInfo ν) (l : OrderLine) (e : PyErr) :
    (updateOrder o l).2 = .error e ↔
      (e = .parserError ∧ ∀ st, (l.status, st) ∉ brokerStatuses) ∨
      (e = .valueError ∧ (∃ st, (l.status, st) ∈ brokerStatuses) ∧
        ((∀ d, strptime mCompact (l.orderDate ++ l.orderTime) ≠ .ok d) ∨ pyInt l.filledQty = none ∨ (GateNum.parse l.filledAmt : Option ν) = none ∨
         pyInt l.cancelQty = none ∨ (GateNum.parse l.avgPrice : Option ν) = none)) := by
  have hsym : ∀ x : PyErr, ((.error x : Py Unit) = .error e) ↔ e = x := fun x => ⟨fun h => (Except.error.inj h).symm, fun h => by rw [h]⟩
  simp only [updateOrder]
  cases hst : parseStatus l.status with
  | error x =>
    have hx : x = .parserError := by
      simp only [parseStatus] at hst
      repeat' (split at hst)
      all_goals first | exact (Except.error.inj hst).symm | cases hst
    subst hx
    have hno : ∀ st, (l.status, st) ∉ brokerStatuses := fun st h => by rw [(c60_status_codes _ _).2 h] at hst; cases hst
    simp only [hsym]
    simp [hno]
  | ok st =>
    have hin : (l.status, st) ∈ brokerStatuses := (c60_status_codes _ _).1 hst
    have h1 : ¬ ∀ st, (l.status, st) ∉ brokerStatuses := fun h => h st hin
    have h2 : ∃ st, (l.status, st) ∈ brokerStatuses := ⟨st, hin⟩
    simp only [h1, h2, and_false, false_or, true_and]
    cases ht : strptime mCompact (l.orderDate ++ l.orderTime) with
    | error x =>
      have hx : x = .valueError := by
        simp only [strptime] at ht
        repeat' (split at ht)
        all_goals first | exact (Except.error.inj ht).symm | cases ht
      subst hx
      simp only [hsym]
      simp
    | ok d =>
      cases pyInt l.filledQty with
      | none => simp only [hsym]; simp
      | some _ =>
      cases (GateNum.parse l.filledAmt : Option ν) with
      | none => simp only [hsym]; simp
      | some _ =>
      cases pyInt l.cancelQty with
      | none => simp only [hsym]; simp
      | some _ =>
      cases (GateNum.parse l.avgPrice : Option ν) with
      | none => simp only [hsym]; simp
      | some _ => simp

/-- Non-vacuity. -/
example : (updateOrder (ν := Int) {} ⟨c!"20240102", c!"100000", c!"6", c!"0", c!"0", c!"0", c!"0", c!"1", c!"1", []⟩).2 = .error .parserError ∧
    (updateOrder (ν := Int) {} ⟨c!"20240102", c!"100000", c!"2", c!"many", c!"0", c!"0", c!"0", c!"1", c!"1", []⟩).2 = .error .valueError ∧
    (updateOrder (ν := Int) {} ⟨c!"20240102", c!"100000", c!"2", c!"100", c!"0", c!"0", c!"0", c!"1", c!"1", []⟩).2 = .ok () := by decide +kernel

/-! ## The broker's files, with `ignore_error_line` off -/

section
variable {ν : Type} [GateNum ν]

/-- What is wrong with a report that has the right number of fields. -/
def OrderLine.Wrong (ν : Type) [GateNum ν] (l : OrderLine) (e : PyErr) : Prop :=
  (e = .parserError ∧ ∀ st, (l.status, st) ∉ brokerStatuses) ∨
  (e = .valueError ∧ (∃ st, (l.status, st) ∈ brokerStatuses) ∧
    ((∀ d, strptime mCompact (l.orderDate ++ l.orderTime) ≠ .ok d) ∨ pyInt l.filledQty = none ∨ (GateNum.parse l.filledAmt : Option ν) = none ∨
     pyInt l.cancelQty = none ∨ (GateNum.parse l.avgPrice : Option ν) = none))

/-- What is wrong with a line of the update file: it has too many fields, or it is about an order that the gate has and the report is wrong. -/
def WrongUpdate (b : Book ν) (raw : Str) (e : PyErr) : Prop :=
  ∃ items, lineKind 20 raw = .fields items ∧
    ((e = .typeError ∧ 20 < items.length) ∨ ∃ l, OrderLine.ofItems items = .ok l ∧ l.custBatchNo ∈ dkeys b ∧ l.Wrong ν e)

/-- What is wrong with a line of the result file: it has too many fields. -/
def WrongResult (raw : Str) (e : PyErr) : Prop := ∃ items, lineKind 6 raw = .fields items ∧ e = .typeError ∧ 6 < items.length

/-- The first line that is wrong, before any line that ends the reading. -/
def FirstWrong (cols : Nat) (wrong : Str → PyErr → Prop) (text : Str) (e : PyErr) : Prop :=
  ∃ pre l post, (rawLines text).map (·.1) = pre ++ l :: post ∧ wrong l e ∧ ∀ x ∈ pre, lineKind cols x ≠ .stop ∧ ∀ e', ¬ wrong x e'

private theorem lineKind_length {cols : Nat} {raw : Str} {items : List Str} (h : lineKind cols raw = .fields items) : cols ≤ items.length := by
  simp only [lineKind] at h
  repeat' (split at h)
  all_goals first | cases h; done | skip
  rename_i hn
  injection h with h
  rw [← h]
  exact Nat.le_of_not_lt hn

omit [GateNum ν] in
private theorem pollLoop_raises (cols : Nat) (f : Book ν → List Str → LineRes ν) (hf : LineFun f) (wrong : Str → PyErr → Prop) (K : List Str)
    (hw : ∀ b raw e, dkeys b = K → (wrong raw e ↔ ∃ items b', lineKind cols raw = .fields items ∧ f b items = .failed b' e)) (e : PyErr)
    (ls : List (Str × Nat)) (pos : Nat) (b : Book ν) (off : Nat) (hb : dkeys b = K) :
    (pollLoop cols f false ls pos b off).2 = .raised e ↔
      ∃ pre l post, ls.map (·.1) = pre ++ l :: post ∧ wrong l e ∧ ∀ x ∈ pre, lineKind cols x ≠ .stop ∧ ∀ e', ¬ wrong x e' := by
  induction ls generalizing pos b off with
  | nil => simp [pollLoop]
  | cons l ls ih =>
    obtain ⟨raw, n⟩ := l
    -- the first line is in order
    have skip : lineKind cols raw ≠ .stop → (∀ e', ¬ wrong raw e') →
        ((∃ pre l post, ls.map (·.1) = pre ++ l :: post ∧ wrong l e ∧ ∀ x ∈ pre, lineKind cols x ≠ .stop ∧ ∀ e', ¬ wrong x e') ↔
         ∃ pre l post, ((raw, n) :: ls).map (·.1) = pre ++ l :: post ∧ wrong l e ∧ ∀ x ∈ pre, lineKind cols x ≠ .stop ∧ ∀ e', ¬ wrong x e') := by
      intro h1 h2
      constructor
      · rintro ⟨pre, l, post, g1, g2, g3⟩
        refine ⟨raw :: pre, l, post, by simp [g1], g2, ?_⟩
        intro x hx
        rcases List.mem_cons.1 hx with rfl | hx
        · exact ⟨h1, h2⟩
        · exact g3 x hx
      · rintro ⟨pre, l, post, g1, g2, g3⟩
        cases pre with
        | nil =>
          simp only [List.map_cons, List.nil_append, List.cons.injEq] at g1
          rw [← g1.1] at g2
          exact absurd g2 (h2 e)
        | cons x pre =>
          simp only [List.map_cons, List.cons_append, List.cons.injEq] at g1
          exact ⟨pre, l, post, g1.2, g2, fun y hy => g3 y (List.mem_cons_of_mem _ hy)⟩
    have okay : (∀ items b' e', lineKind cols raw = .fields items → f b items ≠ .failed b' e') → ∀ e', ¬ wrong raw e' := by
      intro h e' hwr
      obtain ⟨items, b', g1, g2⟩ := (hw b raw e' hb).1 hwr
      exact h _ _ _ g1 g2
    simp only [pollLoop]
    cases hk : lineKind cols raw with
    | stop =>
      simp only
      constructor
      · intro h; cases h
      · rintro ⟨pre, l, post, g1, g2, g3⟩
        cases pre with
        | nil =>
          simp only [List.map_cons, List.nil_append, List.cons.injEq] at g1
          rw [← g1.1, hw b _ _ hb, hk] at g2
          obtain ⟨_, _, h, _⟩ := g2
          cases h
        | cons x pre =>
          simp only [List.map_cons, List.cons_append, List.cons.injEq] at g1
          have := (g3 x (by simp)).1
          rw [← g1.1] at this
          exact absurd hk this
    | header =>
      simp only
      rw [ih _ _ _ hb]
      exact skip (by rw [hk]; simp) (okay (by intro items b' e' h; rw [hk] at h; cases h))
    | fields items =>
      have good : (∀ b' e', f b items ≠ .failed b' e') → ∀ e', ¬ wrong raw e' := by
        intro h
        refine okay ?_
        intro items' b' e' h'
        rw [hk] at h'
        injection h' with h'
        rw [← h']
        exact h b' e'
      simp only
      cases hr : f b items with
      | unknown =>
        simp only
        rw [ih _ _ _ hb]
        exact skip (by rw [hk]; simp) (good (by simp [hr]))
      | done b' =>
        simp only
        rw [ih _ _ _ ((hf.keys_done _ _ _ hr).trans hb)]
        exact skip (by rw [hk]; simp) (good (by simp [hr]))
      | failed b' e' =>
        have hbad : ∀ e'', wrong raw e'' ↔ e' = e'' := by
          intro e''
          rw [hw b raw e'' hb]
          constructor
          · rintro ⟨items', b'', h1, h2⟩
            rw [hk] at h1
            injection h1 with h1
            rw [← h1, hr] at h2
            injection h2
          · rintro rfl
            exact ⟨items, b', hk, hr⟩
        simp only [Bool.false_eq_true, if_false, PollEnd.raised.injEq]
        constructor
        · rintro rfl
          exact ⟨[], raw, ls.map (·.1), by simp, (hbad _).2 rfl, by simp⟩
        · rintro ⟨pre, l, post, g1, g2, g3⟩
          cases pre with
          | nil =>
            simp only [List.map_cons, List.nil_append, List.cons.injEq] at g1
            rw [← g1.1] at g2
            exact (hbad _).1 g2
          | cons x pre =>
            simp only [List.map_cons, List.cons_append, List.cons.injEq] at g1
            have := (g3 x (by simp)).2 e'
            rw [← g1.1] at this
            exact absurd ((hbad e').2 rfl) this

private theorem ofItems_length (items : List Str) : (∃ l, OrderLine.ofItems items = .ok l) ↔ items.length = 20 := by
  constructor
  · rintro ⟨l, h⟩
    simp only [OrderLine.ofItems] at h
    split at h
    · rfl
    · cases h
  · intro h
    match items, h with
    | [_, _, _, _, _, _, _, _, _, _, _, _, _, _, _, _, _, _, _, _], _ => exact ⟨_, rfl⟩

private theorem ofItems_error {items : List Str} {e : PyErr} (h : OrderLine.ofItems items = .error e) : e = .typeError := by
  simp only [OrderLine.ofItems] at h
  split at h
  · cases h
  · injection h with h; exact h.symm

private theorem wrongUpdate_iff (b₀ b : Book ν) (hb : dkeys b = dkeys b₀) (raw : Str) (e : PyErr) :
    WrongUpdate b₀ raw e ↔ ∃ items b', lineKind 20 raw = .fields items ∧ updateLine b items = .failed b' e := by
  simp only [WrongUpdate]
  refine exists_congr fun items => ?_
  rw [exists_and_left]
  refine and_congr_right fun hk => ?_
  have hlen := lineKind_length hk
  simp only [updateLine]
  cases hl : OrderLine.ofItems items with
  | error e' =>
    have := ofItems_error hl
    subst this
    have hne : items.length ≠ 20 := by
      intro h
      obtain ⟨l, h'⟩ := (ofItems_length items).2 h
      rw [hl] at h'; cases h'
    simp only [LineRes.failed.injEq, exists_and_right, exists_eq', true_and, reduceCtorEq, false_and, exists_false, or_false]
    exact ⟨fun h => h.1.symm, fun h => ⟨h.symm, by omega⟩⟩
  | ok l =>
    have heq : items.length = 20 := (ofItems_length items).1 ⟨l, hl⟩
    have hno : ¬ (e = .typeError ∧ 20 < items.length) := by omega
    simp only [hno, false_or, Except.ok.injEq, exists_eq_left']
    rw [← hb, mem_dkeys_iff]
    cases ho : dget b l.custBatchNo with
    | none => simp
    | some o =>
      simp only [Option.isSome_some, true_and]
      rw [OrderLine.Wrong, ← c90_report_refused o l e]
      rcases hu : updateOrder o l with ⟨o', _ | _⟩ <;> simp

omit [GateNum ν] in
private theorem wrongResult_iff (b : Book ν) (raw : Str) (e : PyErr) :
    WrongResult raw e ↔ ∃ items b', lineKind 6 raw = .fields items ∧ resultLine b items = .failed b' e := by
  simp only [WrongResult]
  refine exists_congr fun items => ?_
  rw [exists_and_left]
  refine and_congr_right fun hk => ?_
  have hlen := lineKind_length hk
  constructor
  · rintro ⟨rfl, h⟩
    refine ⟨b, ?_⟩
    match items, h with
    | _ :: _ :: _ :: _ :: _ :: _ :: _ :: _, _ => rfl
  · rintro ⟨b', h⟩
    simp only [resultLine] at h
    split at h
    · split at h
      · split at h <;> cases h
      · cases h
    · rename_i hno
      injection h with _ h
      refine ⟨h.symm, ?_⟩
      match items, hlen, hno with
      | [a1, a2, a3, a4, a5, a6], _, hno => exact absurd rfl (hno a1 a2 a3 a4 a5 a6)
      | _ :: _ :: _ :: _ :: _ :: _ :: _ :: _, _, _ => simp

/-- Reading the broker's files raises exactly the exception of the first line that is wrong: in the result file (from where reading
goes on), or else in the update file. -/
theorem c90_files_refused (results updates : Str) (s : SyncState ν) (e : PyErr) :
    (pollBoth false results updates s).2 = .error e ↔
      FirstWrong 6 WrongResult (results.drop s.resOff) e ∨
      (∀ e', ¬ FirstWrong 6 WrongResult (results.drop s.resOff) e') ∧ FirstWrong 20 (WrongUpdate s.book) (updates.drop s.updOff) e := by
  have hres : ∀ e', (pollResults false results s.book s.resOff).2 = .raised e' ↔ FirstWrong 6 WrongResult (results.drop s.resOff) e' := fun e' =>
    pollLoop_raises 6 resultLine resultLine_fun WrongResult (dkeys s.book) (fun b raw e _ => wrongResult_iff b raw e) e' _ _ _ _ rfl
  have hkeys : dkeys (pollResults false results s.book s.resOff).1.1 = dkeys s.book := pollFile_keys resultLine_fun _ _ _ _
  have hupd : ∀ e', (pollUpdates false updates (pollResults false results s.book s.resOff).1.1 s.updOff).2 = .raised e' ↔
      FirstWrong 20 (WrongUpdate s.book) (updates.drop s.updOff) e' := fun e' =>
    pollLoop_raises 20 updateLine updateLine_fun (WrongUpdate s.book) (dkeys s.book) (fun b raw e hb => wrongUpdate_iff s.book b hb raw e) e' _ _ _ _ hkeys
  simp only [← hres, ← hupd]
  simp only [pollBoth]
  generalize hr : pollResults false results s.book s.resOff = r
  obtain ⟨⟨b, ro⟩, x⟩ := r
  generalize hu : pollUpdates false updates b s.updOff = u
  obtain ⟨⟨b', uo⟩, y⟩ := u
  cases x <;> cases y <;> simp [hu]

/-- A report whose status is unknown after one with too many fields: `TypeError`; alone: `ParserError`; about an order that the gate does not
have: nothing. -/
example :
    let book : Book Int := [(c!"7", { status := some c!"new" })]
    let long := fileText [exUpdate c!"9" c!"2" c!"1" ++ [c!"more"]]
    let odd := fileText [exUpdate c!"7" c!"6" c!"1"]
    (pollBoth false [] (long ++ odd) ⟨book, 0, 0⟩).2 = .error .typeError ∧ (pollBoth false [] odd ⟨book, 0, 0⟩).2 = .error .parserError ∧
    (pollBoth false [] (fileText [exUpdate c!"9" c!"6" c!"1"]) ⟨book, 0, 0⟩).2 = .ok () ∧
    (pollBoth false c!"093000,0,7,1,13,no,funds\n" odd ⟨book, 0, 0⟩).2 = .error .typeError := by
  decide +kernel

end

/-! ## The command of a process -/

/-- The options of the command that have a value. -/
def valueOptions : List Str := [c!"-c", c!"--code", c!"-o", c!"--out", c!"-n", c!"--name", c!"-e", c!"--env"]

/-- The command of a process cannot be read exactly if its last word is an option whose value is missing. -/
theorem c90_command_unreadable (cmd : List Str) (e : PyErr) :
    parseTaskInfo cmd = .error e ↔ e = .indexError ∧ ∃ w, cmd.getLast? = some w ∧ w ∈ valueOptions := by
  have key : ∀ (cmd : List Str) (info : TaskInfo), parseItems info cmd = .error e ↔ e = .indexError ∧ ∃ w, cmd.getLast? = some w ∧ w ∈ valueOptions := by
    intro cmd
    induction cmd with
    | nil => intro info; simp [parseItems]
    | cons item rest ih =>
      intro info
      cases rest with
      | nil =>
        simp only [parseItems, List.head?_nil, List.getLast?_singleton, Option.some.injEq, exists_eq_left', valueOptions, List.mem_cons,
          List.not_mem_nil, or_false]
        clear ih
        grind
      | cons v rest =>
        have hlast : (item :: v :: rest).getLast? = (v :: rest).getLast? := by simp [List.getLast?_cons]
        rw [hlast, parseItems]
        simp only [List.head?_cons]
        repeat' split
        all_goals exact ih _
  exact key cmd {}

/-- Non-vacuity. -/
example : parseTaskInfo [c!"jqtrade", c!"-c", c!"a.py", c!"-n"] = .error .indexError ∧
    parseTaskInfo [c!"jqtrade", c!"-c", c!"a.py", c!"-n", c!"x"] = .ok { code := some c!"a.py", name := some c!"x" } := by decide +kernel

end Jq
