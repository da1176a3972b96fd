import Verif.Spec.Account
import Verif.Lemmas.Account
set_option linter.unusedSectionVars false
/-! # C17, C20, C22, C23, C24, C25, C55: the account API -/
namespace Jq
variable {γ ν : Type} [PyNum ν]

/-! ## C17 -/

private theorem checkCode_iff (udig : Char → Bool) (code : Str) : checkCode udig code = .ok () ↔ ValidCode udig code := by
  simp only [checkCode]
  constructor
  · intro h
    split at h
    · rename_i hc
      obtain ⟨h1, h2⟩ := hc
      simp only [isDigitStr, Bool.and_eq_true, decide_eq_true_eq, List.all_eq_true] at h2
      have hlen : 6 ≤ code.length := by
        have hne := h2.1
        simp only [dropLastN, ne_eq] at hne
        rcases Nat.lt_or_ge code.length 6 with hl | hl
        · exact absurd (by rw [show code.length - 5 = 0 by omega]; rfl) hne
        · exact hl
      obtain ⟨sep, hsep⟩ : ∃ sep, code.drop (code.length - 5) = sep :: code.drop (code.length - 4) := by
        have hlt : code.length - 5 < code.length := by omega
        exact ⟨_, by rw [List.drop_eq_getElem_cons hlt, show code.length - 5 + 1 = code.length - 4 by omega]⟩
      refine ⟨dropLastN 5 code, sep, lastN 4 code, ?_, h2.1, h2.2, h1⟩
      simp only [dropLastN, lastN]
      rw [← hsep, List.take_append_drop]
    · cases h
  · rintro ⟨stem, sep, suf, rfl, hne, hd, hs⟩
    have hl : suf.length = 4 := by rcases hs with rfl | rfl <;> rfl
    have e1 : lastN 4 (stem ++ sep :: suf) = suf := by
      simp only [lastN, List.length_append, List.length_cons, hl]
      rw [show stem.length + (4 + 1) - 4 = (stem ++ [sep]).length by simp]
      rw [show stem ++ sep :: suf = (stem ++ [sep]) ++ suf by simp, List.drop_left]
    have e2 : dropLastN 5 (stem ++ sep :: suf) = stem := by
      simp only [dropLastN, List.length_append, List.length_cons, hl]
      rw [show stem.length + (4 + 1) - 5 = stem.length by omega, List.take_left]
    rw [if_pos]
    rw [e1, e2]
    refine ⟨hs, ?_⟩
    simp only [isDigitStr, Bool.and_eq_true, decide_eq_true_eq, List.all_eq_true]
    exact ⟨hne, hd⟩

private theorem checkCode_err (udig : Char → Bool) (code : Str) (e : PyErr) (h : checkCode udig code = .error e) : e = .invalidParam := by
  simp only [checkCode] at h
  split at h
  · cases h
  · injection h with h; exact h.symm

private theorem checkAmount_iff (a : AmtArg) (n : Int) : checkAmount a = .ok n ↔ a = .int n ∧ n ≠ 0 := by
  cases a with
  | other => simp [checkAmount]
  | int m =>
    simp only [checkAmount]
    split
    · rename_i h; subst h; simp; intro e; exact e.symm
    · rename_i h
      simp only [Except.ok.injEq, AmtArg.int.injEq]
      exact ⟨fun e => ⟨e, e ▸ h⟩, fun e => e.1⟩

private theorem checkAmount_err (a : AmtArg) (e : PyErr) (h : checkAmount a = .error e) : e = .invalidParam := by
  cases a with
  | other => simp only [checkAmount] at h; injection h with h; exact h.symm
  | int m =>
    simp only [checkAmount] at h
    split at h
    · injection h with h; exact h.symm
    · cases h

private theorem checkStyle_iff (a : StyleArg ν) (st : Style ν) :
    checkStyle a = .ok st ↔ (a = .falsy ∧ st = .market PyNum.zero) ∨ a = .style st := by
  cases a with
  | falsy => simp only [checkStyle, Except.ok.injEq]; simp; exact eq_comm
  | style s => simp [checkStyle]
  | other => simp [checkStyle]

private theorem checkStyle_err (a : StyleArg ν) (e : PyErr) (h : checkStyle a = .error e) : e = .invalidParam := by
  cases a with
  | falsy => cases h
  | style s => cases h
  | other => simp only [checkStyle] at h; injection h with h; exact h.symm

private theorem checkSide_iff (a : SideArg) (sd : Side) : checkSide a = .ok sd ↔
    (a = .falsy ∧ sd = .long) ∨ (a = .str c!"long" ∧ sd = .long) ∨ (a = .str c!"short" ∧ sd = .short) := by
  cases a with
  | falsy => simp only [checkSide, Except.ok.injEq]; simp; exact eq_comm
  | other => simp [checkSide]
  | str s =>
    simp only [checkSide]
    by_cases h1 : s = c!"long"
    · subst h1; simp; exact eq_comm
    · rw [if_neg h1]
      by_cases h2 : s = c!"short"
      · subst h2; simp; exact eq_comm
      · simp [h1, h2]

private theorem checkSide_err (a : SideArg) (e : PyErr) (h : checkSide a = .error e) : e = .invalidParam := by
  cases a with
  | falsy => cases h
  | other => simp only [checkSide] at h; injection h with h; exact h.symm
  | str s =>
    simp only [checkSide] at h
    split at h
    · cases h
    · split at h
      · cases h
      · injection h with h; exact h.symm

/-- The checks accept exactly the valid requests. -/
theorem c17_accepts_valid (udig : Char → Bool) (code : Str) (amount : AmtArg) (style : StyleArg ν) (side : SideArg)
    (n : Int) (st : Style ν) (sd : Side) :
    checkRequest udig code amount style side = .ok (n, st, sd) ↔ ValidRequest udig code amount style side n st sd := by
  rw [ValidRequest, ← checkCode_iff, ← checkAmount_iff, ← checkStyle_iff, ← checkSide_iff]
  simp only [checkRequest, bind, Except.bind, pure, Except.pure]
  cases checkCode udig code <;> cases checkAmount amount <;> cases checkStyle style <;> cases checkSide side <;> simp

/-- A request that is not valid raises `InvalidParam`, whatever the state of the context, and nothing changes:
neither the account nor the gate. -/
theorem c17_invalid_refused (G : Gate γ ν) (udig : Char → Bool) (idn : Nat) (now : DT) (code : Str) (amount : AmtArg)
    (style : StyleArg ν) (side : SideArg) (x : Ctx γ ν) (h : ∀ n st sd, ¬ ValidRequest udig code amount style side n st sd) :
    x.order G udig idn now code amount style side = (x, .error .invalidParam) := by
  have : ∃ e, checkRequest udig code amount style side = .error e ∧ e = .invalidParam := by
    cases hr : checkRequest udig code amount style side with
    | ok r => exact absurd ((c17_accepts_valid udig code amount style side r.1 r.2.1 r.2.2).1 hr) (h _ _ _)
    | error e =>
      refine ⟨e, rfl, ?_⟩
      simp only [checkRequest, bind, Except.bind, pure, Except.pure] at hr
      split at hr
      · rename_i e' he; injection hr with hr; subst hr; exact checkCode_err _ _ _ he
      · split at hr
        · rename_i e' he; injection hr with hr; subst hr; exact checkAmount_err _ _ he
        · split at hr
          · rename_i e' he; injection hr with hr; subst hr; exact checkStyle_err _ _ he
          · split at hr
            · rename_i e' he; injection hr with hr; subst hr; exact checkSide_err _ _ he
            · cases hr
  obtain ⟨e, he, rfl⟩ := this
  simp [Ctx.order, he]

/-- If anything changed (in particular if anything reached the gate), the request was valid. -/
theorem c17_reaches_only_valid (G : Gate γ ν) (udig : Char → Bool) (idn : Nat) (now : DT) (code : Str) (amount : AmtArg)
    (style : StyleArg ν) (side : SideArg) (x : Ctx γ ν) (h : (x.order G udig idn now code amount style side).1 ≠ x) :
    ∃ n st sd, ValidRequest udig code amount style side n st sd := by
  apply Classical.byContradiction
  intro hn
  have := c17_invalid_refused G udig idn now code amount style side x (fun n st sd hv => hn ⟨n, st, sd, hv⟩)
  rw [this] at h
  exact h rfl

/-- Non-vacuity: a valid and four invalid requests. -/
example : ValidRequest (ν := Int) (fun _ => false) c!"000001.XSHE" (.int (-100)) .falsy (.str c!"long") (-100) (.market 0) .long :=
  (c17_accepts_valid ..).1 (by decide)
example : (checkRequest (ν := Int) (fun _ => false) c!"000001.XSHX" (.int 100) .falsy .falsy = .error .invalidParam) ∧
    (checkRequest (ν := Int) (fun _ => false) c!"000001.XSHE" (.int 0) .falsy .falsy = .error .invalidParam) ∧
    (checkRequest (ν := Int) (fun _ => false) c!"000001.XSHE" (.int 1) .other .falsy = .error .invalidParam) ∧
    (checkRequest (ν := Int) (fun _ => false) c!"000001.XSHE" (.int 1) .falsy (.str c!"up") = .error .invalidParam) := by decide

/-! ## C20 -/

private theorem newOrder_says (id : Str) (now : DT) (code : Str) (amount : Int) (style : Style ν) :
    (newOrder id now code amount style).SaysRequest id code amount style := by
  refine ⟨rfl, rfl, ?_, rfl, rfl, rfl, rfl, rfl, rfl, rfl, rfl, rfl⟩
  simp only [newOrder]
  split <;> omega

private theorem account_ok {x : Ctx γ ν} {a : Acct γ ν} (h : x.account = .ok a) : x.acct = some a ∧ x.useAccount = true := by
  simp only [Ctx.account] at h
  split at h
  · cases h
  · rename_i hu
    split at h
    · rename_i e; injection h with h; exact ⟨h ▸ e, by simpa using hu⟩
    · cases h

private theorem account_some {x : Ctx γ ν} {a : Acct γ ν} (h1 : x.useAccount = true) (h2 : x.acct = some a) : x.account = .ok a := by
  simp [Ctx.account, h1, h2]

theorem ctx_order_ok {G : Gate γ ν} {udig : Char → Bool} {idn : Nat} {now : DT} {code : Str} {amount : AmtArg}
    {style : StyleArg ν} {side : SideArg} {x x' : Ctx γ ν} {r : Option Str}
    (h : x.order G udig idn now code amount style side = (x', .ok r)) :
    ∃ a n st sd, x.acct = some a ∧ ValidRequest udig code amount style side n st sd ∧
      x' = { x with acct := some (a.order G idn now code n st sd).1 } ∧ (a.order G idn now code n st sd).2 = .ok r := by
  simp only [Ctx.order] at h
  cases hc : checkRequest udig code amount style side with
  | error e => rw [hc] at h; simp at h
  | ok v =>
    obtain ⟨n, st, sd⟩ := v
    rw [hc] at h
    cases ha : x.account with
    | error e => rw [ha] at h; simp at h
    | ok a =>
      rw [ha] at h
      simp only [Prod.mk.injEq] at h
      exact ⟨a, n, st, sd, (account_ok ha).1, (c17_accepts_valid ..).1 hc, h.1.symm, h.2⟩

/-- If `order()` returns an id, the account has under that id an order object saying exactly what was asked, and
the objects under all other ids are the same as before. -/
theorem c20_order_registered (G : Gate γ ν) (udig : Char → Bool) (idn : Nat) (now : DT) (code : Str) (amount : AmtArg)
    (style : StyleArg ν) (side : SideArg) (x x' : Ctx γ ν) (hwf : ∀ a, x.acct = some a → a.WF) (id : Str)
    (h : x.order G udig idn now code amount style side = (x', .ok (some id))) :
    ∃ a a' n st sd o, x.acct = some a ∧ x'.acct = some a' ∧ ValidRequest udig code amount style side n st sd ∧
      a'.find id = some o ∧ o.SaysRequest id code n st ∧ o.createTime = some now ∧
      ∀ id', id' ≠ id → a'.find id' = a.find id' := by
  obtain ⟨a, n, st, sd, hxa, hv, rfl, hr⟩ := ctx_order_ok h
  have hw := hwf a hxa
  rcases order_cases G idn now code n st sd a with ⟨g, e, _, h2⟩ | ⟨g, _, h2⟩
  · rw [h2] at hr; simp at hr
  · rw [h2] at hr
    simp only [Except.ok.injEq, Option.some.injEq] at hr
    subst hr
    refine ⟨a, _, n, st, sd, newOrder (natStr idn) now code n st, hxa, rfl, hv, ?_, newOrder_says _ _ _ _ _, rfl, ?_⟩
    · rw [order_find hw, if_pos rfl]
    · intro id' hne
      rw [order_find hw, if_neg (fun e => hne e.symm)]

/-- A gate that accepts everything and does nothing. -/
def okGate : Gate Unit Int := ⟨fun g _ => (g, .ok ()), fun g _ => (g, .ok ()), fun g => (g, .ok {}), fun g => (g, .ok [])⟩

/-- A gate on which everything fails. -/
def badGate : Gate Unit Int :=
  ⟨fun g _ => (g, .error .runtimeError), fun g _ => (g, .error .runtimeError), fun g => (g, .error .runtimeError),
    fun g => (g, .error .runtimeError)⟩

/-- A moment. -/
def t0 : DT := ⟨2021, 3, 4, 9, 31, 0, 250000⟩

/-- Non-vacuity: an order is accepted and gets the id 77. -/
example : ((⟨true, some (.init ())⟩ : Ctx Unit Int).order okGate (fun _ => false) 77 t0 c!"000001.XSHE" (.int (-300))
    (.style (.limit 12)) (.str c!"long")).2 = .ok (some c!"77") := by decide

/-! ## C22 -/

/-- `order` returns normally for every gate: the id, or `None` exactly when the gate raised. -/
theorem c22_order_returns (G : Gate γ ν) (idn : Nat) (now : DT) (code : Str) (amount : Int) (style : Style ν)
    (side : Side) (a : Acct γ ν) :
    (a.order G idn now code amount style side).2 = .ok (some (natStr idn)) ∨
    ((a.order G idn now code amount style side).2 = .ok none ∧
      ∃ o g e, G.order a.gate o = (g, .error e) ∧ o.SaysRequest (natStr idn) code amount style ∧
        (a.order G idn now code amount style side).1.gate = g) := by
  rcases order_cases G idn now code amount style side a with ⟨g, e, h1, h2⟩ | ⟨g, h1, h2⟩
  · exact .inr ⟨by rw [h2], _, g, e, h1, newOrder_says _ _ _ _ _, by rw [h2]⟩
  · exact .inl (by rw [h2])

/-- The gate's error makes `order` return `None`. -/
theorem c22_failing_order_none (G : Gate γ ν) (idn : Nat) (now : DT) (code : Str) (amount : Int) (style : Style ν)
    (side : Side) (a : Acct γ ν) (hG : ∀ o, ∃ e, (G.order a.gate o).2 = .error e) :
    (a.order G idn now code amount style side).2 = .ok none := by
  rcases order_cases G idn now code amount style side a with ⟨g, e, h1, h2⟩ | ⟨g, h1, h2⟩
  · rw [h2]
  · obtain ⟨e, he⟩ := hG (newOrder (natStr idn) now code amount style)
    rw [h1] at he; cases he

/-- Cancelling and synchronising return normally for every gate. -/
theorem c22_others_return (G : Gate γ ν) (id : Str) (a : Acct γ ν) :
    (a.cancel G id).2 = .ok () ∧ (a.syncBalance G).2 = .ok () ∧ (a.syncOrders G).2 = .ok () := by
  refine ⟨?_, ?_, ?_⟩
  · obtain ⟨u, h⟩ := tryExcept_ok () (a.cancelBody G id); exact h
  · obtain ⟨u, h⟩ := tryExcept_ok () (a.syncBalanceBody G); exact h
  · obtain ⟨u, h⟩ := tryExcept_ok () (a.syncOrdersBody G); exact h

/-- Through the API: with the account in use, an exception can only come from the checks of the arguments. -/
theorem c22_api_raises_only_invalid (G : Gate γ ν) (udig : Char → Bool) (idn : Nat) (now : DT) (code : Str)
    (amount : AmtArg) (style : StyleArg ν) (side : SideArg) (x : Ctx γ ν) (a : Acct γ ν) (hu : x.useAccount = true)
    (ha : x.acct = some a) :
    (∀ e, (x.order G udig idn now code amount style side).2 = .error e →
      e = .invalidParam ∧ ∀ n st sd, ¬ ValidRequest udig code amount style side n st sd) ∧
    (∀ id, (x.cancel G id).2 = .ok ()) ∧ (∀ ids, (Ctx.batchCancel G ids x).2 = .ok ()) ∧
    (x.syncBalance G).2 = .ok () ∧ (x.syncOrders G).2 = .ok () := by
  have hacc := account_some hu ha
  refine ⟨?_, ?_, ?_, ?_, ?_⟩
  · intro e he
    by_cases hv : ∃ n st sd, ValidRequest udig code amount style side n st sd
    · obtain ⟨n, st, sd, hv⟩ := hv
      rw [← c17_accepts_valid] at hv
      simp only [Ctx.order, hv, hacc] at he
      rcases c22_order_returns G idn now code n st sd a with h | h
      · rw [h] at he; cases he
      · rw [h.1] at he; cases he
    · have hn : ∀ n st sd, ¬ ValidRequest udig code amount style side n st sd := fun n st sd h => hv ⟨n, st, sd, h⟩
      rw [c17_invalid_refused G udig idn now code amount style side x hn] at he
      injection he with he
      exact ⟨he.symm, hn⟩
  · intro id; simp only [Ctx.cancel, hacc]; exact (c22_others_return G id a).1
  · intro ids
    clear hacc
    induction ids generalizing x a with
    | nil => rfl
    | cons id ids ih =>
      simp only [Ctx.batchCancel]
      have h1 : x.cancel G id = ({ x with acct := some (a.cancel G id).1 }, .ok ()) := by
        simp only [Ctx.cancel, account_some hu ha]
        rw [(c22_others_return G id a).1]
      rw [h1]
      exact ih { x with acct := some (a.cancel G id).1 } _ hu rfl
  · simp only [Ctx.syncBalance, hacc]; exact (c22_others_return G [] a).2.1
  · simp only [Ctx.syncOrders, hacc]; exact (c22_others_return G [] a).2.2

/-- Non-vacuity: a failing gate. -/
example : ((Acct.init () : Acct Unit Int).order badGate 5 t0 c!"000001.XSHE" 100 (.market 0) .long).2 = .ok none ∧
    ((⟨true, some (.init ())⟩ : Ctx Unit Int).syncOrders badGate).2 = .ok () := by decide

/-! ## C23 (the account's part) -/

/-- `cancel_order` of a known id calls the gate with this id once and changes nothing else; of an unknown id it
changes nothing at all. -/
theorem c23_cancel_forwards_known (G : Gate γ ν) (id : Str) (a : Acct γ ν) (hwf : a.WF) :
    (a.cancel G id).1 = if (a.find id).isSome then { a with gate := (G.cancel a.gate id).1 } else a := by
  simp only [Acct.cancel, tryExcept_fst, Acct.cancelBody, find_isSome hwf]
  split <;> rfl

/-- What the gate sees when a list of ids is cancelled: the known ids in turn. -/
theorem c23_batch_forwards_known (G : Gate γ ν) (ids : List Str) (x : Ctx γ ν) (a : Acct γ ν) (hwf : a.WF)
    (hu : x.useAccount = true) (ha : x.acct = some a) :
    Ctx.batchCancel G ids x =
      ({ x with acct := some { a with gate := (ids.filter fun id => (a.find id).isSome).foldl (fun g id => (G.cancel g id).1) a.gate } },
        .ok ()) := by
  have key : ∀ (ids : List Str) (x : Ctx γ ν) (b : Acct γ ν), b.WF → x.useAccount = true → x.acct = some b →
      (∀ id, b.find id = a.find id) → Ctx.batchCancel G ids x =
        ({ x with acct := some { b with gate := (ids.filter fun id => (a.find id).isSome).foldl (fun g id => (G.cancel g id).1) b.gate } },
          .ok ()) := by
    intro ids
    induction ids with
    | nil => intro x b _ _ hb _; obtain ⟨u, y⟩ := x; simp only at hb; subst hb; rfl
    | cons id ids ih =>
      intro x b hb hu hx hf
      simp only [Ctx.batchCancel]
      have h1 : x.cancel G id = ({ x with acct := some (b.cancel G id).1 }, .ok ()) := by
        simp only [Ctx.cancel, account_some hu hx]
        rw [(c22_others_return G id b).1]
      rw [h1]
      simp only
      rw [ih { x with acct := some (b.cancel G id).1 } (b.cancel G id).1 (wf_cancel hb G id) hu rfl
        (fun i => (find_congr (cancel_fields G id b).1 (cancel_fields G id b).2.1 i).trans (hf i))]
      rw [c23_cancel_forwards_known G id b hb, hf id, List.filter_cons]
      split <;> rfl
  exact key ids x a hwf hu ha (fun _ => rfl)

/-- A gate that records the ids of the cancels it gets. -/
def logGate : Gate (List Str) Int :=
  ⟨fun g _ => (g, .ok ()), fun g id => (g ++ [id], .ok ()), fun g => (g, .ok {}), fun g => (g, .ok [])⟩

/-- Non-vacuity: of three ids one is known. -/
example : (((Acct.init [] : Acct (List Str) Int).order logGate 7 t0 c!"000001.XSHE" 100 (.market 0) .long).1.cancel logGate c!"7").1.gate
      = [c!"7"] ∧
    (((Acct.init [] : Acct (List Str) Int).order logGate 7 t0 c!"000001.XSHE" 100 (.market 0) .long).1.cancel logGate c!"8").1.gate
      = [] := by decide

/-! ## C24 -/

/-- A batch entry that `order` would accept. -/
def BatchEntry.Valid (udig : Char → Bool) (e : BatchEntry ν) : Prop :=
  ∃ code amount n st sd, e.code = some code ∧ e.amount = some amount ∧ ValidRequest udig code amount e.style e.side n st sd

/-- What submitting one entry on its own with `order()` gives. -/
inductive SubmitsOne (G : Gate γ ν) (udig : Char → Bool) (e : BatchEntry ν) (x : Ctx γ ν) : Ctx γ ν → Option Str → Prop
  | incomplete : (e.code = none ∨ e.amount = none) → SubmitsOne G udig e x x none
  | raised {code amount x' err} : e.code = some code → e.amount = some amount →
      x.order G udig e.idn e.now code amount e.style e.side = (x', .error err) → SubmitsOne G udig e x x' none
  | returned {code amount x' r} : e.code = some code → e.amount = some amount →
      x.order G udig e.idn e.now code amount e.style e.side = (x', .ok r) → SubmitsOne G udig e x x' r

/-- What submitting the entries one after the other gives. -/
inductive SubmitsAll (G : Gate γ ν) (udig : Char → Bool) : List (BatchEntry ν) → Ctx γ ν → Ctx γ ν → List (Option Str) → Prop
  | nil {x} : SubmitsAll G udig [] x x []
  | cons {e es x x' x'' r rs} : SubmitsOne G udig e x x' r → SubmitsAll G udig es x' x'' rs →
      SubmitsAll G udig (e :: es) x x'' (r :: rs)

/-- A batch gives one result per entry: what `order()` gives for the entries submitted in sequence, `None` for
incomplete entries and where `order()` raises. -/
theorem c24_batch_is_sequence (G : Gate γ ν) (udig : Char → Bool) (es : List (BatchEntry ν)) (x x' : Ctx γ ν)
    (rs : List (Option Str)) : Ctx.batch G udig es x = (x', rs) ↔ SubmitsAll G udig es x x' rs := by
  have one : ∀ (e : BatchEntry ν) (x x' : Ctx γ ν) r, x.batchOne G udig e = (x', r) ↔ SubmitsOne G udig e x x' r := by
    intro e x x' r
    simp only [Ctx.batchOne]
    constructor
    · intro h
      split at h
      · rename_i hc; cases h; exact .incomplete (.inl hc)
      · rename_i code hc
        split at h
        · rename_i hm; cases h; exact .incomplete (.inr hm)
        · rename_i amount hm
          split at h
          · rename_i y err ho; cases h; exact .raised hc hm ho
          · rename_i y v ho; cases h; exact .returned hc hm ho
    · intro h
      cases h with
      | incomplete h =>
        rcases h with h | h
        · rw [h]
        · rw [h]; split <;> rfl
      | raised hc hm ho => rw [hc, hm]; simp only [ho]
      | returned hc hm ho => rw [hc, hm]; simp only [ho]
  induction es generalizing x rs with
  | nil =>
    simp only [Ctx.batch]
    constructor
    · intro h; cases h; exact .nil
    · intro h; cases h; rfl
  | cons e es ih =>
    simp only [Ctx.batch]
    constructor
    · intro h
      simp only [Prod.mk.injEq] at h
      obtain ⟨h1, rfl⟩ := h
      subst h1
      exact .cons ((one e x _ _).1 rfl) ((ih _ _).1 rfl)
    · intro h
      cases h with
      | cons h1 h2 => rw [(one e x _ _).2 h1, (ih _ _).2 h2]

/-- One result per entry. -/
theorem c24_one_result_each (G : Gate γ ν) (udig : Char → Bool) (es : List (BatchEntry ν)) (x : Ctx γ ν) :
    (Ctx.batch G udig es x).2.length = es.length := by
  induction es generalizing x with
  | nil => rfl
  | cons e es ih => simp only [Ctx.batch, List.length_cons, ih]

/-- An entry that is incomplete or invalid gives `None` and does not affect the others. -/
theorem c24_bad_entry_isolated (G : Gate γ ν) (udig : Char → Bool) (l1 l2 : List (BatchEntry ν)) (bad : BatchEntry ν)
    (x : Ctx γ ν) (h : ¬ bad.Valid udig) :
    (Ctx.batch G udig (l1 ++ bad :: l2) x).1 = (Ctx.batch G udig (l1 ++ l2) x).1 ∧
    ∃ r1 r2, (Ctx.batch G udig (l1 ++ l2) x).2 = r1 ++ r2 ∧ r1.length = l1.length ∧
      (Ctx.batch G udig (l1 ++ bad :: l2) x).2 = r1 ++ none :: r2 := by
  induction l1 generalizing x with
  | nil =>
    have : x.batchOne G udig bad = (x, none) := by
      simp only [Ctx.batchOne]
      split
      · rfl
      · rename_i code hc
        split
        · rfl
        · rename_i amount hm
          rw [c17_invalid_refused G udig bad.idn bad.now code amount bad.style bad.side x
            (fun n st sd hv => h ⟨code, amount, n, st, sd, hc, hm, hv⟩)]
    simp only [List.nil_append, Ctx.batch, this]
    exact ⟨trivial, [], _, rfl, rfl, rfl⟩
  | cons e l1 ih =>
    obtain ⟨h1, r1, r2, h2, h3, h4⟩ := ih (x.batchOne G udig e).1
    simp only [List.cons_append, Ctx.batch]
    exact ⟨h1, _ :: r1, r2, by rw [h2]; rfl, by simp [h3], by rw [h4]; rfl⟩

/-- An entry on which the gate fails gives `None`; the rest of the batch goes on. -/
example : (Ctx.batch okGate (fun _ => false)
    [⟨some c!"000001.XSHE", some (.int 100), .falsy, .falsy, 1, t0⟩, ⟨none, some (.int 100), .falsy, .falsy, 2, t0⟩,
     ⟨some c!"bad", some (.int 100), .falsy, .falsy, 3, t0⟩, ⟨some c!"600000.XSHG", some (.int 5), .falsy, .falsy, 4, t0⟩]
    (⟨true, some (.init ())⟩ : Ctx Unit Int)).2 = [some c!"1", none, none, some c!"4"] := by decide

/-! ## C55 -/

/-- Without `use_account`, `order` with valid arguments, cancelling, synchronising and `get_orders` with valid
arguments raise `InvalidCall`, and nothing changes. -/
theorem c55_refused_partial (G : Gate γ ν) (udig : Char → Bool) (x : Ctx γ ν) (hu : x.useAccount = false) :
    (∀ idn now code amount style side n st sd, ValidRequest udig code amount style side n st sd →
      x.order G udig idn now code amount style side = (x, .error .invalidCall)) ∧
    (∀ id, x.cancel G id = (x, .error .invalidCall)) ∧
    (∀ id ids, Ctx.batchCancel G (id :: ids) x = (x, .error .invalidCall)) ∧
    x.syncBalance G = (x, .error .invalidCall) ∧ x.syncOrders G = (x, .error .invalidCall) ∧
    (∀ orderId code status d, x.getOrders udig orderId code status ≠ .ok d) ∧
    (∀ orderId, x.getOrders udig orderId none none = .error .invalidCall) := by
  have hacc : x.account = .error .invalidCall := by simp [Ctx.account, hu]
  refine ⟨?_, ?_, ?_, ?_, ?_, ?_, ?_⟩
  · intro idn now code amount style side n st sd hv
    rw [← c17_accepts_valid] at hv
    simp [Ctx.order, hv, hacc]
  · intro id; simp [Ctx.cancel, hacc]
  · intro id ids; simp [Ctx.batchCancel, Ctx.cancel, hacc]
  · simp [Ctx.syncBalance, hacc]
  · simp [Ctx.syncOrders, hacc]
  · intro orderId code status d h
    simp only [Ctx.getOrders, hacc, bind, Except.bind] at h
    repeat' (split at h <;> try cases h)
  · intro orderId
    simp [Ctx.getOrders, hacc, bind, Except.bind, checkOptCode, checkOptStatus, optStr]

/-- No account function changes anything without `use_account`. -/
theorem c55_changes_nothing (G : Gate γ ν) (udig : Char → Bool) (x : Ctx γ ν) (hu : x.useAccount = false) :
    (∀ idn now code amount style side, (x.order G udig idn now code amount style side).1 = x) ∧
    (∀ id, (x.cancel G id).1 = x) ∧ (∀ ids, (Ctx.batchCancel G ids x).1 = x) ∧
    (∀ es, (Ctx.batch G udig es x).1 = x ∧ ∀ r ∈ (Ctx.batch G udig es x).2, r = none) ∧
    (x.syncBalance G).1 = x ∧ (x.syncOrders G).1 = x := by
  obtain ⟨h1, h2, h3, h4, h5, _⟩ := c55_refused_partial G udig x hu
  have ho : ∀ idn now code amount style side, ∃ e, x.order G udig idn now code amount style side = (x, .error e) := by
    intro idn now code amount style side
    by_cases hv : ∃ n st sd, ValidRequest udig code amount style side n st sd
    · obtain ⟨n, st, sd, hv⟩ := hv
      exact ⟨_, h1 idn now code amount style side n st sd hv⟩
    · exact ⟨_, c17_invalid_refused G udig idn now code amount style side x (fun n st sd h => hv ⟨n, st, sd, h⟩)⟩
  refine ⟨?_, fun id => by rw [h2], ?_, ?_, by rw [h4], by rw [h5]⟩
  · intro idn now code amount style side
    obtain ⟨e, he⟩ := ho idn now code amount style side
    rw [he]
  · intro ids; cases ids with
    | nil => rfl
    | cons id ids => rw [h3]
  · intro es
    induction es with
    | nil => exact ⟨rfl, by simp [Ctx.batch]⟩
    | cons e es ih =>
      have : x.batchOne G udig e = (x, none) := by
        simp only [Ctx.batchOne]
        split
        · rfl
        · rename_i code _
          split
          · rfl
          · rename_i amount _
            obtain ⟨err, he⟩ := ho e.idn e.now code amount e.style e.side
            rw [he]
      simp only [Ctx.batch, this]
      refine ⟨ih.1, ?_⟩
      intro r hr
      rcases List.mem_cons.1 hr with h | h
      · exact h
      · exact ih.2 r h

/-- With the account in use no call is refused for that reason. -/
theorem c55_in_use (G : Gate γ ν) (udig : Char → Bool) (x : Ctx γ ν) (hu : x.useAccount = true) :
    (∀ idn now code amount style side, (x.order G udig idn now code amount style side).2 ≠ .error .invalidCall) ∧
    (∀ id, (x.cancel G id).2 ≠ .error .invalidCall) ∧ (∀ ids, (Ctx.batchCancel G ids x).2 ≠ .error .invalidCall) ∧
    (x.syncBalance G).2 ≠ .error .invalidCall ∧ (x.syncOrders G).2 ≠ .error .invalidCall ∧
    ∀ orderId code status, x.getOrders udig orderId code status ≠ .error .invalidCall := by
  have hget : ∀ orderId code status, x.getOrders udig orderId code status ≠ .error .invalidCall := by
    intro orderId code status he
    have hcode : ∀ c, checkOptCode udig c ≠ .error .invalidCall := by
      intro c h
      unfold checkOptCode checkCode at h
      split at h
      · split at h <;> cases h
      · cases h
    have hstat : ∀ c, checkOptStatus c ≠ .error .invalidCall := by
      intro c h
      unfold checkOptStatus at h
      split at h
      · split at h <;> cases h
      · cases h
    have hacc : x.account ≠ .error .invalidCall := by
      unfold Ctx.account
      rw [if_neg (by simp [hu])]
      cases x.acct <;> simp
    have hsel : ∀ (t : Status) (l : List (Order ν × Nat)), filterStatus t l ≠ .error .invalidCall := by
      intro t l
      induction l with
      | nil => simp [filterStatus]
      | cons o l ih =>
        obtain ⟨o, n⟩ := o
        simp only [filterStatus]
        cases o.status with
        | none => simp
        | some s =>
          cases h : filterStatus t l with
          | error e => intro he; exact ih (by rw [h]; cases he; rfl)
          | ok r => simp
    unfold Ctx.getOrders at he
    cases h1 : checkOptCode udig code with
    | error e => rw [h1] at he; cases he; exact hcode _ h1
    | ok u =>
      rw [h1] at he
      cases h2 : checkOptStatus status with
      | error e => rw [h2] at he; cases he; exact hstat _ h2
      | ok st =>
        rw [h2] at he
        cases h3 : x.account with
        | error e => rw [h3] at he; cases he; exact hacc h3
        | ok a =>
          rw [h3] at he
          simp only [bind, Except.bind] at he
          cases st with
          | none => cases he
          | some t =>
            simp only [selectStatus] at he
            cases h4 : filterStatus t (selectCode code (a.selectId orderId)) with
            | error e => rw [h4] at he; cases he; exact hsel _ _ h4
            | ok l => rw [h4] at he; cases he
  cases ha : x.acct with
  | none =>
    have hacc : x.account = .error .attributeError := by simp [Ctx.account, hu, ha]
    refine ⟨?_, by simp [Ctx.cancel, hacc], ?_, by simp [Ctx.syncBalance, hacc], by simp [Ctx.syncOrders, hacc], hget⟩
    · intro idn now code amount style side
      by_cases hv : ∃ n st sd, ValidRequest udig code amount style side n st sd
      · obtain ⟨n, st, sd, hv⟩ := hv
        rw [← c17_accepts_valid] at hv
        simp [Ctx.order, hv, hacc]
      · rw [c17_invalid_refused G udig idn now code amount style side x (fun n st sd h => hv ⟨n, st, sd, h⟩)]
        simp
    · intro ids
      cases ids <;> simp [Ctx.batchCancel, Ctx.cancel, hacc]
  | some a =>
    have h := c22_api_raises_only_invalid G udig 0 t0 [] .other .other .other x a hu ha
    refine ⟨?_, ?_, ?_, ?_, ?_, hget⟩
    · intro idn now code amount style side he
      have := ((c22_api_raises_only_invalid G udig idn now code amount style side x a hu ha).1 _ he).1
      cases this
    · intro id; rw [h.2.1]; simp
    · intro ids; rw [h.2.2.1]; simp
    · rw [h.2.2.2.1]; simp
    · rw [h.2.2.2.2]; simp

/-- Not every call is refused: a batch of valid orders returns a list of `None`, cancelling an empty batch
returns, and an order with invalid arguments raises `InvalidParam` instead of `InvalidCall`. -/
theorem c55_batch_not_refused_refuted (G : Gate γ Int) :
    ∃ x : Ctx γ Int, x.useAccount = false ∧
      (Ctx.batch G (fun _ => false) [⟨some c!"000001.XSHE", some (.int 100), .falsy, .falsy, 1, t0⟩] x).2 = [none] ∧
      (Ctx.batchCancel G [] x).2 = .ok () ∧
      (x.order G (fun _ => false) 1 t0 c!"000001.XSHE" (.int 0) .falsy .falsy).2 = .error .invalidParam := by
  refine ⟨⟨false, none⟩, rfl, ?_, rfl, ?_⟩ <;> rfl

/-! ## C25 -/

private theorem foldl_dset_get {α : Type} (l : List α) (k : α → Str) (v : α → Nat) (hn : (l.map k).Nodup) (d : Dict Str Nat)
    (hd : ∀ a ∈ l, k a ∉ dkeys d) (id : Str) (n : Nat) :
    dget (l.foldl (fun d a => dset d (k a) (v a)) d) id = some n ↔ dget d id = some n ∨ ∃ a ∈ l, k a = id ∧ v a = n := by
  induction l generalizing d with
  | nil => simp
  | cons a l ih =>
    simp only [List.map_cons, List.nodup_cons, List.mem_map, not_exists, not_and] at hn
    simp only [List.foldl_cons]
    rw [ih hn.2 (dset d (k a) (v a))]
    · rw [dget_dset]
      by_cases he : k a = id
      · subst he
        have h0 : dget d (k a) = none := (dget_eq_none d _).2 (hd a (by simp))
        simp only [h0, if_pos, Option.some.injEq, List.mem_cons, exists_eq_or_imp, true_and, reduceCtorEq, false_or]
      · rw [if_neg he]
        simp only [List.mem_cons, exists_eq_or_imp, he, false_and, false_or]
    · intro b hb
      rw [dkeys_dset]
      split
      · exact hd b (by simp [hb])
      · simp only [List.mem_append, List.mem_singleton, not_or]
        exact ⟨hd b (by simp [hb]), fun e => hn.1 b hb e⟩

private theorem filterStatus_ok (s : Status) (l l' : List (Order ν × Nat)) (h : filterStatus s l = .ok l') :
    l' = l.filter fun o => decide (o.1.status = some s) := by
  induction l generalizing l' with
  | nil => simp only [filterStatus, Except.ok.injEq] at h; subst h; rfl
  | cons e l ih =>
    obtain ⟨o, n⟩ := e
    simp only [filterStatus] at h
    split at h
    · cases h
    · rename_i t ht
      split at h
      · cases h
      · rename_i r hr
        simp only [Except.ok.injEq] at h
        subst h
        rw [ih r hr, List.filter_cons]
        simp only [ht, Option.some.injEq, decide_eq_true_eq]

private theorem filterStatus_total (s : Status) (l : List (Order ν × Nat)) (h : ∀ e ∈ l, e.1.status.isSome) :
    ∃ l', filterStatus s l = .ok l' := by
  induction l with
  | nil => exact ⟨[], rfl⟩
  | cons e l ih =>
    obtain ⟨o, n⟩ := e
    obtain ⟨r, hr⟩ := ih (fun e he => h e (by simp [he]))
    have := h (o, n) (by simp)
    simp only [Option.isSome_iff_exists] at this
    obtain ⟨t, ht⟩ := this
    exact ⟨if t = s then (o, n) :: r else r, by simp only [filterStatus, ht, hr]⟩

/-- Entries of the account, before filtering by code and status. -/
private theorem orderList_mem {a : Acct γ ν} (h : a.WF) (o : Order ν) (n : Nat) :
    (o, n) ∈ a.orderList ↔ dget a.orders o.orderId = some n ∧ a.oheap[n]? = some o := by
  simp only [Acct.orderList, List.mem_filterMap, Option.map_eq_some_iff, Prod.mk.injEq]
  constructor
  · rintro ⟨⟨id, m⟩, hm, o', ho', rfl, rfl⟩
    have hd := dget_of_mem h.ordersOk hm
    obtain ⟨o'', h1, h2⟩ := h.orders id m hd
    simp only at ho'
    rw [h1] at ho'
    injection ho' with e
    subst e
    exact ⟨h2 ▸ hd, h1⟩
  · rintro ⟨h1, h2⟩
    exact ⟨(o.orderId, n), mem_of_dget h1, o, h2, rfl, rfl⟩

private theorem orderList_ids {a : Acct γ ν} (h : a.WF) : (a.orderList.map fun e => e.1.orderId).Nodup := by
  have : a.orderList.map (fun e => e.1.orderId) = dkeys a.orders := by
    have key : ∀ l : List (Str × Nat), (∀ e ∈ l, dget a.orders e.1 = some e.2) →
        (l.filterMap fun e => (a.oheap[e.2]?).map fun o => (o, e.2)).map (fun e => e.1.orderId) = l.map (·.1) := by
      intro l hl
      induction l with
      | nil => rfl
      | cons e l ih =>
        obtain ⟨o, h1, h2⟩ := h.orders e.1 e.2 (hl e (by simp))
        rw [List.filterMap_cons_some (by rw [h1]; rfl)]
        simp only [List.map_cons, h2]
        rw [ih (fun e he => hl e (by simp [he]))]
    exact key a.orders (fun e he => dget_of_mem h.ordersOk he)
  rw [this]; exact h.ordersOk

private theorem status_name_get {s : Str} {t : Status} : Status.get s = .ok t ↔ t.name = s := by
  simp only [Status.get]
  constructor
  · intro h
    split at h
    · rename_i y hy
      injection h with h
      subst h
      simpa using List.find?_some hy
    · cases h
  · rintro rfl
    cases t <;> decide

private theorem status_name_inj {t u : Status} (h : t.name = u.name) : t = u := by
  have h1 := (status_name_get (s := u.name) (t := t)).2 h
  rw [(status_name_get (s := u.name) (t := u)).2 rfl] at h1
  injection h1 with h1; exact h1.symm

private theorem optStr_some {s : Option Str} {t : Str} (h : optStr s = some t) : s = some t ∧ t ≠ [] := by
  cases s with
  | none => simp [optStr] at h
  | some u =>
    simp only [optStr, Option.bind_some] at h
    split at h
    · cases h
    · rename_i hu; injection h with h; subst h; exact ⟨rfl, hu⟩

private theorem optStr_none {s : Option Str} (h : optStr s = none) : ∀ t, s = some t → t ≠ [] → False := by
  rintro t rfl ht
  simp [optStr, ht] at h

private theorem selectId_mem {a : Acct γ ν} (hwf : a.WF) (orderId : Option Str) (o : Order ν) (n : Nat) :
    (o, n) ∈ a.selectId orderId ↔ (dget a.orders o.orderId = some n ∧ a.oheap[n]? = some o) ∧
      ∀ i, orderId = some i → i ≠ [] → i = o.orderId := by
  simp only [Acct.selectId]
  cases ho : optStr orderId with
  | none =>
    simp only
    rw [orderList_mem hwf]
    exact ⟨fun h => ⟨h, fun i h1 h2 => (optStr_none ho i h1 h2).elim⟩, fun h => h.1⟩
  | some i =>
    obtain ⟨rfl, hi⟩ := optStr_some ho
    simp only
    cases hg : dget a.orders i with
    | none =>
      simp only [List.not_mem_nil, false_iff, not_and]
      intro h1 h2
      have := h2 i rfl hi
      rw [← this, hg] at h1
      simp at h1
    | some m =>
      obtain ⟨o', h3, h4⟩ := hwf.orders i m hg
      simp only [h3, List.mem_singleton, Prod.mk.injEq]
      constructor
      · rintro ⟨rfl, rfl⟩
        refine ⟨⟨h4 ▸ hg, h3⟩, fun j hj _ => ?_⟩
        injection hj with hj
        rw [← hj, h4]
      · rintro ⟨⟨h5, h6⟩, h7⟩
        have h8 := h7 i rfl hi
        rw [← h8, hg] at h5
        injection h5 with h5
        subst h5
        rw [h3] at h6
        injection h6 with h6
        exact ⟨h6.symm, rfl⟩

private theorem selectId_nodup {a : Acct γ ν} (hwf : a.WF) (orderId : Option Str) :
    ((a.selectId orderId).map fun e => e.1.orderId).Nodup := by
  simp only [Acct.selectId]
  repeat' split
  · simp
  · simp
  · simp
  · exact orderList_ids hwf

private theorem selectCode_filter (code : Option Str) (l : List (Order ν × Nat)) :
    ∃ p : Order ν × Nat → Bool, selectCode code l = l.filter p ∧
      ∀ e, (p e = true ↔ ∀ c, code = some c → c ≠ [] → c = e.1.code) := by
  simp only [selectCode]
  cases hc : optStr code with
  | none => exact ⟨fun _ => true, (List.filter_eq_self.2 (by simp)).symm, fun e => ⟨fun _ c h1 h2 => (optStr_none hc c h1 h2).elim, fun _ => rfl⟩⟩
  | some c =>
    obtain ⟨rfl, hcne⟩ := optStr_some hc
    refine ⟨_, rfl, fun e => ?_⟩
    simp only [decide_eq_true_eq]
    constructor
    · intro h c' hc' _; injection hc' with hc'; rw [← hc', h]
    · intro h; exact (h c rfl hcne).symm

private theorem selectStatus_filter {status : Option Str} {st : Option Status} (hst : checkOptStatus status = .ok st)
    {l l' : List (Order ν × Nat)} (h : selectStatus st l = .ok l') :
    ∃ p : Order ν × Nat → Bool, l' = l.filter p ∧
      ∀ e, (p e = true ↔ ∀ s, status = some s → s ≠ [] → ∃ t, e.1.status = some t ∧ t.name = s) := by
  simp only [checkOptStatus] at hst
  cases hs : optStr status with
  | none =>
    rw [hs] at hst
    simp only [Except.ok.injEq] at hst
    subst hst
    simp only [selectStatus, Except.ok.injEq] at h
    subst h
    exact ⟨fun _ => true, (List.filter_eq_self.2 (by simp)).symm, fun e => ⟨fun _ c h1 h2 => (optStr_none hs c h1 h2).elim, fun _ => rfl⟩⟩
  | some s =>
    obtain ⟨rfl, hsne⟩ := optStr_some hs
    rw [hs] at hst
    simp only at hst
    cases hg : Status.get s with
    | error e => rw [hg] at hst; cases hst
    | ok t =>
      rw [hg] at hst
      simp only [Except.ok.injEq] at hst
      subst hst
      refine ⟨_, filterStatus_ok t _ _ h, fun e => ?_⟩
      simp only [decide_eq_true_eq]
      constructor
      · intro h s' hs' _
        injection hs' with hs'
        exact ⟨t, h, hs' ▸ status_name_get.1 hg⟩
      · intro h
        obtain ⟨t', h1, h2⟩ := h s rfl hsne
        rw [h1, status_name_inj (h2.trans (status_name_get.1 hg).symm)]

/-- `get_orders` returns exactly the orders of the account that match all the filters given, under their ids. -/
theorem c25_exactly_matching (udig : Char → Bool) (orderId code status : Option Str) (x : Ctx γ ν) (a : Acct γ ν)
    (ha : x.acct = some a) (hwf : a.WF) (d : Dict Str Nat) (h : x.getOrders udig orderId code status = .ok d)
    (id : Str) (n : Nat) :
    dget d id = some n ↔ dget a.orders id = some n ∧ ∃ o, a.find id = some o ∧ MatchesFilters orderId code status id o := by
  simp only [Ctx.getOrders, bind, Except.bind, pure, Except.pure] at h
  split at h
  · cases h
  · split at h
    · cases h
    · rename_i st hst
      split at h
      · cases h
      · rename_i a' ha'
        have : a' = a := by have := (account_ok ha').1; rw [ha] at this; injection this with this; exact this.symm
        subst this
        split at h
        · cases h
        · rename_i l hl
          simp only [Except.ok.injEq] at h
          subst h
          obtain ⟨p, hp1, hp⟩ := selectCode_filter code (a'.selectId orderId)
          obtain ⟨q, hq1, hq⟩ := selectStatus_filter hst hl
          rw [hp1, List.filter_filter] at hq1
          subst hq1
          have hnd := List.Nodup.sublist ((List.filter_sublist (p := fun e => q e && p e) (l := a'.selectId orderId)).map
            (fun e => e.1.orderId)) (selectId_nodup hwf orderId)
          rw [foldl_dset_get _ (fun e : Order ν × Nat => e.1.orderId) (fun e => e.2) hnd [] (by simp [dkeys])]
          simp only [dget_nil, reduceCtorEq, false_or, List.mem_filter, Bool.and_eq_true]
          constructor
          · rintro ⟨⟨o, m⟩, ⟨h1, h2, h2'⟩, h3, h4⟩
            simp only at h3 h4
            subst h4
            obtain ⟨⟨h5, h6⟩, h7⟩ := (selectId_mem hwf orderId o m).1 h1
            rw [h3] at h5 h7
            exact ⟨h5, o, by simp [Acct.find, h5, h6], h7, (hp _).1 h2', (hq _).1 h2⟩
          · rintro ⟨h1, o, h2, h3, h4, h5⟩
            have hoid := find_id hwf h2
            simp only [Acct.find, h1, Option.bind_some] at h2
            exact ⟨(o, n), ⟨(selectId_mem hwf orderId o n).2 ⟨⟨hoid ▸ h1, h2⟩, fun i hi hne => (h3 i hi hne).trans hoid.symm⟩,
              (hq _).2 h5, (hp _).2 h4⟩, hoid, rfl⟩

/-- `get_orders` succeeds when the filters are legal and every order has a status (orders made by `order()` and
orders synchronised from the built-in gate have one). -/
theorem c25_succeeds_partial (udig : Char → Bool) (orderId code status : Option Str) (x : Ctx γ ν) (a : Acct γ ν)
    (hu : x.useAccount = true) (ha : x.acct = some a) (hwf : a.WF)
    (hc : ∀ c, code = some c → c ≠ [] → ValidCode udig c)
    (hs : ∀ s, status = some s → s ≠ [] → ∃ t : Status, t.name = s)
    (hst : ∀ id o, a.find id = some o → o.status.isSome) : ∃ d, x.getOrders udig orderId code status = .ok d := by
  have h1 : checkOptCode udig code = .ok () := by
    simp only [checkOptCode]
    cases ho : optStr code with
    | none => rfl
    | some c => obtain ⟨e, hne⟩ := optStr_some ho; exact (checkCode_iff udig c).2 (hc c e hne)
  have hall : ∀ e ∈ selectCode code (a.selectId orderId), e.1.status.isSome := by
    rintro ⟨o, n⟩ he
    obtain ⟨p, hp1, hp⟩ := selectCode_filter code (a.selectId orderId)
    rw [hp1] at he
    obtain ⟨⟨h2, h3⟩, _⟩ := (selectId_mem hwf orderId o n).1 (List.mem_filter.1 he).1
    exact hst o.orderId o (by simp [Acct.find, h2, h3])
  obtain ⟨st, h2⟩ : ∃ st, checkOptStatus status = .ok st := by
    simp only [checkOptStatus]
    cases ho : optStr status with
    | none => exact ⟨_, rfl⟩
    | some s =>
      obtain ⟨e, hne⟩ := optStr_some ho
      obtain ⟨t, rfl⟩ := hs s e hne
      simp only [status_name_get.2 (rfl : t.name = t.name)]
      exact ⟨_, rfl⟩
  obtain ⟨l, h3⟩ : ∃ l, selectStatus st (selectCode code (a.selectId orderId)) = .ok l := by
    cases st with
    | none => exact ⟨_, rfl⟩
    | some t => exact filterStatus_total t _ hall
  exact ⟨_, by simp only [Ctx.getOrders, bind, Except.bind, pure, Except.pure, h1, h2, h3, account_some hu ha]; rfl⟩

/-- The condition on the status is needed: an order without status (a gate may report one) makes every
`get_orders` with a status filter raise `AttributeError`. -/
theorem c25_order_without_status_refuted :
    ∃ (G : Gate Unit Int), (⟨true, some ((Acct.init ()).run G [.syncOrders])⟩ : Ctx Unit Int).getOrders (fun _ => false) none none (some c!"filled")
      = .error .attributeError :=
  ⟨⟨fun g _ => (g, .ok ()), fun g _ => (g, .ok ()), fun g => (g, .ok {}), fun g => (g, .ok [
    { code := some c!"000001.XSHE", price := some 1, amount := some 100, action := some c!"open", orderId := some c!"9" }])⟩, by decide⟩

/-- `get_orders()` without filters succeeds and gives all orders of the account. -/
theorem getOrders_all {udig : Char → Bool} {x : Ctx γ ν} {a : Acct γ ν} (hu : x.useAccount = true) (ha : x.acct = some a) (hw : a.WF) :
    ∃ d, x.getOrders udig none none none = .ok d ∧ ∀ id n, dget d id = some n ↔ dget a.orders id = some n := by
  have hg : ∃ d, x.getOrders udig none none none = .ok d := by
    simp only [Ctx.getOrders, bind, Except.bind, checkOptCode, checkOptStatus, optStr, Option.bind_none,
      account_some hu ha, selectStatus]
    exact ⟨_, rfl⟩
  obtain ⟨d, hd⟩ := hg
  refine ⟨d, hd, fun id n => ?_⟩
  rw [c25_exactly_matching udig none none none x a ha hw d hd id n]
  constructor
  · exact fun h => h.1
  · intro h
    obtain ⟨o, h1, _⟩ := hw.orders id n h
    exact ⟨h, o, by simp [Acct.find, h, h1], by simp [MatchesFilters]⟩

/-- C20 through the API: right after `order()` returned an id, `get_orders()` shows under that id an order saying
what was asked, and every order it showed before under another id. -/
theorem c20_get_orders_shows (G : Gate γ ν) (udig : Char → Bool) (idn : Nat) (now : DT) (code : Str) (amount : AmtArg)
    (style : StyleArg ν) (side : SideArg) (x x' : Ctx γ ν) (a : Acct γ ν) (hu : x.useAccount = true) (ha : x.acct = some a)
    (hwf : a.WF) (id : Str) (h : x.order G udig idn now code amount style side = (x', .ok (some id))) :
    ∃ a' d n st sd addr o, x'.acct = some a' ∧ x'.getOrders udig none none none = .ok d ∧
      ValidRequest udig code amount style side n st sd ∧ dget d id = some addr ∧
      a'.userOrder addr = some o ∧ o.SaysRequest id code n st ∧
      ∀ id' addr', id' ≠ id → (dget d id' = some addr' ↔
        ∃ d0, x.getOrders udig none none none = .ok d0 ∧ dget d0 id' = some addr') := by
  obtain ⟨b, n, st, sd, hxa, hv, rfl, hr⟩ := ctx_order_ok h
  rw [ha] at hxa
  injection hxa with hxa
  subst hxa
  have hw' := wf_order hwf G idn now code n st sd
  obtain ⟨d, hd1, hd2⟩ := getOrders_all (udig := udig) (x := { x with acct := some (a.order G idn now code n st sd).1 }) hu rfl hw'
  obtain ⟨d0, hd3, hd4⟩ := getOrders_all (udig := udig) hu ha hwf
  rcases order_cases G idn now code n st sd a with ⟨g, e, _, h2⟩ | ⟨g, _, h2⟩
  · rw [h2] at hr; simp at hr
  · have hid : natStr idn = id := by rw [h2] at hr; simpa using hr
    subst hid
    have hf := order_find hwf G idn now code n st sd (natStr idn)
    rw [if_pos rfl] at hf
    have hor : (a.order G idn now code n st sd).1.orders = dset a.orders (natStr idn) a.oheap.length := by
      rw [h2]; exact (onCreated_orders _ _).2.1
    refine ⟨_, d, n, st, sd, a.oheap.length, _, rfl, hd1, hv, ?_, ?_, newOrder_says (natStr idn) now code n st, ?_⟩
    · rw [hd2, hor, dget_dset_self]
    · simp only [Acct.find, hor, dget_dset_self, Option.bind_some] at hf
      rw [Acct.userOrder, hf]
    · intro id' addr' hne
      rw [hd2, hor, dget_dset_ne _ (fun e => hne e.symm)]
      constructor
      · intro h; exact ⟨d0, hd3, (hd4 _ _).2 h⟩
      · rintro ⟨d1, h1, h3⟩
        rw [hd3] at h1
        injection h1 with h1
        subst h1
        exact (hd4 _ _).1 h3

/-- Two orders, one of which matches. -/
example : (⟨true, some ((Acct.init ()).run okGate [.order 7 t0 c!"000001.XSHE" 100 (.market 0) .long,
      .order 8 t0 c!"600000.XSHG" (-50) (.limit 3) .long])⟩ : Ctx Unit Int).getOrders (fun _ => false) none (some c!"600000.XSHG") (some c!"new")
    = .ok [(c!"8", 1)] := by decide

end Jq
