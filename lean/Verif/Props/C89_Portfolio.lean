import Verif.Spec.Portfolio
import Verif.Props.C26_Positions
set_option linter.unusedSectionVars false
/-!
# C89: the portfolio in the course of time

`account.py:189-227` (`sync_balance`), `account.py:161-175` (`order`), `position.py`: what the portfolio shows after any sequence of
account operations, as a function of the gate's complete balance reports and the successful sells.
-/
namespace Jq
variable {γ ν : Type} [PyNum ν]

/-- The three cash figures. -/
private def cashOf (a : Acct γ ν) : ν × ν × ν := (a.total, a.avail, a.locked)

private theorem mergeOrders_cash (is : List (OrderInfo ν)) (a : Acct γ ν) : cashOf (a.mergeOrders is).1 = cashOf a := by
  induction is generalizing a with
  | nil => rfl
  | cons i is ih =>
    have h1 : cashOf (a.mergeOrder i).1 = cashOf a := by
      simp only [Acct.mergeOrder]
      split
      · rfl
      · split
        · rfl
        · split
          · rfl
          · split <;> rfl
    simp only [Acct.mergeOrders]
    cases hm : a.mergeOrder i with
    | mk b v =>
      rw [hm] at h1
      cases v with
      | error e => exact h1
      | ok u => exact (ih b).trans h1

private theorem step_cash (G : Gate γ ν) (a : Acct γ ν) (op : AOp ν) (hop : op ≠ .syncBalance) : cashOf (a.step G op).1 = cashOf a := by
  cases op with
  | syncBalance => exact absurd rfl hop
  | cancel id => simp only [Acct.step, Acct.cancel, tryExcept_fst, Acct.cancelBody]; split <;> rfl
  | syncOrders =>
    simp only [Acct.step, Acct.syncOrders, tryExcept_fst, Acct.syncOrdersBody]
    cases G.orders a.gate with
    | mk g r =>
      cases r with
      | error e => rfl
      | ok infos =>
        have h := mergeOrders_cash infos ({ a with gate := g } : Acct γ ν)
        simp only
        cases hm : ({ a with gate := g } : Acct γ ν).mergeOrders infos with
        | mk b v => rw [hm] at h; cases v <;> exact h
  | order idn now c amount style side =>
    simp only [Acct.step]
    rcases order_cases G idn now c amount style side a with ⟨g, e, _, h2⟩ | ⟨g, _, h2⟩ <;> rw [h2]
    · rfl
    · simp only [Acct.onCreated]; split <;> rfl

private theorem complete_some {r : Py (BalInfo ν)} {c : CashInfo ν} {is : List (PosInfo ν)} (h : completeReport r = some (c, is)) :
    r = .ok ⟨some c, some is⟩ := by
  unfold completeReport at h
  split at h
  · injection h with h; injection h with h1 h2; subst h1; subst h2; rfl
  · cases h

private theorem complete_none {r : Py (BalInfo ν)} (h : completeReport r = none) :
    (∃ e, r = .error e) ∨ ∃ info, r = .ok info ∧ (info.cash = none ∨ info.positions = none) := by
  cases r with
  | error e => exact .inl ⟨e, rfl⟩
  | ok info =>
    obtain ⟨c, ps⟩ := info
    cases c with
    | none => exact .inr ⟨_, rfl, .inl rfl⟩
    | some c =>
      cases ps with
      | none => exact .inr ⟨_, rfl, .inr rfl⟩
      | some ps => cases h

private theorem lastTruthy_cons (x : ν) (y : Option ν) (ys : List (Option ν)) : lastTruthy x (y :: ys) = lastTruthy (orOld y x) ys := by
  cases y with
  | none => rfl
  | some v =>
    simp only [lastTruthy, List.filterMap_cons, id, orOld]
    by_cases hv : PyNum.truthy v = true
    · rw [List.filter_cons_of_pos hv, if_pos hv, List.getLast?_cons]; rfl
    · rw [List.filter_cons_of_neg hv, if_neg hv]

/-- Each cash figure is the last one reported that counts as true (is not 0, not missing), in all complete reports so far; else what it was. -/
theorem c89_cash (G : Gate γ ν) (a : Acct γ ν) (ops : List (AOp ν)) :
    (a.run G ops).total = lastTruthy a.total ((reports G a ops).map (·.1.total)) ∧
    (a.run G ops).avail = lastTruthy a.avail ((reports G a ops).map (·.1.avail)) ∧
    (a.run G ops).locked = lastTruthy a.locked ((reports G a ops).map (·.1.locked)) := by
  induction ops generalizing a with
  | nil => exact ⟨rfl, rfl, rfl⟩
  | cons op ops ih =>
    rw [show a.run G (op :: ops) = (a.step G op).1.run G ops from rfl]
    obtain ⟨h1, h2, h3⟩ := ih (a.step G op).1
    rw [h1, h2, h3]
    by_cases hop : op = .syncBalance
    · subst hop
      simp only [reports, Acct.step]
      cases hc : completeReport (G.balance a.gate).2 with
      | none =>
        have := c26_failure_changes_nothing G a (G.balance a.gate).1 _ rfl (complete_none hc)
        rw [this]
        exact ⟨rfl, rfl, rfl⟩
      | some x =>
        obtain ⟨c, is⟩ := x
        have hg := complete_some hc
        have hs : cashOf (a.syncBalance G).1 = (orOld c.total a.total, orOld c.avail a.avail, orOld c.locked a.locked) := by
          cases hb : G.balance a.gate with
          | mk g r =>
          rw [hb] at hg
          simp only at hg
          subst hg
          simp only [Acct.syncBalance, tryExcept_fst, Acct.syncBalanceBody, hb, Acct.applyBalance, cashOf, loadPositions_cash]
        simp only [cashOf, Prod.mk.injEq] at hs
        simp only [Option.toList_some, List.singleton_append, List.map_cons, lastTruthy_cons, hs]
        exact ⟨trivial, trivial, trivial⟩
    · have hs := step_cash G a op hop
      simp only [cashOf, Prod.mk.injEq] at hs
      have hr : reports G a (op :: ops) = reports G (a.step G op).1 ops := by
        cases op <;> first | rfl | exact absurd rfl hop
      rw [hr, hs.1, hs.2.1, hs.2.2]
      exact ⟨rfl, rfl, rfl⟩

private theorem closeable_append (v : Int) {s t : List Int} (hs : ∀ n ∈ s, 0 < n) (ht : ∀ n ∈ t, 0 < n) :
    closeable (closeable v s) t = closeable v (s ++ t) := by
  have h1 := sum_nonneg hs
  have h2 := sum_nonneg ht
  by_cases e1 : s = []
  · subst e1; simp [closeable]
  · by_cases e2 : t = []
    · subst e2; simp [closeable]
    · simp only [closeable, e1, e2, if_false, List.append_eq_nil_iff, false_and, List.sum_append]
      omega

/-- As long as no complete report comes, only successful sells touch the positions, whatever else is done and fails. -/
theorem c89_between_reports (G : Gate γ ν) (a : Acct γ ν) (hwf : a.WF) (ops : List (AOp ν)) (hops : reports G a ops = []) (code : Str) :
    (a.run G ops).findLong code = ((a.findLong code).map fun p => { p with avail := closeable p.avail (sells G code a ops) }) ∧
    (a.run G ops).findShort code = a.findShort code := by
  induction ops generalizing a with
  | nil => exact ⟨c28_closeable_partial G a hwf [] (by intro _ h; cases h) code, rfl⟩
  | cons op ops ih =>
    rw [show a.run G (op :: ops) = (a.step G op).1.run G ops from rfl, sells_cons]
    simp only [reports, List.append_eq_nil_iff] at hops
    obtain ⟨h1, h2⟩ := ih _ (wf_step hwf G op) hops.2
    rw [h1, h2]
    have hone : ((a.step G op).1.findLong code = (a.findLong code).map fun p => { p with avail := closeable p.avail (sells G code a [op]) }) ∧
        (a.step G op).1.findShort code = a.findShort code := by
      by_cases hop : op = .syncBalance
      · subst hop
        have hc : completeReport (G.balance a.gate).2 = none := by
          cases h : completeReport (G.balance a.gate).2 with
          | none => rfl
          | some x => rw [h] at hops; cases hops.1
        have := c26_failure_changes_nothing G a (G.balance a.gate).1 _ rfl (complete_none hc)
        simp only [Acct.step]
        rw [this]
        refine ⟨?_, rfl⟩
        show a.findLong code = _
        simp only [sells, List.append_nil, closeable, if_true]
        cases a.findLong code <;> rfl
      · have hno : NoBalanceSync [op] := by intro o ho; rw [List.mem_singleton] at ho; subst ho; exact hop
        exact ⟨c28_closeable_partial G a hwf [op] hno code, c28_short_unchanged G a hwf [op] hno code⟩
    refine ⟨?_, hone.2⟩
    rw [hone.1]
    cases a.findLong code with
    | none => rfl
    | some p =>
      simp only [Option.map_some]
      rw [closeable_append _ (sells_pos G code a [op]) (sells_pos G code _ ops)]

private theorem goodPrefix_exists (is : List (PosInfo ν)) : ∃ ps, GoodPrefix is ps := by
  induction is with
  | nil => exact ⟨[], [], [], rfl, .nil, by simp⟩
  | cons i is ih =>
    obtain ⟨ps, good, rest, h1, h2, h3⟩ := ih
    cases hl : Pos.load i with
    | ok p => exact ⟨p :: ps, i :: good, rest, by rw [h1]; rfl, .cons ((pos_load_says i p).1 hl) h2, h3⟩
    | error e =>
      refine ⟨[], [], i :: is, rfl, .nil, ?_⟩
      intro bad hb p hp
      simp only [List.head?_cons, Option.mem_some_iff] at hb
      subst hb
      rw [(pos_load_says i p).2 hp] at hl
      cases hl

/-- The positions in the course of time.  Until the first complete balance report there are none.  After it, they are those of the last
complete report (of its entries before the first malformed one; the last entry for a code wins), and the closeable amount of a long
position is less by what was successfully sold of it since. -/
theorem c89_positions (G : Gate γ ν) (g : γ) (ops : List (AOp ν)) :
    (reports G (Acct.init g) ops = [] ∧ ∀ code, ((Acct.init g : Acct γ ν).run G ops).findLong code = none ∧
      ((Acct.init g : Acct γ ν).run G ops).findShort code = none) ∨
    ∃ before after cash is ps, ops = before ++ .syncBalance :: after ∧
      Complete (G.balance ((Acct.init g).run G before).gate).2 cash is ∧
      reports G ((Acct.init g).run G (before ++ [.syncBalance])) after = [] ∧ GoodPrefix is ps ∧
      ∀ code, ((Acct.init g : Acct γ ν).run G ops).findLong code =
          ((reported ps .long code).map fun p =>
            { p with avail := closeable p.avail (sells G code ((Acct.init g).run G (before ++ [.syncBalance])) after) }) ∧
        ((Acct.init g : Acct γ ν).run G ops).findShort code = reported ps .short code := by
  have split : ∀ (ops : List (AOp ν)) (a : Acct γ ν), reports G a ops = [] ∨ ∃ before after cash is, ops = before ++ .syncBalance :: after ∧
      Complete (G.balance (a.run G before).gate).2 cash is ∧ reports G (a.run G (before ++ [.syncBalance])) after = [] := by
    intro ops
    induction ops with
    | nil => intro a; exact .inl rfl
    | cons op ops ih =>
      intro a
      rcases ih (a.step G op).1 with h | ⟨b, c, cash, is, h1, h2, h3⟩
      · by_cases hop : op = .syncBalance
        · subst hop
          cases hc : completeReport (G.balance a.gate).2 with
          | none => left; simp only [reports, hc, h]; rfl
          | some x => exact .inr ⟨[], ops, x.1, x.2, rfl, complete_some hc, h⟩
        · left
          cases op <;> first | exact absurd rfl hop | (simp only [reports]; exact h)
      · exact .inr ⟨op :: b, c, cash, is, by rw [h1]; rfl, h2, h3⟩
  rcases split ops (Acct.init g) with h | ⟨before, after, cash, is, h1, h2, h3⟩
  · refine .inl ⟨h, fun code => ?_⟩
    obtain ⟨g1, g2⟩ := c89_between_reports G (Acct.init g) (wf_init g) ops h code
    exact ⟨g1, g2⟩
  · obtain ⟨ps, hps⟩ := goodPrefix_exists is
    refine .inr ⟨before, after, cash, is, ps, h1, h2, h3, hps, fun code => ?_⟩
    have hwf : ((Acct.init g : Acct γ ν).run G before).WF := wf_run (wf_init g) G before
    have hrun : (Acct.init g : Acct γ ν).run G (before ++ [.syncBalance]) = (((Acct.init g).run G before).syncBalance G).1 := by
      simp only [Acct.run, List.foldl_append, List.foldl_cons, List.foldl_nil]; rfl
    have hall : (Acct.init g : Acct γ ν).run G ops = ((Acct.init g).run G (before ++ [.syncBalance])).run G after := by
      rw [h1]; simp only [Acct.run, List.foldl_append, List.foldl_cons, List.foldl_nil]
    obtain ⟨good, rest, e1, e2, e3⟩ := hps
    have hG : G.balance ((Acct.init g : Acct γ ν).run G before).gate = ((G.balance ((Acct.init g : Acct γ ν).run G before).gate).1, .ok ⟨some cash, some is⟩) := by
      rw [← h2]
    have hrep : (((Acct.init g : Acct γ ν).run G before).syncBalance G).1.findLong code = reported ps .long code ∧
        (((Acct.init g : Acct γ ν).run G before).syncBalance G).1.findShort code = reported ps .short code := by
      cases rest with
      | nil =>
        rw [List.append_nil] at e1
        subst e1
        exact c26_positions_are_reported G _ hwf _ cash is ps hG e2 code
      | cons bad rest =>
        subst e1
        exact c26_malformed_prefix G _ hwf _ cash good rest bad ps hG e2 (e3 bad rfl) code
    obtain ⟨g1, g2⟩ := c89_between_reports G _ (by rw [hrun]; exact wf_syncBalance hwf G) after h3 code
    rw [hall, g1, g2, hrun, hrep.1, hrep.2]
    exact ⟨rfl, rfl⟩

/-- A gate with a list of answers, one for each balance request; orders are accepted. -/
private def answers : Gate (List (Py (BalInfo Int))) Int :=
  ⟨fun g _ => (g, .ok ()), fun g _ => (g, .ok ()), fun g => (g.tail, g.headD (.error .timeOut)), fun g => (g, .ok [])⟩

private def history : List (AOp Int) :=
  [.syncBalance, .order 1 t0 c!"000001.XSHE" (-30) (.market 0) .long, .syncBalance, .order 2 t0 c!"000001.XSHE" (-20) (.market 0) .long, .syncOrders, .syncBalance,
   .order 3 t0 c!"9" 50 (.market 0) .long]

private def replies : List (Py (BalInfo Int)) :=
  [.ok ⟨some ⟨some 900, some 500, some 0⟩, some [posEntry c!"000001.XSHE" c!"long" 100 90, posEntry c!"9" c!"short" 5 5]⟩, .error .osError,
   .ok ⟨some ⟨some 800, some 0, none⟩, none⟩]

/-- One complete report, a failed and an incomplete one; 50 are sold in between. -/
example : (reports answers (Acct.init replies) history).length = 1 ∧ sells answers c!"000001.XSHE" (Acct.init replies) history = [30, 20] ∧
    (((Acct.init replies).run answers history).findLong c!"000001.XSHE").map (fun p => (p.amount, p.avail)) = some (100, 40) ∧
    (((Acct.init replies).run answers history).findShort c!"9").map (fun p => (p.amount, p.avail)) = some (5, 5) ∧
    ((Acct.init replies).run answers history).findLong c!"9" = none ∧
    ((Acct.init replies).run answers history).total = 900 ∧ ((Acct.init replies).run answers history).avail = 500 := by decide +kernel

/-- A second complete report replaces the positions, and the cash figures that are not 0. -/
example : let replies : List (Py (BalInfo Int)) := [.ok ⟨some ⟨some 900, some 500, some 1⟩, some [posEntry c!"9" c!"long" 5 5]⟩, .error .osError,
      .ok ⟨some ⟨some 800, some 0, none⟩, some []⟩]
    (reports answers (Acct.init replies) history).length = 2 ∧ ((Acct.init replies).run answers history).findLong c!"9" = none ∧
    ((Acct.init replies).run answers history).total = 800 ∧ ((Acct.init replies).run answers history).avail = 500 ∧
    ((Acct.init replies).run answers history).locked = 1 := by decide +kernel

end Jq
