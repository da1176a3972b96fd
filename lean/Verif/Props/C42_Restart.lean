import Verif.Props.C36_OrderSync
import Verif.Lemmas.Restart
set_option linter.unusedSectionVars false
/-!
# C42: a restart rebuilds the same order states

A restart loads the orders saved last (`trade_gate.py:498-512`; the orders are saved after every order and every
poll) and starts with both offsets zero (`trade_gate.py:222-224`).
-/
namespace Jq
variable {ν : Type} [GateNum ν]

/-- The gate and the broker's two files. -/
structure SyncRun (ν : Type) where
  gate : SyncState ν
  results : Str
  updates : Str
deriving DecidableEq

inductive SyncEv (ν : Type) where
  /-- a new order is accepted -/
  | place (id : Str) (o : OrderInfo ν)
  /-- the broker appends to its files -/
  | broker (r u : Str)
  | poll
  | restart

/-- `ignore_error_line` is on (the default). -/
def SyncRun.step (s : SyncRun ν) : SyncEv ν → SyncRun ν
  | .place id o => { s with gate := { s.gate with book := dset s.gate.book id o } }
  | .broker r u => { s with results := s.results ++ r, updates := s.updates ++ u }
  | .poll => { s with gate := (pollBoth true s.results s.updates s.gate).1 }
  | .restart => { s with gate := ⟨s.gate.book, 0, 0⟩ }

def SyncRun.run (s : SyncRun ν) (evs : List (SyncEv ν)) : SyncRun ν := evs.foldl SyncRun.step s

/-- What happens outside: ids are new when they are used; the broker writes whole lines; no order is both refused and
updated. -/
def LegalEv (s : SyncRun ν) : SyncEv ν → Prop
  | .place id _ => dget s.gate.book id = none ∧ ¬ RejectedIn id s.results ∧ ¬ UpdatedIn id s.updates
  | .broker r u => WholeLines r ∧ WholeLines u
  | .poll => ∀ id, ¬ (RejectedIn id s.results ∧ UpdatedIn id s.updates)
  | .restart => True

def Legal : SyncRun ν → List (SyncEv ν) → Prop
  | _, [] => True
  | s, e :: evs => LegalEv s e ∧ Legal (s.step e) evs

def SyncEv.isRestart : SyncEv ν → Bool
  | .restart => true
  | _ => false

theorem not_rejected_view {id results : Str} (h : ¬ RejectedIn id results) :
    ∀ l ∈ rawLines results, ∀ o : OrderInfo ν, lineView 6 resView id l o = o := by
  intro l hl o
  unfold lineView
  cases hk : lineKind 6 l.1 with
  | stop => rfl
  | header => rfl
  | fields items =>
    simp only [resView]
    split
    · rename_i t rt cb st ec em
      split
      · rename_i hc
        obtain ⟨rfl, rfl, rfl⟩ := hc
        exact absurd ⟨l, hl, t, ec, em, hk⟩ h
      · rfl
    · rfl

theorem not_updated_view {id updates : Str} (h : ¬ UpdatedIn id updates) :
    ∀ l ∈ rawLines updates, ∀ o : OrderInfo ν, lineView 20 updView id l o = o := by
  intro l hl o
  unfold lineView
  cases hk : lineKind 20 l.1 with
  | stop => rfl
  | header => rfl
  | fields items =>
    simp only [updView]
    cases ho : OrderLine.ofItems items with
    | error e => rfl
    | ok ln =>
      simp only
      split
      · rename_i hid
        exact absurd ⟨l, hl, items, ln, hk, ho, hid⟩ h
      · rfl

private theorem wholeLines_append {a b : Str} (ha : WholeLines a) (hb : WholeLines b) : WholeLines (a ++ b) := by
  rcases hb with rfl | hb
  · simpa using ha
  · right; simp [List.getLast?_append, hb]

theorem pollBoth_ign (results updates : Str) (s : SyncState ν) :
    pollBoth true results updates s =
      (let r := (pollResults true results s.book s.resOff).1
       let u := (pollUpdates true updates r.1 s.updOff).1
       (⟨u.1, r.2, u.2⟩, .ok ())) := by
  have h1 := pollFile_ign_not_raised (cols := 6) (f := resultLine) results s.book s.resOff
  have h2 := fun b => pollFile_ign_not_raised (cols := 20) (f := updateLine (ν := ν)) updates b s.updOff
  simp only [pollBoth, pollResults, pollUpdates]
  cases hr : pollFile 6 resultLine true results s.book s.resOff with
  | mk r e =>
    obtain ⟨b, ro⟩ := r
    rw [hr] at h1
    have h2' := h2 b
    cases e with
    | raised e => exact absurd rfl (h1 e)
    | eof =>
      simp only
    | stopped =>
      simp only

/-- What holds along every run. -/
structure SyncInvFor (I : Str → Prop) (s : SyncRun ν) : Prop where
  wr : WholeLines s.results
  wu : WholeLines s.updates
  res : AbsorbedFor I 6 resView s.results s.gate.book s.gate.resOff
  upd : AbsorbedFor I 20 updView s.updates s.gate.book s.gate.updOff

abbrev SyncInv (s : SyncRun ν) : Prop := SyncInvFor (fun _ => True) s

/-- What happens outside, as far as it concerns the orders `I`: their ids are new when they are used; the broker writes whole lines;
none of them is both refused and updated. -/
def LegalEvFor (I : Str → Prop) (s : SyncRun ν) : SyncEv ν → Prop
  | .place id _ => I id → ¬ RejectedIn id s.results ∧ ¬ UpdatedIn id s.updates
  | .broker r u => WholeLines r ∧ WholeLines u
  | .poll => ∀ id, I id → ¬ (RejectedIn id s.results ∧ UpdatedIn id s.updates)
  | .restart => True

def LegalFor (I : Str → Prop) : SyncRun ν → List (SyncEv ν) → Prop
  | _, [] => True
  | s, e :: evs => LegalEvFor I s e ∧ LegalFor I (s.step e) evs

theorem legalEv_for {s : SyncRun ν} {e : SyncEv ν} (h : LegalEv s e) (I : Str → Prop) : LegalEvFor I s e := by
  cases e with
  | place id o => exact fun _ => h.2
  | broker r u => exact h
  | poll => exact fun id _ => h id
  | restart => trivial

theorem legal_for {s : SyncRun ν} {evs : List (SyncEv ν)} (h : Legal s evs) (I : Str → Prop) : LegalFor I s evs := by
  induction evs generalizing s with
  | nil => trivial
  | cons e evs ih => exact ⟨legalEv_for h.1 I, ih h.2⟩

variable {I : Str → Prop}

/-- What a poll makes of an order: a function of the files and of what the order was. -/
theorem poll_value_for (s : SyncRun ν) (hi : SyncInvFor I s) (hone : ∀ id, I id → ¬ (RejectedIn id s.results ∧ UpdatedIn id s.updates)) (id : Str)
    (hI : I id) :
    dget (pollBoth true s.results s.updates s.gate).1.book id =
      ((dget s.gate.book id).map (linesView 6 resView id ((rawLines s.results).takeWhile (notStop 6)))).map
        (linesView 20 updView id ((rawLines s.updates).takeWhile (notStop 20))) := by
  rw [pollBoth_ign]
  simp only
  obtain ⟨C, P, a1, a2, a3, a4, a5⟩ := poll_absorbed resultLine_view s.results s.gate.book s.gate.resOff hi.res
  have hu : AbsorbedFor I 20 updView s.updates (pollResults true s.results s.gate.book s.gate.resOff).1.1 s.gate.updOff := by
    refine absorbed_congr hi.upd fun id hid => ?_
    by_cases h : UpdatedIn id s.updates
    · left
      have hr : ¬ RejectedIn id s.results := fun hr => hone id hid ⟨hr, h⟩
      refine (a4 id hid).trans ?_
      have := linesView_trivial (cols := 6) (view := resView (ν := ν)) id C (fun l hl => not_rejected_view hr l (by rw [a1]; simp [hl]))
      cases dget s.gate.book id with
      | none => rfl
      | some o => simp only [Option.map_some]; rw [this]
    · exact .inr (not_updated_view h)
  obtain ⟨_, _, _, _, _, _, b5⟩ := poll_absorbed updateLine_view s.updates _ _ hu
  refine (b5 id hI).trans ?_
  rw [show dget (pollResults true s.results s.gate.book s.gate.resOff).1.1 id = _ from a5 id hI]

theorem syncInv_step_for (s : SyncRun ν) (e : SyncEv ν) (hi : SyncInvFor I s) (hl : LegalEvFor I s e) : SyncInvFor I (s.step e) := by
  cases e with
  | place id o =>
    refine ⟨hi.wr, hi.wu, absorbed_congr hi.res fun id' hid' => ?_, absorbed_congr hi.upd fun id' hid' => ?_⟩
    · by_cases h : id = id'
      · subst h; exact .inr (not_rejected_view (hl hid').1)
      · exact .inl (dget_dset_ne _ h _)
    · by_cases h : id = id'
      · subst h; exact .inr (not_updated_view (hl hid').2)
      · exact .inl (dget_dset_ne _ h _)
  | broker r u => exact ⟨wholeLines_append hi.wr hl.1, wholeLines_append hi.wu hl.2, absorbed_append hi.wr r hi.res, absorbed_append hi.wu u hi.upd⟩
  | restart => exact ⟨hi.wr, hi.wu, absorbed_zero _ _, absorbed_zero _ _⟩
  | poll =>
    simp only [SyncRun.step, pollBoth_ign]
    obtain ⟨C, P, a1, a2, a3, a4, a5⟩ := poll_absorbed resultLine_view s.results s.gate.book s.gate.resOff hi.res
    have hu : AbsorbedFor I 20 updView s.updates (pollResults true s.results s.gate.book s.gate.resOff).1.1 s.gate.updOff := by
      refine absorbed_congr hi.upd fun id hid => ?_
      by_cases h : UpdatedIn id s.updates
      · left
        have hr : ¬ RejectedIn id s.results := fun hr => hl id hid ⟨hr, h⟩
        refine (a4 id hid).trans ?_
        have := linesView_trivial (cols := 6) (view := resView (ν := ν)) id C (fun l hl => not_rejected_view hr l (by rw [a1]; simp [hl]))
        cases dget s.gate.book id with
        | none => rfl
        | some o => simp only [Option.map_some]; rw [this]
      · exact .inr (not_updated_view h)
    obtain ⟨C', P', b1, b2, b3, b4, b5⟩ := poll_absorbed updateLine_view s.updates _ _ hu
    refine ⟨hi.wr, hi.wu, absorbed_congr (absorbed_poll resultLine_view s.results _ _ hi.res) fun id hid => ?_, absorbed_poll updateLine_view s.updates _ _ hu⟩
    by_cases h : RejectedIn id s.results
    · left
      have hu' : ¬ UpdatedIn id s.updates := fun hu => hl id hid ⟨h, hu⟩
      refine (b4 id hid).trans ?_
      have := linesView_trivial (cols := 20) (view := updView (ν := ν)) id C' (fun l hl => not_updated_view hu' l (by rw [b1]; simp [hl]))
      have he : ∀ x : Option (OrderInfo ν), x.map (linesView 20 updView id C') = x := by
        intro x; cases x with
        | none => rfl
        | some o => simp only [Option.map_some]; rw [this]
      exact he _
    · exact .inr (not_rejected_view h)

theorem poll_value (s : SyncRun ν) (hi : SyncInv s) (hone : ∀ id, ¬ (RejectedIn id s.results ∧ UpdatedIn id s.updates)) (id : Str) :
    dget (pollBoth true s.results s.updates s.gate).1.book id =
      ((dget s.gate.book id).map (linesView 6 resView id ((rawLines s.results).takeWhile (notStop 6)))).map
        (linesView 20 updView id ((rawLines s.updates).takeWhile (notStop 20))) :=
  poll_value_for s hi (fun id _ => hone id) id trivial

theorem syncInv_step (s : SyncRun ν) (e : SyncEv ν) (hi : SyncInv s) (hl : LegalEv s e) : SyncInv (s.step e) :=
  syncInv_step_for s e hi (legalEv_for hl _)

theorem poll_keys (results updates : Str) (s : SyncState ν) : dkeys (pollBoth true results updates s).1.book = dkeys s.book := by
  rw [pollBoth_ign]
  exact (pollFile_keys updateLine_fun _ _ _ _).trans (pollFile_keys resultLine_fun _ _ _ _)

/-- The two runs show the same orders `I`. -/
private structure Same (I : Str → Prop) (s t : SyncRun ν) : Prop where
  results : t.results = s.results
  updates : t.updates = s.updates
  keys : dkeys t.gate.book = dkeys s.gate.book
  vals : ∀ id, I id → dget t.gate.book id = dget s.gate.book id

private theorem same_step {s t : SyncRun ν} (h : Same I s t) (hs : SyncInvFor I s) (ht : SyncInvFor I t) (e : SyncEv ν) (hl : LegalEvFor I s e) :
    Same I (s.step e) (t.step e) := by
  cases e with
  | place id o =>
    refine ⟨h.results, h.updates, ?_, fun id' hid' => ?_⟩
    · simp only [SyncRun.step]; rw [dkeys_dset, dkeys_dset, h.keys]
    · simp only [SyncRun.step, dget_dset, h.vals id' hid']
  | broker r u => exact ⟨by simp only [SyncRun.step, h.results], by simp only [SyncRun.step, h.updates], h.keys, h.vals⟩
  | restart => exact ⟨h.results, h.updates, h.keys, h.vals⟩
  | poll =>
    refine ⟨h.results, h.updates, ?_, fun id hid => ?_⟩
    · simp only [SyncRun.step, poll_keys]; exact h.keys
    · have hl' : ∀ id, I id → ¬ (RejectedIn id t.results ∧ UpdatedIn id t.updates) := by rw [h.results, h.updates]; exact hl
      simp only [SyncRun.step]
      rw [poll_value_for t ht hl' id hid, poll_value_for s hs hl id hid, h.results, h.updates, h.vals id hid]

private theorem same_restart {s t : SyncRun ν} (h : Same I s t) : Same I (s.step .restart) t := ⟨h.results, h.updates, h.keys, h.vals⟩

private theorem legal_same {s t : SyncRun ν} (h : Same I s t) (e : SyncEv ν) (hl : LegalEvFor I s e) : LegalEvFor I t e := by
  cases e with
  | place id o => simp only [LegalEvFor] at hl ⊢; rw [h.results, h.updates]; exact hl
  | broker r u => exact hl
  | poll => simp only [LegalEvFor] at hl ⊢; rw [h.results, h.updates]; exact hl
  | restart => trivial

private theorem run_same (evs : List (SyncEv ν)) {s t : SyncRun ν} (h : Same I s t) (hs : SyncInvFor I s) (ht : SyncInvFor I t) (hl : LegalFor I s evs) :
    Same I (s.run evs) (t.run (evs.filter fun e => !e.isRestart)) := by
  induction evs generalizing s t with
  | nil => exact h
  | cons e evs ih =>
    obtain ⟨h1, h2⟩ := hl
    cases e with
    | restart => exact ih (same_restart h) (syncInv_step_for s _ hs h1) ht h2
    | place id o => exact ih (same_step h hs ht _ h1) (syncInv_step_for s _ hs h1) (syncInv_step_for t _ ht (legal_same h _ h1)) h2
    | broker r u => exact ih (same_step h hs ht _ h1) (syncInv_step_for s _ hs h1) (syncInv_step_for t _ ht (legal_same h _ h1)) h2
    | poll => exact ih (same_step h hs ht _ h1) (syncInv_step_for s _ hs h1) (syncInv_step_for t _ ht (legal_same h _ h1)) h2

/-- For each order by itself, whatever happens to the others: if it is not both refused and updated, restarts make no difference to it. -/
theorem c42_each_order_partial (id results updates : Str) (hr : WholeLines results) (hu : WholeLines updates) (evs : List (SyncEv ν))
    (hl : LegalFor (· = id) ⟨⟨[], 0, 0⟩, results, updates⟩ evs) :
    dget ((⟨⟨[], 0, 0⟩, results, updates⟩ : SyncRun ν).run evs).gate.book id =
      dget ((⟨⟨[], 0, 0⟩, results, updates⟩ : SyncRun ν).run (evs.filter fun e => !e.isRestart)).gate.book id := by
  have hi : SyncInvFor (ν := ν) (· = id) ⟨⟨[], 0, 0⟩, results, updates⟩ := ⟨hr, hu, absorbed_zero _ _, absorbed_zero _ _⟩
  have h := run_same evs (s := ⟨⟨[], 0, 0⟩, results, updates⟩) (t := ⟨⟨[], 0, 0⟩, results, updates⟩) ⟨rfl, rfl, rfl, fun _ _ => rfl⟩ hi hi hl
  exact (h.vals id rfl).symm

/-- Restarts, any number of them at any moments, make no difference: after any history the orders are, in the same
order and with the same values, those of the same history without the restarts. -/
theorem c42_restarts_invisible_partial (results updates : Str) (hr : WholeLines results) (hu : WholeLines updates) (evs : List (SyncEv ν))
    (hl : Legal ⟨⟨[], 0, 0⟩, results, updates⟩ evs) :
    let withRestarts := ((⟨⟨[], 0, 0⟩, results, updates⟩ : SyncRun ν).run evs).gate.book
    let without := ((⟨⟨[], 0, 0⟩, results, updates⟩ : SyncRun ν).run (evs.filter fun e => !e.isRestart)).gate.book
    dkeys withRestarts = dkeys without ∧ ∀ id, dget withRestarts id = dget without id := by
  have hi : SyncInv (ν := ν) ⟨⟨[], 0, 0⟩, results, updates⟩ := ⟨hr, hu, absorbed_zero _ _, absorbed_zero _ _⟩
  have h := run_same evs (s := ⟨⟨[], 0, 0⟩, results, updates⟩) (t := ⟨⟨[], 0, 0⟩, results, updates⟩) ⟨rfl, rfl, rfl, fun _ _ => rfl⟩ hi hi
    (legal_for hl _)
  exact ⟨h.keys.symm, fun id => (h.vals id trivial).symm⟩

/-- No order appears, disappears or changes its place by restarts, in any history at all. -/
theorem c42_same_orders (s : SyncRun ν) (evs : List (SyncEv ν)) :
    dkeys (s.run evs).gate.book = dkeys (s.run (evs.filter fun e => !e.isRestart)).gate.book := by
  suffices H : ∀ s t : SyncRun ν, dkeys s.gate.book = dkeys t.gate.book →
      dkeys (s.run evs).gate.book = dkeys (t.run (evs.filter fun e => !e.isRestart)).gate.book from H s s rfl
  induction evs with
  | nil => intro s t h; exact h
  | cons e evs ih =>
    intro s t h
    cases e with
    | restart => exact ih _ _ h
    | place id o => exact ih _ _ (by simp only [SyncRun.step]; rw [dkeys_dset, dkeys_dset, h])
    | broker r u => exact ih _ _ h
    | poll => exact ih _ _ (by simp only [SyncRun.step, poll_keys]; exact h)

/-- After a restart the next poll shows, for every order with an update that can be read, its last update — also when the broker
refused the order after that update, and it was shown as rejected before the restart. -/
theorem c42_restart_shows_update_refuted (s : SyncRun ν) (id : Str) (o : OrderInfo ν) (ho : dget s.gate.book id = some o)
    (before after : List (Str × Nat)) (raw : Str) (n : Nat) (hc : rawLines s.updates = before ++ (raw, n) :: after)
    (items : List Str) (l : OrderLine) (hl1 : lineKind 20 raw = .fields items) (hl2 : OrderLine.ofItems items = .ok l)
    (hl3 : l.custBatchNo = id) (hp : l.Parsable ν)
    (hns : ∀ x ∈ before, lineKind 20 x.1 ≠ .stop) (hlast : ∀ x ∈ after, ¬ IsUpdateOf id x.1) :
    ∃ o', dget ((s.step .restart).step .poll).gate.book id = some o' ∧ o'.SaysLine l ∧ SameRequest o o' := by
  simp only [SyncRun.step]
  rw [pollBoth_ign]
  simp only
  obtain ⟨C, _, _, _, _, a4, _⟩ := poll_absorbed (I := fun _ => True) (resultLine_view (ν := ν)) s.results s.gate.book 0 (absorbed_zero _ _)
  have h1 : dget (pollResults true s.results s.gate.book 0).1.1 id = some (linesView 6 resView id C o) := by
    have := a4 id trivial
    rw [ho] at this
    exact this
  obtain ⟨o', h2, h3, h4⟩ := c36_shows_last_update (pollResults true s.results s.gate.book 0).1.1 0 s.updates before after raw n
    (by simpa using hc) id _ h1 items l hl1 hl2 hl3 hp hns hlast
  refine ⟨o', h2, h3, ?_⟩
  obtain ⟨p, hp'⟩ := linesView_patch (cols := 6) (resultLine_view (ν := ν)) id C
  rw [hp'] at h4
  exact h4

/-- An order that was open when the broker refused it: shown as rejected until the restart, and as open after it. -/
theorem c42_refused_after_update_refuted :
    let reject := fileText [[c!"93002", c!"1", c!"b1", c!"1", c!"-1", c!"no funds"]]
    let evs : List (SyncEv Int) := [.place c!"b1" exOrder, .broker [] (fileText [exUpdate c!"b1" c!"0" c!"0"]), .poll, .broker reject [], .poll, .poll]
    let s0 : SyncRun Int := ⟨⟨[], 0, 0⟩, [], []⟩
    ((dget (s0.run evs).gate.book c!"b1").bind (·.status) = some c!"rejected") ∧
    ((dget (s0.run (evs ++ [.restart, .poll])).gate.book c!"b1").bind (·.status) = some c!"open") := by
  decide +kernel

/-- A legal history with a restart, and what it shows. -/
example :
    let s0 : SyncRun Int := ⟨⟨[], 0, 0⟩, [], []⟩
    let evs : List (SyncEv Int) := [.place c!"b1" exOrder, .broker [] (fileText [exUpdate c!"b1" c!"0" c!"0"]), .poll, .restart,
      .broker [] (fileText [exUpdate c!"b1" c!"2" c!"100"]), .poll]
    Legal s0 evs ∧ (dget (s0.run evs).gate.book c!"b1").bind (·.status) = some c!"filled" := by
  refine ⟨⟨⟨rfl, ?_, ?_⟩, ⟨.inl rfl, .inr (by decide +kernel)⟩, ?_, trivial, ⟨.inl rfl, .inr (by decide +kernel)⟩, ?_, trivial⟩, by decide +kernel⟩
  · rintro ⟨l, hl, _⟩; cases hl
  · rintro ⟨l, hl, _⟩; cases hl
  · rintro id ⟨⟨l, hl, _⟩, _⟩; cases hl
  · rintro id ⟨⟨l, hl, _⟩, _⟩; cases hl

/-- A history in which one order is both refused and updated: the other order is the same with and without the restart. -/
example :
    let s0 : SyncRun Int := ⟨⟨[], 0, 0⟩, [], []⟩
    let reject := fileText [[c!"93002", c!"1", c!"b1", c!"1", c!"-1", c!"no funds"]]
    let evs : List (SyncEv Int) := [.place c!"b1" exOrder, .place c!"b2" exOrder,
      .broker [] (fileText [exUpdate c!"b1" c!"0" c!"0", exUpdate c!"b2" c!"0" c!"0"]), .poll, .broker reject [], .poll, .restart, .poll]
    LegalFor (· = c!"b2") s0 evs ∧ ¬ Legal s0 evs ∧ (dget (s0.run evs).gate.book c!"b2").bind (·.status) = some c!"open" := by
  have hno : ∀ u : Str, ∀ id : Str, id = c!"b2" →
      ¬ (RejectedIn id (fileText [[c!"93002", c!"1", c!"b1", c!"1", c!"-1", c!"no funds"]]) ∧ UpdatedIn id u) := by
    rintro u id rfl ⟨⟨l, hl, t, c, m, hk⟩, _⟩
    rw [show rawLines (fileText [[c!"93002", c!"1", c!"b1", c!"1", c!"-1", c!"no funds"]]) = [(c!"93002,1,b1,1,-1,no funds", 25)] by decide +kernel] at hl
    rcases List.mem_singleton.1 hl with rfl
    rw [show lineKind 6 (c!"93002,1,b1,1,-1,no funds") = .fields [c!"93002", c!"1", c!"b1", c!"1", c!"-1", c!"no funds"] by decide +kernel] at hk
    simp at hk
  refine ⟨⟨?_, ?_, ⟨.inl rfl, .inr (by decide +kernel)⟩, ?_, ⟨.inr (by decide +kernel), .inl rfl⟩, ?_, trivial, ?_, trivial⟩, ?_, by decide +kernel⟩
  · intro h; exact absurd h (by decide)
  · intro _; exact ⟨(by rintro ⟨l, hl, _⟩; cases hl), (by rintro ⟨l, hl, _⟩; cases hl)⟩
  · rintro id _ ⟨⟨l, hl, _⟩, _⟩; cases hl
  · exact hno _
  · exact hno _
  · rintro ⟨_, _, _, _, _, h, _⟩
    refine h c!"b1" ⟨⟨(c!"93002,1,b1,1,-1,no funds", 25), by decide +kernel, c!"93002", c!"-1", c!"no funds", by decide +kernel⟩, ?_⟩
    refine ⟨(recordText (exUpdate c!"b1" c!"0" c!"0"), (recordText (exUpdate c!"b1" c!"0" c!"0")).length + 1), by decide +kernel,
      exUpdate c!"b1" c!"0" c!"0", ?_⟩
    exact ⟨_, by decide +kernel, rfl, by decide +kernel⟩

end Jq
