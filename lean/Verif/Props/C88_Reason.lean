import Verif.Spec.Reason
import Verif.Lemmas.FlowFact
import Verif.Lemmas.Csv
import Verif.Lemmas.Lines
import Verif.Lemmas.Numbers
import Verif.Props.C30_Told
import Verif.Props.C64_Flow
set_option linter.unusedSectionVars false
/-!
# C88: what is shown about an order was reported about it, and a refusal comes with its reason

`order.py:302-311` `Order.__eq__` compares neither `err_msg` nor `entrust_time`; `trade_gate.py:403-456` splits the lines of the broker's
files at every comma.
-/
namespace Jq
variable {ν : Type} [CellNum ν]

section Facts

theorem ReasonIn.mono {id a m : Str} (hw : WholeLines a) (b : Str) (h : ReasonIn id a m) : ReasonIn id (a ++ b) m := by
  obtain ⟨l, hl, h⟩ := h
  exact ⟨l, by rw [rawLines_append hw]; simp [hl], h⟩

theorem UpdateIn.mono {id a : Str} {ln : OrderLine} (hw : WholeLines a) (b : Str) (h : UpdateIn id a ln) : UpdateIn id (a ++ b) ln := by
  obtain ⟨l, hl, h⟩ := h
  exact ⟨l, by rw [rawLines_append hw]; simp [hl], h⟩

/-- The entry of the order book says only what was reported. -/
private structure Said (r u id : Str) (i : OrderInfo ν) : Prop where
  hStatus : ∃ st : Status, i.status = some st.name ∧ (st = .new ∨ (st = .rejected ∧ ReasonIn id r (i.errMsg.getD [])) ∨
    ∃ ln, UpdateIn id u ln ∧ (ln.status, st) ∈ brokerStatuses)
  hTime : i.entrustTime = none ∨ ∃ ln d, UpdateIn id u ln ∧ strptime mCompact (ln.orderDate ++ ln.orderTime) = .ok d ∧ d.ok ∧ i.entrustTime = some (.str d.full)
  hConfirm : i.confirmId = none ∨ ∃ ln, UpdateIn id u ln ∧ i.confirmId = some ln.orderNo
  hFilled : i.filled.getD 0 = 0 ∨ ∃ ln, UpdateIn id u ln ∧ pyInt ln.filledQty = some (i.filled.getD 0)
  hCanceled : i.canceled.getD 0 = 0 ∨ ∃ ln, UpdateIn id u ln ∧ pyInt ln.cancelQty = some (i.canceled.getD 0)
  hBalance : i.dealBalance.getD PyNum.zero = PyNum.zero ∨
    ∃ ln x, UpdateIn id u ln ∧ GateNum.parse ln.filledAmt = some x ∧ i.dealBalance.getD PyNum.zero = GateNum.round 4 x
  hCost : i.avgCost = none ∨ ∃ ln x, UpdateIn id u ln ∧ GateNum.parse ln.avgPrice = some x ∧ i.avgCost = some (GateNum.round 3 x)
  hMsg : i.errMsg.getD [] = [] ∨ ReasonIn id r (i.errMsg.getD []) ∨ ∃ ln, UpdateIn id u ln ∧ i.errMsg.getD [] = ln.text

private theorem Said.refused {r u id : Str} {i : OrderInfo ν} (h : Said r u id i) (ls : List (Str × Nat)) (hls : ∀ l ∈ ls, l ∈ rawLines r) :
    Said r u id (linesView 6 resView id ls i) := by
  induction ls generalizing i with
  | nil => exact h
  | cons l ls ih =>
    rw [linesView_cons]
    refine ih ?_ (fun x hx => hls x (by simp [hx]))
    unfold lineView
    cases hk : lineKind 6 l.1 with
    | stop => exact h
    | header => exact h
    | fields items =>
      simp only [resView]
      split
      · rename_i t rt cb st ec em
        split
        · rename_i hc
          obtain ⟨rfl, rfl, rfl⟩ := hc
          have hr : ReasonIn cb r em := ⟨l, hls l (by simp), t, ec, hk⟩
          exact { h with
            hStatus := ⟨.rejected, rfl, .inr (.inl ⟨rfl, hr⟩)⟩
            hMsg := .inr (.inl hr) }
        · exact h
      · exact h

private theorem Said.update {r u id : Str} {i : OrderInfo ν} (h : Said r u id i) (ln : OrderLine) (hu : UpdateIn id u ln)
    (ht : ∀ d, strptime mCompact (ln.orderDate ++ ln.orderTime) = .ok d → 1000 ≤ d.year) : Said r u id (updateOrder i ln).1 := by
  unfold updateOrder
  cases h1 : parseStatus ln.status with
  | error e => exact h
  | ok st =>
    have hst : ∃ s : Status, some st.name = some s.name ∧ ∀ q : Str, (s = .new ∨ (s = .rejected ∧ ReasonIn id r q) ∨
        ∃ ln, UpdateIn id u ln ∧ (ln.status, s) ∈ brokerStatuses) := ⟨st, rfl, fun _ => .inr (.inr ⟨ln, hu, (c60_status_codes _ _).1 h1⟩)⟩
    obtain ⟨s, hs1, hs2⟩ := hst
    simp only
    cases h2 : strptime mCompact (ln.orderDate ++ ln.orderTime) with
    | error e => exact { h with hStatus := ⟨s, hs1, hs2 _⟩ }
    | ok d =>
      have hok : d.ok := ⟨strptime_valid h2, ht d h2⟩
      have h' : Said r u id { i with
          status := some st.name
          entrustTime := some (.str d.full)
          confirmId := some ln.orderNo } :=
        { h with
          hStatus := ⟨s, hs1, hs2 _⟩
          hTime := .inr ⟨ln, d, hu, h2, hok, rfl⟩
          hConfirm := .inr ⟨ln, hu, rfl⟩ }
      simp only
      cases h3 : pyInt ln.filledQty with
      | none => exact h'
      | some filled =>
        simp only
        cases h4 : (GateNum.parse ln.filledAmt : Option ν) with
        | none => exact { h' with hFilled := .inr ⟨ln, hu, h3⟩ }
        | some amt =>
          simp only
          cases h5 : pyInt ln.cancelQty with
          | none => exact { h' with
              hFilled := .inr ⟨ln, hu, h3⟩
              hBalance := .inr ⟨ln, amt, hu, h4, rfl⟩ }
          | some canceled =>
            simp only
            cases h6 : (GateNum.parse ln.avgPrice : Option ν) with
            | none => exact { h' with
                hFilled := .inr ⟨ln, hu, h3⟩
                hBalance := .inr ⟨ln, amt, hu, h4, rfl⟩
                hCanceled := .inr ⟨ln, hu, h5⟩ }
            | some avg => exact { h' with
                hStatus := ⟨s, hs1, hs2 _⟩
                hFilled := .inr ⟨ln, hu, h3⟩
                hBalance := .inr ⟨ln, amt, hu, h4, rfl⟩
                hCanceled := .inr ⟨ln, hu, h5⟩
                hCost := .inr ⟨ln, avg, hu, h6, rfl⟩
                hMsg := .inr (.inr ⟨ln, hu, rfl⟩) }

private theorem Said.updated {r u id : Str} {i : OrderInfo ν} (h : Said r u id i) (ht : LineTimes u) (ls : List (Str × Nat)) (hls : ∀ l ∈ ls, l ∈ rawLines u) :
    Said r u id (linesView 20 updView id ls i) := by
  induction ls generalizing i with
  | nil => exact h
  | cons l ls ih =>
    rw [linesView_cons]
    refine ih ?_ (fun x hx => hls x (by simp [hx]))
    unfold lineView
    cases hk : lineKind 20 l.1 with
    | stop => exact h
    | header => exact h
    | fields items =>
      simp only [updView]
      cases ho : OrderLine.ofItems items with
      | error e => exact h
      | ok ln =>
        simp only
        split
        · rename_i hid
          exact h.update ln ⟨l, hls l (by simp), items, hk, ho, hid⟩ (fun d hd => ht l (hls l (by simp)) items ln d hk ho hd)
        · exact h

private theorem said_load {r u id : Str} {i : OrderInfo ν} {o : Order ν} (h : Said r u id i) (hl : Order.load i = .ok o) : o.OnlyReported id r u := by
  obtain ⟨st, h1, h2⟩ := h.hStatus
  have hf : optParse Status.get (optStr i.status) = .ok o.status ∧ optParse parseDt (optDt i.entrustTime) = .ok o.entrustTime ∧
      o.confirmId = i.confirmId ∧ o.filled = i.filled.getD 0 ∧ o.canceled = i.canceled.getD 0 ∧ o.dealBalance = i.dealBalance.getD PyNum.zero ∧
      o.avgCost = i.avgCost ∧ o.errMsg = i.errMsg.getD [] := by
    simp only [Order.load, bind, Except.bind, pure, Except.pure] at hl
    repeat' (split at hl <;> try cases hl)
    all_goals exact ⟨by assumption, by assumption, rfl, rfl, rfl, rfl, rfl, rfl⟩
  obtain ⟨f1, f2, f3, f4, f5, f6, f7, f8⟩ := hf
  have hs : o.status = some st := by
    rw [h1] at f1
    cases st <;> (injection f1 with f1; exact f1.symm)
  refine ⟨?_, ?_, by rw [f3]; exact h.hConfirm, by rw [f4]; exact h.hFilled, by rw [f5]; exact h.hCanceled, by rw [f6]; exact h.hBalance,
    by rw [f7]; exact h.hCost, by rw [f8]; exact h.hMsg⟩
  · rw [hs, f8]
    rcases h2 with rfl | ⟨rfl, h2⟩ | ⟨ln, h3, h4⟩
    · exact .inl rfl
    · exact .inr (.inl ⟨rfl, h2⟩)
    · exact .inr (.inr ⟨ln, st, h3, h4, rfl⟩)
  · rcases h.hTime with e | ⟨ln, d, g1, g2, g3, e⟩
    · rw [e] at f2; injection f2 with f2; exact .inl f2.symm
    · rw [e] at f2
      have : optDt (some (.str d.full)) = some (.str d.full) := by
        simp only [optDt]
        split
        · rename_i e; simp only [Option.some.injEq, DtVal.str.injEq] at e; exact absurd e (full_ne_nil d)
        · rfl
      rw [this] at f2
      simp only [optParse, parseDt, parseDtStr_full g3.1 g3.2, Except.map] at f2
      injection f2 with f2
      exact .inr ⟨ln, d, g1, g2, f2.symm⟩

private theorem said_fact [Store ν] : EntryFact (Said (ν := ν)) (fun r u id o => o.OnlyReported id r u) where
  laterP := by
    intro r u id i hr hu r' u' h
    obtain ⟨⟨st, g1, g2⟩, h2, h3, h4, h5, h6, h7, h8⟩ := h
    refine ⟨⟨st, g1, ?_⟩, ?_, ?_, ?_, ?_, ?_, ?_, ?_⟩
    · rcases g2 with e | ⟨e, g⟩ | ⟨ln, g, e⟩
      · exact .inl e
      · exact .inr (.inl ⟨e, g.mono hr r'⟩)
      · exact .inr (.inr ⟨ln, g.mono hu u', e⟩)
    · exact h2.imp (fun e => e) fun ⟨ln, d, g, e⟩ => ⟨ln, d, g.mono hu u', e⟩
    · exact h3.imp (fun e => e) fun ⟨ln, g, e⟩ => ⟨ln, g.mono hu u', e⟩
    · exact h4.imp (fun e => e) fun ⟨ln, g, e⟩ => ⟨ln, g.mono hu u', e⟩
    · exact h5.imp (fun e => e) fun ⟨ln, g, e⟩ => ⟨ln, g.mono hu u', e⟩
    · exact h6.imp (fun e => e) fun ⟨ln, x, g, e⟩ => ⟨ln, x, g.mono hu u', e⟩
    · exact h7.imp (fun e => e) fun ⟨ln, x, g, e⟩ => ⟨ln, x, g.mono hu u', e⟩
    · rcases h8 with e | g | ⟨ln, g, e⟩
      · exact .inl e
      · exact .inr (.inl (g.mono hr r'))
      · exact .inr (.inr ⟨ln, g.mono hu u', e⟩)
  laterQ := by
    intro r u id o hr hu r' u' h
    obtain ⟨g2, h2, h3, h4, h5, h6, h7, h8⟩ := h
    refine ⟨?_, ?_, ?_, ?_, ?_, ?_, ?_, ?_⟩
    · rcases g2 with e | ⟨e, g⟩ | ⟨ln, st, g, e⟩
      · exact .inl e
      · exact .inr (.inl ⟨e, g.mono hr r'⟩)
      · exact .inr (.inr ⟨ln, st, g.mono hu u', e⟩)
    · exact h2.imp (fun e => e) fun ⟨ln, d, g, e⟩ => ⟨ln, d, g.mono hu u', e⟩
    · exact h3.imp (fun e => e) fun ⟨ln, g, e⟩ => ⟨ln, g.mono hu u', e⟩
    · exact h4.imp (fun e => e) fun ⟨ln, g, e⟩ => ⟨ln, g.mono hu u', e⟩
    · exact h5.imp (fun e => e) fun ⟨ln, g, e⟩ => ⟨ln, g.mono hu u', e⟩
    · exact h6.imp (fun e => e) fun ⟨ln, x, g, e⟩ => ⟨ln, x, g.mono hu u', e⟩
    · exact h7.imp (fun e => e) fun ⟨ln, x, g, e⟩ => ⟨ln, x, g.mono hu u', e⟩
    · rcases h8 with e | g | ⟨ln, g, e⟩
      · exact .inl e
      · exact .inr (.inl (g.mono hr r'))
      · exact .inr (.inr ⟨ln, g.mono hu u', e⟩)
  newP := fun r u id now code n st =>
    ⟨⟨.new, rfl, .inl rfl⟩, .inl rfl, .inl rfl, .inl rfl, .inl rfl, .inl rfl, .inl rfl, .inl rfl⟩
  newQ := fun r u id now code n st => ⟨.inl rfl, .inl rfl, .inl rfl, .inl rfl, .inl rfl, .inl rfl, .inl rfl, .inl rfl⟩
  pollP := fun ht h =>
    (h.refused _ (fun _ hl => (List.takeWhile_sublist _).subset hl)).updated ht _ (fun _ hl => (List.takeWhile_sublist _).subset hl)
  loadQ := fun h _ hl => said_load h hl

end Facts

variable [Store ν] [LawfulStore ν]

private theorem frun_said {D : Str} {conf : AXConf} {fs : Files} {env : Nat → Env} {R U : Nat → Option Str} {n : Nat} {used : List Str} (hB : Broker D env R U)
    (hwin : conf.win = false) (hign : conf.ignoreErr = true) (h0 : fs (.data conf.dataDay) = none) {asked : List (Ack ν)} {t : PState ν}
    (h : FRun R U ⟨Acct.init ⟨AX.setup conf fs, env, n⟩, [], used⟩ asked t) :
    FactInv Said (fun r u id o => o.OnlyReported id r u) conf R U t := by
  induction h with
  | refl => exact fact_start h0
  | step op h' hs hnew ih => exact fact_step said_fact hB hwin hign op (frun_inv hB hwin hign h0 h') ih hs

/-- At all times of a day, with failures, crashes and restarts: every value that an order of the account shows is that of a new order
or was written by the broker about this very order. -/
theorem c88_only_what_was_reported (D : Str) (conf : AXConf) (fs : Files) (env : Nat → Env) (R U : Nat → Option Str) (n : Nat) (used : List Str)
    (hB : Broker D env R U) (hwin : conf.win = false) (hign : conf.ignoreErr = true) (h0 : fs (.data conf.dataDay) = none)
    (asked : List (Ack ν)) (t : PState ν) (h : FRun R U ⟨Acct.init ⟨AX.setup conf fs, env, n⟩, [], used⟩ asked t) (id : Str) (o : Order ν)
    (ho : t.acct.find id = some o) : o.OnlyReported id ((R t.acct.gate.n).getD []) ((U t.acct.gate.n).getD []) :=
  (frun_said hB hwin hign h0 h).acct id o ho

/-- After a synchronisation in which the gate succeeded, every order whose id was returned and that the result file refuses is shown as
rejected, with a message that the file gives for it; if the file gives one message only, with that. -/
theorem c88_refused_with_reason (D : Str) (conf : AXConf) (fs : Files) (env : Nat → Env) (R U : Nat → Option Str) (n : Nat) (used : List Str)
    (hB : Broker D env R U) (hwin : conf.win = false) (hign : conf.ignoreErr = true) (h0 : fs (.data conf.dataDay) = none)
    (asked : List (Ack ν)) (t : PState ν) (h : FRun R U ⟨Acct.init ⟨AX.setup conf fs, env, n⟩, [], used⟩ asked t)
    (g : AXG ν) (infos : List (OrderInfo ν)) (hG : (axGate ν).orders t.acct.gate = (g, .ok infos)) (k : Ack ν) (hk : k ∈ t.acks)
    (hr : RejectedIn k.id ((R t.acct.gate.n).getD [])) :
    ∃ o, (t.acct.syncOrders (axGate ν)).1.find k.id = some o ∧ o.status = some .rejected ∧
      ReasonIn k.id ((R t.acct.gate.n).getD []) o.errMsg := by
  obtain ⟨o, h1, h2, h3⟩ := c64_accepted_orders_shown D conf fs env R U n used hB hwin hign h0 asked t h g infos hG k hk
  have hst := h3.refused (h2.hId ▸ hr)
  refine ⟨o, h1, hst, ?_⟩
  have ha := fact_acct said_fact hB hign .syncOrders (frun_inv hB hwin hign h0 h) (frun_said hB hwin hign h0 h) k.id o h1
  rcases ha.hStatus with e | ⟨_, e⟩ | ⟨ln, st, ⟨l, hl, items, e1, e2, e3⟩, _, _⟩
  · rw [hst] at e; cases e
  · exact e
  · exact absurd ⟨hr, l, hl, items, ln, e1, e2, e3⟩ (hB.one _ _)

/-! ## A comma in the message -/

theorem splitOn_length (sep : Char) (s : Str) : (splitOn sep s).length = s.count sep + 1 := by
  induction s with
  | nil => rfl
  | cons c s ih =>
    simp only [splitOn]
    by_cases h : c = sep
    · subst h; simp [ih]
    · have hc : (c :: s).count sep = s.count sep := List.count_cons_of_ne h
      rw [hc]
      simp only [h, if_false]
      cases hs : splitOn sep s with
      | nil => exact absurd hs (splitOn_ne_nil sep s)
      | cons p ps => rw [hs] at ih; simpa using ih

theorem lineKind_commas {cols : Nat} {raw : Str} {items : List Str} (h : lineKind cols raw = .fields items) : items.length = raw.count ',' + 1 := by
  have hc : (pyStrip raw).count ',' = raw.count ',' := by
    obtain ⟨l, r, h1, h2, h3⟩ := pyStrip_split raw
    have hz : ∀ x : Str, (∀ c ∈ x, isSpace c = true) → x.count ',' = 0 := by
      intro x hx
      rw [List.count_eq_zero]
      intro hm
      exact absurd (hx _ hm) (by decide)
    have := congrArg (List.count ',') h1
    rw [List.count_append, List.count_append, hz l h2, hz r h3] at this
    omega
  simp only [lineKind] at h
  split at h
  · cases h
  · split at h
    · cases h
    · split at h
      · cases h
      · injection h with h
        rw [← h, List.length_map, splitOn_length, hc]

theorem recordText_commas (ps : List Str) (p : Str) : (recordText (p :: ps)).count ',' = ps.length + ((p :: ps).map (List.count ',')).sum := by
  induction ps generalizing p with
  | nil => simp [recordText, joinWith]
  | cons q qs ih =>
    have : recordText (p :: q :: qs) = p ++ ',' :: recordText (q :: qs) := by simp [recordText, joinWith_cons]
    rw [this, List.count_append, List.count_cons_self, ih]
    simp only [List.map_cons, List.sum_cons, List.length_cons]
    omega

private theorem fileText_line {items : List Str} (h1 : ∀ x ∈ items, '\n' ∉ x ∧ '\r' ∉ x) :
    rawLines (fileText [items]) = [(recordText items, (recordText items).length + 1)] := by
  have hm : ∀ c : Char, c ≠ ',' → (∀ x ∈ items, c ∉ x) → c ∉ recordText items := by
    intro c hc h hm
    rcases joinWith_mem hm with e | ⟨x, h1, h2⟩
    · exact hc e
    · exact h x h1 h2
  have : fileText [items] = recordText items ++ '\n' :: [] := by simp [fileText]
  rw [this, rawLines_line ⟨hm _ (by decide) fun x hx => (h1 x hx).1, hm _ (by decide) fun x hx => (h1 x hx).2⟩]
  rfl

/-- A refusal is seen, with its message, wherever it stands in the file, if the message has no comma. -/
theorem c88_reason_seen_partial (before after t id c m : Str) (hb : WholeLines before) (h : CleanRecord 6 [t, c!"1", id, c!"1", c, m]) :
    ReasonIn id (before ++ fileText [[t, c!"1", id, c!"1", c, m]] ++ after) m := by
  obtain ⟨_, _, _, hk⟩ := recordText_facts (cols := 6) (by decide) h
  refine ⟨(recordText [t, c!"1", id, c!"1", c, m], (recordText [t, c!"1", id, c!"1", c, m]).length + 1), ?_, t, c, hk⟩
  rw [List.append_assoc, rawLines_append hb, rawLines_fileText (cols := 6) (by decide) (records := [[t, c!"1", id, c!"1", c, m]]) (by simpa using h)]
  simp

/-- A refusal whose message has a comma is not seen as a refusal, of whichever order. -/
theorem c88_comma_lost_refuted (t id c m : Str) (h : ',' ∈ m) (hl : ∀ x ∈ [t, id, c, m], '\n' ∉ x ∧ '\r' ∉ x) (id' : Str) :
    ¬ RejectedIn id' (fileText [[t, c!"1", id, c!"1", c, m]]) := by
  rintro ⟨l, hl', t', c', m', hk⟩
  rw [fileText_line (by
    intro x hx
    simp only [List.mem_cons, List.not_mem_nil, or_false] at hx
    rcases hx with rfl | rfl | rfl | rfl | rfl | rfl
    · exact hl _ (by simp)
    · decide
    · exact hl _ (by simp)
    · decide
    · exact hl _ (by simp)
    · exact hl _ (by simp)), List.mem_singleton] at hl'
  subst hl'
  have h1 := lineKind_commas hk
  rw [recordText_commas] at h1
  have h2 : 0 < m.count ',' := List.count_pos_iff.2 h
  simp at h1
  omega

/-- An update whose text has a comma is not seen as an update, of whichever order. -/
theorem c88_comma_in_text_refuted (items : List Str) (hlen : items.length = 20) (m : Str) (hm : m ∈ items) (h : ',' ∈ m)
    (hl : ∀ x ∈ items, '\n' ∉ x ∧ '\r' ∉ x) (id' : Str) : ¬ UpdatedIn id' (fileText [items]) := by
  rintro ⟨l, hl', its, ln, hk, ho, _⟩
  rw [fileText_line hl, List.mem_singleton] at hl'
  subst hl'
  have h1 := lineKind_commas hk
  have h2 : its.length = 20 := by
    unfold OrderLine.ofItems at ho
    split at ho
    · rfl
    · cases ho
  cases items with
  | nil => cases hm
  | cons p ps =>
    rw [recordText_commas] at h1
    have h3 : ∀ qs : List Str, m ∈ qs → 0 < (qs.map (List.count ',')).sum := by
      intro qs hq
      induction qs with
      | nil => cases hq
      | cons q qs ih =>
        simp only [List.map_cons, List.sum_cons]
        rcases List.mem_cons.1 hq with rfl | hq
        · have := List.count_pos_iff.2 h; omega
        · have := ih hq; omega
    have h4 := h3 _ hm
    simp only [List.length_cons] at hlen
    omega

/-- Throughout the day: an order that the broker has refused with a message with a comma is still shown as new, without any message, after
a synchronisation in which the gate succeeded. -/
theorem c88_comma_shown_new_refuted (D : Str) (conf : AXConf) (fs : Files) (env : Nat → Env) (R U : Nat → Option Str) (n : Nat) (used : List Str)
    (hB : Broker D env R U) (hwin : conf.win = false) (hign : conf.ignoreErr = true) (h0 : fs (.data conf.dataDay) = none)
    (asked : List (Ack ν)) (t : PState ν) (h : FRun R U ⟨Acct.init ⟨AX.setup conf fs, env, n⟩, [], used⟩ asked t)
    (g : AXG ν) (infos : List (OrderInfo ν)) (hG : (axGate ν).orders t.acct.gate = (g, .ok infos)) (k : Ack ν) (hk : k ∈ t.acks)
    (tm c m : Str) (hR : R t.acct.gate.n = some (fileText [[tm, c!"1", k.id, c!"1", c, m]])) (hm : ',' ∈ m)
    (hl : ∀ x ∈ [tm, k.id, c, m], '\n' ∉ x ∧ '\r' ∉ x) (hU : ¬ UpdatedIn k.id ((U t.acct.gate.n).getD [])) :
    ∃ o, (t.acct.syncOrders (axGate ν)).1.find k.id = some o ∧ o.status = some .new ∧ o.errMsg = [] := by
  have hno : ∀ id', ¬ RejectedIn id' ((R t.acct.gate.n).getD []) := by
    intro id'
    rw [hR]
    exact c88_comma_lost_refuted tm k.id c m hm hl id'
  obtain ⟨o, h1, h2, h3⟩ := c64_accepted_orders_shown D conf fs env R U n used hB hwin hign h0 asked t h g infos hG k hk
  have hst := h3.untouched (hno _) (h2.hId ▸ hU)
  refine ⟨o, h1, hst.1, ?_⟩
  have ha := fact_acct said_fact hB hign .syncOrders (frun_inv hB hwin hign h0 h) (frun_said hB hwin hign h0 h) k.id o h1
  rcases ha.hMsg with e | ⟨l, hl, tm, c, e⟩ | ⟨ln, ⟨l, hl, items, e1, e2, e3⟩, _⟩
  · exact e
  · exact absurd ⟨l, hl, tm, c, _, e⟩ (hno k.id)
  · exact absurd ⟨l, hl, items, ln, e1, e2, e3⟩ hU

/-! ## A changed message -/

section
variable {γ : Type}

/-- Exactly what the account shows for an order after a synchronisation whose well-formed report has one entry about it: the entry, if the
order was not known or the entry says something new; otherwise the order as it was, with its old message and time. -/
theorem c88_shown_exactly (G : Gate γ ν) (a : Acct γ ν) (hwf : a.WF) (g : γ) (l1 l2 : List (OrderInfo ν)) (i : OrderInfo ν)
    (hG : G.orders a.gate = (g, .ok (l1 ++ i :: l2))) (hw : WellFormedReport (l1 ++ i :: l2)) (id : Str) (hid : i.orderId = some id)
    (hother : ∀ j ∈ l1 ++ l2, j.orderId ≠ some id) (r : Order ν) (hr : Order.load i = .ok r) :
    (a.find id = none → (a.syncOrders G).1.find id = some r) ∧
    ∀ l, a.find id = some l → (r.SameState l → (a.syncOrders G).1.find id = some l) ∧
      (¬ r.SameState l → (a.syncOrders G).1.find id = some r) := by
  have hwf0 : ({ a with gate := g } : Acct γ ν).WF := wf_gate hwf g
  have h1 := mergeOrders_ok (infos := l1) (fun j hj => hw j (by simp [hj])) hwf0
  have hwf1 : (({ a with gate := g } : Acct γ ν).mergeOrders l1).1.WF := wf_mergeOrders hwf0
  have hf1 : (({ a with gate := g } : Acct γ ν).mergeOrders l1).1.find id = a.find id := h1.2 id (fun j hj => hother j (by simp [hj]))
  generalize hb : (({ a with gate := g } : Acct γ ν).mergeOrders l1).1 = b at hwf1 hf1
  obtain ⟨h2, _, _⟩ := mergeOrder_find hwf1 hid hr
  have hwf2 := wf_mergeOrder hwf1 i
  have hfin : (a.syncOrders G).1.find id = (b.mergeOrder i).1.find id := by
    rw [syncOrders_find G a g _ hG, mergeOrders_append _ _ _ h1.1, hb]
    simp only [Acct.mergeOrders]
    cases hm : b.mergeOrder i with
    | mk b' v =>
      rw [hm] at h2 hwf2
      simp only at h2
      subst h2
      exact (mergeOrders_ok (fun j hj => hw j (by simp [hj])) hwf2).2 id (fun j hj => hother j (by simp [hj]))
  have hput : (b.putOrder id r).find id = some r := by rw [find_putOrder hwf1, if_pos rfl]
  rw [hfin, ← hf1]
  refine ⟨fun h => ?_, fun l h => ⟨fun hs => ?_, fun hs => ?_⟩⟩
  · simp only [Acct.mergeOrder, hid, hr, h]; exact hput
  · simp only [Acct.mergeOrder, hid, hr, h, (pyEq_iff r l).2 hs, if_true]
  · have : r.pyEq l = false := by
      rw [Bool.eq_false_iff]; exact fun e => hs ((pyEq_iff r l).1 e)
    simp only [Acct.mergeOrder, hid, hr, h, this, Bool.false_eq_true, if_false]
    exact (find_congr (b := b.putOrder id r) rfl rfl id).trans hput

end

/-! ## A day on which order 7 is acknowledged and refused, and one on which the text about it changes -/

private def whyFields (m : Str) : List Str := [c!"093002", c!"1", c!"7", c!"1", c!"13", m]
private def whyR (m : Str) (i : Nat) : Option Str := if i < 1 then none else some (fileText [whyFields m])
private def whyU (i : Nat) : Option Str := if i < 1 then none else some []
private def whyEnv (m : Str) (i : Nat) : Env :=
  { demoEnv with ext := fun fs f => match f with
      | .results d => if d = c!"20240102" then whyR m i else fs f
      | .updates d => if d = c!"20240102" then whyU i else fs f
      | _ => fs f }

private theorem why_broker (m : Str) (hl : '\n' ∉ m ∧ '\r' ∉ m) (hk : lineKind 6 (recordText (whyFields m)) ≠ .stop) :
    Broker c!"20240102" (whyEnv m) (whyR m) whyU := by
  have hd : ∀ i, whyR m i = none ∨ whyR m i = some (fileText [whyFields m]) := by
    intro i
    by_cases h : i < 1
    · exact .inl (if_pos h)
    · exact .inr (if_neg h)
  have hu : ∀ i, (whyU i).getD [] = [] := by
    intro i
    unfold whyU; split <;> rfl
  have hall : ∀ x ∈ whyFields m, '\n' ∉ x ∧ '\r' ∉ x := by
    intro x hx
    simp only [whyFields, List.mem_cons, List.not_mem_nil, or_false] at hx
    rcases hx with rfl | rfl | rfl | rfl | rfl | rfl
    all_goals first | exact hl | decide
  refine ⟨fun _ => rfl, fun _ _ => rfl, fun _ _ => rfl, fun _ _ _ => rfl, fun _ _ _ => ⟨(by intro h; cases h), (by intro h; cases h)⟩, fun i => ?_,
    fun i => ⟨[], by rw [hu, hu]; rfl⟩, fun i => ?_, fun i => (by rw [hu]; exact .inl rfl), fun i => ?_, fun i => (by rw [hu]; intro l hl; cases hl),
    fun i => (by rw [hu]; intro l hl; cases hl), fun i id h => ?_⟩
  · by_cases h : i < 1
    · exact ⟨(whyR m (i + 1)).getD [], by rw [whyR, whyR, if_pos h]; rfl⟩
    · exact ⟨[], by rw [whyR, whyR, if_neg h, if_neg (by omega), List.append_nil]⟩
  · rcases hd i with h | h
    · rw [h]; exact .inl rfl
    · rw [h]; exact wholeLines_fileText _
  · rcases hd i with h | h
    · rw [h]; intro l hl; cases hl
    · rw [h, Option.getD_some, fileText_line hall]
      intro l hl
      rw [List.mem_singleton] at hl
      subst hl
      exact hk
  · obtain ⟨_, l, hl, _⟩ := h
    rw [hu] at hl; cases hl

private def whyStart (m : Str) : PState Int := ⟨Acct.init ⟨AX.setup (demoConf false) fun _ => none, whyEnv m, 0⟩, [], []⟩
private def whyAsk : AOp Int := .order 7 demoEnv.now c!"600000.XSHG" 700 (.limit 12) .long
private def whyDay (m : Str) : PState Int :=
  ⟨((whyStart m).acct.step (axGate Int) whyAsk).1, (whyStart m).acks ++ whyAsk.acks ((whyStart m).acct.step (axGate Int) whyAsk).2, (whyStart m).used ++ whyAsk.draws⟩

private theorem why_run (m : Str) : FRun (whyR m) whyU (whyStart m) ([] ++ whyAsk.asks) (whyDay m) := by
  refine .step whyAsk .refl (.op _ (by intro id _ h; cases h)) fun k hk => ?_
  simp only [whyAsk, AOp.asks, List.mem_singleton] at hk
  subst hk
  exact ⟨⟨(by decide : demoEnv.now.valid = true), (by decide : 1000 ≤ demoEnv.now.year)⟩, fun ⟨l, hl, _⟩ => (by cases hl), fun ⟨l, hl, _⟩ => (by cases hl)⟩

/-- Refused for want of funds: seen, with the reason. -/
example : Broker c!"20240102" (whyEnv c!"no funds") (whyR c!"no funds") whyU ∧
    FRun (whyR c!"no funds") whyU (whyStart c!"no funds") ([] ++ whyAsk.asks) (whyDay c!"no funds") ∧
    (whyDay c!"no funds").acks.map (·.id) = [c!"7"] ∧ ((axGate Int).orders (whyDay c!"no funds").acct.gate).2.isOk = true ∧
    (((whyDay c!"no funds").acct.syncOrders (axGate Int)).1.find c!"7").map (fun o => (o.status, o.errMsg)) = some (some .rejected, c!"no funds") :=
  ⟨why_broker _ (by decide) (by decide +kernel), why_run _, by decide +kernel, by decide +kernel, by decide +kernel⟩

/-- The same with a comma in the reason: the order is shown as new. -/
theorem c88_comma_witness : Broker c!"20240102" (whyEnv c!"no funds, 3.50 short") (whyR c!"no funds, 3.50 short") whyU ∧
    FRun (whyR c!"no funds, 3.50 short") whyU (whyStart c!"no funds, 3.50 short") ([] ++ whyAsk.asks) (whyDay c!"no funds, 3.50 short") ∧
    (whyDay c!"no funds, 3.50 short").acks.map (·.id) = [c!"7"] ∧ ((axGate Int).orders (whyDay c!"no funds, 3.50 short").acct.gate).2.isOk = true ∧
    whyR c!"no funds, 3.50 short" (whyDay c!"no funds, 3.50 short").acct.gate.n = some (fileText [whyFields c!"no funds, 3.50 short"]) ∧
    (((whyDay c!"no funds, 3.50 short").acct.syncOrders (axGate Int)).1.find c!"7").map (fun o => (o.status, o.errMsg)) = some (some .new, []) :=
  ⟨why_broker _ (by decide) (by decide +kernel), why_run _, by decide +kernel, by decide +kernel, by decide +kernel, by decide +kernel⟩

private def textLine (m : Str) : List Str :=
  [c!"93001", c!"20240102", c!"093001", c!"UM0", c!"10", c!"600000.SH", c!"1", c!"0", c!"700", c!"12", c!"0", c!"0", c!"0", c!"0", c!"0", c!"77", c!"",
   c!"7", m, c!"c1"]
private def textU (i : Nat) : Option Str :=
  if i < 1 then none else if i < 2 then some (fileText [textLine c!"ok"]) else some (fileText [textLine c!"ok", textLine c!"held by the exchange"])
private def textEnv (i : Nat) : Env :=
  { demoEnv with ext := fun fs f => match f with
      | .results d => if d = c!"20240102" then some [] else fs f
      | .updates d => if d = c!"20240102" then textU i else fs f
      | _ => fs f }
private def textRun (ops : List (AOp Int)) : Acct (AXG Int) Int :=
  ops.foldl (fun a op => (a.step (axGate Int) op).1) (Acct.init ⟨AX.setup (demoConf false) fun _ => none, textEnv, 0⟩)

/-- An update that changes nothing but the text is not shown: after the second synchronisation the gate's order book has the new text, the
account still shows the old one; the third changes nothing either. -/
theorem c88_changed_text_refuted :
    ((textRun [whyAsk, .syncOrders]).find c!"7").map (fun o => (o.status, o.errMsg)) = some (some .opened, c!"ok") ∧
    LastUpdate c!"7" ((textU 2).getD []) ⟨c!"20240102", c!"093001", c!"0", c!"0", c!"0", c!"0", c!"0", c!"77", c!"7", c!"held by the exchange"⟩ ∧
    ((dget (textRun [whyAsk, .syncOrders, .syncOrders]).gate.ax.book c!"7").map (·.errMsg)) = some (some c!"held by the exchange") ∧
    ((textRun [whyAsk, .syncOrders, .syncOrders]).find c!"7").map (fun o => (o.status, o.errMsg)) = some (some .opened, c!"ok") ∧
    ((textRun [whyAsk, .syncOrders, .syncOrders, .syncOrders]).find c!"7").map (·.errMsg) = some c!"ok" := by
  refine ⟨by decide +kernel, ⟨[(recordText (textLine c!"ok"), (recordText (textLine c!"ok")).length + 1)],
    (recordText (textLine c!"held by the exchange"), (recordText (textLine c!"held by the exchange")).length + 1), [], textLine c!"held by the exchange",
    by decide +kernel, by decide +kernel, rfl, rfl, (by intro x hx; cases hx)⟩, by decide +kernel, by decide +kernel, by decide +kernel⟩

example : CleanRecord 6 (whyFields c!"no funds") := by
  refine ⟨rfl, ?_, ?_⟩
  · have : ∀ s ∈ whyFields c!"no funds", ',' ∉ s ∧ '\n' ∉ s ∧ '\r' ∉ s ∧ pyStrip s = s := by decide +kernel
    exact this
  · simp only [whyFields]; decide

/-- An order that was filled, with a comma in the text of the update: still new. -/
example : (textLine c!"done, thanks").length = 20 ∧ ¬ UpdatedIn c!"7" (fileText [textLine c!"done, thanks"]) :=
  ⟨rfl, c88_comma_in_text_refuted _ rfl c!"done, thanks" (by decide) (by decide) (by decide) _⟩

/-- The second report has another message: not shown.  The third has another status: shown with its message. -/
example : let entry (st m : Str) : OrderInfo Int := { orderEntry c!"1" st 0 with errMsg := some m }
    let a := (Acct.init [[entry c!"open" c!"a"], [entry c!"open" c!"b"], [entry c!"filling" c!"c"]] : Acct _ Int)
    [[], [AOp.syncOrders], [.syncOrders, .syncOrders], [.syncOrders, .syncOrders, .syncOrders]].map (fun ops => ((a.run reportGate ops).find c!"1").map (·.errMsg)) =
      [none, some c!"a", some c!"a", some c!"c"] := by decide +kernel

end Jq
