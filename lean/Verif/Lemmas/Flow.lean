import Verif.Spec.Flow
import Verif.Props.C29_Orders
import Verif.Props.C40_Persist
import Verif.Props.C42_Restart
set_option linter.unusedSectionVars false
/-! From requests and the broker's files to the account: helper lemmas. -/
namespace Jq

section Lines
variable {ν : Type} [GateNum ν]

theorem RejectedIn.mono {id a : Str} (hw : WholeLines a) (b : Str) (h : RejectedIn id a) : RejectedIn id (a ++ b) := by
  obtain ⟨l, hl, h⟩ := h
  exact ⟨l, by rw [rawLines_append hw]; simp [hl], h⟩

theorem UpdatedIn.mono {id a : Str} (hw : WholeLines a) (b : Str) (h : UpdatedIn id a) : UpdatedIn id (a ++ b) := by
  obtain ⟨l, hl, h⟩ := h
  exact ⟨l, by rw [rawLines_append hw]; simp [hl], h⟩

theorem strptime_valid {m : Str → Matches DT} {s : Str} {d : DT} (h : strptime m s = .ok d) : d.valid = true := by
  unfold strptime at h
  split at h
  · split at h
    · injection h with h; subst h; assumption
    · cases h
  · cases h

/-- A line that refuses the order. -/
def Refuses (id : Str) (l : Str × Nat) : Prop := ∃ t c m, lineKind 6 l.1 = .fields [t, c!"1", id, c!"1", c, m]

theorem lineView_refused {id : Str} (l : Str × Nat) (o : OrderInfo ν) :
    lineView 6 resView id l o = o ∨ (lineView 6 resView id l o).status = some c!"rejected" := by
  unfold lineView
  cases lineKind 6 l.1 with
  | stop => exact .inl rfl
  | header => exact .inl rfl
  | fields items =>
    simp only [resView]
    split
    · split
      · exact .inr rfl
      · exact .inl rfl
    · exact .inl rfl

theorem linesView_keeps_rejected {id : Str} (ls : List (Str × Nat)) (o : OrderInfo ν) (h : o.status = some c!"rejected") :
    (linesView 6 resView id ls o).status = some c!"rejected" := by
  induction ls generalizing o with
  | nil => exact h
  | cons l ls ih =>
    rw [linesView_cons]
    refine ih _ ?_
    rcases lineView_refused (id := id) l o with e | e
    · rw [e]; exact h
    · exact e

theorem linesView_rejected {id : Str} (ls : List (Str × Nat)) (o : OrderInfo ν) (h : ∃ l ∈ ls, Refuses id l) :
    (linesView 6 resView id ls o).status = some c!"rejected" := by
  obtain ⟨l, hl, t, c, m, hk⟩ := h
  obtain ⟨a, b, rfl⟩ := List.append_of_mem hl
  rw [linesView_append, linesView_cons]
  apply linesView_keeps_rejected
  simp [lineView, hk, resView]

theorem linesView_last {id : Str} (before after : List (Str × Nat)) (l : Str × Nat) (items : List Str) (ln : OrderLine) (o : OrderInfo ν)
    (h1 : lineKind 20 l.1 = .fields items) (h2 : OrderLine.ofItems items = .ok ln) (h3 : ln.custBatchNo = id)
    (h4 : ∀ x ∈ after, ¬ IsUpdateOf id x.1) (hp : ln.Parsable ν) : (linesView 20 updView id (before ++ l :: after) o).SaysLine ln := by
  rw [linesView_append, linesView_cons, linesView_trivial]
  · simp only [lineView, h1, updView, h2, h3, if_true]
    obtain ⟨o', h5, h6⟩ := updateOrder_parsable (linesView 20 updView id before o) hp
    rw [h5]; exact h6
  · intro x hx o
    unfold lineView
    cases hk : lineKind 20 x.1 with
    | stop => rfl
    | header => rfl
    | fields its =>
      simp only [updView]
      cases ho : OrderLine.ofItems its with
      | error e => rfl
      | ok ln' =>
        simp only
        split
        · rename_i hid; exact absurd ⟨its, ln', hk, ho, hid⟩ (h4 x hx)
        · rfl

end Lines

variable {ν : Type} [CellNum ν] [Store ν]

/-- The entry of the order book for an order: what was asked for, and values that can be loaded again. -/
structure Good (k : Ack ν) (i : OrderInfo ν) : Prop where
  asked : Restored i k
  now : k.now.ok
  status : ∃ st : Status, i.status = some st.name
  time : i.entrustTime = none ∨ ∃ d : DT, d.ok ∧ i.entrustTime = some (.str d.full)

theorem Good.load {k : Ack ν} {i : OrderInfo ν} (h : Good k i) : ∃ r, Order.load i = .ok r ∧ r.AsAsked k := by
  obtain ⟨⟨h1, h2, h3, h4, h5, h6, h7, h8⟩, hnow, ⟨st, hst⟩, ht⟩ := h
  have hs : optParse Status.get (optStr (some st.name)) = .ok (some st) := by cases st <;> rfl
  have hsty : optParse (fun v => Style.get v k.style.price) (optStyle (some (.name k.style.name))) = .ok (some k.style) := by
    cases k.style <;> rfl
  have hisSome : (optStyle (some (.name k.style.name) : Option (StyleVal ν))).isSome = true := by cases k.style <;> rfl
  have hdt : ∀ d : DT, d.ok → optParse parseDt (optDt (some (.str d.full))) = .ok (some d) := by
    intro d hd
    have : optDt (some (.str d.full)) = some (.str d.full) := by
      simp only [optDt]
      split
      · rename_i e; simp only [Option.some.injEq, DtVal.str.injEq] at e; exact absurd e (full_ne_nil d)
      · rfl
    rw [this]
    simp only [optParse, parseDt, parseDtStr_full hd.1 hd.2, Except.map]
  have hent : ∃ e, optParse parseDt (optDt i.entrustTime) = .ok e := by
    rcases ht with ht | ⟨d, hd, ht⟩
    · rw [ht]; exact ⟨none, rfl⟩
    · rw [ht]; exact ⟨_, hdt d hd⟩
  obtain ⟨et, het⟩ := hent
  have hact : Action.get (if k.amount < 0 then c!"close" else c!"open") = .ok (if k.amount < 0 then .close else .opened) := by
    split <;> rfl
  have hside : (Side.get c!"long").map some = .ok (some .long) := rfl
  simp only [Order.load, bind, Except.bind, pure, Except.pure, needArg, h2, h3, h4, h5, h6, h7, h8, h1, hst, hs, hact, hsty, hdt _ hnow, het,
    hisSome, if_true, Option.getD_some, hside]
  refine ⟨_, rfl, rfl, rfl, ?_, rfl, rfl, rfl, rfl⟩
  simp only
  split <;> omega

theorem good_new (k : Ack ν) (h : k.now.ok) : Good k (newInfo k.id k.now k.code k.amount k.style) :=
  ⟨⟨rfl, rfl, rfl, rfl, rfl, rfl, rfl, rfl⟩, h, ⟨.new, rfl⟩, .inl rfl⟩

theorem Good.refused {k : Ack ν} {i : OrderInfo ν} (h : Good k i) (ls : List (Str × Nat)) (id : Str) : Good k (linesView 6 resView id ls i) := by
  induction ls generalizing i with
  | nil => exact h
  | cons l ls ih =>
    rw [linesView_cons]
    refine ih ?_
    unfold lineView
    cases lineKind 6 l.1 with
    | stop => exact h
    | header => exact h
    | fields items =>
      simp only [resView]
      split
      · split
        · exact ⟨h.asked, h.now, ⟨.rejected, rfl⟩, h.time⟩
        · exact h
      · exact h

theorem Good.update {k : Ack ν} {i : OrderInfo ν} (h : Good k i) (ln : OrderLine)
    (ht : ∀ d, strptime mCompact (ln.orderDate ++ ln.orderTime) = .ok d → 1000 ≤ d.year) : Good k (updateOrder i ln).1 := by
  refine ⟨h.asked.same (updateOrder_same i ln), h.now, ?_, ?_⟩
  · simp only [updateOrder]
    cases parseStatus ln.status with
    | error e => exact h.status
    | ok st =>
      simp only
      repeat' split
      all_goals exact ⟨st, rfl⟩
  · simp only [updateOrder]
    cases parseStatus ln.status with
    | error e => exact h.time
    | ok st =>
      simp only
      cases hd : strptime mCompact (ln.orderDate ++ ln.orderTime) with
      | error e => exact h.time
      | ok d =>
        have : d.ok := ⟨strptime_valid hd, ht d hd⟩
        simp only
        repeat' split
        all_goals exact .inr ⟨d, this, rfl⟩

theorem Good.updated {k : Ack ν} {i : OrderInfo ν} (h : Good k i) (ls : List (Str × Nat)) (id : Str)
    (ht : ∀ l ∈ ls, ∀ items ln d, lineKind 20 l.1 = .fields items → OrderLine.ofItems items = .ok ln →
      strptime mCompact (ln.orderDate ++ ln.orderTime) = .ok d → 1000 ≤ d.year) : Good k (linesView 20 updView id ls i) := by
  induction ls generalizing i with
  | nil => exact h
  | cons l ls ih =>
    rw [linesView_cons]
    refine ih ?_ (fun x hx => ht x (by simp [hx]))
    unfold lineView
    cases hk : lineKind 20 l.1 with
    | stop => exact h
    | header => exact h
    | fields items =>
      simp only [updView]
      cases ho : OrderLine.ofItems items with
      | error e => exact h
      | ok ln =>
        simp only
        split
        · exact h.update ln (fun d hd => ht l (by simp) items ln d hk ho hd)
        · exact h

/-- What an operation of the account does to the gate. -/
theorem op_effect (a : Acct (AXG ν) ν) (hren : a.gate.cur.Renames) (op : AOp ν) :
    ((a.step (axGate ν) op).1.gate.n = a.gate.n ∨ (a.step (axGate ν) op).1.gate.n = a.gate.n + 1) ∧
    let s := a.gate.ready
    let s' := (a.step (axGate ν) op).1.gate.ax
    let acks := op.acks (a.step (axGate ν) op).2
    ((s'.book = s.book ∧ s'.resOff = s.resOff ∧ s'.updOff = s.updOff ∧
        (s'.files (.data s.conf.dataDay) = s.files (.data s.conf.dataDay) ∨ s'.files (.data s.conf.dataDay) = a.gate.ax.files (.data s.conf.dataDay)) ∧ acks = []) ∨
     (∃ idn now code n st sd, op = .order idn now code n st sd ∧ s'.book = dset s.book (natStr idn) (newInfo (natStr idn) now code n st) ∧
        s'.resOff = s.resOff ∧ s'.updOff = s.updOff ∧
        ((acks = op.asks ∧ ∃ text, Store.dump s'.book = some text ∧ s'.files (.data s.conf.dataDay) = some text) ∨
         (acks = [] ∧ s'.files (.data s.conf.dataDay) = s.files (.data s.conf.dataDay)))) ∨
     (op = .syncOrders ∧ acks = [] ∧ ∃ updates results, s.files (.updates a.gate.cur.day) = some updates ∧ s.files (.results a.gate.cur.day) = some results ∧
        (⟨s'.book, s'.resOff, s'.updOff⟩ : SyncState ν) = (pollBoth s.conf.ignoreErr results updates ⟨s.book, s.resOff, s.updOff⟩).1 ∧
        ((∃ text, Store.dump s'.book = some text ∧ s'.files (.data s.conf.dataDay) = some text) ∨
         s'.files (.data s.conf.dataDay) = s.files (.data s.conf.dataDay)))) := by
  cases op with
  | syncBalance =>
    refine ⟨.inr (by simp only [Acct.step, syncBalance_gate]; rfl), .inl ?_⟩
    simp only [Acct.step, syncBalance_gate]
    exact ⟨rfl, rfl, rfl, .inl rfl, rfl⟩
  | cancel id =>
    simp only [Acct.step]
    rcases cancel_gate (axGate ν) id a with e | e <;> rw [e]
    · exact ⟨.inl rfl, .inl ⟨rfl, rfl, rfl, .inr rfl, rfl⟩⟩
    · refine ⟨.inr rfl, .inl ⟨rfl, rfl, rfl, .inl ?_, rfl⟩⟩
      show (appendLine _ _ _ _ _ _).1 _ = _
      rw [appendLine_other _ _ _ _ _ _ (by simp)]
  | syncOrders =>
    have hg : (a.step (axGate ν) .syncOrders).1.gate = a.gate.next (a.gate.ready.syncOrders a.gate.cur).1 := by
      simp only [Acct.step, syncOrders_gate]; rfl
    rw [hg]
    refine ⟨.inr rfl, ?_⟩
    simp only [AXG.next, AX.syncOrders]
    split
    · rename_i updates results hu hr
      refine .inr (.inr ⟨trivial, rfl, updates, results, hu, hr, ?_⟩)
      cases hp : pollBoth a.gate.ready.conf.ignoreErr results updates ⟨a.gate.ready.book, a.gate.ready.resOff, a.gate.ready.updOff⟩ with
      | mk t r =>
        cases r with
        | error e => exact ⟨rfl, .inr rfl⟩
        | ok u =>
          simp only
          rcases saveOrders_data a.gate.ready.conf.dataDay a.gate.cur hren t.book a.gate.ready.files with ⟨h1, text, h2, h3⟩ | ⟨⟨e, h1⟩, h2⟩
          · cases hs : saveOrders a.gate.ready.conf.dataDay a.gate.cur t.book a.gate.ready.files with
            | mk fs r =>
              rw [hs] at h1 h3
              simp only at h1 h3
              subst h1
              exact ⟨rfl, .inl ⟨text, h2, h3⟩⟩
          · cases hs : saveOrders a.gate.ready.conf.dataDay a.gate.cur t.book a.gate.ready.files with
            | mk fs r =>
              rw [hs] at h1 h2
              simp only at h1 h2
              subst h1
              exact ⟨rfl, .inr h2⟩
    · exact .inl ⟨rfl, rfl, rfl, .inl rfl, rfl⟩
  | order idn now code n st sd =>
    have hg : (a.step (axGate ν) (.order idn now code n st sd)).1.gate =
        a.gate.next (a.gate.ready.order a.gate.cur (newOrder (natStr idn) now code n st)).1 := by
      simp only [Acct.step, order_gate]; rfl
    rw [hg]
    refine ⟨.inr rfl, ?_⟩
    have hres : ((a.step (axGate ν) (.order idn now code n st sd)).2 = .ok none ∧
          ∃ e, (a.gate.ready.order a.gate.cur (newOrder (natStr idn) now code n st)).2 = .error e) ∨
        ((a.step (axGate ν) (.order idn now code n st sd)).2 = .ok (some (natStr idn)) ∧
          (a.gate.ready.order a.gate.cur (newOrder (natStr idn) now code n st)).2 = .ok ()) := by
      simp only [Acct.step]
      rcases order_cases (axGate ν) idn now code n st sd a with ⟨g, e, h1, h2⟩ | ⟨g, h1, h2⟩
      · exact .inl ⟨by rw [h2], e, congrArg Prod.snd h1⟩
      · exact .inr ⟨by rw [h2], congrArg Prod.snd h1⟩
    have failed : ∀ e, (a.gate.ready.order a.gate.cur (newOrder (natStr idn) now code n st)).2 = .error e →
        (AOp.order idn now code n st sd).acks (a.step (axGate ν) (.order idn now code n st sd)).2 = [] := by
      intro e he
      rcases hres with ⟨h3, _⟩ | ⟨_, h3⟩
      · rw [h3]; rfl
      · rw [he] at h3; cases h3
    simp only [AXG.next]
    cases henc : encodeSecurity code with
    | error e =>
      obtain ⟨e', h1⟩ := ax_order_badcode a.gate.cur a.gate.ready now (natStr idn) code n st henc
      rw [failed e' (by rw [h1]), h1]
      exact .inl ⟨rfl, rfl, rfl, .inl rfl, rfl⟩
    | ok enc =>
      have hap : ∀ items, (appendLine a.gate.ready.conf.win a.gate.cur.write (.orders a.gate.cur.day) orderHeader items
          a.gate.ready.files).1 (.data a.gate.ready.conf.dataDay) = a.gate.ready.files (.data a.gate.ready.conf.dataDay) :=
        fun items => appendLine_other _ _ _ _ _ _ (by simp)
      rcases ax_order_cases a.gate.cur a.gate.ready now (natStr idn) code enc n st henc with ⟨e, h1, _⟩ | ⟨acct, ha, hne, ⟨fs, e, h1, h2⟩ | ⟨fs, h1, h2⟩⟩
      · rw [failed e (by rw [h1]), h1]
        exact .inl ⟨rfl, rfl, rfl, .inl rfl, rfl⟩
      · have := hap (joinWith c!"," (newItems a.gate.ready.conf acct a.gate.cur.now (natStr idn) enc n st) ++ linesep a.gate.ready.conf.win)
        rw [h1] at this
        rw [failed e (by rw [h2]), h2]
        exact .inl ⟨rfl, rfl, rfl, .inl this, rfl⟩
      · have := hap (joinWith c!"," (newItems a.gate.ready.conf acct a.gate.cur.now (natStr idn) enc n st) ++ linesep a.gate.ready.conf.win)
        rw [h1] at this
        refine .inr (.inl ⟨idn, now, code, n, st, sd, rfl, by rw [h2], by rw [h2], by rw [h2], ?_⟩)
        have hr2 := congrArg Prod.snd h2
        simp only at hr2
        rcases saveOrders_data a.gate.ready.conf.dataDay a.gate.cur hren (dset a.gate.ready.book (natStr idn) (newInfo (natStr idn) now code n st)) fs with
          ⟨h3, text, h4, h5⟩ | ⟨⟨e, h3⟩, h4⟩
        · refine .inl ⟨?_, text, by rw [h2]; exact h4, by rw [h2]; exact h5⟩
          rcases hres with ⟨_, e, h6⟩ | ⟨h6, _⟩
          · rw [hr2, h3] at h6; cases h6
          · rw [h6]; rfl
        · exact .inr ⟨failed e (by rw [hr2, h3]), by rw [h2]; exact h4.trans this⟩

end Jq
