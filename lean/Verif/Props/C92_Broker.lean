import Verif.Props.C91_Office
import Verif.Props.C21_Exact
import Verif.Lemmas.Csv
set_option linter.unusedSectionVars false
/-!
# C92: the order and cancel files of a day are what all tasks asked the broker
-/
namespace Jq
variable {ν : Type} [CellNum ν] [Store ν]

theorem office_static (O : OfficeConf) (o : Office ν) (e : OEv ν) (he : e.Regular O) (hw : ∀ i, (o.task i).gate.ax.conf.win = false) (i : Nat) :
    ((o.step O e).1.task i).gate.ax.conf.win = false := by
  cases e with
  | broker r u => exact hw i
  | start j conf =>
    simp only [Office.step, Office.put]
    split
    · exact he
    · exact hw i
  | call j env op =>
    simp only [Office.step, Office.put]
    split
    · rw [(axg_step_static _ op).2]; exact hw j
    · exact hw i

theorem office_wf (O : OfficeConf) (o : Office ν) (e : OEv ν) (hw : ∀ i, (o.task i).WF) (i : Nat) : ((o.step O e).1.task i).WF := by
  cases e with
  | broker r u => exact hw i
  | start j conf =>
    simp only [Office.step, Office.put]
    split
    · exact wf_init _
    · exact hw i
  | call j env op =>
    simp only [Office.step, Office.put]
    split
    · exact wf_step (a := o.at O j env) ⟨(hw j).ordersOk, (hw j).orders, (hw j).longOk, (hw j).shortOk, (hw j).long, (hw j).short⟩ _ op
    · exact hw i

/-- An order does not touch the cancel file. -/
private theorem order_leaves (a : Acct (AXG ν) ν) (hq : a.gate.cur.ext = id) (idn : Nat) (now : DT) (code : Str) (n : Int) (st : Style ν) (sd : Side) (d : Str) :
    (a.step (axGate ν) (.order idn now code n st sd)).1.gate.ax.files (.cancels d) = a.gate.ax.files (.cancels d) := by
  have hr : a.gate.ready = a.gate.ax := by simp only [AXG.ready, hq, id]
  simp only [Acct.step, order_gate, axGate, AXG.next, hr]
  generalize newOrder (natStr idn) now code n st = o
  simp only [AX.order]
  split
  · rfl
  · rename_i items _
    have ha := appendLine_other a.gate.ax.conf.win a.gate.cur.write (.orders a.gate.cur.day) orderHeader (joinWith c!"," items ++ linesep a.gate.ax.conf.win)
      a.gate.ax.files (show FileId.cancels d ≠ .orders a.gate.cur.day by simp)
    split
    · rename_i e; rw [e] at ha; exact ha
    · rename_i e
      rw [e] at ha
      simp only [AX.remember]
      split
      · exact ha
      · simp only
        rw [saveOrders_other _ _ _ _ (by simp) (by simp)]; exact ha

/-- The order file of the day: the header and whole records, for every id that a task got its record, in the order of the calls. -/
theorem c92_orders (O : OfficeConf) (t : Nat) (es : List (OEv ν)) (o : Office ν) (recs : List (List Str)) (hw : ∀ i, (o.task i).gate.ax.conf.win = false)
    (hes : ∀ e ∈ es, e.Regular O) (h : RecordFile false orderColumns (o.shared (.orders O.day)) recs) :
    ∃ new, Sent O o es new ∧ RecordFile false orderColumns ((o.run O t es).1.shared (.orders O.day)) (recs ++ new) := by
  induction es generalizing o recs with
  | nil => exact ⟨[], .nil o, by simpa [Office.run] using h⟩
  | cons e es ih =>
    have ht := office_static O o e (hes e (by simp)) hw
    have next : ∀ rest, RecordFile false orderColumns ((o.step O e).1.shared (.orders O.day)) (recs ++ rest) →
        ∃ new, Sent O (o.step O e).1 es new ∧ RecordFile false orderColumns ((o.run O t (e :: es)).1.shared (.orders O.day)) (recs ++ rest ++ new) :=
      fun rest hr => ih _ _ ht (fun e' he' => hes e' (List.mem_cons_of_mem _ he')) hr
    cases e with
    | broker r u =>
      obtain ⟨new, h1, h2⟩ := next [] (by rw [List.append_nil]; exact h)
      exact ⟨new, .nothing (by simp) (by intro id; simp [Office.step]) h1, by simpa using h2⟩
    | start i conf =>
      obtain ⟨new, h1, h2⟩ := next [] (by rw [List.append_nil]; exact h)
      exact ⟨new, .nothing (by simp) (by intro id; simp [Office.step]) h1, by simpa using h2⟩
    | call i env op =>
      obtain ⟨r1, r2, r3⟩ := hes (.call i env op) (by simp)
      obtain ⟨rest, g1, g2⟩ := step_orders_file O.day (o.at O i env) op recs (hw i) r3 r2 r1 (fun _ => rfl) h
      obtain ⟨new, h1, h2⟩ := next rest g1
      rcases g2 with ⟨rfl, g2, g3⟩ | ⟨idn, now, code, n, st, sd, enc, items, rfl, rfl, g3, g4, g5, g6, g7⟩
      · exact ⟨new, .nothing (by rintro _ _ _ _ _ _ _ _ ⟨⟩; exact g3 _ _ _ _ _ _ rfl) g2 h1, by simpa using h2⟩
      · exact ⟨items :: new, .sent i env idn now code n st sd g3 g7 g6 g4 g5 h1, by simpa using h2⟩

/-- The cancel file of the day: the header and one whole record for every cancel of an order that the task knows, in the order of the calls. -/
theorem c92_cancels (O : OfficeConf) (t : Nat) (es : List (OEv ν)) (o : Office ν) (recs : List (List Str)) (hw : ∀ i, (o.task i).gate.ax.conf.win = false)
    (hwf : ∀ i, (o.task i).WF) (hes : ∀ e ∈ es, e.Regular O) (h : RecordFile false cancelColumns (o.shared (.cancels O.day)) recs) :
    ∃ new, Withdrawn O o es new ∧ RecordFile false cancelColumns ((o.run O t es).1.shared (.cancels O.day)) (recs ++ new) := by
  induction es generalizing o recs with
  | nil => exact ⟨[], .nil o, by simpa [Office.run] using h⟩
  | cons e es ih =>
    have ht := office_static O o e (hes e (by simp)) hw
    have next : ∀ rest, RecordFile false cancelColumns ((o.step O e).1.shared (.cancels O.day)) (recs ++ rest) →
        ∃ new, Withdrawn O (o.step O e).1 es new ∧ RecordFile false cancelColumns ((o.run O t (e :: es)).1.shared (.cancels O.day)) (recs ++ rest ++ new) :=
      fun rest hr => ih _ _ ht (office_wf O o e hwf) (fun e' he' => hes e' (List.mem_cons_of_mem _ he')) hr
    have quiet : (∀ i env id, e = .call i env (.cancel id) → (o.task i).find id = none ∨ env.write ≠ .none) →
        RecordFile false cancelColumns ((o.step O e).1.shared (.cancels O.day)) recs →
        ∃ new, Withdrawn O o (e :: es) new ∧ RecordFile false cancelColumns ((o.run O t (e :: es)).1.shared (.cancels O.day)) (recs ++ new) := by
      intro hq hr
      obtain ⟨new, h1, h2⟩ := next [] (by rw [List.append_nil]; exact hr)
      exact ⟨new, .nothing hq h1, by simpa using h2⟩
    cases e with
    | broker r u => exact quiet (by simp) h
    | start i conf => exact quiet (by simp) h
    | call i env op =>
      obtain ⟨r1, r2, r3⟩ := hes (.call i env op) (by simp)
      have hwf' : (o.at O i env).WF :=
        ⟨(hwf i).ordersOk, (hwf i).orders, (hwf i).longOk, (hwf i).shortOk, (hwf i).long, (hwf i).short⟩
      cases op with
      | cancel id =>
        have hsh : (o.step O (.call i env (.cancel id))).1.shared (.cancels O.day) =
            ((o.at O i env).cancel (axGate ν) id).1.gate.ax.files (.cancels O.day) := rfl
        by_cases hk : (o.task i).find id = none
        · refine quiet (by rintro _ _ _ ⟨⟩; exact .inl hk) ?_
          rw [hsh, (c23_cancel_record (o.at O i env) hwf' id).1 hk]; exact h
        · obtain ⟨_, _, _, whole, g1, g2, _, g3, g4⟩ := c23_failed_writes (o.at O i env) hwf' id hk (by
            intro hwin; rw [show (o.at O i env).gate.ax.conf.win = false from hw i] at hwin; cases hwin)
          have hcur : (o.at O i env).gate.cur.day = O.day := r1
          rw [hcur] at g1 g2 g3
          rw [show (o.at O i env).gate.ax.conf.win = false from hw i] at g1
          cases hf : env.write with
          | none =>
            obtain ⟨new, h1, h2⟩ := next [[env.now.hmsf, id]] (by rw [hsh, g2 hf, Files.set_self]; exact .record h g1)
            exact ⟨_, .cancel i env id hk hf h1, by simpa using h2⟩
          | flush e k => exact absurd hf (r2 e k)
          | lock e =>
            refine quiet (by rintro _ _ _ ⟨⟩; exact .inr (by rw [hf]; simp)) ?_
            rw [hsh, g3 e hf, Files.set_self]
            show RecordFile _ _ (some ((o.shared (.cancels O.day)).getD [])) _
            cases ho : o.shared (.cancels O.day) with
            | some s => rw [ho] at h; exact h
            | none =>
              rw [ho] at h
              cases h with
              | absent => exact .empty
              | record _ h2 => rcases h2 with ⟨_, h2⟩ | ⟨_, _, _, h2⟩ <;> cases h2
          | «open» e =>
            refine quiet (by rintro _ _ _ ⟨⟩; exact .inr (by rw [hf]; simp)) ?_
            rw [hsh, g4 e hf]; exact h
      | order idn now code n st sd =>
        refine quiet (by simp) ?_
        show RecordFile _ _ (((o.at O i env).step (axGate ν) _).1.gate.ax.files (.cancels O.day)) _
        rw [order_leaves _ rfl]
        exact h
      | syncBalance =>
        refine quiet (by simp) ?_
        show RecordFile _ _ (((o.at O i env).step (axGate ν) _).1.gate.ax.files (.cancels O.day)) _
        simp only [Acct.step, syncBalance_gate]
        exact h
      | syncOrders =>
        refine quiet (by simp) ?_
        show RecordFile _ _ (((o.at O i env).step (axGate ν) _).1.gate.ax.files (.cancels O.day)) _
        simp only [Acct.step, syncOrders_gate]
        show RecordFile _ _ (((o.at O i env).gate.ready.syncOrders _).1.files _) _
        rw [ax_syncOrders_files _ _ (by simp) (by simp)]
        exact h

/-- Whoever reads such a file line by line and splits the lines at the commas gets the names of the columns and the records, if there are
no commas and line ends in the fields. -/
theorem c92_read_back (columns : List Str) (text : Str) (recs : List (List Str)) (h : RecordFile false columns (some text) recs) (hne : recs ≠ [])
    (hcol : joinWith c!"," columns ≠ []) (hr : ∀ r ∈ columns :: recs, r ≠ [] ∧ ∀ f ∈ r, PlainField f) :
    (rawLines text).map (fun l => splitOn ',' l.1) = columns :: recs := by
  have ht := c18_file_text false columns hcol _ recs h hne
  injection ht with ht
  have hl : linesText false (columns :: recs) = fileText (columns :: recs) := by
    simp only [linesText, fileText, lineEnd, recordText]; rfl
  have := rawLines_table (rows := columns :: recs) (fun r hm f hf => (hr r hm).2 f hf) []
  rw [List.append_nil, ← hl, ← ht, rawLines_nil, List.map_nil, List.append_nil] at this
  have h2 : (rawLines text).map (fun l => splitOn ',' l.1) = ((rawLines text).map (·.1)).map (splitOn ',') := by
    rw [List.map_map]; rfl
  rw [h2, this, List.map_map]
  clear h2 this hl ht h hcol hne
  generalize columns :: recs = rows at hr
  induction rows with
  | nil => rfl
  | cons r rows ih =>
    rw [List.map_cons, ih fun r' h' => hr r' (List.mem_cons_of_mem _ h')]
    congr 1
    exact splitOn_joinWith (hr r (by simp)).1 fun f hf => ((hr r (by simp)).2 f hf).1

/-! ## Concrete cases -/

/-- Two tasks order; task 1 cannot lock the file once; task 0 cancels its order and then one that it does not know. -/
private def exBusy : List (OEv Int) :=
  [.start 0 (demoConf false), .start 1 (demoConf false), exAsk 0 7,
   .call 1 { demoEnv with write := .lock .timeOut } (.order 8 demoEnv.now c!"000001.XSHE" (-300) (.market 0) .long),
   .call 1 demoEnv (.order 9 demoEnv.now c!"000001.XSHE" (-300) (.market 0) .long), .call 0 demoEnv .syncOrders,
   .call 0 demoEnv (.cancel c!"7"), .call 0 demoEnv (.cancel c!"9"), exAsk 0 10]

private theorem exBusy_regular (O : OfficeConf) (hO : O.day = c!"20240102") : ∀ e ∈ exBusy, e.Regular O := by
  intro e he
  simp only [exBusy, exAsk, List.mem_cons, List.not_mem_nil, or_false] at he
  rcases he with rfl | rfl | rfl | rfl | rfl | rfl | rfl | rfl | rfl
  · rfl
  · rfl
  all_goals
    refine ⟨hO.symm, by simp [demoEnv], ?_⟩
    intro idn now code n st sd h
    cases h <;> decide

/-- Non-vacuity of C92. -/
example (t : Nat) : (∃ new, Sent (exOffice fun _ => c!"t") exEmpty exBusy new ∧
      RecordFile false orderColumns ((exEmpty.run (exOffice fun _ => c!"t") t exBusy).1.shared (.orders c!"20240102")) ([] ++ new)) ∧
    ∃ new, Withdrawn (exOffice fun _ => c!"t") exEmpty exBusy new ∧
      RecordFile false cancelColumns ((exEmpty.run (exOffice fun _ => c!"t") t exBusy).1.shared (.cancels c!"20240102")) ([] ++ new) :=
  ⟨c92_orders _ t _ _ [] (fun _ => rfl) (exBusy_regular _ rfl) .absent,
   c92_cancels _ t _ _ [] (fun _ => rfl) (fun _ => wf_init _) (exBusy_regular _ rfl) .absent⟩

/-- What the broker finds. -/
example : ((exEmpty.run (exOffice exNames) 0 exBusy).1.shared (.orders c!"20240102")) = some (orderHeader ++
      c!"\n093000.000025,7,UM0,88,600000.SH,1,700,DMA,AT,0,12,12\n093000.000025,9,UM0,88,000001.SZ,2,300,DMA,P7,0,0,0\n" ++
      c!"093000.000025,10,UM0,88,600000.SH,1,1000,DMA,AT,0,12,12\n") ∧
    ((exEmpty.run (exOffice exNames) 0 exBusy).1.shared (.cancels c!"20240102")) = some c!"updTime,custBatchNo\n093000.000025,7\n" := by
  constructor <;> decide +kernel

/-- Read back. -/
example : (rawLines c!"updTime,custBatchNo\n093000.000025,7\n093000.000025,9\n").map (fun l => splitOn ',' l.1) =
    [cancelColumns, [c!"093000.000025", c!"7"], [c!"093000.000025", c!"9"]] := by
  refine c92_read_back cancelColumns _ [[c!"093000.000025", c!"7"], [c!"093000.000025", c!"9"]] ?_ (by simp) (by decide) ?_
  · exact .record (recs := [[c!"093000.000025", c!"7"]]) (.record (recs := []) .absent (.inl ⟨.inl rfl, rfl⟩))
      (.inr ⟨_, rfl, by decide, by decide +kernel⟩)
  · intro r hr
    simp only [List.mem_cons, List.not_mem_nil, or_false] at hr
    rcases hr with rfl | rfl | rfl <;> refine ⟨by simp [cancelColumns], ?_⟩ <;> intro f hf <;>
      simp only [cancelColumns, List.mem_cons, List.not_mem_nil, or_false] at hf <;>
      rcases hf with rfl | rfl <;> exact ⟨by decide, by decide, by decide⟩

end Jq
