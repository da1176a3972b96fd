import Verif.Props.C92_Broker
import Verif.Lemmas.Days
set_option linter.unusedSectionVars false
/-!
# C92 over several days: every day has its own order and cancel file
-/
namespace Jq
variable {ν : Type} [CellNum ν] [Store ν]

/-- Not a file of one task alone. -/
private def FileId.Common : FileId → Prop
  | .data _ | .tmp _ => False
  | _ => True

/-- A gate called on other days than `d`, which has left the common files of `d` as they were. -/
private structure Elsewhere (d : Str) (fs : Files) (g : AXG ν) : Prop where
  env : ∀ n, (g.env n).day ≠ d ∧ (g.env n).ext = id
  files : ∀ f : FileId, f.Common → f.day = d → g.ax.files f = fs f

private theorem Elsewhere.sim (d : Str) (fs : Files) : GateSim (axGate ν) (axGate ν) (fun g h => h = g ∧ Elsewhere d fs g) := by
  have ready : ∀ g : AXG ν, Elsewhere d fs g → g.ready = g.ax := by
    intro g H
    simp only [AXG.ready, AXG.cur, (H.env g.n).2, id]
  have next : ∀ g : AXG ν, Elsewhere d fs g → ∀ s : AX ν, (∀ f : FileId, f.Common → f.day = d → s.files f = g.ax.files f) → Elsewhere d fs (g.next s) := by
    intro g H s hs
    exact ⟨H.env, fun f hf hd => (hs f hf hd).trans (H.files f hf hd)⟩
  have saved : ∀ (day : Str) (env : Env) (b : Book ν) (gs : Files) (f : FileId), f.Common → (saveOrders day env b gs).1 f = gs f := by
    intro day env b gs f hf
    refine saveOrders_other _ _ _ _ ?_ ?_ <;> rintro rfl <;> exact hf
  refine ⟨?_, ?_, ?_, ?_⟩
  · rintro g h o ⟨rfl, H⟩
    refine ⟨⟨rfl, next h H _ fun f hf hd => ?_⟩, rfl⟩
    have hne : f ≠ .orders h.cur.day := by rintro rfl; exact (H.env h.n).1 hd
    rw [ready h H]
    simp only [AX.order]
    cases orderFields h.ax.conf h.cur.now o with
    | error e => rfl
    | ok items =>
      simp only
      have ha := appendLine_other h.ax.conf.win h.cur.write (.orders h.cur.day) orderHeader (joinWith c!"," items ++ linesep h.ax.conf.win) h.ax.files hne
      rcases e1 : appendLine h.ax.conf.win h.cur.write (.orders h.cur.day) orderHeader (joinWith c!"," items ++ linesep h.ax.conf.win) h.ax.files with ⟨f1, r1⟩
      rw [e1] at ha
      cases r1 with
      | error e => exact ha
      | ok u =>
        simp only [AX.remember]
        cases o.json with
        | error e => exact ha
        | ok info => exact (saved _ _ _ _ f hf).trans ha
  · rintro g h id ⟨rfl, H⟩
    refine ⟨⟨rfl, next h H _ fun f hf hd => ?_⟩, rfl⟩
    have hne : f ≠ .cancels h.cur.day := by rintro rfl; exact (H.env h.n).1 hd
    rw [ready h H]
    exact appendLine_other _ _ _ _ _ _ hne
  · rintro g h ⟨rfl, H⟩
    exact ⟨⟨rfl, next h H _ fun f hf hd => by rw [ready h H]⟩, rfl⟩
  · rintro g h ⟨rfl, H⟩
    refine ⟨⟨rfl, next h H _ fun f hf hd => ?_⟩, rfl⟩
    rw [ready h H]
    refine ax_syncOrders_files _ _ ?_ ?_ <;> rintro rfl <;> exact hf

/-- What happens on a day leaves all common files of other days as they are. -/
theorem c92_other_day (O : OfficeConf) (t : Nat) (es : List (OEv ν)) (o : Office ν) (hes : ∀ e ∈ es, e.Regular O) (f : FileId) (hf : f.day ≠ O.day) :
    (o.run O t es).1.shared f = o.shared f := by
  induction es generalizing o with
  | nil => rfl
  | cons e es ih =>
    refine (ih _ fun e' h => hes e' (List.mem_cons_of_mem _ h)).trans ?_
    have he := hes e (by simp)
    cases e with
    | broker r u =>
      simp only [Office.step]
      rw [Files.set_ne _ (by rintro rfl; exact hf rfl), Files.set_ne _ (by rintro rfl; exact hf rfl)]
    | start i conf => cases f <;> rfl
    | call i env op =>
      obtain ⟨g', ⟨_, H⟩, _⟩ := step_sim (Elsewhere.sim f.day o.shared) (o.at O i env) (o.at O i env).gate
        ⟨rfl, fun _ => ⟨by show env.day ≠ _; rw [he.1]; exact hf.symm, rfl⟩, by intro f' hf' _; cases f' <;> first | rfl | exact hf'.elim⟩ op
      have := H.files f
      cases f <;> first | rfl | exact this trivial rfl

private theorem run_static (O : OfficeConf) (es : List (OEv ν)) (o : Office ν) (hes : ∀ e ∈ es, e.Regular O) (hw : ∀ i, (o.task i).gate.ax.conf.win = false)
    (hwf : ∀ i, (o.task i).WF) : (∀ i, ((o.run O 0 es).1.task i).gate.ax.conf.win = false) ∧ ∀ i, ((o.run O 0 es).1.task i).WF := by
  induction es generalizing o with
  | nil => exact ⟨hw, hwf⟩
  | cons e es ih => exact ih _ (fun e' h => hes e' (List.mem_cons_of_mem _ h)) (office_static O o e (hes e (by simp)) hw) (office_wf O o e hwf)

private theorem runDays_static (ds : List (OfficeConf × List (OEv ν))) (o : Office ν) (hds : ∀ D ∈ ds, ∀ e ∈ D.2, e.Regular D.1)
    (hw : ∀ i, (o.task i).gate.ax.conf.win = false) (hwf : ∀ i, (o.task i).WF) :
    (∀ i, ((o.runDays ds).task i).gate.ax.conf.win = false) ∧ ∀ i, ((o.runDays ds).task i).WF := by
  induction ds generalizing o with
  | nil => exact ⟨hw, hwf⟩
  | cons D ds ih =>
    obtain ⟨h1, h2⟩ := run_static D.1 D.2 o (hds D (by simp)) hw hwf
    exact ih _ (fun D' h => hds D' (List.mem_cons_of_mem _ h)) h1 h2

theorem runDays_other (ds : List (OfficeConf × List (OEv ν))) (o : Office ν) (hds : ∀ D ∈ ds, ∀ e ∈ D.2, e.Regular D.1) (f : FileId)
    (hf : ∀ D ∈ ds, f.day ≠ D.1.day) : (o.runDays ds).shared f = o.shared f := by
  induction ds generalizing o with
  | nil => rfl
  | cons D ds ih =>
    exact (ih _ (fun D' h => hds D' (List.mem_cons_of_mem _ h)) fun D' h => hf D' (List.mem_cons_of_mem _ h)).trans
      (c92_other_day D.1 0 D.2 o (hds D (by simp)) f (hf D (by simp)))

private theorem runDays_append (ds es : List (OfficeConf × List (OEv ν))) (o : Office ν) : o.runDays (ds ++ es) = (o.runDays ds).runDays es := by
  induction ds generalizing o with
  | nil => rfl
  | cons D ds ih => exact ih _

/-- Several days, no day twice: in the end the order and the cancel file of each day are exactly what the tasks asked on this day, whatever
happened on the days before and after. -/
theorem c92_days (before after : List (OfficeConf × List (OEv ν))) (O : OfficeConf) (es : List (OEv ν)) (o : Office ν)
    (hw : ∀ i, (o.task i).gate.ax.conf.win = false) (hwf : ∀ i, (o.task i).WF)
    (hreg : ∀ D ∈ before ++ (O, es) :: after, ∀ e ∈ D.2, e.Regular D.1) (hday : ∀ D ∈ before ++ after, O.day ≠ D.1.day)
    (ho : o.shared (.orders O.day) = none) (hc : o.shared (.cancels O.day) = none) :
    (∃ new, Sent O (o.runDays before) es new ∧
      RecordFile false orderColumns ((o.runDays (before ++ (O, es) :: after)).shared (.orders O.day)) new) ∧
    ∃ new, Withdrawn O (o.runDays before) es new ∧
      RecordFile false cancelColumns ((o.runDays (before ++ (O, es) :: after)).shared (.cancels O.day)) new := by
  have rb : ∀ D ∈ before, ∀ e ∈ D.2, e.Regular D.1 := fun D h => hreg D (by simp [h])
  have ra : ∀ D ∈ after, ∀ e ∈ D.2, e.Regular D.1 := fun D h => hreg D (by simp [h])
  have re : ∀ e ∈ es, e.Regular O := hreg (O, es) (by simp)
  obtain ⟨sw, swf⟩ := runDays_static before o rb hw hwf
  have same : ∀ f : FileId, f.day = O.day →
      (o.runDays (before ++ (O, es) :: after)).shared f = ((o.runDays before).run O 0 es).1.shared f := by
    intro f hf
    rw [runDays_append]
    exact runDays_other after _ ra f fun D h => by rw [hf]; exact hday D (by simp [h])
  have start : ∀ f : FileId, f.day = O.day → (o.runDays before).shared f = o.shared f := fun f hf =>
    runDays_other before o rb f fun D h => by rw [hf]; exact hday D (by simp [h])
  rw [same _ rfl, same _ rfl]
  constructor
  · simpa using c92_orders O 0 es (o.runDays before) [] sw re (by rw [start _ rfl, ho]; exact .absent)
  · simpa using c92_cancels O 0 es (o.runDays before) [] sw swf re (by rw [start _ rfl, hc]; exact .absent)

/-! ## Two days -/

private def exNext : OfficeConf := ⟨c!"20240103", c!"/run/jq", exNames⟩
private def exEnv : Env := { now := ⟨2024, 1, 3, 9, 30, 0, 25⟩, day := c!"20240103" }
private def exDay1 : List (OEv Int) := [.start 0 (demoConf false), .start 1 (demoConf false), exAsk 0 7, exAsk 1 8, .call 0 demoEnv (.cancel c!"7")]
/-- Task 0 is started again; task 1 still runs. -/
private def exDay2 : List (OEv Int) :=
  [.start 0 { demoConf false with dataDay := c!"20240103" }, .call 0 exEnv (.cancel c!"7"),
   .call 0 exEnv (.order 9 exEnv.now c!"600000.XSHG" 100 (.limit 12) .long), .call 1 exEnv (.cancel c!"8")]

private theorem ex_regular : ∀ D ∈ [(exOffice exNames, exDay1), (exNext, exDay2)], ∀ e ∈ D.2, e.Regular D.1 := by
  intro D hD e he
  simp only [List.mem_cons, List.not_mem_nil, or_false] at hD
  rcases hD with rfl | rfl <;> simp only [exDay1, exDay2, exAsk, List.mem_cons, List.not_mem_nil, or_false] at he
  · rcases he with rfl | rfl | rfl | rfl | rfl
    · rfl
    · rfl
    all_goals
      refine ⟨rfl, by simp [demoEnv], ?_⟩
      intro idn now code n st sd h
      cases h <;> decide
  · rcases he with rfl | rfl | rfl | rfl
    · rfl
    all_goals
      refine ⟨rfl, by simp [exEnv], ?_⟩
      intro idn now code n st sd h
      cases h <;> decide

/-- Non-vacuity, for the first and for the second day. -/
example : (∃ new, Sent (exOffice exNames) exEmpty exDay1 new ∧
      RecordFile false orderColumns ((exEmpty.runDays [(exOffice exNames, exDay1), (exNext, exDay2)]).shared (.orders c!"20240102")) new) ∧
    ∃ new, Withdrawn exNext (exEmpty.runDays [(exOffice exNames, exDay1)]) exDay2 new ∧
      RecordFile false cancelColumns ((exEmpty.runDays [(exOffice exNames, exDay1), (exNext, exDay2)]).shared (.cancels c!"20240103")) new :=
  ⟨(c92_days [] [(exNext, exDay2)] (exOffice exNames) exDay1 exEmpty (fun _ => rfl) (fun _ => wf_init _) ex_regular
      (by intro D hD; simp only [List.nil_append, List.mem_singleton] at hD; subst hD; decide) rfl rfl).1,
   (c92_days [(exOffice exNames, exDay1)] [] exNext exDay2 exEmpty (fun _ => rfl) (fun _ => wf_init _) ex_regular
      (by intro D hD; simp only [List.append_nil, List.mem_singleton] at hD; subst hD; decide) rfl rfl).2⟩

/-- The files of the two days: the task that was started again does not know order 7, the other still knows order 8. -/
example : let o := exEmpty.runDays [(exOffice exNames, exDay1), (exNext, exDay2)]
    o.shared (.orders c!"20240102") = some (orderHeader ++
      c!"\n093000.000025,7,UM0,88,600000.SH,1,700,DMA,AT,0,12,12\n093000.000025,8,UM0,88,600000.SH,1,800,DMA,AT,0,12,12\n") ∧
    o.shared (.cancels c!"20240102") = some c!"updTime,custBatchNo\n093000.000025,7\n" ∧
    o.shared (.orders c!"20240103") = some (orderHeader ++ c!"\n093000.000025,9,UM0,88,600000.SH,1,100,DMA,AT,0,12,12\n") ∧
    o.shared (.cancels c!"20240103") = some c!"updTime,custBatchNo\n093000.000025,8\n" := by
  decide +kernel

end Jq
