import Verif.Lemmas.Office
import Verif.Props.C18_Gate
import Verif.Props.C36_OrderSync
set_option linter.unusedSectionVars false
/-!
# C91: tasks that share the broker's directory do not disturb each other
-/
namespace Jq
variable {ν : Type} [CellNum ν] [Store ν]

/-- A task whose data file no other task uses gets the same answers, has the same account and the same data file as if it were alone:
whatever the other tasks do, in whatever order, and whether or not the broker writes about orders that it has not placed. -/
theorem c91_undisturbed [LawfulStore ν] (O : OfficeConf) (t : Nat) (others : Str → Prop)
    (hO : ∀ j, j ≠ t → dataFile O.dir (O.name j) O.day ≠ dataFile O.dir (O.name t) O.day) (o o' : Office ν) (h : SameFiles O t others o o')
    (conf : AXConf) (hc : conf.dataDay = O.day) (es es' : List (OEv ν)) (ha : Alone O t others es es') :
    let r := o.run O t (.start t conf :: es)
    let r' := o'.run O t (.start t conf :: es')
    r'.2 = r.2 ∧ SameAccount (r.1.task t) (r'.1.task t) ∧ SameFiles O t others r.1 r'.1 := by
  have hO' : Apart O t := fun j hj => ⟨fun e => hO j hj e.symm, tmp_ne_data _ _ _ _⟩
  obtain ⟨h1, h2⟩ := (h.start conf hc).run hO' ha
  exact ⟨by simp only [Office.run, h2], ⟨h1.account, h1.gate.book, h1.gate.conf⟩, h1.sameFiles⟩

/-- Tasks with different names have different data files, if the names have no slash. -/
theorem c91_plain_names (dir day name name' : Str) (hd : '/' ∉ day) (hn : '/' ∉ name) (hn' : '/' ∉ name') (h : name ≠ name') :
    dataFile dir name day ≠ dataFile dir name' day := by
  intro e
  have := congrArg Prod.snd e
  rw [dataFile_plain dir name day hn hd, dataFile_plain dir name' day hn' hd] at this
  simp only [List.append_assoc, List.append_cancel_right_eq] at this
  exact h this

theorem appendLine_grows (win : Bool) (fault : WriteFault) (f : FileId) (header line : Str) (fs : Files) (g : FileId) :
    (fs g).getD [] <+: ((appendLine win fault f header line fs).1 g).getD [] := by
  by_cases hg : g = f
  · subst hg
    cases fault <;> simp [appendLine, Files.set]
  · rw [appendLine_other _ _ _ _ _ _ hg]; exact List.prefix_refl _

/-- Nobody removes or changes a record of another task: the order and cancel files only grow, and the tasks leave the broker's files as they are. -/
theorem c91_records_stay (O : OfficeConf) (o : Office ν) (e : OEv ν) (d : Str) :
    ((o.shared (.orders d)).getD [] <+: ((o.step O e).1.shared (.orders d)).getD []) ∧
    ((o.shared (.cancels d)).getD [] <+: ((o.step O e).1.shared (.cancels d)).getD []) ∧
    ((∀ r u, e ≠ .broker r u) → (o.step O e).1.shared (.results d) = o.shared (.results d) ∧
      (o.step O e).1.shared (.updates d) = o.shared (.updates d)) := by
  cases e with
  | start i conf => exact ⟨List.prefix_refl _, List.prefix_refl _, fun _ => ⟨rfl, rfl⟩⟩
  | broker r u => exact ⟨List.prefix_refl _, List.prefix_refl _, fun h => absurd rfl (h r u)⟩
  | call i env op =>
    have hview : ∀ f, f = .orders d ∨ f = .cancels d ∨ f = .results d ∨ f = .updates d → (o.at O i env).gate.ax.files f = o.shared f := by
      rintro f (rfl | rfl | rfl | rfl) <;> rfl
    have hready : (o.at O i env).gate.ready = (o.at O i env).gate.ax := rfl
    have hput : ∀ f, f = .orders d ∨ f = .cancels d ∨ f = .results d ∨ f = .updates d →
        (o.step O (.call i env op)).1.shared f = ((o.at O i env).step (axGate ν) op).1.gate.ax.files f := by
      rintro f (rfl | rfl | rfl | rfl) <;> rfl
    have grow : ∀ f, f = .orders d ∨ f = .cancels d →
        (((o.at O i env).gate.ax.files f).getD [] <+: (((o.at O i env).step (axGate ν) op).1.gate.ax.files f).getD []) := by
      intro f hf
      have h1 : ∀ x, f ≠ .data x := by rcases hf with rfl | rfl <;> simp
      have h2 : ∀ x, f ≠ .tmp x := by rcases hf with rfl | rfl <;> simp
      generalize o.at O i env = a at *
      cases op with
      | order idn now code amount style side =>
        simp only [Acct.step, order_gate, axGate, AXG.next, hready]
        generalize newOrder (natStr idn) now code amount style = x
        simp only [AX.order]
        split
        · exact List.prefix_refl _
        · rename_i items _
          have hg := appendLine_grows a.gate.ax.conf.win a.gate.cur.write (.orders a.gate.cur.day) orderHeader
            (joinWith c!"," items ++ linesep a.gate.ax.conf.win) a.gate.ax.files f
          split
          · rename_i e; rw [e] at hg; exact hg
          · rename_i e
            rw [e] at hg
            simp only [AX.remember]
            split
            · exact hg
            · simp only
              rw [saveOrders_other _ _ _ _ (h1 _) (h2 _)]; exact hg
      | cancel id =>
        simp only [Acct.step]
        rcases cancel_gate (axGate ν) id a with h | h
        · rw [h]; exact List.prefix_refl _
        · rw [h]
          simp only [axGate, AXG.next, hready, AX.cancel]
          exact appendLine_grows _ _ _ _ _ _ _
      | syncBalance => simp only [Acct.step, syncBalance_gate, axGate, AXG.next, hready]; exact List.prefix_refl _
      | syncOrders =>
        simp only [Acct.step, syncOrders_gate, axGate, AXG.next, hready]
        rw [ax_syncOrders_files _ _ (h1 _) (h2 _)]; exact List.prefix_refl _
    refine ⟨?_, ?_, fun _ => ⟨?_, ?_⟩⟩
    · rw [hput _ (by simp), ← hview _ (by simp)]; exact grow _ (.inl rfl)
    · rw [hput _ (by simp), ← hview _ (by simp)]; exact grow _ (.inr rfl)
    · rw [hput _ (by simp), ← hview _ (by simp)]
      exact step_files (o.at O i env) op rfl (by simp) (by simp) (by simp) (by simp)
    · rw [hput _ (by simp), ← hview _ (by simp)]
      exact step_files (o.at O i env) op rfl (by simp) (by simp) (by simp) (by simp)

/-- A task changes no file of another: apart from the broker's directory only its own data file and the file beside it whose name has
`.tmp` at its end, and those only when it orders or synchronises orders. -/
theorem c91_own_files (O : OfficeConf) (o : Office ν) (e : OEv ν) (p : Path) (h : (o.step O e).1.data p ≠ o.data p) :
    ∃ i env op, e = .call i env op ∧ op ≠ .syncBalance ∧ (∀ id, op ≠ .cancel id) ∧
      (p = dataFile O.dir (O.name i) O.day ∨
        p = ((dataFile O.dir (O.name i) O.day).1, (dataFile O.dir (O.name i) O.day).2 ++ c!".tmp")) := by
  have htmp : ∀ n, tmpFile O.dir n O.day = ((dataFile O.dir n O.day).1, (dataFile O.dir n O.day).2 ++ c!".tmp") := fun n =>
    fileAt_append _ _ (by decide)
  have hput : ∀ i (fs : Files) a, fs (.data O.day) = o.view O i (.data O.day) → fs (.tmp O.day) = o.view O i (.tmp O.day) →
      (o.put O i fs a).data p = o.data p := by
    intro i fs a h1 h2
    simp only [Office.put]
    split
    · rename_i hp; rw [h1, hp]; simp [Office.view]
    · split
      · rename_i hp; rw [h2, hp]; simp [Office.view]
      · rfl
  cases e with
  | start i conf => exact absurd (hput i _ _ rfl rfl) h
  | broker r u => exact absurd rfl h
  | call i env op =>
    have hready : (o.at O i env).gate.ready = (o.at O i env).gate.ax := rfl
    have hfiles : (o.at O i env).gate.ax.files = o.view O i := rfl
    refine ⟨i, env, op, rfl, ?_, ?_, ?_⟩
    · rintro rfl
      refine h (hput i _ _ ?_ ?_) <;>
      · simp only [Acct.step, syncBalance_gate, axGate, AXG.next, hready]; rfl
    · rintro id rfl
      refine h (hput i _ _ ?_ ?_) <;>
      · simp only [Acct.step]
        rcases cancel_gate (axGate ν) id (o.at O i env) with h | h
        · rw [h]; rfl
        · rw [h]
          simp only [axGate, AXG.next, hready, AX.cancel]
          rw [appendLine_other _ _ _ _ _ _ (by simp)]; rfl
    · rw [← htmp]
      simp only [Office.step, Office.put] at h
      split at h
      · exact .inl ‹_›
      · split at h
        · exact .inr ‹_›
        · exact absurd rfl h

/-! ## Concrete cases -/

/-- The directory of the examples, with the names of the tasks. -/
def exOffice (name : Nat → Str) : OfficeConf := ⟨c!"20240102", c!"/run/jq", name⟩

/-- Nothing has happened yet. -/
def exEmpty : Office Int := ⟨fun _ => none, fun _ => none, fun _ => Acct.init ⟨AX.setup (demoConf false) fun _ => none, fun _ => demoEnv, 0⟩⟩

/-- Task `i` orders. -/
def exAsk (i n : Nat) : OEv Int := .call i demoEnv (.order n demoEnv.now c!"600000.XSHG" (n * 100) (.limit 12) .long)

/-- What task `t` shows about an order. -/
def exShown (o : Office Int) (t : Nat) (id : Str) : Option (Int × Option Status × Int) :=
  ((o.task t).find id).map fun x => (x.amount, x.status, x.filled)

/-- Two tasks; the broker fills order 7 of task 0 and a part of order 8 of task 1, and refuses order 9 of task 1. -/
def exTogether : List (OEv Int) :=
  [exAsk 0 7, .start 1 (demoConf false), exAsk 1 8, exAsk 1 9,
   .broker c!"093002,1,9,1,13,no funds\n" (fileText [exUpdate c!"8" c!"1" c!"50", exUpdate c!"7" c!"2" c!"700"]),
   .call 1 demoEnv .syncOrders, .call 0 demoEnv .syncOrders, .start 0 (demoConf false), .call 0 demoEnv .syncOrders]

/-- The same for task 0 only. -/
def exApart : List (OEv Int) :=
  [exAsk 0 7, .broker [] (fileText [exUpdate c!"7" c!"2" c!"700"]),
   .call 0 demoEnv .syncOrders, .start 0 (demoConf false), .call 0 demoEnv .syncOrders]

private def exOthers (id : Str) : Prop := id = c!"8" ∨ id = c!"9"

def exNames (i : Nat) : Str := 't' :: natStr i

private theorem exNames_inj {i j : Nat} (h : i ≠ j) : exNames i ≠ exNames j := by
  intro e
  have := List.tail_eq_of_cons_eq e
  have h1 := natStr_inj this
  exact h h1

private theorem ex_alone (O : OfficeConf) (hO : O.day = c!"20240102") : Alone O 0 exOthers exTogether exApart := by
  have hr : rawLines c!"093002,1,9,1,13,no funds\n" = [(c!"093002,1,9,1,13,no funds", 25)] := by decide +kernel
  have hk : lineKind 6 c!"093002,1,9,1,13,no funds" = .fields [c!"093002", c!"1", c!"9", c!"1", c!"13", c!"no funds"] := by decide +kernel
  have hu : rawLines (fileText [exUpdate c!"8" c!"1" c!"50", exUpdate c!"7" c!"2" c!"700"]) =
      rawLines (fileText [exUpdate c!"8" c!"1" c!"50"]) ++ rawLines (fileText [exUpdate c!"7" c!"2" c!"700"]) := by decide +kernel
  have h8 : ∃ l, rawLines (fileText [exUpdate c!"8" c!"1" c!"50"]) = [l] ∧ lineKind 20 l.1 = .fields (exUpdate c!"8" c!"1" c!"50") :=
    ⟨(recordText (exUpdate c!"8" c!"1" c!"50"), (recordText (exUpdate c!"8" c!"1" c!"50")).length + 1), by decide +kernel, by decide +kernel⟩
  obtain ⟨l, h8a, h8b⟩ := h8
  refine .call _ _ hO.symm (by simp [AOp.draws, exOthers]; decide +kernel) (.otherStart _ (by decide) (.otherCall _ _ (by decide)
    (.otherCall _ _ (by decide) (.broker _ _ _ _ ?_ ?_ (.otherCall _ _ (by decide) (.call _ _ hO.symm (by simp [AOp.draws])
      (.start _ hO.symm (.call _ _ hO.symm (by simp [AOp.draws]) .nil))))))))
  · refine ⟨rfl, .inr (by decide +kernel), .inl rfl, ?_⟩
    simp only [Option.getD_some, hr]
    exact .drop ⟨c!"9", .inr rfl, _, _, _, _, _, hk⟩ .nil
  · refine ⟨rfl, .inr (by decide +kernel), .inr (by decide +kernel), ?_⟩
    simp only [Option.getD_some, hu, h8a]
    exact .drop ⟨c!"8", .inl rfl, _, _, h8b, rfl, rfl⟩ (Without.refl _)

private theorem ex_same (O : OfficeConf) (t : Nat) (others : Str → Prop) : SameFiles O t others exEmpty exEmpty :=
  ⟨rfl, fun _ _ h => by simp [exEmpty] at h, ⟨rfl, .inl rfl, .inl rfl, .nil⟩, ⟨rfl, .inl rfl, .inl rfl, .nil⟩⟩

/-- Non-vacuity of C91: with a second task in the directory, task 0 shows and answers what it would alone. -/
example :
    (exEmpty.run (exOffice exNames) 0 (.start 0 (demoConf false) :: exApart)).2 =
      (exEmpty.run (exOffice exNames) 0 (.start 0 (demoConf false) :: exTogether)).2 :=
  (c91_undisturbed (exOffice exNames) 0 exOthers (fun j hj => c91_plain_names _ _ _ _ (by decide)
    (show '/' ∉ exNames j by simp only [exNames, List.mem_cons, not_or]; exact ⟨by decide, fun h => absurd (natStr_digits j _ h) (by decide)⟩) (by decide +kernel) (exNames_inj hj))
    exEmpty exEmpty (ex_same _ _ _) (demoConf false) rfl _ _ (ex_alone _ rfl)).1

/-- What it shows. -/
example : exShown (exEmpty.run (exOffice exNames) 0 (.start 0 (demoConf false) :: exTogether)).1 0 c!"7" = some (700, some .filled, 700) ∧
    exShown (exEmpty.run (exOffice exNames) 0 (.start 0 (demoConf false) :: exTogether)).1 0 c!"8" = none ∧
    exShown (exEmpty.run (exOffice exNames) 0 (.start 0 (demoConf false) :: exTogether)).1 1 c!"8" = some (800, some .filling, 50) ∧
    exShown (exEmpty.run (exOffice exNames) 0 (.start 0 (demoConf false) :: exTogether)).1 1 c!"9" = some (900, some .rejected, 0) := by
  decide +kernel

/-- Both records are in the order file. -/
example : ((exEmpty.run (exOffice exNames) 0 (.start 0 (demoConf false) :: exTogether)).1.shared (.orders c!"20240102")).map
    (fun s => (splitOn '\n' s).map fun l => (splitOn ',' l)[1]?.getD []) = some [c!"custBatchNo", c!"7", c!"8", c!"9", []] := by
  decide +kernel

/-- The record of task 0 is still there after task 1 has ordered. -/
example (e : OEv Int) : ((exEmpty.run (exOffice exNames) 0 [.start 0 (demoConf false), exAsk 0 7]).1.shared (.orders c!"20240102")).getD [] <+:
    (((exEmpty.run (exOffice exNames) 0 [.start 0 (demoConf false), exAsk 0 7]).1.step (exOffice exNames) e).1.shared (.orders c!"20240102")).getD [] :=
  (c91_records_stay _ _ e _).1

/-! ## Where it ends -/

private def exClash : List (OEv Int) := [.start 1 (demoConf false), exAsk 0 7, exAsk 1 8, .start 0 (demoConf false)]

private theorem ex_clash (O : OfficeConf) (hO : O.day = c!"20240102") : Alone O 0 exOthers exClash [exAsk 0 7, .start 0 (demoConf false)] :=
  .otherStart _ (by decide) (.call _ _ hO.symm (by simp [AOp.draws, exOthers]; decide +kernel) (.otherCall _ _ (by decide) (.start _ hO.symm .nil)))

private def exSlash (i : Nat) : Str := if i = 0 then c!"a" else c!"./a"

/-- Names with slashes can be different and still mean the same data file: then what one task saves is what the other one loads.  Here the
order of task 0 is gone after it was started again. -/
theorem c91_same_file_refuted : ¬ ∀ (O : OfficeConf) (others : Str → Prop) (o o' : Office Int) (conf : AXConf) (es es' : List (OEv Int)),
    (∀ j, j ≠ 0 → O.name j ≠ O.name 0) → SameFiles O 0 others o o' → conf.dataDay = O.day → Alone O 0 others es es' →
    SameAccount ((o.run O 0 (.start 0 conf :: es)).1.task 0) ((o'.run O 0 (.start 0 conf :: es')).1.task 0) := by
  intro h
  have := (h (exOffice exSlash) exOthers exEmpty exEmpty (demoConf false) exClash _ ?_ (ex_same _ _ _) rfl (ex_clash _ rfl)).book
  · revert this; decide +kernel
  · intro j hj
    show exSlash j ≠ exSlash 0
    rw [exSlash, if_neg hj]; decide

example : dataFile c!"/run/jq" c!"a" c!"20240102" = dataFile c!"/run/jq" c!"./a" c!"20240102" := by decide +kernel

/-- The orders that task 0 knows then. -/
example : ((exEmpty.run (exOffice exSlash) 0 (.start 0 (demoConf false) :: exClash)).1.task 0).gate.ax.book.map (·.1) = [c!"8"] := by
  decide +kernel

/-- A line about another task's order that is cut off (its reason has a line break in it) keeps this task from seeing what comes after it:
the order stays new although the file says that it was filled. -/
theorem c91_cut_line_witness : ∃ (r u u' : Str), WholeLines u ∧ WholeLines u' ∧
    (∃ cut, lineKind 20 cut = .stop ∧ rawLines u = (cut, cut.length + 1) :: rawLines u' ∧ hasSub c!",8," cut = true) ∧
    exShown (exEmpty.run (exOffice exNames) 0 [.start 0 (demoConf false), exAsk 0 7, .broker r u, .call 0 demoEnv .syncOrders]).1 0 c!"7" =
      some (700, some .new, 0) ∧
    exShown (exEmpty.run (exOffice exNames) 0 [.start 0 (demoConf false), exAsk 0 7, .broker r u', .call 0 demoEnv .syncOrders]).1 0 c!"7" =
      some (700, some .filled, 700) := by
  refine ⟨[], recordText ((exUpdate c!"8" c!"5" c!"0").take 19) ++ '\n' :: fileText [exUpdate c!"7" c!"2" c!"700"],
    fileText [exUpdate c!"7" c!"2" c!"700"], .inr (by decide +kernel), .inr (by decide +kernel),
    ⟨recordText ((exUpdate c!"8" c!"5" c!"0").take 19), ?_, ?_, ?_⟩, ?_, ?_⟩ <;> decide +kernel

/-- Two tasks that draw the same number for an order both take the broker's line for theirs. -/
theorem c91_same_id_witness :
    exShown (exEmpty.run (exOffice exNames) 0 [.start 0 (demoConf false), .start 1 (demoConf false), exAsk 0 7,
      .call 1 demoEnv (.order 7 demoEnv.now c!"000001.XSHE" (-300) (.limit 9) .long), .broker [] (fileText [exUpdate c!"7" c!"2" c!"300"]),
      .call 0 demoEnv .syncOrders]).1 0 c!"7" = some (700, some .filled, 300) := by
  decide +kernel

/-- Non-vacuity of `c91_own_files`: saving fails, the temporary file is left; the other task and calls that do not save leave it as it is. -/
example :
    let O := exOffice exNames
    let tmp : Path := ([c!"run", c!"jq"], c!"t0_20240102.json.tmp")
    let o := (exEmpty.run O 0 [.start 0 (demoConf false), .call 0 { demoEnv with save := .write .osError 3 } (.order 7 demoEnv.now c!"600000.XSHG" 100 (.limit 12) .long)]).1
    let o' := (o.run O 0 [.start 1 (demoConf false), exAsk 1 8, .call 0 demoEnv (.cancel c!"7"), .call 0 demoEnv .syncBalance]).1
    exEmpty.data tmp = none ∧ o.data tmp = some c!"{\"7" ∧ o'.data tmp = some c!"{\"7" ∧
    o.data ([c!"run", c!"jq"], c!"t1_20240102.json") = none ∧ (o'.data ([c!"run", c!"jq"], c!"t1_20240102.json")).isSome := by
  decide +kernel

end Jq
