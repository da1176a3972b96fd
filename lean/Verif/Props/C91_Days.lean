import Verif.Props.C92_Days
set_option linter.unusedSectionVars false
/-!
# C91 over several days
-/
namespace Jq
variable {ν : Type} [CellNum ν] [Store ν]

/-- It is so on different days, written with as many characters, if the names have no slash. -/
theorem c91_days_apart (O O' : OfficeConf) (t : Nat) (hd : O.day ≠ O'.day) (hl : O.day.length = O'.day.length) (h1 : '/' ∉ O.day) (h2 : '/' ∉ O'.day)
    (hn : ∀ i, '/' ∉ O.name i) (hn' : ∀ i, '/' ∉ O'.name i) : OtherData O t O' := by
  intro i
  constructor
  · intro e
    have := congrArg Prod.snd e
    rw [dataFile_plain _ _ _ (hn t) h1, dataFile_plain _ _ _ (hn' i) h2] at this
    exact hd (List.append_inj_right' (List.append_cancel_right this) hl)
  · intro e
    have := congrArg Prod.snd e
    rw [dataFile_plain _ _ _ (hn t) h1] at this
    have := congrArg List.getLast? this
    simp only [List.getLast?_append] at this
    have this : some 'n' = some 'p' := this
    exact absurd this (by decide)

private theorem run_data (O' : OfficeConf) (t : Nat) (es : List (OEv ν)) (o : Office ν) (p : Path)
    (hp : ∀ i, p ≠ dataFile O'.dir (O'.name i) O'.day ∧ p ≠ ((dataFile O'.dir (O'.name i) O'.day).1, (dataFile O'.dir (O'.name i) O'.day).2 ++ c!".tmp")) :
    (o.run O' t es).1.data p = o.data p := by
  induction es generalizing o with
  | nil => rfl
  | cons e es ih =>
    refine (ih _).trans (Classical.byContradiction fun h => ?_)
    obtain ⟨i, _, _, _, _, _, h | h⟩ := c91_own_files O' o e p h
    · exact (hp i).1 h
    · exact (hp i).2 h

private theorem runDays_data (ds : List (OfficeConf × List (OEv ν))) (O : OfficeConf) (t : Nat) (o : Office ν) (hd : ∀ D ∈ ds, OtherData O t D.1) :
    (o.runDays ds).data (dataFile O.dir (O.name t) O.day) = o.data (dataFile O.dir (O.name t) O.day) := by
  induction ds generalizing o with
  | nil => rfl
  | cons D ds ih => exact (ih _ fun D' h => hd D' (List.mem_cons_of_mem _ h)).trans (run_data D.1 0 D.2 o _ (hd D (by simp)))

/-- Whatever all tasks did on other days before, and whatever else they did in a history in which the task is alone on its day: on its day the
task gets the same answers, and has the same account and the same data file, as if it were alone. -/
theorem c91_days [LawfulStore ν] (O : OfficeConf) (t : Nat) (others : Str → Prop)
    (hO : ∀ j, j ≠ t → dataFile O.dir (O.name j) O.day ≠ dataFile O.dir (O.name t) O.day) (o o' : Office ν) (h : SameFiles O t others o o')
    (before before' : List (OfficeConf × List (OEv ν))) (hreg : ∀ D ∈ before ++ before', ∀ e ∈ D.2, e.Regular D.1)
    (hday : ∀ D ∈ before ++ before', O.day ≠ D.1.day ∧ OtherData O t D.1)
    (conf : AXConf) (hc : conf.dataDay = O.day) (es es' : List (OEv ν)) (ha : Alone O t others es es') :
    let r := (o.runDays before).run O t (.start t conf :: es)
    let r' := (o'.runDays before').run O t (.start t conf :: es')
    r'.2 = r.2 ∧ SameAccount (r.1.task t) (r'.1.task t) ∧ SameFiles O t others r.1 r'.1 := by
  have e : ∀ (ds : List (OfficeConf × List (OEv ν))) (x : Office ν), (∀ D ∈ ds, D ∈ before ++ before') →
      (x.runDays ds).data (dataFile O.dir (O.name t) O.day) = x.data (dataFile O.dir (O.name t) O.day) ∧
      ∀ f : FileId, f.day = O.day → (x.runDays ds).shared f = x.shared f := fun ds x hs =>
    ⟨runDays_data ds O t x fun D hD => (hday D (hs D hD)).2,
     fun f hf => runDays_other ds x (fun D hD => hreg D (hs D hD)) f fun D hD => by rw [hf]; exact (hday D (hs D hD)).1⟩
  obtain ⟨d1, s1⟩ := e before o fun D hD => by simp [hD]
  obtain ⟨d2, s2⟩ := e before' o' fun D hD => by simp [hD]
  refine c91_undisturbed O t others hO _ _ ⟨?_, ?_, ?_, ?_⟩ conf hc es es' ha
  · rw [d1, d2]; exact h.data
  · rw [d1]; exact h.own
  · rw [s1 _ rfl, s2 _ rfl]; exact h.results
  · rw [s1 _ rfl, s2 _ rfl]; exact h.updates

/-! ## Two days -/

private def exFirst : OfficeConf := ⟨c!"20240101", c!"/run/jq", exNames⟩
private def exOld : Env := { now := ⟨2024, 1, 1, 9, 30, 0, 25⟩, day := c!"20240101" }
/-- The day before, both tasks order, with the numbers that are used again. -/
private def exBefore : List (OEv Int) :=
  [.start 0 { demoConf false with dataDay := c!"20240101" }, .start 1 { demoConf false with dataDay := c!"20240101" },
   .call 0 exOld (.order 7 exOld.now c!"600000.XSHG" 100 (.limit 12) .long), .call 1 exOld (.order 8 exOld.now c!"600000.XSHG" 100 (.limit 12) .long)]

private theorem names_plain (i : Nat) : '/' ∉ exNames i := by
  simp only [exNames, List.mem_cons, not_or]
  exact ⟨by decide, fun h => absurd (natStr_digits i _ h) (by decide)⟩

/-- Non-vacuity: in the one history there was a day before and another task, in the other nothing. -/
example : (exEmpty.run (exOffice exNames) 0 [.start 0 (demoConf false), exAsk 0 7]).2 =
    ((exEmpty.runDays [(exFirst, exBefore)]).run (exOffice exNames) 0 [.start 0 (demoConf false), exAsk 1 8, exAsk 0 7]).2 := by
  refine (c91_days (exOffice exNames) 0 (fun id => id = c!"8") (fun j hj => c91_plain_names _ _ _ _ (by decide) (names_plain j) (names_plain 0) ?_) exEmpty exEmpty
    ⟨rfl, fun _ _ h => by simp [exEmpty] at h, ⟨rfl, .inl rfl, .inl rfl, .nil⟩, ⟨rfl, .inl rfl, .inl rfl, .nil⟩⟩ [(exFirst, exBefore)] [] ?_ ?_
    (demoConf false) rfl [exAsk 1 8, exAsk 0 7] [exAsk 0 7] ?_).1
  · exact fun e => hj (natStr_inj (List.cons.inj e).2)
  · intro D hD e he
    simp only [List.append_nil, List.mem_singleton] at hD
    subst hD
    simp only [exBefore, List.mem_cons, List.not_mem_nil, or_false] at he
    rcases he with rfl | rfl | rfl | rfl
    · rfl
    · rfl
    all_goals
      refine ⟨rfl, by simp [exOld], ?_⟩
      intro idn now code n st sd h
      cases h <;> decide
  · intro D hD
    simp only [List.append_nil, List.mem_singleton] at hD
    subst hD
    exact ⟨by decide, c91_days_apart _ _ 0 (by decide) rfl (by decide) (by decide) names_plain names_plain⟩
  · exact .otherCall _ _ (by decide) (.call _ _ rfl (by intro id hid; simp only [AOp.draws, List.mem_singleton] at hid; subst hid; decide +kernel) .nil)

/-- The order of the day before, with the same number, is not what it sees. -/
example : exShown ((exEmpty.runDays [(exFirst, exBefore)]).run (exOffice exNames) 0 [.start 0 (demoConf false), exAsk 1 8, exAsk 0 7]).1 0 c!"7" =
    some (700, some .new, 0) := by decide +kernel

end Jq
