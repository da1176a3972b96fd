import Verif.Lemmas.Days
import Verif.Props.C18_Gate
import Verif.Props.C36_OrderSync
set_option linter.unusedSectionVars false
/-!
# C98: every day stands alone
-/
namespace Jq
variable {ν : Type} [CellNum ν] [Store ν]

/-- What the processes of one day see, and the files of this day, are the same as if there had been no other day: whatever was in the files
of other days before, and whatever processes of other days did, before, in between or afterwards. -/
theorem c98_day_alone (d : Str) (ls : List (Str × Life ν)) (fs fs' : Files) (hls : ∀ p ∈ ls, p.2.On p.1) (h : SameDay d fs fs') :
    AllRel (fun x y => y.1 = x.1 ∧ Seen.Same x.2 y.2) ((runLives ls fs).1.filter fun x => x.1 = d) (runLives (ls.filter fun x => x.1 = d) fs').1 ∧
    SameDay d (runLives ls fs).2 (runLives (ls.filter fun x => x.1 = d) fs').2 := by
  induction ls generalizing fs fs' with
  | nil => exact ⟨.nil, h⟩
  | cons p ls ih =>
    obtain ⟨e, l⟩ := p
    have hl := hls (e, l) (by simp)
    have hls' : ∀ p ∈ ls, p.2.On p.1 := fun p hp => hls p (List.mem_cons_of_mem _ hp)
    by_cases hd : e = d
    · subst hd
      obtain ⟨h1, h2, h3⟩ := life_sim hl h
      obtain ⟨i1, i2⟩ := ih _ _ hls' h3
      simp only [runLives, List.filter_cons, decide_true, if_true]
      exact ⟨.cons ⟨rfl, h1, h2⟩ i1, i2⟩
    · obtain ⟨i1, i2⟩ := ih _ _ hls' ((life_away hd hl fs).symm.trans h)
      simp only [runLives, List.filter_cons, hd, decide_false, Bool.false_eq_true, if_false]
      exact ⟨i1, i2⟩

/-- The files of a day stay as they are on all other days. -/
theorem c98_past_kept (d : Str) (ls : List (Str × Life ν)) (fs : Files) (hls : ∀ p ∈ ls, p.2.On p.1) (hd : ∀ p ∈ ls, p.1 ≠ d) :
    ∀ f, f.day = d → (runLives ls fs).2 f = fs f := by
  suffices SameDay d fs (runLives ls fs).2 from this
  induction ls generalizing fs with
  | nil => exact SameDay.refl _ _
  | cons p ls ih =>
    have h1 := life_away (hd p (by simp)) (hls p (by simp)) fs
    exact h1.trans (ih _ (fun q hq => hls q (List.mem_cons_of_mem _ hq)) fun q hq => hd q (List.mem_cons_of_mem _ hq))

/-- The first process of a day begins without orders, however many days there were before: no order of another day is shown, cancelled or
counted. -/
theorem c98_begins_empty (d : Str) (ls : List (Str × Life ν)) (fs : Files) (hls : ∀ p ∈ ls, p.2.On p.1) (hd : ∀ p ∈ ls, p.1 ≠ d)
    (hfs : fs (.data d) = none) (l : Life ν) (hl : l.On d) :
    (l.begin (runLives ls fs).2).gate.ax.book = [] ∧ (l.begin (runLives ls fs).2).orders = [] := by
  refine ⟨?_, rfl⟩
  have := c98_past_kept d ls fs hls hd (.data d) rfl
  simp only [Life.begin, Acct.init, AX.setup, loadOrders, hl.started, this, hfs]

/-! ### Two days -/

private def day1 : Str := c!"20240102"
private def day2 : Str := c!"20240103"
private def env2 : Env := { now := ⟨2024, 1, 3, 9, 30, 0, 25⟩, day := day2 }
private def ask (env : Env) (n : Nat) : AOp Int := .order n env.now c!"600000.XSHG" (n * 100) (.limit 12) .long

/-- The broker reports that order `n` is filled, each time the gate is called. -/
private def report (d : Str) (n : Str) : Files → Files := fun fs =>
  (fs.set (.results d) (some [])).set (.updates d) (some (fileText [exUpdate n c!"2" c!"700"]))

private def first : Life Int := ⟨demoConf false, fun _ => { demoEnv with ext := report day1 c!"7" }, [ask demoEnv 7, .syncOrders]⟩
private def second : Life Int := ⟨{ demoConf false with dataDay := day2 }, fun _ => { env2 with ext := report day2 c!"8" }, [ask env2 8, .syncOrders]⟩
private def again : Life Int := ⟨{ demoConf false with dataDay := day2 }, fun _ => { env2 with ext := report day2 c!"8" }, [.syncOrders]⟩

private theorem report_on (d n : Str) : (∀ fs fs', SameDay d fs fs' → SameDay d (report d n fs) (report d n fs')) ∧
    ∀ fs f, f.day ≠ d → report d n fs f = fs f := by
  refine ⟨fun fs fs' h => (h.set _ _).set _ _, fun fs f hf => ?_⟩
  simp only [report, Files.set]
  rw [if_neg (by rintro rfl; exact hf rfl), if_neg (by rintro rfl; exact hf rfl)]

example : (∀ p ∈ [(day1, first), (day2, second), (day2, again)], p.2.On p.1) ∧
    (runLives [(day1, first), (day2, second), (day2, again)] fun _ => none).1.map (fun x => (x.1, dkeys x.2.account.orders, x.2.answers.length)) =
      [(day1, [c!"7"], 2), (day2, [c!"8"], 2), (day2, [c!"8"], 1)] ∧
    (runLives [(day2, second), (day2, again)] fun _ => none).1.map (fun x => (x.1, dkeys x.2.account.orders, x.2.answers.length)) =
      [(day2, [c!"8"], 2), (day2, [c!"8"], 1)] := by
  refine ⟨?_, by decide +kernel, by decide +kernel⟩
  intro p hp
  simp only [List.mem_cons, List.not_mem_nil, or_false] at hp
  rcases hp with rfl | rfl | rfl
  · exact ⟨rfl, fun _ => rfl, fun _ => (report_on _ _).1, fun _ => (report_on _ _).2⟩
  · exact ⟨rfl, fun _ => rfl, fun _ => (report_on _ _).1, fun _ => (report_on _ _).2⟩
  · exact ⟨rfl, fun _ => rfl, fun _ => (report_on _ _).1, fun _ => (report_on _ _).2⟩

/-- A process that is still running after midnight: its order of the new day is in the order file of the new day, but saved in the data file of
the old one.  A process that is started on the new day does not know the order: it is not shown, and the update about it is ignored. -/
theorem c98_over_midnight_refuted :
    ∃ (over : Life Int) (next : Life Int), over.conf.dataDay = c!"20240102" ∧ next.On c!"20240103" ∧
      (∃ fs text, (runLives [(c!"20240102", over)] fun _ => none).2 = fs ∧ fs (.orders c!"20240103") = some text ∧ hasSub c!",8," text = true) ∧
      (runLives [(c!"20240102", over), (c!"20240103", next)] fun _ => none).1.map (fun x => (x.2.answers, dkeys x.2.account.orders)) =
        [([.ok (some c!"8")], [c!"8"]), ([.ok none], [])] := by
  refine ⟨⟨demoConf false, fun _ => env2, [ask env2 8]⟩, again, rfl,
    ⟨rfl, fun _ => rfl, fun _ => (report_on _ _).1, fun _ => (report_on _ _).2⟩, ⟨_, _, rfl, rfl, by decide +kernel⟩, by decide +kernel⟩

end Jq
