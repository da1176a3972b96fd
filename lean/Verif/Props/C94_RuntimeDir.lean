import Verif.Lemmas.RuntimeDir
import Verif.Lemmas.TradeGate
/-! # C94: where the data of a task is kept -/
namespace Jq

/-- Unless the option begins with `~`, the trade gate keeps its data file in the directory `data` of the runtime directory that the
strategy has made and reported; a relative path, `.` and `..` included. -/
theorem c94_same_directory_partial (E : PathEnv) (opt : Option Str) (name day : Str) (hc : E.cwd.head? = some '/')
    (hopt : ∀ p, opt = some p → p.head? ≠ some '~') (hn : '/' ∉ name) (hd : '/' ∉ day) :
    gateDataFile E opt name day = (dirAt E (strategyDir E opt) ++ [c!"data"], name ++ c!"_" ++ day ++ c!".json") := by
  have hdir : joinPath E.cwd (gateDataDir E opt) ≠ [] := by
    intro e
    have := joinPath_head E.cwd (gateDataDir E opt) hc
    simp [e] at this
  rw [gateDataFile, dataFile_dir _ _ _ hdir hn hd]
  show (dirAt E (joinPath _ _), _) = _
  rw [dirAt_join E hc _ _ ⟨by decide, by decide, by decide, by decide⟩, strategyDir, (dirAt_absPath E hc _).1, expandUser_plain]
  cases opt with
  | some p => exact hopt p rfl
  | none =>
    show (defaultRuntimeDir E).head? ≠ _
    rw [defaultRuntimeDir, (dirAt_absPath E hc _).2]
    decide

private def here : PathEnv := { cwd := c!"/opt/work", home := c!"/home/u" }

private def elsewhere : PathEnv := { cwd := c!"/", home := c!"/home/u" }

example : gateDataFile here (some c!"../run/./x") c!"t" c!"20240102" = ([c!"opt", c!"run", c!"x", c!"data"], c!"t_20240102.json") ∧
    strategyDir here (some c!"../run/./x") = c!"/opt/run/x" := by decide +kernel

example : gateDataFile here none c!"t" c!"20240102" = ([c!"home", c!"u", c!"jqtrade", c!"data"], c!"t_20240102.json") := by decide +kernel

/-- Wherever the task is started, it finds its data again: an absolute path, or no option and an absolute `HOME`, gives the same data file in
every working directory. -/
theorem c94_found_again_partial (E F : PathEnv) (opt : Option Str) (name day : Str) (hE : E.cwd.head? = some '/') (hF : F.cwd.head? = some '/')
    (hhome : E.home = F.home) (habs : E.home.head? = some '/') (hopt : ∀ p, opt = some p → p.head? = some '/') (hn : '/' ∉ name) (hd : '/' ∉ day) :
    gateDataFile E opt name day = gateDataFile F opt name day := by
  have hplain : ∀ p, opt = some p → p.head? ≠ some '~' := fun p hp => by rw [hopt p hp]; decide
  rw [c94_same_directory_partial E opt name day hE hplain hn hd, c94_same_directory_partial F opt name day hF hplain hn hd]
  congr 2
  rw [strategyDir, strategyDir, (dirAt_absPath E hE _).1, (dirAt_absPath F hF _).1]
  cases opt with
  | some p =>
    have := hopt p rfl
    show dirAt E (expandUser E p) = dirAt F (expandUser F p)
    rw [expandUser_plain E _ (hplain p rfl), expandUser_plain F _ (hplain p rfl), dirAt, dirAt, joinPath_abs this, joinPath_abs this]
  | none =>
    have h1 : ∀ G : PathEnv, G.cwd.head? = some '/' → G.home.head? = some '/' →
        dirAt G (expandUser G (defaultRuntimeDir G)) = resolveDirs (splitOn '/' (expandUser G c!"~/jqtrade")) := by
      intro G hG hh
      have := dirAt_absPath G hG (expandUser G c!"~/jqtrade")
      rw [expandUser_plain]
      · rw [defaultRuntimeDir, this.1, dirAt, joinPath_abs (expandUser_home G c!"jqtrade" hh).1]
      · rw [defaultRuntimeDir, this.2]; decide
    show dirAt E (expandUser E (defaultRuntimeDir E)) = dirAt F (expandUser F (defaultRuntimeDir F))
    rw [h1 E hE habs, h1 F hF (hhome ▸ habs)]
    have : expandUser E c!"~/jqtrade" = expandUser F c!"~/jqtrade" := by simp [expandUser, hhome]
    rw [this]

example : gateDataFile here (some c!"/var/jq/") c!"t" c!"20240102" = gateDataFile elsewhere (some c!"/var/jq/") c!"t" c!"20240102" ∧
    gateDataFile here none c!"t" c!"20240102" = gateDataFile elsewhere none c!"t" c!"20240102" := by decide +kernel

/-- `~` in the option: the strategy makes and reports the directory below `HOME`, the trade gate keeps its data in a directory named `~`
in the working directory. -/
theorem c94_tilde_refuted (E : PathEnv) (parts : List Str) (name day : Str) (hc : E.cwd.head? = some '/') (hh : E.home.head? = some '/')
    (hparts : ∀ p ∈ parts, p ≠ [] ∧ p ≠ c!"." ∧ p ≠ c!".." ∧ '/' ∉ p) (hn : '/' ∉ name) (hd : '/' ∉ day) :
    let opt := some (c!"~/" ++ joinWith c!"/" parts)
    dirAt E (strategyDir E opt) = resolveDirs (splitOn '/' E.home) ++ parts ∧
    gateDataFile E opt name day = (resolveDirs (splitOn '/' E.cwd) ++ c!"~" :: parts ++ [c!"data"], name ++ c!"_" ++ day ++ c!".json") := by
  intro opt
  have hcw : E.cwd ≠ [] := fun e => by simp [e] at hc
  constructor
  · rw [strategyDir, (dirAt_absPath E hc _).1]
    have := expandUser_home E (joinWith c!"/" parts) hh
    show dirAt E (expandUser E ('~' :: '/' :: joinWith c!"/" parts)) = _
    rw [dirAt, joinPath_abs this.1, this.2, dirs_joinWith _ hparts]
  · have hdir : joinPath E.cwd (gateDataDir E opt) ≠ [] := by
      intro e
      have := joinPath_head E.cwd (gateDataDir E opt) hc
      simp [e] at this
    rw [gateDataFile, dataFile_dir _ _ _ hdir hn hd]
    show (dirAt E (joinPath (c!"~" ++ '/' :: joinWith c!"/" parts) _), _) = _
    rw [dirAt_join E hc _ _ ⟨by decide, by decide, by decide, by decide⟩, dirAt, dirs_joinPath _ _ hcw (by simp),
      splitOn_append_any, List.foldl_append, dirs_joinWith _ hparts, splitOn_not_mem (show '/' ∉ c!"~" by decide)]
    show (dirStep _ c!"~" ++ parts ++ _, _) = _
    rw [dirStep_plain ⟨by decide, by decide, by decide, by decide⟩]
    simp

example : strategyDir here (some c!"~/jq") = c!"/home/u/jq" ∧
    gateDataFile here (some c!"~/jq") c!"t" c!"20240102" = ([c!"opt", c!"work", c!"~", c!"jq", c!"data"], c!"t_20240102.json") ∧
    gateDataFile elsewhere (some c!"~/jq") c!"t" c!"20240102" = ([c!"~", c!"jq", c!"data"], c!"t_20240102.json") := by decide +kernel

/-- … and `~` alone is `HOME` for the strategy, also if that is the root directory, and the directory `~` for the gate. -/
theorem c94_tilde_alone_refuted (E : PathEnv) (name day : Str) (hc : E.cwd.head? = some '/') (hh : E.home.head? = some '/')
    (hn : '/' ∉ name) (hd : '/' ∉ day) :
    dirAt E (strategyDir E (some c!"~")) = resolveDirs (splitOn '/' E.home) ∧
    gateDataFile E (some c!"~") name day = (resolveDirs (splitOn '/' E.cwd) ++ [c!"~", c!"data"], name ++ c!"_" ++ day ++ c!".json") := by
  have hcw : E.cwd ≠ [] := fun e => by simp [e] at hc
  constructor
  · rw [strategyDir, (dirAt_absPath E hc _).1]
    show dirAt E (expandUser E c!"~") = _
    have he : (expandUser E c!"~").head? = some '/' ∧ resolveDirs (splitOn '/' (expandUser E c!"~")) = resolveDirs (splitOn '/' E.home) := by
      have h := expandUser_home E [] hh
      have h2 : expandUser E c!"~/" = (E.home.reverse.dropWhile (· = '/')).reverse ++ ['/'] := by simp [expandUser]
      have h1 : expandUser E c!"~" = if (E.home.reverse.dropWhile (· = '/')).reverse = [] then c!"/" else (E.home.reverse.dropWhile (· = '/')).reverse := by
        simp [expandUser]
      change (expandUser E c!"~/").head? = some '/' ∧ resolveDirs (splitOn '/' (expandUser E c!"~/")) = resolveDirs (splitOn '/' E.home) at h
      rw [h2] at h
      rw [h1]
      generalize (E.home.reverse.dropWhile (· = '/')).reverse = r at h
      split
      · rename_i hr; subst hr; exact h
      · rename_i hr
        refine ⟨?_, ?_⟩
        · obtain ⟨c, s, rfl⟩ := List.ne_nil_iff_exists_cons.1 hr
          exact h.1
        · rw [← h.2, splitOn_append_any, resolveDirs_append]
          simp [splitOn, dirStep]
    rw [dirAt, joinPath_abs he.1, he.2]
  · have hdir : joinPath E.cwd (gateDataDir E (some c!"~")) ≠ [] := by
      intro e
      have := joinPath_head E.cwd (gateDataDir E (some c!"~")) hc
      simp [e] at this
    rw [gateDataFile, dataFile_dir _ _ _ hdir hn hd]
    show (dirAt E (joinPath c!"~" _), _) = _
    rw [dirAt_join E hc _ _ ⟨by decide, by decide, by decide, by decide⟩, dirAt, dirs_joinPath _ _ hcw (by simp),
      splitOn_not_mem (show '/' ∉ c!"~" by decide)]
    show (dirStep _ c!"~" ++ _, _) = _
    rw [dirStep_plain ⟨by decide, by decide, by decide, by decide⟩]
    simp

example : strategyDir { here with home := c!"/" } (some c!"~") = c!"/" ∧ strategyDir here (some c!"~") = c!"/home/u" := by decide +kernel

/-- `~name/…`: the strategy's directory is below the home of that user, the gate's in a directory `~name` in the working directory. -/
theorem c94_tilde_user_refuted (E : PathEnv) (user home : Str) (parts : List Str) (name day : Str) (hc : E.cwd.head? = some '/')
    (hu : user ≠ []) (hs : '/' ∉ user) (hus : E.users user = some home) (hh : home.head? = some '/')
    (hparts : ∀ p ∈ parts, p ≠ [] ∧ p ≠ c!"." ∧ p ≠ c!".." ∧ '/' ∉ p) (hn : '/' ∉ name) (hd : '/' ∉ day) :
    let opt := some ('~' :: user ++ '/' :: joinWith c!"/" parts)
    dirAt E (strategyDir E opt) = resolveDirs (splitOn '/' home) ++ parts ∧
    gateDataFile E opt name day = (resolveDirs (splitOn '/' E.cwd) ++ ('~' :: user) :: parts ++ [c!"data"], name ++ c!"_" ++ day ++ c!".json") := by
  intro opt
  have hcw : E.cwd ≠ [] := fun e => by simp [e] at hc
  have hns : '/' ∉ '~' :: user := by simp [hs]
  constructor
  · rw [strategyDir, (dirAt_absPath E hc _).1]
    have he : expandUser E ('~' :: user ++ '/' :: joinWith c!"/" parts) = expandUser { E with home := home } ('~' :: '/' :: joinWith c!"/" parts) := by
      have h1 : ∀ c ∈ user, (decide (c ≠ '/')) = true := fun c hc => by
        simp only [decide_eq_true_eq]; rintro rfl; exact hs hc
      simp only [expandUser, List.cons_append, List.takeWhile_append_of_pos h1, List.dropWhile_append_of_pos h1]
      simp [hu, hus]
    have := expandUser_home { E with home := home } (joinWith c!"/" parts) hh
    show dirAt E (expandUser E ('~' :: user ++ '/' :: joinWith c!"/" parts)) = _
    rw [he, dirAt, joinPath_abs this.1, this.2, dirs_joinWith _ hparts]
  · have hdir : joinPath E.cwd (gateDataDir E opt) ≠ [] := by
      intro e
      have := joinPath_head E.cwd (gateDataDir E opt) hc
      simp [e] at this
    rw [gateDataFile, dataFile_dir _ _ _ hdir hn hd]
    show (dirAt E (joinPath ('~' :: user ++ '/' :: joinWith c!"/" parts) _), _) = _
    rw [dirAt_join E hc _ _ ⟨by decide, by decide, by decide, by decide⟩, dirAt, dirs_joinPath _ _ hcw (by simp),
      splitOn_append_any, List.foldl_append, dirs_joinWith _ hparts, splitOn_not_mem hns]
    show (dirStep _ ('~' :: user) ++ parts ++ _, _) = _
    rw [dirStep_plain ⟨by simp, by simp, by simp, hns⟩]
    simp

example : strategyDir { here with users := fun u => if u = c!"bob" then some c!"/home/bob" else none } (some c!"~bob/jq") = c!"/home/bob/jq" ∧
    strategyDir here (some c!"~bob/jq") = c!"/opt/work/~bob/jq" := by decide +kernel

/-- … so a task restarted from another directory does not find its orders: whatever data file the first run has left, and nothing else
being there, the second begins with no orders, although options, `HOME`, name and day are the same. -/
theorem c94_orders_forgotten_refuted {ν : Type} [Store ν] (E F : PathEnv) (parts : List Str) (name day : Str) (text : Str) (conf : AXConf) (fs : Files)
    (hE : E.cwd.head? = some '/') (hF : F.cwd.head? = some '/') (hh : E.home = F.home) (habs : E.home.head? = some '/')
    (hparts : ∀ p ∈ parts, p ≠ [] ∧ p ≠ c!"." ∧ p ≠ c!".." ∧ '/' ∉ p) (hn : '/' ∉ name) (hd : '/' ∉ day) (hday : conf.dataDay = day)
    (hcwd : resolveDirs (splitOn '/' E.cwd) ≠ resolveDirs (splitOn '/' F.cwd)) :
    let opt := some (c!"~/" ++ joinWith c!"/" parts)
    let disk : Path → Option Str := fun p => if p = gateDataFile E opt name day then some text else none
    (AX.setup (ν := ν) conf (gateView F opt name day disk fs)).book = [] ∧
    (AX.setup (ν := ν) conf (gateView E opt name day disk fs)).book = (Store.load text).getD [] ∧
    dirAt E (strategyDir E opt) = dirAt F (strategyDir F opt) := by
  intro opt disk
  have h1 := c94_tilde_refuted E parts name day hE habs hparts hn hd
  have h2 := c94_tilde_refuted F parts name day hF (hh ▸ habs) hparts hn hd
  refine ⟨?_, ?_, ?_⟩
  · have hne : gateDataFile F opt name day ≠ gateDataFile E opt name day := by
      rw [h1.2, h2.2]
      intro e
      injection e with e _
      rw [List.append_assoc, List.append_assoc] at e
      exact hcwd (List.append_inj_left' e.symm rfl)
    simp only [AX.setup, loadOrders, hday, gateView, Files.set_self, disk, if_neg hne]
  · simp only [AX.setup, loadOrders, hday, gateView, Files.set_self, disk, if_true]
    cases (Store.load text : Option (Book ν)) <;> rfl
  · rw [h1.1, h2.1, hh]

example : -- the hypotheses, with `runtime_dir="~/jq"`, started in `/opt/work` and then in `/`
    here.cwd.head? = some '/' ∧ elsewhere.cwd.head? = some '/' ∧ here.home = elsewhere.home ∧ here.home.head? = some '/' ∧
    resolveDirs (splitOn '/' here.cwd) ≠ resolveDirs (splitOn '/' elsewhere.cwd) := by decide +kernel

end Jq
