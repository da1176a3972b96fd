import Verif.Model.Config
import Verif.Lemmas.Dict
set_option linter.unusedSectionVars false
/-! # C52: a configuration file overrides exactly the settings it names -/
namespace Jq
variable {V : Type}

private theorem dget_fold_set (e d : Dict Str V) (k : Str) :
    dget (e.foldl (fun d x => dset d x.1 x.2) d) k = ((e.filter fun x => decide (x.1 = k)).getLast?.map (·.2)).or (dget d k) := by
  induction e generalizing d with
  | nil => simp
  | cons x e ih =>
    rw [List.foldl_cons, ih, dget_dset, List.filter_cons]
    by_cases h : x.1 = k
    · simp only [h, decide_true, if_true]
      cases hl : (e.filter fun x => decide (x.1 = k)).getLast? with
      | none => simp only [List.getLast?_eq_none_iff] at hl; simp [hl]
      | some y => rw [List.getLast?_cons, hl]; simp
    · simp [h]

private theorem dget_fold_cond (p : Str → Bool) (g : Str → Str) (e d : Dict Str V) (k : Str) :
    dget (e.foldl (fun d x => if p x.1 then dset d (g x.1) x.2 else d) d) k =
      ((e.filter fun x => p x.1 && decide (g x.1 = k)).getLast?.map (·.2)).or (dget d k) := by
  induction e generalizing d with
  | nil => simp
  | cons x e ih =>
    rw [List.foldl_cons, ih, List.filter_cons]
    by_cases hp : p x.1 = true
    · by_cases h : g x.1 = k
      · simp only [hp, h, if_true, decide_true, Bool.and_self, dget_dset]
        cases hl : (e.filter fun x => p x.1 && decide (g x.1 = k)).getLast? with
        | none => simp only [List.getLast?_eq_none_iff] at hl; simp [hl]
        | some y => rw [List.getLast?_cons, hl]; simp
      · simp [hp, h, dget_dset]
    · simp [hp]

private theorem dkeys_nodup_set {d : Dict Str V} (h : (dkeys d).Nodup) (k : Str) (v : V) : (dkeys (dset d k v)).Nodup := by
  rw [dkeys_dset]
  split
  · exact h
  · rename_i hk
    rw [List.nodup_append]
    refine ⟨h, by simp, ?_⟩
    intro a ha b hb
    simp only [List.mem_singleton] at hb
    subst hb
    rintro rfl
    exact hk ha

private theorem loadConfig_nodup (pre : Str) (vars : Dict Str V) : (dkeys (loadConfig pre vars)).Nodup := by
  unfold loadConfig
  suffices H : ∀ (vars out : Dict Str V), (dkeys out).Nodup →
      (dkeys (vars.foldl (fun out x => if pre.isPrefixOf x.1 then dset out (lstripChars pre x.1) x.2 else out) out)).Nodup from H vars [] List.nodup_nil
  intro vars
  induction vars with
  | nil => intro out h; exact h
  | cons x vars ih =>
    intro out h
    rw [List.foldl_cons]
    apply ih
    split
    · exact dkeys_nodup_set h _ _
    · exact h

private theorem dget_filter_nodup {d : Dict Str V} (h : (dkeys d).Nodup) (k : Str) :
    (d.filter fun x => decide (x.1 = k)).getLast?.map (·.2) = dget d k := by
  induction d with
  | nil => rfl
  | cons x d ih =>
    obtain ⟨k', v⟩ := x
    simp only [dkeys, List.map_cons, List.nodup_cons] at h
    by_cases hk : k' = k
    · subst hk
      have : (d.filter fun x => decide (x.1 = k')) = [] := by
        rw [List.filter_eq_nil_iff]
        intro y hy
        have : y.1 ≠ k' := fun e => h.1 (List.mem_map.2 ⟨y, hy, e⟩)
        simpa using this
      simp [this, dget]
    · rw [List.filter_cons_of_neg (by simpa using hk), ih h.2]
      simp [dget, hk]

/-- The last variable of the file whose name the code turns into `k`. -/
private theorem dget_setup (pre : Str) (options vars : Dict Str V) (k : Str) :
    dget (setupConfig pre options vars) k =
      ((vars.filter fun x => pre.isPrefixOf x.1 && decide (lstripChars pre x.1 = k)).getLast?.map (·.2)).or (dget options k) := by
  rw [setupConfig, dupdate, dget_fold_set, dget_filter_nodup (loadConfig_nodup pre vars), loadConfig, dget_fold_cond]
  simp

private theorem lstrip_prefix (pre rest : Str) : lstripChars pre (pre ++ rest) = lstripChars pre rest := by
  have : ∀ (p : Char → Bool) (a b : Str), (∀ c ∈ a, p c = true) → lstripBy p (a ++ b) = lstripBy p b := by
    intro p a b h
    induction a with
    | nil => rfl
    | cons c a ih =>
      simp only [lstripBy] at ih ⊢
      rw [List.cons_append, List.dropWhile_cons_of_pos (h c (by simp))]
      exact ih fun c hc => h c (by simp [hc])
  exact this _ pre rest (by intro c hc; simpa using hc)

private theorem lstrip_plain {pre name : Str} (h : ∀ c ∈ name.head?, c ∉ pre) : lstripChars pre name = name := by
  cases name with
  | nil => rfl
  | cons c s =>
    have : c ∉ pre := h c (by simp)
    simp only [lstripChars, lstripBy]
    rw [List.dropWhile_cons_of_neg (by simpa using this)]

private theorem lstrip_head (pre name : Str) : ∀ c ∈ (lstripChars pre name).head?, c ∉ pre := by
  intro c hc
  have := List.head?_dropWhile_not (fun c => decide (c ∈ pre)) name
  simp only [lstripChars, lstripBy, Option.mem_def] at hc
  rw [hc] at this
  simpa using this

/-- If no option named in the file begins with a letter of the prefix, the file sets exactly the options it names;
everything else stays. -/
theorem c52_sets_named_partial (pre : Str) (options vars : Dict Str V) (hn : (dkeys vars).Nodup)
    (hplain : ∀ name, pre ++ name ∈ dkeys vars → ∀ c ∈ name.head?, c ∉ pre) (k : Str) :
    dget (setupConfig pre options vars) k = (dget vars (pre ++ k)).or (dget options k) := by
  rw [dget_setup, ← dget_filter_nodup hn]
  congr 3
  apply List.filter_congr
  intro x hx
  have hx' : x.1 ∈ dkeys vars := List.mem_map.2 ⟨x, hx, rfl⟩
  cases hp : pre.isPrefixOf x.1 with
  | true =>
    obtain ⟨rest, hr⟩ := List.isPrefixOf_iff_prefix.1 hp
    have := lstrip_plain (hplain rest (by rw [hr]; exact hx'))
    rw [← hr, lstrip_prefix, this]
    simp [List.append_cancel_left_eq]
  | false =>
    have hne : x.1 ≠ pre ++ k := by
      intro e
      rw [e] at hp
      exact absurd (List.isPrefixOf_iff_prefix.2 (List.prefix_append pre k)) (by simp [hp])
    simp [hne]

/-- Options that begin with a letter of the prefix cannot be set by any file. -/
theorem c52_never_set_refuted (pre : Str) (options vars : Dict Str V) (k : Str) (c : Char) (hc : k.head? = some c) (hin : c ∈ pre) :
    dget (setupConfig pre options vars) k = dget options k := by
  rw [dget_setup]
  have : (vars.filter fun x => pre.isPrefixOf x.1 && decide (lstripChars pre x.1 = k)) = [] := by
    rw [List.filter_eq_nil_iff]
    intro x _ h
    simp only [Bool.and_eq_true, decide_eq_true_eq] at h
    have := lstrip_head pre x.1 c (by rw [h.2, hc]; rfl)
    exact this hin
  rw [this]
  simp

/-- Of the scheduler's options (`scheduler/config.py:15-31`) only the trading hours can be set. -/
theorem c52_scheduler_options_witness (k : Str)
    (hk : k ∈ [c!"EVENT_DAYS_COUNT", c!"ENABLE_HISTORY_START", c!"MARKET_PERIOD", c!"SETUP_ACCOUNT", c!"RUNTIME_DIR"]) :
    (∃ (options vars : Dict Str Bool), dget (setupConfig schedulerPrefix options vars) k ≠ dget options k) ↔ k = c!"MARKET_PERIOD" := by
  constructor
  · rintro ⟨options, vars, h⟩
    simp only [List.mem_cons, List.not_mem_nil, or_false] at hk
    rcases hk with rfl | rfl | rfl | rfl | rfl
    · exact absurd (c52_never_set_refuted schedulerPrefix options vars _ 'E' rfl (by decide)) h
    · exact absurd (c52_never_set_refuted schedulerPrefix options vars _ 'E' rfl (by decide)) h
    · rfl
    · exact absurd (c52_never_set_refuted schedulerPrefix options vars _ 'S' rfl (by decide)) h
    · exact absurd (c52_never_set_refuted schedulerPrefix options vars _ 'R' rfl (by decide)) h
  · rintro rfl
    exact ⟨[], [(c!"SCHEDULER_MARKET_PERIOD", true)], by decide⟩

/-- Of the account's options (`account/config.py:8-24`) all but the trade gate can be set. -/
theorem c52_account_options_witness (k : Str)
    (hk : k ∈ [c!"SYNC_BALANCE", c!"SYNC_ORDER", c!"SYNC_INTERNAL", c!"SYNC_PERIOD", c!"TRADE_GATE"]) :
    (∃ (options vars : Dict Str Bool), dget (setupConfig accountPrefix options vars) k ≠ dget options k) ↔ k ≠ c!"TRADE_GATE" := by
  constructor
  · rintro ⟨options, vars, h⟩ rfl
    exact absurd (c52_never_set_refuted accountPrefix options vars _ 'T' rfl (by decide)) h
  · intro hne
    simp only [List.mem_cons, List.not_mem_nil, or_false] at hk
    rcases hk with rfl | rfl | rfl | rfl | rfl
    · exact ⟨[], [(c!"ACCOUNT_SYNC_BALANCE", true)], by decide⟩
    · exact ⟨[], [(c!"ACCOUNT_SYNC_ORDER", true)], by decide⟩
    · exact ⟨[], [(c!"ACCOUNT_SYNC_INTERNAL", true)], by decide⟩
    · exact ⟨[], [(c!"ACCOUNT_SYNC_PERIOD", true)], by decide⟩
    · exact absurd rfl hne

/-- Variables without the prefix are ignored. -/
theorem c52_others_ignored (pre : Str) (options vars : Dict Str V) :
    setupConfig pre options vars = setupConfig pre options (vars.filter fun x => pre.isPrefixOf x.1) := by
  simp only [setupConfig]
  congr 1
  simp only [loadConfig]
  generalize ([] : Dict Str V) = out
  induction vars generalizing out with
  | nil => rfl
  | cons x vars ih =>
    rw [List.filter_cons]
    cases hp : pre.isPrefixOf x.1 with
    | true => simp only [if_true, List.foldl_cons, hp]; exact ih _
    | false => simp only [List.foldl_cons, hp, Bool.false_eq_true, if_false]; exact ih _

example : dget (setupConfig schedulerPrefix [(c!"EVENT_DAYS_COUNT", 365)] [(c!"SCHEDULER_EVENT_DAYS_COUNT", 10)]) c!"EVENT_DAYS_COUNT" = some 365 ∧
    dget (setupConfig schedulerPrefix [(c!"MARKET_PERIOD", 1)] [(c!"SCHEDULER_MARKET_PERIOD", 2)]) c!"MARKET_PERIOD" = some 2 := by decide

example : (∀ name, schedulerPrefix ++ name ∈ dkeys [(c!"SCHEDULER_MARKET_PERIOD", 2)] → ∀ c ∈ name.head?, c ∉ schedulerPrefix) := by
  intro name h
  simp only [dkeys, List.map_cons, List.map_nil, List.mem_singleton] at h
  have : name = c!"MARKET_PERIOD" := List.append_cancel_left (h.trans (show _ = schedulerPrefix ++ c!"MARKET_PERIOD" from rfl))
  subst this
  decide

end Jq
