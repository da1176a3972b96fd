import Verif.Model.FileWriters
import Verif.Spec.TradeGate
/-! # C44: many writers -/
namespace Jq

/-- What the file gets from the calls `ws`, when `first i` says whether call `i` found the file empty. -/
def written (header : Str) (line : Nat → Str) (first : Nat → Bool) (ws : List Nat) : Str :=
  ws.flatMap fun i => if first i then header ++ line i else line i

private def WPhase.over : WPhase → Bool
  | .closed | .returned | .killed => true
  | _ => false

private structure WInv (header : Str) (line : Nat → Str) (old : Str) (w : Writers) (ws : List Nat) : Prop where
  nodup : ws.Nodup
  file : w.file.getD [] = old ++ written header line (fun i => w.tell i == some 0) ws
  over : ∀ i ∈ ws, (w.phase i).over = true
  closed : ∀ i, w.phase i = .closed ∨ w.phase i = .returned → i ∈ ws
  text : ∀ i t, w.phase i = .buffered t ∨ w.phase i = .unlocked t → t = if w.tell i = some 0 then header ++ line i else line i
  nonempty : old ≠ [] → ∀ i, w.phase i ≠ .idle → w.phase i ≠ .killed ∨ i ∈ ws → w.tell i ≠ some 0
  first : old = [] → header ≠ [] → (∀ i, ws.head? = some i → w.tell i = some 0) ∧
    (ws = [] → ∀ i, w.phase i ≠ .idle → w.phase i ≠ .killed → w.tell i = some 0)

private theorem written_congr {header : Str} {line : Nat → Str} {f g : Nat → Bool} {ws : List Nat} (h : ∀ i ∈ ws, f i = g i) :
    written header line f ws = written header line g ws := by
  induction ws with
  | nil => rfl
  | cons i ws ih =>
    simp only [written, List.flatMap_cons] at ih ⊢
    rw [h i (by simp), ih fun j hj => h j (by simp [hj])]

private theorem at_phase (w : Writers) (i j : Nat) (p : WPhase) : (w.at i p).phase j = if j = i then p else w.phase j := rfl

private theorem winv_step {header : Str} {line : Nat → Str} {old : Str} {w w' : Writers} {ws : List Nat} (hi : WInv header line old w ws)
    (h : WStep header line w w') : ∃ ws', WInv header line old w' ws' := by
  obtain ⟨h1, h2, h3, h4, h5, h6, h7⟩ := hi
  cases h with
  | «open» i hp =>
    have hni : i ∉ ws := fun hm => by have := h3 i hm; rw [hp] at this; cases this
    refine ⟨ws, h1, ?_, ?_, ?_, ?_, ?_, ?_⟩
    · show (some (w.file.getD [])).getD [] = _
      rw [Option.getD_some, h2]
      congr 1
      apply written_congr
      intro j hj
      have : j ≠ i := fun e => hni (e ▸ hj)
      simp [this]
    · intro j hj
      have : j ≠ i := fun e => hni (e ▸ hj)
      simp only [at_phase, if_neg this]; exact h3 j hj
    · intro j
      simp only [at_phase]
      split
      · simp
      · exact h4 j
    · intro j t
      simp only [at_phase]
      split
      · simp
      · exact h5 j t
    · intro ho j
      simp only [at_phase]
      split
      · intro _ _
        rw [h2]
        cases old with
        | nil => exact absurd rfl ho
        | cons c s => simp
      · exact h6 ho j
    · intro ho hh
      obtain ⟨g1, g2⟩ := h7 ho hh
      refine ⟨fun j hj => ?_, fun he j => ?_⟩
      · have : j ≠ i := fun e => hni (e ▸ List.mem_of_mem_head? hj)
        simp only [if_neg this]; exact g1 j hj
      · simp only [at_phase]
        split
        · intro _ _
          rw [h2, he, ho]; rfl
        · exact g2 he j
  | lock i hp hl =>
    have hni : i ∉ ws := fun hm => by have := h3 i hm; rw [hp] at this; cases this
    refine ⟨ws, h1, h2, ?_, ?_, ?_, ?_, ?_⟩
    · intro j hj
      have : j ≠ i := fun e => hni (e ▸ hj)
      simp only [at_phase, if_neg this]; exact h3 j hj
    · intro j; simp only [at_phase]; split
      · simp
      · exact h4 j
    · intro j t; simp only [at_phase]; split
      · simp
      · exact h5 j t
    · intro ho j; simp only [at_phase]; split
      · rename_i e; subst e; intro _ _; exact h6 ho j (by simp [hp]) (by simp [hp])
      · exact h6 ho j
    · intro ho hh
      refine ⟨(h7 ho hh).1, fun he j => ?_⟩
      simp only [at_phase]; split
      · rename_i e; subst e; intro _ _; exact (h7 ho hh).2 he j (by simp [hp]) (by simp [hp])
      · exact (h7 ho hh).2 he j
  | busy i hp hl =>
    have hni : i ∉ ws := fun hm => by have := h3 i hm; rw [hp] at this; cases this
    refine ⟨ws, h1, h2, ?_, ?_, ?_, ?_, ?_⟩
    · intro j hj
      have : j ≠ i := fun e => hni (e ▸ hj)
      simp only [at_phase, if_neg this]; exact h3 j hj
    · intro j; simp only [at_phase]; split
      · simp
      · exact h4 j
    · intro j t; simp only [at_phase]; split
      · simp
      · exact h5 j t
    · intro ho j; simp only [at_phase]; split
      · intro h; exact absurd rfl h
      · exact h6 ho j
    · intro ho hh
      refine ⟨(h7 ho hh).1, fun he j => ?_⟩
      simp only [at_phase]; split
      · intro h; exact absurd rfl h
      · exact (h7 ho hh).2 he j
  | timeOut i hp hl =>
    have hni : i ∉ ws := fun hm => by have := h3 i hm; rw [hp] at this; cases this
    refine ⟨ws, h1, h2, ?_, ?_, ?_, ?_, ?_⟩
    · intro j hj
      have : j ≠ i := fun e => hni (e ▸ hj)
      simp only [at_phase, if_neg this]; exact h3 j hj
    · intro j; simp only [at_phase]; split
      · simp
      · exact h4 j
    · intro j t; simp only [at_phase]; split
      · simp
      · exact h5 j t
    · intro ho j; simp only [at_phase]; split
      · rename_i e; subst e; intro _ _; exact h6 ho j (by simp [hp]) (by simp [hp])
      · exact h6 ho j
    · intro ho hh
      refine ⟨(h7 ho hh).1, fun he j => ?_⟩
      simp only [at_phase]; split
      · rename_i e; subst e; intro _ _; exact (h7 ho hh).2 he j (by simp [hp]) (by simp [hp])
      · exact (h7 ho hh).2 he j
  | write i hp =>
    have hni : i ∉ ws := fun hm => by have := h3 i hm; rw [hp] at this; cases this
    refine ⟨ws, h1, h2, ?_, ?_, ?_, ?_, ?_⟩
    · intro j hj
      have : j ≠ i := fun e => hni (e ▸ hj)
      simp only [at_phase, if_neg this]; exact h3 j hj
    · intro j; simp only [at_phase]; split
      · simp
      · exact h4 j
    · intro j t; simp only [at_phase]; split
      · rename_i e; subst e
        rintro (h | h)
        · injection h with h; exact h.symm
        · cases h
      · exact h5 j t
    · intro ho j; simp only [at_phase]; split
      · rename_i e; subst e; intro _ _; exact h6 ho j (by simp [hp]) (by simp [hp])
      · exact h6 ho j
    · intro ho hh
      refine ⟨(h7 ho hh).1, fun he j => ?_⟩
      simp only [at_phase]; split
      · rename_i e; subst e; intro _ _; exact (h7 ho hh).2 he j (by simp [hp]) (by simp [hp])
      · exact (h7 ho hh).2 he j
  | unlock i t hp =>
    have hni : i ∉ ws := fun hm => by have := h3 i hm; rw [hp] at this; cases this
    refine ⟨ws, h1, h2, ?_, ?_, ?_, ?_, ?_⟩
    · intro j hj
      have : j ≠ i := fun e => hni (e ▸ hj)
      simp only [at_phase, if_neg this]; exact h3 j hj
    · intro j; simp only [at_phase]; split
      · simp
      · exact h4 j
    · intro j t'; simp only [at_phase]; split
      · rename_i e; subst e
        rintro (h | h)
        · cases h
        · injection h with h; subst h; exact h5 j t (.inl hp)
      · exact h5 j t'
    · intro ho j; simp only [at_phase]; split
      · rename_i e; subst e; intro _ _; exact h6 ho j (by simp [hp]) (by simp [hp])
      · exact h6 ho j
    · intro ho hh
      refine ⟨(h7 ho hh).1, fun he j => ?_⟩
      simp only [at_phase]; split
      · rename_i e; subst e; intro _ _; exact (h7 ho hh).2 he j (by simp [hp]) (by simp [hp])
      · exact (h7 ho hh).2 he j
  | close i t hp =>
    have hni : i ∉ ws := fun hm => by have := h3 i hm; rw [hp] at this; cases this
    refine ⟨ws ++ [i], ?_, ?_, ?_, ?_, ?_, ?_, ?_⟩
    · rw [List.nodup_append]
      refine ⟨h1, by simp, ?_⟩
      intro a ha b hb e
      rw [List.mem_singleton] at hb
      subst hb; subst e; exact hni ha
    · show (some (w.file.getD [] ++ t)).getD [] = _
      rw [Option.getD_some, h2, h5 i t (.inr hp), written, written, List.flatMap_append, List.append_assoc]
      simp only [List.flatMap_cons, List.flatMap_nil, List.append_nil]
      congr 2
      by_cases e : w.tell i = some 0 <;> simp [Writers.at, e]
    · intro j hj
      simp only [at_phase]
      split
      · rfl
      · rename_i e
        rcases List.mem_append.1 hj with hj | hj
        · exact h3 j hj
        · exact absurd (List.mem_singleton.1 hj) e
    · intro j; simp only [at_phase]; split
      · rename_i e; subst e; simp
      · exact fun h => List.mem_append.2 (.inl (h4 j h))
    · intro j t'; simp only [at_phase]; split
      · simp
      · exact h5 j t'
    · intro ho j; simp only [at_phase]; split
      · rename_i e; subst e; intro _ _; exact h6 ho j (by simp [hp]) (by simp [hp])
      · rename_i e
        intro g1 g2
        refine h6 ho j g1 ?_
        rcases g2 with g2 | g2
        · exact .inl g2
        · rcases List.mem_append.1 g2 with g2 | g2
          · exact .inr g2
          · exact absurd (List.mem_singleton.1 g2) e
    · intro ho hh
      obtain ⟨g1, g2⟩ := h7 ho hh
      refine ⟨fun j hj => ?_, fun he => by simp at he⟩
      cases ws with
      | nil =>
        simp only [List.nil_append, List.head?_cons, Option.some.injEq] at hj
        subst hj
        exact g2 rfl _ (by simp [hp]) (by simp [hp])
      | cons a ws => exact g1 j (by simpa using hj)
  | ret i hp =>
    have hmi : i ∈ ws := h4 i (.inl hp)
    refine ⟨ws, h1, h2, ?_, ?_, ?_, ?_, ?_⟩
    · intro j hj
      simp only [at_phase]; split
      · rfl
      · exact h3 j hj
    · intro j; simp only [at_phase]; split
      · rename_i e; subst e; exact fun _ => hmi
      · exact h4 j
    · intro j t; simp only [at_phase]; split
      · simp
      · exact h5 j t
    · intro ho j; simp only [at_phase]; split
      · rename_i e; subst e; intro _ _; exact h6 ho j (by simp [hp]) (by simp [hp])
      · exact h6 ho j
    · intro ho hh
      refine ⟨(h7 ho hh).1, fun he => ?_⟩
      rw [he] at hmi; cases hmi
  | kill i hp hp' =>
    refine ⟨ws, h1, h2, ?_, ?_, ?_, ?_, ?_⟩
    · intro j hj
      simp only [at_phase]; split
      · rfl
      · exact h3 j hj
    · intro j; simp only [at_phase]; split
      · simp
      · exact h4 j
    · intro j t; simp only [at_phase]; split
      · simp
      · exact h5 j t
    · intro ho j; simp only [at_phase]; split
      · rename_i e; subst e
        intro _ g
        rcases g with g | g
        · exact absurd rfl g
        · have := h3 j g
          refine h6 ho j ?_ (.inr g)
          intro e; rw [e] at this; cases this
      · exact h6 ho j
    · intro ho hh
      refine ⟨(h7 ho hh).1, fun he j => ?_⟩
      simp only [at_phase]; split
      · intro _ h; exact absurd rfl h
      · exact (h7 ho hh).2 he j

private theorem winv_run {header : Str} {line : Nat → Str} {old : Option Str} {w : Writers} (h : WRun header line { file := old } w) :
    ∃ ws, WInv header line (old.getD []) w ws := by
  generalize hs : ({ file := old } : Writers) = s at h
  induction h with
  | refl =>
    subst hs
    refine ⟨[], List.nodup_nil, by simp [written], fun i hi => (by cases hi), fun i hi => ?_, fun i t hi => ?_, fun _ i hi => absurd rfl hi, fun _ _ => ⟨fun i hi => (by cases hi), fun _ i hi => absurd rfl hi⟩⟩
    · rcases hi with hi | hi <;> cases hi
    · rcases hi with hi | hi <;> cases hi
  | step _ h2 ih =>
    obtain ⟨ws, hi⟩ := ih
    exact winv_step hi h2

/-- In every interleaving of any number of writers, also when some are killed: what is added to the file is the records of
distinct calls, one after the other, intact, each with the header in front exactly when the call found the file empty.  Every
call that returned is among them, no call that timed out is; with a file that was not empty no header is added, with an empty
file the first record has one. -/
theorem c44_records_partial (header : Str) (line : Nat → Str) (old : Option Str) (w : Writers) (hh : header ≠ []) (h : WRun header line { file := old } w) :
    ∃ ws : List Nat, ws.Nodup ∧ w.file.getD [] = old.getD [] ++ written header line (fun i => w.tell i == some 0) ws ∧
      (∀ i, w.phase i = .returned → i ∈ ws) ∧ (∀ i, w.phase i = .timedOut → i ∉ ws) ∧
      (old.getD [] ≠ [] → ∀ i ∈ ws, w.tell i ≠ some 0) ∧ (old.getD [] = [] → ∀ i, ws.head? = some i → w.tell i = some 0) := by
  obtain ⟨ws, h1, h2, h3, h4, h5, h6, h7⟩ := winv_run h
  refine ⟨ws, h1, h2, fun i hi => h4 i (.inr hi), fun i hi hm => ?_, fun ho i hi => h6 ho i ?_ (.inr hi), fun ho => (h7 ho hh).1⟩
  · have := h3 i hm; rw [hi] at this; cases this
  · intro e; have := h3 i hi; rw [e] at this; cases this

/-- A file with the header already there, as on every later write of the day: no header is added; each successful write is
there exactly once, in whole lines. -/
theorem c44_header_once_partial (win : Bool) (columns : List Str) (recs : List (List Str)) (items : Nat → List Str) (w : Writers)
    (h : WRun (joinWith c!"," columns ++ lineEnd win) (fun i => joinWith c!"," (items i) ++ lineEnd win) { file := some (linesText win (columns :: recs)) } w) :
    ∃ ws : List Nat, ws.Nodup ∧ w.file = some (linesText win (columns :: (recs ++ ws.map items))) ∧
      (∀ i, w.phase i = .returned → i ∈ ws) ∧ (∀ i, w.phase i = .timedOut → i ∉ ws) := by
  have hle : lineEnd win ≠ [] := by cases win <;> simp [lineEnd]
  have hne : linesText win (columns :: recs) ≠ [] := by
    simp only [linesText, List.flatMap_cons]
    intro h; simp only [List.append_eq_nil_iff] at h; exact hle h.1.2
  obtain ⟨ws, h1, h2, h3, h4, h5, _⟩ := c44_records_partial _ _ _ w (by intro h; rw [List.append_eq_nil_iff] at h; exact hle h.2) h
  refine ⟨ws, h1, ?_, h3, h4⟩
  have hw : ∀ ws : List Nat, (∀ i ∈ ws, w.tell i ≠ some 0) → written (joinWith c!"," columns ++ lineEnd win) (fun i => joinWith c!"," (items i) ++ lineEnd win) (fun i => w.tell i == some 0) ws
      = linesText win (ws.map items) := by
    intro ws hws
    induction ws with
    | nil => rfl
    | cons i ws ih =>
      have h0 : (w.tell i == some 0) = false := by simpa using hws i (by simp)
      simp only [written, linesText, List.flatMap_cons, List.map_cons, h0] at ih ⊢
      rw [ih fun j hj => hws j (by simp [hj])]; rfl
  have h6 := hw ws (h5 (by simpa using hne))
  rw [h6] at h2
  have h7 : w.file.getD [] = linesText win (columns :: (recs ++ ws.map items)) := by
    rw [h2]; simp only [Option.getD_some, linesText, List.flatMap_cons, List.flatMap_append, List.append_assoc]
  cases hf : w.file with
  | none =>
    rw [hf] at h7
    simp only [Option.getD_none, linesText, List.flatMap_cons] at h7
    have := h7.symm
    simp only [List.append_eq_nil_iff] at this
    exact absurd this.1.2 hle
  | some t => rw [hf] at h7; simp only [Option.getD_some] at h7; rw [h7]

/-- An empty file, when only one call finds it empty: the header is there once, first. -/
theorem c44_first_writer_partial (win : Bool) (columns : List Str) (items : Nat → List Str) (w : Writers)
    (h : WRun (joinWith c!"," columns ++ lineEnd win) (fun i => joinWith c!"," (items i) ++ lineEnd win) { file := none } w)
    (hone : ∀ i j, w.tell i = some 0 → w.tell j = some 0 → i = j) :
    ∃ ws : List Nat, ws.Nodup ∧ w.file.getD [] = (if ws = [] then [] else linesText win (columns :: ws.map items)) ∧
      (∀ i, w.phase i = .returned → i ∈ ws) ∧ (∀ i, w.phase i = .timedOut → i ∉ ws) := by
  have hle : lineEnd win ≠ [] := by cases win <;> simp [lineEnd]
  obtain ⟨ws, h1, h2, h3, h4, _, h5⟩ := c44_records_partial _ _ _ w (by intro h; rw [List.append_eq_nil_iff] at h; exact hle h.2) h
  refine ⟨ws, h1, ?_, h3, h4⟩
  rw [h2]
  cases ws with
  | nil => rfl
  | cons a ws =>
    have ha := h5 rfl a rfl
    have hw : ∀ ws : List Nat, a ∉ ws → written (joinWith c!"," columns ++ lineEnd win) (fun i => joinWith c!"," (items i) ++ lineEnd win) (fun i => w.tell i == some 0) ws
        = linesText win (ws.map items) := by
      intro ws hws
      induction ws with
      | nil => rfl
      | cons i ws ih =>
        rw [List.mem_cons, not_or] at hws
        have h0 : (w.tell i == some 0) = false := by
          simp only [beq_eq_false_iff_ne]
          exact fun e => hws.1 (hone _ _ ha e)
        simp only [written, linesText, List.flatMap_cons, List.map_cons, h0] at ih ⊢
        rw [ih hws.2]; rfl
    have hr := hw ws (List.nodup_cons.1 h1).1
    simp only [written, linesText, List.flatMap_cons, List.map_cons, List.append_assoc] at hr ⊢
    rw [hr]
    simp [ha]

/-- One call alone: the file is that of the model of `_write` without steps. -/
theorem c44_alone (header line : Str) (old : Option Str) : ∃ w, WRun (header ++ c!"\n") (fun _ => line) { file := old } w ∧ w.phase 0 = .returned ∧
    ∀ f fs, fs f = old → w.file = (appendLine false .none f header line fs).1 f := by
  refine ⟨_, .step (.step (.step (.step (.step (.step (.refl _) (.open _ 0 rfl)) (.lock _ 0 rfl rfl)) (.write _ 0 rfl)) (.unlock _ 0 _ rfl)) (.close _ 0 _ rfl))
    (.ret _ 0 rfl), rfl, fun f fs hf => ?_⟩
  subst hf
  simp only [appendLine, Files.set, if_true, onDisk, linesep, Writers.at, Option.getD_some]
  cases h : (fs f).getD [] <;> simp

/-- Two writers both open the empty file before either has written: the header is there twice.  The second has the lock only
after the first gave it back. -/
theorem c44_header_twice_refuted : ∃ w, WRun c!"H\n" (fun i => natStr i ++ c!"\n") { file := none } w ∧ w.phase 1 = .returned ∧ w.phase 2 = .returned ∧
    w.file = some c!"H\n1\nH\n2\n" := by
  refine ⟨_, .step (.step (.step (.step (.step (.step (.step (.step (.step (.step (.step (.step (.refl _) (.open _ 1 rfl)) (.open _ 2 rfl)) (.lock _ 1 rfl rfl))
    (.write _ 1 rfl)) (.unlock _ 1 _ rfl)) (.lock _ 2 rfl rfl)) (.write _ 2 rfl)) (.unlock _ 2 _ rfl)) (.close _ 1 _ rfl)) (.close _ 2 _ rfl)) (.ret _ 1 rfl)) (.ret _ 2 rfl),
    rfl, rfl, ?_⟩
  decide

/-- Non-vacuity of `c44_header_once_partial`: one call times out, one is killed before its record is written, one returns. -/
example : ∃ w, WRun (joinWith c!"," cancelColumns ++ lineEnd false) (fun i => joinWith c!"," [natStr i, natStr i] ++ lineEnd false)
      { file := some (linesText false [cancelColumns]) } w ∧ w.phase 1 = .returned ∧ w.phase 2 = .timedOut ∧ w.phase 3 = .killed ∧
    w.file = some (linesText false [cancelColumns, [c!"1", c!"1"]]) := by
  refine ⟨_, .step (.step (.step (.step (.step (.step (.step (.step (.step (.step (.refl _) (.open _ 1 rfl)) (.open _ 2 rfl)) (.open _ 3 rfl)) (.lock _ 1 rfl rfl)) (.timeOut _ 2 rfl rfl))
    (.write _ 1 rfl)) (.unlock _ 1 _ rfl)) (.close _ 1 _ rfl)) (.ret _ 1 rfl)) (.kill _ 3 (by simp [Writers.at]) (by simp [Writers.at])), rfl, rfl, rfl, ?_⟩
  decide

end Jq
