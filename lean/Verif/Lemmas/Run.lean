import Verif.Model.Run
import Verif.Lemmas.Sources
import Verif.Props.C07_Daily

namespace Jq
variable {γ : Type}

/-- `peek` inside the window. -/
theorem peek_window {cfg : ECfg} {s : ESrc γ} {st : Int} {offs : List (Int × γ)} (h : s.Ok cfg st offs)
    (x : Int × γ) (xs : List (Int × γ)) (hrem : s.rem st offs = x :: xs) (clock : Nat → Int) (fuel : Nat)
    (hf : s.days.length + 1 ≤ fuel) :
    ∃ s', s.peek cfg clock fuel = some (s', .ok (some x)) ∧ s'.rem st offs = x :: xs ∧
      s.Same s' ∧ s'.days.length ≤ s.days.length := by
  obtain ⟨s', es, h1, h2, h3, h4, h5⟩ := genEvents_window h x xs hrem clock fuel hf
  exact ⟨s', by simp [ESrc.peek, h1, h2], h3, h4, h5⟩

/-- `peek` at the end of a source with an end. -/
theorem peek_end {cfg : ECfg} {s : ESrc γ} {st : Int} {offs : List (Int × γ)} (h : s.Ok cfg st offs)
    (hh : (cfg.historyStart || s.endAt.isSome) = true) (hhis : s.hasHis = true)
    (hrem : s.rem st offs = []) (clock : Nat → Int) (fuel : Nat) (hf : s.days.length + 1 ≤ fuel) :
    ∃ s', s.peek cfg clock fuel = some (s', .ok none) ∧ s'.rem st offs = [] ∧
      s.Same s' ∧ s'.days.length ≤ s.days.length := by
  obtain ⟨k, rfl⟩ : ∃ k, fuel = (k + 1) + s.days.length := ⟨fuel - 1 - s.days.length, by omega⟩
  obtain ⟨hev, hl⟩ := genLoop_exhausted h hrem clock (k + 1)
  have hstop : ESrc.genLoop cfg clock (k + 1) s.days.length { s with days := [] } = some ({ s with days := [] }, .ok ()) := by
    simp only [ESrc.genLoop, ESrc.getDays, hev, hh, hhis, ne_eq, not_true_eq_false, if_false, if_true]
  refine ⟨{ s with days := [], events := [] }, ?_, ?_, ⟨rfl, rfl, rfl, rfl, rfl⟩, by simp⟩
  · simp only [ESrc.peek, ESrc.genEvents, resetIfNeeded_noop h.need, hl, hstop]
    simp [hev, sortBy]
  · simp [ESrc.rem, eventsOf]

theorem peek_reset {cfg : ECfg} {fuel : Nat} {clock : Nat → Int} {s s' : ESrc γ}
    (h : s.resetIfNeeded cfg (clock 0) = (s', .ok ())) (hn : s'.need = false) :
    s.peek cfg clock fuel = s'.peek cfg clock fuel := by
  simp only [ESrc.peek, ESrc.genEvents, h, resetIfNeeded_noop hn]

/-- The source has delivered `n` of the events `L`. -/
structure SrcAt (cfg : ECfg) (fuel : Nat) (en : Option Int) (st : Int) (offs : List (Int × γ)) (L : List (Int × γ))
    (n : Nat) (s : ESrc γ) : Prop where
  ok : s.Ok cfg st offs
  endAt : s.endAt = en
  rem : s.rem st offs = L.drop n
  days : s.days.length + 1 ≤ fuel
  his : en.isSome = true → s.hasHis = true
  live : en = none → s.days.length ≤ cfg.count

theorem SrcAt.move {cfg : ECfg} {fuel : Nat} {en : Option Int} {st : Int} {offs L : List (Int × γ)} {n m : Nat}
    {s s' : ESrc γ} (h : SrcAt cfg fuel en st offs L n s) (hs : s.Same s') (hd : s'.days.length ≤ s.days.length)
    (hr : s'.rem st offs = L.drop m) : SrcAt cfg fuel en st offs L m s' :=
  ⟨h.ok.same hs, hs.endAt.trans h.endAt, hr, Nat.le_trans (Nat.succ_le_succ hd) h.days,
    fun e => hs.hasHis.trans (h.his e), fun e => Nat.le_trans hd (h.live e)⟩

theorem SrcAt.peek_in {cfg : ECfg} {fuel : Nat} {en : Option Int} {st : Int} {offs L : List (Int × γ)} {n : Nat}
    {s : ESrc γ} (h : SrcAt cfg fuel en st offs L n s) (hn : n < L.length) (clock : Nat → Int) :
    ∃ s', s.peek cfg clock fuel = some (s', .ok (some L[n])) ∧ SrcAt cfg fuel en st offs L n s' := by
  have hr : s.rem st offs = L[n] :: L.drop (n + 1) := by rw [h.rem, List.drop_eq_getElem_cons hn]
  obtain ⟨s', h1, h2, h3, h4⟩ := peek_window h.ok _ _ hr clock fuel h.days
  exact ⟨s', h1, h.move h3 h4 (by rw [h2, ← hr, h.rem])⟩

theorem SrcAt.get_in {cfg : ECfg} {fuel : Nat} {en : Option Int} {st : Int} {offs L : List (Int × γ)} {n : Nat}
    {s : ESrc γ} (h : SrcAt cfg fuel en st offs L n s) (hn : n < L.length) (clock : Nat → Int) :
    ∃ s', s.getNext cfg clock fuel = some (s', .ok (some L[n])) ∧ SrcAt cfg fuel en st offs L (n + 1) s' := by
  have hr : s.rem st offs = L[n] :: L.drop (n + 1) := by rw [h.rem, List.drop_eq_getElem_cons hn]
  obtain ⟨s', h1, h2, h3, h4⟩ := getNext_window h.ok _ _ hr clock fuel h.days
  exact ⟨s', h1, h.move h3 h4 h2⟩

theorem SrcAt.peek_out {cfg : ECfg} {fuel : Nat} {en : Option Int} {st : Int} {offs L : List (Int × γ)} {n : Nat}
    {s : ESrc γ} (h : SrcAt cfg fuel en st offs L n s) (hn : L.length ≤ n) (he : en.isSome = true) (clock : Nat → Int) :
    ∃ s', s.peek cfg clock fuel = some (s', .ok none) ∧ SrcAt cfg fuel en st offs L n s' := by
  have hr : s.rem st offs = [] := by rw [h.rem, List.drop_eq_nil_of_le hn]
  obtain ⟨s', h1, h2, h3, h4⟩ := peek_end h.ok (by rw [h.endAt, he]; simp) (h.his he) hr clock fuel h.days
  exact ⟨s', h1, h.move h3 h4 (by rw [h2, List.drop_eq_nil_of_le hn])⟩

/-- Without an end a used-up source continues with the window that begins on the date it reads. -/
theorem SrcAt.peek_more {cfg : ECfg} (hl : LiveCfg cfg) {fuel : Nat} (hf : 2 * cfg.count + 2 ≤ fuel) {st : Int}
    {offs L : List (Int × γ)} {s : ESrc γ} (h : SrcAt cfg fuel none st offs L L.length s) (clock : Nat → Int)
    (hw : ∀ j, windowEvents cfg st offs (clock j) ≠ []) :
    ∃ s' j x xs, windowEvents cfg st offs (clock j) = x :: xs ∧ s.peek cfg clock fuel = some (s', .ok (some x)) ∧
      SrcAt cfg fuel none st offs (L ++ windowEvents cfg st offs (clock j)) L.length s' := by
  have hr : s.rem st offs = [] := by rw [h.rem, List.drop_eq_nil_of_le (Nat.le_refl _)]
  cases hx : windowEvents cfg st offs (clock s.days.length) with
  | nil => exact absurd hx (hw _)
  | cons x xs =>
    have hd := h.live rfl
    obtain ⟨s', h1, h2, h3, h4, h5⟩ := peek_live hl h.ok h.endAt hr clock x xs hx fuel (by omega)
    refine ⟨s', s.days.length, x, xs, hx, h1, h3, h4, ?_, (by omega), (fun e => by cases e), fun _ => h5⟩
    rw [h2, List.drop_left, hx]

/-! ## The run and its abstraction -/

variable {α : Type}

/-- What is known about the `k` sources of a run: their entries, the events of the first window, the priority of
their class and the callbacks on the bus for it. -/
structure RunPlan where
  k : Nat
  en : Option Int
  st : Nat → Int
  offs : Nat → List (Int × Str)
  first : Nat → List (Int × Str)
  prio : Nat → Int
  cbs : Nat → List Cb

/-- A handle was found for the callback. -/
def Cb.callable : Cb → Bool
  | .user _ none => false
  | _ => true

/-- The bus and the class table fit the plan, and only the last callback for an event may raise. -/
structure RunPlan.Fits (P : RunPlan) (R : RunEnv α) : Prop where
  emit : ∀ i, i < P.k → ∀ o ∈ P.offs i, R.bus.emit sameClass o.2 = P.cbs i
  prio : ∀ i, i < P.k → ∀ o ∈ P.offs i, dget R.classes o.2 = some (P.prio i)
  first : ∀ i, i < P.k → ∀ e ∈ P.first i, ∃ o ∈ P.offs i, e.2 = o.2
  callable : ∀ i, i < P.k → ∀ cb ∈ P.cbs i, cb.callable = true
  silent : ∀ i, i < P.k → ∀ cb ∈ (P.cbs i).dropLast, ∀ a, (R.act cb a).2 = none
  /-- without an end: no window is empty, and there is fuel for two windows -/
  live : P.en = none → LiveCfg R.cfg ∧ 2 * R.cfg.count + 2 ≤ R.fuel ∧
    ∀ i, i < P.k → 0 < (P.first i).length ∧ ∀ p j, windowEvents R.cfg (P.st i) (P.offs i) (R.dates p j) ≠ []

/-- The events of source `i` when further windows have begun on the days `ws`. -/
def RunPlan.L (P : RunPlan) (cfg : ECfg) (ws : Nat → List Int) (i : Nat) : List (Int × Str) :=
  P.first i ++ (ws i).flatMap (windowEvents cfg (P.st i) (P.offs i))

/-- The abstract sources. -/
def RunPlan.sources (P : RunPlan) (cfg : ECfg) (ws : Nat → List Int) (fails : Nat → Nat → Option PyErr) :
    Sources PyErr where
  ev i n := if i < P.k then (P.L cfg ws i)[n]?.map fun e => (dtToMillis e.1, P.prio i) else none
  fails := fails

structure WRel (P : RunPlan) (R : RunEnv α) (ws : Nat → List Int) (w : RunW α) (d : Delivered) : Prop where
  srcs : ∀ i, i < P.k → SrcAt R.cfg R.fuel P.en (P.st i) (P.offs i) (P.L R.cfg ws i) (d i) (w.srcs i)
  hung : w.hung = false

theorem ev_lt {P : RunPlan} {cfg : ECfg} {ws : Nat → List Int} {fails : Nat → Nat → Option PyErr} {i n : Nat} {a : Int × Int}
    (h : (P.sources cfg ws fails).ev i n = some a) :
    i < P.k ∧ ∃ hn : n < (P.L cfg ws i).length, a = (dtToMillis ((P.L cfg ws i)[n]).1, P.prio i) := by
  simp only [RunPlan.sources] at h
  split at h
  · rename_i hk
    refine ⟨hk, ?_⟩
    simp only [Option.map_eq_some_iff] at h
    obtain ⟨e, he, rfl⟩ := h
    obtain ⟨hn, he'⟩ := List.getElem?_eq_some_iff.1 he
    exact ⟨hn, by rw [he']⟩
  · cases h

theorem ev_none {P : RunPlan} {cfg : ECfg} {ws : Nat → List Int} {fails : Nat → Nat → Option PyErr} {i n : Nat} (hi : i < P.k)
    (h : (P.sources cfg ws fails).ev i n = none) : (P.L cfg ws i).length ≤ n := by
  simp only [RunPlan.sources, if_pos hi, Option.map_eq_none_iff] at h
  exact List.getElem?_eq_none_iff.1 h

theorem windowEvents_class {cfg : ECfg} {st : Int} {offs : List (Int × γ)} {w : Int} {e : Int × γ}
    (h : e ∈ windowEvents cfg st offs w) : ∃ o ∈ offs, e.2 = o.2 := by
  simp only [windowEvents, eventsOf, List.mem_flatMap] at h
  obtain ⟨d, _, h⟩ := h
  obtain ⟨o, ho, rfl⟩ := dayEvents_mem h
  exact ⟨o, ho, rfl⟩

theorem RunPlan.Fits.class {P : RunPlan} {R : RunEnv α} (hf : P.Fits R) {ws : Nat → List Int} {i : Nat} (hi : i < P.k)
    {e : Int × Str} (he : e ∈ P.L R.cfg ws i) :
    R.bus.emit sameClass e.2 = P.cbs i ∧ dget R.classes e.2 = some (P.prio i) := by
  have : ∃ o ∈ P.offs i, e.2 = o.2 := by
    rcases List.mem_append.1 he with he | he
    · exact hf.first i hi e he
    · obtain ⟨w, _, he⟩ := List.mem_flatMap.1 he
      exact windowEvents_class he
  obtain ⟨o, ho, e'⟩ := this
  rw [e']
  exact ⟨hf.emit i hi o ho, hf.prio i hi o ho⟩

theorem polled_srcs {P : RunPlan} {R : RunEnv α} {ws ws' : Nat → List Int} {w : RunW α} {d d' : Delivered}
    (h : WRel P R ws w d) (i : Nat) (s : ESrc Str)
    (hs : i < P.k → SrcAt R.cfg R.fuel P.en (P.st i) (P.offs i) (P.L R.cfg ws' i) (d' i) s)
    (hd : ∀ j, j ≠ i → d' j = d j) (hws : ∀ j, j ≠ i → ws' j = ws j) :
    ∀ j, j < P.k → SrcAt R.cfg R.fuel P.en (P.st j) (P.offs j) (P.L R.cfg ws' j) (d' j) ((w.polled i s).srcs j) := by
  intro j hj
  simp only [RunW.polled]
  by_cases e : j = i
  · subst e; rw [if_pos rfl]; exact hs hj
  · rw [if_neg e, hd j e]
    have := h.srcs j hj
    simp only [RunPlan.L, hws j e] at this ⊢
    exact this

/-- The windows `ws'` continue `ws`: nothing changes for a source with an end nor for sources other than `i`, and what
is added begins on a date that the clock has shown and comes after the `n` events delivered. -/
structure Grows (P : RunPlan) (R : RunEnv α) (ws ws' : Nat → List Int) (i n : Nat) : Prop where
  same : P.en.isSome = true → ws' = ws
  others : ∀ j, j ≠ i → ws' j = ws j
  ext : ∃ us, ws' i = ws i ++ us ∧ (∀ u ∈ us, ∃ p j, u = R.dates p j) ∧ (us ≠ [] → (P.L R.cfg ws i).length ≤ n)

theorem Grows.refl (P : RunPlan) (R : RunEnv α) (ws : Nat → List Int) (i n : Nat) : Grows P R ws ws i n :=
  ⟨fun _ => rfl, fun _ _ => rfl, ⟨[], by simp, by simp, fun h => absurd rfl h⟩⟩

/-- `push_next_msg` does what the abstraction does; if the source was used up and has no end, a new window begins. -/
theorem runPush_sim {P : RunPlan} {R : RunEnv α} (hf : P.Fits R) {ws : Nat → List Int} {w : RunW α} {d : Delivered}
    (h : WRel P R ws w d) {i : Nat} (hi : i < P.k) (hle : d i ≤ (P.L R.cfg ws i).length) :
    ∃ w' ws', (∀ fails, runPush R i w = (w', pushNext (P.sources R.cfg ws' fails) i d, none)) ∧ WRel P R ws' w' d ∧
      w'.calls = w.calls ∧ w'.st = w.st ∧ Grows P R ws ws' i (d i) := by
  by_cases hn : d i < (P.L R.cfg ws i).length
  · obtain ⟨s', h1, h2⟩ := (h.srcs i hi).peek_in hn (R.dates w.polls)
    refine ⟨w.polled i s', ws, ?_, ⟨polled_srcs h i s' (fun _ => h2) (fun _ _ => rfl) (fun _ _ => rfl), h.hung⟩, rfl, rfl,
      .refl ..⟩
    have hp := (hf.class hi (List.getElem_mem hn)).2
    generalize hx : (P.L R.cfg ws i)[d i] = x at *
    obtain ⟨dt, cls⟩ := x
    simp only at hp
    intro fails
    simp only [runPush, h1, pushNext, RunPlan.sources, if_pos hi, List.getElem?_eq_getElem hn, hx, Option.map_some, hp,
      Option.getD_some]
  · cases hen : P.en with
    | some en =>
      have he : P.en.isSome = true := by rw [hen]; rfl
      obtain ⟨s', h1, h2⟩ := (h.srcs i hi).peek_out (Nat.not_lt.1 hn) he (R.dates w.polls)
      refine ⟨w.polled i s', ws, ?_, ⟨polled_srcs h i s' (fun _ => h2) (fun _ _ => rfl) (fun _ _ => rfl), h.hung⟩, rfl, rfl,
        .refl ..⟩
      intro fails
      simp only [runPush, h1, pushNext, RunPlan.sources, if_pos hi, List.getElem?_eq_none (Nat.not_lt.1 hn), Option.map_none]
    | none =>
      obtain ⟨hl, hfu, hwin⟩ := hf.live hen
      have hd : d i = (P.L R.cfg ws i).length := by omega
      have hsrc := h.srcs i hi
      rw [hd, hen] at hsrc
      obtain ⟨s', j, x, xs, h1, h2, h3⟩ := hsrc.peek_more hl hfu (R.dates w.polls) (fun j => (hwin i hi).2 _ j)
      let ws' : Nat → List Int := fun m => if m = i then ws i ++ [R.dates w.polls j] else ws m
      have hL : P.L R.cfg ws' i = P.L R.cfg ws i ++ windowEvents R.cfg (P.st i) (P.offs i) (R.dates w.polls j) := by
        simp [RunPlan.L, ws']
      refine ⟨w.polled i s', ws', ?_, ⟨polled_srcs h i s' (fun _ => ?_) (fun _ _ => rfl) (fun m hm => by simp [ws', hm]), h.hung⟩,
        rfl, rfl, fun he => (by rw [hen] at he; cases he), fun m hm => by simp [ws', hm],
        [R.dates w.polls j], by simp [ws'], fun u hu => ⟨w.polls, j, by simpa using hu⟩, fun _ => by omega⟩
      · have hget : (P.L R.cfg ws' i)[d i]? = some x := by
          rw [hL, h1, hd, List.getElem?_append_right (Nat.le_refl _), Nat.sub_self]; rfl
        have hp := (hf.class hi (List.mem_of_getElem? hget)).2
        obtain ⟨dt, cls⟩ := x
        simp only at hp
        intro fails
        simp only [runPush, h2, pushNext, RunPlan.sources, if_pos hi, hget, Option.map_some, hp, Option.getD_some]
      · rw [hL, hen, hd]; exact h3

/-- The effect of the callbacks on the state. -/
def RunEnv.after (R : RunEnv α) (a : α) (cbs : List Cb) : α := cbs.foldl (fun a cb => (R.act cb a).1) a

/-- All callbacks of an event are called if only the last one may raise. -/
theorem runEmit_all {R : RunEnv α} (cbs : List Cb) (hc : ∀ cb ∈ cbs, cb.callable = true)
    (hs : ∀ cb ∈ cbs.dropLast, ∀ a, (R.act cb a).2 = none) (w : RunW α) :
    ∃ err, runEmit R cbs w = ({ w with calls := w.calls ++ cbs, st := R.after w.st cbs }, err) ∧
      ((∀ cb ∈ cbs, ∀ a, (R.act cb a).2 = none) → err = none) := by
  induction cbs generalizing w with
  | nil => exact ⟨none, by simp [runEmit, RunEnv.after], fun _ => rfl⟩
  | cons cb cbs ih =>
    have hcb := hc cb (List.mem_cons_self ..)
    have hstep : runEmit R (cb :: cbs) w =
        match R.act cb w.st with
        | (a, some e) => ({ w with st := a, calls := w.calls ++ [cb] }, some e)
        | (a, none) => runEmit R cbs { w with st := a, calls := w.calls ++ [cb] } := by
      cases cb with
      | account k => rfl
      | user i h => cases h with
        | none => cases hcb
        | some f => rfl
    rw [hstep]
    cases hr : R.act cb w.st with
    | mk a r =>
      cases r with
      | some e =>
        have : cbs = [] := by
          cases cbs with
          | nil => rfl
          | cons b bs =>
            have := hs cb (by simp [List.dropLast]) w.st
            rw [hr] at this; cases this
        subst this
        refine ⟨some e, by simp [RunEnv.after, hr], fun h => ?_⟩
        have := h cb (List.mem_cons_self ..) w.st
        rw [hr] at this; exact this
      | none =>
        obtain ⟨err, h1, h2⟩ := ih (fun c hc' => hc c (List.mem_cons_of_mem _ hc'))
          (fun c hc' a => hs c (by
            cases cbs with
            | nil => cases hc'
            | cons b bs => exact List.mem_cons_of_mem _ hc') a)
          { w with st := a, calls := w.calls ++ [cb] }
        refine ⟨err, ?_, fun h => h2 fun c hc' => h c (List.mem_cons_of_mem _ hc')⟩
        simp only
        rw [h1]
        simp [RunEnv.after, hr]

/-- The abstract failures with one entry replaced. -/
def setFail (fails : Nat → Nat → Option PyErr) (i n : Nat) (err : Option PyErr) : Nat → Nat → Option PyErr :=
  fun j m => if j = i ∧ m = n then err else fails j m

/-- The callback does what the abstraction does, with the same exception. -/
theorem runExec_sim {P : RunPlan} {R : RunEnv α} (hf : P.Fits R) {ws : Nat → List Int} {fails : Nat → Nat → Option PyErr}
    {w : RunW α} {d : Delivered} (h : WRel P R ws w d) {i : Nat} (hi : i < P.k) (hn : d i < (P.L R.cfg ws i).length) :
    ∃ w' ws' err, Grows P R ws ws' i (d i + 1) ∧
      ((∀ cb ∈ P.cbs i, ∀ a, (R.act cb a).2 = none) → err = none) ∧
      runExec R i w = (w', (sourceExec (P.sources R.cfg ws' (setFail fails i (d i) err)) i d).2) ∧
      (sourceExec (P.sources R.cfg ws' (setFail fails i (d i) err)) i d).1 = (fun j => if j = i then d i + 1 else d j) ∧
      WRel P R ws' w' (fun j => if j = i then d i + 1 else d j) ∧ w'.calls = w.calls ++ P.cbs i ∧
      w'.st = R.after w.st (P.cbs i) := by
  obtain ⟨s', h1, h2⟩ := (h.srcs i hi).get_in hn (R.dates w.polls)
  have he := (hf.class hi (List.getElem_mem hn)).1
  obtain ⟨err, e1, e2⟩ := runEmit_all (R := R) (P.cbs i) (hf.callable i hi) (hf.silent i hi) (w.polled i s')
  have e1 : runEmit R (P.cbs i) (w.polled i s') =
      ({ w.polled i s' with calls := w.calls ++ P.cbs i, st := R.after w.st (P.cbs i) }, err) := e1
  let d' : Delivered := fun j => if j = i then d i + 1 else d j
  have hd'i : d' i = d i + 1 := by simp [d']
  have hw1 : WRel P R ws ({ w.polled i s' with calls := w.calls ++ P.cbs i, st := R.after w.st (P.cbs i) }) d' :=
    ⟨polled_srcs (d' := d') h i s' (fun _ => by rw [hd'i]; exact h2) (fun j hj => by simp [d', hj]) (fun _ _ => rfl), h.hung⟩
  generalize hx : (P.L R.cfg ws i)[d i] = x at *
  obtain ⟨dt, cls⟩ := x
  simp only at he
  cases err with
  | some e =>
    refine ⟨_, ws, some e, .refl .., e2, ?_, ?_, hw1, rfl, rfl⟩
    · simp only [runExec, h1, he, e1, sourceExec, RunPlan.sources, if_pos hi, List.getElem?_eq_getElem hn, Option.map_some, setFail]
      simp
    · simp only [sourceExec, RunPlan.sources, if_pos hi, List.getElem?_eq_getElem hn, Option.map_some, setFail]
      simp
  | none =>
    obtain ⟨w', ws', g1, g2, g3, g4, g5⟩ := runPush_sim hf hw1 hi (by rw [hd'i]; exact hn)
    have hpre : (P.L R.cfg ws' i)[d i]? = some (dt, cls) := by
      obtain ⟨us, hus, _, _⟩ := g5.ext
      rw [show P.L R.cfg ws' i = P.L R.cfg ws i ++ us.flatMap (windowEvents R.cfg (P.st i) (P.offs i)) by
        simp [RunPlan.L, hus], List.getElem?_append_left hn, List.getElem?_eq_getElem hn, hx]
    refine ⟨w', ws', none, hd'i ▸ g5, e2, ?_, ?_, g2, g3, g4⟩
    · have := g1 (setFail fails i (d i) none)
      simp only [runExec, h1, he, e1, this]
      simp only [sourceExec, RunPlan.sources, if_pos hi, hpre, Option.map_some, setFail]
      simp [d']
    · simp only [sourceExec, RunPlan.sources, if_pos hi, hpre, Option.map_some, setFail]
      simp

/-! ## What an abstract run depends on -/

theorem run_snoc {σ κ ε} {exec : κ → σ → σ × List (Act κ) × Option ε} {s t u : LoopSt σ κ ε} {ls : List (Label κ)}
    {l : Label κ} (h : s.run exec ls = some t) (h' : t.step exec l = some u) : s.run exec (ls ++ [l]) = some u := by
  exact LoopSt.run_append' h (by simp [LoopSt.run, h'])

theorem run_unsnoc {σ κ ε} {exec : κ → σ → σ × List (Act κ) × Option ε} {s u : LoopSt σ κ ε} {ls : List (Label κ)}
    {l : Label κ} (h : s.run exec (ls ++ [l]) = some u) : ∃ t, s.run exec ls = some t ∧ t.step exec l = some u := by
  induction ls generalizing s with
  | nil =>
    simp only [List.nil_append, LoopSt.run, Option.bind_eq_some_iff, Option.some.injEq] at h
    obtain ⟨t, h1, rfl⟩ := h
    exact ⟨s, rfl, h1⟩
  | cons a ls ih =>
    simp only [List.cons_append, LoopSt.run, Option.bind_eq_some_iff] at h
    obtain ⟨b, hb, hr⟩ := h
    obtain ⟨t, h1, h2⟩ := ih hr
    exact ⟨t, by simp [LoopSt.run, hb, h1], h2⟩

/-- The sources agree on what a run has seen that has delivered `d`. -/
structure AgreeUpTo {ε} (S S' : Sources ε) (d : Delivered) : Prop where
  ev : ∀ i n, n ≤ d i → S.ev i n = S'.ev i n
  fails : ∀ i n, n < d i → S.fails i n = S'.fails i n

theorem sourceExec_mono {ε} (S : Sources ε) (i : Nat) (w : Delivered) (j : Nat) : w j ≤ (sourceExec S i w).1 j := by
  simp only [sourceExec]
  split
  · exact Nat.le_refl _
  · split <;> (simp only; split <;> simp_all)

theorem sourceExec_agree {ε} {S S' : Sources ε} {i : Nat} {w : Delivered} (h : AgreeUpTo S S' (sourceExec S i w).1) :
    sourceExec S i w = sourceExec S' i w := by
  have h0 := h.ev i (w i) (sourceExec_mono S i w i)
  cases hev : S.ev i (w i) with
  | none => simp only [sourceExec, hev, ← h0]
  | some a =>
    have hd : (sourceExec S i w).1 = fun j => if j = i then w i + 1 else w j := by
      simp only [sourceExec, hev]; split <;> rfl
    rw [hd] at h
    have h1 := h.fails i (w i) (by simp)
    have h2 := h.ev i (w i + 1) (by simp)
    simp only [sourceExec, hev, ← h0, ← h1, pushNext, if_true, ← h2]

theorem step_world_mono {ε} {S : Sources ε} {s t : LoopSt Delivered Nat ε} {l : Label Nat}
    (h : s.step (sourceExec S) l = some t) (i : Nat) : s.world i ≤ t.world i := by
  rcases step_cases h with ⟨-, hp, hn, rfl⟩ | ⟨-, hp, hn, rfl⟩ | ⟨-, hp, hn, rfl⟩ |
    ⟨-, hp, hst, hq, rfl⟩ | ⟨-, hp, hst, m, r, hq, rfl⟩ | ⟨now, exits, m, -, hp, hlt, he, rfl⟩ |
    ⟨now, exits, m, -, hp, hlt, he, rfl⟩ | ⟨now, exits, m, -, hp, hle, rfl⟩ | ⟨-, hp, rfl⟩ |
    ⟨t, p, d, rfl, rfl⟩
  any_goals exact Nat.le_refl _
  · show _ ≤ s.stop.world i
    rw [s.stop_frame.world]; exact Nat.le_refl _
  · rw [(LoopSt.handle_frame (exec := sourceExec S) ({ s with phase := .checking } : LoopSt Delivered Nat ε) m now).world]
    exact sourceExec_mono S m.data s.world i
  · rw [s.stop_frame.world]; exact Nat.le_refl _

theorem step_agree {ε} {S S' : Sources ε} {s t : LoopSt Delivered Nat ε} {l : Label Nat}
    (h : s.step (sourceExec S) l = some t) (ha : AgreeUpTo S S' t.world) : s.step (sourceExec S') l = some t := by
  cases l with
  | clock now exits =>
    simp only [LoopSt.step] at h ⊢
    split at h
    · rename_i m hp
      split at h
      · rename_i hlt
        simp only [if_pos hlt]; exact h
      · rename_i hlt
        simp only [if_neg hlt]
        simp only [Option.some.injEq] at h
        subst h
        rw [(LoopSt.handle_frame (exec := sourceExec S) ({ s with phase := .checking } : LoopSt Delivered Nat ε) m now).world] at ha
        simp only [LoopSt.handle]
        rw [sourceExec_agree ha]
    · cases h
  | wakeNotify => exact h
  | wakeTimer => exact h
  | pop => exact h
  | signal => exact h
  | external t p d => exact h

theorem scheduleAll_agree {ε} {S S' : Sources ε} {d : Delivered} (ha : AgreeUpTo S S' d) (k : Nat) :
    scheduleAll S k = scheduleAll S' k := by
  induction k with
  | zero => rfl
  | succ k ih =>
    rw [scheduleAll_succ, scheduleAll_succ, ih]
    simp only [pushNext, (scheduleAll_frame (S := S') k).1, ha.ev k 0 (Nat.zero_le _)]

/-- A run depends only on the events seen so far: those delivered and the next one of each source. -/
theorem run_agree {ε} {S S' : Sources ε} {k : Nat} {t : LoopSt Delivered Nat ε} {ls : List (Label Nat)}
    (h : (scheduleAll S k).run (sourceExec S) ls = some t) (ha : AgreeUpTo S S' t.world) :
    (scheduleAll S' k).run (sourceExec S') ls = some t := by
  obtain ⟨n, hn⟩ : ∃ n, ls.length = n := ⟨_, rfl⟩
  induction n generalizing ls t with
  | zero =>
    have : ls = [] := List.length_eq_zero_iff.1 hn
    subst this
    rw [← scheduleAll_agree ha]; exact h
  | succ n ih =>
    rcases List.eq_nil_or_concat ls with rfl | ⟨ls', l, rfl⟩
    · simp at hn
    · rw [List.concat_eq_append] at h hn ⊢
      obtain ⟨u, h1, h2⟩ := run_unsnoc h
      have hu : AgreeUpTo S S' u.world :=
        ⟨fun i m hm => ha.ev i m (Nat.le_trans hm (step_world_mono h2 i)),
          fun i m hm => ha.fails i m (Nat.lt_of_lt_of_le hm (step_world_mono h2 i))⟩
      exact run_snoc (ih h1 hu (by simpa using hn)) (step_agree h2 ha)

/-! ## Loop states with another world -/

section
variable {σ τ κ ε : Type}

/-- The same loop state with the world replaced. -/
def LoopSt.withWorld (s : LoopSt σ κ ε) (d : τ) : LoopSt τ κ ε :=
  { queue := s.queue, counter := s.counter, stopRequested := s.stopRequested, exception := s.exception, timer := s.timer,
    notified := s.notified, halted := s.halted, strategyTime := s.strategyTime, phase := s.phase, world := d,
    fired := s.fired, errs := s.errs }

theorem withWorld_stop (s : LoopSt σ κ ε) (d : τ) : (s.withWorld d).stop = s.stop.withWorld d := by
  have h : (s.withWorld d).stopRequested = s.stopRequested := rfl
  simp only [LoopSt.stop, h]
  cases s.stopRequested <;> rfl

theorem withWorld_act (s : LoopSt σ κ ε) (d : τ) (a : Act κ) : (s.withWorld d).act a = (s.act a).withWorld d := by
  cases a with
  | push t p k => rfl
  | stop => exact withWorld_stop s d

theorem withWorld_acts (as : List (Act κ)) (s : LoopSt σ κ ε) (d : τ) :
    as.foldl LoopSt.act (s.withWorld d) = (as.foldl LoopSt.act s).withWorld d := by
  induction as generalizing s with
  | nil => rfl
  | cons a as ih => rw [List.foldl_cons, List.foldl_cons, withWorld_act, ih]

theorem withWorld_handle {exec : κ → σ → σ × List (Act κ) × Option ε} {exec' : κ → τ → τ × List (Act κ) × Option ε}
    (s : LoopSt σ κ ε) (d : τ) (m : Msg κ) (now : Int) (h : (exec m.data s.world).2 = (exec' m.data d).2) :
    (s.withWorld d).handle exec' m now = (s.handle exec m now).withWorld (exec' m.data d).1 := by
  simp only [LoopSt.handle]
  have e : ({ ({ s.withWorld d with strategyTime := some m.time,
                                     fired := (s.withWorld d).fired ++ [(m, now)] } : LoopSt τ κ ε) with
              world := (exec' m.data d).1 } : LoopSt τ κ ε) =
      LoopSt.withWorld ({ s with strategyTime := some m.time, fired := s.fired ++ [(m, now)],
                                 world := (exec m.data s.world).1 } : LoopSt σ κ ε) (exec' m.data d).1 := rfl
  have hw : (s.withWorld d).world = d := rfl
  rw [hw, e, withWorld_acts, ← h]
  generalize List.foldl LoopSt.act _ (exec m.data s.world).2.1 = u
  cases (exec m.data s.world).2.2 with
  | none => rfl
  | some er => exact withWorld_stop { u with exception := some er, errs := u.errs ++ [er] } _

end


/-! ## The simulation -/

/-- How often source `i` has fired. -/
def firedCount {σ ε} (s : LoopSt σ Nat ε) (i : Nat) : Nat := (s.fired.filter (fun f => f.1.data = i)).length

/-- The run is the run of the abstraction with the windows `ws` and the failures `fails`. -/
structure RunSimAt (P : RunPlan) (R : RunEnv α) (C : Label Nat → Prop) (a0 : α) (s : LoopSt (RunW α) Nat PyErr)
    (ws : Nat → List Int) (fails : Nat → Nat → Option PyErr) (d : Delivered) (ls : List (Label Nat)) : Prop where
  labels : ∀ l ∈ ls, C l
  run : (scheduleAll (P.sources R.cfg ws fails) P.k).run (sourceExec (P.sources R.cfg ws fails)) ls = some (s.withWorld d)
  rel : WRel P R ws s.world d
  ended : P.en.isSome = true → ∀ i, ws i = []
  dates : ∀ i, ∀ u ∈ ws i, ∃ p j, u = R.dates p j
  past : ∀ i, ws i ≠ [] → (P.first i).length ≤ d i
  fails : (∀ j, j < P.k → ∀ cb ∈ P.cbs j, ∀ a, (R.act cb a).2 = none) → ∀ i n, fails i n = none
  calls : s.world.calls = s.fired.flatMap fun f => P.cbs f.1.data
  st : s.world.st = R.after a0 s.world.calls

def RunSim (P : RunPlan) (R : RunEnv α) (C : Label Nat → Prop) (a0 : α) (s : LoopSt (RunW α) Nat PyErr) : Prop :=
  ∃ ws fails d ls, RunSimAt P R C a0 s ws fails d ls

theorem RunSimAt.inv {P : RunPlan} {R : RunEnv α} {C : Label Nat → Prop} (hC : ∀ l, C l → l.isInternal = true) {a0 : α}
    {s : LoopSt (RunW α) Nat PyErr} {ws fails d ls} (h : RunSimAt P R C a0 s ws fails d ls) :
    SInv (P.sources R.cfg ws fails) P.k (s.withWorld d) :=
  SInv_run h.run (fun l hl => hC l (h.labels l hl))

theorem RunSimAt.count {P : RunPlan} {R : RunEnv α} {C : Label Nat → Prop} (hC : ∀ l, C l → l.isInternal = true) {a0 : α}
    {s : LoopSt (RunW α) Nat PyErr} {ws fails d ls} (h : RunSimAt P R C a0 s ws fails d ls) (i : Nat) :
    firedCount s i = d i := by
  have := congrArg List.length ((h.inv hC).fired i)
  simpa [firedOf, firstEvents, firedCount, LoopSt.withWorld] using this

theorem RunEnv.after_append (R : RunEnv α) (a : α) (x y : List Cb) : R.after a (x ++ y) = R.after (R.after a x) y := by
  simp [RunEnv.after]

theorem RunPlan.L_grows {P : RunPlan} {R : RunEnv α} {ws ws' : Nat → List Int} {i n : Nat} (h : Grows P R ws ws' i n) :
    P.L R.cfg ws i <+: P.L R.cfg ws' i := by
  obtain ⟨us, hus, _⟩ := h.ext
  exact ⟨us.flatMap (windowEvents R.cfg (P.st i) (P.offs i)), by simp [RunPlan.L, hus]⟩

theorem RunSim.step {P : RunPlan} {R : RunEnv α} (hf : P.Fits R) {C : Label Nat → Prop}
    (hC : ∀ l, C l → l.isInternal = true) {a0 : α} {s t : LoopSt (RunW α) Nat PyErr} {l : Label Nat}
    (hs : RunSim P R C a0 s) (hl : C l) (h : s.step (runExec R) l = some t) : RunSim P R C a0 t := by
  obtain ⟨ws, fails, d, ls, H⟩ := hs
  have hls' : ∀ l' ∈ ls ++ [l], C l' := by
    intro l' hl'
    rcases List.mem_append.1 hl' with h' | h'
    · exact H.labels l' h'
    · simp at h'; exact h' ▸ hl
  have easy : ∀ t : LoopSt (RunW α) Nat PyErr,
      (s.withWorld d).step (sourceExec (P.sources R.cfg ws fails)) l = some (t.withWorld d) →
      t.world = s.world → t.fired = s.fired → RunSim P R C a0 t := by
    intro t h1 h2 h3
    exact ⟨ws, fails, d, ls ++ [l], hls', run_snoc H.run h1, h2 ▸ H.rel, H.ended, H.dates, H.past, H.fails,
      by rw [h2, h3]; exact H.calls, by rw [h2]; exact H.st⟩
  rcases step_cases h with ⟨rfl, hp, hn, rfl⟩ | ⟨rfl, hp, ⟨tt, hn⟩, rfl⟩ | ⟨rfl, hp, hn, rfl⟩ |
    ⟨rfl, hp, hst, hq, rfl⟩ | ⟨rfl, hp, hst, m, r, hq, rfl⟩ | ⟨now, exits, m, rfl, hp, hlt, he, rfl⟩ |
    ⟨now, exits, m, rfl, hp, hlt, he, rfl⟩ | ⟨now, exits, m, rfl, hp, hle, rfl⟩ | ⟨rfl, hp, rfl⟩ |
    ⟨t, p, d, rfl, rfl⟩
  · exact easy _ (by simp [LoopSt.step, LoopSt.withWorld, hp, hn]) rfl rfl
  · exact easy _ (by simp [LoopSt.step, LoopSt.withWorld, hp, hn]) rfl rfl
  · exact easy _ (by simp [LoopSt.step, LoopSt.withWorld, hp, hn]) rfl rfl
  · exact easy _ (by simp [LoopSt.step, LoopSt.withWorld, hp, hst, hq]) rfl rfl
  · exact easy _ (by simp [LoopSt.step, LoopSt.withWorld, hp, hst, hq]) rfl rfl
  · refine easy _ ?_ s.stop_frame.world s.stop_frame.fired
    have hp' : (s.withWorld d).phase = .holding m := hp
    simp only [LoopSt.step, hp', if_pos hlt, he, if_true, withWorld_stop]
    rfl
  · exact easy _ (by simp [LoopSt.step, LoopSt.withWorld, hp, if_pos hlt, he]) rfl rfl
  · have hp' : (s.withWorld d).phase = .holding m := hp
    have hev := ((H.inv hC).ev m (by rw [pending_holding hp']; exact List.mem_cons_self ..)).2
    obtain ⟨hk, hn, _⟩ := ev_lt hev
    have hwd : (s.withWorld d).world = d := rfl
    rw [hwd] at hn
    have hfr := LoopSt.handle_frame (exec := runExec R) ({ s with phase := .checking } : LoopSt (RunW α) Nat PyErr) m now
    obtain ⟨w', ws', err, g1, g2, g3, g4, g5, g6, g7⟩ := runExec_sim (fails := fails) hf H.rel hk hn
    have hd' : ∀ j, d j ≤ (fun j => if j = m.data then d m.data + 1 else d j) j := by
      intro j; simp only; split <;> simp_all
    -- the run so far, with the windows and failures known now
    have hag : AgreeUpTo (P.sources R.cfg ws fails) (P.sources R.cfg ws' (setFail fails m.data (d m.data) err)) d := by
      constructor
      · intro i n hni
        simp only [RunPlan.sources]
        by_cases hj : i = m.data
        · subst hj
          obtain ⟨us, hus⟩ := RunPlan.L_grows g1
          rw [← hus, List.getElem?_append_left (by omega)]
        · simp only [RunPlan.L, g1.others i hj]
      · intro i n hni
        simp only [RunPlan.sources, setFail]
        have : ¬ (i = m.data ∧ n = d m.data) := by rintro ⟨rfl, rfl⟩; omega
        rw [if_neg this]
    have hrun' := run_agree H.run hag
    refine ⟨ws', setFail fails m.data (d m.data) err,
      (sourceExec (P.sources R.cfg ws' (setFail fails m.data (d m.data) err)) m.data d).1, ls ++ [.clock now exits], hls',
      run_snoc hrun' ?_, ?_, ?_, ?_, ?_, ?_, ?_, ?_⟩
    · simp only [LoopSt.step, hp', if_neg (Int.not_lt.2 hle)]
      rw [← withWorld_handle ({ s with phase := .checking } : LoopSt (RunW α) Nat PyErr) d m now
        (by show (runExec R m.data s.world).2 = _; rw [g3])]
      rfl
    · rw [hfr.world, g4]
      show WRel P R ws' (runExec R m.data s.world).1 _
      rw [g3]; exact g5
    · intro he i
      rw [g1.same he]; exact H.ended he i
    · intro i u hu
      by_cases hj : i = m.data
      · subst hj
        obtain ⟨us, hus, hus1, _⟩ := g1.ext
        rw [hus] at hu
        rcases List.mem_append.1 hu with hu | hu
        · exact H.dates _ u hu
        · exact hus1 u hu
      · rw [g1.others i hj] at hu
        exact H.dates i u hu
    · intro i hne
      rw [g4]
      by_cases hws : ws i = []
      · by_cases hj : i = m.data
        · subst hj
          obtain ⟨us, hus, _, hus2⟩ := g1.ext
          rw [hws, List.nil_append] at hus
          have := hus2 (hus ▸ hne)
          simpa only [RunPlan.L, hws, List.flatMap_nil, List.append_nil, if_true] using this
        · rw [g1.others i hj] at hne
          exact absurd hws hne
      · exact Nat.le_trans (H.past i hws) (hd' i)
    · intro hq i n
      simp only [setFail]
      split
      · exact g2 (hq _ hk)
      · exact H.fails hq i n
    · rw [hfr.world, hfr.fired]
      show (runExec R m.data s.world).1.calls = _
      rw [g3]
      simp only [g6, H.calls, List.flatMap_append, List.flatMap_cons, List.flatMap_nil, List.append_nil]
    · rw [hfr.world]
      show (runExec R m.data s.world).1.st = R.after a0 (runExec R m.data s.world).1.calls
      rw [g3]
      simp only [g6, g7, RunEnv.after_append, ← H.st]
  · refine easy _ ?_ s.stop_frame.world s.stop_frame.fired
    have hp' : (s.withWorld d).phase = .idle := hp
    simp only [LoopSt.step, hp', withWorld_stop]
  · have := hC _ hl
    simp [Label.isInternal] at this

theorem RunSim.run {P : RunPlan} {R : RunEnv α} (hf : P.Fits R) {C : Label Nat → Prop}
    (hC : ∀ l, C l → l.isInternal = true) {a0 : α} {s t : LoopSt (RunW α) Nat PyErr} {ls : List (Label Nat)}
    (hs : RunSim P R C a0 s) (hl : ∀ l ∈ ls, C l) (h : s.run (runExec R) ls = some t) : RunSim P R C a0 t :=
  LoopSt.run_induct' (P := RunSim P R C a0) h hl hs (fun _ _ _ ha hc hst => ha.step hf hC hc hst)

/-! ## The start -/

/-- Source `i` has been made and starts at the beginning of its events. -/
def SrcStarts (P : RunPlan) (R : RunEnv α) (i : Nat) (b : ESrc Str × Py Unit) : Prop :=
  b.2 = .ok () ∧ ∃ s', b.1.resetIfNeeded R.cfg (R.dates i 0) = (s', .ok ()) ∧
    SrcAt R.cfg R.fuel P.en (P.st i) (P.offs i) (P.first i) 0 s'

theorem runStart_sim {P : RunPlan} {R : RunEnv α} (hf : P.Fits R)
    (rest : List (ESrc Str × Py Unit)) (i : Nat) (hk : i + rest.length = P.k)
    (hst : ∀ j (hj : j < rest.length), SrcStarts P R (i + j) rest[j])
    (l : LoopSt (RunW α) Nat PyErr)
    (hl : l.withWorld (fun _ => 0) = scheduleAll (P.sources R.cfg (fun _ => []) (fun _ _ => none)) i)
    (hsrc : ∀ j, j < i → SrcAt R.cfg R.fuel P.en (P.st j) (P.offs j) (P.first j) 0 (l.world.srcs j))
    (hp : l.world.polls = i) (hc : l.world.calls = []) (hh : l.world.hung = false) :
    ∃ l', runStart R i rest l = (l', none) ∧
      l'.withWorld (fun _ => 0) = scheduleAll (P.sources R.cfg (fun _ => []) (fun _ _ => none)) P.k ∧
      (∀ j, j < P.k → SrcAt R.cfg R.fuel P.en (P.st j) (P.offs j) (P.first j) 0 (l'.world.srcs j)) ∧
      l'.world.calls = [] ∧ l'.world.hung = false ∧ l'.world.st = l.world.st := by
  induction rest generalizing i l with
  | nil =>
    simp at hk
    subst hk
    exact ⟨l, rfl, hl, hsrc, hc, hh, rfl⟩
  | cons x rest ih =>
    obtain ⟨s, r⟩ := x
    obtain ⟨h1, s', h2, h3⟩ := hst 0 (by simp)
    simp only [Nat.add_zero, List.getElem_cons_zero] at h1 h2 h3
    subst h1
    have hik : i < P.k := by simp at hk; omega
    generalize hS : P.sources R.cfg (fun _ => []) (fun _ _ => none) = S at *
    -- the poll of the new source
    have hpoll : ∃ s2, s.peek R.cfg (R.dates i) R.fuel = some (s2, .ok (P.first i)[0]?) ∧
        SrcAt R.cfg R.fuel P.en (P.st i) (P.offs i) (P.first i) 0 s2 := by
      rw [peek_reset h2 h3.ok.need]
      by_cases h0 : 0 < (P.first i).length
      · obtain ⟨s2, g1, g2⟩ := h3.peek_in h0 (R.dates i)
        exact ⟨s2, by rw [g1, List.getElem?_eq_getElem h0], g2⟩
      · have he : P.en.isSome = true := by
          cases hen : P.en with
          | some _ => rfl
          | none => exact absurd ((hf.live hen).2.2 i hik).1 h0
        obtain ⟨s2, g1, g2⟩ := h3.peek_out (Nat.not_lt.1 h0) he (R.dates i)
        exact ⟨s2, by rw [g1, List.getElem?_eq_none (Nat.not_lt.1 h0)], g2⟩
    obtain ⟨s2, g1, g2⟩ := hpoll
    let w0 : RunW α := { l.world with srcs := fun j => if j = i then s else l.world.srcs j }
    have hpush : runPush R i w0 = (w0.polled i s2, pushNext S i (fun _ => 0), none) := by
      have e1 : w0.srcs i = s := by simp [w0]
      have e2 : w0.polls = i := hp
      simp only [runPush, e1, e2, g1, pushNext, ← hS, RunPlan.sources, if_pos hik, RunPlan.L, List.flatMap_nil, List.append_nil]
      cases hL : (P.first i)[0]? with
      | none => rfl
      | some x =>
        obtain ⟨dt, c⟩ := x
        have := (hf.class (ws := fun _ => []) hik (List.mem_append_left _ (List.mem_of_getElem? hL))).2
        simp only at this
        simp only [Option.map_some, this, Option.getD_some]
    have hsucc : scheduleAll S (i + 1) = (pushNext S i (fun _ => 0)).foldl LoopSt.act (scheduleAll S i) := by
      rw [scheduleAll_succ, (scheduleAll_frame i).1]
    have hfr := ({ l with world := w0.polled i s2 } : LoopSt (RunW α) Nat PyErr).foldl_act_frame (pushNext S i (fun _ => 0))
    have hwl : ((pushNext S i (fun _ => 0)).foldl LoopSt.act
        ({ l with world := w0.polled i s2 } : LoopSt (RunW α) Nat PyErr)).world = w0.polled i s2 := hfr.world
    obtain ⟨l', k1, k2, k3, k4, k5, k6⟩ := ih (i + 1) (by simp at hk; omega)
      (fun j hj => by
        have := hst (j + 1) (by simp; omega)
        rw [List.getElem_cons_succ, show i + (j + 1) = i + 1 + j by omega] at this
        exact this)
      ((pushNext S i (fun _ => 0)).foldl LoopSt.act ({ l with world := w0.polled i s2 } : LoopSt (RunW α) Nat PyErr))
      (by
        rw [← withWorld_acts, hsucc, ← hl]
        rfl)
      (by
        rw [hwl]
        intro j hj
        simp only [RunW.polled, w0]
        by_cases e : j = i
        · subst e; rw [if_pos rfl]; exact g2
        · rw [if_neg e, if_neg e]; exact hsrc j (by omega))
      (by rw [hwl]; simp only [RunW.polled, w0, hp])
      (by rw [hwl]; exact hc)
      (by rw [hwl]; exact hh)
    refine ⟨l', ?_, k2, k3, k4, k5, by rw [k6, hwl]; rfl⟩
    have hpush' : runPush R i { l.world with srcs := fun j => if j = i then s else l.world.srcs j } =
      (w0.polled i s2, pushNext S i (fun _ => 0), none) := hpush
    simp only [runStart]
    rw [hpush']
    exact k1

/-- The set-up succeeds, and what follows is a run of the abstraction. -/
theorem runStart_ok {P : RunPlan} {R : RunEnv α} (hf : P.Fits R) (bs : List (ESrc Str × Py Unit)) (hk : bs.length = P.k)
    (hst : ∀ j (hj : j < bs.length), SrcStarts P R j bs[j]) (a0 : α) :
    ∃ l0, runStart R 0 bs (runEmpty a0) = (l0, none) ∧ l0.fired = [] ∧ ∀ C, RunSim P R C a0 l0 := by
  obtain ⟨l0, g1, g2, g3, g4, g5, g6⟩ := runStart_sim hf bs 0 (by rw [Nat.zero_add]; exact hk)
    (by simpa using hst) (runEmpty a0) rfl (fun j hj => absurd hj (by omega)) rfl rfl rfl
  have hfired : l0.fired = [] := by
    have := congrArg LoopSt.fired g2
    rw [(scheduleAll_frame _).2.2.2.1] at this
    exact this
  refine ⟨l0, g1, hfired, fun C => ⟨fun _ => [], fun _ _ => none, fun _ => 0, [], by simp, ?_, ⟨?_, g5⟩, fun _ _ => rfl,
    by simp, fun i h => absurd rfl h, fun _ _ _ => rfl, ?_, ?_⟩⟩
  · rw [g2]; rfl
  · simpa only [RunPlan.L, List.flatMap_nil, List.append_nil] using g3
  · rw [g4, hfired]; rfl
  · rw [g4, g6]; rfl

end Jq
