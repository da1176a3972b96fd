import Verif.Spec.EventSource
import Verif.Lemmas.Sort

namespace Jq
variable {γ : Type}

theorem dayUs_pos : 0 < dayUs := by decide

/-- The day only shifts the result of an expression. -/
theorem entryTime_day (mp : Periods) (d : Int) (e : Str) :
    entryTime mp d e = (entryTime mp 0 e).map fun t => d * dayUs + t := by
  simp only [entryTime]
  split
  · cases clockTime e <;> simp [Except.map]
  · simp only [exprToTime]
    cases mp.head? with
    | none => rfl
    | some a =>
      cases mp.getLast? with
      | none => rfl
      | some b =>
        simp only
        cases parseExpr e with
        | error _ => rfl
        | ok r =>
          obtain ⟨base, op, off⟩ := r
          simp only
          by_cases h1 : base = c!"open"
          · simp only [h1, if_true]
            split <;> simp [Except.map] <;> omega
          · by_cases h2 : base = c!"close"
            · simp only [h2, if_true, show ¬ (c!"close" = c!"open") from by decide, if_false]
              split <;> simp [Except.map] <;> omega
            · simp [h1, h2, Except.map]

theorem EntryTimes.cons_inv {cfg : ECfg} {e : Str × γ} {es : List (Str × γ)} {offs : List (Int × γ)}
    (h : EntryTimes cfg (e :: es) offs) :
    ∃ o os, offs = (o, e.2) :: os ∧ entryTime cfg.periods 0 e.1 = .ok o ∧ EntryTimes cfg es os := by
  cases offs with
  | nil => simp [EntryTimes] at h
  | cons o os =>
    simp only [EntryTimes, List.map_cons, List.cons.injEq, Prod.mk.injEq] at h
    exact ⟨o.1, os, by rw [h.1.2], h.1.1, h.2⟩

theorem addEvents_ok {cfg : ECfg} {entries : List (Str × γ)} {offs : List (Int × γ)}
    (h : EntryTimes cfg entries offs) (d st : Int) (s : ESrc γ) (hs : s.start = some st) :
    s.addEvents cfg d entries = ({ s with events := s.events ++ rawDay st s.endAt offs d }, .ok ()) := by
  induction entries generalizing offs s with
  | nil =>
    cases offs with
    | nil => simp [ESrc.addEvents, rawDay]
    | cons o os => simp [EntryTimes] at h
  | cons e es ih =>
    obtain ⟨o, os, rfl, ho, h'⟩ := h.cons_inv
    obtain ⟨x, c⟩ := e
    simp only at ho
    obtain ⟨dl, ev, ds, sa, en, nd, hh⟩ := s
    simp only at hs
    subst hs
    simp only [ESrc.addEvents, ESrc.addEvent, entryTime_day cfg.periods d x, ho, Except.map]
    by_cases h1 : d * dayUs + o < st
    · rw [if_pos h1]
      simp only
      rw [ih h' _ rfl]
      simp only [rawDay, List.map_cons, List.filter_cons]
      simp [Int.not_le.2 h1]
    · rw [if_neg h1]
      by_cases h2 : (en.any fun e => decide (e < d * dayUs + o)) = true
      · rw [if_pos h2]
        simp only
        rw [ih h' _ rfl]
        simp only [rawDay, List.map_cons, List.filter_cons]
        cases en with
        | none => simp at h2
        | some e =>
          simp at h2
          simp [Int.not_le.2 h2]
      · rw [if_neg h2]
        simp only
        rw [ih h' _ rfl]
        simp only [rawDay, List.map_cons, List.filter_cons]
        cases en with
        | none => simp [Int.not_lt.1 h1]
        | some e =>
          simp at h2
          simp [Int.not_lt.1 h1, h2]

/-- Days without events are skipped. -/
theorem genLoop_skip {cfg : ECfg} {clock : Nat → Int} {offs : List (Int × γ)} {st : Int} (ds : List Int)
    (s : ESrc γ) (h : EntryTimes cfg s.daily offs) (hs : s.start = some st) (hev : s.events = [])
    (hemp : ∀ d ∈ ds, rawDay st s.endAt offs d = []) (post : List Int) (fuel i : Nat) :
    ESrc.genLoop cfg clock (fuel + ds.length) i { s with days := ds ++ post } =
      ESrc.genLoop cfg clock fuel (i + ds.length) { s with days := post } := by
  obtain ⟨dl, ev, dys, sa, en, nd, hh⟩ := s
  simp only at h hs hev hemp ⊢
  subst hs hev
  induction ds generalizing i with
  | nil => simp
  | cons d ds ih =>
    have e1 : fuel + (d :: ds).length = (fuel + ds.length) + 1 := by simp; omega
    rw [e1]
    conv => lhs; simp only [ESrc.genLoop]
    simp only [ne_eq, not_true_eq_false, if_false, List.cons_append, reduceCtorEq]
    rw [addEvents_ok h d st _ rfl]
    simp only [hemp d (by simp), List.append_nil]
    rw [ih (i + 1) (fun x hx => hemp x (List.mem_cons_of_mem _ hx))]
    simp only [List.length_cons]
    rw [show i + (ds.length + 1) = i + 1 + ds.length from by omega]

/-- A day with events ends the loop. -/
theorem genLoop_hit {cfg : ECfg} {clock : Nat → Int} {offs : List (Int × γ)} {st : Int} (d : Int) (post : List Int)
    (s : ESrc γ) (h : EntryTimes cfg s.daily offs) (hs : s.start = some st) (hev : s.events = [])
    (hd : rawDay st s.endAt offs d ≠ []) (fuel i : Nat) :
    ESrc.genLoop cfg clock (fuel + 2) i { s with days := d :: post } =
      some ({ s with events := rawDay st s.endAt offs d, days := post }, .ok ()) := by
  obtain ⟨dl, ev, dys, sa, en, nd, hh⟩ := s
  simp only at h hs hev hd ⊢
  subst hs hev
  simp only [ESrc.genLoop, ne_eq, not_true_eq_false, if_false, reduceCtorEq]
  rw [addEvents_ok h d st _ rfl]
  simp [hd]

/-- Split a list of days at the first one with events. -/
theorem split_first (st : Int) (en : Option Int) (offs : List (Int × γ)) (ds : List Int) :
    (∀ d ∈ ds, rawDay st en offs d = []) ∨
    ∃ pre d post, ds = pre ++ d :: post ∧ (∀ x ∈ pre, rawDay st en offs x = []) ∧ rawDay st en offs d ≠ [] := by
  induction ds with
  | nil => left; simp
  | cons a as ih =>
    by_cases ha : rawDay st en offs a = []
    · rcases ih with h | ⟨pre, d, post, rfl, h1, h2⟩
      · left; intro d hd
        rcases List.mem_cons.1 hd with rfl | hd
        · exact ha
        · exact h d hd
      · right; refine ⟨a :: pre, d, post, rfl, ?_, h2⟩
        intro x hx
        rcases List.mem_cons.1 hx with rfl | hx
        · exact ha
        · exact h1 x hx
    · right; exact ⟨[], a, as, rfl, by simp, ha⟩

theorem eventsOf_empty {st : Int} {en : Option Int} {offs : List (Int × γ)} {ds : List Int}
    (h : ∀ d ∈ ds, rawDay st en offs d = []) : eventsOf st en offs ds = [] := by
  simp only [eventsOf, List.flatMap_eq_nil_iff]
  intro d hd
  simp [dayEvents, h d hd, sortBy]

theorem eventsOf_append (st : Int) (en : Option Int) (offs : List (Int × γ)) (a b : List Int) :
    eventsOf st en offs (a ++ b) = eventsOf st en offs a ++ eventsOf st en offs b := by
  simp [eventsOf]

theorem eventsOf_cons (st : Int) (en : Option Int) (offs : List (Int × γ)) (d : Int) (b : List Int) :
    eventsOf st en offs (d :: b) = dayEvents st en offs d ++ eventsOf st en offs b := by
  simp [eventsOf]

/-- What is left of the current window of a source. -/
def ESrc.rem (s : ESrc γ) (st : Int) (offs : List (Int × γ)) : List (Int × γ) :=
  s.events ++ eventsOf st s.endAt offs s.days

/-- The source has been reset for its present entries and start. -/
structure ESrc.Ok (cfg : ECfg) (s : ESrc γ) (st : Int) (offs : List (Int × γ)) : Prop where
  need : s.need = false
  start : s.start = some st
  entries : EntryTimes cfg s.daily offs

/-- The source after a step has the same parameters. -/
structure ESrc.Same (s s' : ESrc γ) : Prop where
  need : s'.need = s.need
  start : s'.start = s.start
  endAt : s'.endAt = s.endAt
  daily : s'.daily = s.daily
  hasHis : s'.hasHis = s.hasHis

theorem ESrc.Same.trans {a b c : ESrc γ} (h : a.Same b) (h' : b.Same c) : a.Same c :=
  ⟨h'.need.trans h.need, h'.start.trans h.start, h'.endAt.trans h.endAt, h'.daily.trans h.daily,
    h'.hasHis.trans h.hasHis⟩

theorem ESrc.Same.refl (a : ESrc γ) : a.Same a := ⟨rfl, rfl, rfl, rfl, rfl⟩

theorem ESrc.Ok.same {cfg : ECfg} {s s' : ESrc γ} {st : Int} {offs : List (Int × γ)} (h : s.Ok cfg st offs)
    (hs : s.Same s') : s'.Ok cfg st offs :=
  ⟨hs.need.trans h.need, hs.start.trans h.start, by rw [hs.daily]; exact h.entries⟩

theorem resetIfNeeded_noop {cfg : ECfg} {today : Int} {s : ESrc γ} (h : s.need = false) :
    s.resetIfNeeded cfg today = (s, .ok ()) := by simp [ESrc.resetIfNeeded, h]

/-- While the window has events, generating provides the first of them without losing any. -/
theorem genEvents_window {cfg : ECfg} {s : ESrc γ} {st : Int} {offs : List (Int × γ)} (h : s.Ok cfg st offs)
    (x : Int × γ) (xs : List (Int × γ)) (hrem : s.rem st offs = x :: xs) (clock : Nat → Int) (fuel : Nat)
    (hf : s.days.length + 1 ≤ fuel) :
    ∃ s' es, s.genEvents cfg clock fuel = some (s', .ok ()) ∧ s'.events = x :: es ∧ s'.rem st offs = x :: xs ∧
      s.Same s' ∧ s'.days.length ≤ s.days.length := by
  simp only [ESrc.genEvents, resetIfNeeded_noop h.need]
  cases hev : s.events with
  | cons y ys =>
    have : y = x := by
      simp only [ESrc.rem, hev, List.cons_append, List.cons.injEq] at hrem; exact hrem.1
    subst this
    exact ⟨s, ys, by simp, hev, hrem, .refl _, Nat.le_refl _⟩
  | nil =>
    simp only [ne_eq, not_true_eq_false, if_false]
    rcases split_first st s.endAt offs s.days with hall | ⟨pre, d, post, hds, hpre, hd⟩
    · rw [ESrc.rem, hev, eventsOf_empty hall] at hrem; simp at hrem
    · have hlen : s.days.length = pre.length + post.length + 1 := by rw [hds]; simp; omega
      have e0 : s = { s with days := pre ++ d :: post } := by rw [← hds]
      obtain ⟨k, rfl⟩ : ∃ k, fuel = (k + 2) + pre.length := ⟨fuel - 2 - pre.length, by omega⟩
      have hstep : ESrc.genLoop cfg clock ((k + 2) + pre.length) 0 s =
          some ({ s with events := rawDay st s.endAt offs d, days := post }, .ok ()) := by
        conv => lhs; rw [e0]
        rw [genLoop_skip pre s h.entries h.start hev hpre (d :: post),
          genLoop_hit d post s h.entries h.start hev hd]
      rw [hstep]
      simp only
      have hne : sortBy (·.1) (rawDay st s.endAt offs d) ≠ [] := fun e => hd ((sortBy_nil_iff _).1 e)
      have hr2 : dayEvents st s.endAt offs d ++ eventsOf st s.endAt offs post = x :: xs := by
        rw [ESrc.rem, hev, hds, eventsOf_append, eventsOf_empty hpre, eventsOf_cons] at hrem
        simpa using hrem
      cases hsd : dayEvents st s.endAt offs d with
      | nil => exact absurd hsd hne
      | cons y ys =>
        have hy : y = x := by rw [hsd] at hr2; simp at hr2; exact hr2.1
        subst hy
        refine ⟨_, ys, rfl, hsd, ?_, ⟨rfl, rfl, rfl, rfl, rfl⟩, ?_⟩
        · simp only [ESrc.rem]; exact hr2
        · simp only; omega

theorem getNext_window {cfg : ECfg} {s : ESrc γ} {st : Int} {offs : List (Int × γ)} (h : s.Ok cfg st offs)
    (x : Int × γ) (xs : List (Int × γ)) (hrem : s.rem st offs = x :: xs) (clock : Nat → Int) (fuel : Nat)
    (hf : s.days.length + 1 ≤ fuel) :
    ∃ s', s.getNext cfg clock fuel = some (s', .ok (some x)) ∧ s'.rem st offs = xs ∧
      s.Same s' ∧ s'.days.length ≤ s.days.length := by
  obtain ⟨s', es, h1, h2, h3, h4, h5⟩ := genEvents_window h x xs hrem clock fuel hf
  refine ⟨{ s' with events := s'.events.tail }, ?_, ?_, ⟨h4.need, h4.start, h4.endAt, h4.daily, h4.hasHis⟩, h5⟩
  · simp [ESrc.getNext, h1, h2]
  · simp only [ESrc.rem, h2, List.tail_cons] at h3 ⊢
    simpa using h3

/-- When the window is exhausted the loop reaches the point where new days are asked for. -/
theorem genLoop_exhausted {cfg : ECfg} {s : ESrc γ} {st : Int} {offs : List (Int × γ)} (h : s.Ok cfg st offs)
    (hrem : s.rem st offs = []) (clock : Nat → Int) (fuel : Nat) :
    s.events = [] ∧
    ESrc.genLoop cfg clock (fuel + s.days.length) 0 s = ESrc.genLoop cfg clock fuel s.days.length { s with days := [] } := by
  simp only [ESrc.rem, List.append_eq_nil_iff] at hrem
  refine ⟨hrem.1, ?_⟩
  have hall : ∀ d ∈ s.days, rawDay st s.endAt offs d = [] := by
    intro d hd
    have := hrem.2
    simp only [eventsOf, List.flatMap_eq_nil_iff] at this
    exact (sortBy_nil_iff _).1 (this d hd)
  have := genLoop_skip (clock := clock) s.days s h.entries h.start hrem.1 hall [] fuel 0
  simp only [List.append_nil, Nat.zero_add] at this
  exact this

/-- With an end date (or in history mode) an exhausted source stays exhausted. -/
theorem getNext_end {cfg : ECfg} {s : ESrc γ} {st : Int} {offs : List (Int × γ)} (h : s.Ok cfg st offs)
    (hh : (cfg.historyStart || s.endAt.isSome) = true) (hhis : s.hasHis = true)
    (hrem : s.rem st offs = []) (clock : Nat → Int) (fuel : Nat) (hf : s.days.length + 1 ≤ fuel) :
    ∃ s', s.getNext cfg clock fuel = some (s', .ok none) ∧ s'.rem st offs = [] ∧
      s.Same s' ∧ s'.days.length ≤ s.days.length := by
  obtain ⟨k, rfl⟩ : ∃ k, fuel = (k + 1) + s.days.length := ⟨fuel - 1 - s.days.length, by omega⟩
  obtain ⟨hev, hl⟩ := genLoop_exhausted h hrem clock (k + 1)
  have hstop : ESrc.genLoop cfg clock (k + 1) s.days.length { s with days := [] } = some ({ s with days := [] }, .ok ()) := by
    simp only [ESrc.genLoop, ESrc.getDays, hev, hh, hhis, ne_eq, not_true_eq_false, if_false, if_true]
  refine ⟨{ s with days := [], events := [] }, ?_, ?_, ⟨rfl, rfl, rfl, rfl, rfl⟩, by simp⟩
  · simp only [ESrc.getNext, ESrc.genEvents, resetIfNeeded_noop h.need, hl, hstop]
    simp [hev, sortBy]
  · simp [ESrc.rem, eventsOf]

/-- Successive calls inside the window deliver its events in order. -/
theorem getMany_window {cfg : ECfg} {s : ESrc γ} {st : Int} {offs : List (Int × γ)} (h : s.Ok cfg st offs)
    (clocks : Nat → Nat → Int) (fuel : Nat) (hf : s.days.length + 1 ≤ fuel) (n : Nat)
    (hn : n ≤ (s.rem st offs).length) :
    ∃ s', ESrc.getMany cfg fuel clocks n s = some (s', ((s.rem st offs).take n).map fun x => .ok (some x)) ∧
      s'.rem st offs = (s.rem st offs).drop n ∧ s.Same s' ∧ s'.days.length ≤ s.days.length := by
  induction n with
  | zero => exact ⟨s, by simp [ESrc.getMany], by simp, .refl _, Nat.le_refl _⟩
  | succ n ih =>
    obtain ⟨s1, h1, h2, h3, h4⟩ := ih (by omega)
    have hlt : n < (s.rem st offs).length := by omega
    obtain ⟨s2, g1, g2, g3, g4⟩ := getNext_window (h.same h3) ((s.rem st offs)[n]) ((s.rem st offs).drop (n + 1))
      (by rw [h2, List.drop_eq_getElem_cons hlt]) (clocks n) fuel (by omega)
    refine ⟨s2, ?_, g2, h3.trans g3, by omega⟩
    simp only [ESrc.getMany, h1, g1]
    rw [List.take_succ_eq_append_getElem hlt, List.map_append]
    rfl

/-- With an end date: the window's events, then nothing, for ever. -/
theorem getMany_end {cfg : ECfg} {s : ESrc γ} {st : Int} {offs : List (Int × γ)} (h : s.Ok cfg st offs)
    (hh : (cfg.historyStart || s.endAt.isSome) = true) (hhis : s.hasHis = true)
    (clocks : Nat → Nat → Int) (fuel : Nat) (hf : s.days.length + 1 ≤ fuel) (n : Nat) :
    ∃ s', ESrc.getMany cfg fuel clocks n s =
        some (s', (List.range n).map fun k => .ok ((s.rem st offs)[k]?)) ∧
      s'.rem st offs = (s.rem st offs).drop n ∧ s.Same s' ∧ s'.days.length ≤ s.days.length := by
  induction n with
  | zero => exact ⟨s, by simp [ESrc.getMany], by simp, .refl _, Nat.le_refl _⟩
  | succ n ih =>
    obtain ⟨s1, h1, h2, h3, h4⟩ := ih
    by_cases hlt : n < (s.rem st offs).length
    · obtain ⟨s2, g1, g2, g3, g4⟩ := getNext_window (h.same h3) ((s.rem st offs)[n]) ((s.rem st offs).drop (n + 1))
        (by rw [h2, List.drop_eq_getElem_cons hlt]) (clocks n) fuel (by omega)
      refine ⟨s2, ?_, g2, h3.trans g3, by omega⟩
      simp only [ESrc.getMany, h1, g1]
      rw [List.range_succ, List.map_append]
      simp [List.getElem?_eq_getElem hlt]
    · have hnil : s1.rem st offs = [] := by rw [h2]; exact List.drop_eq_nil_of_le (by omega)
      obtain ⟨s2, g1, g2, g3, g4⟩ := getNext_end (h.same h3) (by rw [h3.endAt]; exact hh)
        (h3.hasHis.trans hhis) hnil (clocks n) fuel (by omega)
      refine ⟨s2, ?_, ?_, h3.trans g3, by omega⟩
      · simp only [ESrc.getMany, h1, g1]
        rw [List.range_succ, List.map_append]
        simp [List.getElem?_eq_none (Nat.not_lt.1 hlt)]
      · rw [g2, List.drop_eq_nil_of_le (by omega)]

theorem dayRange_length (a : Int) (n : Int) : (dayRange a n).length = n.toNat := by simp [dayRange]

theorem foldl_addDaily (entries : List (Str × γ)) (s : ESrc γ) :
    entries.foldl (fun s e => s.addDaily e.1 e.2) s =
      { s with daily := s.daily ++ entries, need := s.need || !entries.isEmpty } := by
  induction entries generalizing s with
  | nil => cases s; simp
  | cons e es ih =>
    rw [List.foldl_cons, ih]
    simp [ESrc.addDaily]

end Jq
