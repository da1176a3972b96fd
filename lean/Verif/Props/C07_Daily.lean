import Verif.Lemmas.EventSource
/-!
# C07, C08, C15: the events an event source delivers
-/
namespace Jq
variable {γ : Type}

/-- The reset source of the strategy with an end date. -/
theorem build_end {cfg : ECfg} {start : Option Int} {endT now : Int} {entries : List (Str × γ)}
    {offs : List (Int × γ)} (h : EntryTimes cfg entries offs) (clock : Int) :
    ∃ s s', ESrc.build cfg start (some endT) now entries = (s, .ok ()) ∧ s.resetIfNeeded cfg clock = (s', .ok ()) ∧
      s'.Ok cfg (effectiveStart cfg start now) offs ∧ s'.endAt = some endT ∧ s'.hasHis = true ∧ s'.events = [] ∧
      s'.days = daysFromTo (effectiveStart cfg start now / dayUs) (endT / dayUs) := by
  have key : ∀ st, st = effectiveStart cfg start now →
      ESrc.setup cfg now ({ start := start, endAt := some endT } : ESrc γ) =
        ({ days := daysFromTo (st / dayUs) (endT / dayUs), start := some st, endAt := some endT, need := false,
           hasHis := true }, .ok ()) := by
    intro st hst
    cases start with
    | none => subst hst; simp [ESrc.setup, ESrc.resetIfNeeded, ESrc.getDays, dayRange, daysFromTo]
    | some a =>
      cases hc : cfg.historyStart <;> subst hst <;>
        simp [ESrc.setup, ESrc.resetIfNeeded, ESrc.getDays, effectiveStart, dayRange, daysFromTo, hc]
  have hb : ESrc.build cfg start (some endT) now entries =
      ({ daily := entries, days := daysFromTo (effectiveStart cfg start now / dayUs) (endT / dayUs),
         start := some (effectiveStart cfg start now), endAt := some endT, need := !entries.isEmpty,
         hasHis := true }, .ok ()) := by
    simp only [ESrc.build, key _ rfl, foldl_addDaily]
    simp
  refine ⟨_, ⟨entries, [], daysFromTo (effectiveStart cfg start now / dayUs) (endT / dayUs),
    some (effectiveStart cfg start now), some endT, false, true⟩, hb, ?_, ⟨rfl, rfl, h⟩, rfl, rfl, rfl, rfl⟩
  cases entries with
  | nil => simp [ESrc.resetIfNeeded]
  | cons e es => simp [ESrc.resetIfNeeded, ESrc.getDays, dayRange, daysFromTo]

theorem getMany_reset {cfg : ECfg} {fuel : Nat} {clocks : Nat → Nat → Int} {s s' : ESrc γ}
    (h : s.resetIfNeeded cfg (clocks 0 0) = (s', .ok ())) (hn : s'.need = false) (n : Nat) (hpos : 0 < n) :
    ESrc.getMany cfg fuel clocks n s = ESrc.getMany cfg fuel clocks n s' := by
  have h1 : ESrc.getMany cfg fuel clocks 1 s = ESrc.getMany cfg fuel clocks 1 s' := by
    simp only [ESrc.getMany, ESrc.getNext, ESrc.genEvents, h, resetIfNeeded_noop hn]
  obtain ⟨m, rfl⟩ : ∃ m, n = m + 1 := ⟨n - 1, by omega⟩
  clear hpos
  induction m with
  | zero => exact h1
  | succ m ih => rw [ESrc.getMany, ih]; rfl

/-- C07.  A source made by the strategy (`build`: setup at `now`, then the entries) with an end date and
valid entries, polled any number of times whatever the clock shows, delivers exactly: for each calendar
day from the start date to the end date, in order, that day's events (`dayEvents`); and then nothing for
ever.  No call hangs or raises. -/
theorem c07_daily_with_end (cfg : ECfg) (start : Option Int) (endT now : Int) (entries : List (Str × γ))
    (offs : List (Int × γ)) (h : EntryTimes cfg entries offs) (clocks : Nat → Nat → Int) (n fuel : Nat)
    (hf : (endT / dayUs - effectiveStart cfg start now / dayUs + 1).toNat + 1 ≤ fuel) :
    ∃ s s', ESrc.build cfg start (some endT) now entries = (s, .ok ()) ∧
      s.getMany cfg fuel clocks n = some (s', (List.range n).map fun k => .ok
        ((eventsOf (effectiveStart cfg start now) (some endT) offs
          (daysFromTo (effectiveStart cfg start now / dayUs) (endT / dayUs)))[k]?)) := by
  obtain ⟨s, s1, h1, h2, h3, h4, h5, h6, h7⟩ := build_end (start := start) (endT := endT) (now := now) h (clocks 0 0)
  cases n with
  | zero => exact ⟨s, s, h1, rfl⟩
  | succ n =>
    obtain ⟨s2, g1, _⟩ := getMany_end h3 (by rw [h4]; simp) h5 clocks fuel
      (by rw [h7]; simp [daysFromTo]; exact hf) (n + 1)
    refine ⟨s, s2, h1, ?_⟩
    rw [getMany_reset h2 h3.need (n + 1) (by omega), g1]
    simp [ESrc.rem, h4, h6, h7]

/-- An entry added while the source is being polled: whatever was delivered before, the source starts over and
delivers all events of all entries, old and new, from the start date on (so those already delivered come again). -/
theorem c07_added_entry_starts_over (cfg : ECfg) (start : Option Int) (endT now : Int) (entries : List (Str × γ))
    (offs : List (Int × γ)) (h : EntryTimes cfg entries offs) (expr : Str) (c : γ) (o : Int)
    (hnew : entryTime cfg.periods 0 expr = .ok o) (clocks clocks' : Nat → Nat → Int) (k n fuel : Nat)
    (hf : (endT / dayUs - effectiveStart cfg start now / dayUs + 1).toNat + 1 ≤ fuel) :
    ∃ s s1 out s2, ESrc.build cfg start (some endT) now entries = (s, .ok ()) ∧
      s.getMany cfg fuel clocks k = some (s1, out) ∧
      (s1.addDaily expr c).getMany cfg fuel clocks' n = some (s2, (List.range n).map fun k => .ok
        ((eventsOf (effectiveStart cfg start now) (some endT) (offs ++ [(o, c)])
          (daysFromTo (effectiveStart cfg start now / dayUs) (endT / dayUs)))[k]?)) := by
  have hfin : ∀ s1 : ESrc γ, s1.daily = entries → s1.start = some (effectiveStart cfg start now) → s1.endAt = some endT →
      ∃ s2, (s1.addDaily expr c).getMany cfg fuel clocks' n = some (s2, (List.range n).map fun k => .ok
        ((eventsOf (effectiveStart cfg start now) (some endT) (offs ++ [(o, c)])
          (daysFromTo (effectiveStart cfg start now / dayUs) (endT / dayUs)))[k]?)) := by
    intro s1 hd hs he
    cases n with
    | zero => exact ⟨_, rfl⟩
    | succ n =>
      have hr : (s1.addDaily expr c).resetIfNeeded cfg (clocks' 0 0) =
          (⟨entries ++ [(expr, c)], [], daysFromTo (effectiveStart cfg start now / dayUs) (endT / dayUs),
            some (effectiveStart cfg start now), some endT, false, true⟩, .ok ()) := by
        simp [ESrc.addDaily, ESrc.resetIfNeeded, ESrc.getDays, hd, hs, he, dayRange, daysFromTo]
      have hok : (⟨entries ++ [(expr, c)], [], daysFromTo (effectiveStart cfg start now / dayUs) (endT / dayUs),
            some (effectiveStart cfg start now), some endT, false, true⟩ : ESrc γ).Ok cfg (effectiveStart cfg start now)
              (offs ++ [(o, c)]) :=
        ⟨rfl, rfl, by simp only [EntryTimes, List.map_append, List.map_cons, List.map_nil, hnew] at h ⊢; rw [h]⟩
      obtain ⟨s2, g1, _⟩ := getMany_end hok (by simp) rfl clocks' fuel (by simpa [daysFromTo] using hf) (n + 1)
      refine ⟨s2, ?_⟩
      rw [getMany_reset hr rfl (n + 1) (by omega), g1]
      simp [ESrc.rem]
  obtain ⟨s, s1, h1, h2, h3, h4, h5, h6, h7⟩ := build_end (start := start) (endT := endT) (now := now) h (clocks 0 0)
  have hds : s.daily = entries ∧ s.start = some (effectiveStart cfg start now) ∧ s.endAt = some endT ∧
      s1.daily = entries := by
    have hd : s.daily = entries := by
      have e : s = (ESrc.build cfg start (some endT) now entries).1 := by rw [h1]
      simp only [ESrc.build] at h1
      cases hsu : ESrc.setup cfg now ({ start := start, endAt := some endT } : ESrc γ) with
      | mk s0 r =>
        rw [hsu] at h1
        cases r with
        | error e => simp at h1
        | ok u =>
          have h0 : s0.daily = [] := by
            have : s0 = (ESrc.setup cfg now ({ start := start, endAt := some endT } : ESrc γ)).1 := by rw [hsu]
            subst this
            simp only [ESrc.setup, ESrc.resetIfNeeded, ESrc.getDays]
            cases start <;> cases cfg.historyStart <;> simp
          simp only [foldl_addDaily, Prod.mk.injEq] at h1
          rw [← h1.1]; simp [h0]
    have hr : s1.daily = s.daily ∧ s1.start = s.start ∧ s1.endAt = s.endAt := by
      have : s1 = (s.resetIfNeeded cfg (clocks 0 0)).1 := by rw [h2]
      subst this
      simp only [ESrc.resetIfNeeded, ESrc.getDays]
      split
      · simp
      · split
        · rename_i hx; revert hx; split <;> (try split) <;> (try split) <;> intro hx <;> simp at hx <;> (try (obtain ⟨rfl, _⟩ := hx)) <;> simp
        · rename_i hx; revert hx; split <;> (try split) <;> (try split) <;> intro hx <;> simp at hx <;> (try (obtain ⟨rfl, _⟩ := hx)) <;> simp
    exact ⟨hd, hr.2.1.symm.trans h3.start, hr.2.2.symm.trans h4, hr.1.trans hd⟩
  cases k with
  | zero =>
    obtain ⟨s2, g⟩ := hfin s hds.1 hds.2.1 hds.2.2.1
    exact ⟨s, s, [], s2, h1, rfl, g⟩
  | succ k =>
    obtain ⟨s2, g1, _, g3, _⟩ := getMany_end h3 (by rw [h4]; simp) h5 clocks fuel
      (by rw [h7]; simp [daysFromTo]; exact hf) (k + 1)
    obtain ⟨s3, g⟩ := hfin s2 (g3.daily.trans hds.2.2.2) (g3.start.trans h3.start) (g3.endAt.trans h4)
    exact ⟨s, s2, _, s3, h1, by rw [getMany_reset h2 h3.need (k + 1) (by omega), g1], g⟩

/-- Non-vacuity: 09:30 was delivered, then 09:31 is added: 09:30 comes again. -/
example : (do
    let (s, _) ← ESrc.getMany ⟨true, 365, []⟩ 5 (fun _ _ => 0) 1 (ESrc.build (γ := Int) ⟨true, 365, []⟩ (some 0) (some 86399000000) 0 [(c!"09:30", 0)]).1
    let (_, out) ← ESrc.getMany ⟨true, 365, []⟩ 5 (fun _ _ => 0) 3 (s.addDaily c!"09:31" 1)
    some out) = some [.ok (some (34200000000, 0)), .ok (some (34260000000, 1)), .ok none] := by decide +kernel

/-- What `dayEvents` says: exactly the configured entries of that day that lie between start and end, each
once (as a multiset), in order of time, and for one time in the order in which they were added. -/
theorem c07_day_events_meaning (st : Int) (en : Option Int) (offs : List (Int × γ)) (d : Int) :
    (dayEvents st en offs d).Perm
      ((offs.map fun o => (d * dayUs + o.1, o.2)).filter fun e => decide (st ≤ e.1) && en.all fun x => decide (e.1 ≤ x)) ∧
    (dayEvents st en offs d).Pairwise (fun a b => a.1 ≤ b.1) ∧
    ∀ t, (dayEvents st en offs d).filter (fun e => decide (e.1 = t)) =
      ((offs.map fun o => (d * dayUs + o.1, o.2)).filter fun e =>
        decide (st ≤ e.1) && en.all fun x => decide (e.1 ≤ x)).filter (fun e => decide (e.1 = t)) :=
  ⟨sortBy_perm _ _, sortBy_sorted _ _, fun t => sortBy_stable (fun e : Int × γ => e.1) t _⟩

theorem dayEvents_mem {st : Int} {en : Option Int} {offs : List (Int × γ)} {d : Int} {e : Int × γ}
    (h : e ∈ dayEvents st en offs d) : ∃ o ∈ offs, e = (d * dayUs + o.1, o.2) := by
  rw [dayEvents, mem_sortBy, rawDay, List.mem_filter, List.mem_map] at h
  obtain ⟨⟨o, ho, rfl⟩, _⟩ := h
  exact ⟨o, ho, rfl⟩

/-- The events of increasing days are in order of time when the times of day of the entries lie within one day of each
other. -/
theorem eventsOf_sorted {st : Int} {en : Option Int} {offs : List (Int × γ)}
    (hspan : ∀ o ∈ offs, ∀ o' ∈ offs, o.1 ≤ o'.1 + dayUs) {ds : List Int} (hp : ds.Pairwise (· < ·)) :
    (eventsOf st en offs ds).Pairwise (fun x y => x.1 ≤ y.1) := by
  induction ds with
  | nil => simp [eventsOf]
  | cons d ds ih =>
    rw [List.pairwise_cons] at hp
    rw [eventsOf_cons, List.pairwise_append]
    refine ⟨sortBy_sorted _ _, ih hp.2, ?_⟩
    intro x hx y hy
    obtain ⟨o, ho, rfl⟩ := dayEvents_mem hx
    simp only [eventsOf, List.mem_flatMap] at hy
    obtain ⟨d', hd', hy⟩ := hy
    obtain ⟨o', ho', rfl⟩ := dayEvents_mem hy
    have hlt := hp.1 d' hd'
    have hs := hspan o ho o' ho'
    have hmul : (d + 1) * dayUs ≤ d' * dayUs := Int.mul_le_mul_of_nonneg_right (by omega) (by decide)
    rw [Int.add_mul] at hmul
    simp only
    omega

theorem daysFromTo_increasing (a b : Int) : (daysFromTo a b).Pairwise (· < ·) := by
  rw [daysFromTo, List.pairwise_map]
  exact List.pairwise_lt_range.imp (fun h => by omega)

/-- The whole sequence is in order of time when the times of day of the entries lie within one day of each
other (always so for a single entry and for clock times): the hypothesis on sources in C05. -/
theorem c07_events_in_order (st : Int) (en : Option Int) (offs : List (Int × γ)) (a b : Int)
    (hspan : ∀ o ∈ offs, ∀ o' ∈ offs, o.1 ≤ o'.1 + dayUs) :
    (eventsOf st en offs (daysFromTo a b)).Pairwise (fun x y => x.1 ≤ y.1) :=
  eventsOf_sorted hspan (daysFromTo_increasing a b)

/-- An ordinary `run_daily` task (one entry at offset `o`): one event per calendar day, at the configured
time of that day, restricted to start and end, and no others. -/
theorem c07_single_task (st : Int) (en : Option Int) (o : Int) (c : γ) (a b : Int) :
    eventsOf st en [(o, c)] (daysFromTo a b) =
      ((daysFromTo a b).map fun d => (d * dayUs + o, c)).filter
        fun e => decide (st ≤ e.1) && en.all fun x => decide (e.1 ≤ x) := by
  induction daysFromTo a b with
  | nil => rfl
  | cons d ds ih =>
    rw [eventsOf_cons, ih, List.map_cons, List.filter_cons]
    simp only [dayEvents, rawDay, List.map_cons, List.map_nil, List.filter_cons, List.filter_nil]
    split <;> simp [sortBy, insertBy]

theorem daysFromTo_mem {a b d : Int} : d ∈ daysFromTo a b ↔ a ≤ d ∧ d ≤ b := by
  simp only [daysFromTo, List.mem_map, List.mem_range]
  constructor
  · rintro ⟨k, hk, rfl⟩; omega
  · rintro ⟨h1, h2⟩; exact ⟨(d - a).toNat, by omega, by omega⟩

/-- Non-vacuity: a source with a market-relative and a clock entry, ending after three days. -/
example : EntryTimes ⟨true, 365, [(34200 * secUs, 54000 * secUs)]⟩
    [(c!"close-5m", 'a'), (c!"09:30:00", 'b'), (c!"open", 'c')]
    [(53700 * secUs, 'a'), (34200 * secUs, 'b'), (34200 * secUs, 'c')] := by
  simp only [EntryTimes]; decide
example : eventsOf (40000 * secUs) (some (2 * dayUs + 40000 * secUs))
    [(53700 * secUs, 'a'), (34200 * secUs, 'b'), (34200 * secUs, 'c')]
    (daysFromTo ((40000 * secUs) / dayUs) ((2 * dayUs + 40000 * secUs) / dayUs)) =
    [(53700 * secUs, 'a'), (dayUs + 34200 * secUs, 'b'), (dayUs + 34200 * secUs, 'c'), (dayUs + 53700 * secUs, 'a'),
     (2 * dayUs + 34200 * secUs, 'b'), (2 * dayUs + 34200 * secUs, 'c')] := by decide

/-! ## Live mode -/

/-- Live mode: no end date, history start off (the only mode reachable from `start_task`). -/
def LiveCfg (cfg : ECfg) : Prop := cfg.historyStart = false ∧ 1 ≤ cfg.count

theorem build_live {cfg : ECfg} (hl : LiveCfg cfg) {start : Option Int} {now : Int}
    {entries : List (Str × γ)} (hne : entries ≠ []) {offs : List (Int × γ)} (h : EntryTimes cfg entries offs) (today : Int) :
    ∃ s s', ESrc.build cfg start none now entries = (s, .ok ()) ∧ s.resetIfNeeded cfg today = (s', .ok ()) ∧
      s'.Ok cfg now offs ∧ s'.endAt = none ∧ s'.events = [] ∧ s'.days = daysFromTo today (today + cfg.count - 1) := by
  have hb : ESrc.build cfg start none now entries =
      ({ daily := entries, days := dayRange (now / dayUs) cfg.count,
         start := some now, endAt := none, need := true, hasHis := true }, .ok ()) := by
    simp only [ESrc.build, ESrc.setup, ESrc.resetIfNeeded, ESrc.getDays, hl.1]
    simp [foldl_addDaily, hne]
  refine ⟨_, ⟨entries, [], dayRange today cfg.count, some now, none, false, true⟩, hb, ?_, ⟨rfl, rfl, h⟩, rfl, rfl, ?_⟩
  · simp [ESrc.resetIfNeeded, ESrc.getDays, hl.1]
  · simp only [dayRange, daysFromTo]
    congr 2
    omega

/-- Live mode, exhausted window: generating continues with a window starting at the date it reads. -/
theorem genEvents_live {cfg : ECfg} (hl : LiveCfg cfg) {s : ESrc γ} {st : Int} {offs : List (Int × γ)} (h : s.Ok cfg st offs)
    (hend : s.endAt = none) (hrem : s.rem st offs = []) (clock : Nat → Int) (x : Int × γ) (xs : List (Int × γ))
    (hx : eventsOf st none offs (daysFromTo (clock s.days.length) (clock s.days.length + cfg.count - 1)) = x :: xs)
    (fuel : Nat) (hf : s.days.length + cfg.count + 2 ≤ fuel) :
    ∃ s' es, s.genEvents cfg clock fuel = some (s', .ok ()) ∧ s'.events = x :: es ∧ s'.rem st offs = x :: xs ∧
      s'.Ok cfg st offs ∧ s'.endAt = none ∧ s'.days.length ≤ cfg.count := by
  have hw : dayRange (clock s.days.length) cfg.count =
      daysFromTo (clock s.days.length) (clock s.days.length + cfg.count - 1) := by
    simp only [dayRange, daysFromTo]; congr 2; omega
  generalize hm : s.days.length = m at *
  obtain ⟨k, rfl⟩ : ∃ k, fuel = (k + 1) + m := ⟨fuel - 1 - m, by omega⟩
  obtain ⟨hev, hlp⟩ := genLoop_exhausted h hrem clock (k + 1)
  rw [hm] at hlp
  rcases split_first st none offs (daysFromTo (clock m) (clock m + cfg.count - 1)) with
    hall | ⟨pre, d, post, hds, hpre, hd⟩
  · rw [eventsOf_empty hall] at hx; cases hx
  · have hlen : cfg.count = pre.length + post.length + 1 := by
      have := congrArg List.length hds
      simp [daysFromTo] at this
      omega
    have hgen : ESrc.genLoop cfg clock (k + 1) m { s with days := [] } =
        some ({ s with hasHis := true, events := rawDay st none offs d, days := post }, .ok ()) := by
      have hne : dayRange (clock m) cfg.count = pre ++ d :: post := by rw [hw, hds]
      cases pre with
      | nil =>
        obtain ⟨k', rfl⟩ : ∃ k', k = k' + 1 := ⟨k - 1, by simp at hlen; omega⟩
        have := genLoop_hit (cfg := cfg) (clock := clock) (st := st) (offs := offs) d post
          { s with hasHis := true } h.entries h.start hev (by rw [hend]; exact hd) k' m
        rw [← hend, ← this]
        conv => lhs; rw [ESrc.genLoop]
        conv => rhs; rw [ESrc.genLoop]
        simp [hev, ESrc.getDays, hl.1, hend, hne]
      | cons p ps =>
        simp only [List.length_cons] at hlen
        obtain ⟨k', rfl⟩ : ∃ k', k = k' + 1 + (p :: ps).length := ⟨k - 1 - (p :: ps).length, by simp; omega⟩
        have h1 := genLoop_skip (cfg := cfg) (clock := clock) (st := st) (offs := offs) (p :: ps)
          { s with hasHis := true } h.entries h.start hev (by rw [hend]; exact hpre) (d :: post) (k' + 2) m
        have h2 := genLoop_hit (cfg := cfg) (clock := clock) (st := st) (offs := offs) d post
          { s with hasHis := true } h.entries h.start hev (by rw [hend]; exact hd) k' (m + (p :: ps).length)
        rw [h2] at h1
        rw [← hend, ← h1, show k' + 1 + (p :: ps).length + 1 = (k' + 1 + ps.length + 1) + 1 from by simp; omega,
          show k' + 2 + (p :: ps).length = (k' + 1 + ps.length + 1) + 1 from by simp; omega]
        conv => lhs; rw [ESrc.genLoop]
        conv => rhs; rw [ESrc.genLoop]
        simp [hev, ESrc.getDays, hl.1, hend, hne]
    have hsne : dayEvents st none offs d ≠ [] := fun e => hd ((sortBy_nil_iff _).1 e)
    have hx2 : dayEvents st none offs d ++ eventsOf st none offs post = x :: xs := by
      rw [hds, eventsOf_append, eventsOf_empty hpre, eventsOf_cons] at hx
      simpa using hx
    cases hsd : dayEvents st none offs d with
    | nil => exact absurd hsd hsne
    | cons y ys =>
      rw [hsd] at hx2
      simp only [List.cons_append, List.cons.injEq] at hx2
      refine ⟨{ s with hasHis := true, events := y :: ys, days := post }, ys, ?_, by rw [hx2.1], ?_,
        ⟨h.need, h.start, h.entries⟩, hend, by simp only; omega⟩
      · simp only [ESrc.genEvents, resetIfNeeded_noop h.need, hlp, hgen]
        have : sortBy (fun x : Int × γ => x.1) (rawDay st none offs d) = y :: ys := hsd
        simp [hev, this]
      · simp only [ESrc.rem, hend, List.cons_append]; rw [hx2.1, hx2.2]

/-- Live mode, exhausted window: the next call continues with a window starting at the date it reads. -/
theorem getNext_live {cfg : ECfg} (hl : LiveCfg cfg) {s : ESrc γ} {st : Int} {offs : List (Int × γ)} (h : s.Ok cfg st offs)
    (hend : s.endAt = none) (hrem : s.rem st offs = []) (clock : Nat → Int) (x : Int × γ) (xs : List (Int × γ))
    (hx : eventsOf st none offs (daysFromTo (clock s.days.length) (clock s.days.length + cfg.count - 1)) = x :: xs)
    (fuel : Nat) (hf : s.days.length + cfg.count + 2 ≤ fuel) :
    ∃ s', s.getNext cfg clock fuel = some (s', .ok (some x)) ∧ s'.rem st offs = xs ∧
      s'.Ok cfg st offs ∧ s'.endAt = none ∧ s'.days.length ≤ cfg.count := by
  obtain ⟨s', es, h1, h2, h3, h4, h5, h6⟩ := genEvents_live hl h hend hrem clock x xs hx fuel hf
  refine ⟨{ s' with events := s'.events.tail }, ?_, ?_, ⟨h4.need, h4.start, h4.entries⟩, h5, h6⟩
  · simp [ESrc.getNext, h1, h2]
  · simp only [ESrc.rem, h2, List.tail_cons] at h3 ⊢
    simpa using h3

/-- The same for the peek that precedes the push of a message. -/
theorem peek_live {cfg : ECfg} (hl : LiveCfg cfg) {s : ESrc γ} {st : Int} {offs : List (Int × γ)} (h : s.Ok cfg st offs)
    (hend : s.endAt = none) (hrem : s.rem st offs = []) (clock : Nat → Int) (x : Int × γ) (xs : List (Int × γ))
    (hx : eventsOf st none offs (daysFromTo (clock s.days.length) (clock s.days.length + cfg.count - 1)) = x :: xs)
    (fuel : Nat) (hf : s.days.length + cfg.count + 2 ≤ fuel) :
    ∃ s', s.peek cfg clock fuel = some (s', .ok (some x)) ∧ s'.rem st offs = x :: xs ∧
      s'.Ok cfg st offs ∧ s'.endAt = none ∧ s'.days.length ≤ cfg.count := by
  obtain ⟨s', es, h1, h2, h3, h4, h5, h6⟩ := genEvents_live hl h hend hrem clock x xs hx fuel hf
  exact ⟨s', by simp [ESrc.peek, h1, h2], h3, h4, h5, h6⟩

/-- C08, first window: in live mode the calls deliver exactly the events of the `count` (365) days from the
date of the first call, once each, in order.  Missing for the full statement: what happens after the
window (see `c08_last_day_repeats_refuted`). -/
theorem c08_first_window_partial (cfg : ECfg) (hl : LiveCfg cfg) (start : Option Int) (now : Int)
    (entries : List (Str × γ)) (hne : entries ≠ []) (offs : List (Int × γ)) (h : EntryTimes cfg entries offs)
    (clocks : Nat → Nat → Int) (today : Int) (ht : clocks 0 0 = today) (fuel : Nat) (hf : cfg.count + 1 ≤ fuel) (n : Nat)
    (hn : n ≤ (eventsOf now none offs (daysFromTo today (today + cfg.count - 1))).length) :
    ∃ s s', ESrc.build cfg start none now entries = (s, .ok ()) ∧
      s.getMany cfg fuel clocks n = some (s',
        ((eventsOf now none offs (daysFromTo today (today + cfg.count - 1))).take n).map fun e => .ok (some e)) := by
  obtain ⟨s, s1, h1, h2, h3, h4, h5, h6⟩ := build_live hl (start := start) hne h today
  have hrem : s1.rem now offs = eventsOf now none offs (daysFromTo today (today + cfg.count - 1)) := by
    simp [ESrc.rem, h4, h5, h6]
  obtain ⟨s2, g1, _⟩ := getMany_window h3 clocks fuel (by rw [h6]; simp [daysFromTo]; omega) n (by rw [hrem]; exact hn)
  cases n with
  | zero => exact ⟨s, s, h1, rfl⟩
  | succ n =>
    refine ⟨s, s2, h1, ?_⟩
    rw [getMany_reset (by rw [ht]; exact h2) h3.need (n + 1) (by omega), g1, hrem]

/-- The code violates C08: when the window of `count` days is used up on its last day (as it is when the
last event of that day has fired on that day), the next event delivered is the first event of that same
day again.  So a task fires twice on every last day of a window. -/
theorem c08_last_day_repeats_refuted (cfg : ECfg) (hl : LiveCfg cfg) (start : Option Int) (now : Int)
    (entries : List (Str × γ)) (hne : entries ≠ []) (offs : List (Int × γ)) (h : EntryTimes cfg entries offs)
    (clocks : Nat → Nat → Int) (today last : Int) (ht : clocks 0 0 = today) (hlast : last = today + cfg.count - 1)
    (window : List (Int × γ)) (hw : window = eventsOf now none offs (daysFromTo today last))
    (hclock : ∀ i, clocks window.length i = last)
    (e : Int × γ) (es : List (Int × γ)) (he : dayEvents now none offs last = e :: es)
    (fuel : Nat) (hf : 2 * cfg.count + 2 ≤ fuel) :
    e ∈ window ∧ ∃ s s', ESrc.build cfg start none now entries = (s, .ok ()) ∧
      s.getMany cfg fuel clocks (window.length + 1) =
        some (s', (window.map fun x => .ok (some x)) ++ [.ok (some e)]) := by
  obtain ⟨s, s1, h1, h2, h3, h4, h5, h6⟩ := build_live hl (start := start) hne h today
  have hrem : s1.rem now offs = window := by
    rw [hw, hlast]; simp [ESrc.rem, h4, h5, h6]
  refine ⟨?_, ?_⟩
  · rw [hw]
    simp only [eventsOf, List.mem_flatMap]
    exact ⟨last, daysFromTo_mem.2 (by have := hl.2; omega), by rw [he]; simp⟩
  obtain ⟨s2, g1, g2, g3, g4⟩ := getMany_window h3 clocks fuel (by rw [h6]; simp [daysFromTo]; omega) window.length
    (by rw [hrem]; exact Nat.le_refl _)
  have hs2 : s2.rem now offs = [] := by rw [g2, hrem]; simp
  have hev : ∃ xs, eventsOf now none offs (daysFromTo last (last + cfg.count - 1)) = e :: xs := by
    have : daysFromTo last (last + cfg.count - 1) = last :: daysFromTo (last + 1) (last + cfg.count - 1) := by
      simp only [daysFromTo]
      have hc := hl.2
      rw [show (last + (cfg.count : Int) - 1 - last + 1).toNat = (last + (cfg.count : Int) - 1 - (last + 1) + 1).toNat + 1 from by omega,
        List.range_succ_eq_map, List.map_cons, List.map_map]
      simp only [List.cons.injEq]
      refine ⟨by simp, List.map_congr_left fun k _ => ?_⟩
      simp only [Function.comp]; omega
    rw [this, eventsOf_cons, he]
    exact ⟨_, rfl⟩
  obtain ⟨xs, hev⟩ := hev
  have hlen : s1.days.length = cfg.count := by rw [h6]; simp [daysFromTo]; omega
  obtain ⟨s3, k1, _⟩ := getNext_live hl (h3.same g3) (g3.endAt.trans h4) hs2 (clocks window.length) e xs
    (by rw [hclock]; exact hev) fuel (by omega)
  refine ⟨s, s3, h1, ?_⟩
  rw [getMany_reset (by rw [ht]; exact h2) h3.need _ (by omega)]
  simp only [ESrc.getMany]
  rw [hrem, List.take_length] at g1
  rw [g1]
  simp only [k1]

/-- The events of the window of `cfg.count` days that begins on day `w`. -/
def windowEvents (cfg : ECfg) (st : Int) (offs : List (Int × γ)) (w : Int) : List (Int × γ) :=
  eventsOf st none offs (daysFromTo w (w + cfg.count - 1))

/-- The events of the first `J` of a sequence of windows. -/
def windowsUpTo (cfg : ECfg) (st : Int) (offs : List (Int × γ)) (ws : Nat → Int) (J : Nat) : List (Int × γ) :=
  (List.range J).flatMap fun j => windowEvents cfg st offs (ws j)

private theorem windowsUpTo_succ (cfg : ECfg) (st : Int) (offs : List (Int × γ)) (ws : Nat → Int) (J : Nat) :
    windowsUpTo cfg st offs ws (J + 1) = windowsUpTo cfg st offs ws J ++ windowEvents cfg st offs (ws J) := by
  simp [windowsUpTo, List.range_succ]

/-- C08, the whole life of a live source: every call delivers an event, and the events delivered are those
of a sequence of windows, one after the other; the first window begins on the date of the first call and
each later window on the date shown by the clock when the previous one was used up.  (`ws j` names the
beginning of window `j`; the clock is assumed to show one date during a call.)  Missing for the full
statement: windows join up without overlap only if the clock has moved to the next day. -/
theorem c08_live_windows_partial (cfg : ECfg) (hl : LiveCfg cfg) (start : Option Int) (now : Int)
    (entries : List (Str × γ)) (hne : entries ≠ []) (offs : List (Int × γ)) (h : EntryTimes cfg entries offs)
    (clocks : Nat → Nat → Int) (ws : Nat → Int) (hw0 : clocks 0 0 = ws 0)
    (hws : ∀ j i, clocks (windowsUpTo cfg now offs ws (j + 1)).length i = ws (j + 1))
    (hev : ∀ j, windowEvents cfg now offs (ws j) ≠ [])
    (fuel : Nat) (hf : 2 * cfg.count + 2 ≤ fuel) (m : Nat) :
    ∃ s s' J, ESrc.build cfg start none now entries = (s, .ok ()) ∧
      m ≤ (windowsUpTo cfg now offs ws J).length ∧
      s.getMany cfg fuel clocks m = some (s', ((windowsUpTo cfg now offs ws J).take m).map fun e => .ok (some e)) := by
  obtain ⟨s, s1, h1, h2, h3, h4, h5, h6⟩ := build_live hl (start := start) hne h (ws 0)
  have inv : ∀ m, ∃ s' j, s1.getMany cfg fuel clocks m =
        some (s', ((windowsUpTo cfg now offs ws (j + 1)).take m).map fun e => .ok (some e)) ∧
      m ≤ (windowsUpTo cfg now offs ws (j + 1)).length ∧ s'.rem now offs = (windowsUpTo cfg now offs ws (j + 1)).drop m ∧
      s'.Ok cfg now offs ∧ s'.endAt = none ∧ s'.days.length ≤ cfg.count := by
    intro m
    induction m with
    | zero =>
      refine ⟨s1, 0, by simp [ESrc.getMany], by simp, ?_, h3, h4, by rw [h6]; simp [daysFromTo]; omega⟩
      rw [windowsUpTo_succ]
      simp [ESrc.rem, h4, h5, h6, windowsUpTo, windowEvents]
    | succ m ih =>
      obtain ⟨s2, j, g1, g2, g3, g4, g5, g6⟩ := ih
      by_cases hlt : m < (windowsUpTo cfg now offs ws (j + 1)).length
      · obtain ⟨s3, k1, k2, k3, k4⟩ := getNext_window g4 ((windowsUpTo cfg now offs ws (j + 1))[m])
          ((windowsUpTo cfg now offs ws (j + 1)).drop (m + 1)) (by rw [g3, List.drop_eq_getElem_cons hlt])
          (clocks m) fuel (by omega)
        refine ⟨s3, j, ?_, hlt, k2, g4.same k3, k3.endAt.trans g5, by omega⟩
        simp only [ESrc.getMany, g1, k1]
        rw [List.take_succ_eq_append_getElem hlt, List.map_append]; rfl
      · have hm : m = (windowsUpTo cfg now offs ws (j + 1)).length := by omega
        have hnil : s2.rem now offs = [] := by rw [g3, hm]; simp
        cases hx : windowEvents cfg now offs (ws (j + 1)) with
        | nil => exact absurd hx (hev _)
        | cons x xs =>
          obtain ⟨s3, k1, k2, k3, k4, k5⟩ := getNext_live hl g4 g5 hnil (clocks m) x xs
            (by rw [hm, hws]; exact hx) fuel (by omega)
          have hlen : m < (windowsUpTo cfg now offs ws (j + 1 + 1)).length := by
            rw [windowsUpTo_succ, List.length_append, hx]; simp; omega
          have hget : (windowsUpTo cfg now offs ws (j + 1 + 1))[m] = x := by
            have : (windowsUpTo cfg now offs ws (j + 1 + 1))[m]? = some x := by
              rw [windowsUpTo_succ, List.getElem?_append_right (by omega), hx]
              simp [← hm]
            rw [List.getElem?_eq_getElem hlen] at this
            simpa using this
          refine ⟨s3, j + 1, ?_, hlen, ?_, k3, k4, k5⟩
          · simp only [ESrc.getMany, g1, k1]
            rw [List.take_succ_eq_append_getElem hlen, hget, List.map_append, windowsUpTo_succ cfg now offs ws (j + 1),
              List.take_append_of_le_length (by omega)]
            rfl
          · rw [k2, windowsUpTo_succ, List.drop_append, List.drop_eq_nil_of_le (by omega), hx]
            simp [← hm, Nat.add_sub_cancel_left]
  obtain ⟨s', j, g1, g2, _⟩ := inv m
  cases m with
  | zero => exact ⟨s, s, j + 1, h1, g2, by simp [ESrc.getMany]⟩
  | succ m =>
    refine ⟨s, s', j + 1, h1, g2, ?_⟩
    rw [getMany_reset (by rw [hw0]; exact h2) h3.need _ (by omega), g1]

/-- C08 when windows join up: if every window is found used up on the day after its last day, the live
source delivers every entry exactly once per day, for ever.  Missing for the full statement: the case in
which the clock still shows the window's last day. -/
theorem c08_once_per_day_partial (cfg : ECfg) (hl : LiveCfg cfg) (start : Option Int) (now : Int)
    (entries : List (Str × γ)) (hne : entries ≠ []) (offs : List (Int × γ)) (h : EntryTimes cfg entries offs)
    (clocks : Nat → Nat → Int) (today : Int) (hw0 : clocks 0 0 = today)
    (hws : ∀ (j : Nat) i, clocks (eventsOf now none offs (daysFromTo today (today + cfg.count * (j + 1) - 1))).length i =
      today + cfg.count * (j + 1))
    (hev : ∀ j : Nat, windowEvents cfg now offs (today + cfg.count * j) ≠ [])
    (fuel : Nat) (hf : 2 * cfg.count + 2 ≤ fuel) (m : Nat) :
    ∃ s s' last, ESrc.build cfg start none now entries = (s, .ok ()) ∧
      m ≤ (eventsOf now none offs (daysFromTo today last)).length ∧
      s.getMany cfg fuel clocks m =
        some (s', ((eventsOf now none offs (daysFromTo today last)).take m).map fun e => .ok (some e)) := by
  have happ : ∀ a b c : Int, a ≤ b + 1 → b ≤ c → daysFromTo a b ++ daysFromTo (b + 1) c = daysFromTo a c := by
    intro a b c hab hbc
    simp only [daysFromTo]
    rw [show (c - a + 1).toNat = (b - a + 1).toNat + (c - (b + 1) + 1).toNat from by omega, List.range_add,
      List.map_append, List.map_map]
    congr 1
    apply List.map_congr_left
    intro k _
    simp only [Function.comp]; omega
  have hwin : ∀ J : Nat, windowsUpTo cfg now offs (fun j => today + cfg.count * j) J =
      eventsOf now none offs (daysFromTo today (today + cfg.count * J - 1)) := by
    intro J
    induction J with
    | zero =>
      have : (today + (cfg.count : Int) * ((0 : Nat) : Int) - 1 - today + 1).toNat = 0 := by simp; omega
      simp only [windowsUpTo, daysFromTo, eventsOf, this]; rfl
    | succ J ih =>
      have hc : (0 : Int) ≤ (cfg.count : Int) * J := Int.mul_nonneg (by omega) (by omega)
      have e1 : today + (cfg.count : Int) * ((J + 1 : Nat) : Int) - 1 = today + cfg.count * J + cfg.count - 1 := by
        rw [Int.natCast_add, Int.mul_add]; simp; omega
      rw [windowsUpTo_succ, ih, windowEvents, ← eventsOf_append, e1]
      have := happ today (today + cfg.count * J - 1) (today + cfg.count * J + cfg.count - 1) (by omega) (by omega)
      rw [show today + (cfg.count : Int) * J - 1 + 1 = today + cfg.count * J from by omega] at this
      rw [this]
  obtain ⟨s, s', J, g1, g2, g3⟩ := c08_live_windows_partial cfg hl start now entries hne offs h clocks
    (fun j => today + cfg.count * j) (by simpa using hw0)
    (by
      intro j i
      rw [hwin]
      have := hws j i
      simpa using this)
    hev fuel hf m
  exact ⟨s, s', _, g1, by rw [hwin] at g2; exact g2, by rw [hwin] at g3; exact g3⟩

/-- Concrete witness for `c08_last_day_repeats_refuted` with the default configuration (365 days): a task at
09:30, process started on day 0 at 08:00.  On day 364 it fires at 09:30, and 09:30 of day 364 is delivered
again as event number 366. -/
theorem c08_default_config_witness :
    ∃ s s', ESrc.build ⟨false, 365, [(34200 * secUs, 54000 * secUs)]⟩ none none (28800 * secUs) [(c!"09:30:00", ())]
        = (s, .ok ()) ∧
      s.getMany ⟨false, 365, [(34200 * secUs, 54000 * secUs)]⟩ 1000 (fun k _ => ((k - 1 : Nat) : Int)) 366 =
        some (s', ((List.range 365).map fun (d : Nat) => .ok (some ((d : Int) * dayUs + 34200 * secUs, ())))
          ++ [.ok (some (364 * dayUs + 34200 * secUs, ()))]) := by
  have hwin : eventsOf (28800 * secUs) none [(34200 * secUs, ())] (daysFromTo 0 364) =
      (List.range 365).map fun (d : Nat) => ((d : Int) * dayUs + 34200 * secUs, ()) := by
    rw [c07_single_task, List.filter_eq_self.2]
    · simp only [daysFromTo, List.map_map]
      apply List.map_congr_left
      intro k _
      simp
    · intro e he
      simp only [daysFromTo, List.mem_map] at he
      obtain ⟨d, ⟨k, _, rfl⟩, rfl⟩ := he
      have : (0 : Int) ≤ (k : Int) * dayUs := Int.mul_nonneg (by omega) (by decide)
      simp [secUs]; omega
  have := (c08_last_day_repeats_refuted ⟨false, 365, [(34200 * secUs, 54000 * secUs)]⟩ ⟨rfl, by decide⟩ none (28800 * secUs)
    [(c!"09:30:00", ())] (by simp) [(34200 * secUs, ())] (by simp only [EntryTimes]; decide)
    (fun k _ => ((k - 1 : Nat) : Int)) 0 364 rfl rfl _ rfl (by intro i; rw [hwin]; simp)
    (364 * dayUs + 34200 * secUs, ()) [] (by decide) 1000 (by decide)).2
  rw [hwin] at this
  simpa [Function.comp_def] using this

/-- Non-vacuity for the live-mode theorems: a window with events. -/
example : LiveCfg ⟨false, 365, [(34200 * secUs, 54000 * secUs)]⟩ ∧
    windowEvents ⟨false, 365, [(34200 * secUs, 54000 * secUs)]⟩ (28800 * secUs) [(34200 * secUs, ())] 364 ≠ [] := by
  refine ⟨⟨rfl, by decide⟩, ?_⟩
  rw [windowEvents, c07_single_task]
  intro h
  rw [List.filter_eq_nil_iff] at h
  exact h (364 * dayUs + 34200 * secUs, ()) (List.mem_map.2 ⟨364, daysFromTo_mem.2 (by decide), rfl⟩) (by decide)

/-! ## C15: looking for the next event ends -/

/-- C15, sources that have an event to find: in live mode a call on a reset source with valid entries
returns an event whenever some entry of some day of the window that the clock shows is not before the
start.  Missing for the full statement: sources without such an entry (see `c15_empty_source_refuted`). -/
theorem c15_returns_partial (cfg : ECfg) (hl : LiveCfg cfg) (s : ESrc γ) (st : Int) (offs : List (Int × γ))
    (h : s.Ok cfg st offs) (hend : s.endAt = none) (clock : Nat → Int)
    (hex : ∀ i, ∃ o ∈ offs, st ≤ (clock i + cfg.count - 1) * dayUs + o.1) (fuel : Nat)
    (hf : s.days.length + cfg.count + 2 ≤ fuel) :
    ∃ s' e, s.getNext cfg clock fuel = some (s', .ok (some e)) := by
  cases hrem : s.rem st offs with
  | cons x xs =>
    obtain ⟨s', g, _⟩ := getNext_window h x xs hrem clock fuel (by omega)
    exact ⟨s', x, g⟩
  | nil =>
    obtain ⟨o, ho, hle⟩ := hex s.days.length
    cases hx : eventsOf st none offs (daysFromTo (clock s.days.length) (clock s.days.length + cfg.count - 1)) with
    | nil =>
      exfalso
      simp only [eventsOf, List.flatMap_eq_nil_iff] at hx
      have hd := hx (clock s.days.length + cfg.count - 1) (daysFromTo_mem.2 (by have := hl.2; omega))
      have hd := (sortBy_nil_iff _).1 hd
      simp only [rawDay, List.filter_eq_nil_iff] at hd
      exact hd ((clock s.days.length + cfg.count - 1) * dayUs + o.1, o.2) (List.mem_map.2 ⟨o, ho, rfl⟩) (by simpa using hle)
    | cons x xs =>
      obtain ⟨s', g, _⟩ := getNext_live hl h hend hrem clock x xs hx fuel hf
      exact ⟨s', x, g⟩

/-- C15 for a source made by the strategy with at least one valid entry, the default window of 365 days (any
count of at least 3 will do), times of day within a day of midnight, and a clock not before the start: the
first look for an event (`schedule`) returns an event. -/
theorem c15_strategy_sources_return (cfg : ECfg) (hl : LiveCfg cfg) (h3 : 3 ≤ cfg.count) (start : Option Int) (now : Int)
    (entries : List (Str × γ)) (hne : entries ≠ []) (offs : List (Int × γ)) (h : EntryTimes cfg entries offs)
    (hoff : ∀ o ∈ offs, - dayUs ≤ o.1) (clock : Nat → Int) (hclock : ∀ i, now / dayUs ≤ clock i) (fuel : Nat)
    (hf : 2 * cfg.count + 2 ≤ fuel) :
    ∃ s s' e, ESrc.build cfg start none now entries = (s, .ok ()) ∧ s.peek cfg clock fuel = some (s', .ok (some e)) := by
  obtain ⟨s, s1, h1, h2, h3', h4, h5, h6⟩ := build_live hl (start := start) hne h (clock 0)
  obtain ⟨o, ho⟩ : ∃ o, o ∈ offs := by
    cases offs with
    | nil => cases entries with
      | nil => exact absurd rfl hne
      | cons a as => simp [EntryTimes] at h
    | cons o os => exact ⟨o, by simp⟩
  have hex : ∀ i, ∃ o ∈ offs, now ≤ (clock i + cfg.count - 1) * dayUs + o.1 := by
    intro i
    refine ⟨o, ho, ?_⟩
    have hc := hclock i
    have ho' := hoff o ho
    have hm : (now / dayUs + 2) * dayUs ≤ (clock i + cfg.count - 1) * dayUs :=
      Int.mul_le_mul_of_nonneg_right (by omega) (by decide)
    have : now < (now / dayUs + 1) * dayUs := Int.lt_mul_of_ediv_lt (by decide) (by omega)
    rw [Int.add_mul] at hm this
    omega
  obtain ⟨s', e, g⟩ := c15_returns_partial cfg hl s1 now offs h3' h4 clock hex fuel
    (by rw [h6]; simp [daysFromTo]; omega)
  simp only [ESrc.getNext, ESrc.genEvents, resetIfNeeded_noop h3'.need] at g
  refine ⟨s, ?_⟩
  simp only [ESrc.peek, ESrc.genEvents, h2, h1]
  split at g
  · cases g
  · cases g
  · rename_i heq
    rename_i s2
    simp only [Option.some.injEq, Prod.mk.injEq, Except.ok.injEq] at g
    exact ⟨s2, e, trivial, by simp [g.2]⟩

/-- The code violates C15: in live mode, a source without entries (which the account's synchronisation
timer makes when there is no synchronisation time left, see C54) makes the search for the next event run
for ever, whatever the clock shows. -/
theorem c15_empty_source_refuted (cfg : ECfg) (hl : LiveCfg cfg) (s : ESrc γ) (hd : s.daily = []) (hev : s.events = [])
    (hend : s.endAt = none) (clock : Nat → Int) (fuel : Nat) : s.peek cfg clock fuel = none := by
  have key : ∀ (fuel i : Nat) (s : ESrc γ), s.daily = [] → s.events = [] → s.endAt = none →
      ESrc.genLoop cfg clock fuel i s = none := by
    intro fuel
    induction fuel with
    | zero => intros; rfl
    | succ fuel ih =>
      intro i s hd hev hend
      simp only [ESrc.genLoop, hev, ne_eq, not_true_eq_false, if_false]
      by_cases hday : s.days = []
      · simp only [hday, if_true, ESrc.getDays, hl.1, hend, Option.isSome_none, Bool.or_self]
        have hc : ∃ d ds, dayRange (clock i) cfg.count = d :: ds := by
          cases hr : dayRange (clock i) cfg.count with
          | nil => have := congrArg List.length hr; simp [dayRange] at this; have := hl.2; omega
          | cons d ds => exact ⟨d, ds, rfl⟩
        obtain ⟨d, ds, hc⟩ := hc
        simp only [hc, hd]
        exact ih _ _ (by simp) (by simpa using hev) (by simp)
      · simp only [hday, if_false]
        cases hdd : s.days with
        | nil => exact absurd hdd hday
        | cons d ds =>
          simp only [hd, ESrc.addEvents]
          exact ih _ _ (by simp) (by simpa using hev) (by simpa using hend)
  have hreset : ∃ s', s.resetIfNeeded cfg (clock 0) = (s', .ok ()) ∧ s'.daily = [] ∧ s'.events = [] ∧ s'.endAt = none := by
    simp only [ESrc.resetIfNeeded]
    split
    · exact ⟨s, rfl, hd, hev, hend⟩
    · simp only [ESrc.getDays, hl.1, hend, Option.isSome_none, Bool.or_self]
      exact ⟨_, rfl, hd, rfl, rfl⟩
  obtain ⟨s', h1, h2, h3, h4⟩ := hreset
  simp only [ESrc.peek, ESrc.genEvents, h1, h3, ne_eq, not_true_eq_false, if_false, key fuel 0 s' h2 h3 h4]

example : (ESrc.peek ⟨false, 365, []⟩ (fun _ => 3) 1000 ({ start := some 0, endAt := none } : ESrc Unit)) = none :=
  c15_empty_source_refuted _ ⟨rfl, by decide⟩ _ rfl rfl rfl _ _

/-- With an end date the search always ends, whatever the entries (C07 has the value). -/
theorem c15_with_end_returns (cfg : ECfg) (s : ESrc γ) (st : Int) (offs : List (Int × γ))
    (h : s.Ok cfg st offs) (hhis : s.hasHis = true) (hend : s.endAt.isSome = true) (clock : Nat → Int) (fuel : Nat)
    (hf : s.days.length + 1 ≤ fuel) :
    ∃ s' r, s.getNext cfg clock fuel = some (s', .ok r) := by
  cases hrem : s.rem st offs with
  | cons x xs =>
    obtain ⟨s', g, _⟩ := getNext_window h x xs hrem clock fuel hf
    exact ⟨s', _, g⟩
  | nil =>
    obtain ⟨s', g, _⟩ := getNext_end h (by simp [hend]) hhis hrem clock fuel hf
    exact ⟨s', _, g⟩

/-- Non-vacuity: the last day of a source with an end, whose only entry was in the past when it started. -/
example : let s : ESrc Unit := { daily := [(c!"09:30", ())], start := some (50000 * secUs), endAt := some (60000 * secUs), need := false, hasHis := true }
    s.Ok ⟨true, 365, []⟩ (50000 * secUs) [(34200 * secUs, ())] ∧ s.getNext ⟨true, 365, []⟩ (fun _ => 0) 2 = some (s, .ok none) := by
  refine ⟨⟨rfl, rfl, by simp only [EntryTimes]; decide⟩, by decide +kernel⟩

end Jq
