import Verif.Model.Strategy
import Verif.Lemmas.Bus
import Verif.Lemmas.NatStr
/-! # C12, C13, C14, C59: callbacks, set-up -/
set_option linter.unusedSectionVars false
namespace Jq

/-! ## C14 -/
section
variable {C K : Type} [DecidableEq C] [DecidableEq K]

/-- After any history of register and unregister calls an event calls exactly the callbacks in force, class by
class in the order of first registration, higher priority first, in registration order within a priority. -/
theorem c14_emit (sub : C → C → Bool) (ops : List (BusOp C K)) (ec : C) :
    (ops.foldl Bus.apply []).emit sub ec = expectedCalls sub ops ec :=
  represents_emit (represents_history ops) sub ec

/-- What the ordering means for one class: the calls are exactly its registrations in force, sorted by
descending priority, and those of one priority in the order in which they were made. -/
theorem c14_order_meaning (rs : List (Reg C K)) :
    (sortBy (fun r : Reg C K => -r.prio) rs).Perm rs ∧
    (sortBy (fun r : Reg C K => -r.prio) rs).Pairwise (fun a b => b.prio ≤ a.prio) ∧
    ∀ p, (sortBy (fun r : Reg C K => -r.prio) rs).filter (fun r => decide (r.prio = p)) =
      rs.filter (fun r => decide (r.prio = p)) := by
  refine ⟨sortBy_perm _ _, (sortBy_sorted _ _).imp (fun h => by omega), fun p => ?_⟩
  have := sortBy_stable (fun r : Reg C K => -r.prio) (-p) rs
  have e : (fun a : Reg C K => decide (-a.prio = -p)) = fun r => decide (r.prio = p) := by
    funext r; by_cases h : r.prio = p <;> simp [h]
  simpa only [e] using this

/-- A registration that is never unregistered is called once per emission; one that was unregistered (and was
made once) is not called any more. -/
theorem c14_unregister_removes (ops : List (BusOp C K)) (c : C) (cb : K) :
    (inForce (ops ++ [.unregister c cb])) =
      dropRegs c cb [] (inForce ops) ∧
    ((inForce ops).Pairwise (fun r r' => ¬ (r.cls = c ∧ r.cb = cb ∧ r'.cls = c ∧ r'.cb = cb)) →
      inForce (ops ++ [.unregister c cb]) = (inForce ops).filter fun r => !decide (r.cls = c ∧ r.cb = cb)) := by
  have e : inForce (ops ++ [.unregister c cb]) = dropRegs c cb [] (inForce ops) := by
    simp [inForce, List.foldl_append]
  refine ⟨e, fun h => ?_⟩
  rw [e]
  generalize inForce ops = rs at h
  have hno : ∀ (l : List (Reg C K)) seen, (∀ r ∈ l, ¬ (r.cls = c ∧ r.cb = cb)) →
      dropRegs c cb seen l = l.filter fun r => !decide (r.cls = c ∧ r.cb = cb) := by
    intro l
    induction l with
    | nil => intros; rfl
    | cons x xs ih =>
      intro seen hl
      have hx := hl x (by simp)
      simp only [dropRegs]
      rw [if_neg (fun e => hx ⟨e.1, e.2.1⟩), ih _ (fun r hr => hl r (List.mem_cons_of_mem _ hr)), List.filter_cons,
        if_pos (by simp only [decide_eq_false hx, Bool.not_false])]
  induction rs with
  | nil => rfl
  | cons x xs ih =>
    rw [List.pairwise_cons] at h
    simp only [dropRegs]
    by_cases hx : x.cls = c ∧ x.cb = cb
    · rw [if_pos ⟨hx.1, hx.2, by simp⟩, List.filter_cons, if_neg (by simpa using hx)]
      exact hno xs _ (fun r hr hc => h.1 r hr ⟨hx.1, hx.2, hc.1, hc.2⟩)
    · rw [if_neg (fun e => hx ⟨e.1, e.2.1⟩), List.filter_cons, if_pos (by simp only [decide_eq_false hx, Bool.not_false]), ih h.2]

/-- Non-vacuity: priorities, two classes, an unregistration. -/
example : (List.foldl Bus.apply []
      [.register 1 'a' 0, .register 2 'b' 0, .register 1 'c' 5, .register 1 'd' 0, .register 1 'e' 5,
       .unregister 1 'd', .register 1 'f' (-1)] : Bus Nat Char).emit (fun c c' => c = c' || c' = 2) 1 =
    ['c', 'e', 'a', 'f', 'b'] := by decide
end

/-! ## C12 -/

private theorem split_last_underscore {a b x y : Str} (hx : '_' ∉ x) (hy : '_' ∉ y)
    (h : a ++ '_' :: x = b ++ '_' :: y) : a = b ∧ x = y := by
  have hr := congrArg List.reverse h
  simp only [List.reverse_append, List.reverse_cons, List.append_assoc, List.cons_append, List.nil_append] at hr
  have key : ∀ (p q r s : Str), '_' ∉ p → '_' ∉ q → p ++ '_' :: r = q ++ '_' :: s → p = q ∧ r = s := by
    intro p
    induction p with
    | nil =>
      intro q r s _ hq h
      cases q with
      | nil => simp at h; exact ⟨rfl, h⟩
      | cons c q =>
        simp only [List.nil_append, List.cons_append, List.cons.injEq] at h
        exact absurd (h.1 ▸ List.mem_cons_self) hq
    | cons c p ih =>
      intro q r s hp hq h
      cases q with
      | nil =>
        simp only [List.nil_append, List.cons_append, List.cons.injEq] at h
        exact absurd (h.1 ▸ List.mem_cons_self) hp
      | cons d q =>
        simp only [List.cons_append, List.cons.injEq] at h
        obtain ⟨h1, h2⟩ := ih q r s (fun m => hp (List.mem_cons_of_mem _ m)) (fun m => hq (List.mem_cons_of_mem _ m)) h.2
        exact ⟨by rw [h.1, h1], h2⟩
  obtain ⟨h1, h2⟩ := key x.reverse y.reverse a.reverse b.reverse (by simpa using hx) (by simpa using hy) hr
  exact ⟨List.reverse_inj.1 h2, List.reverse_inj.1 h1⟩

/-- Tasks of different number get different event classes, whatever their names. -/
theorem c12_class_names_distinct (n m : Str) (i j : Nat) (h : i ≠ j) : taskClassName n i ≠ taskClassName m j := by
  intro e
  simp only [taskClassName] at e
  have := (split_last_underscore (natStr_not_mem i (by decide)) (natStr_not_mem j (by decide)) e).2
  exact h (natStr_inj this)

private theorem emit_register (b : Bus Str Cb) (c : Str) (cb : Cb) (p : Int) (c' : Str) (h : c ≠ c') :
    (b.register c cb p).emit sameClass c' = b.emit sameClass c' := by
  simp only [Bus.register]
  generalize dset ((dget b c).getD []) p ((dget ((dget b c).getD []) p).getD [] ++ [cb]) = d
  induction b with
  | nil => simp [dset, Bus.emit, sameClass]; exact fun e => absurd e.symm h
  | cons e b ih =>
    obtain ⟨a, x⟩ := e
    simp only [dset]
    by_cases ha : a = c
    · subst ha
      have h' : ¬ c' = a := fun e => h e.symm
      simp [Bus.emit, sameClass, h']
    · rw [if_neg ha]
      simp only [Bus.emit, List.flatMap_cons] at *
      rw [ih]

private theorem emit_register_new (b : Bus Str Cb) (c : Str) (cb : Cb) (p : Int) (h : dget b c = none)
    : (b.register c cb p).emit sameClass c = [cb] := by
  have hnm := (dget_eq_none b c).1 h
  simp only [Bus.register, h, Option.getD_none]
  clear h
  induction b with
  | nil => simp [dset, Bus.emit, sameClass, dkeys, sortBy, insertBy, dget]
  | cons e b ih =>
    obtain ⟨a, x⟩ := e
    simp only [dkeys, List.map_cons, List.mem_cons, not_or] at hnm
    have ha : ¬ a = c := fun e => hnm.1 e.symm
    have ih' := ih hnm.2
    simp only [dset, Bus.emit] at ih'
    simp only [dset, if_neg ha, Bus.emit, List.flatMap_cons]
    rw [ih']
    simp [sameClass, hnm.1]

theorem schedOne_spec {s s' : SchedSt} {fuel : Nat} {today : Int} {mp : Periods} {ns : Dict Str Nat} {t : TaskDesc}
    (h : s.schedOne fuel today mp ns t = some s') :
    s'.count = s.count + 1 ∧
    s'.bus = s.bus.register (taskClassName t.name s.count) (.user s.count (dget ns t.name)) 0 ∧
    (∃ es, s'.sources = s.sources ++ [(taskClassName t.name s.count, es)] ∧
      (∀ e ∈ es, e.2 = taskClassName t.name s.count) ∧
      (if t.time = c!"every_minute" then everyMinuteEntries fuel today mp (taskClassName t.name s.count) = some es
        else es = [(t.time, taskClassName t.name s.count)])) ∧
    (∀ c p, dget s.classes c = some p → dget s'.classes c = some p) ∧
    (dget s.classes (taskClassName t.name s.count) = none →
      dget s'.classes (taskClassName t.name s.count) = some (if t.time = c!"every_minute" then 1 else 0)) ∧
    (∀ c, c ≠ taskClassName t.name s.count → dget s'.classes c = dget s.classes c) := by
  have hc : ∀ (s : SchedSt) n p, (s.createClass n p).count = s.count ∧ (s.createClass n p).bus = s.bus ∧
      (s.createClass n p).sources = s.sources ∧
      (∀ c q, dget s.classes c = some q → dget (s.createClass n p).classes c = some q) ∧
      (dget s.classes n = none → dget (s.createClass n p).classes n = some p) ∧
      (∀ c, c ≠ n → dget (s.createClass n p).classes c = dget s.classes c) := by
    intro s n p
    simp only [SchedSt.createClass]
    cases hg : dget s.classes n with
    | some q => simp [hg]
    | none =>
      refine ⟨rfl, rfl, rfl, ?_, ?_, ?_⟩
      · intro c q h
        rw [dget_dset]
        split
        · rename_i e; subst e; rw [hg] at h; cases h
        · exact h
      · intro _; simp [dget_dset]
      · intro c hne; rw [dget_dset_ne]; exact fun e => hne e.symm
  simp only [SchedSt.schedOne] at h
  split at h
  · rename_i ht
    obtain ⟨h1, h2, h3, h4, h5, h6⟩ := hc s (taskClassName t.name s.count) 1
    cases hes : everyMinuteEntries fuel today mp (taskClassName t.name s.count) with
    | none => rw [hes] at h; cases h
    | some es =>
      rw [hes] at h
      injection h with h
      subst h
      refine ⟨by simp [h1], by simp [h1, h2], ⟨es, by simp [h3], ?_, by rw [if_pos ht]⟩, h4, ?_, h6⟩
      · simp only [everyMinuteEntries, Option.map_eq_some_iff] at hes
        obtain ⟨ts, _, rfl⟩ := hes
        intro e he
        obtain ⟨_, _, rfl⟩ := List.mem_map.1 he
        rfl
      · rw [if_pos ht]; exact h5
  · rename_i ht
    obtain ⟨h1, h2, h3, h4, h5, h6⟩ := hc s (taskClassName t.name s.count) 0
    injection h with h
    subst h
    refine ⟨by simp [h1], by simp [h1, h2], ⟨[(t.time, taskClassName t.name s.count)], by simp [h3], ?_, by rw [if_neg ht]⟩, h4, ?_, h6⟩
    · simp
    · rw [if_neg ht]; exact h5

/-- Nothing on the bus or in the class table is named like a task numbered from `n` on. -/
private def FreshFrom (s : SchedSt) : Prop :=
  ∀ name i, s.count ≤ i → dget s.bus (taskClassName name i) = none ∧ dget s.classes (taskClassName name i) = none

private theorem dget_register (b : Bus Str Cb) (c : Str) (cb : Cb) (p : Int) (c' : Str) (h : c ≠ c') :
    dget (b.register c cb p) c' = dget b c' := by
  simp only [Bus.register]; rw [dget_dset_ne _ h]

private theorem schedule_spec {fuel : Nat} {today : Int} {mp : Periods} {ns : Dict Str Nat} (ts : List TaskDesc) (s s' : SchedSt)
    (hf : FreshFrom s) (h : SchedSt.schedule fuel today mp ns ts s = some s') :
    s'.count = s.count + ts.length ∧
    (∀ c, (∀ name i, s.count ≤ i → c ≠ taskClassName name i) → s'.bus.emit sameClass c = s.bus.emit sameClass c) ∧
    (∀ k (hk : k < ts.length), s'.bus.emit sameClass (taskClassName ts[k].name (s.count + k)) =
      [.user (s.count + k) (dget ns ts[k].name)]) ∧
    s'.sources.map (·.1) = s.sources.map (·.1) ++ ts.mapIdx (fun k t => taskClassName t.name (s.count + k)) ∧
    ((∀ x ∈ s.sources, ∀ e ∈ x.2, e.2 = x.1) → ∀ x ∈ s'.sources, ∀ e ∈ x.2, e.2 = x.1) ∧
    (∀ k (hk : k < ts.length), dget s'.classes (taskClassName ts[k].name (s.count + k)) =
      some (if ts[k].time = c!"every_minute" then 1 else 0)) ∧
    (∀ c p, dget s.classes c = some p → dget s'.classes c = some p) := by
  induction ts generalizing s with
  | nil =>
    simp only [SchedSt.schedule, Option.some.injEq] at h
    subst h
    exact ⟨rfl, fun _ _ => rfl, fun k hk => absurd hk (by simp), by simp, fun h => h, fun k hk => absurd hk (by simp),
      fun _ _ h => h⟩
  | cons t ts ih =>
    simp only [SchedSt.schedule] at h
    cases h1 : s.schedOne fuel today mp ns t with
    | none => rw [h1] at h; cases h
    | some s1 =>
      rw [h1] at h
      obtain ⟨e1, e2, ⟨es, e3, e4, _⟩, e5, e6, e7⟩ := schedOne_spec h1
      have hf1 : FreshFrom s1 := by
        intro name i hi
        rw [e1] at hi
        have hne : taskClassName t.name s.count ≠ taskClassName name i := c12_class_names_distinct _ _ _ _ (by omega)
        obtain ⟨f1, f2⟩ := hf name i (by omega)
        refine ⟨?_, ?_⟩
        · rw [e2, dget_register _ _ _ _ _ hne]; exact f1
        · rw [e7 _ (fun e => hne e.symm)]; exact f2
      obtain ⟨g1, g2, g3, g4, g5, g6, g7⟩ := ih s1 hf1 h
      refine ⟨by rw [g1, e1]; simp; omega, ?_, ?_, ?_, ?_, ?_, fun c p hc => g7 c p (e5 c p hc)⟩
      · intro c hc
        rw [g2 c (fun name i hi => hc name i (by omega)), e2, emit_register]
        exact fun e => hc _ _ (Nat.le_refl _) e.symm
      · intro k hk
        cases k with
        | zero =>
          simp only [List.getElem_cons_zero, Nat.add_zero]
          rw [g2, e2, emit_register_new _ _ _ _ (hf t.name s.count (Nat.le_refl _)).1]
          intro name i hi
          exact c12_class_names_distinct _ _ _ _ (by omega)
        | succ k =>
          have := g3 k (by simp at hk; omega)
          rw [e1] at this
          simp only [List.getElem_cons_succ]
          rw [show s.count + (k + 1) = s.count + 1 + k by omega]
          exact this
      · rw [g4, e3, e1]
        simp only [List.map_append, List.map_cons, List.map_nil, List.mapIdx_cons, Nat.add_zero, List.append_assoc,
          List.singleton_append]
        congr 2
        apply List.mapIdx_eq_mapIdx_iff.2
        intro k hk
        congr 1
        omega
      · intro hs
        refine g5 ?_
        intro x hx
        rw [e3] at hx
        rcases List.mem_append.1 hx with hx | hx
        · exact hs x hx
        · simp only [List.mem_singleton] at hx
          subst hx
          exact e4
      · intro k hk
        cases k with
        | zero =>
          simp only [List.getElem_cons_zero, Nat.add_zero]
          exact g7 _ _ (e6 (hf t.name s.count (Nat.le_refl _)).2)
        | succ k =>
          have := g6 k (by simp at hk; omega)
          rw [e1] at this
          simp only [List.getElem_cons_succ]
          rw [show s.count + (k + 1) = s.count + 1 + k by omega]
          exact this

/-- The state in which `schedule` starts: the account may have registered its own callbacks for its event. -/
def AfterInit (s : SchedSt) : Prop :=
  s.count = 0 ∧ s.sources = [] ∧ (∀ c ∈ dkeys s.bus, c = c!"AccountSyncEvent") ∧ (∀ c ∈ dkeys s.classes, c = c!"AccountSyncEvent")

private theorem afterInit_fresh {s : SchedSt} (h : AfterInit s) : FreshFrom s := by
  intro name i _
  have hne : taskClassName name i ≠ c!"AccountSyncEvent" := by
    intro e
    have := congrArg List.head? e
    simp [taskClassName] at this
  exact ⟨(dget_eq_none _ _).2 fun m => hne (h.2.2.1 _ m), (dget_eq_none _ _).2 fun m => hne (h.2.2.2 _ m)⟩

/-- Every task has its own source, whose events all belong to a class of its own; emitting an event of the
`i`-th task calls exactly once the callback made for the `i`-th task and nothing else; the account's event calls
no task. -/
theorem c12_own_callback (fuel : Nat) (today : Int) (mp : Periods) (ns : Dict Str Nat) (ts : List TaskDesc) (s s' : SchedSt)
    (h0 : AfterInit s) (h : SchedSt.schedule fuel today mp ns ts s = some s') :
    s'.sources.map (·.1) = ts.mapIdx (fun i t => taskClassName t.name i) ∧
    (s'.sources.map (·.1)).Nodup ∧
    (∀ src ∈ s'.sources, ∀ e ∈ src.2, e.2 = src.1) ∧
    (∀ i (hi : i < ts.length), s'.bus.emit sameClass (taskClassName ts[i].name i) = [.user i (dget ns ts[i].name)]) ∧
    s'.bus.emit sameClass c!"AccountSyncEvent" = s.bus.emit sameClass c!"AccountSyncEvent" := by
  obtain ⟨g1, g2, g3, g4, g5, g6, g7⟩ := schedule_spec ts s s' (afterInit_fresh h0) h
  rw [h0.1, h0.2.1] at *
  simp only [Nat.zero_add, List.map_nil, List.nil_append] at *
  refine ⟨g4, ?_, g5 (by simp), g3, ?_⟩
  · rw [g4, List.Nodup, List.pairwise_iff_getElem]
    intro i j hi hj hij he
    rw [List.getElem_mapIdx, List.getElem_mapIdx] at he
    exact c12_class_names_distinct _ _ _ _ (by omega) he
  · apply g2
    intro name i _ e
    have := congrArg List.head? e
    simp [taskClassName] at this

/-- An `every_minute` task has a higher priority than a daily one (used by C05). -/
theorem c12_priorities (fuel : Nat) (today : Int) (mp : Periods) (ns : Dict Str Nat) (ts : List TaskDesc) (s s' : SchedSt)
    (h0 : AfterInit s) (h : SchedSt.schedule fuel today mp ns ts s = some s') (i : Nat) (hi : i < ts.length) :
    dget s'.classes (taskClassName ts[i].name i) = some (if ts[i].time = c!"every_minute" then 1 else 0) := by
  obtain ⟨g1, g2, g3, g4, g5, g6, g7⟩ := schedule_spec ts s s' (afterInit_fresh h0) h
  have := g6 i hi
  rwa [h0.1, Nat.zero_add] at this

/-- Scheduling does not change the classes that exist (the account's event keeps its priority). -/
theorem c12_keeps_classes (fuel : Nat) (today : Int) (mp : Periods) (ns : Dict Str Nat) (ts : List TaskDesc) (s s' : SchedSt)
    (h0 : AfterInit s) (h : SchedSt.schedule fuel today mp ns ts s = some s') (c : Str) (p : Int) (hc : dget s.classes c = some p) :
    dget s'.classes c = some p := by
  obtain ⟨g1, g2, g3, g4, g5, g6, g7⟩ := schedule_spec ts s s' (afterInit_fresh h0) h
  exact g7 c p hc

/-- Non-vacuity: two tasks with the same function and one whose name contains digits and underscores, and the
account's own registrations. -/
example : ∃ s', SchedSt.schedule 10 0 [(34200 * secUs, 34260 * secUs)] [(c!"f", 7), (c!"f_0", 8)]
      [⟨c!"f", c!"09:30:00"⟩, ⟨c!"f", c!"every_minute"⟩, ⟨c!"f_0", c!"open"⟩]
      { classes := [(c!"AccountSyncEvent", 2)],
        bus := (Bus.register [] c!"AccountSyncEvent" (.account 0) 0) } = some s' ∧
    s'.bus.emit sameClass (taskClassName c!"f" 1) = [.user 1 (some 7)] ∧
    s'.bus.emit sameClass c!"AccountSyncEvent" = [.account 0] ∧ s'.sources.length = 3 := by
  refine ⟨_, rfl, ?_, ?_, ?_⟩ <;> decide
example : AfterInit { classes := [(c!"AccountSyncEvent", 2)], bus := (Bus.register [] c!"AccountSyncEvent" (.account 0) 0) } :=
  ⟨rfl, rfl, by decide, by decide⟩

/-! ## C13 -/

/-- Outside `process_initialize` both calls raise and change nothing; the error is `InvalidCall` for any object
with a name (an object without `__name__` fails even earlier). -/
theorem c13_outside_refused (s : StratSt) (h : s.allowed = false) :
    (∀ f t, ∃ e, s.runDaily f t = (s, .error e) ∧ (f.fname ≠ none → e = .invalidCall)) ∧
    (∀ o env, s.setOptions o env = (s, .error .invalidCall)) := by
  refine ⟨fun f t => ?_, fun o env => by simp [StratSt.setOptions, h]⟩
  cases hf : f.fname with
  | none => exact ⟨.attributeError, by simp [StratSt.runDaily, hf], fun e => absurd rfl e⟩
  | some n => exact ⟨.invalidCall, by simp [StratSt.runDaily, hf, h], fun _ => rfl⟩

/-- The tasks asked for by the successful `run_daily` calls of a body, in order. -/
def successfulTasks (body : List (InitCall × Bool)) : List TaskDesc :=
  body.filterMap fun c => match c.1 with
    | .runDaily f t => f.fname.bind fun n => if f.callable then some ⟨n, timeAlias t⟩ else none
    | .setOptions _ _ => none

theorem call_allowed (s : StratSt) (h : s.allowed = true) (c : InitCall) : (s.call c).1.allowed = true := by
  cases c with
  | runDaily f t =>
    simp only [StratSt.call, StratSt.runDaily]
    split
    · first | exact h | rfl
    · rw [h]; simp only [Bool.not_true, Bool.false_eq_true, if_false]; split <;> simp [h]
  | setOptions o env =>
    simp only [StratSt.call, StratSt.setOptions, h, Bool.not_true, Bool.false_eq_true, if_false]
    split
    · first | exact h | rfl
    · split
      · first | exact h | rfl
      · split
        · simp only [StratSt.setupAccount]
          split
          · first | exact h | rfl
          · split
            · first | exact h | rfl
            · split <;> first | exact h | rfl
        · first | exact h | rfl

private theorem call_schedules (s : StratSt) (h : s.allowed = true) (c : InitCall) (caught : Bool) :
    (s.call c).1.schedules = s.schedules ++ successfulTasks [(c, caught)] ∧
    ((∃ f t, c = .runDaily f t) → ((s.call c).2 = .ok () ↔ successfulTasks [(c, caught)] ≠ [])) := by
  cases c with
  | runDaily f t =>
    simp only [StratSt.call, StratSt.runDaily, successfulTasks, List.filterMap_cons, List.filterMap_nil]
    cases hf : f.fname with
    | none => simp
    | some n =>
      rw [h]
      cases hc : f.callable <;> simp
  | setOptions o env =>
    refine ⟨?_, fun ⟨f, t, e⟩ => by cases e⟩
    simp only [StratSt.call, StratSt.setOptions, h, Bool.not_true, Bool.false_eq_true, if_false, successfulTasks,
      List.filterMap_cons, List.filterMap_nil, List.append_nil]
    split
    · rfl
    · split
      · rfl
      · split
        · simp only [StratSt.setupAccount]
          split
          · rfl
          · split
            · rfl
            · split <;> rfl
        · rfl

/-- When the set-up succeeds the scheduled tasks are exactly the successful `run_daily` calls of
`process_initialize`, in order, and afterwards every further call is refused. -/
theorem c13_tasks_are_the_calls (s s' : StratSt) (hs : s.schedules = []) (body : Option (List (InitCall × Bool)))
    (h : s.setup body = (s', .ok ())) :
    ∃ b, body = some b ∧ s'.schedules = successfulTasks b ∧ s'.allowed = false := by
  cases body with
  | none => simp [StratSt.setup] at h
  | some b =>
    have key : ∀ (b : List (InitCall × Bool)) (s s' : StratSt), s.allowed = true → s.runInit b = (s', .ok ()) →
        s'.schedules = s.schedules ++ successfulTasks b := by
      intro b
      induction b with
      | nil => intro s s' _ h; simp [StratSt.runInit] at h; simp [h, successfulTasks]
      | cons c b ih =>
        intro s s' ha h
        obtain ⟨c, caught⟩ := c
        have e : successfulTasks ((c, caught) :: b) = successfulTasks [(c, caught)] ++ successfulTasks b := by
          simp only [successfulTasks, ← List.filterMap_append]; rfl
        have hsc := (call_schedules s ha c caught).1
        have hal := call_allowed s ha c
        simp only [StratSt.runInit] at h
        cases hcall : s.call c with
        | mk s1 r =>
          rw [hcall] at h hsc hal
          simp only at hsc hal
          have fin : s1.runInit b = (s', .ok ()) → s'.schedules = s.schedules ++ successfulTasks ((c, caught) :: b) := by
            intro hr
            rw [ih s1 s' hal hr, hsc, e, List.append_assoc]
          cases r with
          | ok u => exact fin h
          | error er =>
            simp only at h
            split at h
            · exact fin h
            · simp at h
    refine ⟨b, rfl, ?_⟩
    simp only [StratSt.setup] at h
    cases hr : ({ s with allowed := true } : StratSt).runInit b with
    | mk s1 r =>
      rw [hr] at h
      cases r with
      | error e => simp at h
      | ok u =>
        simp only [Prod.mk.injEq, and_true] at h
        subst h
        have := key b _ s1 rfl hr
        simp only [hs, List.nil_append] at this
        exact ⟨this, rfl⟩

/-- Inside, a call with a named callable succeeds and adds one task at the end. -/
theorem c13_inside_accepted (s : StratSt) (h : s.allowed = true) (f : FuncObj) (n : Str) (hn : f.fname = some n)
    (hc : f.callable = true) (t : Str) :
    s.runDaily f t = ({ s with schedules := s.schedules ++ [⟨n, timeAlias t⟩] }, .ok ()) := by
  simp [StratSt.runDaily, hn, h, hc]

/-- Non-vacuity: a body with a refused call that the user catches. -/
example : ∃ s', StratSt.setup {} (some [(.setOptions { accountNo := some c!"1" } {}, false),
      (.runDaily ⟨1, some c!"f", true⟩ c!"open", false), (.runDaily ⟨2, none, true⟩ c!"open", true),
      (.runDaily ⟨3, some c!"g", true⟩ c!"every_minute", false)]) = (s', .ok ()) ∧
    s'.schedules = [⟨c!"f", c!"open+0m"⟩, ⟨c!"g", c!"every_minute"⟩] := ⟨_, rfl, rfl⟩

/-! ## C55: which calls make the account available -/

/-- What the calls of a body ask for as regards the account: the last `set_options` whose values could be
converted and whose runtime directory could be made decides; when it says nothing the configuration does.
`none`: there was no such call. -/
def accountSwitch (cfg : Bool) (body : List (InitCall × Bool)) : Option Bool :=
  body.foldl (fun cur c => match c.1 with
    | .runDaily _ _ => cur
    | .setOptions o env =>
      if o.parse.isOk ∧ env.mkdir = .ok () then some (match o.useAccount with | some b => b | none => cfg) else cur) none

private theorem call_switch (s : StratSt) (h : s.allowed = true) (c : InitCall) (caught : Bool) (pre : List (InitCall × Bool))
    (hp : s.useAccount = accountSwitch s.setupAccountCfg pre) :
    (s.call c).1.useAccount = accountSwitch s.setupAccountCfg (pre ++ [(c, caught)]) ∧
    (s.call c).1.setupAccountCfg = s.setupAccountCfg := by
  have e : accountSwitch s.setupAccountCfg (pre ++ [(c, caught)]) = (match c with
      | .runDaily _ _ => s.useAccount
      | .setOptions o env => if o.parse.isOk ∧ env.mkdir = .ok () then
          some (match o.useAccount with | some b => b | none => s.setupAccountCfg) else s.useAccount) := by
    rw [hp]; simp only [accountSwitch, List.foldl_append, List.foldl_cons, List.foldl_nil]
  rw [e]
  cases c with
  | runDaily f t =>
    simp only [StratSt.call, StratSt.runDaily]
    cases f.fname with
    | none => exact ⟨rfl, rfl⟩
    | some n => simp only [h]; cases f.callable <;> exact ⟨rfl, rfl⟩
  | setOptions o env =>
    simp only [StratSt.call, StratSt.setOptions, h, Bool.not_true, Bool.false_eq_true, if_false]
    cases hpa : o.parse with
    | error e => simp [Except.isOk, Except.toBool]
    | ok o' =>
      have hk := (Opts.parse_keeps hpa).1
      cases hm : env.mkdir with
      | error e => simp
      | ok u =>
        simp only [hk, Except.isOk, Except.toBool]
        cases ho : o.useAccount with
        | some b =>
          cases b with
          | false => simp
          | true => simp [StratSt.setupAccount]; split <;> try split
                    all_goals first | simp | (split <;> simp)
        | none =>
          cases hc : s.setupAccountCfg with
          | false => simp
          | true => simp [StratSt.setupAccount]; split <;> try split
                    all_goals first | simp | (split <;> simp)

private theorem runInit_switch (b : List (InitCall × Bool)) : ∀ (pre : List (InitCall × Bool)) (s s' : StratSt),
    s.allowed = true → s.useAccount = accountSwitch s.setupAccountCfg pre → s.runInit b = (s', .ok ()) →
    s'.useAccount = accountSwitch s.setupAccountCfg (pre ++ b) := by
  induction b with
  | nil => intro pre s s' _ hp h; simp [StratSt.runInit] at h; subst h; simpa using hp
  | cons c b ih =>
    intro pre s s' ha hp h
    obtain ⟨c, caught⟩ := c
    obtain ⟨h1, h2⟩ := call_switch s ha c caught pre hp
    have hal := call_allowed s ha c
    simp only [StratSt.runInit] at h
    have e : pre ++ (c, caught) :: b = (pre ++ [(c, caught)]) ++ b := by simp
    cases hcall : s.call c with
    | mk s1 r =>
      rw [hcall] at h h1 h2 hal
      simp only at h1 h2 hal
      rw [e, ← h2]
      rw [← h2] at h1
      cases r with
      | ok u => exact ih _ s1 s' hal h1 h
      | error er =>
        simp only at h
        cases caught with
        | false => simp at h
        | true => exact ih _ s1 s' hal h1 (by simpa using h)

/-- Whether the strategy uses an account after `process_initialize`: as the last effective `set_options` call
says, and as the configuration says when that call does not; without such a call it does not. -/
theorem c55_switch (s s' : StratSt) (hs : s.useAccount = none) (b : List (InitCall × Bool))
    (h : s.setup (some b) = (s', .ok ())) : s'.useAccount = accountSwitch s.setupAccountCfg b := by
  simp only [StratSt.setup] at h
  cases hr : ({ s with allowed := true } : StratSt).runInit b with
  | mk s1 r =>
    rw [hr] at h
    cases r with
    | error e => simp at h
    | ok u =>
      simp only [Prod.mk.injEq] at h
      rw [← h.1]
      exact runInit_switch b [] { s with allowed := true } s1 rfl hs hr

private theorem call_account (s : StratSt) (h : s.allowed = true) (c : InitCall) (hok : (s.call c).2 = .ok ())
    (hp : s.useAccount = some true → s.account ≠ none) :
    (s.call c).1.useAccount = some true → (s.call c).1.account ≠ none := by
  cases c with
  | runDaily f t =>
    simp only [StratSt.call, StratSt.runDaily]
    cases f.fname with
    | none => exact hp
    | some n => simp only [h]; cases f.callable <;> exact hp
  | setOptions o env =>
    simp only [StratSt.call, StratSt.setOptions, h, Bool.not_true, Bool.false_eq_true, if_false] at hok ⊢
    cases hpa : o.parse with
    | error e => simp [hpa] at hok
    | ok o =>
      simp only [hpa] at hok ⊢
      cases hm : env.mkdir with
      | error e => simp [hm] at hok
      | ok u =>
        simp only [hm] at hok ⊢
        cases hu : o.useAccount.getD s.setupAccountCfg with
        | false => simp
        | true =>
          simp only [hu, if_true, StratSt.setupAccount] at hok ⊢
          cases ha : o.accountNo with
          | none => simp [ha] at hok
          | some a =>
            cases hg : env.gateConfigured with
            | false => simp [ha, hg] at hok
            | true =>
              cases hgc : env.gateCtor with
              | error e => simp [ha, hg, hgc] at hok
              | ok u => simp

/-- A call that makes an account object never gives it the number of an earlier one: the context then refers to the new object. -/
theorem c55_new_account (s : StratSt) (c : InitCall) : (s.call c).1.account = s.account ∨
    ∃ n, (s.call c).1.account = some n ∧ ∀ m, s.account = some m → m < n := by
  cases c with
  | runDaily f t =>
    left
    simp only [StratSt.call, StratSt.runDaily]
    repeat' split
    all_goals rfl
  | setOptions o env =>
    simp only [StratSt.call, StratSt.setOptions]
    split
    · exact .inl rfl
    · split
      · exact .inl rfl
      · split
        · exact .inl rfl
        · split
          · simp only [StratSt.setupAccount]
            split
            · exact .inl rfl
            · split
              · exact .inl rfl
              · split
                · exact .inl rfl
                · right
                  refine ⟨_, rfl, ?_⟩
                  intro m hm
                  simp only [hm, Option.elim]
                  omega
          · exact .inl rfl

/-- When no call of `process_initialize` fails and it leaves the account switched on, there is an account: the
account functions never meet a missing one. -/
theorem c55_account_exists_partial (s s' : StratSt) (hs : s.useAccount = none) (b : List (InitCall × Bool))
    (hb : ∀ c ∈ b, c.2 = false) (h : s.setup (some b) = (s', .ok ())) (hu : s'.useAccount = some true) :
    s'.account ≠ none := by
  have key : ∀ (b : List (InitCall × Bool)) (s s' : StratSt), s.allowed = true → (∀ c ∈ b, c.2 = false) →
      (s.useAccount = some true → s.account ≠ none) → s.runInit b = (s', .ok ()) →
      s'.useAccount = some true → s'.account ≠ none := by
    intro b
    induction b with
    | nil => intro s s' _ _ hp h; simp [StratSt.runInit] at h; subst h; exact hp
    | cons c b ih =>
      intro s s' ha hb hp h
      obtain ⟨c, caught⟩ := c
      have hc : caught = false := hb (c, caught) (by simp)
      subst hc
      have hca := call_account s ha c
      have hal := call_allowed s ha c
      simp only [StratSt.runInit] at h
      cases hcall : s.call c with
      | mk s1 r =>
        rw [hcall] at h hca hal
        cases r with
        | ok u => exact ih s1 s' hal (fun x hx => hb x (List.mem_cons_of_mem _ hx)) (hca rfl hp) h
        | error er => simp at h
  simp only [StratSt.setup] at h
  cases hr : ({ s with allowed := true } : StratSt).runInit b with
  | mk s1 r =>
    rw [hr] at h
    cases r with
    | error e => simp at h
    | ok u =>
      simp only [Prod.mk.injEq] at h
      rw [← h.1] at hu ⊢
      exact key b _ s1 rfl hb (by simp [hs]) hr hu

/-- Without that hypothesis it fails: a strategy that catches the failure of `set_options` (here: no account
number) runs with the account switched on and without an account, so that the account functions fail with an
attribute error instead of the refusal. -/
theorem c55_caught_failure_witness : ∃ s', StratSt.setup {} (some [(.setOptions {} {}, true)]) = (s', .ok ()) ∧
    s'.useAccount = some true ∧ s'.account = none := ⟨_, rfl, rfl, rfl⟩

/-- Non-vacuity: the default of the configuration, overridden by a later call. -/
example : (StratSt.setup { setupAccountCfg := true } (some [(.setOptions { accountNo := some c!"1" } {}, false)])).1.useAccount = some true ∧
    (StratSt.setup { setupAccountCfg := false } (some [(.setOptions {} {}, false)])).1.useAccount = some false ∧
    (StratSt.setup { setupAccountCfg := true } (some [(.setOptions { accountNo := some c!"1" } {}, false),
      (.setOptions { useAccount := some false } {}, false)])) =
      ({ useAccount := some false, account := some 0, options := { useAccount := some false } }, .ok ()) := by
  refine ⟨rfl, rfl, rfl⟩

/-! ## C59 -/

/-- If at the end of `process_initialize` the user's module still has under the name of each scheduled function
that very function, the `i`-th task runs the `i`-th function that was given. -/
theorem c59_runs_function_partial (fuel : Nat) (today : Int) (mp : Periods) (ns : Dict Str Nat)
    (calls : List (FuncObj × Str)) (s s' : SchedSt) (h0 : AfterInit s)
    (hok : ∀ c ∈ calls, ∃ n, c.1.fname = some n ∧ c.1.callable = true ∧ dget ns n = some c.1.ident)
    (h : SchedSt.schedule fuel today mp ns (successfulTasks (calls.map fun c => (.runDaily c.1 c.2, false))) s = some s') :
    ∀ i (hi : i < calls.length), ∃ cls, (s'.sources.map (·.1))[i]? = some cls ∧
      (s'.bus.emit sameClass cls).map Cb.fire = [.ok (some (calls[i]).1.ident)] := by
  have hts : ∀ calls : List (FuncObj × Str), (∀ c ∈ calls, ∃ n, c.1.fname = some n ∧ c.1.callable = true ∧ dget ns n = some c.1.ident) →
      (successfulTasks (calls.map fun c => (.runDaily c.1 c.2, false))).length = calls.length ∧
      ∀ i (hi : i < calls.length) (hj : i < (successfulTasks (calls.map fun c => (InitCall.runDaily c.1 c.2, false))).length),
        dget ns (successfulTasks (calls.map fun c => (.runDaily c.1 c.2, false)))[i].name = some (calls[i]).1.ident := by
    intro calls
    induction calls with
    | nil => intro _; exact ⟨rfl, fun i hi => absurd hi (by simp)⟩
    | cons c calls ih =>
      intro hok
      obtain ⟨n, h1, h2, h3⟩ := hok c (by simp)
      obtain ⟨i1, i2⟩ := ih (fun x hx => hok x (List.mem_cons_of_mem _ hx))
      have e : successfulTasks ((c :: calls).map fun c => (.runDaily c.1 c.2, false)) =
          ⟨n, timeAlias c.2⟩ :: successfulTasks (calls.map fun c => (.runDaily c.1 c.2, false)) := by
        simp only [successfulTasks, List.map_cons, List.filterMap_cons, h1, h2, Option.bind_some, if_true]
      rw [e]
      refine ⟨by simp [i1], ?_⟩
      intro i hi hj
      cases i with
      | zero => exact h3
      | succ i => exact i2 i (by simpa using hi) (by simpa using hj)
  obtain ⟨h1, h2⟩ := hts calls hok
  obtain ⟨g1, _, _, g4, _⟩ := c12_own_callback fuel today mp ns _ s s' h0 h
  intro i hi
  have hi' := h1.symm ▸ hi
  refine ⟨taskClassName (successfulTasks (calls.map fun c => (.runDaily c.1 c.2, false)))[i].name i, ?_, ?_⟩
  · rw [g1, List.getElem?_mapIdx, List.getElem?_eq_getElem hi']; rfl
  · rw [g4 i hi', h2 i hi hi']; rfl

/-- Non-vacuity. -/
example : ∀ c ∈ [((⟨7, some c!"f", true⟩ : FuncObj), c!"open"), (⟨8, some c!"g", true⟩, c!"every_minute")],
    ∃ n, c.1.fname = some n ∧ c.1.callable = true ∧ dget [(c!"f", 7), (c!"g", 8)] n = some c.1.ident := by
  intro c hc
  rcases List.mem_cons.1 hc with rfl | hc
  · exact ⟨_, rfl, rfl, rfl⟩
  · rcases List.mem_cons.1 hc with rfl | hc
    · exact ⟨_, rfl, rfl, rfl⟩
    · exact absurd hc (by simp)

/-- The statement of C59 fails in general: a function that is not found under its own name (a lambda, a local
function) makes the task fail with a `TypeError` when it fires, and a function whose name means another object
in the user's module (a decorated function, a method) makes that other object run instead. -/
theorem c59_by_name_refuted :
    (∃ s', SchedSt.schedule 10 0 [] [(c!"f", 7)]
        (successfulTasks [(.runDaily ⟨9, some c!"<lambda>", true⟩ c!"09:30", false)]) {} = some s' ∧
      (s'.bus.emit sameClass (taskClassName c!"<lambda>" 0)).map Cb.fire = [.error .typeError]) ∧
    (∃ s', SchedSt.schedule 10 0 [] [(c!"f", 7)]
        (successfulTasks [(.runDaily ⟨9, some c!"f", true⟩ c!"09:30", false)]) {} = some s' ∧
      (s'.bus.emit sameClass (taskClassName c!"f" 0)).map Cb.fire = [.ok (some 7)]) := by
  refine ⟨⟨_, rfl, ?_⟩, ⟨_, rfl, ?_⟩⟩ <;> decide

end Jq
