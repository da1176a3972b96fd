import Verif.Model.Clock
import Verif.Lemmas.Float
import Verif.Lemmas.Run
import Verif.Spec.Run
import Verif.Props.C03_Loop
/-! # C84: the times that a strategy sees -/
namespace Jq
variable {σ κ ε : Type} {exec : κ → σ → σ × List (Act κ) × Option ε}

/-! ## The clock -/

/-- Up to the year 2106, the clock of the loop shows the millisecond in which the time lies; or the next one, but only in the last
0.00025 ms before it begins. -/
theorem c84_clock (rnd : Rat → Rat) (R : Rounds rnd) (t : Rat) (h0 : 0 ≤ t) (h1 : t < 4294967296) :
    ((clockMillis rnd t : Rat) ≤ t * 1000 ∧ t * 1000 < clockMillis rnd t + 1) ∨
      (t * 1000 < clockMillis rnd t ∧ (clockMillis rnd t : Rat) ≤ t * 1000 + 1 / 4096) := by
  have p53 : (2 : Rat) ^ 53 = 9007199254740992 := by decide
  have hx0 : 0 ≤ t * 1000 := by grind
  have hx1 : t * 1000 < 4398046511104 := by grind
  have e := R.e42 hx0 hx1
  have o := fun n => R.order n (t * 1000) hx0 (by rw [p53]; grind)
  unfold clockMillis
  generalize t * 1000 = x at *
  have f1 := Rat.floor_le (rnd x)
  have f2 := Rat.lt_floor_add_one (rnd x)
  simp only [Rat.intCast_add, Rat.intCast_one] at f2
  by_cases hle : ((rnd x).floor : Rat) ≤ x
  · refine .inl ⟨hle, ?_⟩
    -- the next whole number is not reached
    have hn0 : (0 : Rat) ≤ rnd x := by simpa using (o 0).1 (by simpa using hx0)
    have hf0 : 0 ≤ (rnd x).floor := Rat.le_floor_iff.2 (by simpa using hn0)
    have c := (o ((rnd x).floor + 1).toNat).1
    have ec : (((rnd x).floor + 1).toNat : Rat) = (rnd x).floor + 1 := by
      rw [← Rat.intCast_natCast, Int.toNat_of_nonneg (by omega)]
      simp only [Rat.intCast_add, Rat.intCast_one]
    rw [ec] at c
    grind
  · exact .inr ⟨by grind, by grind⟩

/-- The second case happens: 72 ns before 1700000000.001 the clock shows that millisecond already. -/
theorem c84_clock_ahead_witness :
    let t : Rat := 7130316800004194 / 2 ^ 22
    double t = t ∧ t * 1000 < 1700000000001 ∧ clockMillis double t = 1700000000001 := by decide +kernel

/-- So a callback may run before its time, but by less than 0.00025 ms; in exact time, too, it is never earlier than that. -/
theorem c84_never_early (rnd : Rat → Rat) (R : Rounds rnd) (w : σ) (ls : List (Label κ)) (s : LoopSt σ κ ε)
    (h : (LoopSt.init w).run exec ls = some s) (m : Msg κ) (now : Int) (hm : (m, now) ∈ s.fired)
    (t : Rat) (h0 : 0 ≤ t) (h1 : t < 4294967296) (ht : now = clockMillis rnd t) : (m.time : Rat) ≤ t * 1000 + 1 / 4096 := by
  have a := c03_never_early w ls s h m now hm
  subst ht
  have b : (m.time : Rat) ≤ clockMillis rnd t := Rat.intCast_le_intCast.2 a
  have c := c84_clock rnd R t h0 h1
  grind

/-- `current_dt` is the time of the clock in milliseconds. -/
theorem c84_current_dt (rnd : Rat → Rat) (R : Rounds rnd) (t : Rat) (h0 : 0 ≤ t) (h1 : t < 4294967295) :
    currentDt rnd t = clockMillis rnd t * 1000 ∧ (currentDt rnd t : Rat) ≤ t * 1000000 + 1 / 4 ∧ t * 1000000 < currentDt rnd t + 1000 := by
  have c := c84_clock rnd R t h0 (by grind)
  have hn : 0 ≤ clockMillis rnd t := by
    have : (0 : Rat) ≤ rnd (t * 1000) := by
      have p53 : (2 : Rat) ^ 53 = 9007199254740992 := by decide
      simpa using (R.order 0 (t * 1000) (by grind) (by rw [p53]; grind)).1 (by simpa using (by grind : 0 ≤ t * 1000))
    exact Rat.le_floor_iff.2 (by simpa using this)
  have hlt : clockMillis rnd t < 4294967296000 := Rat.intCast_lt_intCast.1 (by
    have : ((4294967296000 : Int) : Rat) = 4294967296000 := by decide
    rw [this]; grind)
  have e : currentDt rnd t = clockMillis rnd t * 1000 := by
    simp only [currentDt]; exact R.back _ hn hlt
  have e' : (currentDt rnd t : Rat) = clockMillis rnd t * 1000 := by
    rw [e, Rat.intCast_mul]; rfl
  refine ⟨e, ?_, ?_⟩ <;> rw [e'] <;> grind

example : currentDt double (7130316800004194 / 2 ^ 22) = 1700000000001000 := by decide +kernel
example : currentDt double (3463441200 / 2 + 1 / 4) = 1731720600250000 := by decide +kernel

/-! ## The logical time -/

/-- The logical time of a loop is that of the message handled last; before the first there is none. -/
theorem c84_strategy_dt (rnd : Rat → Rat) (R : Rounds rnd) (s0 s : LoopSt σ κ ε) (hf : s0.fired = []) (hs : s0.strategyTime = none)
    (ls : List (Label κ)) (h : s0.run exec ls = some s) :
    (s.fired = [] → s.strategyDt rnd = none) ∧
    ∀ before m now, s.fired = before ++ [(m, now)] → 0 < m.time → m.time < 4294967296000 → s.strategyDt rnd = some (millisToDt m.time) := by
  have hl : s.strategyTime = s.fired.getLast?.map (fun f => f.1.time) := by
    refine LoopSt.run_induct (P := fun s => s.strategyTime = s.fired.getLast?.map (fun f => f.1.time)) h (by simp [hf, hs]) ?_
    intro a l b i hs
    rcases step_cases hs with ⟨-, hp, hn, rfl⟩ | ⟨-, hp, hn, rfl⟩ | ⟨-, hp, hn, rfl⟩ |
      ⟨-, hp, hst, hq, rfl⟩ | ⟨-, hp, hst, m, r, hq, rfl⟩ | ⟨now, exits, m, -, hp, hlt, he, rfl⟩ |
      ⟨now, exits, m, -, hp, hlt, he, rfl⟩ | ⟨now, exits, m, -, hp, hle, rfl⟩ | ⟨-, hp, rfl⟩ |
      ⟨t, p, d, -, rfl⟩
    · exact i
    · exact i
    · exact i
    · exact i
    · exact i
    · have f := a.stop_frame; simpa [f.stime, f.fired] using i
    · exact i
    · have f := LoopSt.handle_frame (exec := exec) { a with phase := .checking } m now
      rw [f.stime, f.fired]; simp
    · have f := a.stop_frame; simpa [f.stime, f.fired] using i
    · exact i
  constructor
  · intro e; simp [LoopSt.strategyDt, hl, e]
  · intro before m now e h0 h1
    have : s.strategyTime = some m.time := by simp [hl, e]
    simp only [LoopSt.strategyDt, this, millisToDt]
    rw [if_neg (by omega), R.back _ (by omega) h1]

/-- After the set-up of a process nothing has been handled. -/
theorem runStart_quiet {α : Type} (Rn : RunEnv α) (i : Nat) (srcs : List (ESrc Str × Py Unit)) (l l' : LoopSt (RunW α) Nat PyErr) (x : Option PyErr)
    (h : runStart Rn i srcs l = (l', x)) : l'.fired = l.fired ∧ l'.strategyTime = l.strategyTime := by
  induction srcs generalizing i l with
  | nil => simp only [runStart] at h; cases h; exact ⟨rfl, rfl⟩
  | cons y ys ih =>
    obtain ⟨s, o⟩ := y
    cases o with
    | error e => simp only [runStart] at h; cases h; exact ⟨rfl, rfl⟩
    | ok u =>
      simp only [runStart] at h
      generalize runPush Rn i _ = r at h
      obtain ⟨w, acts, err⟩ := r
      have fr := LoopSt.foldl_act_frame ({ l with world := w }) acts
      cases err with
      | some e =>
        simp only at h; cases h
        exact ⟨fr.fired, fr.stime⟩
      | none =>
        have := ih _ _ h
        exact ⟨this.1.trans fr.fired, this.2.trans fr.stime⟩

/-- In a process (C63, C65, C78), while the functions of a firing run, and until the next firing, `context.strategy_dt` is the very datetime
at which that firing was due, as long as that is a time from 1970 to 2106; and what `context.current_dt` shows then, if the clock has not been
set back, is not before it. -/
theorem c84_sees_due_time {α : Type} (rnd : Rat → Rat) (R : Rounds rnd) (Rn : RunEnv α) (srcs : List (ESrc Str × Py Unit)) (a0 : α)
    (l0 : LoopSt (RunW α) Nat PyErr) (x : Option PyErr) (hstart : runStart Rn 0 srcs (runEmpty a0) = (l0, x))
    (ls : List (Label Nat)) (s : LoopSt (RunW α) Nat PyErr) (hrun : l0.run (runExec Rn) ls = some s)
    (act : Cb → α → α × Option PyErr) (k : Nat) (prio : Nat → Int) (cbs : Nat → List Cb) (due : Nat → List Int)
    (hdue : RunsAsDue act a0 k prio cbs due s)
    (before : List (Msg Nat × Int)) (f : Msg Nat × Int) (hf : s.fired = before ++ [f])
    (h0 : 0 < f.1.time) (h1 : f.1.time < 4294967296000) :
    ∃ d, (due f.1.data)[(firingsIn before f.1.data).length]? = some d ∧ s.strategyDt rnd = some d ∧
      ∀ t : Rat, 0 ≤ t → t < 4294967295 → f.2 ≤ clockMillis rnd t → d ≤ currentDt rnd t := by
  have q := runStart_quiet Rn 0 srcs _ _ _ hstart
  have c := (c84_strategy_dt rnd R l0 s q.1 q.2 ls hrun).2 before f.1 f.2 hf h0 h1
  refine ⟨millisToDt f.1.time, ?_, c, ?_⟩
  · have hmem : f ∈ s.fired := by rw [hf]; simp
    have hk := (hdue.sources f hmem).1
    obtain ⟨rest, hr⟩ := hdue.fires _ hk
    rw [← hr]
    have : firingsOf s f.1.data = firingsIn before f.1.data ++ [millisToDt f.1.time] := by
      simp [firingsOf, firingsIn, hf]
    rw [this]
    simp
  · intro t t0 t1 hc
    have hmem : f ∈ s.fired := by rw [hf]; simp
    have hk := (hdue.sources f hmem).2
    rw [(c84_current_dt rnd R t t0 t1).1]
    simp only [millisToDt]
    omega

/-- The logical time does not go back. -/
theorem c84_not_back (rnd : Rat → Rat) (R : Rounds rnd) (prio : Nat → Int) (s1 s2 : LoopSt σ Nat ε)
    {exec : Nat → σ → σ × List (Act Nat) × Option ε} (l0 : LoopSt σ Nat ε) (hf : l0.fired = []) (hs : l0.strategyTime = none)
    (ls more : List (Label Nat)) (h1 : l0.run exec ls = some s1) (h2 : s1.run exec more = some s2) (ho : InOrder prio s2)
    (hb : ∀ f ∈ s2.fired, 0 < f.1.time ∧ f.1.time < 4294967296000) (d1 : Int) (hd : s1.strategyDt rnd = some d1) :
    ∃ d2, s2.strategyDt rnd = some d2 ∧ d1 ≤ d2 := by
  have hpre : s1.fired <+: s2.fired := by
    refine LoopSt.run_induct (P := fun s => s1.fired <+: s.fired) h2 (List.prefix_refl _) ?_
    intro a l b i hs
    rcases step_cases hs with ⟨-, hp, hn, rfl⟩ | ⟨-, hp, hn, rfl⟩ | ⟨-, hp, hn, rfl⟩ |
      ⟨-, hp, hst, hq, rfl⟩ | ⟨-, hp, hst, m, r, hq, rfl⟩ | ⟨now, exits, m, -, hp, hlt, he, rfl⟩ |
      ⟨now, exits, m, -, hp, hlt, he, rfl⟩ | ⟨now, exits, m, -, hp, hle, rfl⟩ | ⟨-, hp, rfl⟩ |
      ⟨t, p, d, -, rfl⟩
    · exact i
    · exact i
    · exact i
    · exact i
    · exact i
    · have f := a.stop_frame; simpa [f.fired] using i
    · exact i
    · have f := LoopSt.handle_frame (exec := exec) { a with phase := .checking } m now
      rw [f.fired]; exact i.trans (List.prefix_append _ _)
    · have f := a.stop_frame; simpa [f.fired] using i
    · exact i
  have c1 := c84_strategy_dt rnd R l0 s1 hf hs ls h1
  have c2 := c84_strategy_dt rnd R l0 s2 hf hs (ls ++ more) (LoopSt.run_append' h1 h2)
  rcases List.eq_nil_or_concat s1.fired with e | ⟨b1, f1, e1⟩
  · rw [c1.1 e] at hd; cases hd
  · rw [List.concat_eq_append] at e1
    obtain ⟨r, hr⟩ := hpre
    have m1 : f1 ∈ s2.fired := by rw [← hr, e1]; simp
    have k1 := c1.2 b1 f1.1 f1.2 e1 (hb f1 m1).1 (hb f1 m1).2
    rw [k1] at hd; cases hd
    rcases List.eq_nil_or_concat r with e | ⟨b2, f2, e2⟩
    · subst e
      rw [List.append_nil, e1] at hr
      exact ⟨_, c2.2 b1 f1.1 f1.2 hr.symm (hb f1 m1).1 (hb f1 m1).2, Int.le_refl _⟩
    · rw [List.concat_eq_append] at e2
      have hs2 : s2.fired = (s1.fired ++ b2) ++ [f2] := by rw [← hr, e2, List.append_assoc]
      have m2 : f2 ∈ s2.fired := by rw [hs2]; simp
      refine ⟨_, c2.2 _ f2.1 f2.2 hs2 (hb f2 m2).1 (hb f2 m2).2, ?_⟩
      have ho' := ho
      simp only [InOrder, hs2, List.pairwise_append] at ho'
      have := ho'.2.2 f1 (by rw [e1]; simp) f2 (by simp)
      simp only [millisToDt]
      omega

/-- A concrete case: two messages, seen one after the other. -/
example :
    let exec : Nat → Unit → Unit × List (Act Nat) × Option PyErr := fun _ _ => ((), [], none)
    let l0 : LoopSt Unit Nat PyErr := (({ world := () } : LoopSt Unit Nat PyErr).pushNew 1700000000001 0 0).pushNew 1700000000005 0 1
    ((l0.run exec [.wakeNotify]).map (·.strategyDt double)) = some none ∧
    ((l0.run exec [.wakeNotify, .pop, .clock 1700000000001 []]).map (·.strategyDt double)) = some (some 1700000000001000) ∧
    ((l0.run exec [.wakeNotify, .pop, .clock 1700000000001 [], .pop, .clock 1700000000007 []]).map (·.strategyDt double)) =
      some (some 1700000000005000) := by
  decide +kernel

end Jq
