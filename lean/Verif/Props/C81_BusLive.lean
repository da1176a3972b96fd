import Verif.Lemmas.BusLive
/-! # C81: callbacks that register and unregister callbacks while they are called -/
set_option linter.unusedSectionVars false
namespace Jq

variable {C K σ : Type} [DecidableEq C] [DecidableEq K]

/-! ## Callbacks that leave the bus alone -/

private theorem callInTurn_append (act : BusAct C K σ) (l m : List K) (st : σ) : callInTurn act (l ++ m) st =
    match callInTurn act l st with
    | (a, st, some e) => (a, st, some e)
    | (a, st, none) => match callInTurn act m st with | (b, st, e) => (a ++ b, st, e) := by
  induction l generalizing st with
  | nil => simp [callInTurn]
  | cons k l ih =>
    simp only [List.cons_append, callInTurn]
    rcases act k st with ⟨st1, ops, _ | e⟩
    · simp only [ih]
      rcases callInTurn act l st1 with ⟨a, st2, _ | e⟩ <;> simp
    · rfl

/-- A part of an emission that calls the callbacks `l` in turn and leaves the bus alone. -/
private structure Plain (act : BusAct C K σ) (l : List K) (s : EmitSt C K σ) (r : Option (EmitSt C K σ × Option PyErr)) : Prop where
  out : ∃ s' e, r = some (s', e) ∧ s'.bus = s.bus ∧ s'.log.map (·.cb) = s.log.map (·.cb) ++ (callInTurn act l s.st).1 ∧
    s'.st = (callInTurn act l s.st).2.1 ∧ e = (callInTurn act l s.st).2.2

private theorem emitAt_plain (act : BusAct C K σ) (hq : ∀ k st, (act k st).2.1 = []) (c : C) (p : Int) (n j : Nat) (s : EmitSt C K σ)
    (hn : ((s.bus.at c p).drop j).length < n) : Plain act ((s.bus.at c p).drop j) s (s.emitAt act c p n j) := by
  induction n generalizing j s with
  | zero => cases hn
  | succ n ih =>
    simp only [EmitSt.emitAt]
    cases hk : (s.bus.at c p)[j]? with
    | none =>
      have : (s.bus.at c p).drop j = [] := List.drop_eq_nil_iff.2 (List.getElem?_eq_none_iff.1 hk)
      rw [this]
      exact ⟨⟨s, none, rfl, rfl, by simp [callInTurn], rfl, rfl⟩⟩
    | some k =>
      have hd : (s.bus.at c p).drop j = k :: (s.bus.at c p).drop (j + 1) := by
        obtain ⟨hj, rfl⟩ := List.getElem?_eq_some_iff.1 hk
        exact List.drop_eq_getElem_cons hj
      rw [hd] at hn ⊢
      have hq' := hq k s.st
      simp only [EmitSt.call]
      rcases ha : act k s.st with ⟨st1, ops, e⟩
      rw [ha] at hq'
      simp only at hq'
      subst hq'
      cases e with
      | some e => exact ⟨⟨_, _, rfl, rfl, by simp [callInTurn, ha], by simp [callInTurn, ha], by simp [callInTurn, ha]⟩⟩
      | none =>
        obtain ⟨s', e', h1, h2, h3, h4, h5⟩ := (ih (j + 1) ⟨s.bus, st1, s.log ++ [⟨c, p, k, []⟩]⟩ (Nat.lt_of_succ_lt_succ hn)).out
        refine ⟨⟨s', e', ?_, h2, ?_, ?_, ?_⟩⟩
        · simpa using h1
        · simp [callInTurn, ha, h3]
        · simp [callInTurn, ha, h4]
        · simp [callInTurn, ha, h5]

/-- Go on with `f` unless something was raised. -/
private def thenRun (r : Option (EmitSt C K σ × Option PyErr)) (f : EmitSt C K σ → Option (EmitSt C K σ × Option PyErr)) :
    Option (EmitSt C K σ × Option PyErr) :=
  match r with | none => none | some (s', some e) => some (s', some e) | some (s', none) => f s'

private theorem Plain.seq {act : BusAct C K σ} {l m : List K} {s : EmitSt C K σ} {r : Option (EmitSt C K σ × Option PyErr)}
    {f : EmitSt C K σ → Option (EmitSt C K σ × Option PyErr)} (h : Plain act l s r)
    (hf : ∀ s' : EmitSt C K σ, s'.bus = s.bus → Plain act m s' (f s')) :
    Plain act (l ++ m) s (thenRun r f) := by
  obtain ⟨s1, e1, rfl, h2, h3, h4, h5⟩ := h.out
  have hc := callInTurn_append act l m s.st
  rcases hl : callInTurn act l s.st with ⟨a, st1, e⟩
  rw [hl] at h3 h4 h5 hc
  simp only at h3 h4 h5
  subst h5
  cases e1 with
  | some e => exact ⟨⟨s1, some e, rfl, h2, by rw [hc]; exact h3, by rw [hc]; exact h4, by rw [hc]⟩⟩
  | none =>
    obtain ⟨s2, e2, g1, g2, g3, g4, g5⟩ := (hf s1 h2).out
    rw [h4] at g3 g4 g5
    refine ⟨⟨s2, e2, g1, g2.trans h2, ?_, ?_, ?_⟩⟩
    · rw [g3, h3, hc, List.append_assoc]
    · rw [g4, hc]
    · rw [g5, hc]

private theorem emitPrios_plain (act : BusAct C K σ) (hq : ∀ k st, (act k st).2.1 = []) (c : C) (fuel : Nat) (ps : List Int) (s : EmitSt C K σ)
    (hn : ∀ p, (s.bus.at c p).length < fuel) : Plain act (ps.flatMap fun p => s.bus.at c p) s (s.emitPrios act fuel c ps) := by
  induction ps generalizing s with
  | nil => exact ⟨⟨s, none, rfl, rfl, by simp [callInTurn], rfl, rfl⟩⟩
  | cons p ps ih =>
    have h1 := emitAt_plain act hq c p fuel 0 s (by simpa using hn p)
    rw [List.drop_zero] at h1
    rw [List.flatMap_cons]
    show Plain act _ s (thenRun (s.emitAt act c p fuel 0) fun s' => s'.emitPrios act fuel c ps)
    exact h1.seq fun s' hs => by
      have := ih s' (by rw [hs]; exact hn)
      rw [hs] at this
      exact this

private theorem emitClasses_plain (act : BusAct C K σ) (hq : ∀ k st, (act k st).2.1 = []) (sub : C → C → Bool) (ec : C) (fuel : Nat)
    (cs : List C) (s : EmitSt C K σ) (hn : ∀ c p, (s.bus.at c p).length < fuel) :
    Plain act (cs.flatMap fun c => if sub ec c then (sortBy (fun p => -p) (dkeys ((dget s.bus c).getD []))).flatMap fun p => s.bus.at c p else [])
      s (s.emitClasses act fuel sub ec s.bus.length cs) := by
  have key : ∀ n, n = s.bus.length →
      Plain act (cs.flatMap fun c => if sub ec c then (sortBy (fun p => -p) (dkeys ((dget s.bus c).getD []))).flatMap fun p => s.bus.at c p else [])
      s (s.emitClasses act fuel sub ec n cs) := by
    intro n hlen
    induction cs generalizing s with
    | nil => exact ⟨⟨s, none, rfl, rfl, by simp [callInTurn], rfl, rfl⟩⟩
    | cons c cs ih =>
      rw [List.flatMap_cons]
      have h1 : Plain act (if sub ec c then (sortBy (fun p => -p) (dkeys ((dget s.bus c).getD []))).flatMap fun p => s.bus.at c p else [])
          s (s.emitClass act fuel sub ec c) := by
        simp only [EmitSt.emitClass]
        split
        · exact emitPrios_plain act hq c fuel _ s (hn c)
        · exact ⟨⟨s, none, rfl, rfl, by simp [callInTurn], rfl, rfl⟩⟩
      have h2 := h1.seq (f := fun s' => if cs ≠ [] ∧ s'.bus.length ≠ n then some (s', some .runtimeError)
          else s'.emitClasses act fuel sub ec n cs)
        (m := cs.flatMap fun c => if sub ec c then (sortBy (fun p => -p) (dkeys ((dget s.bus c).getD []))).flatMap fun p => s.bus.at c p else [])
        (fun s' hs => by
          rw [if_neg (by rw [hs, hlen]; simp)]
          have := ih s' (by rw [hs]; exact hn) (by rw [hs]; exact hlen)
          rw [hs] at this
          exact this)
      exact h2
  exact key _ rfl

private theorem at_bound (b : Bus C K) : ∃ N, ∀ c p, (b.at c p).length < N := by
  have hd : ∀ d : Dict Int (List K), ∃ N, ∀ p, ((dget d p).getD []).length < N := by
    intro d
    induction d with
    | nil => exact ⟨1, fun p => by simp⟩
    | cons e d ih =>
      obtain ⟨N, hN⟩ := ih
      refine ⟨N + e.2.length + 1, fun p => ?_⟩
      have := hN p
      simp only [dget]
      split
      · simp only [Option.getD_some]; omega
      · omega
  induction b with
  | nil => exact ⟨1, fun c p => by simp [Bus.at]⟩
  | cons e b ih =>
    obtain ⟨N, hN⟩ := ih
    obtain ⟨M, hM⟩ := hd e.2
    refine ⟨N + M, fun c p => ?_⟩
    have h1 := hN c p
    have h2 := hM p
    simp only [Bus.at, dget] at h1 ⊢
    split
    · simp only [Option.bind_some]; omega
    · omega

/-- Callbacks that leave the bus alone are called as C14 says, up to the first exception, which `emit` raises. -/
theorem c81_bus_unchanged (act : BusAct C K σ) (hq : ∀ k st, (act k st).2.1 = []) (sub : C → C → Bool) (ops : List (BusOp C K)) (ec : C)
    (st : σ) : ∃ N, ∀ fuel, N ≤ fuel → ∃ s', (ops.foldl Bus.apply []).emitLive act fuel sub ec st =
      some (s', (callInTurn act (expectedCalls sub ops ec) st).2.2) ∧
      s'.bus = ops.foldl Bus.apply [] ∧ s'.log.map (·.cb) = (callInTurn act (expectedCalls sub ops ec) st).1 ∧
      s'.st = (callInTurn act (expectedCalls sub ops ec) st).2.1 := by
  have hrep := represents_history ops
  have hem := represents_emit hrep sub ec
  rw [show ((classOrder ops).filter (sub ec)).flatMap _ = expectedCalls sub ops ec from rfl] at hem
  generalize hb : ops.foldl Bus.apply [] = b at *
  obtain ⟨N, hN⟩ := at_bound b
  refine ⟨N, fun fuel hf => ?_⟩
  obtain ⟨s', e, h1, h2, h3, h4, h5⟩ := (emitClasses_plain act hq sub ec fuel (dkeys b) ⟨b, st, []⟩
    (fun c p => Nat.lt_of_lt_of_le (hN c p) hf)).out
  have hl : ((dkeys b).flatMap fun c => if sub ec c then (sortBy (fun p => -p) (dkeys ((dget b c).getD []))).flatMap fun p => b.at c p else []) =
      expectedCalls sub ops ec := by
    rw [← hem]
    simp only [Bus.emit, dkeys, List.flatMap_map]
    have hok := busOk hrep
    have aux : ∀ l : List (C × Dict Int (List K)), (∀ x ∈ l, x ∈ b) →
        (l.flatMap fun a => if sub ec a.1 then (sortBy (fun p => -p) (dkeys ((dget b a.1).getD []))).flatMap fun p => b.at a.1 p else []) =
        l.flatMap fun e => if sub ec e.1 then (sortBy (fun p => -p) (dkeys e.2)).flatMap fun p => (dget e.2 p).getD [] else [] := by
      intro l hl
      induction l with
      | nil => rfl
      | cons x l ih =>
        rw [List.flatMap_cons, List.flatMap_cons, ih fun y hy => hl y (List.mem_cons_of_mem _ hy)]
        have : dget b x.1 = some x.2 := dget_of_mem hok (hl x (List.mem_cons_self ..))
        simp only [Bus.at, this, Option.getD_some, Option.bind_some]
    exact aux b fun _ h => h
  rw [hl] at h3 h4 h5
  exact ⟨s', by rw [← h5]; exact h1, h2, by simpa using h3, h4⟩

/-! ## Callbacks that change it -/

/-- A callback that nobody registers or unregisters meanwhile is called as often as it is registered, if no callback unregisters
itself or one called before it. -/
theorem c81_called_partial (act : BusAct C K σ) (fuel : Nat) (sub : C → C → Bool) (ops : List (BusOp C K)) (ec : C) (st : σ)
    (s' : EmitSt C K σ) (h : (ops.foldl Bus.apply []).emitLive act fuel sub ec st = some (s', none)) (hnb : NeverBack s'.log)
    (c : C) (hc : sub ec c = true) (p : Int) (k : K)
    (hu : ∀ e ∈ s'.log, .unregister c k ∉ e.ops ∧ .register c k p ∉ e.ops) :
    timesCalled s'.log c p k = timesRegistered ops c p k := by
  have hrep := represents_history ops
  have hcount : ((ops.foldl Bus.apply []).at c p).count k = timesRegistered ops c p k := by
    have hl : (ops.foldl Bus.apply []).at c p = regsAt (inForce ops) c p := by
      simp only [Bus.at]
      cases hg : dget (ops.foldl Bus.apply []) c with
      | none =>
        have hnm := (dget_eq_none _ _).1 hg
        symm
        simp only [regsAt, Option.bind_none, Option.getD_none, List.map_eq_nil_iff, List.filter_eq_nil_iff]
        intro r hr hc'
        simp only [decide_eq_true_eq] at hc'
        obtain ⟨d, hd, _⟩ := hrep.cover r hr
        exact hnm (List.mem_map.2 ⟨_, hc'.1 ▸ hd, rfl⟩)
      | some d => exact hrep.lists c d (mem_of_dget hg) p
    rw [hl]
    simp only [regsAt, timesRegistered]
    induction inForce ops with
    | nil => rfl
    | cons r rs ih =>
      obtain ⟨rc, rp, rk⟩ := r
      simp only [List.filter_cons, Reg.mk.injEq]
      by_cases h1 : rc = c ∧ rp = p
      · obtain ⟨rfl, rfl⟩ := h1
        by_cases h2 : rk = k
        · subst h2; simpa using ih
        · simpa [h2] using ih
      · have h3 : ¬ (rc = c ∧ rp = p ∧ rk = k) := fun e => h1 ⟨e.1, e.2.1⟩
        rw [if_neg (by simpa using h1), if_neg (by simpa using h3)]
        exact ih
  have hcls := emitClasses_count (H := ops) act fuel sub ec _ _ (busOk hrep) ⟨_, st, []⟩ s' h (by simp [EmitSt.From]) hnb hc hu
  rw [hcls]
  simp only [timesCalled, List.filter_nil, List.length_nil, Nat.zero_add]
  split
  · exact hcount
  · rename_i hn
    rw [← hcount]
    simp [Bus.at, (dget_eq_none _ _).2 hn]

/-- A bus with callbacks for one class and priority. -/
private theorem registered_at (c : C) (p : Int) (ks : List K) (b : Bus C K) (hb : ∃ l, b = [(c, [(p, l)])]) :
    ∃ l, (ks.map fun k => BusOp.register c k p).foldl Bus.apply b = [(c, [(p, l)])] ∧ l = b.at c p ++ ks := by
  induction ks generalizing b with
  | nil => obtain ⟨l, rfl⟩ := hb; exact ⟨l, rfl, by simp [Bus.at, dget]⟩
  | cons k ks ih =>
    obtain ⟨l, rfl⟩ := hb
    have e : Bus.apply [(c, [(p, l)])] (.register c k p) = [(c, [(p, l ++ [k])])] := by simp [Bus.apply, Bus.register, dget, dset]
    obtain ⟨l', h1, h2⟩ := ih [(c, [(p, l ++ [k])])] ⟨_, rfl⟩
    refine ⟨l', ?_, ?_⟩
    · rw [List.map_cons, List.foldl_cons, e, h1]
    · rw [h2]; simp [Bus.at, dget]

private theorem registered_one (c : C) (p : Int) (k : K) (ks : List K) :
    ((k :: ks).map fun k => BusOp.register c k p).foldl Bus.apply [] = [(c, [(p, k :: ks)])] := by
  obtain ⟨l, h1, h2⟩ := registered_at c p ks [(c, [(p, [k])])] ⟨_, rfl⟩
  rw [List.map_cons, List.foldl_cons]
  have e : Bus.apply ([] : Bus C K) (.register c k p) = [(c, [(p, [k])])] := by simp [Bus.apply, Bus.register, dget, dset]
  rw [e, h1, h2]
  simp [Bus.at, dget]

/-- Callbacks that leave the bus alone and do not raise are called one after the other. -/
private theorem emitAt_quiet (act : BusAct C K σ) (c : C) (p : Int) (q : List K) (hq : ∀ x ∈ q, ∀ st, (act x st).2 = ([], none))
    (n j : Nat) (s : EmitSt C K σ) (rest : List K) (hd : (s.bus.at c p).drop j = q ++ rest) :
    ∃ s' : EmitSt C K σ, s.emitAt act c p (n + q.length) j = s'.emitAt act c p n (j + q.length) ∧ s'.bus = s.bus ∧
      s'.log.map (·.cb) = s.log.map (·.cb) ++ q := by
  induction q generalizing j s with
  | nil => exact ⟨s, rfl, rfl, by simp⟩
  | cons k q ih =>
    have hk : (s.bus.at c p)[j]? = some k := by
      have := congrArg List.head? hd
      rw [List.head?_drop] at this
      simpa using this
    have hd' : (s.bus.at c p).drop (j + 1) = q ++ rest := by
      have := congrArg List.tail hd
      rw [List.tail_drop] at this
      simpa using this
    have ha := hq k (List.mem_cons_self ..) s.st
    obtain ⟨s', h1, h2, h3⟩ := ih (fun x hx => hq x (List.mem_cons_of_mem _ hx)) (j + 1)
      ⟨s.bus, (act k s.st).1, s.log ++ [⟨c, p, k, []⟩]⟩ hd'
    refine ⟨s', ?_, h2, by simpa using h3⟩
    rw [List.length_cons, show n + (q.length + 1) = (n + q.length) + 1 by omega, show j + (q.length + 1) = j + 1 + q.length by omega, ← h1]
    rw [EmitSt.emitAt]
    simp only [hk, EmitSt.call]
    rcases hact : act k s.st with ⟨st1, ops, e⟩
    rw [hact] at ha
    obtain ⟨rfl, rfl⟩ := Prod.mk.inj ha
    rfl

/-- A callback that unregisters itself makes the next one be left out. -/
theorem c81_unregisters_itself_refuted (act : BusAct C K σ) (c ec : C) (p : Int) (before after : List K) (k next : K)
    (hnd : (before ++ k :: next :: after).Nodup) (sub : C → C → Bool) (hsub : sub ec c = true)
    (hk : ∀ st, (act k st).2 = ([.unregister c k], none)) (ho : ∀ x, x ≠ k → ∀ st, (act x st).2 = ([], none)) (st : σ) (fuel : Nat)
    (hf : before.length + after.length + 2 ≤ fuel) :
    ∃ s', (((before ++ k :: next :: after).map fun k => BusOp.register c k p).foldl Bus.apply []).emitLive act fuel sub ec st = some (s', none) ∧
      s'.log.map (·.cb) = before ++ k :: after := by
  obtain ⟨x, xs, hxs⟩ : ∃ x xs, before ++ k :: next :: after = x :: xs := by
    cases before with
    | nil => exact ⟨_, _, rfl⟩
    | cons a l => exact ⟨_, _, rfl⟩
  have hb : ((before ++ k :: next :: after).map fun k => BusOp.register c k p).foldl Bus.apply [] = [(c, [(p, before ++ k :: next :: after)])] := by
    rw [hxs]; exact registered_one c p x xs
  rw [hb]
  have hnk : ∀ x ∈ before, x ≠ k := fun x hx e => by
    have := (List.nodup_append.1 hnd).2.2 x hx k (by simp)
    exact this e
  have hak : ∀ x ∈ after, x ≠ k := fun x hx e => by
    have := (List.nodup_cons.1 (List.nodup_append.1 hnd).2.1).1
    exact this (by rw [← e]; simp [hx])
  have hat : Bus.at [(c, [(p, before ++ k :: next :: after)])] c p = before ++ k :: next :: after := by simp [Bus.at, dget]
  obtain ⟨n, rfl⟩ : ∃ n, fuel = ((n + 1) + after.length) + 1 + before.length := ⟨fuel - before.length - after.length - 2, by omega⟩
  obtain ⟨s1, h1, h2, h3⟩ := emitAt_quiet act c p before (fun x hx => ho x (hnk x hx)) (((n + 1) + after.length) + 1) 0
    ⟨[(c, [(p, before ++ k :: next :: after)])], st, []⟩ (k :: next :: after) (by rw [List.drop_zero]; exact hat)
  have hk' := hk s1.st
  have hrm : removeFirst k (before ++ k :: next :: after) = some (before ++ next :: after) := by
    rw [removeFirst_append (fun hm => hnk k hm rfl)]; simp [removeFirst]
  have hbus : Bus.apply s1.bus (.unregister c k) = [(c, [(p, before ++ next :: after)])] := by
    rw [h2]
    simp [Bus.apply, Bus.unregister, dget, dset, hrm]
  have h4 : s1.emitAt act c p (((n + 1) + after.length) + 1) (0 + before.length) =
      EmitSt.emitAt act c p ((n + 1) + after.length) (0 + before.length + 1)
        ⟨[(c, [(p, before ++ next :: after)])], (act k s1.st).1, s1.log ++ [⟨c, p, k, [.unregister c k]⟩]⟩ := by
    rw [EmitSt.emitAt]
    have : (s1.bus.at c p)[0 + before.length]? = some k := by rw [h2, hat]; simp
    simp only [this, EmitSt.call]
    rcases hact : act k s1.st with ⟨st1, ops, e⟩
    rw [hact] at hk'
    obtain ⟨rfl, rfl⟩ := Prod.mk.inj hk'
    simp only [List.foldl_cons, List.foldl_nil, hbus]
  obtain ⟨s2, g1, g2, g3⟩ := emitAt_quiet act c p after (fun x hx => ho x (hak x hx)) (n + 1) (0 + before.length + 1)
    ⟨[(c, [(p, before ++ next :: after)])], (act k s1.st).1, s1.log ++ [⟨c, p, k, [.unregister c k]⟩]⟩ []
    (by simp [Bus.at, dget])
  have h5 : s2.emitAt act c p (n + 1) (0 + before.length + 1 + after.length) = some (s2, none) := by
    rw [EmitSt.emitAt]
    have : (s2.bus.at c p)[0 + before.length + 1 + after.length]? = none := by
      rw [g2, List.getElem?_eq_none_iff]
      simp only [Bus.at, dget, if_true, Option.bind_some, Option.getD_some, List.length_append, List.length_cons]
      omega
    simp only [this]
  refine ⟨s2, ?_, ?_⟩
  · simp only [Bus.emitLive, dkeys, List.map_cons, List.map_nil, EmitSt.emitClasses, EmitSt.emitClass, hsub, if_true, dget, Option.getD_some,
      sortBy, insertBy, EmitSt.emitPrios]
    rw [h1, h4, g1, h5]
    simp
  · rw [g3]
    simp only [List.map_append, List.map_cons, List.map_nil]
    rw [h3]
    simp

/-- A callback that registers for a class without callbacks so far ends the emission with an exception, if a class is still to come:
the callbacks of that class are not called. -/
theorem c81_new_class_refuted (act : BusAct C K σ) (c d e ec : C) (p q r : Int) (k k' x : K) (hcd : c ≠ d) (hec : e ≠ c) (hed : e ≠ d)
    (sub : C → C → Bool) (hsub : sub ec c = true) (hk : ∀ st, (act k st).2 = ([.register e x r], none)) (st : σ) (fuel : Nat) (hf : 2 ≤ fuel) :
    ∃ s', ([BusOp.register c k p, .register d k' q].foldl Bus.apply []).emitLive act fuel sub ec st = some (s', some .runtimeError) ∧
      s'.log.map (·.cb) = [k] := by
  obtain ⟨n, rfl⟩ : ∃ n, fuel = n + 2 := ⟨fuel - 2, by omega⟩
  have hk' := hk st
  rcases hact : act k st with ⟨st1, ops, er⟩
  rw [hact] at hk'
  obtain ⟨rfl, rfl⟩ := Prod.mk.inj hk'
  have h1 : ¬ c = e := fun h => hec h.symm
  have h2 : ¬ d = e := fun h => hed h.symm
  refine ⟨⟨[(c, [(p, [k])]), (d, [(q, [k'])]), (e, [(r, [x])])], st1, [⟨c, p, k, [.register e x r]⟩]⟩, ?_, rfl⟩
  simp only [List.foldl_cons, List.foldl_nil, Bus.apply, Bus.register, dget, dset, Option.getD_none, List.nil_append, if_neg hcd,
    Bus.emitLive, dkeys, List.map_cons, List.map_nil, EmitSt.emitClasses, EmitSt.emitClass, hsub, if_true, Option.getD_some, sortBy,
    insertBy, EmitSt.emitPrios, EmitSt.emitAt, Bus.at, Option.bind_some, List.getElem?_cons_zero, EmitSt.call, hact, if_neg h1, if_neg h2,
    List.getElem?_cons_succ, List.getElem?_nil]
  simp

/-- A callback that registers itself again runs for ever. -/
theorem c81_registers_itself_refuted (act : BusAct C K σ) (c ec : C) (p : Int) (k : K) (sub : C → C → Bool) (hsub : sub ec c = true)
    (hk : ∀ st, (act k st).2 = ([.register c k p], none)) (st : σ) (fuel : Nat) :
    ([BusOp.register c k p].foldl Bus.apply []).emitLive act fuel sub ec st = none := by
  have key : ∀ n j (s : EmitSt C K σ), (∃ m, s.bus = [(c, [(p, List.replicate m k)])] ∧ j < m) → s.emitAt act c p n j = none := by
    intro n
    induction n with
    | zero => intros; rfl
    | succ n ih =>
      rintro j s ⟨m, hb, hj⟩
      have hat : (s.bus.at c p)[j]? = some k := by
        rw [hb]
        simp [Bus.at, dget, hj]
      have hk' := hk s.st
      rcases hact : act k s.st with ⟨st1, ops, er⟩
      rw [hact] at hk'
      obtain ⟨rfl, rfl⟩ := Prod.mk.inj hk'
      simp only [EmitSt.emitAt, hat, EmitSt.call, hact, List.foldl_cons, List.foldl_nil]
      refine ih (j + 1) _ ⟨m + 1, ?_, by omega⟩
      simp only [hb, Bus.apply, Bus.register, dget, dset, if_true, Option.getD_some]
      rw [show List.replicate m k ++ [k] = List.replicate (m + 1) k from List.replicate_succ'.symm]
  simp only [List.foldl_cons, List.foldl_nil, Bus.apply, Bus.register, dget, dset, Option.getD_none, List.nil_append,
    Bus.emitLive, dkeys, List.map_cons, List.map_nil, EmitSt.emitClasses, EmitSt.emitClass, hsub, if_true, Option.getD_some, sortBy,
    insertBy, EmitSt.emitPrios]
  rw [key fuel 0 _ ⟨1, rfl, by omega⟩]

/-! ## Concrete cases -/

/-- Callback 1 registers callback 9 at a lower priority and unregisters callback 3, which comes later; callbacks 2 and 4 are called once. -/
private def demoAct : BusAct Nat Nat Unit := fun k st => (st, if k = 1 then [.register 0 9 (-5), .unregister 0 3] else [], none)

private def demoBus : List (BusOp Nat Nat) := [.register 0 1 0, .register 0 2 0, .register 0 3 0, .register 0 4 7]

example : ((demoBus.foldl Bus.apply []).emitLive demoAct 9 (· == ·) 0 ()).map (fun r => (r.1.log.map (·.cb), r.2)) = some ([4, 1, 2], none) ∧
    timesRegistered demoBus 0 0 2 = 1 := by decide

private def demoLog : List (BusCall Nat Nat) := [⟨0, 7, 4, []⟩, ⟨0, 0, 1, [.register 0 9 (-5), .unregister 0 3]⟩, ⟨0, 0, 2, []⟩]

example : ∃ s', (demoBus.foldl Bus.apply []).emitLive demoAct 9 (· == ·) 0 () = some (s', none) ∧ NeverBack s'.log ∧
    (∀ e ∈ s'.log, .unregister 0 2 ∉ e.ops ∧ .register 0 2 0 ∉ e.ops) := by
  refine ⟨⟨[(0, [(0, [1, 2]), (7, [4]), (-5, [9])])], (), demoLog⟩, rfl, ?_, ?_⟩
  · intro before e after h k hk
    have hm : e ∈ demoLog := by rw [show demoLog = _ from h]; simp
    simp only [demoLog, List.mem_cons, List.not_mem_nil, or_false] at hm
    have hkk : k = 3 := by rcases hm with rfl | rfl | rfl <;> simp at hk; exact hk
    subst hkk
    have all : ∀ e' ∈ demoLog, 3 ≠ e'.cb := by decide
    exact ⟨all e (by rw [show demoLog = _ from h]; simp), fun e' he' _ _ => all e' (by rw [show demoLog = _ from h]; simp [he'])⟩
  · intro e he
    simp only [demoLog, List.mem_cons, List.not_mem_nil, or_false] at he
    rcases he with rfl | rfl | rfl <;> simp

/-- A callback that is to run once, before another. -/
private def onceAct : BusAct Nat Nat Unit := fun k st => (st, if k = 1 then [.unregister 0 1] else [], none)

example : (((([1, 2, 3].map fun k => BusOp.register 0 k 0).foldl Bus.apply []).emitLive onceAct 9 (· == ·) 0 ()).map
    fun r => r.1.log.map (·.cb)) = some [1, 3] := by decide

/-- A quiet emission over two classes with an exception in the middle. -/
private def failAct : BusAct Nat Nat Nat := fun k st => (st + k, [], if k = 2 then some .valueError else none)

example : ((([.register 0 1 0, .register 5 2 0, .register 5 3 1] : List (BusOp Nat Nat)).foldl Bus.apply []).emitLive failAct 9 (fun _ _ => true) 0 0).map
    (fun r => (r.1.log.map (·.cb), r.1.st, r.2)) = some ([1, 3, 2], 6, some .valueError) := by decide

end Jq
