import Verif.Lemmas.LockWait
/-! # C93: waiting for the lock of the order file -/
namespace Jq

/-- How a call of `_write` ends, and after how many attempts: the attempts before the last one found the lock taken, before the time
was over; the last one did not.  Every way of ending is listed in `LastTry`. -/
theorem c93_attempts (W : WaitConf) (att : Nat → Attempt) (win : Bool) (f : FileId) (header line : Str) (fuel k : Nat) (fs : Files) (r : Py Unit) :
    (∃ fs', writeLoop W att win f header line fuel 0 fs = some (k, fs', r)) ↔
      k < fuel ∧ (∀ j, j < k → Held W (att j)) ∧ LastTry W (att k) r := by
  rw [writeLoop_iff]
  simp only [Nat.zero_le, true_and, Nat.zero_add, true_implies]

/-- The lock held by another for the first `n` attempts, which are one unit apart. -/
private def busyFor (n : Nat) (i : Nat) : Attempt :=
  { lock := if i < n then .taken else .free
    clock := i }

private def nothing : Files := fun _ => none

example : -- taken twice, then free: written at the third attempt
    let W : WaitConf := ⟨0, 5, 1⟩
    (∀ j, j < 2 → Held W (busyFor 2 j)) ∧ LastTry W (busyFor 2 2) (.ok ()) ∧
    (writeLoop W (busyFor 2) false (.orders c!"d") c!"H" c!"r\n" 10 0 nothing).map (fun x => (x.1, x.2.1 (.orders c!"d"), x.2.2)) =
      some (2, some c!"H\nr\n", .ok ()) := by
  refine ⟨fun j hj => ⟨rfl, by simp [busyFor, hj], ?_, by decide⟩, .written rfl rfl rfl, by decide +kernel⟩
  simp only [busyFor]; omega

example : -- taken for ever: `TimeOut` at the sixth attempt, when five units are over; the file is there, and empty
    (writeLoop ⟨0, 5, 1⟩ (busyFor 100) false (.orders c!"d") c!"H" c!"r\n" 10 0 nothing).map (fun x => (x.1, x.2.1 (.orders c!"d"), x.2.2)) =
      some (5, some [], .error .timeOut) := by decide +kernel

/-- While others add `x 0`, `x 1`, … to the file between the attempts: a call that returns has added its record exactly once, at the end
of what is there at its last attempt, with the header in front exactly if nothing is there; a call that times out (or fails to open or
to lock) has added nothing. -/
theorem c93_once (W : WaitConf) (att : Nat → Attempt) (win : Bool) (f : FileId) (columns items : List Str) (fuel k : Nat) (fs fs' : Files) (r : Py Unit)
    (x : Nat → Str) (hx : ∀ i, Adds f (att i) (x i)) (hc : ∀ s ∈ columns, '\n' ∉ s) (hi : ∀ s ∈ items, '\n' ∉ s)
    (h : writeLoop W att win f (joinWith c!"," columns) (joinWith c!"," items ++ linesep win) fuel 0 fs = some (k, fs', r)) :
    let there := (fs f).getD [] ++ addedUpTo x k
    (r = .ok () → Appended win columns items (some there) (fs' f)) ∧
    (r ≠ .ok () → ((att k).opening = none → (att k).lock ≠ .free) → (fs' f).getD [] = there) ∧
    (∀ e n, (att k).opening = none → (att k).lock = .free → (att k).flush = some (e, n) → r = .error e ∧
      ∃ whole, Appended win columns items (some there) (some whole) ∧ fs' f = some (whole.take (there.length + n))) := by
  intro there
  obtain ⟨fault, ha, hf, hfl⟩ := writeLoop_append W att win f _ _ fuel 0 fs k fs' r h
  have ht : (filesAt att f 0 (k - 0) fs f).getD [] = there := by
    rw [filesAt_text att f x hx, Nat.sub_zero, ← List.range_eq_range']
    rfl
  generalize filesAt att f 0 (k - 0) fs = gs at ha ht
  have hw := appendLine_text win f columns items gs hc (fun _ => hi)
  have hw2 : Appended win columns items (some there) ((appendLine win .none f (joinWith c!"," columns) (joinWith c!"," items ++ linesep win) gs).1 f) := by
    rcases hw.2 with ⟨h1, h2⟩ | ⟨t, h1, h2, h3⟩
    · exact .inl ⟨.inr (by rw [← ht]; rcases h1 with h1 | h1 <;> rw [h1] <;> rfl), h2⟩
    · exact .inr ⟨t, by rw [← ht, h1]; rfl, h2, h3⟩
  refine ⟨fun hr => ?_, fun hr hno => ?_, fun e n h1 h2 h3 => ?_⟩
  · rw [hf.2 hr] at ha
    rw [ha] at hw2
    exact hw2
  · cases fault with
    | none => exact absurd (hf.1 rfl) hr
    | «open» e =>
      simp only [appendLine, Prod.mk.injEq] at ha
      rw [← ha.1, ht]
    | lock e =>
      simp only [appendLine, Prod.mk.injEq] at ha
      rw [← ha.1, Files.set_self, Option.getD_some, ht]
    | flush e n =>
      have := (hfl e n).1 rfl
      exact absurd this.2.1 (hno this.1)
  · have := (hfl e n).2 ⟨h1, h2, h3⟩
    subst this
    simp only [appendLine, Prod.mk.injEq] at ha
    simp only [appendLine, Files.set_self] at hw2
    refine ⟨ha.2.symm, _, hw2, ?_⟩
    rw [← ha.1, Files.set_self, ht, List.take_append, List.take_of_length_le (Nat.le_add_right _ _), Nat.add_sub_cancel_left]

/-- Two others add a line each while the call waits. -/
private def busyAdding (n : Nat) (i : Nat) : Attempt :=
  { busyFor n i with
    ext := fun fs => if i < n then fs.set (.orders c!"d") (some ((fs (.orders c!"d")).getD [] ++ (if i = 0 then c!"H\na\n" else c!"b\n"))) else fs }

example : -- the file is empty when the call begins, but not when it has the lock: no second header
    (∀ i, Adds (.orders c!"d") (busyAdding 2 i) (if i = 0 then c!"H\na\n" else if i = 1 then c!"b\n" else [])) ∧
    (writeLoop ⟨0, 5, 1⟩ (busyAdding 2) false (.orders c!"d") (joinWith c!"," [c!"H"]) (joinWith c!"," [c!"r"] ++ linesep false) 10 0 nothing).map
      (fun x => (x.1, x.2.1 (.orders c!"d"), x.2.2)) = some (2, some c!"H\na\nb\nr\n", .ok ()) := by
  refine ⟨fun i fs => ?_, by decide +kernel⟩
  match i with
  | 0 => simp [busyAdding, Files.set_self]
  | 1 => simp [busyAdding, Files.set_self]
  | i + 2 => simp [busyAdding, show ¬ i + 2 < 2 by omega]

example : -- time over: what the others wrote is there, nothing else
    (writeLoop ⟨0, 1, 1⟩ (busyAdding 2) false (.orders c!"d") (joinWith c!"," [c!"H"]) (joinWith c!"," [c!"r"] ++ linesep false) 10 0 nothing).map
      (fun x => (x.1, x.2.1 (.orders c!"d"), x.2.2)) = some (1, some c!"H\na\nb\n", .error .timeOut) := by decide +kernel

/-- The call does nothing to other files. -/
theorem c93_other_files (W : WaitConf) (att : Nat → Attempt) (win : Bool) (f g : FileId) (header line : Str) (fuel k : Nat) (fs fs' : Files) (r : Py Unit)
    (hg : g ≠ f) (hx : ∀ i fs, (att i).ext fs g = fs g)
    (h : writeLoop W att win f header line fuel 0 fs = some (k, fs', r)) : fs' g = fs g := by
  obtain ⟨fault, ha, _⟩ := writeLoop_append W att win f _ _ fuel 0 fs k fs' r h
  have := appendLine_other win fault f header line (filesAt att f 0 (k - 0) fs) hg
  rw [ha, filesAt_other att f g hg hx] at this
  exact this

example : -- the others write the order file only
    (∀ i fs, (busyAdding 2 i).ext fs (.cancels c!"d") = fs (.cancels c!"d")) ∧
    (writeLoop ⟨0, 5, 1⟩ (busyAdding 2) false (.orders c!"d") c!"H" c!"r\n" 10 0 (nothing.set (.cancels c!"d") (some c!"x"))).map
      (fun x => (x.1, x.2.1 (.cancels c!"d"))) = some (2, some c!"x") := by
  refine ⟨fun i fs => ?_, by decide +kernel⟩
  simp only [busyAdding]
  split
  · simp [Files.set]
  · rfl

/-- The waiting ends: if the clock goes on by at least the (positive) interval from attempt to attempt, the call has ended after
`⌈time-out / interval⌉ + 1` attempts, whatever the others do. -/
theorem c93_ends_partial (W : WaitConf) (att : Nat → Attempt) (win : Bool) (f : FileId) (header line : Str) (fs : Files) (n : Nat)
    (ht : Ticks W att W.interval) (hn : W.timeOut ≤ n * W.interval) :
    ∃ k fs' r, writeLoop W att win f header line (n + 1) 0 fs = some (k, fs', r) ∧ k ≤ n ∧ (0 < k → ((k - 1 : Nat) : Int) * W.interval < W.timeOut) := by
  have hclock : ∀ i : Nat, W.start + i * W.interval ≤ (att i).clock := by
    intro i
    induction i with
    | zero => simpa using ht.1
    | succ i ih =>
      have := ht.2 i
      have e : ((i + 1 : Nat) : Int) * W.interval = i * W.interval + W.interval := by rw [Int.natCast_add, Int.add_mul]; simp
      omega
  have hlast : ¬ Held W (att n) := fun h => by have := h.early; have := hclock n; omega
  have hex : ∀ m fs i, i + m = n → ∃ k fs' r, writeLoop W att win f header line (m + 1) i fs = some (k, fs', r) := by
    intro m
    induction m with
    | zero =>
      intro fs i hi
      have : i = n := by omega
      subst this
      rcases writeLoop_succ W att win f header line 0 i fs with ⟨hh, _⟩ | ⟨_, fault, r, _, _, _, he, _⟩
      · exact absurd hh hlast
      · exact ⟨_, _, _, he⟩
    | succ m ih =>
      intro fs i hi
      rcases writeLoop_succ W att win f header line (m + 1) i fs with ⟨_, he⟩ | ⟨_, fault, r, _, _, _, he, _⟩
      · rw [he]; exact ih _ _ (by omega)
      · exact ⟨_, _, _, he⟩
  obtain ⟨k, fs', r, hk⟩ := hex n fs 0 (by omega)
  have := (writeLoop_iff W att win f header line k r (n + 1) 0 fs).1 ⟨fs', hk⟩
  refine ⟨k, fs', r, hk, by omega, fun hp => ?_⟩
  have h1 := (this.2.2.1 (k - 1) (by omega) (by omega)).early
  have h2 := hclock (k - 1)
  omega

example : -- the default: five seconds, 50 ms apart: at most 101 attempts
    let W : WaitConf := ⟨1000, 5000, 50⟩
    Ticks W (fun i => { lock := .taken, clock := 1000 + 51 * i }) W.interval ∧ W.timeOut ≤ (100 : Nat) * W.interval := by
  refine ⟨⟨by decide, fun i => ?_⟩, by decide⟩
  simp only
  omega

/-- A call that gives up has waited as long as it was told; if the clock goes on by at most `d` from attempt to attempt, it has
waited less than `d` longer. -/
theorem c93_waits_long_enough (W : WaitConf) (att : Nat → Attempt) (win : Bool) (f : FileId) (header line : Str) (fuel k : Nat) (fs fs' : Files)
    (hopen : (att k).opening ≠ some .timeOut) (hlock : (att k).lock ≠ .fails .timeOut) (hflush : ∀ n, (att k).flush ≠ some (.timeOut, n))
    (h : writeLoop W att win f header line fuel 0 fs = some (k, fs', .error .timeOut)) :
    (∀ j, j ≤ k → (att j).opening = none ∧ (att j).lock = .taken) ∧ W.start + W.timeOut ≤ (att k).clock ∧
    ∀ d, (∀ i, (att (i + 1)).clock ≤ (att i).clock + d) → 0 < k → (att k).clock < W.start + W.timeOut + d := by
  obtain ⟨_, _, hheld, hl⟩ := (writeLoop_iff W att win f header line k _ fuel 0 fs).1 ⟨fs', h⟩
  have hk : (att k).opening = none ∧ (att k).lock = .taken ∧ W.start + W.timeOut ≤ (att k).clock := by
    cases hl with
    | timedOut h1 h2 h3 => exact ⟨h1, h2, h3⟩
    | notOpened e h1 => exact absurd h1 hopen
    | lockFails e h1 h2 => exact absurd h2 hlock
    | notWritten e n h1 h2 h3 => exact absurd h3 (hflush n)
  refine ⟨fun j hj => ?_, hk.2.2, fun d hd hp => ?_⟩
  · by_cases e : j = k
    · subst e; exact ⟨hk.1, hk.2.1⟩
    · have := hheld j (by omega) (by omega)
      exact ⟨this.opened, this.taken⟩
  · have h1 := (hheld (k - 1) (by omega) (by omega)).early
    have h2 := hd (k - 1)
    have : k - 1 + 1 = k := by omega
    rw [this] at h2
    omega

example : ∃ fs', writeLoop ⟨0, 5, 2⟩ (fun i => { lock := .taken, clock := 2 * i }) false (.orders c!"d") c!"H" c!"r\n" 10 0 nothing =
    some (3, fs', .error .timeOut) := -- at 6, not at 4
  (c93_attempts _ _ _ _ _ _ _ _ _ _).2 ⟨by decide, fun j hj => ⟨rfl, rfl, by simp only; omega, by decide⟩, .timedOut rfl rfl (by decide)⟩

/-- A lock that is free when it is tried in time is obtained: the call can fail only if opening the file, locking it or writing it
fails.  (It may be free at other moments without being obtained: only the moments of the attempts count.) -/
theorem c93_free_in_time (W : WaitConf) (att : Nat → Attempt) (win : Bool) (f : FileId) (header line : Str) (fs : Files) (n : Nat)
    (hok : ∀ i, (att i).opening = none ∧ (∀ e, (att i).lock ≠ .fails e) ∧ (att i).flush = none) (hd : 0 ≤ W.interval)
    (hfree : (att n).lock = .free) (hearly : ∀ i, i < n → (att i).clock < W.start + W.timeOut) :
    ∃ k fs', k ≤ n ∧ writeLoop W att win f header line (n + 1) 0 fs = some (k, fs', .ok ()) := by
  have hex : ∃ k, k ≤ n ∧ (att k).lock = .free ∧ ∀ j, j < k → (att j).lock ≠ .free := by
    have : ∀ m, (∃ k, k ≤ m ∧ (att k).lock = .free ∧ ∀ j, j < k → (att j).lock ≠ .free) ∨ ∀ j, j ≤ m → (att j).lock ≠ .free := by
      intro m
      induction m with
      | zero =>
        by_cases e : (att 0).lock = .free
        · exact .inl ⟨0, by omega, e, fun j hj => absurd hj (by omega)⟩
        · exact .inr fun j hj => by have : j = 0 := by omega
                                    subst this; exact e
      | succ m ih =>
        rcases ih with ⟨k, h1, h2⟩ | hno
        · exact .inl ⟨k, by omega, h2⟩
        · by_cases e : (att (m + 1)).lock = .free
          · exact .inl ⟨m + 1, by omega, e, fun j hj => hno j (by omega)⟩
          · refine .inr fun j hj => ?_
            by_cases e' : j = m + 1
            · subst e'; exact e
            · exact hno j (by omega)
    rcases this n with h | h
    · exact h
    · exact absurd hfree (h n (Nat.le_refl _))
  obtain ⟨k, h1, h2, h3⟩ := hex
  have htaken : ∀ j, j < k → (att j).lock = .taken := by
    intro j hj
    cases e : (att j).lock with
    | free => exact absurd e (h3 j hj)
    | taken => rfl
    | fails x => exact absurd e ((hok j).2.1 x)
  obtain ⟨fs', h⟩ := (c93_attempts W att win f header line (n + 1) k fs (.ok ())).2
    ⟨by omega, fun j hj => ⟨(hok j).1, htaken j hj, hearly j (by omega), hd⟩, .written (hok k).1 h2 (hok k).2.2⟩
  exact ⟨k, fs', h1, h⟩

example : -- the hypotheses, with the lock taken for three attempts
    (∀ i, (busyFor 3 i).opening = none ∧ (∀ e, (busyFor 3 i).lock ≠ .fails e) ∧ (busyFor 3 i).flush = none) ∧ (busyFor 3 3).lock = .free ∧
    ∀ i, i < 3 → (busyFor 3 i).clock < (0 : Int) + 5 := by
  refine ⟨fun i => ⟨rfl, fun e => ?_, rfl⟩, rfl, fun i hi => ?_⟩
  · simp only [busyFor]; split <;> simp
  · simp only [busyFor]; omega

/-- Without the clock going on the call does not end: while another process keeps the lock, and the clock is set back (or the
computer's clock is read again and again before the time is over), it waits for ever. -/
theorem c93_clock_back_refuted (W : WaitConf) (att : Nat → Attempt) (win : Bool) (f : FileId) (header line : Str) (fs : Files)
    (hopen : ∀ i, (att i).opening = none) (htaken : ∀ i, (att i).lock = .taken) (hd : 0 ≤ W.interval)
    (hback : ∀ i, (att i).clock < W.start + W.timeOut) : ∀ fuel, writeLoop W att win f header line fuel 0 fs = none := by
  intro fuel
  cases h : writeLoop W att win f header line fuel 0 fs with
  | none => rfl
  | some x =>
    obtain ⟨k, fs', r⟩ := x
    exact absurd ⟨hopen k, htaken k, hback k, hd⟩ (lastTry_not_held ((writeLoop_iff W att win f header line k r fuel 0 fs).1 ⟨fs', h⟩).2.2.2)

example : -- set back by an hour at the third attempt, and read every 50 ms until the time is nearly over
    let att : Nat → Attempt := fun i => { lock := .taken, clock := if i < 3 then 1000 + 50 * i else min (1150 - 3600000 + 50 * i) 5000 }
    (∀ i, (att i).opening = none) ∧ (∀ i, (att i).lock = .taken) ∧ ∀ i, (att i).clock < (1000 : Int) + 5000 := by
  refine ⟨fun _ => rfl, fun _ => rfl, fun i => ?_⟩
  simp only
  split <;> omega

/-- What the rest of the model takes `_write` to be (`appendLine`, with a fault chosen by the environment) is what the loop does at its
last attempt: with no fault exactly if the call returns. -/
theorem c93_is_append (W : WaitConf) (att : Nat → Attempt) (win : Bool) (f : FileId) (header line : Str) (fuel k : Nat) (fs fs' : Files) (r : Py Unit)
    (hx : ∀ i, (att i).ext = id) (h : writeLoop W att win f header line fuel 0 fs = some (k, fs', r)) :
    ∃ fault, appendLine win fault f header line (if k = 0 then fs else fs.set f (some ((fs f).getD []))) = (fs', r) ∧ (fault = .none ↔ r = .ok ()) := by
  obtain ⟨fault, ha, hf, _⟩ := writeLoop_append W att win f _ _ fuel 0 fs k fs' r h
  refine ⟨fault, ?_, hf⟩
  rw [← ha]
  congr 1
  have hset : ∀ (gs : Files) (a b : Option Str), (gs.set f a).set f b = gs.set f b := by
    intro gs a b; funext g; simp only [Files.set]; split <;> rfl
  have : ∀ n i gs, filesAt att f i n gs = if n = 0 then gs else gs.set f (some ((gs f).getD [])) := by
    intro n
    induction n with
    | zero => intro i gs; simp [filesAt, hx]
    | succ n ih =>
      intro i gs
      simp only [filesAt, hx, id]
      rw [ih, hset, Files.set_self, Option.getD_some]
      split <;> simp
  rw [this, Nat.sub_zero]

example : -- alone with a lock that is taken twice: as `appendLine` without fault on the file made by the first attempt
    (∀ i, (busyFor 2 i).ext = id) ∧ ∃ fs', writeLoop ⟨0, 5, 1⟩ (busyFor 2) false (.orders c!"d") c!"H" c!"r\n" 10 0 nothing = some (2, fs', .ok ()) :=
  ⟨fun _ => rfl, (c93_attempts _ _ _ _ _ _ _ _ _ _).2 ⟨by decide, fun j hj => ⟨rfl, by simp [busyFor, hj], by simp only [busyFor]; omega, by decide⟩, .written rfl rfl rfl⟩⟩

end Jq
