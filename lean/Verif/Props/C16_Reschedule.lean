import Verif.Model.Reschedule
/-! # C16: changing a source that is already scheduled -/
namespace Jq
variable {σ : Type}

/-- With at least one callback left in the list and a source that can always be peeked, the loop over the
callbacks never ends: each callback appends another one. -/
private theorem notify_forever (peek : σ → σ × Py (Option (Int × Int))) (hp : ∀ x, ∃ r, (peek x).2 = .ok r)
    (fuel : Nat) : ∀ (i : Nat) (s : ReSt σ), i < s.callbacks.length → ReSt.notify peek fuel i s = none := by
  induction fuel with
  | zero => intros; rfl
  | succ fuel ih =>
    intro i s hi
    simp only [ReSt.notify, List.getElem?_eq_getElem hi, ReSt.schedule, ReSt.unschedule, ReSt.pushNext]
    obtain ⟨r, hr⟩ := hp s.src
    cases hpk : peek s.src with
    | mk src res =>
      rw [hpk] at hr
      simp only at hr
      subst hr
      cases r with
      | none => exact ih _ _ (by simp; omega)
      | some ev => exact ih _ _ (by simp; omega)

/-- `daily()` on a source that is scheduled never returns, whatever the number of steps allowed, provided the
source can be peeked: the property fails. -/
theorem c16_never_returns_refuted (peek : σ → σ × Py (Option (Int × Int))) (hp : ∀ x, ∃ r, (peek x).2 = .ok r)
    (add : σ → σ) (s0 s : ReSt σ) (hs : s0.schedule peek = (s, .ok ())) (fuel : Nat) :
    s.daily peek add fuel = none := by
  refine notify_forever peek hp fuel 0 _ ?_
  simp only [ReSt.schedule, ReSt.pushNext] at hs
  split at hs <;> simp only [Prod.mk.injEq] at hs <;> obtain ⟨rfl, h⟩ := hs
  · cases h
  · simp
  · simp

/-- Not even unscheduling the source first helps: its callback stays registered. -/
theorem c16_unscheduled_never_returns_refuted (peek : σ → σ × Py (Option (Int × Int)))
    (hp : ∀ x, ∃ r, (peek x).2 = .ok r) (add : σ → σ) (s0 s : ReSt σ) (hs : s0.schedule peek = (s, .ok ())) (n fuel : Nat) :
    (s.unschedule n).daily peek add fuel = none := by
  refine notify_forever peek hp fuel 0 _ ?_
  simp only [ReSt.schedule, ReSt.pushNext] at hs
  split at hs <;> simp only [Prod.mk.injEq] at hs <;> obtain ⟨rfl, h⟩ := hs
  · cases h
  · simp [ReSt.unschedule]
  · simp [ReSt.unschedule]

/-- What does hold: on a source that was never scheduled `daily()` returns at once and only changes the source;
and on a scheduled source it can only end with the exception of a failing peek. -/
theorem c16_unscheduled_returns_partial (peek : σ → σ × Py (Option (Int × Int))) (add : σ → σ) (s : ReSt σ) :
    (s.callbacks = [] → ∀ fuel, 0 < fuel → s.daily peek add fuel = some ({ s with src := add s.src }, .ok ())) ∧
    (s.callbacks ≠ [] → ∀ fuel s' r, s.daily peek add fuel = some (s', r) → ∃ e x, r = .error e ∧ (peek x).2 = .error e) := by
  refine ⟨fun h fuel hf => ?_, fun h fuel s' r => ?_⟩
  · cases fuel with
    | zero => omega
    | succ fuel => simp [ReSt.daily, ReSt.notify, h]
  · have key : ∀ fuel i (s : ReSt σ) s' r, i < s.callbacks.length → ReSt.notify peek fuel i s = some (s', r) →
        ∃ e x, r = .error e ∧ (peek x).2 = .error e := by
      intro fuel
      induction fuel with
      | zero => intro i s s' r _ h; cases h
      | succ fuel ih =>
        intro i s s' r hi h
        simp only [ReSt.notify, List.getElem?_eq_getElem hi, ReSt.schedule, ReSt.unschedule, ReSt.pushNext] at h
        cases hpk : peek s.src with
        | mk src res =>
          rw [hpk] at h
          cases res with
          | error e =>
            simp only [Option.some.injEq, Prod.mk.injEq] at h
            exact ⟨e, s.src, h.2.symm, by rw [hpk]⟩
          | ok o =>
            cases o with
            | none => exact ih _ _ _ _ (by simp; omega) h
            | some ev => exact ih _ _ _ _ (by simp; omega) h
    exact key fuel 0 _ s' r (by simpa using List.length_pos_iff.2 h)

private theorem notify_until_error (peek : σ → σ × Py (Option (Int × Int))) (e : PyErr) (rs : List (Option (Int × Int))) :
    ∀ (xs : List σ) (x last : σ) (s : ReSt σ) (n i fuel : Nat), s.src = x → rs.length < fuel → xs.length = rs.length →
    (∀ (k : Nat) (a b : σ) (r : Option (Int × Int)), (x :: xs)[k]? = some a → xs[k]? = some b → rs[k]? = some r → peek a = (b, .ok r)) →
    peek ((x :: xs).getLast (by simp)) = (last, .error e) →
    s.lastId = n + i → s.callbacks = List.range' n (i + 1) → s.live = [n + i] →
    ReSt.notify peek fuel i s = some ({
      src := last
      callbacks := List.range' n (i + 1 + (rs.length + 1))
      live := [n + i + (rs.length + 1)]
      lastId := n + i + (rs.length + 1)
      msgs := s.msgs ++ (rs.zipIdx (n + i + 1)).filterMap fun q => q.1.map fun ev => (ev.1, ev.2, q.2) }, .error e) := by
  induction rs with
  | nil =>
    intro xs x last s n i fuel hx hf hl _ hlast hid hcb hlive
    obtain rfl : xs = [] := List.eq_nil_of_length_eq_zero hl
    obtain ⟨fuel, rfl⟩ : ∃ f, fuel = f + 1 := ⟨fuel - 1, by simp at hf; omega⟩
    have hg : s.callbacks[i]? = some (n + i) := by rw [hcb, List.getElem?_range' (by omega)]; simp
    simp only [List.getLast_singleton] at hlast
    simp only [ReSt.notify, ReSt.unschedule, ReSt.schedule, ReSt.pushNext, hx, hlast, hlive, hcb, hid]
    simp [List.range'_concat, Nat.add_assoc]
  | cons r rs ih =>
    intro xs x last s n i fuel hx hf hl hstep hlast hid hcb hlive
    obtain ⟨y, ys, rfl⟩ : ∃ y ys, xs = y :: ys := by cases xs with
      | nil => simp at hl
      | cons y ys => exact ⟨y, ys, rfl⟩
    obtain ⟨fuel, rfl⟩ : ∃ f, fuel = f + 1 := ⟨fuel - 1, by simp at hf; omega⟩
    have hg : s.callbacks[i]? = some (n + i) := by rw [hcb, List.getElem?_range' (by omega)]; simp
    have h0 := hstep 0 x y r rfl rfl rfl
    have hpk : ((s.unschedule (n + i)).schedule peek) = ({
        src := y
        callbacks := List.range' n (i + 1 + 1)
        live := [n + (i + 1)]
        lastId := n + (i + 1)
        msgs := s.msgs ++ (r.map fun ev => (ev.1, ev.2, n + i + 1)).toList }, .ok ()) := by
      simp only [ReSt.unschedule, ReSt.schedule, ReSt.pushNext, hx, h0, hlive, hcb, hid]
      cases r <;> simp [List.range'_concat, Nat.add_assoc]
    simp only [ReSt.notify, hg, hpk]
    rw [ih ys y last _ n (i + 1) fuel rfl (by simpa using hf) (by simpa using hl)
      (fun k a b r h1 h2 h3 => hstep (k + 1) a b r h1 h2 h3) (by simpa using hlast) rfl rfl rfl]
    simp only [List.length_cons, Option.some.injEq, Prod.mk.injEq, and_true, ReSt.mk.injEq, true_and]
    refine ⟨by congr 1; omega, by congr 1; omega, by omega, ?_⟩
    rw [List.zipIdx_cons, List.filterMap_cons]
    cases r <;> simp [Nat.add_assoc]

/-- The only way out, exactly: on a source scheduled once, `daily()` ends with the exception of the first failing peek.  By then every peek
before it made one more schedule of the source, each id taking the place of the one before; all the callbacks stay registered, and the
message of every id but the last one is dead. -/
theorem c16_ends_at_failing_peek (peek : σ → σ × Py (Option (Int × Int))) (add : σ → σ) (s : ReSt σ) (n : Nat)
    (hid : s.lastId = n) (hcb : s.callbacks = [n]) (hlive : s.live = [n])
    (xs : List σ) (rs : List (Option (Int × Int))) (last : σ) (e : PyErr) (hl : xs.length = rs.length)
    (hstep : ∀ (k : Nat) (a b : σ) (r : Option (Int × Int)), (add s.src :: xs)[k]? = some a → xs[k]? = some b → rs[k]? = some r →
      peek a = (b, .ok r))
    (hlast : peek ((add s.src :: xs).getLast (by simp)) = (last, .error e)) (fuel : Nat) (hf : rs.length < fuel) :
    s.daily peek add fuel = some ({
      src := last
      callbacks := List.range' n (rs.length + 2)
      live := [n + rs.length + 1]
      lastId := n + rs.length + 1
      msgs := s.msgs ++ (rs.zipIdx (n + 1)).filterMap fun q => q.1.map fun ev => (ev.1, ev.2, q.2) }, .error e) := by
  have := notify_until_error peek e rs xs (add s.src) last { s with src := add s.src } n 0 fuel rfl hf hl hstep hlast hid hcb hlive
  rw [ReSt.daily, this]
  simp only [Option.some.injEq, Prod.mk.injEq, and_true, ReSt.mk.injEq, true_and]
  have e1 : 0 + 1 + (rs.length + 1) = rs.length + 2 := by omega
  simp [e1, Nat.add_assoc]

/-- Non-vacuity: a source that can be peeked twice more; ids 4, 5 and 6 were made, 6 is alive, the messages of 4 and 5 are dead. -/
example : (({ src := 1, callbacks := [3], live := [3], lastId := 3, msgs := [(7, 0, 3)] } : ReSt Int).daily
      (fun x => if x < 4 then (x + 1, .ok (some (10 * x, 0))) else (x, .error .valueError)) (· + 1) 10).map
      (fun q => (q.1.live, q.1.callbacks, q.1.msgs)) =
    some ([6], [3, 4, 5, 6], [(7, 0, 3), (20, 0, 4), (30, 0, 5)]) := by decide +kernel

/-- Once a schedule id is unscheduled its pending message does nothing: no event is taken or emitted and no
further message is pushed, until the end. -/
theorem c16_unschedule_silences (peek next : σ → σ × Py (Option (Int × Int))) (n : Nat) (s : ReSt σ) :
    (s.unschedule n).fire peek next n = (s.unschedule n, .ok none) := by
  simp [ReSt.fire, ReSt.unschedule]

/-- Unscheduling one id does not disturb another: the messages of every other id do what they would have done,
event, exceptions, next message and all. -/
theorem c16_unschedule_leaves_others (peek next : σ → σ × Py (Option (Int × Int))) (n m : Nat) (h : m ≠ n) (s : ReSt σ) :
    (s.unschedule n).fire peek next m = ((s.fire peek next m).1.unschedule n, (s.fire peek next m).2) := by
  have hm : m ∈ (s.unschedule n).live ↔ m ∈ s.live := by simp [ReSt.unschedule, h]
  simp only [ReSt.fire, hm]
  split
  · simp only [ReSt.unschedule]
    cases next s.src with
    | mk src r =>
      cases r with
      | error e => rfl
      | ok o =>
        cases o with
        | none => rfl
        | some ev =>
          simp only [ReSt.pushNext]
          cases peek src with
          | mk src' r' =>
            cases r' with
            | error e => rfl
            | ok o' => cases o' <;> rfl
  · rfl

/-- Non-vacuity: of two ids on one source, the second still delivers after the first is gone. -/
example : ((ReSt.unschedule 1 { src := 5, live := [1, 2], lastId := 2 : ReSt Nat }).fire
      (fun x => (x, .ok (some (7, 0)))) (fun x => (x + 1, .ok (some (6, 0)))) 2).2 = .ok (some (6, 0)) := by decide

/-- A source whose events are a list: peeking shows the next event and changes nothing that follows, taking it removes it. -/
structure IsStream (peek next : σ → σ × Py (Option (Int × Int))) (out : σ → List (Int × Int)) : Prop where
  peeked : ∀ x, (peek x).2 = .ok (out x).head? ∧ out (peek x).1 = out x
  taken : ∀ x, (next x).2 = .ok (out x).head? ∧ out (next x).1 = (out x).tail

/-- The callback of one schedule id run `k` times: the events emitted. -/
def fireTimes (peek next : σ → σ × Py (Option (Int × Int))) (n : Nat) : Nat → ReSt σ → List (Py (Option (Int × Int))) × ReSt σ
  | 0, s => ([], s)
  | k + 1, s => ((s.fire peek next n).2 :: (fireTimes peek next n k (s.fire peek next n).1).1, (fireTimes peek next n k (s.fire peek next n).1).2)

private theorem fireTimes_stream {peek next : σ → σ × Py (Option (Int × Int))} {out : σ → List (Int × Int)} (h : IsStream peek next out)
    (n : Nat) (es rest : List (Int × Int)) : ∀ (s : ReSt σ), n ∈ s.live → out s.src = es ++ rest →
    (fireTimes peek next n es.length s).1 = es.map (fun e => .ok (some e)) ∧
    (fireTimes peek next n es.length s).2.msgs = s.msgs ++ (((es ++ rest).take (es.length + 1)).drop 1).map (fun e => (e.1, e.2, n)) ∧
    out (fireTimes peek next n es.length s).2.src = rest ∧ (fireTimes peek next n es.length s).2.live = s.live := by
  induction es with
  | nil => intro s _ hs; cases rest <;> simpa [fireTimes] using hs
  | cons e es ih =>
    intro s hn hs
    have ht := h.taken s.src
    have hp := h.peeked (next s.src).1
    rw [hs] at ht
    simp only [List.cons_append, List.head?_cons, List.tail_cons] at ht
    rw [ht.2] at hp
    have hf : s.fire peek next n = ({ s with
        src := (peek (next s.src).1).1
        msgs := s.msgs ++ ((es ++ rest).take 1).map (fun e => (e.1, e.2, n)) }, .ok (some e)) := by
      have e1 : next s.src = ((next s.src).1, .ok (some e)) := Prod.ext rfl ht.1
      have e2 : peek (next s.src).1 = ((peek (next s.src).1).1, .ok (es ++ rest).head?) := Prod.ext rfl hp.1
      simp only [ReSt.fire, hn, if_true]
      rw [e1]
      simp only [ReSt.pushNext]
      rw [e2]
      cases es ++ rest <;> simp
    have := ih (s.fire peek next n).1 (by rw [hf]; exact hn) (by rw [hf]; exact hp.2)
    simp only [List.length_cons, fireTimes]
    rw [hf] at this ⊢
    refine ⟨by rw [this.1]; rfl, ?_, this.2.2.1, this.2.2.2⟩
    rw [this.2.1]
    cases h' : es ++ rest <;> simp [h']

/-- A scheduled source delivers its events in order, each exactly once: the message of each is pushed with its time and priority as
soon as the one before it was delivered, and after the last nothing is pushed. -/
theorem c16_delivers_in_order (peek next : σ → σ × Py (Option (Int × Int))) (out : σ → List (Int × Int)) (h : IsStream peek next out)
    (s : ReSt σ) (es rest : List (Int × Int)) (hs : out s.src = es ++ rest) :
    (s.schedule peek).2 = .ok () ∧
    (fireTimes peek next (s.lastId + 1) es.length (s.schedule peek).1).1 = es.map (fun e => .ok (some e)) ∧
    (fireTimes peek next (s.lastId + 1) es.length (s.schedule peek).1).2.msgs =
      s.msgs ++ ((es ++ rest).take (es.length + 1)).map (fun e => (e.1, e.2, s.lastId + 1)) ∧
    out (fireTimes peek next (s.lastId + 1) es.length (s.schedule peek).1).2.src = rest := by
  have hp := h.peeked s.src
  rw [hs] at hp
  have e2 : peek s.src = ((peek s.src).1, .ok (es ++ rest).head?) := Prod.ext rfl hp.1
  have hf : s.schedule peek = ({ s with
      src := (peek s.src).1
      lastId := s.lastId + 1
      live := s.live ++ [s.lastId + 1]
      callbacks := s.callbacks ++ [s.lastId + 1]
      msgs := s.msgs ++ ((es ++ rest).take 1).map (fun e => (e.1, e.2, s.lastId + 1)) }, .ok ()) := by
    simp only [ReSt.schedule, ReSt.pushNext]
    rw [e2]
    cases es ++ rest <;> simp
  have := fireTimes_stream h (s.lastId + 1) es rest (s.schedule peek).1 (by rw [hf]; simp) (by rw [hf]; exact hp.2)
  refine ⟨by rw [hf], this.1, ?_, this.2.2.1⟩
  rw [this.2.1, hf]
  cases h' : es ++ rest <;> simp

/-- Non-vacuity: a list of three events. -/
example : IsStream (fun l => (l, .ok l.head?)) (fun l => (l.tail, .ok l.head?)) id := ⟨fun _ => ⟨rfl, rfl⟩, fun _ => ⟨rfl, rfl⟩⟩
example : let s : ReSt (List (Int × Int)) := { src := [(5, 0), (6, 1), (9, 0)], lastId := 3, msgs := [(1, 1, 2)] }
    (fireTimes (fun l => (l, .ok l.head?)) (fun l => (l.tail, .ok l.head?)) 4 2 (s.schedule fun l => (l, .ok l.head?)).1).2.msgs =
      [(1, 1, 2), (5, 0, 4), (6, 1, 4), (9, 0, 4)] := by decide

/-- The message of a real source has the time of its next event in whole milliseconds, and its priority. -/
theorem c16_message_time (cfg : ECfg) (fuel : Nat) (today : Int) (s : ESrc Int) (t p : Int)
    (h : (esPeek cfg fuel today s).2 = .ok (some (t, p))) :
    ∃ s' us, s.peek cfg (fun _ => today) fuel = some (s', .ok (some (us, p))) ∧ t * 1000 ≤ us ∧ us < t * 1000 + 1000 := by
  unfold esPeek at h
  split at h
  · cases h
  · cases h
  · rename_i s' r hr
    cases r with
    | none => cases h
    | some e =>
      simp only [Option.map_some, Except.ok.injEq, Option.some.injEq, Prod.mk.injEq] at h
      obtain ⟨rfl, rfl⟩ := h
      exact ⟨s', e.1, hr, by omega, by omega⟩

/-- Non-vacuity: a real source with one entry at 09:30 and one more added after scheduling. -/
example : ∃ s, ReSt.schedule (esPeek ⟨false, 365, []⟩ 5 0)
      { src := (ESrc.build (γ := Int) ⟨false, 365, []⟩ none none 0 [(c!"09:30", 0)]).1 } = (s, .ok ()) ∧
    s.msgs = [(34200000, 0, 1)] ∧
    s.daily (esPeek ⟨false, 365, []⟩ 5 0) (fun e => e.addDaily c!"10:00" 0) 3 = none := by
  refine ⟨_, rfl, ?_, ?_⟩ <;> decide +kernel
example : ∀ x : Nat, ∃ r, ((fun x => (x, .ok (some (1, 0)))) x : Nat × Py (Option (Int × Int))).2 = .ok r := fun _ => ⟨_, rfl⟩

end Jq
