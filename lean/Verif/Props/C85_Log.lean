import Verif.Lemmas.SyncLog
import Verif.Lemmas.GateRun
import Verif.Props.C64_Flow
/-!
# C85: refused cancellations are told once

A refused cancellation changes nothing in the order; the only place where it is told is the log (`trade_gate.py:416-422`).
-/
namespace Jq

section
variable {ν : Type} [CellNum ν] [Store ν]

/-- What `sync_orders` of the gate does to the offset of the result file, and what it logs. -/
theorem ax_sync_read (env : Env) (s : AX ν) :
    ∃ pre post, rawLines (((s.files (.results env.day)).getD []).drop s.resOff) = pre ++ post ∧
      (s.syncOrders env).1.resOff = s.resOff + sizeOfLines pre ∧
      s.syncLog env = (if s.synced then pre.filterMap lineRefusal else []) ∧
      (s.conf.ignoreErr = true → (∃ u r, s.files (.updates env.day) = some u ∧ s.files (.results env.day) = some r) →
        (∀ l ∈ rawLines (((s.files (.results env.day)).getD []).drop s.resOff), lineKind 6 l.1 ≠ .stop) → post = []) := by
  simp only [AX.syncOrders, AX.syncLog]
  cases hu : s.files (.updates env.day) with
  | none => exact ⟨[], _, rfl, rfl, by simp, fun _ ⟨_, _, h, _⟩ => by cases h⟩
  | some u =>
    cases hr : s.files (.results env.day) with
    | none => exact ⟨[], _, rfl, rfl, by simp, fun _ ⟨_, _, _, h⟩ => by cases h⟩
    | some r =>
      obtain ⟨pre, post, h1, h2, h3, h4⟩ := results_split s.synced s.conf.ignoreErr (rawLines (r.drop s.resOff)) s.book s.resOff
      refine ⟨pre, post, h1, ?_, h3, fun hi _ => h4 hi⟩
      rw [← h2]
      have hp : (pollBoth s.conf.ignoreErr r u ⟨s.book, s.resOff, s.updOff⟩).1.resOff = (pollResults s.conf.ignoreErr r s.book s.resOff).1.2 := by
        simp only [pollBoth]
        split
        · rename_i h; rw [h]
        · rename_i h; split <;> rw [h]
      rw [← show (pollResults s.conf.ignoreErr r s.book s.resOff).1.2 =
        (pollLoop 6 resultLine s.conf.ignoreErr (rawLines (r.drop s.resOff)) s.resOff s.book s.resOff).1.2 from rfl, ← hp]
      simp only
      split
      · rename_i h; rw [h]
      · rename_i h; rw [h]; split <;> rfl

theorem ax_order_off (env : Env) (o : Order ν) (s : AX ν) : (s.order env o).1.resOff = s.resOff ∧ (s.order env o).1.synced = s.synced := by
  simp only [AX.order]
  split
  · exact ⟨rfl, rfl⟩
  · split
    · exact ⟨rfl, rfl⟩
    · simp only [AX.remember]; split <;> exact ⟨rfl, rfl⟩

theorem ax_sync_synced (env : Env) (s : AX ν) (h : s.synced = true) : (s.syncOrders env).1.synced = true := by
  simp only [AX.syncOrders]
  split
  · split
    · exact h
    · split <;> rfl
  · exact h

/-- One operation: the flag is not taken back, and the lines that are passed are those whose refusals are logged. -/
theorem step_read {D : Str} {env : Nat → Env} {R : Nat → Option Str} (hR : ResultFile D env R) (a : Acct (AXG ν) ν) (he : a.gate.env = env)
    (hoff : a.gate.ax.resOff ≤ ((R a.gate.n).getD []).length) (op : AOp ν) :
    let b := (a.step (axGate ν) op).1
    b.gate.env = env ∧ a.gate.n ≤ b.gate.n ∧ b.gate.ax.resOff ≤ ((R b.gate.n).getD []).length ∧
      (a.gate.ax.synced = true → b.gate.ax.synced = true) ∧
      ∃ pre, a.cancelLog op = (if a.gate.ax.synced then pre.filterMap lineRefusal else []) ∧
        ∀ more, rawLines (((R a.gate.n).getD [] ++ more).drop a.gate.ax.resOff) =
          pre ++ rawLines (((R a.gate.n).getD [] ++ more).drop b.gate.ax.resOff) := by
  have grow : ∀ n off, off ≤ ((R n).getD []).length → off ≤ ((R (n + 1)).getD []).length := by
    intro n off h
    obtain ⟨more, hm⟩ := hR.grow n
    rw [hm, List.length_append]; omega
  cases op with
  | order idn now code amount style side =>
    simp only [Acct.step, order_gate, axGate, AXG.next]
    have h := ax_order_off a.gate.cur (newOrder (natStr idn) now code amount style) a.gate.ready
    refine ⟨he, by omega, ?_, ?_, [], by simp [Acct.cancelLog], fun more => ?_⟩
    · rw [h.1]; exact grow _ _ hoff
    · rw [h.2]; exact id
    · rw [h.1]; rfl
  | cancel id =>
    simp only [Acct.step]
    rcases cancel_gate (axGate ν) id a with h | h <;> rw [h]
    · exact ⟨he, Nat.le_refl _, hoff, _root_.id, [], by simp [Acct.cancelLog], fun _ => rfl⟩
    · exact ⟨he, Nat.le_succ _, grow _ _ hoff, _root_.id, [], by simp [Acct.cancelLog], fun _ => rfl⟩
  | syncBalance =>
    simp only [Acct.step, syncBalance_gate]
    exact ⟨he, Nat.le_succ _, grow _ _ hoff, id, [], by simp [Acct.cancelLog], fun _ => rfl⟩
  | syncOrders =>
    simp only [Acct.step, syncOrders_gate, axGate, AXG.next]
    obtain ⟨pre, post, h1, h2, h3, -⟩ := ax_sync_read a.gate.cur a.gate.ready
    have hf : a.gate.ready.files (.results a.gate.cur.day) = R a.gate.n := by
      rw [AXG.ready, AXG.cur, he, hR.day]; exact hR.results _ _
    rw [hf] at h1
    have h1 : rawLines (((R a.gate.n).getD []).drop a.gate.ax.resOff) = pre ++ post := h1
    have h2 : (a.gate.ready.syncOrders a.gate.cur).1.resOff = a.gate.ax.resOff + sizeOfLines pre := h2
    have h5 := rawLines_drop_lines h1
    rw [List.length_drop, List.drop_drop] at h5
    refine ⟨he, Nat.le_succ _, grow _ _ (by rw [h2]; omega), fun h => ax_sync_synced _ _ h, pre, h3, fun more => ?_⟩
    have hw := hR.whole a.gate.n
    rw [h2, List.drop_append_of_le_length hoff, List.drop_append_of_le_length (by omega), rawLines_append (wholeLines_drop hw _),
      rawLines_append (wholeLines_drop hw _), h1, h5.1, List.append_assoc]

theorem run_read {D : Str} {env : Nat → Env} {R : Nat → Option Str} (hR : ResultFile D env R) (ops : List (AOp ν)) (a : Acct (AXG ν) ν)
    (he : a.gate.env = env) (hoff : a.gate.ax.resOff ≤ ((R a.gate.n).getD []).length) (hs : a.gate.ax.synced = true) :
    let b := a.run (axGate ν) ops
    a.gate.n ≤ b.gate.n ∧ b.gate.env = env ∧ b.gate.ax.resOff ≤ ((R b.gate.n).getD []).length ∧ b.gate.ax.synced = true ∧
      ∃ pre, a.cancelLogs ops = pre.filterMap lineRefusal ∧
        rawLines (((R b.gate.n).getD []).drop a.gate.ax.resOff) = pre ++ rawLines (((R b.gate.n).getD []).drop b.gate.ax.resOff) := by
  induction ops generalizing a with
  | nil => exact ⟨Nat.le_refl _, he, hoff, hs, [], rfl, rfl⟩
  | cons op ops ih =>
    obtain ⟨h1, h2, h3, h4, pre, h5, h6⟩ := step_read hR a he hoff op
    obtain ⟨g1, g2, g3, g4, pre', g5, g6⟩ := ih (a.step (axGate ν) op).1 h1 h3 (h4 hs)
    have later : ∀ k, ∃ more, (R (a.gate.n + k)).getD [] = (R a.gate.n).getD [] ++ more := by
      intro k
      induction k with
      | zero => exact ⟨[], by simp⟩
      | succ k ih =>
        obtain ⟨m1, e1⟩ := ih
        obtain ⟨m2, e2⟩ := hR.grow (a.gate.n + k)
        exact ⟨m1 ++ m2, by rw [← Nat.add_assoc, e2, e1, List.append_assoc]⟩
    have e : a.run (axGate ν) (op :: ops) = (a.step (axGate ν) op).1.run (axGate ν) ops := rfl
    rw [e]
    obtain ⟨more, hm⟩ := later (((a.step (axGate ν) op).1.run (axGate ν) ops).gate.n - a.gate.n)
    rw [show a.gate.n + (((a.step (axGate ν) op).1.run (axGate ν) ops).gate.n - a.gate.n) =
      ((a.step (axGate ν) op).1.run (axGate ν) ops).gate.n from by omega] at hm
    have h7 := h6 more
    rw [← hm] at h7
    refine ⟨by omega, g2, g3, g4, pre ++ pre', ?_, ?_⟩
    · rw [Acct.cancelLogs, h5, if_pos hs, g5, List.filterMap_append]
    · rw [h7, g6, List.append_assoc]

/-- From any moment after a synchronisation that got through: the refused cancellations that the result file has gained since the
place that was reached then are those that were logged, each once and in order, and those that were not read yet. -/
theorem c85_told_once_partial {D : Str} {env : Nat → Env} {R : Nat → Option Str} (hR : ResultFile D env R) (a : Acct (AXG ν) ν)
    (he : a.gate.env = env) (hoff : a.gate.ax.resOff ≤ ((R a.gate.n).getD []).length) (hs : a.gate.ax.synced = true) (ops : List (AOp ν)) :
    let b := a.run (axGate ν) ops
    let now := (R b.gate.n).getD []
    ∃ unread, RefusedCancels (rawLines (now.drop b.gate.ax.resOff)) unread ∧
      RefusedCancels (rawLines (now.drop a.gate.ax.resOff)) (a.cancelLogs ops ++ unread) := by
  intro b now
  obtain ⟨-, -, -, -, pre, h1, h2⟩ := run_read hR ops a he hoff hs
  refine ⟨_, (refusedCancels_iff _ _).2 rfl, (refusedCancels_iff _ _).2 ?_⟩
  rw [h1, h2, List.filterMap_append]

theorem cancelLogs_append (a : Acct (AXG ν) ν) (xs ys : List (AOp ν)) :
    a.cancelLogs (xs ++ ys) = a.cancelLogs xs ++ (a.run (axGate ν) xs).cancelLogs ys := by
  induction xs generalizing a with
  | nil => rfl
  | cons x xs ih => rw [List.cons_append, Acct.cancelLogs, ih, Acct.cancelLogs, List.append_assoc]; rfl

/-- A synchronisation that finds both files reads all of a result file without short or blank lines. -/
theorem sync_reads_all {D : Str} {env : Nat → Env} {R : Nat → Option Str} (hR : ResultFile D env R) (a : Acct (AXG ν) ν)
    (he : a.gate.env = env) (hign : a.gate.ax.conf.ignoreErr = true)
    (hu : (a.gate.ready.files (.updates D)).isSome = true) (hr : (R a.gate.n).isSome = true)
    (hgood : ∀ l ∈ rawLines (((R a.gate.n).getD []).drop a.gate.ax.resOff), lineKind 6 l.1 ≠ .stop) :
    (a.step (axGate ν) .syncOrders).1.gate.ax.resOff = a.gate.ax.resOff + (((R a.gate.n).getD []).drop a.gate.ax.resOff).length ∧
    a.cancelLog .syncOrders =
      (if a.gate.ax.synced then (rawLines (((R a.gate.n).getD []).drop a.gate.ax.resOff)).filterMap lineRefusal else []) := by
  have hd : a.gate.cur.day = D := by rw [AXG.cur, he]; exact hR.day _
  have hf : a.gate.ready.files (.results D) = R a.gate.n := by
    rw [AXG.ready, AXG.cur, he]; exact hR.results _ _
  obtain ⟨pre, post, h1, h2, h3, h4⟩ := ax_sync_read a.gate.cur a.gate.ready
  rw [hd, hf] at h1 h4
  obtain ⟨u, hu⟩ := Option.isSome_iff_exists.1 hu
  obtain ⟨r, hr⟩ := Option.isSome_iff_exists.1 hr
  have hp : post = [] := h4 hign ⟨u, r, hu, hr⟩ hgood
  subst hp
  rw [List.append_nil] at h1
  have h1 : rawLines (((R a.gate.n).getD []).drop a.gate.ax.resOff) = pre := h1
  refine ⟨?_, ?_⟩
  · simp only [Acct.step, syncOrders_gate]
    rw [← sizeOfLines_rawLines, h1]
    exact h2
  · rw [h1]; exact h3

/-- … and after a synchronisation that finds both files, with lines of at least six fields, all of them have been logged. -/
theorem c85_all_told_partial {D : Str} {env : Nat → Env} {R : Nat → Option Str} (hR : ResultFile D env R) (a : Acct (AXG ν) ν)
    (he : a.gate.env = env) (hoff : a.gate.ax.resOff ≤ ((R a.gate.n).getD []).length) (hs : a.gate.ax.synced = true)
    (hign : a.gate.ax.conf.ignoreErr = true) (ops : List (AOp ν)) :
    let b := a.run (axGate ν) ops
    (b.gate.ready.files (.updates D)).isSome = true → (R b.gate.n).isSome = true →
    (∀ l ∈ rawLines (((R b.gate.n).getD []).drop a.gate.ax.resOff), lineKind 6 l.1 ≠ .stop) →
    RefusedCancels (rawLines (((R b.gate.n).getD []).drop a.gate.ax.resOff)) (a.cancelLogs (ops ++ [.syncOrders])) := by
  intro b hu hr hgood
  obtain ⟨-, h2, h3, h4, pre, h5, h6⟩ := run_read hR ops a he hoff hs
  have hc : b.gate.ax.conf = a.gate.ax.conf := by
    have : ∀ (ops : List (AOp ν)) (a : Acct (AXG ν) ν), (a.run (axGate ν) ops).gate.ax.conf = a.gate.ax.conf := by
      intro ops
      induction ops with
      | nil => intro a; rfl
      | cons op ops ih => intro a; exact (ih _).trans (axg_step_static a op).2
    exact this ops a
  have hsub : ∀ l ∈ rawLines (((R b.gate.n).getD []).drop b.gate.ax.resOff), lineKind 6 l.1 ≠ .stop := by
    intro l hl
    exact hgood l (by rw [h6]; exact List.mem_append.2 (.inr hl))
  have h := sync_reads_all hR b h2 (by rw [hc]; exact hign) hu hr hsub
  rw [refusedCancels_iff, cancelLogs_append, h5, h6, List.filterMap_append]
  congr 1
  show b.cancelLog .syncOrders ++ [] = _
  rw [List.append_nil, h.2, if_pos h4]

theorem run_later {D : Str} {env : Nat → Env} {R : Nat → Option Str} (hR : ResultFile D env R) (n k : Nat) :
    ∃ more, (R (n + k)).getD [] = (R n).getD [] ++ more := by
  induction k with
  | zero => exact ⟨[], by simp⟩
  | succ k ih =>
    obtain ⟨m1, e1⟩ := ih
    obtain ⟨m2, e2⟩ := hR.grow (n + k)
    exact ⟨m1 ++ m2, by rw [← Nat.add_assoc, e2, e1, List.append_assoc]⟩

/-- Refused cancellations that the first synchronisation finds are told to nobody: whatever happens afterwards, everything that is ever
logged comes from lines that were appended later. -/
theorem c85_first_sync_refuted {D : Str} {env : Nat → Env} {R : Nat → Option Str} (hR : ResultFile D env R) (a : Acct (AXG ν) ν)
    (he : a.gate.env = env) (hoff : a.gate.ax.resOff ≤ ((R a.gate.n).getD []).length) (hs : a.gate.ax.synced = false)
    (hign : a.gate.ax.conf.ignoreErr = true) (hu : (a.gate.ready.files (.updates D)).isSome = true) (hr : (R a.gate.n).isSome = true)
    (hgood : ∀ l ∈ rawLines (((R a.gate.n).getD []).drop a.gate.ax.resOff), lineKind 6 l.1 ≠ .stop) (ops : List (AOp ν)) :
    let b := a.run (axGate ν) (.syncOrders :: ops)
    ∃ more unread, (R b.gate.n).getD [] = (R a.gate.n).getD [] ++ more ∧
      RefusedCancels (rawLines more) (a.cancelLogs (.syncOrders :: ops) ++ unread) := by
  intro b
  obtain ⟨h1, h2⟩ := sync_reads_all hR a he hign hu hr hgood
  obtain ⟨g1, g2, g3, g4, -⟩ := step_read hR a he hoff .syncOrders
  have hd : a.gate.cur.day = D := by rw [AXG.cur, he]; exact hR.day _
  have hf : a.gate.ready.files (.results D) = R a.gate.n := by
    rw [AXG.ready, AXG.cur, he]; exact hR.results _ _
  have hsync : (a.step (axGate ν) .syncOrders).1.gate.ax.synced = true := by
    obtain ⟨u, hu⟩ := Option.isSome_iff_exists.1 hu
    obtain ⟨r, hr⟩ := Option.isSome_iff_exists.1 hr
    simp only [Acct.step, syncOrders_gate, axGate, AXG.next, AX.syncOrders, hd, hu, hf, hr]
    rw [show a.gate.ready.conf.ignoreErr = true from hign, pollBoth_ign]
    simp only
    split <;> rfl
  obtain ⟨k1, k2, k3, k4, pre, k5, k6⟩ := run_read hR ops (a.step (axGate ν) .syncOrders).1 g1 g3 hsync
  obtain ⟨more, hm⟩ := run_later hR a.gate.n (b.gate.n - a.gate.n)
  have hle : a.gate.n ≤ b.gate.n := Nat.le_trans g2 k1
  rw [show a.gate.n + (b.gate.n - a.gate.n) = b.gate.n from by omega] at hm
  refine ⟨more, (rawLines (((R b.gate.n).getD []).drop b.gate.ax.resOff)).filterMap lineRefusal, hm, (refusedCancels_iff _ _).2 ?_⟩
  have e : (a.step (axGate ν) .syncOrders).1.gate.ax.resOff = ((R a.gate.n).getD []).length := by
    rw [h1, List.length_drop]; omega
  rw [e] at k6
  have k6 : rawLines (((R b.gate.n).getD []).drop ((R a.gate.n).getD []).length) = _ := k6
  rw [hm, List.drop_left] at k6
  rw [Acct.cancelLogs, h2, if_neg (by rw [hs]; decide), k5, k6, List.nil_append, List.filterMap_append]
  rfl

/-- A synchronisation of the gate gets through: both files are there, and reading them raises nothing. -/
def GetsThrough (a : Acct (AXG ν) ν) : Prop :=
  ∃ u r t, a.gate.ready.files (.updates a.gate.cur.day) = some u ∧ a.gate.ready.files (.results a.gate.cur.day) = some r ∧
    pollBoth a.gate.ax.conf.ignoreErr r u ⟨a.gate.ax.book, a.gate.ax.resOff, a.gate.ax.updOff⟩ = (t, .ok ())

/-- The flag: some synchronisation got through. -/
theorem c85_gate_flag (a : Acct (AXG ν) ν) (ops : List (AOp ν)) :
    (a.run (axGate ν) ops).gate.ax.synced = true ↔
      a.gate.ax.synced = true ∨ ∃ before after, ops = before ++ .syncOrders :: after ∧ GetsThrough (a.run (axGate ν) before) := by
  induction ops generalizing a with
  | nil => simp [Acct.run]
  | cons op ops ih =>
    have hstep : (a.step (axGate ν) op).1.gate.ax.synced = true ↔ a.gate.ax.synced = true ∨ (op = .syncOrders ∧ GetsThrough a) := by
      cases op with
      | order idn now code amount style side =>
        simp only [Acct.step, order_gate, axGate, AXG.next]
        rw [(ax_order_off a.gate.cur (newOrder (natStr idn) now code amount style) a.gate.ready).2]
        simp [AXG.ready]
      | cancel id =>
        simp only [Acct.step]
        rcases cancel_gate (axGate ν) id a with h | h <;> rw [h]
        · simp
        · simp [axGate, AXG.next, AX.cancel, AXG.ready]
      | syncBalance => simp only [Acct.step, syncBalance_gate]; simp [axGate, AXG.next, AXG.ready]
      | syncOrders =>
        simp only [Acct.step, syncOrders_gate, axGate, AXG.next, AX.syncOrders, GetsThrough, true_and]
        cases hu : a.gate.ready.files (.updates a.gate.cur.day) with
        | none => simp [AXG.ready]
        | some u =>
          cases hr : a.gate.ready.files (.results a.gate.cur.day) with
          | none => simp [AXG.ready]
          | some r =>
            simp only
            have e : (⟨a.gate.ready.book, a.gate.ready.resOff, a.gate.ready.updOff⟩ : SyncState ν) =
              ⟨a.gate.ax.book, a.gate.ax.resOff, a.gate.ax.updOff⟩ := rfl
            have e2 : a.gate.ready.conf.ignoreErr = a.gate.ax.conf.ignoreErr := rfl
            rw [e, e2]
            cases hp : pollBoth a.gate.ax.conf.ignoreErr r u ⟨a.gate.ax.book, a.gate.ax.resOff, a.gate.ax.updOff⟩ with
            | mk t q =>
              cases q with
              | error e => simp [AXG.ready, hp]
              | ok x =>
                constructor
                · intro _; exact .inr ⟨u, r, t, rfl, rfl, hp⟩
                · intro _
                  simp only
                  split <;> rfl
    have e : a.run (axGate ν) (op :: ops) = (a.step (axGate ν) op).1.run (axGate ν) ops := rfl
    rw [e, ih, hstep]
    constructor
    · rintro ((h | ⟨rfl, h⟩) | ⟨before, after, rfl, h⟩)
      · exact .inl h
      · exact .inr ⟨[], ops, rfl, h⟩
      · exact .inr ⟨op :: before, after, rfl, h⟩
    · rintro (h | ⟨before, after, h1, h2⟩)
      · exact .inl (.inl h)
      · cases before with
        | nil =>
          injection h1 with h1 _
          exact .inl (.inr ⟨h1, h2⟩)
        | cons x before =>
          injection h1 with h1 h3
          subst h1 h3
          exact .inr ⟨before, after, rfl, h2⟩

end

/-! ## Orders that the account did not know -/

section
variable {γ ν : Type} [PyNum ν]

theorem mergeOrder_keys (i : OrderInfo ν) (a : Acct γ ν) (hw : a.WF) :
    ((∃ id o, i.orderId = some id ∧ Order.load i = .ok o ∧ (a.mergeOrder i).2 = .ok () ∧ (a.mergeOrder i).1.synced = a.synced ∧
      dkeys (a.mergeOrder i).1.orders = dkeys a.orders ++ if (a.find id).isNone then [id] else []) ∨
     ((∀ id o, i.orderId = some id → Order.load i = .ok o → False) ∧ (a.mergeOrder i).1 = a ∧ ∃ e, (a.mergeOrder i).2 = .error e)) := by
  simp only [Acct.mergeOrder]
  cases hi : i.orderId with
  | none => exact .inr ⟨fun _ _ h _ => (by cases h), rfl, _, rfl⟩
  | some id =>
    cases ho : Order.load i with
    | error e => exact .inr ⟨fun _ _ _ h => (by cases h), rfl, _, rfl⟩
    | ok r =>
      left
      refine ⟨id, r, rfl, rfl, ?_⟩
      have hk := find_isSome hw id
      have hput : ∀ o, (id ∈ dkeys a.orders → dkeys (a.putOrder id o).orders = dkeys a.orders) ∧
          (id ∉ dkeys a.orders → dkeys (a.putOrder id o).orders = dkeys a.orders ++ [id]) := by
        intro o
        have h := dkeys_dset a.orders id a.oheap.length
        exact ⟨fun hn => h.trans (if_pos hn), fun hn => h.trans (if_neg hn)⟩
      cases hf : a.find id with
      | none =>
        rw [hf] at hk
        have hn : id ∉ dkeys a.orders := fun h => by have := hk.2 h; cases this
        simp only [hf]
        exact ⟨trivial, rfl, by rw [(hput r).2 hn]; rfl⟩
      | some l =>
        rw [hf] at hk
        have hn : id ∈ dkeys a.orders := hk.1 rfl
        simp only [hf]
        split
        · exact ⟨rfl, rfl, by simp⟩
        · refine ⟨rfl, rfl, ?_⟩
          simpa using (hput r).1 hn

theorem mergeOrders_keys (is : List (OrderInfo ν)) (a : Acct γ ν) (hw : a.WF) :
    dkeys (a.mergeOrders is).1.orders = dkeys a.orders ++ (Acct.mergeLog is a).map (·.1) ∧ (a.mergeOrders is).1.synced = a.synced ∧
    (∀ x ∈ Acct.mergeLog is a, x.2 = a.synced) ∧
    ((a.mergeOrders is).2 = .ok () ↔ ∀ i ∈ is, i.orderId.isSome = true ∧ ∃ o, Order.load i = .ok o) := by
  induction is generalizing a with
  | nil => simp [Acct.mergeOrders, Acct.mergeLog]
  | cons i is ih =>
    have hw' : (a.mergeOrder i).1.WF := by
      have := wf_mergeOrders (is := [i]) hw
      simp only [Acct.mergeOrders] at this
      cases hm : a.mergeOrder i with
      | mk b r => rw [hm] at this; cases r <;> exact this
    rw [Acct.mergeOrders, Acct.mergeLog]
    rcases mergeOrder_keys i a hw with ⟨id, o, h1, h2, h3, h4, h5⟩ | ⟨h1, h2, e, h3⟩
    · obtain ⟨g1, g2, g3, g4⟩ := ih (a.mergeOrder i).1 hw'
      have hm : a.mergeOrder i = ((a.mergeOrder i).1, .ok ()) := by rw [← h3]
      rw [hm, h1, h2]
      simp only
      refine ⟨?_, g2.trans h4, ?_, ?_⟩
      · rw [g1, h5, List.append_assoc, List.map_append]
        split <;> rfl
      · intro x hx
        rcases List.mem_append.1 hx with hx | hx
        · split at hx
          · rw [List.mem_singleton.1 hx]
          · cases hx
        · exact (g3 x hx).trans h4
      · rw [g4]
        constructor
        · intro h j hj
          rcases List.mem_cons.1 hj with rfl | hj
          · exact ⟨by rw [h1]; rfl, o, h2⟩
          · exact h j hj
        · exact fun h j hj => h j (List.mem_cons_of_mem _ hj)
    · have hm : a.mergeOrder i = (a, .error e) := Prod.ext h2 h3
      rw [hm]
      have hlog : Acct.mergeLog (i :: is) a = [] := by
        rw [Acct.mergeLog]
        split
        · rename_i id o h4 h5; exact (h1 id o h4 h5).elim
        · rfl
      rw [Acct.mergeLog, hm] at hlog
      rw [hlog]
      refine ⟨by simp, rfl, by simp, ⟨fun h => (by cases h), fun h => ?_⟩⟩
      obtain ⟨h6, o, h7⟩ := h i List.mem_cons_self
      obtain ⟨id, h6⟩ := Option.isSome_iff_exists.1 h6
      exact absurd (h1 id o h6 h7) (fun h => h)

/-- What a synchronisation logs about orders that were not there: just those that it adds, in order, each once; and whether this was
after a synchronisation that was completed. -/
theorem c85_new_orders (G : Gate γ ν) (a : Acct γ ν) (hw : a.WF) :
    dkeys (a.syncOrders G).1.orders = dkeys a.orders ++ (a.newOrderLog G).map (·.1) ∧
    ∀ x ∈ a.newOrderLog G, x.2 = a.synced := by
  simp only [Acct.syncOrders, tryExcept_fst', Acct.syncOrdersBody, Acct.newOrderLog]
  cases hG : G.orders a.gate with
  | mk g r =>
    cases r with
    | error e => simp
    | ok infos =>
      obtain ⟨h1, h2, h3, -⟩ := mergeOrders_keys infos ({ a with gate := g } : Acct γ ν) (wf_gate hw g)
      simp only
      refine ⟨?_, h3⟩
      cases hm : Acct.mergeOrders infos ({ a with gate := g } : Acct γ ν) with
      | mk b r => rw [hm] at h1; cases r <;> exact h1

/-- The flag of the account: some synchronisation was completed. -/
theorem c85_account_flag (G : Gate γ ν) (a : Acct γ ν) (hw : a.WF) (ops : List (AOp ν)) :
    (a.run G ops).synced = true ↔
      a.synced = true ∨ ∃ before after, ops = before ++ .syncOrders :: after ∧ Completes G (a.run G before) := by
  induction ops generalizing a with
  | nil => simp [Acct.run]
  | cons op ops ih =>
    have hstep : (a.step G op).1.synced = true ↔ a.synced = true ∨ (op = .syncOrders ∧ Completes G a) := by
      cases op with
      | order idn now code amount style side =>
        simp only [Acct.step]
        rcases order_cases G idn now code amount style side a with ⟨g, e, h1, h2⟩ | ⟨g, h1, h2⟩
        · rw [h2]; simp [Acct.putOrder]
        · rw [h2]; simp only [Acct.onCreated]; split <;> simp [Acct.putOrder]
      | cancel id =>
        simp only [Acct.step]
        rcases cancel_gate G id a with h | h <;> rw [h] <;> simp
      | syncBalance =>
        simp only [Acct.step, Acct.syncBalance, tryExcept_fst', Acct.syncBalanceBody]
        have hload : ∀ (ps : List (PosInfo ν)) (b : Acct γ ν), (b.loadPositions ps).1.synced = b.synced := by
          intro ps
          induction ps with
          | nil => intro b; rfl
          | cons p ps ih =>
            intro b
            simp only [Acct.loadPositions]
            split
            · rfl
            · rw [ih]; simp only [Acct.putPos]; split <;> rfl
        cases hG : G.balance a.gate with
        | mk g r =>
          cases r with
          | error e => simp
          | ok info =>
            simp only [Acct.applyBalance]
            split
            · simp
            · split
              · simp
              · rw [hload]; simp
      | syncOrders =>
        simp only [Acct.step, Acct.syncOrders, tryExcept_fst', Acct.syncOrdersBody, Completes, true_and]
        cases hG : G.orders a.gate with
        | mk g r =>
          cases r with
          | error e => simp
          | ok infos =>
            obtain ⟨-, h2, -, h4⟩ := mergeOrders_keys infos ({ a with gate := g } : Acct γ ν) (wf_gate hw g)
            simp only
            cases hm : Acct.mergeOrders infos ({ a with gate := g } : Acct γ ν) with
            | mk b r =>
              rw [hm] at h2 h4
              cases r with
              | error e =>
                simp only at h2 h4 ⊢
                rw [h2]
                constructor
                · exact .inl
                · rintro (h | ⟨g', infos', h5, h6⟩)
                  · exact h
                  · injection h5 with h5 h7
                    injection h7 with h7
                    subst h7
                    cases h4.2 h6
              | ok u =>
                simp only [true_iff]
                exact .inr ⟨g, infos, rfl, h4.1 rfl⟩
    have hw' : (a.step G op).1.WF := wf_step hw G op
    have e : a.run G (op :: ops) = (a.step G op).1.run G ops := rfl
    rw [e, ih _ hw', hstep]
    constructor
    · rintro ((h | ⟨rfl, h⟩) | ⟨before, after, rfl, h⟩)
      · exact .inl h
      · exact .inr ⟨[], ops, rfl, h⟩
      · exact .inr ⟨op :: before, after, rfl, h⟩
    · rintro (h | ⟨before, after, h1, h2⟩)
      · exact .inl (.inl h)
      · cases before with
        | nil =>
          injection h1 with h1 _
          exact .inl (.inr ⟨h1, h2⟩)
        | cons x before =>
          injection h1 with h1 h3
          subst h1 h3
          exact .inr ⟨before, after, rfl, h2⟩

end

/-! A day: an order and its cancellation; a synchronisation before there are files; the refusal is there at the first synchronisation that
gets through, and is not told; the second refusal is. -/

private def logR (i : Nat) : Option Str :=
  if i < 3 then none else if i < 5 then some c!"093002,2,7,1,13,too late\n" else some c!"093002,2,7,1,13,too late\n093105,2,7,1,13,much too late\n"
private def logEnv (i : Nat) : Env :=
  { demoEnv with ext := fun fs f => match f with
      | .results d => if d = c!"20240102" then logR i else fs f
      | .updates d => if d = c!"20240102" then (if i < 3 then none else some []) else fs f
      | _ => fs f }
private def logInit : Acct (AXG Int) Int := Acct.init ⟨AX.setup (demoConf false) fun _ => none, logEnv, 0⟩
private def logOps : List (AOp Int) := [.order 7 demoEnv.now c!"600000.XSHG" 700 (.limit 12) .long, .cancel c!"7", .syncOrders]
private def logFirst : Acct (AXG Int) Int := logInit.run (axGate Int) logOps
private def logSecond : Acct (AXG Int) Int := logFirst.run (axGate Int) [.syncOrders]

private theorem log_file : ResultFile c!"20240102" logEnv logR := by
  refine ⟨fun _ => rfl, fun _ _ => rfl, fun i => ?_, fun i => ?_⟩
  · by_cases h1 : i + 1 < 3
    · exact ⟨[], by rw [logR, logR, if_pos h1, if_pos (by omega)]; rfl⟩
    · by_cases h2 : i < 3
      · exact ⟨(logR (i + 1)).getD [], by rw [show logR i = none from if_pos h2]; rfl⟩
      · by_cases h3 : i + 1 < 5
        · exact ⟨[], by rw [logR, logR, if_neg h1, if_neg h2, if_pos h3, if_pos (by omega), List.append_nil]⟩
        · by_cases h4 : i < 5
          · exact ⟨c!"093105,2,7,1,13,much too late\n", by rw [logR, logR, if_neg h1, if_neg h2, if_neg h3, if_pos h4]; decide⟩
          · exact ⟨[], by rw [logR, logR, if_neg h1, if_neg h2, if_neg h3, if_neg h4, List.append_nil]⟩
  · rw [logR]
    split
    · exact .inl rfl
    · split <;> exact .inr (by decide)

example : ResultFile c!"20240102" logEnv logR ∧ logFirst.gate.env = logEnv ∧ logFirst.gate.ax.synced = false ∧ logFirst.gate.n = 3 ∧
    logFirst.gate.ax.conf.ignoreErr = true ∧ (logFirst.gate.ready.files (.updates c!"20240102")).isSome = true ∧
    (logR 3).isSome = true ∧ (∀ l ∈ rawLines ((logR 3).getD []), lineKind 6 l.1 ≠ .stop) ∧
    RefusedCancels (rawLines ((logR 3).getD [])) [(c!"7", c!"too late")] ∧
    logFirst.cancelLogs [.syncOrders, .syncOrders, .cancel c!"7", .syncOrders] = [(c!"7", c!"much too late")] := by
  refine ⟨log_file, rfl, by decide +kernel, by decide +kernel, by decide +kernel, by decide +kernel, by decide +kernel, by decide +kernel,
    (refusedCancels_iff _ _).2 (by decide +kernel), by decide +kernel⟩

example : logSecond.gate.env = logEnv ∧ logSecond.gate.ax.synced = true ∧ logSecond.gate.n = 4 ∧ logSecond.gate.ax.resOff = 25 ∧
    logSecond.cancelLogs [.syncOrders, .cancel c!"7", .syncOrders] = [(c!"7", c!"much too late")] ∧
    RefusedCancels (rawLines (((logR 6).getD []).drop 25)) [(c!"7", c!"much too late")] := by
  refine ⟨rfl, by decide +kernel, by decide +kernel, by decide +kernel, by decide +kernel, (refusedCancels_iff _ _).2 (by decide +kernel)⟩

/-! A gate that reports order 1, then orders 1 and 2, and then something without an id.  Order 1 is logged as found, order 2 as one
that was not there. -/

private def growInfo (id : Str) : OrderInfo Int := newOrderInfo id demoEnv.now c!"600000.XSHG" 700 (.limit 12)
private def growGate : Gate Nat Int where
  order n _ := (n, .ok ())
  cancel n _ := (n, .ok ())
  balance n := (n, .error .valueError)
  orders n := (n + 1, .ok (if n = 0 then [growInfo c!"1"] else if n = 1 then [growInfo c!"1", growInfo c!"2"] else
    [growInfo c!"3", { growInfo c!"4" with orderId := none }]))
private def grow (n : Nat) : Acct Nat Int := (Acct.init 0).run growGate (List.replicate n .syncOrders)

example : (grow 0).newOrderLog growGate = [(c!"1", false)] ∧ (grow 1).newOrderLog growGate = [(c!"2", true)] ∧
    (grow 2).newOrderLog growGate = [(c!"3", true)] ∧ dkeys (grow 3).orders = [c!"1", c!"2", c!"3"] := by decide +kernel

example : Completes growGate (grow 0) ∧ Completes growGate (grow 1) ∧ ¬ Completes growGate (grow 2) ∧ (grow 0).synced = false ∧ (grow 1).synced = true := by
  have ld : ∀ id, ∃ o, Order.load (growInfo id) = .ok o := fun id => ⟨_, load_newOrderInfo _ _ _ _ _⟩
  refine ⟨⟨1, _, rfl, ?_⟩, ⟨2, _, rfl, ?_⟩, ?_, by decide +kernel, by decide +kernel⟩
  · intro i hi
    have hi := List.mem_singleton.1 hi
    subst hi
    exact ⟨rfl, ld _⟩
  · intro i hi
    rcases List.mem_cons.1 hi with rfl | hi
    · exact ⟨rfl, ld _⟩
    · have hi := List.mem_singleton.1 hi
      subst hi
      exact ⟨rfl, ld _⟩
  · rintro ⟨g, infos, h1, h2⟩
    have h3 : infos = [growInfo c!"3", { growInfo c!"4" with orderId := none }] := by
      have : ((3 : Nat), (.ok [growInfo c!"3", { growInfo c!"4" with orderId := none }] : Py (List (OrderInfo Int)))) = (g, .ok infos) := h1
      injection this with _ this
      injection this with this
      exact this.symm
    have := (h2 { growInfo c!"4" with orderId := none } (by rw [h3]; simp)).1
    cases this

end Jq
