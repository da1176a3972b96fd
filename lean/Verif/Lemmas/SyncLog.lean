import Verif.Model.SyncLog
import Verif.Spec.SyncLog
import Verif.Lemmas.OrderSync
set_option linter.unusedSectionVars false
/-! # The log: helper lemmas -/
namespace Jq

/-- What a line says about a cancellation. -/
def lineRefusal (l : Str × Nat) : Option (Str × Str) :=
  match lineKind 6 l.1 with
  | .fields items => cancelNotice items
  | _ => none

theorem cancelNotice_iff (items : List Str) (id msg : Str) :
    cancelNotice items = some (id, msg) ↔ ∃ t c, items = [t, c!"2", id, c!"1", c, msg] := by
  constructor
  · intro h
    unfold cancelNotice at h
    split at h
    · split at h
      · rename_i h1
        simp only [Option.some.injEq, Prod.mk.injEq] at h
        obtain ⟨rfl, rfl⟩ := h
        obtain ⟨rfl, rfl⟩ := h1
        exact ⟨_, _, rfl⟩
      · cases h
    · cases h
  · rintro ⟨t, c, rfl⟩
    simp [cancelNotice]

theorem lineRefusal_iff (l : Str × Nat) (id msg : Str) : lineRefusal l = some (id, msg) ↔ IsRefusedCancel l.1 id msg := by
  simp only [lineRefusal, IsRefusedCancel]
  cases h : lineKind 6 l.1 with
  | stop => simp
  | header => simp
  | fields items => simp [cancelNotice_iff]

theorem refusedCancels_iff (ls : List (Str × Nat)) (rs : List (Str × Str)) : RefusedCancels ls rs ↔ rs = ls.filterMap lineRefusal := by
  constructor
  · intro h
    induction h with
    | nil => rfl
    | @refused raw n ls rs id msg h _ ih => rw [List.filterMap_cons, (lineRefusal_iff (raw, n) _ _).2 h, ih]
    | @other raw n ls rs h _ ih =>
      have : lineRefusal (raw, n) = none := by
        cases hl : lineRefusal (raw, n) with
        | none => rfl
        | some x => exact absurd ((lineRefusal_iff (raw, n) x.1 x.2).1 hl) (h _ _)
      rw [List.filterMap_cons, this, ih]
  · rintro rfl
    induction ls with
    | nil => exact .nil
    | cons l ls ih =>
      obtain ⟨raw, n⟩ := l
      rw [List.filterMap_cons]
      cases hl : lineRefusal (raw, n) with
      | none =>
        refine .other (fun id msg h => ?_) ih
        rw [(lineRefusal_iff (raw, n) _ _).2 h] at hl
        cases hl
      | some x => exact .refused ((lineRefusal_iff (raw, n) x.1 x.2).1 hl) ih

variable {ν : Type} [GateNum ν]

/-- The loop over the result file: it uses a first part of the lines, and logs what that part says. -/
theorem results_split (synced ign : Bool) (ls : List (Str × Nat)) (b : Book ν) (pos : Nat) :
    ∃ pre post, ls = pre ++ post ∧ (pollLoop 6 resultLine ign ls pos b pos).1.2 = pos + sizeOfLines pre ∧
      resultLog synced ign ls = (if synced then pre.filterMap lineRefusal else []) ∧
      (ign = true → (∀ l ∈ ls, lineKind 6 l.1 ≠ .stop) → post = []) := by
  induction ls generalizing b pos with
  | nil => exact ⟨[], [], rfl, by simp [pollLoop, sizeOfLines], by simp [resultLog], fun _ _ => rfl⟩
  | cons l ls ih =>
    obtain ⟨raw, n⟩ := l
    have hsz : ∀ pre : List (Str × Nat), pos + n + sizeOfLines pre = pos + sizeOfLines ((raw, n) :: pre) := by
      intro pre; simp [sizeOfLines]; omega
    rw [pollLoop, resultLog]
    cases hk : lineKind 6 raw with
    | stop =>
      refine ⟨[], (raw, n) :: ls, rfl, by simp [sizeOfLines], by simp, fun _ h => ?_⟩
      exact absurd hk (h _ List.mem_cons_self)
    | header =>
      obtain ⟨pre, post, h1, h2, h3, h4⟩ := ih b (pos + n)
      refine ⟨(raw, n) :: pre, post, by rw [h1]; rfl, by rw [← hsz]; exact h2, ?_, fun hi h => h4 hi fun l hl => h l (List.mem_cons_of_mem _ hl)⟩
      have : lineRefusal (raw, n) = none := by simp [lineRefusal, hk]
      rw [List.filterMap_cons, this]; exact h3
    | fields items =>
      simp only
      by_cases h6 : items.length = 6
      · obtain ⟨t0, t1, t2, t3, t4, t5, rfl⟩ : ∃ t0 t1 t2 t3 t4 t5, items = [t0, t1, t2, t3, t4, t5] := by
          match items, h6 with
          | [t0, t1, t2, t3, t4, t5], _ => exact ⟨t0, t1, t2, t3, t4, t5, rfl⟩
        obtain ⟨b', hb'⟩ : ∃ b', resultLine b [t0, t1, t2, t3, t4, t5] = .done b' := by
          simp only [resultLine]
          split
          · split <;> exact ⟨_, rfl⟩
          · exact ⟨_, rfl⟩
        obtain ⟨pre, post, h1, h2, h3, h4⟩ := ih b' (pos + n)
        rw [hb']
        refine ⟨(raw, n) :: pre, post, by rw [h1]; rfl, by rw [← hsz]; exact h2, ?_, fun hi h => h4 hi fun l hl => h l (List.mem_cons_of_mem _ hl)⟩
        have : lineRefusal (raw, n) = cancelNotice [t0, t1, t2, t3, t4, t5] := by simp [lineRefusal, hk]
        rw [if_pos h6, List.filterMap_cons, this, h3]
        cases synced with
        | false => simp
        | true => cases cancelNotice [t0, t1, t2, t3, t4, t5] <;> simp
      · have hf : resultLine b items = .failed b .typeError := by
          unfold resultLine
          split
          · exact absurd rfl h6
          · rfl
        rw [hf, if_neg h6]
        cases ign with
        | false =>
          refine ⟨[], (raw, n) :: ls, rfl, by simp [sizeOfLines], by simp, fun h => by cases h⟩
        | true =>
          obtain ⟨pre, post, h1, h2, h3, h4⟩ := ih b (pos + n)
          refine ⟨(raw, n) :: pre, post, by rw [h1]; rfl, by rw [← hsz]; exact h2, ?_, fun hi h => h4 hi fun l hl => h l (List.mem_cons_of_mem _ hl)⟩
          have : lineRefusal (raw, n) = none := by
            simp only [lineRefusal, hk]
            unfold cancelNotice
            split
            · exact absurd rfl h6
            · rfl
          rw [List.filterMap_cons, this]; exact h3

end Jq
