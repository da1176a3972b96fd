import Verif.Model.Queue

namespace Jq
variable {κ : Type}

theorem keyLt_irrefl (a : Msg κ) : ¬ keyLt a a := by unfold keyLt; omega
theorem keyLt_trans {a b c : Msg κ} (h : keyLt a b) (h' : keyLt b c) : keyLt a c := by
  unfold keyLt at *; omega
theorem keyLt_asymm {a b : Msg κ} (h : keyLt a b) : ¬ keyLt b a := by unfold keyLt at *; omega
theorem keyLt_total {a b : Msg κ} (h : a.seq ≠ b.seq) : keyLt a b ∨ keyLt b a := by
  unfold keyLt; omega
theorem not_keyLt_trans {a b c : Msg κ} (h : ¬ keyLt b a) (h' : ¬ keyLt c b) : ¬ keyLt c a := by
  unfold keyLt at *; omega

theorem popMin_none {q : List (Msg κ)} : popMin q = none ↔ q = [] := by
  cases q with
  | nil => simp [popMin]
  | cons m q =>
    simp only [popMin]
    cases popMin q with
    | none => simp
    | some p => obtain ⟨x, r⟩ := p; simp only; split <;> simp

theorem popMin_perm {q : List (Msg κ)} {m r} (h : popMin q = some (m, r)) : q.Perm (m :: r) := by
  induction q generalizing m r with
  | nil => simp [popMin] at h
  | cons a q ih =>
    simp only [popMin] at h
    cases hq : popMin q with
    | none =>
      rw [hq] at h
      have := popMin_none.1 hq
      subst this
      simp at h
      obtain ⟨rfl, rfl⟩ := h
      exact List.Perm.refl _
    | some p =>
      obtain ⟨x, r'⟩ := p
      rw [hq] at h
      simp only at h
      split at h
      · simp at h
        obtain ⟨rfl, rfl⟩ := h
        exact ((ih hq).cons a).trans (List.Perm.swap _ _ _)
      · simp at h
        obtain ⟨rfl, rfl⟩ := h
        exact List.Perm.refl _

theorem popMin_le {q : List (Msg κ)} {m r} (h : popMin q = some (m, r)) :
    ∀ x ∈ q, ¬ keyLt x m := by
  induction q generalizing m r with
  | nil => simp [popMin] at h
  | cons a q ih =>
    simp only [popMin] at h
    cases hq : popMin q with
    | none =>
      rw [hq] at h
      have := popMin_none.1 hq
      subst this
      simp at h
      obtain ⟨rfl, rfl⟩ := h
      intro x hx
      simp at hx
      subst hx
      exact keyLt_irrefl _
    | some p =>
      obtain ⟨x, r'⟩ := p
      rw [hq] at h
      have ih := ih hq
      simp only at h
      split at h
      · rename_i hlt
        simp at h
        obtain ⟨rfl, rfl⟩ := h
        intro y hy
        rcases List.mem_cons.1 hy with rfl | hy
        · exact keyLt_asymm hlt
        · exact ih y hy
      · rename_i hlt
        simp at h
        obtain ⟨rfl, rfl⟩ := h
        intro y hy
        rcases List.mem_cons.1 hy with rfl | hy
        · exact keyLt_irrefl _
        · exact not_keyLt_trans hlt (ih y hy)

theorem popMin_mem {q : List (Msg κ)} {m r} (h : popMin q = some (m, r)) : m ∈ q :=
  (popMin_perm h).mem_iff.2 (List.mem_cons_self ..)

/-- Distinct sequence numbers. -/
def SeqNodup (q : List (Msg κ)) : Prop := (q.map (·.seq)).Nodup

theorem SeqNodup.perm {q q' : List (Msg κ)} (h : q.Perm q') (hn : SeqNodup q) : SeqNodup q' :=
  (h.map _).nodup hn

theorem seqNodup_eq {q : List (Msg κ)} (hn : SeqNodup q) {a b : Msg κ} (ha : a ∈ q) (hb : b ∈ q)
    (h : a.seq = b.seq) : a = b := by
  induction q with
  | nil => cases ha
  | cons c q ih =>
    simp only [SeqNodup, List.map_cons, List.nodup_cons] at hn
    rcases List.mem_cons.1 ha with ha1 | ha1 <;> rcases List.mem_cons.1 hb with hb1 | hb1
    · rw [ha1, hb1]
    · subst ha1; exact absurd (List.mem_map.2 ⟨b, hb1, h.symm⟩) hn.1
    · subst hb1; exact absurd (List.mem_map.2 ⟨a, ha1, h⟩) hn.1
    · exact ih hn.2 ha1 hb1

theorem popMin_lt {q : List (Msg κ)} (hn : SeqNodup q) {m r} (h : popMin q = some (m, r)) :
    ∀ x ∈ q, x ≠ m → keyLt m x := by
  intro x hx hne
  have hs : m.seq ≠ x.seq := fun e => hne (seqNodup_eq hn hx (popMin_mem h) e.symm)
  rcases keyLt_total hs with h1 | h1
  · exact h1
  · exact absurd h1 (popMin_le h x hx)

/-- The minimum does not depend on the order of the bag. -/
theorem popMin_congr {q q' : List (Msg κ)} (hp : q.Perm q') (hn : SeqNodup q) {m r m' r'}
    (h : popMin q = some (m, r)) (h' : popMin q' = some (m', r')) : m = m' ∧ r.Perm r' := by
  have hm : m = m' := by
    by_cases e : m = m'
    · exact e
    · have hm' : m' ∈ q := hp.mem_iff.2 (popMin_mem h')
      have hmq : m ∈ q' := hp.mem_iff.1 (popMin_mem h)
      have h1 := popMin_lt hn h m' hm' (fun e' => e e'.symm)
      have h2 := popMin_lt (hn.perm hp) h' m hmq e
      exact absurd h2 (keyLt_asymm h1)
  subst hm
  refine ⟨rfl, ?_⟩
  have := ((popMin_perm h).symm.trans hp).trans (popMin_perm h')
  exact List.Perm.cons_inv this

/-- Everything the client knows. -/
def QInv (s : QState κ) : Prop :=
  SeqNodup (s.pending ++ s.taken) ∧ ∀ m ∈ s.pending ++ s.taken, m.seq ≤ s.counter ∧ 1 ≤ m.seq

theorem QInv_init : QInv ({} : QState κ) := by
  simp [QInv, SeqNodup]

theorem QInv_step {s : QState κ} (h : QInv s) (o : QOp κ) : QInv (qstep s o).1 := by
  obtain ⟨hn, hb⟩ := h
  cases o with
  | new t p d =>
    simp only [qstep, pushMsg, QInv]
    refine ⟨?_, ?_⟩
    · simp only [SeqNodup, List.cons_append, List.map_cons, List.nodup_cons]
      refine ⟨?_, hn⟩
      intro hc
      obtain ⟨x, hx, hx2⟩ := List.mem_map.1 hc
      have := hb x hx
      omega
    · intro m hm
      rw [List.cons_append] at hm
      rcases List.mem_cons.1 hm with rfl | hm
      · simp
      · have := hb m hm; omega
  | pop =>
    simp only [qstep]
    cases hp : popMin s.pending with
    | none => exact ⟨hn, hb⟩
    | some p =>
      obtain ⟨m, r⟩ := p
      have hperm : (s.pending ++ s.taken).Perm (r ++ m :: s.taken) :=
        ((popMin_perm hp).append_right _).trans (by simp only [List.cons_append]; exact List.perm_middle.symm)
      exact ⟨hn.perm hperm, fun x hx => hb x (hperm.mem_iff.2 hx)⟩
  | back =>
    simp only [qstep]
    cases ht : s.taken with
    | nil => simp only; rw [ht] at hn hb; exact ⟨by simpa [ht] using hn, by simpa [ht] using hb⟩
    | cons m ts =>
      rw [ht] at hn hb
      have hperm : (s.pending ++ m :: ts).Perm (pushMsg s.pending m ++ ts) := by
        simp only [pushMsg, List.cons_append]; exact List.perm_middle
      exact ⟨hn.perm hperm, fun x hx => hb x (hperm.mem_iff.2 hx)⟩

theorem QInv_run {s : QState κ} (h : QInv s) (os : List (QOp κ)) : QInv (qrun s os).1 := by
  induction os generalizing s with
  | nil => exact h
  | cons o os ih => exact ih (QInv_step h o)

end Jq
