import Verif.Lemmas.OrderSync
set_option linter.unusedSectionVars false
/-! Re-reading lines of the broker's files: every line assigns constants to some fields. -/
namespace Jq
variable {ν : Type} [GateNum ν]

/-- Assignments to the fields of an order. -/
structure Patch (ν : Type) where
  status : Option (Option Str) := none
  entrustTime : Option (Option DtVal) := none
  confirmId : Option (Option Str) := none
  filled : Option (Option Int) := none
  canceled : Option (Option Int) := none
  dealBalance : Option (Option ν) := none
  avgCost : Option (Option ν) := none
  errMsg : Option (Option Str) := none

def Patch.apply (p : Patch ν) (o : OrderInfo ν) : OrderInfo ν :=
  { o with
    status := p.status.getD o.status
    entrustTime := p.entrustTime.getD o.entrustTime
    confirmId := p.confirmId.getD o.confirmId
    filled := p.filled.getD o.filled
    canceled := p.canceled.getD o.canceled
    dealBalance := p.dealBalance.getD o.dealBalance
    avgCost := p.avgCost.getD o.avgCost
    errMsg := p.errMsg.getD o.errMsg }

/-- First `p`, then `q`. -/
def Patch.seq (p q : Patch ν) : Patch ν :=
  { status := q.status.or p.status
    entrustTime := q.entrustTime.or p.entrustTime
    confirmId := q.confirmId.or p.confirmId
    filled := q.filled.or p.filled
    canceled := q.canceled.or p.canceled
    dealBalance := q.dealBalance.or p.dealBalance
    avgCost := q.avgCost.or p.avgCost
    errMsg := q.errMsg.or p.errMsg }

private theorem getD_or {α : Type} (a b : Option α) (x : α) : (a.or b).getD x = a.getD (b.getD x) := by cases a <;> rfl

theorem Patch.apply_seq (p q : Patch ν) (o : OrderInfo ν) : (p.seq q).apply o = q.apply (p.apply o) := by
  simp only [Patch.apply, Patch.seq, getD_or]

private theorem getD_getD {α : Type} (a : Option α) (x : α) : a.getD (a.getD x) = a.getD x := by cases a <;> rfl

theorem Patch.apply_idem (p : Patch ν) (o : OrderInfo ν) : p.apply (p.apply o) = p.apply o := by
  simp only [Patch.apply, getD_getD]

/-- The function assigns constants. -/
def IsPatch (g : OrderInfo ν → OrderInfo ν) : Prop := ∃ p : Patch ν, ∀ o, g o = p.apply o

theorem isPatch_id : IsPatch (ν := ν) id := ⟨{}, fun _ => rfl⟩

theorem IsPatch.comp {g h : OrderInfo ν → OrderInfo ν} (hg : IsPatch g) (hh : IsPatch h) : IsPatch (fun o => h (g o)) := by
  obtain ⟨p, hp⟩ := hg
  obtain ⟨q, hq⟩ := hh
  exact ⟨p.seq q, fun o => by show h (g o) = _; rw [hp, hq, Patch.apply_seq]⟩

theorem IsPatch.idem {g : OrderInfo ν → OrderInfo ν} (hg : IsPatch g) (o : OrderInfo ν) : g (g o) = g o := by
  obtain ⟨p, hp⟩ := hg
  rw [hp, hp, p.apply_idem]

/-- What the fields of a line do to the order `id`. -/
structure ViewFun (f : Book ν → List Str → LineRes ν) (view : Str → List Str → OrderInfo ν → OrderInfo ν) : Prop where
  unknown : ∀ b items, f b items = .unknown → ∀ id, (dget b id).map (view id items) = dget b id
  done : ∀ b items b', f b items = .done b' → ∀ id, dget b' id = (dget b id).map (view id items)
  failed : ∀ b items b' e, f b items = .failed b' e → ∀ id, dget b' id = (dget b id).map (view id items)
  patch : ∀ id items, IsPatch (view id items)

/-- What a line does to the order `id`. -/
def lineView (cols : Nat) (view : Str → List Str → OrderInfo ν → OrderInfo ν) (id : Str) (l : Str × Nat) (o : OrderInfo ν) : OrderInfo ν :=
  match lineKind cols l.1 with
  | .fields items => view id items o
  | _ => o

def linesView (cols : Nat) (view : Str → List Str → OrderInfo ν → OrderInfo ν) (id : Str) (ls : List (Str × Nat)) (o : OrderInfo ν) : OrderInfo ν :=
  ls.foldl (fun o l => lineView cols view id l o) o

def notStop (cols : Nat) (l : Str × Nat) : Bool := decide (lineKind cols l.1 ≠ .stop)

variable {cols : Nat} {f : Book ν → List Str → LineRes ν} {view : Str → List Str → OrderInfo ν → OrderInfo ν}

theorem linesView_append (id : Str) (ls ms : List (Str × Nat)) (o : OrderInfo ν) :
    linesView cols view id (ls ++ ms) o = linesView cols view id ms (linesView cols view id ls o) := by
  simp only [linesView, List.foldl_append]

theorem linesView_cons (id : Str) (l : Str × Nat) (ms : List (Str × Nat)) (o : OrderInfo ν) :
    linesView cols view id (l :: ms) o = linesView cols view id ms (lineView cols view id l o) := rfl

theorem lineView_patch (hv : ViewFun f view) (id : Str) (l : Str × Nat) : IsPatch (lineView cols view id l) := by
  unfold lineView
  cases lineKind cols l.1 with
  | stop => exact isPatch_id
  | header => exact isPatch_id
  | fields items => exact hv.patch id items

theorem linesView_patch (hv : ViewFun f view) (id : Str) (ls : List (Str × Nat)) : IsPatch (linesView cols view id ls) := by
  induction ls with
  | nil => exact isPatch_id
  | cons l ls ih => exact (lineView_patch hv id l).comp ih

theorem linesView_trivial (id : Str) (ls : List (Str × Nat)) (h : ∀ l ∈ ls, ∀ o, lineView cols view id l o = o) (o : OrderInfo ν) :
    linesView cols view id ls o = o := by
  induction ls with
  | nil => rfl
  | cons l ls ih => rw [linesView_cons, h l (by simp)]; exact ih fun l hl => h l (by simp [hl])

theorem pollP_view (hv : ViewFun f view) (ls pend : List (Str × Nat)) (b : Book ν)
    (hp : (∀ l ∈ pend, notStop cols l = true) ∧ ∀ id, (dget b id).map (linesView cols view id pend) = dget b id) :
    ∃ N, pend ++ ls = N ++ (pollP cols f true ls pend b).1.2 ∧ (∀ l ∈ N, notStop cols l = true) ∧
      (∀ id, dget (pollP cols f true ls pend b).1.1 id = (dget b id).map (linesView cols view id N)) ∧
      ∀ id, (dget (pollP cols f true ls pend b).1.1 id).map (linesView cols view id ((pollP cols f true ls pend b).1.2.takeWhile (notStop cols))) =
        dget (pollP cols f true ls pend b).1.1 id := by
  induction ls generalizing pend b with
  | nil =>
    refine ⟨[], by simp [pollP], by simp, fun id => by cases h : dget b id <;> simp [pollP, linesView, h], fun id => ?_⟩
    simp only [pollP]
    rw [show pend.takeWhile (notStop cols) = pend by have := List.takeWhile_append_of_pos (l₂ := []) hp.1; simpa using this]
    exact hp.2 id
  | cons l ls ih =>
    have hnil : ∀ b : Book ν, (∀ x ∈ ([] : List (Str × Nat)), notStop cols x = true) ∧ ∀ id, (dget b id).map (linesView cols view id []) = dget b id :=
      fun b => ⟨by simp, fun id => by cases dget b id <;> rfl⟩
    -- a processed line
    have main : ∀ b' : Book ν, notStop cols l = true → (∀ id, dget b' id = (dget b id).map (lineView cols view id l)) →
        ∃ N, pend ++ l :: ls = N ++ (pollP cols f true ls [] b').1.2 ∧ (∀ l ∈ N, notStop cols l = true) ∧
          (∀ id, dget (pollP cols f true ls [] b').1.1 id = (dget b id).map (linesView cols view id N)) ∧
          ∀ id, (dget (pollP cols f true ls [] b').1.1 id).map (linesView cols view id ((pollP cols f true ls [] b').1.2.takeWhile (notStop cols))) =
            dget (pollP cols f true ls [] b').1.1 id := by
      intro b' hns hb'
      obtain ⟨N, h1, h2, h3, h4⟩ := ih [] b' (hnil b')
      refine ⟨pend ++ l :: N, ?_, ?_, ?_, h4⟩
      · rw [List.append_assoc, List.cons_append, ← h1]; rfl
      · intro x hx
        rcases List.mem_append.1 hx with hx | hx
        · exact hp.1 x hx
        · rcases List.mem_cons.1 hx with rfl | hx
          · exact hns
          · exact h2 x hx
      · intro id
        rw [h3 id, hb' id, ← hp.2 id]
        cases dget b id with
        | none => rfl
        | some o =>
          simp only [Option.map_some]
          have hpo := hp.2 id
          rw [linesView_append, linesView_cons]
          congr 3
          -- `pend` changes nothing, so it may be read twice
          exact ((linesView_patch hv id pend).idem o).symm
    simp only [pollP]
    cases hk : lineKind cols l.1 with
    | stop =>
      refine ⟨[], by simp, by simp, fun id => by cases dget b id <;> rfl, fun id => ?_⟩
      have : (pend ++ l :: ls).takeWhile (notStop cols) = pend := by
        rw [List.takeWhile_append_of_pos hp.1, List.takeWhile_cons_of_neg (by simp [notStop, hk])]; simp
      simp only [this]
      exact hp.2 id
    | header => exact main b (by simp [notStop, hk]) (fun id => by cases dget b id <;> simp [lineView, hk])
    | fields items =>
      have hns : notStop cols l = true := by simp [notStop, hk]
      have hlv : ∀ id, lineView cols view id l = view id items := fun id => by funext o; simp only [lineView, hk]
      simp only
      cases hb : f b items with
      | unknown =>
        simp only
        obtain ⟨N, h1, h2, h3, h4⟩ := ih (pend ++ [l]) b ⟨by
          intro x hx
          rcases List.mem_append.1 hx with hx | hx
          · exact hp.1 x hx
          · rw [List.mem_singleton.1 hx]; exact hns, fun id => by
          have h1 := hp.2 id
          have h2 := hv.unknown b items hb id
          cases ho : dget b id with
          | none => rfl
          | some o =>
            rw [ho] at h1 h2
            simp only [Option.map_some, Option.some.injEq] at h1 h2 ⊢
            rw [linesView_append, h1, linesView_cons, hlv, h2]; rfl⟩
        exact ⟨N, by rw [← h1]; simp, h2, h3, h4⟩
      | done b' => exact main b' hns (fun id => by rw [hlv]; exact hv.done b items b' hb id)
      | failed b' e =>
        simp only [if_true]
        exact main b' hns (fun id => by rw [hlv]; exact hv.failed b items b' e hb id)

/-- The lines before the offset have been read, and reading them again would change nothing in the orders `I`. -/
def AbsorbedFor (I : Str → Prop) (cols : Nat) (view : Str → List Str → OrderInfo ν → OrderInfo ν) (content : Str) (b : Book ν) (off : Nat) : Prop :=
  ∃ C P, rawLines content = C ++ P ∧ off = sizeOfLines C ∧ (∀ l ∈ C, notStop cols l = true) ∧
    ∀ id, I id → (dget b id).map (linesView cols view id C) = dget b id

/-- The same for all orders. -/
abbrev Absorbed (cols : Nat) (view : Str → List Str → OrderInfo ν → OrderInfo ν) (content : Str) (b : Book ν) (off : Nat) : Prop :=
  AbsorbedFor (fun _ => True) cols view content b off

variable {I : Str → Prop}

theorem absorbed_zero (content : Str) (b : Book ν) : AbsorbedFor I cols view content b 0 :=
  ⟨[], rawLines content, rfl, rfl, by simp, fun id _ => by cases dget b id <;> rfl⟩

theorem sizeOfLines_append (a b : List (Str × Nat)) : sizeOfLines (a ++ b) = sizeOfLines a + sizeOfLines b := by
  simp [sizeOfLines]

/-- Reading from an offset whose lines are absorbed. -/
theorem poll_absorbed (hv : ViewFun f view) (content : Str) (b : Book ν) (off : Nat) (h : AbsorbedFor I cols view content b off) :
    ∃ C P, rawLines content = C ++ P ∧ (pollFile cols f true content b off).1.2 = sizeOfLines C ∧ (∀ l ∈ C, notStop cols l = true) ∧
      (∀ id, I id → dget (pollFile cols f true content b off).1.1 id = (dget b id).map (linesView cols view id C)) ∧
      ∀ id, I id → dget (pollFile cols f true content b off).1.1 id =
        (dget b id).map (linesView cols view id ((rawLines content).takeWhile (notStop cols))) := by
  obtain ⟨C, P, h1, h2, h3, h4⟩ := h
  obtain ⟨hd, hle⟩ := rawLines_drop_lines h1
  rw [← h2] at hd hle
  obtain ⟨g1, g2, g3, g4⟩ := pollFile_pollP cols f true content b off hle
  rw [hd] at g1 g2 g3
  obtain ⟨N, k1, k2, k3, k4⟩ := pollP_view (cols := cols) hv P [] b ⟨by simp, fun id => by cases dget b id <;> rfl⟩
  rw [← g3, ← g1] at k4
  rw [← g1] at k3
  rw [← g3] at k1
  rw [List.nil_append] at k1
  generalize hp : rawLines (content.drop (pollFile cols f true content b off).1.2) = P' at k1 k4
  have hC : ∀ id, I id → dget (pollFile cols f true content b off).1.1 id = (dget b id).map (linesView cols view id (C ++ N)) := by
    intro id hid
    rw [k3 id]
    have := h4 id hid
    cases ho : dget b id with
    | none => rfl
    | some o =>
      rw [ho] at this
      simp only [Option.map_some, Option.some.injEq] at this ⊢
      rw [linesView_append, this]
  have hns : ∀ l ∈ C ++ N, notStop cols l = true := by
    intro l hl
    rcases List.mem_append.1 hl with hl | hl
    · exact h3 l hl
    · exact k2 l hl
  have hraw : rawLines content = (C ++ N) ++ P' := by rw [h1, k1, List.append_assoc]
  refine ⟨C ++ N, P', hraw, ?_, hns, hC, ?_⟩
  · have e1 := sizeOfLines_rawLines content
    rw [hraw, sizeOfLines_append] at e1
    have e2 := sizeOfLines_rawLines (content.drop (pollFile cols f true content b off).1.2)
    rw [hp, List.length_drop] at e2
    omega
  · intro id hid
    have := k4 id
    rw [hC id hid] at this ⊢
    rw [hraw, List.takeWhile_append_of_pos hns]
    cases ho : dget b id with
    | none => rfl
    | some o =>
      rw [ho] at this
      simp only [Option.map_some, Option.some.injEq] at this ⊢
      rw [linesView_append (ls := C ++ N), this]

/-- `Absorbed` after reading. -/
theorem absorbed_poll (hv : ViewFun f view) (content : Str) (b : Book ν) (off : Nat) (h : AbsorbedFor I cols view content b off) :
    AbsorbedFor I cols view content (pollFile cols f true content b off).1.1 (pollFile cols f true content b off).1.2 := by
  obtain ⟨C, P, h1, h2, h3, h4, _⟩ := poll_absorbed hv content b off h
  refine ⟨C, P, h1, h2, h3, fun id hid => ?_⟩
  rw [h4 id hid]
  cases dget b id with
  | none => rfl
  | some o => simp only [Option.map_some]; rw [(linesView_patch hv id C).idem]

theorem absorbed_append {content : Str} (hw : WholeLines content) (more : Str) {b : Book ν} {off : Nat} (h : AbsorbedFor I cols view content b off) :
    AbsorbedFor I cols view (content ++ more) b off := by
  obtain ⟨C, P, h1, h2, h3, h4⟩ := h
  exact ⟨C, P ++ rawLines more, by rw [rawLines_append hw, h1, List.append_assoc], h2, h3, h4⟩

/-- Another book whose orders are either the same or not named by the lines. -/
theorem absorbed_congr {content : Str} {b b' : Book ν} {off : Nat} (h : AbsorbedFor I cols view content b off)
    (hb : ∀ id, I id → dget b' id = dget b id ∨ ∀ l ∈ rawLines content, ∀ o, lineView cols view id l o = o) :
    AbsorbedFor I cols view content b' off := by
  obtain ⟨C, P, h1, h2, h3, h4⟩ := h
  refine ⟨C, P, h1, h2, h3, fun id hid => ?_⟩
  rcases hb id hid with hb | hb
  · rw [hb]; exact h4 id hid
  · have ht := linesView_trivial (cols := cols) (view := view) id C (fun l hl => hb l (by rw [h1]; simp [hl]))
    cases dget b' id with
    | none => rfl
    | some o => simp only [Option.map_some]; rw [ht]

theorem pollFile_ign_not_raised (content : Str) (b : Book ν) (off : Nat) (e : PyErr) : (pollFile cols f true content b off).2 ≠ .raised e := by
  simp only [pollFile]
  suffices H : ∀ ls pos b off, (pollLoop cols f true ls pos b off).2 ≠ .raised e from H _ _ _ _
  intro ls
  induction ls with
  | nil => intro pos b off; simp [pollLoop]
  | cons l ls ih =>
    intro pos b off
    obtain ⟨raw, n⟩ := l
    simp only [pollLoop]
    cases lineKind cols raw with
    | stop => simp
    | header => exact ih _ _ _
    | fields items =>
      simp only
      cases f b items with
      | unknown => exact ih _ _ _
      | done b' => exact ih _ _ _
      | failed b' e => exact ih _ _ _

theorem pollFile_keys (hf : LineFun f) (ign : Bool) (content : Str) (b : Book ν) (off : Nat) :
    dkeys (pollFile cols f ign content b off).1.1 = dkeys b := by
  simp only [pollFile]
  suffices H : ∀ ls pos b off, dkeys (pollLoop cols f ign ls pos b off).1.1 = dkeys b from H _ _ _ _
  intro ls
  induction ls with
  | nil => intro pos b off; rfl
  | cons l ls ih =>
    intro pos b off
    obtain ⟨raw, n⟩ := l
    simp only [pollLoop]
    cases lineKind cols raw with
    | stop => rfl
    | header => exact ih _ _ _
    | fields items =>
      simp only
      cases hb : f b items with
      | unknown => exact ih _ _ _
      | done b' => exact (ih _ _ _).trans (hf.keys_done b items b' hb)
      | failed b' e =>
        cases ign with
        | true => exact (ih _ _ _).trans (hf.keys_failed b items b' e hb)
        | false => exact hf.keys_failed b items b' e hb

/-! The two files. -/

def updView (id : Str) (items : List Str) (o : OrderInfo ν) : OrderInfo ν :=
  match OrderLine.ofItems items with
  | .ok l => if l.custBatchNo = id then (updateOrder o l).1 else o
  | .error _ => o

theorem updateOrder_patch (l : OrderLine) : IsPatch (fun o : OrderInfo ν => (updateOrder o l).1) := by
  unfold updateOrder
  cases parseStatus l.status with
  | error e => exact isPatch_id
  | ok st =>
    simp only
    cases strptime mCompact (l.orderDate ++ l.orderTime) with
    | error e => exact ⟨{ status := some (some st.name) }, fun o => rfl⟩
    | ok d =>
      simp only
      cases pyInt l.filledQty with
      | none => exact ⟨{ status := some (some st.name), entrustTime := some (some (.str d.full)), confirmId := some (some l.orderNo) }, fun o => rfl⟩
      | some n =>
        simp only
        cases (GateNum.parse l.filledAmt : Option ν) with
        | none => exact ⟨{ status := some (some st.name), entrustTime := some (some (.str d.full)), confirmId := some (some l.orderNo), filled := some (some n) }, fun o => rfl⟩
        | some x =>
          simp only
          cases pyInt l.cancelQty with
          | none => exact ⟨{ status := some (some st.name), entrustTime := some (some (.str d.full)), confirmId := some (some l.orderNo), filled := some (some n)
                             dealBalance := some (some (GateNum.round 4 x)) }, fun o => rfl⟩
          | some m =>
            simp only
            cases (GateNum.parse l.avgPrice : Option ν) with
            | none => exact ⟨{ status := some (some st.name), entrustTime := some (some (.str d.full)), confirmId := some (some l.orderNo), filled := some (some n)
                               dealBalance := some (some (GateNum.round 4 x)), canceled := some (some m) }, fun o => rfl⟩
            | some y => exact ⟨{ status := some (some st.name), entrustTime := some (some (.str d.full)), confirmId := some (some l.orderNo), filled := some (some n)
                                 dealBalance := some (some (GateNum.round 4 x)), canceled := some (some m), avgCost := some (some (GateNum.round 3 y))
                                 errMsg := some (some l.text) }, fun o => rfl⟩

theorem updateLine_view : ViewFun (updateLine (ν := ν)) updView := by
  have hset : ∀ (b : Book ν) (l : OrderLine) (o : OrderInfo ν) (id : Str), dget b l.custBatchNo = some o →
      dget (dset b l.custBatchNo (updateOrder o l).1) id = (dget b id).map (fun o => if l.custBatchNo = id then (updateOrder o l).1 else o) := by
    intro b l o id ho
    rw [dget_dset]
    by_cases h : l.custBatchNo = id
    · subst h; simp [ho]
    · simp only [h, if_false]; cases dget b id <;> simp
  refine ⟨?_, ?_, ?_, ?_⟩
  · intro b items h id
    simp only [updateLine] at h
    unfold updView
    cases hl : OrderLine.ofItems items with
    | error e => cases dget b id <;> rfl
    | ok l =>
      rw [hl] at h
      simp only at h ⊢
      cases ho : dget b l.custBatchNo with
      | some o =>
        rw [ho] at h; simp only at h
        cases hu : updateOrder o l with
        | mk o' r => rw [hu] at h; cases r <;> simp at h
      | none =>
        by_cases hid : l.custBatchNo = id
        · subst hid; rw [ho]; rfl
        · simp only [hid, if_false]; cases dget b id <;> rfl
  · intro b items b' h id
    simp only [updateLine] at h
    unfold updView
    cases hl : OrderLine.ofItems items with
    | error e => rw [hl] at h; cases h
    | ok l =>
      rw [hl] at h
      simp only at h ⊢
      cases ho : dget b l.custBatchNo with
      | none => rw [ho] at h; cases h
      | some o =>
        rw [ho] at h; simp only at h
        rw [← hset b l o id ho]
        cases hu : updateOrder o l with
        | mk o' r =>
          rw [hu] at h
          cases r with
          | error e => cases h
          | ok u => simp only [LineRes.done.injEq] at h; rw [← h]
  · intro b items b' e h id
    simp only [updateLine] at h
    unfold updView
    cases hl : OrderLine.ofItems items with
    | error e => rw [hl] at h; simp only [LineRes.failed.injEq] at h; rw [h.1]; cases dget b' id <;> rfl
    | ok l =>
      rw [hl] at h
      simp only at h ⊢
      cases ho : dget b l.custBatchNo with
      | none => rw [ho] at h; cases h
      | some o =>
        rw [ho] at h; simp only at h
        rw [← hset b l o id ho]
        cases hu : updateOrder o l with
        | mk o' r =>
          rw [hu] at h
          cases r with
          | ok u => cases h
          | error e => simp only [LineRes.failed.injEq] at h; rw [← h.1]
  · intro id items
    unfold updView
    cases OrderLine.ofItems items with
    | error e => exact isPatch_id
    | ok l =>
      simp only
      by_cases h : l.custBatchNo = id
      · simp only [h, if_true]; exact updateOrder_patch l
      · simp only [h, if_false]; exact isPatch_id

def resView (id : Str) (items : List Str) (o : OrderInfo ν) : OrderInfo ν :=
  match items with
  | [_, resultType, custBatchNo, status, _, errorMsg] =>
    if resultType = c!"1" ∧ status = c!"1" ∧ custBatchNo = id then { o with status := some c!"rejected", errMsg := some errorMsg } else o
  | _ => o

theorem resultLine_view : ViewFun (resultLine (ν := ν)) resView := by
  refine ⟨?_, ?_, ?_, ?_⟩
  · intro b items h id
    simp only [resultLine] at h
    split at h
    · split at h
      · split at h <;> cases h
      · cases h
    · cases h
  · intro b items b' h id
    simp only [resultLine] at h
    split at h
    · rename_i x rt cb st ec em
      unfold resView
      simp only
      split at h
      · rename_i hc
        split at h
        · rename_i o ho
          cases h
          rw [dget_dset]
          by_cases hid : cb = id
          · subst hid; simp [hc, ho]
          · simp only [hid, and_false, if_false]; cases dget b id <;> simp
        · rename_i ho
          cases h
          by_cases hid : cb = id
          · subst hid; simp [ho]
          · simp only [hid, and_false, if_false]; cases dget b id <;> simp
      · rename_i hc
        cases h
        have : ¬ (rt = c!"1" ∧ st = c!"1" ∧ cb = id) := fun h => hc ⟨h.1, h.2.1⟩
        simp only [if_neg this]; cases dget b id <;> simp
    · cases h
  · intro b items b' e h id
    simp only [resultLine] at h
    split at h
    · split at h
      · split at h <;> cases h
      · cases h
    · rename_i hne
      simp only [LineRes.failed.injEq] at h
      rw [h.1]
      have : resView (ν := ν) id items = fun o => o := by
        funext o
        unfold resView
        split
        · exact absurd rfl (hne _ _ _ _ _ _)
        · rfl
      rw [this]; cases dget b' id <;> rfl
  · intro id items
    unfold resView
    split
    · rename_i x rt cb st ec em
      by_cases h : rt = c!"1" ∧ st = c!"1" ∧ cb = id
      · simp only [if_pos h]
        exact ⟨{ status := some (some c!"rejected"), errMsg := some (some em) }, fun o => rfl⟩
      · simp only [if_neg h]; exact isPatch_id
    · exact isPatch_id

end Jq
