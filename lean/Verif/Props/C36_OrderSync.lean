import Verif.Lemmas.Lines
set_option linter.unusedSectionVars false
/-! # C36–C39, C42, C43, C60: order synchronisation with the broker's files -/
namespace Jq
variable {ν : Type} [GateNum ν]

/-! ## C60 -/

/-- Exactly the documented codes are decoded, each to its documented status. -/
theorem c60_status_codes (s : Str) (st : Status) : parseStatus s = .ok st ↔ (s, st) ∈ brokerStatuses := by
  constructor
  · intro h
    simp only [parseStatus] at h
    repeat' (split at h)
    all_goals first
      | (rename_i hs; subst hs; cases h; decide)
      | cases h
  · intro h
    simp only [brokerStatuses, List.mem_cons, List.not_mem_nil, or_false, Prod.mk.injEq] at h
    rcases h with ⟨rfl, rfl⟩ | ⟨rfl, rfl⟩ | ⟨rfl, rfl⟩ | ⟨rfl, rfl⟩ | ⟨rfl, rfl⟩ | ⟨rfl, rfl⟩ | ⟨rfl, rfl⟩ | ⟨rfl, rfl⟩ <;> rfl

/-- Any other code is rejected. -/
theorem c60_other_codes (s : Str) (h : ∀ st, (s, st) ∉ brokerStatuses) : parseStatus s = .error .parserError := by
  cases hp : parseStatus s with
  | ok st => exact absurd ((c60_status_codes s st).1 hp) (h st)
  | error e =>
    simp only [parseStatus] at hp
    repeat' (split at hp)
    all_goals first
      | (cases hp; rfl)
      | cases hp

/-- Different codes mean different statuses. -/
theorem c60_codes_distinct (s t : Str) (a b : Status) (ha : parseStatus s = .ok a) (hb : parseStatus t = .ok b) (h : a = b) : s = t := by
  subst h
  rw [c60_status_codes] at ha hb
  simp only [brokerStatuses, List.mem_cons, List.not_mem_nil, or_false, Prod.mk.injEq] at ha hb
  rcases ha with ⟨rfl, rfl⟩ | ⟨rfl, rfl⟩ | ⟨rfl, rfl⟩ | ⟨rfl, rfl⟩ | ⟨rfl, rfl⟩ | ⟨rfl, rfl⟩ | ⟨rfl, rfl⟩ | ⟨rfl, rfl⟩ <;> simpa [eq_comm] using hb

/-- Status, side and action names round-trip. -/
theorem c60_names_round_trip (st : Status) (sd : Side) (ac : Action) :
    Status.get st.name = .ok st ∧ Side.get sd.name = .ok sd ∧ Action.get ac.name = .ok ac := by
  refine ⟨?_, ?_, ?_⟩
  · cases st <;> rfl
  · cases sd <;> rfl
  · cases ac <;> rfl

/-- Exactly the documented names are understood, each as its documented status, side or action. -/
theorem c60_documented_names (s : Str) (st : Status) (sd : Side) (ac : Action) :
    (Status.get s = .ok st ↔ (s, st) ∈ statusNames) ∧
    (Side.get s = .ok sd ↔ (s, sd) ∈ sideNames) ∧
    (Action.get s = .ok ac ↔ (s, ac) ∈ actionNames) := by
  refine ⟨⟨fun h => ?_, fun h => ?_⟩, ⟨fun h => ?_, fun h => ?_⟩, ⟨fun h => ?_, fun h => ?_⟩⟩
  · unfold Status.get at h
    split at h
    · rename_i x hx
      cases h
      have := List.find?_some hx
      have := of_decide_eq_true this
      subst this
      cases st <;> decide
    · cases h
  · simp only [statusNames, List.mem_cons, List.not_mem_nil, or_false, Prod.mk.injEq] at h
    rcases h with ⟨rfl, rfl⟩ | ⟨rfl, rfl⟩ | ⟨rfl, rfl⟩ | ⟨rfl, rfl⟩ | ⟨rfl, rfl⟩ | ⟨rfl, rfl⟩ | ⟨rfl, rfl⟩ | ⟨rfl, rfl⟩ <;> rfl
  · simp only [Side.get] at h
    repeat' (split at h)
    all_goals first
      | (rename_i hs; subst hs; cases h; decide)
      | cases h
  · simp only [sideNames, List.mem_cons, List.not_mem_nil, or_false, Prod.mk.injEq] at h
    rcases h with ⟨rfl, rfl⟩ | ⟨rfl, rfl⟩ <;> rfl
  · simp only [Action.get] at h
    repeat' (split at h)
    all_goals first
      | (rename_i hs; subst hs; cases h; decide)
      | cases h
  · simp only [actionNames, List.mem_cons, List.not_mem_nil, or_false, Prod.mk.injEq] at h
    rcases h with ⟨rfl, rfl⟩ | ⟨rfl, rfl⟩ <;> rfl

/-- Other names are rejected. -/
theorem c60_other_names (s : Str) : ((∀ st : Status, st.name ≠ s) → Status.get s = .error .valueError) ∧
    ((∀ sd : Side, sd.name ≠ s) → Side.get s = .error .valueError) ∧
    ((∀ ac : Action, ac.name ≠ s) → Action.get s = .error .valueError) := by
  refine ⟨fun h => ?_, fun h => ?_, fun h => ?_⟩
  · have : Status.all.find? (fun x => decide (x.name = s)) = none := by simp [h]
    simp only [Status.get, this]
  · have h1 := h .long; have h2 := h .short
    simp only [Side.name] at h1 h2
    simp only [Side.get, if_neg (fun e : s = _ => h1 e.symm), if_neg (fun e : s = _ => h2 e.symm)]
  · have h1 := h .opened; have h2 := h .close
    simp only [Action.name] at h1 h2
    simp only [Action.get, if_neg (fun e : s = _ => h1 e.symm), if_neg (fun e : s = _ => h2 e.symm)]

example : parseStatus c!"3" = .ok .partlyCanceled ∧ parseStatus c!"6" = .error .parserError := by decide

/-! ## C36 -/

/-- Successive polls of a growing file. -/
def pollSeq (poll : Str → Book ν → Nat → (Book ν × Nat) × PollEnd) (s : Book ν × Nat) : List Str → (Book ν × Nat)
  | [] => s
  | c :: cs => pollSeq poll (poll c s.1 s.2).1 cs

/-- Successive contents of an append-only file, each read at a moment when it ends with a whole line. -/
inductive Growing : List Str → Prop
  | nil : Growing []
  | one (c : Str) : Growing [c]
  | cons {c more : Str} {cs : List Str} : WholeLines c → Growing ((c ++ more) :: cs) → Growing (c :: (c ++ more) :: cs)

private theorem chunks_equal_whole (cols : Nat) (f : Book ν → List Str → LineRes ν) (hf : LineFun f) (ign : Bool) (last : Str)
    (contents : List Str) (s : Book ν × Nat) (hg : Growing (contents ++ [last])) (hs : ∀ c ∈ contents.head?, s.2 ≤ c.length) :
    pollSeq (pollFile cols f ign) s (contents ++ [last]) = (pollFile cols f ign last s.1 s.2).1 := by
  have step : ∀ (c more : Str) (s : Book ν × Nat), WholeLines c → s.2 ≤ c.length →
      pollFile cols f ign (c ++ more) (pollFile cols f ign c s.1 s.2).1.1 (pollFile cols f ign c s.1 s.2).1.2 =
        pollFile cols f ign (c ++ more) s.1 s.2 :=
    fun c more s hw hl => pollFile_resume hf c more hw s.1 s.2 hl
  induction contents generalizing s with
  | nil => rfl
  | cons c cs ih =>
    have hl : s.2 ≤ c.length := hs c (by simp)
    have hrest : Growing (cs ++ [last]) ∧ ∀ d, (cs ++ [last]).head? = some d → s.2 ≤ d.length ∧
        pollFile cols f ign d (pollFile cols f ign c s.1 s.2).1.1 (pollFile cols f ign c s.1 s.2).1.2 = pollFile cols f ign d s.1 s.2 := by
      cases cs with
      | nil =>
        cases hg with
        | cons hw hg' =>
          refine ⟨hg', fun d hd => ?_⟩
          simp only [List.nil_append, List.head?_cons, Option.some.injEq] at hd
          subst hd
          exact ⟨by simp; omega, step c _ s hw hl⟩
      | cons d cs =>
        cases hg with
        | cons hw hg' =>
          refine ⟨hg', fun e he => ?_⟩
          simp only [List.cons_append, List.head?_cons, Option.some.injEq] at he
          subst he
          exact ⟨by simp; omega, step c _ s hw hl⟩
    obtain ⟨h1, h2⟩ := hrest
    -- the next poll forgets that `c` was read before
    have hfirst : pollSeq (pollFile cols f ign) (pollFile cols f ign c s.1 s.2).1 (cs ++ [last]) =
        pollSeq (pollFile cols f ign) s (cs ++ [last]) := by
      cases cs with
      | nil => simp only [List.nil_append, pollSeq]; rw [(h2 last rfl).2]
      | cons d cs => simp only [List.cons_append, pollSeq]; rw [(h2 d rfl).2]
    simp only [List.cons_append, pollSeq]
    rw [hfirst]
    refine ih s h1 ?_
    intro d hd
    cases cs with
    | nil => simp at hd
    | cons d' cs => exact (h2 d (by simpa using hd)).1

/-- However the update file is cut into polls, the result is that of reading the complete file in one poll. -/
theorem c36_chunks_equal_whole (ign : Bool) (b : Book ν) (contents : List Str) (last : Str) (hg : Growing (contents ++ [last])) :
    pollSeq (pollUpdates ign) (b, 0) (contents ++ [last]) = (pollUpdates ign last b 0).1 :=
  chunks_equal_whole 20 updateLine updateLine_fun ign last contents (b, 0) hg (by simp)

/-- The same for the result file. -/
theorem c36_results_chunks_equal_whole (ign : Bool) (b : Book ν) (contents : List Str) (last : Str) (hg : Growing (contents ++ [last])) :
    pollSeq (pollResults ign) (b, 0) (contents ++ [last]) = (pollResults ign last b 0).1 :=
  chunks_equal_whole 6 resultLine resultLine_fun ign last contents (b, 0) hg (by simp)

theorem updateOrder_parsable (o : OrderInfo ν) {l : OrderLine} (h : l.Parsable ν) :
    ∃ o', updateOrder o l = (o', .ok ()) ∧ o'.SaysLine l := by
  obtain ⟨⟨st, h1⟩, ⟨d, h2⟩, ⟨n, h3⟩, ⟨x, h4⟩, ⟨m, h5⟩, ⟨y, h6⟩⟩ := h
  have h1' := (c60_status_codes _ _).2 h1
  refine ⟨_, by simp only [updateOrder, h1', h2, h3, h4, h5, h6]; rfl, ⟨st, h1, rfl⟩, ⟨d, h2, rfl⟩, rfl, ⟨n, h3, rfl⟩, ⟨x, h4, rfl⟩,
    ⟨m, h5, rfl⟩, ⟨y, h6, rfl⟩, rfl⟩

theorem updateOrder_same (o : OrderInfo ν) (l : OrderLine) : SameRequest o (updateOrder o l).1 := by
  simp only [updateOrder]
  repeat' split
  all_goals exact ⟨rfl, rfl, rfl, rfl, rfl, rfl, rfl, rfl, rfl⟩

theorem SameRequest.trans {a b c : OrderInfo ν} (h1 : SameRequest a b) (h2 : SameRequest b c) : SameRequest a c := by
  simp only [SameRequest] at *
  obtain ⟨a1, a2, a3, a4, a5, a6, a7, a8, a9⟩ := h1
  obtain ⟨b1, b2, b3, b4, b5, b6, b7, b8, b9⟩ := h2
  exact ⟨b1.trans a1, b2.trans a2, b3.trans a3, b4.trans a4, b5.trans a5, b6.trans a6, b7.trans a7, b8.trans a8, b9.trans a9⟩

theorem SameRequest.refl (a : OrderInfo ν) : SameRequest a a := ⟨rfl, rfl, rfl, rfl, rfl, rfl, rfl, rfl, rfl⟩

/-- An order not named by a line is not changed by it. -/
private theorem updateLine_other (b : Book ν) (items : List Str) (id : Str)
    (hne : ∀ l, OrderLine.ofItems items = .ok l → l.custBatchNo ≠ id) :
    (∀ b', updateLine b items = .done b' → dget b' id = dget b id) ∧
    (∀ b' e, updateLine b items = .failed b' e → dget b' id = dget b id) := by
  simp only [updateLine]
  cases hl : OrderLine.ofItems items with
  | error e => refine ⟨by simp, ?_⟩; intro b' e' h; simp only [LineRes.failed.injEq] at h; rw [h.1]
  | ok l =>
    have := hne l hl
    simp only
    cases ho : dget b l.custBatchNo with
    | none => simp
    | some o =>
      simp only
      cases hu : updateOrder o l with
      | mk o' r =>
        cases r with
        | ok u =>
          refine ⟨?_, by simp⟩
          intro b' h; simp only [LineRes.done.injEq] at h; subst h; exact dget_dset_ne _ this _
        | error e =>
          refine ⟨by simp, ?_⟩
          intro b' e' h; simp only [LineRes.failed.injEq] at h; obtain ⟨rfl, _⟩ := h; exact dget_dset_ne _ this _

/-- What was asked for never changes. -/
private theorem updateLine_same (b : Book ν) (items : List Str) (id : Str) (o : OrderInfo ν) (ho : dget b id = some o) :
    (∀ b', updateLine b items = .done b' → ∃ o', dget b' id = some o' ∧ SameRequest o o') ∧
    (∀ b' e, updateLine b items = .failed b' e → ∃ o', dget b' id = some o' ∧ SameRequest o o') := by
  simp only [updateLine]
  cases hl : OrderLine.ofItems items with
  | error e => refine ⟨by simp, ?_⟩; intro b' e' h; simp only [LineRes.failed.injEq] at h; exact ⟨o, h.1 ▸ ho, .refl o⟩
  | ok l =>
    simp only
    cases ho' : dget b l.custBatchNo with
    | none => simp
    | some o1 =>
      simp only
      have hset : ∀ o2, SameRequest o1 o2 → ∃ o', dget (dset b l.custBatchNo o2) id = some o' ∧ SameRequest o o' := by
        intro o2 h2
        rw [dget_dset]
        split
        · rename_i e; subst e; rw [ho] at ho'; injection ho' with ho'; subst ho'; exact ⟨o2, rfl, h2⟩
        · exact ⟨o, ho, .refl o⟩
      have hs := updateOrder_same o1 l
      cases hu : updateOrder o1 l with
      | mk o' r =>
        rw [hu] at hs
        cases r with
        | ok u => refine ⟨?_, by simp⟩; intro b' h; simp only [LineRes.done.injEq] at h; subst h; exact hset _ hs
        | error e => refine ⟨by simp, ?_⟩; intro b' e' h; simp only [LineRes.failed.injEq] at h; obtain ⟨rfl, _⟩ := h; exact hset _ hs

private theorem loop_other (ls : List (Str × Nat)) (id : Str) (h : ∀ l ∈ ls, ¬ IsUpdateOf id l.1) (ign : Bool) (pos : Nat) (b : Book ν) (off : Nat) :
    dget (pollLoop 20 updateLine ign ls pos b off).1.1 id = dget b id := by
  induction ls generalizing pos b off with
  | nil => rfl
  | cons l ls ih =>
    obtain ⟨raw, n⟩ := l
    have ih' : ∀ pos b off, dget (pollLoop 20 updateLine ign ls pos b off).1.1 id = dget b id :=
      fun pos b off => ih (fun l hl => h l (by simp [hl])) pos b off
    simp only [pollLoop]
    cases hk : lineKind 20 raw with
    | stop => rfl
    | header => exact ih' _ _ _
    | fields items =>
      simp only
      have ho := updateLine_other b items id (fun l hl e => h (raw, n) (by simp) ⟨items, l, hk, hl, e⟩)
      cases hb : updateLine b items with
      | unknown => exact ih' _ _ _
      | done b' => exact (ih' _ _ _).trans (ho.1 b' hb)
      | failed b' e =>
        cases ign with
        | true => exact (ih' _ _ _).trans (ho.2 b' e hb)
        | false => exact ho.2 b' e hb

private theorem loop_same (ls : List (Str × Nat)) (id : Str) (ign : Bool) (pos : Nat) (b : Book ν) (off : Nat) (o : OrderInfo ν) (ho : dget b id = some o) :
    ∃ o', dget (pollLoop 20 updateLine ign ls pos b off).1.1 id = some o' ∧ SameRequest o o' := by
  induction ls generalizing pos b off o with
  | nil => exact ⟨o, ho, .refl o⟩
  | cons l ls ih =>
    obtain ⟨raw, n⟩ := l
    simp only [pollLoop]
    cases hk : lineKind 20 raw with
    | stop => exact ⟨o, ho, .refl o⟩
    | header => exact ih _ _ _ _ ho
    | fields items =>
      simp only
      have hs := updateLine_same b items id o ho
      cases hb : updateLine b items with
      | unknown => exact ih _ _ _ _ ho
      | done b' =>
        obtain ⟨o1, h1, h2⟩ := hs.1 b' hb
        obtain ⟨o2, h3, h4⟩ := ih (pos + n) b' (pos + n) o1 h1
        exact ⟨o2, h3, h2.trans h4⟩
      | failed b' e =>
        obtain ⟨o1, h1, h2⟩ := hs.2 b' e hb
        cases ign with
        | true =>
          obtain ⟨o2, h3, h4⟩ := ih (pos + n) b' (pos + n) o1 h1
          exact ⟨o2, h3, h2.trans h4⟩
        | false => exact ⟨o1, h1, h2⟩

private theorem loop_keys (ls : List (Str × Nat)) (id : Str) (ign : Bool) (pos : Nat) (b : Book ν) (off : Nat) (o : OrderInfo ν) (ho : dget b id = some o)
    (raw : Str) (n : Nat) (more : List (Str × Nat)) (hns : ∀ l ∈ ls, lineKind 20 l.1 ≠ .stop) (hign : ign = true) :
    ∃ b' off' o', dget b' id = some o' ∧ SameRequest o o' ∧
      pollLoop 20 updateLine ign (ls ++ (raw, n) :: more) pos b off = pollLoop 20 updateLine ign ((raw, n) :: more) (pos + sizeOfLines ls) b' off' := by
  induction ls generalizing pos b off o with
  | nil => exact ⟨b, off, o, ho, .refl o, by simp [sizeOfLines]⟩
  | cons l ls ih =>
    obtain ⟨raw', n'⟩ := l
    have hsz : pos + sizeOfLines ((raw', n') :: ls) = pos + n' + sizeOfLines ls := by simp [sizeOfLines]; omega
    have hns' : ∀ l ∈ ls, lineKind 20 l.1 ≠ .stop := fun l hl => hns l (by simp [hl])
    rw [hsz, List.cons_append]
    conv => enter [1, b', 1, off', 1, o', 2, 2]; lhs; rw [pollLoop.eq_def]
    simp only
    cases hk : lineKind 20 raw' with
    | stop => exact absurd hk (hns (raw', n') (by simp))
    | header => exact ih _ _ _ _ ho hns'
    | fields items =>
      simp only
      have hs := updateLine_same b items id o ho
      cases hb : updateLine b items with
      | unknown => exact ih _ _ _ _ ho hns'
      | done b' =>
        obtain ⟨o1, h1, h2⟩ := hs.1 b' hb
        obtain ⟨b2, off2, o2, h3, h4, h5⟩ := ih (pos + n') b' (pos + n') o1 h1 hns'
        exact ⟨b2, off2, o2, h3, h2.trans h4, h5⟩
      | failed b' e =>
        obtain ⟨o1, h1, h2⟩ := hs.2 b' e hb
        subst hign
        obtain ⟨b2, off2, o2, h3, h4, h5⟩ := ih (pos + n') b' (pos + n') o1 h1 hns'
        exact ⟨b2, off2, o2, h3, h2.trans h4, h5⟩

/-- A poll that reads the lines `before ++ [line] ++ after`, none of which stops it, leaves a known order as its
last update says, if that can be parsed; other lines may be anything (unparsable, of unknown orders). -/
theorem c36_shows_last_update (b : Book ν) (off : Nat) (content : Str) (before after : List (Str × Nat)) (raw : Str) (n : Nat)
    (hc : rawLines (content.drop off) = before ++ (raw, n) :: after) (id : Str) (o : OrderInfo ν) (ho : dget b id = some o)
    (items : List Str) (l : OrderLine) (hl1 : lineKind 20 raw = .fields items) (hl2 : OrderLine.ofItems items = .ok l)
    (hl3 : l.custBatchNo = id) (hp : l.Parsable ν)
    (hns : ∀ x ∈ before, lineKind 20 x.1 ≠ .stop) (hlast : ∀ x ∈ after, ¬ IsUpdateOf id x.1) :
    ∃ o', dget (pollUpdates true content b off).1.1 id = some o' ∧ o'.SaysLine l ∧ SameRequest o o' := by
  simp only [pollUpdates, pollFile, hc]
  obtain ⟨b1, off1, o1, h1, h2, h3⟩ := loop_keys before id true off b off o ho raw n after hns rfl
  rw [h3]
  obtain ⟨o2, h4, h5⟩ := updateOrder_parsable o1 hp
  have hs := updateOrder_same o1 l
  rw [h4] at hs
  simp only [pollLoop, hl1, updateLine, hl2, hl3, h1, h4]
  rw [loop_other after id hlast]
  exact ⟨o2, dget_dset_self .., h5, h2.trans hs⟩

/-- In terms of records: a file of well-formed records; the last one of a known order determines what it shows. -/
theorem c36_file_of_records (b : Book ν) (before after : List (List Str)) (r : List Str) (l : OrderLine)
    (hclean : ∀ x ∈ before ++ r :: after, CleanRecord 20 x) (hr : OrderLine.ofItems r = .ok l) (hp : l.Parsable ν)
    (o : OrderInfo ν) (ho : dget b l.custBatchNo = some o)
    (hlast : ∀ x ∈ after, ∀ l', OrderLine.ofItems x = .ok l' → l'.custBatchNo ≠ l.custBatchNo) :
    ∃ o', dget (pollUpdates true (fileText (before ++ r :: after)) b 0).1.1 l.custBatchNo = some o' ∧ o'.SaysLine l ∧ SameRequest o o' := by
  have hraw := rawLines_fileText (by decide) hclean []
  rw [List.append_nil, rawLines_nil, List.append_nil, List.map_append, List.map_cons] at hraw
  have hk : ∀ x ∈ before ++ r :: after, lineKind 20 (recordText x) = .fields x := fun x hx => (recordText_facts (by decide) (hclean x hx)).2.2.2
  refine c36_shows_last_update b 0 _ _ _ _ _ hraw l.custBatchNo o ho r l (hk r (by simp)) hr rfl hp ?_ ?_
  · intro x hx
    obtain ⟨y, hy, rfl⟩ := List.mem_map.1 hx
    simp only
    rw [hk y (by simp [hy])]
    simp
  · intro x hx hu
    obtain ⟨y, hy, rfl⟩ := List.mem_map.1 hx
    obtain ⟨items, l', h1, h2, h3⟩ := hu
    simp only at h1
    rw [hk y (by simp [hy]), LineKind.fields.injEq] at h1
    subst h1
    exact hlast y hy l' h2 h3


/-- An order and two updates, for the examples. -/
def exOrder : OrderInfo Int := { code := some c!"600000.XSHG", amount := some 100, orderId := some c!"b1", status := some c!"new" }

def exUpdate (id status filled : Str) : List Str :=
  [c!"93001", c!"20240102", c!"093001", c!"UM0", c!"10", c!"600000.SH", c!"1", status, c!"100", c!"9", c!"0", filled, c!"9",
   c!"900", c!"0", c!"77", c!"", id, c!"ok", c!"c1"]

example : CleanRecord 20 (exUpdate c!"b1" c!"2" c!"100") := by
  refine ⟨rfl, ?_, ?_⟩
  · have : ∀ s ∈ exUpdate c!"b1" c!"2" c!"100", ',' ∉ s ∧ '\n' ∉ s ∧ '\r' ∉ s ∧ pyStrip s = s := by decide +kernel
    exact this
  · simp only [exUpdate]; decide

example : (pollSeq (pollUpdates true) ([(c!"b1", exOrder)], 0)
      [fileText [exUpdate c!"b1" c!"0" c!"0"], fileText [exUpdate c!"b1" c!"0" c!"0", exUpdate c!"zz" c!"2" c!"9", exUpdate c!"b1" c!"2" c!"100"]]).1.map
        (fun x => (x.1, x.2.status, x.2.filled)) = [(c!"b1", some c!"filled", some 100)] := by
  decide +kernel

/-! ## C37 -/

private theorem count_pyStrip (s : Str) (c : Char) : (pyStrip s).count c ≤ s.count c := by
  have h : ∀ t : Str, (lstripBy isSpace t).count c ≤ t.count c := fun t => (List.dropWhile_sublist _).count_le c
  simp only [pyStrip, rstripBy]
  refine Nat.le_trans ?_ (h s)
  rw [List.count_reverse]
  refine Nat.le_trans (h _) ?_
  rw [List.count_reverse]
  exact Nat.le_refl _

private theorem splitOn_length (s : Str) : (splitOn ',' s).length = s.count ',' + 1 := by
  induction s with
  | nil => rfl
  | cons c s ih =>
    simp only [splitOn]
    by_cases h : c = ','
    · subst h; simp [ih]
    · simp only [h, if_false]
      rw [List.count_cons_of_ne (by simpa using h)]
      cases hs : splitOn ',' s with
      | nil => rw [hs] at ih; simp at ih
      | cons a as => rw [hs] at ih; simpa using ih

/-- A line with fewer than nineteen commas is too short. -/
private theorem lineKind_short {h : Str} (hc : h.count ',' < 19) (hh : c!"updTime".isPrefixOf (pyStrip h) = false) : lineKind 20 h = .stop := by
  simp only [lineKind]
  split
  · rfl
  · rw [if_neg (by simp [hh]), if_pos]
    have := count_pyStrip h ','
    rw [List.length_map, splitOn_length]
    omega

/-- A poll in the middle of a line loses nothing if what is there of the line has fewer than twenty fields and is not
a beginning of the header line that looks like one: the next poll gives what it would have given without it. -/
theorem c37_half_line_partial (ign : Bool) (b : Book ν) (off : Nat) (c half rest : Str) (hc : WholeLines c) (hoff : off ≤ c.length)
    (h1 : '\n' ∉ half) (h2 : '\r' ∉ half) (hshort : half.count ',' < 19) (hh : c!"updTime".isPrefixOf (pyStrip half) = false) :
    let s := (pollUpdates ign (c ++ half) b off).1
    pollUpdates ign (c ++ half ++ rest) s.1 s.2 = pollUpdates ign (c ++ half ++ rest) b off := by
  intro s
  have hs : s = (pollUpdates ign c b off).1 := by
    by_cases hne : half = []
    · subst hne; simp only [s, List.append_nil]
    · exact pollFile_half c half hc hne h1 h2 (lineKind_short hshort hh) b off hoff
  rw [hs, List.append_assoc]
  exact pollFile_resume updateLine_fun c (half ++ rest) hc b off hoff

private theorem pollLoop_append_end {cols : Nat} {f : Book ν → List Str → LineRes ν} {ign : Bool} (ls more : List (Str × Nat)) (pos : Nat) (b : Book ν)
    (off : Nat) (h : (pollLoop cols f ign ls pos b off).2 ≠ .eof) :
    pollLoop cols f ign (ls ++ more) pos b off = pollLoop cols f ign ls pos b off := by
  induction ls generalizing pos b off with
  | nil => exact absurd rfl h
  | cons l ls ih =>
    obtain ⟨raw, n⟩ := l
    simp only [List.cons_append, pollLoop] at h ⊢
    cases hk : lineKind cols raw with
    | stop => rfl
    | header => rw [hk] at h; exact ih _ _ _ h
    | fields items =>
      rw [hk] at h
      simp only at h ⊢
      cases hb : f b items with
      | unknown => rw [hb] at h; exact ih _ _ _ h
      | done b' => rw [hb] at h; exact ih _ _ _ h
      | failed b' e =>
        rw [hb] at h
        cases ign with
        | true => exact ih _ _ _ h
        | false => rfl

/-- A poll that did not reach the end of the file is repeated by every later one. -/
private theorem end_repeats {cols : Nat} {f : Book ν → List Str → LineRes ν} (hf : LineFun f) (ign : Bool) (c more : Str) (hc : WholeLines c) (b : Book ν) (off : Nat)
    (hoff : off ≤ c.length) (h : (pollFile cols f ign c b off).2 ≠ .eof) :
    pollFile cols f ign (c ++ more) (pollFile cols f ign c b off).1.1 (pollFile cols f ign c b off).1.2 = pollFile cols f ign c b off := by
  rw [pollFile_resume hf c more hc b off hoff]
  simp only [pollFile] at h ⊢
  rw [List.drop_append_of_le_length hoff, rawLines_append (wholeLines_drop hc off)]
  exact pollLoop_append_end _ _ _ _ _ h

/-- Reading from a line that stops changes nothing, whatever the broker appends. -/
private theorem blocked (ign : Bool) (c more : Str) (hc : WholeLines c) (b : Book ν) (off : Nat) (hoff : off ≤ c.length)
    (h : ∃ l ls, rawLines (c.drop off) = l :: ls ∧ lineKind 20 l.1 = .stop) :
    pollUpdates ign (c ++ more) b off = ((b, off), .stopped) := by
  obtain ⟨⟨raw, n⟩, ls, h1, h2⟩ := h
  simp only [pollUpdates, pollFile]
  rw [List.drop_append_of_le_length hoff, rawLines_append (wholeLines_drop hc off), h1]
  simp only at h2
  simp only [List.cons_append, pollLoop, h2]

private theorem rawLines_line (s : Str) (h1 : '\n' ∉ s) (h2 : '\r' ∉ s) : rawLines (s ++ ['\n']) = [(s, s.length + 1)] := by
  induction s with
  | nil => rfl
  | cons c s ih =>
    simp only [List.mem_cons, not_or] at h1 h2
    rw [List.cons_append, rawLines_char (fun e => h1.1 e.symm) (fun e => h2.1 e.symm), ih h1.2 h2.2]
    rfl

/-- Reading on from the end of a file, having read all of it. -/
private theorem pollLoop_append_eof {cols : Nat} {f : Book ν → List Str → LineRes ν} {ign : Bool} (ls more : List (Str × Nat)) (pos : Nat) (b : Book ν)
    (off : Nat) (h : (pollLoop cols f ign ls pos b off).2 = .eof) :
    pollLoop cols f ign (ls ++ more) pos b off =
      pollLoop cols f ign more (pos + sizeOfLines ls) (pollLoop cols f ign ls pos b off).1.1 (pollLoop cols f ign ls pos b off).1.2 := by
  induction ls generalizing pos b off with
  | nil => rfl
  | cons l ls ih =>
    obtain ⟨raw, n⟩ := l
    simp only [List.cons_append, pollLoop, sizeOfLines, List.map_cons, List.sum_cons] at h ⊢
    rw [← Nat.add_assoc]
    cases hk : lineKind cols raw with
    | stop => rw [hk] at h; cases h
    | header => rw [hk] at h; exact ih _ _ _ h
    | fields items =>
      rw [hk] at h
      simp only at h ⊢
      cases hb : f b items with
      | unknown => rw [hb] at h; exact ih _ _ _ h
      | done b' => rw [hb] at h; exact ih _ _ _ h
      | failed b' e =>
        rw [hb] at h
        cases ign with
        | true => exact ih _ _ _ h
        | false => cases h

/-- What a poll does with a line that is not finished, all lines before it having been read. -/
private theorem poll_half (ign : Bool) (b : Book ν) (off : Nat) (c half : Str) (hc : WholeLines c) (hoff : off ≤ c.length)
    (hne : half ≠ []) (h1 : '\n' ∉ half) (h2 : '\r' ∉ half) (he : (pollUpdates ign c b off).2 = .eof) :
    pollUpdates ign (c ++ half) b off =
      pollLoop 20 updateLine ign [(half, half.length)] c.length (pollUpdates ign c b off).1.1 (pollUpdates ign c b off).1.2 := by
  simp only [pollUpdates, pollFile] at he ⊢
  rw [List.drop_append_of_le_length hoff, rawLines_append (wholeLines_drop hc off), rawLines_single hne h1 h2,
    pollLoop_append_eof _ _ _ _ _ he]
  congr 1
  rw [sizeOfLines_rawLines, List.length_drop]
  omega

/-- A poll in the middle of a line that names an unknown order loses nothing either, however much of the line is there. -/
theorem c37_half_line_unknown_order_partial (ign : Bool) (b : Book ν) (off : Nat) (c half rest : Str) (hc : WholeLines c) (hoff : off ≤ c.length)
    (h1 : '\n' ∉ half) (h2 : '\r' ∉ half) (items : List Str) (hk : lineKind 20 half = .fields items)
    (hu : updateLine (pollUpdates ign c b off).1.1 items = .unknown) :
    let s := (pollUpdates ign (c ++ half) b off).1
    pollUpdates ign (c ++ half ++ rest) s.1 s.2 = pollUpdates ign (c ++ half ++ rest) b off := by
  intro s
  have hne : half ≠ [] := by rintro rfl; cases hk
  have hs : s = (pollUpdates ign c b off).1 := by
    by_cases he : (pollUpdates ign c b off).2 = .eof
    · simp only [s]
      rw [poll_half ign b off c half hc hoff hne h1 h2 he]
      simp only [pollLoop, hk, hu]
    · simp only [s]
      simp only [pollUpdates, pollFile] at he ⊢
      rw [List.drop_append_of_le_length hoff, rawLines_append (wholeLines_drop hc off), pollLoop_append_end _ _ _ _ _ he]
  rw [hs, List.append_assoc]
  exact pollFile_resume updateLine_fun c (half ++ rest) hc b off hoff

/-- **Every** poll that finds the line of a known order after its nineteenth comma and before its line end, or the header line
after its first word, blocks the file for ever: whatever else the broker writes, no later poll changes anything.  (Together
with the two theorems before, this leaves no cut of a line undecided except those whose remainder is itself a header
or has twenty fields.) -/
theorem c37_every_late_cut_refuted (b : Book ν) (off : Nat) (c half rest more : Str) (hc : WholeLines c) (hoff : off ≤ c.length)
    (he : (pollUpdates true c b off).2 = .eof) (h1 : '\n' ∉ half) (h2 : '\r' ∉ half)
    (hk : lineKind 20 half = .header ∨ ∃ items, lineKind 20 half = .fields items ∧ updateLine (pollUpdates true c b off).1.1 items ≠ .unknown)
    (hr : '\n' ∉ rest) (hr' : '\r' ∉ rest) (hshort : rest.count ',' < 19)
    (hh : c!"updTime".isPrefixOf (pyStrip rest) = false) :
    let s := (pollUpdates true (c ++ half) b off).1
    pollUpdates true (c ++ half ++ (rest ++ '\n' :: more)) s.1 s.2 = (s, .stopped) := by
  intro s
  have hne : half ≠ [] := by rintro rfl; rcases hk with hk | ⟨_, hk, _⟩ <;> cases hk
  have hs : s.2 = (c ++ half).length := by
    simp only [s]
    rw [poll_half true b off c half hc hoff hne h1 h2 he]
    rcases hk with hk | ⟨items, hk, hu⟩
    · simp only [pollLoop, hk, List.length_append]
    · simp only [pollLoop, hk, List.length_append]
      cases hb : updateLine (pollUpdates true c b off).1.1 items with
      | unknown => exact absurd hb hu
      | done b' => rfl
      | failed b' e => rfl
  have hraw : rawLines (rest ++ '\n' :: more) = (rest, rest.length + 1) :: rawLines more := by
    rw [rawLines_append_lf]
    have : rawLines (rest ++ ['\n']) = [(rest, rest.length + 1)] := rawLines_line rest hr hr'
    rw [this]; rfl
  simp only [pollUpdates, pollFile]
  rw [show (c ++ half ++ (rest ++ '\n' :: more)).drop s.2 = rest ++ '\n' :: more by rw [hs, List.drop_left], hraw]
  simp only [pollLoop, lineKind_short hshort hh]

example : let half := (recordText (exUpdate c!"b1" c!"0" c!"0")).dropLast
    (∃ items, lineKind 20 half = .fields items ∧ updateLine (pollUpdates true [] [(c!"b1", exOrder)] 0).1.1 items ≠ .unknown) ∧
      c!"1".count ',' < 19 ∧ lineKind 20 c!"updTime,orderDate,ord" = .header := by
  refine ⟨⟨(exUpdate c!"b1" c!"0" c!"0").dropLast ++ [c!"c"], by decide +kernel, by decide +kernel⟩, by decide, by decide⟩

/-- The line is cut after its nineteenth comma: it is taken as complete, and what is left of it blocks the file for
ever.  The order is filled at once in the next line, and no later poll notices. -/
theorem c37_cut_in_last_field_refuted :
    ∃ (b : Book Int) (half rest : Str), '\n' ∉ half ∧
      (∀ more, let s := (pollUpdates true half b 0).1
        (dget (pollUpdates true (half ++ rest ++ more) s.1 s.2).1.1 c!"b1").bind (·.status) = some c!"open") ∧
      (dget (pollUpdates true (half ++ rest) b 0).1.1 c!"b1").bind (·.status) = some c!"filled" := by
  refine ⟨[(c!"b1", exOrder)], (recordText (exUpdate c!"b1" c!"0" c!"0")).dropLast, c!"1" ++ ['\n'] ++ fileText [exUpdate c!"b1" c!"2" c!"100"],
    by decide +kernel, ?_, by decide +kernel⟩
  intro more s
  have hs : s.2 = (recordText (exUpdate c!"b1" c!"0" c!"0")).dropLast.length := by decide +kernel
  rw [blocked true _ more (.inr (by decide +kernel)) s.1 s.2 (by rw [hs]; decide +kernel)
    ⟨(c!"1", 2), rawLines (fileText [exUpdate c!"b1" c!"2" c!"100"]), by rw [hs]; decide +kernel, by decide +kernel⟩]
  decide +kernel

/-- The same for a poll in the middle of the header line. -/
theorem c37_cut_in_header_refuted :
    ∃ (b : Book Int) (half rest : Str), '\n' ∉ half ∧
      (∀ more, let s := (pollUpdates true half b 0).1
        (dget (pollUpdates true (half ++ rest ++ more) s.1 s.2).1.1 c!"b1").bind (·.status) = some c!"new") ∧
      (dget (pollUpdates true (half ++ rest) b 0).1.1 c!"b1").bind (·.status) = some c!"filled" := by
  refine ⟨[(c!"b1", exOrder)], c!"updTime,orderDate", c!",orderTime" ++ ['\n'] ++ fileText [exUpdate c!"b1" c!"2" c!"100"],
    by decide +kernel, ?_, by decide +kernel⟩
  intro more s
  have hs : s.2 = 17 := by decide +kernel
  rw [blocked true _ more (.inr (by decide +kernel)) s.1 s.2 (by rw [hs]; decide +kernel)
    ⟨(c!",orderTime", 11), rawLines (fileText [exUpdate c!"b1" c!"2" c!"100"]), by rw [hs]; decide +kernel, by decide +kernel⟩]
  decide +kernel

/-- The same for a poll between the two characters of a Windows line end. -/
theorem c37_cut_in_line_end_refuted :
    ∃ (b : Book Int) (half rest : Str), '\n' ∉ half ∧
      (∀ more, let s := (pollUpdates true half b 0).1
        (dget (pollUpdates true (half ++ rest ++ more) s.1 s.2).1.1 c!"b1").bind (·.status) = some c!"open") ∧
      (dget (pollUpdates true (half ++ rest) b 0).1.1 c!"b1").bind (·.status) = some c!"filled" := by
  refine ⟨[(c!"b1", exOrder)], recordText (exUpdate c!"b1" c!"0" c!"0") ++ ['\r'], ['\n'] ++ fileText [exUpdate c!"b1" c!"2" c!"100"],
    by decide +kernel, ?_, by decide +kernel⟩
  intro more s
  have hs : s.2 = (recordText (exUpdate c!"b1" c!"0" c!"0") ++ ['\r']).length := by decide +kernel
  rw [blocked true _ more (.inr (by decide +kernel)) s.1 s.2 (by rw [hs]; decide +kernel)
    ⟨([], 1), rawLines (fileText [exUpdate c!"b1" c!"2" c!"100"]), by rw [hs]; decide +kernel, by decide +kernel⟩]
  decide +kernel

example : (c!"93001,20240102,0930").count ',' < 19 ∧ c!"updTime".isPrefixOf (pyStrip c!"93001,20240102,0930") = false := by decide

/-! ## C38 -/

/-- An update of `id` depends on what is known of `id` only. -/
private theorem updateLine_frame (b b' : Book ν) (items : List Str) (id : Str) (hk : ∀ k, (dget b k).isSome = (dget b' k).isSome)
    (hid : dget b id = dget b' id) :
    (updateLine b items = .unknown ∧ updateLine b' items = .unknown) ∨
    ∃ b1 b1', (updateLine b items = .done b1 ∨ ∃ e, updateLine b items = .failed b1 e) ∧
      (updateLine b' items = .done b1' ∨ ∃ e, updateLine b' items = .failed b1' e) ∧
      (∀ k, (dget b1 k).isSome = (dget b1' k).isSome) ∧ dget b1 id = dget b1' id := by
  simp only [updateLine]
  cases hl : OrderLine.ofItems items with
  | error e => exact .inr ⟨b, b', .inr ⟨e, rfl⟩, .inr ⟨e, rfl⟩, hk, hid⟩
  | ok l =>
    simp only
    have hkl := hk l.custBatchNo
    cases ho : dget b l.custBatchNo with
    | none =>
      rw [ho] at hkl
      cases ho' : dget b' l.custBatchNo with
      | none => exact .inl ⟨rfl, rfl⟩
      | some o' => rw [ho'] at hkl; cases hkl
    | some o =>
      rw [ho] at hkl
      cases ho' : dget b' l.custBatchNo with
      | none => rw [ho'] at hkl; cases hkl
      | some o' =>
        right
        refine ⟨dset b l.custBatchNo (updateOrder o l).1, dset b' l.custBatchNo (updateOrder o' l).1, ?_, ?_, ?_, ?_⟩
        · simp only
          cases hu : updateOrder o l with
          | mk x r => cases r with
            | ok u => exact .inl rfl
            | error e => exact .inr ⟨e, rfl⟩
        · simp only
          cases hu : updateOrder o' l with
          | mk x r => cases r with
            | ok u => exact .inl rfl
            | error e => exact .inr ⟨e, rfl⟩
        · intro k
          rw [dget_dset, dget_dset]
          split
          · rfl
          · exact hk k
        · rw [dget_dset, dget_dset]
          split
          · rename_i e
            subst e
            rw [ho, ho'] at hid
            injection hid with hid
            rw [hid]
          · exact hid

private theorem loop_frame (ls : List (Str × Nat)) (id : Str) (b b' : Book ν) (hk : ∀ k, (dget b k).isSome = (dget b' k).isSome)
    (hid : dget b id = dget b' id) (pos off pos' off' : Nat) :
    dget (pollLoop 20 updateLine true ls pos b off).1.1 id = dget (pollLoop 20 updateLine true ls pos' b' off').1.1 id := by
  induction ls generalizing b b' pos off pos' off' with
  | nil => exact hid
  | cons l ls ih =>
    obtain ⟨raw, n⟩ := l
    simp only [pollLoop]
    cases lineKind 20 raw with
    | stop => exact hid
    | header => exact ih _ _ hk hid _ _ _ _
    | fields items =>
      simp only
      rcases updateLine_frame b b' items id hk hid with ⟨h1, h2⟩ | ⟨b1, b1', h1, h2, h3, h4⟩
      · rw [h1, h2]; exact ih _ _ hk hid _ _ _ _
      · rcases h1 with h1 | ⟨e, h1⟩ <;> rcases h2 with h2 | ⟨e', h2⟩ <;> rw [h1, h2] <;> exact ih _ _ h3 h4 _ _ _ _

private theorem loop_append_frame (before after : List (Str × Nat)) (raw : Str) (n : Nat) (id : Str) (hns : lineKind 20 raw ≠ .stop) (hne : ¬ IsUpdateOf id raw)
    (b : Book ν) (pos off pos' off' : Nat) :
    dget (pollLoop 20 updateLine true (before ++ (raw, n) :: after) pos b off).1.1 id =
      dget (pollLoop 20 updateLine true (before ++ after) pos' b off').1.1 id := by
  induction before generalizing b pos off pos' off' with
  | nil =>
    simp only [List.nil_append, pollLoop]
    cases hk : lineKind 20 raw with
    | stop => exact absurd hk hns
    | header => exact loop_frame after id b b (fun _ => rfl) rfl _ _ _ _
    | fields items =>
      simp only
      have ho := updateLine_other b items id (fun l hl e => hne ⟨items, l, hk, hl, e⟩)
      have hkeys : ∀ {b1 : Book ν}, dkeys b1 = dkeys b → ∀ k, (dget b1 k).isSome = (dget b k).isSome := by
        intro b1 h k
        have h1 := mem_dkeys_iff b1 k
        rw [h, mem_dkeys_iff] at h1
        exact (Bool.eq_iff_iff.2 h1).symm
      cases hb : updateLine b items with
      | unknown => exact loop_frame after id b b (fun _ => rfl) rfl _ _ _ _
      | done b' => exact loop_frame after id b' b (hkeys (updateLine_fun.keys_done b items b' hb)) (ho.1 b' hb) _ _ _ _
      | failed b' e => exact loop_frame after id b' b (hkeys (updateLine_fun.keys_failed b items b' e hb)) (ho.2 b' e hb) _ _ _ _
  | cons l before ih =>
    obtain ⟨raw', n'⟩ := l
    simp only [List.cons_append, pollLoop]
    cases lineKind 20 raw' with
    | stop => rfl
    | header => exact ih _ _ _ _ _
    | fields items =>
      simp only
      cases updateLine b items with
      | unknown => exact ih _ _ _ _ _
      | done b' => exact ih _ _ _ _ _
      | failed b' e => exact ih _ _ _ _ _

/-- With `ignore_error_line` on, a line with enough fields that cannot be applied makes no difference to any order
it does not name.  (For the order it names, `c36_shows_last_update` allows any such line before the last update.) -/
theorem c38_bad_line_skipped (b : Book ν) (c1 c2 bad : Str) (h1 : WholeLines c1) (hbad : '\n' ∉ bad ∧ '\r' ∉ bad) (hk : lineKind 20 bad ≠ .stop)
    (id : Str) (hne : ¬ IsUpdateOf id bad) :
    dget (pollUpdates true (c1 ++ (bad ++ ['\n']) ++ c2) b 0).1.1 id = dget (pollUpdates true (c1 ++ c2) b 0).1.1 id := by
  have hbne : bad ≠ [] := by rintro rfl; exact hk (by decide)
  have hr : rawLines (bad ++ ['\n']) = [(bad, bad.length + 1)] := by
    clear hk hne
    induction bad with
    | nil => exact absurd rfl hbne
    | cons c s ih =>
      obtain ⟨ha, hb⟩ := hbad
      simp only [List.mem_cons, not_or] at ha hb
      rw [List.cons_append, rawLines_char (fun e => ha.1 e.symm) (fun e => hb.1 e.symm)]
      cases s with
      | nil => rfl
      | cons d s => rw [ih ⟨ha.2, hb.2⟩ (by simp)]; rfl
  simp only [pollUpdates, pollFile, List.drop_zero]
  rw [List.append_assoc, rawLines_append h1, rawLines_append (.inr (by simp)), hr, rawLines_append h1]
  exact loop_append_frame (rawLines c1) (rawLines c2) bad (bad.length + 1) id hk hne b 0 0 0 0

/-- With it off, a poll that raised raises again with the same error and without further change, whatever is appended. -/
theorem c38_raises_again (b : Book ν) (off : Nat) (c more : Str) (e : PyErr) (hc : WholeLines c) (hoff : off ≤ c.length)
    (h : (pollUpdates false c b off).2 = .raised e) :
    let s := (pollUpdates false c b off).1
    pollUpdates false (c ++ more) s.1 s.2 = (s, .raised e) := by
  have := end_repeats updateLine_fun false c more hc b off hoff (by rw [show (pollFile 20 updateLine false c b off).2 = _ from h]; simp)
  refine this.trans ?_
  rw [← h]; rfl

/-- With it on, no poll raises. -/
theorem c38_ignoring_never_raises (b : Book ν) (off : Nat) (c : Str) (e : PyErr) : (pollUpdates true c b off).2 ≠ .raised e := by
  simp only [pollUpdates, pollFile]
  generalize rawLines (c.drop off) = ls
  generalize hp : off = pos
  rw [← hp]
  clear hp
  suffices H : ∀ ls pos b off, (pollLoop 20 (updateLine (ν := ν)) true ls pos b off).2 ≠ .raised e from H _ _ _ _
  intro ls
  induction ls with
  | nil => intro pos b off; simp [pollLoop]
  | cons l ls ih =>
    intro pos b off
    obtain ⟨raw, n⟩ := l
    simp only [pollLoop]
    cases lineKind 20 raw with
    | stop => simp
    | header => exact ih _ _ _
    | fields items =>
      simp only
      cases updateLine b items with
      | unknown => exact ih _ _ _
      | done b' => exact ih _ _ _
      | failed b' e => exact ih _ _ _

/-- A poll stopped by a blank or short line is stopped there for ever, whatever is appended. -/
theorem c38_short_line_blocks (ign : Bool) (b : Book ν) (off : Nat) (c more : Str) (hc : WholeLines c) (hoff : off ≤ c.length)
    (h : (pollUpdates ign c b off).2 = .stopped) :
    let s := (pollUpdates ign c b off).1
    pollUpdates ign (c ++ more) s.1 s.2 = (s, .stopped) := by
  have := end_repeats updateLine_fun ign c more hc b off hoff (by rw [show (pollFile 20 updateLine ign c b off).2 = _ from h]; simp)
  refine this.trans ?_
  rw [← h]; rfl

/-- A blank line does so: nothing after it is ever applied. -/
theorem c38_blank_line_hides (ign : Bool) (b : Book ν) (c1 c2 blank : Str) (h1 : WholeLines c1) (hb : lineKind 20 blank = .stop)
    (hbl : '\n' ∉ blank ∧ '\r' ∉ blank) :
    (pollUpdates ign (c1 ++ (blank ++ ['\n']) ++ c2) b 0).1 = (pollUpdates ign c1 b 0).1 := by
  have hr : ∀ s : Str, '\n' ∉ s ∧ '\r' ∉ s → rawLines (s ++ ['\n']) = [(s, s.length + 1)] := by
    intro s
    induction s with
    | nil => intro _; rfl
    | cons c s ih =>
      intro hbad
      obtain ⟨ha, hb⟩ := hbad
      simp only [List.mem_cons, not_or] at ha hb
      rw [List.cons_append, rawLines_char (fun e => ha.1 e.symm) (fun e => hb.1 e.symm), ih ⟨ha.2, hb.2⟩]
      rfl
  simp only [pollUpdates, pollFile, List.drop_zero]
  rw [List.append_assoc, rawLines_append h1, rawLines_append (.inr (by simp)), hr blank hbl]
  generalize rawLines c1 = ls
  suffices H : ∀ ls pos b off, (pollLoop 20 (updateLine (ν := ν)) ign (ls ++ ([(blank, blank.length + 1)] ++ rawLines c2)) pos b off).1 =
      (pollLoop 20 updateLine ign ls pos b off).1 from H _ _ _ _
  intro ls
  induction ls with
  | nil => intro pos b off; simp only [List.nil_append, List.singleton_append, pollLoop, hb]
  | cons l ls ih =>
    intro pos b off
    obtain ⟨raw, n⟩ := l
    simp only [List.cons_append, pollLoop]
    cases lineKind 20 raw with
    | stop => rfl
    | header => exact ih _ _ _
    | fields items =>
      simp only
      cases updateLine b items with
      | unknown => exact ih _ _ _
      | done b' => exact ih _ _ _
      | failed b' e => cases ign <;> first | exact ih _ _ _ | rfl

example : lineKind 20 [] = .stop ∧ (∃ e, (pollUpdates false (fileText [exUpdate c!"b1" c!"6" c!"1"]) [(c!"b1", exOrder)] 0).2 = .raised e) ∧
    ¬ IsUpdateOf c!"b2" (recordText (exUpdate c!"b1" c!"6" c!"1")) := by
  refine ⟨by decide, ⟨.parserError, by decide +kernel⟩, ?_⟩
  rintro ⟨items, l, h1, h2, h3⟩
  have hk : lineKind 20 (recordText (exUpdate c!"b1" c!"6" c!"1")) = .fields (exUpdate c!"b1" c!"6" c!"1") := by decide +kernel
  rw [hk, LineKind.fields.injEq] at h1
  subst h1
  injection h2 with h2
  subst h2
  revert h3
  decide

/-! ## C39 -/

/-- A line with the wrong number of fields or an undocumented status code changes nothing. -/
theorem c39_no_change_partial (b : Book ν) (items : List Str) (b' : Book ν) (e : PyErr) (h : updateLine b items = .failed b' e)
    (hbad : (∀ l, OrderLine.ofItems items ≠ .ok l) ∨ ∀ l, OrderLine.ofItems items = .ok l → ∀ st, (l.status, st) ∉ brokerStatuses)
    (id : Str) : dget b' id = dget b id := by
  simp only [updateLine] at h
  cases hl : OrderLine.ofItems items with
  | error e1 => rw [hl] at h; simp only [LineRes.failed.injEq] at h; rw [h.1]
  | ok l =>
    rw [hl] at h
    rcases hbad with hbad | hbad
    · exact absurd hl (hbad l)
    · have := c60_other_codes l.status (hbad l hl)
      simp only at h
      cases ho : dget b l.custBatchNo with
      | none => rw [ho] at h; simp at h
      | some o =>
        rw [ho] at h
        simp only [updateOrder, this, LineRes.failed.injEq] at h
        rw [← h.1, dget_dset]
        split
        · rename_i e; rw [← e, ho]
        · rfl

/-- A line with a documented status and an unparsable time sets the status all the same. -/
theorem c39_status_changed_refuted (b : Book ν) (items : List Str) (l : OrderLine) (hl : OrderLine.ofItems items = .ok l) (o : OrderInfo ν)
    (ho : dget b l.custBatchNo = some o) (st : Status) (hst : (l.status, st) ∈ brokerStatuses) (e : PyErr)
    (ht : strptime mCompact (l.orderDate ++ l.orderTime) = .error e) :
    ∃ b', updateLine b items = .failed b' e ∧ dget b' l.custBatchNo = some { o with status := some st.name } := by
  refine ⟨dset b l.custBatchNo { o with status := some st.name }, ?_, dget_dset_self ..⟩
  simp only [updateLine, hl, ho, updateOrder, (c60_status_codes _ _).2 hst, ht]

/-- An order between what it was and what the line says: every field has its old value or the line's. -/
structure Between (o : OrderInfo ν) (l : OrderLine) (o' : OrderInfo ν) : Prop where
  status : o'.status = o.status ∨ ∃ st, (l.status, st) ∈ brokerStatuses ∧ o'.status = some st.name
  entrustTime : o'.entrustTime = o.entrustTime ∨ ∃ d, strptime mCompact (l.orderDate ++ l.orderTime) = .ok d ∧ o'.entrustTime = some (.str d.full)
  confirmId : o'.confirmId = o.confirmId ∨ o'.confirmId = some l.orderNo
  filled : o'.filled = o.filled ∨ ∃ n, pyInt l.filledQty = some n ∧ o'.filled = some n
  dealBalance : o'.dealBalance = o.dealBalance ∨ ∃ x : ν, GateNum.parse l.filledAmt = some x ∧ o'.dealBalance = some (GateNum.round 4 x)
  canceled : o'.canceled = o.canceled ∨ ∃ n, pyInt l.cancelQty = some n ∧ o'.canceled = some n
  /-- nothing else is touched -/
  others : o'.code = o.code ∧ o'.price = o.price ∧ o'.amount = o.amount ∧ o'.action = o.action ∧ o'.orderId = o.orderId ∧ o'.style = o.style ∧
    o'.createTime = o.createTime ∧ o'.side = o.side ∧ o'.avgCost = o.avgCost ∧ o'.commission = o.commission ∧ o'.errMsg = o.errMsg
  /-- without the status nothing is changed -/
  first : (∀ st, (l.status, st) ∉ brokerStatuses) → o' = o

/-- Whatever is wrong with a line: all other orders stay as they were, and of the line's order every field has its old value or the one
in the line; the average price and the message are never taken from it. -/
theorem c39_confined (b : Book ν) (items : List Str) (b' : Book ν) (e : PyErr) (h : updateLine b items = .failed b' e) :
    (∀ id, dget b' id = dget b id) ∨
    ∃ l o o', OrderLine.ofItems items = .ok l ∧ dget b l.custBatchNo = some o ∧ dget b' l.custBatchNo = some o' ∧ Between o l o' ∧
      ∀ id, id ≠ l.custBatchNo → dget b' id = dget b id := by
  simp only [updateLine] at h
  cases hl : OrderLine.ofItems items with
  | error e1 => rw [hl] at h; simp only [LineRes.failed.injEq] at h; rw [h.1]; exact .inl fun _ => rfl
  | ok l =>
    rw [hl] at h
    simp only at h
    cases ho : dget b l.custBatchNo with
    | none => rw [ho] at h; simp at h
    | some o =>
      rw [ho] at h
      simp only at h
      cases hu : updateOrder o l with
      | mk o' r =>
        rw [hu] at h
        cases r with
        | ok u => simp at h
        | error x =>
          simp only [LineRes.failed.injEq] at h
          obtain ⟨rfl, rfl⟩ := h
          refine .inr ⟨l, o, o', rfl, ho, dget_dset_self .., ?_, fun id hid => by rw [dget_dset, if_neg fun e => hid e.symm]⟩
          simp only [updateOrder] at hu
          cases hs : parseStatus l.status with
          | error y =>
            rw [hs] at hu
            simp only [Prod.mk.injEq] at hu
            obtain ⟨rfl, _⟩ := hu
            exact ⟨.inl rfl, .inl rfl, .inl rfl, .inl rfl, .inl rfl, .inl rfl, ⟨rfl, rfl, rfl, rfl, rfl, rfl, rfl, rfl, rfl, rfl, rfl⟩, fun _ => rfl⟩
          | ok st =>
            have hst := (c60_status_codes _ _).1 hs
            have hno : (∀ st, (l.status, st) ∉ brokerStatuses) → o' = o := fun h => absurd hst (h st)
            rw [hs] at hu
            simp only at hu
            cases ht : strptime mCompact (l.orderDate ++ l.orderTime) with
            | error y =>
              rw [ht] at hu
              simp only [Prod.mk.injEq] at hu
              obtain ⟨rfl, _⟩ := hu
              exact ⟨.inr ⟨st, hst, rfl⟩, .inl rfl, .inl rfl, .inl rfl, .inl rfl, .inl rfl, ⟨rfl, rfl, rfl, rfl, rfl, rfl, rfl, rfl, rfl, rfl, rfl⟩, hno⟩
            | ok d =>
              rw [ht] at hu
              simp only at hu
              cases hf : pyInt l.filledQty with
              | none =>
                rw [hf] at hu
                simp only [Prod.mk.injEq] at hu
                obtain ⟨rfl, _⟩ := hu
                exact ⟨.inr ⟨st, hst, rfl⟩, .inr ⟨d, ht, rfl⟩, .inr rfl, .inl rfl, .inl rfl, .inl rfl, ⟨rfl, rfl, rfl, rfl, rfl, rfl, rfl, rfl, rfl, rfl, rfl⟩, hno⟩
              | some n =>
                rw [hf] at hu
                simp only at hu
                cases ha : (GateNum.parse l.filledAmt : Option ν) with
                | none =>
                  rw [ha] at hu
                  simp only [Prod.mk.injEq] at hu
                  obtain ⟨rfl, _⟩ := hu
                  exact ⟨.inr ⟨st, hst, rfl⟩, .inr ⟨d, ht, rfl⟩, .inr rfl, .inr ⟨n, hf, rfl⟩, .inl rfl, .inl rfl, ⟨rfl, rfl, rfl, rfl, rfl, rfl, rfl, rfl, rfl, rfl, rfl⟩, hno⟩
                | some amt =>
                  rw [ha] at hu
                  simp only at hu
                  cases hc : pyInt l.cancelQty with
                  | none =>
                    rw [hc] at hu
                    simp only [Prod.mk.injEq] at hu
                    obtain ⟨rfl, _⟩ := hu
                    exact ⟨.inr ⟨st, hst, rfl⟩, .inr ⟨d, ht, rfl⟩, .inr rfl, .inr ⟨n, hf, rfl⟩, .inr ⟨amt, ha, rfl⟩, .inl rfl, ⟨rfl, rfl, rfl, rfl, rfl, rfl, rfl, rfl, rfl, rfl, rfl⟩, hno⟩
                  | some k =>
                    rw [hc] at hu
                    simp only at hu
                    cases hv : (GateNum.parse l.avgPrice : Option ν) with
                    | none =>
                      rw [hv] at hu
                      simp only [Prod.mk.injEq] at hu
                      obtain ⟨rfl, _⟩ := hu
                      exact ⟨.inr ⟨st, hst, rfl⟩, .inr ⟨d, ht, rfl⟩, .inr rfl, .inr ⟨n, hf, rfl⟩, .inr ⟨amt, ha, rfl⟩, .inr ⟨k, hc, rfl⟩, ⟨rfl, rfl, rfl, rfl, rfl, rfl, rfl, rfl, rfl, rfl, rfl⟩, hno⟩
                    | some avg =>
                      rw [hv] at hu
                      simp at hu

/-- A line without a fill time: the order is shown as filled with nothing filled. -/
theorem c39_witness : ∃ (b b' : Book Int) (items : List Str) (o : OrderInfo Int) (e : PyErr), updateLine b items = .failed b' e ∧
    dget b' c!"b1" = some o ∧ o.status = some c!"filled" ∧ o.filled = none ∧ (dget b c!"b1").bind (·.status) = some c!"new" := by
  refine ⟨[(c!"b1", exOrder)], [(c!"b1", { exOrder with status := some c!"filled" })],
    (exUpdate c!"b1" c!"2" c!"100").set 2 [], { exOrder with status := some c!"filled" }, .valueError, ?_, ?_, rfl, rfl, rfl⟩
  · decide +kernel
  · decide +kernel

/-! ## C43 -/

/-- The offset of the day before is used for the new day's file: while that is not longer, nothing of it is read. -/
theorem c43_updates_missed_refuted (ign : Bool) (b : Book ν) (off : Nat) (newDay : Str) (h : newDay.length ≤ off) :
    pollUpdates ign newDay b off = ((b, off), .eof) := by
  simp only [pollUpdates, pollFile, List.drop_eq_nil_of_le h]
  rfl

/-- Two updates yesterday, one today: today's is missed. -/
theorem c43_witness : ∃ (b : Book Int) (yesterday today : Str),
    (dget (pollUpdates true today b 0).1.1 c!"b1").bind (·.status) = some c!"filled" ∧
    (let s := (pollUpdates true yesterday b 0).1
     (dget (pollUpdates true today s.1 s.2).1.1 c!"b1").bind (·.status) = some c!"open") := by
  refine ⟨[(c!"b1", exOrder)], fileText [exUpdate c!"b1" c!"7" c!"0", exUpdate c!"b1" c!"0" c!"0"], fileText [exUpdate c!"b1" c!"2" c!"100"], ?_, ?_⟩
  · decide +kernel
  · decide +kernel

/-- Without updates the day before, or when that day's length is exactly that of some of the first lines of the new
file, later lines are read. -/
theorem c43_after_offset_partial (ign : Bool) (b : Book ν) (first rest : Str) (hw : WholeLines first)
    (hf : ∀ x ∈ rawLines first, lineKind 20 x.1 = .header) :
    (pollUpdates ign (first ++ rest) b first.length).1.1 = (pollUpdates ign (first ++ rest) b 0).1.1 := by
  have h0 : (pollFile 20 (updateLine (ν := ν)) ign first b 0).1 = (b, first.length) := by
    simp only [pollFile, List.drop_zero]
    have : ∀ ls pos off, (∀ x ∈ ls, lineKind 20 x.1 = .header) → (ls = [] → off = pos) →
        pollLoop 20 (updateLine (ν := ν)) ign ls pos b off = ((b, pos + sizeOfLines ls), .eof) := by
      intro ls
      induction ls with
      | nil => intro pos off _ h; simp [pollLoop, sizeOfLines, h rfl]
      | cons l ls ih =>
        intro pos off h _
        obtain ⟨raw, n⟩ := l
        have hk : lineKind 20 raw = .header := h (raw, n) (by simp)
        simp only [pollLoop, hk]
        rw [ih (pos + n) (pos + n) (fun x hx => h x (by simp [hx])) (fun _ => rfl)]
        simp [sizeOfLines]; omega
    rw [this _ _ _ hf (fun _ => rfl), sizeOfLines_rawLines]
    simp
  have := pollFile_resume (cols := 20) (ign := ign) updateLine_fun first rest hw b 0 (Nat.zero_le _)
  rw [h0] at this
  exact congrArg (·.1.1) this

example : WholeLines c!"" ∧ ∀ x ∈ rawLines (c!"updTime,orderDate" ++ ['\n']), lineKind 20 x.1 = .header := by
  refine ⟨.inl rfl, ?_⟩; decide

end Jq
