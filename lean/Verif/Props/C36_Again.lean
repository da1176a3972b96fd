import Verif.Props.C36_OrderSync
import Verif.Lemmas.TradeGate
import Verif.Model.Store
/-!
# C36: reading again what has not changed

`trade_gate.py:392-480` is called again and again, also several times on the same contents.
-/
namespace Jq

variable {ν : Type} [GateNum ν]

private theorem idle_again {cols : Nat} {f : Book ν → List Str → LineRes ν} (hf : LineFun f) {ign : Bool} {b b2 : Book ν}
    {pend : List (Str × Nat)} {e : PollEnd} (h : Idle cols f ign b pend e) (hk : dkeys b = dkeys b2) (hr : (∃ x, e = .raised x) → b2 = b) :
    pollP cols f ign pend [] b2 = ((b2, pend), e) := by
  cases e with
  | eof =>
    have := pollP_unknown (ign := ign) pend [] [] b2 (fun u hu => (h u hu).congr hf hk)
    rw [List.append_nil, List.nil_append] at this
    rw [this]; rfl
  | stopped =>
    obtain ⟨us, l, rest, rfl, h2, h3⟩ := h
    rw [pollP_unknown _ _ _ _ (fun u hu => (h2 u hu).congr hf hk)]
    simp [pollP, h3]
  | raised x =>
    have hb := hr ⟨x, rfl⟩
    subst hb
    obtain ⟨h0, us, l, rest, items, rfl, h2, h3, h4⟩ := h
    rw [pollP_unknown _ _ _ _ h2]
    simp [pollP, h0, h3, h4]

private theorem pollFile_keys {cols : Nat} {f : Book ν → List Str → LineRes ν} (hf : LineFun f) (ign : Bool) (c : Str) (b : Book ν) (off : Nat) :
    dkeys (pollFile cols f ign c b off).1.1 = dkeys b := by
  by_cases hoff : off ≤ c.length
  · rw [(pollFile_pollP cols f ign c b off hoff).1]; exact pollP_keys hf _ _ _
  · simp only [pollFile, List.drop_eq_nil_of_le (show c.length ≤ off by omega)]; rfl

private theorem pollFile_again {cols : Nat} {f : Book ν → List Str → LineRes ν} (hf : LineFun f) {ign : Bool} {c : Str} {b b1 b2 : Book ν}
    {off off1 : Nat} {e : PollEnd} (h : pollFile cols f ign c b off = ((b1, off1), e)) (hk : dkeys b2 = dkeys b)
    (hr : (∃ x, e = .raised x) → b2 = b1) : pollFile cols f ign c b2 off1 = ((b2, off1), e) := by
  by_cases hoff : off ≤ c.length
  · obtain ⟨h1, h2, h3, h4⟩ := pollFile_pollP cols f ign c b off hoff
    have hkeys := pollP_keys (cols := cols) (ign := ign) hf (rawLines (c.drop off)) [] b
    have hi := pollP_idle (cols := cols) (ign := ign) hf (rawLines (c.drop off)) [] b (by simp)
    rw [h] at h1 h2 h3 h4
    simp only at h1 h2 h3 h4
    obtain ⟨g1, g2, g3, g4⟩ := pollFile_pollP cols f ign c b2 off1 h4
    rw [← h1] at hkeys
    rw [← h1, ← h2, ← h3] at hi
    rw [idle_again hf hi (hkeys.trans hk.symm) hr] at g1 g2 g3
    refine Prod.ext (Prod.ext g1 ?_) g2
    have e := congrArg sizeOfLines g3
    simp only [sizeOfLines_rawLines, List.length_drop] at e
    simp only
    omega
  · have hd : c.drop off = [] := List.drop_eq_nil_of_le (by omega)
    have h' : ∀ b : Book ν, pollFile cols f ign c b off = ((b, off), .eof) := fun b => by simp only [pollFile, hd]; rfl
    rw [h' b] at h
    cases h
    exact h' b2

/-- Reading both files again when they have not changed changes nothing and ends in the same way, whatever is in them. -/
theorem c36_reading_again (ign : Bool) (results updates : Str) (s : SyncState ν) :
    pollBoth ign results updates (pollBoth ign results updates s).1 = pollBoth ign results updates s := by
  cases hr : pollFile 6 resultLine ign results s.book s.resOff with
  | mk r e =>
    obtain ⟨b1, ro⟩ := r
    have hk1 : dkeys b1 = dkeys s.book := by
      have := pollFile_keys (cols := 6) (resultLine_fun (ν := ν)) ign results s.book s.resOff
      rw [hr] at this; exact this
    have again := fun b2 => pollFile_again (b2 := b2) resultLine_fun hr
    cases hu : pollFile 20 updateLine ign updates b1 s.updOff with
    | mk u e' =>
      obtain ⟨b2, uo⟩ := u
      have hk2 : dkeys b2 = dkeys b1 := by
        have := pollFile_keys (cols := 20) (updateLine_fun (ν := ν)) ign updates b1 s.updOff
        rw [hu] at this; exact this
      have again' := pollFile_again updateLine_fun hu hk2 (fun _ => rfl)
      cases e with
      | raised x =>
        have h1 := again b1 hk1 (fun _ => rfl)
        simp only [pollBoth, pollResults, hr, h1]
      | eof =>
        have h1 := again b2 (hk2.trans hk1) (by rintro ⟨x, hx⟩; cases hx)
        cases e' <;> simp only [pollBoth, pollResults, pollUpdates, hr, hu, h1, again']
      | stopped =>
        have h1 := again b2 (hk2.trans hk1) (by rintro ⟨x, hx⟩; cases hx)
        cases e' <;> simp only [pollBoth, pollResults, pollUpdates, hr, hu, h1, again']

/-- The first reading changes the order, the second nothing, although the line of an unknown order is read again. -/
example : let c := fileText [exUpdate c!"b1" c!"2" c!"100", exUpdate c!"zz" c!"2" c!"9"]
    let s : SyncState Int := ⟨[(c!"b1", exOrder)], 0, 0⟩
    (pollBoth true [] c s).1 ≠ s ∧ (pollBoth true [] c s).1.updOff < c.length ∧
      pollBoth true [] c (pollBoth true [] c s).1 = pollBoth true [] c s := by
  decide +kernel

/-! ## The gate -/

section gate
variable {ν : Type} [CellNum ν] [Store ν]

omit [CellNum ν] in
private theorem saveOrders_twice (day : Str) (env : Env) (b : Book ν) (fs : Files) :
    saveOrders day env b (saveOrders day env b fs).1 = saveOrders day env b fs := by
  have h : ∀ (fs : Files) (f : FileId) (c : Option Str), (fs.set f c).set f c = fs.set f c := by
    intro fs f c; funext g; simp only [Files.set]; split <;> rfl
  have h2 : ∀ (fs : Files) (f g : FileId) (c d : Option Str), ((((fs.set f c).set g d).set f c).set g d) = (fs.set f c).set g d := by
    intro fs f g c d; funext x; simp only [Files.set]; split
    · rfl
    · split <;> rfl
  simp only [saveOrders]
  cases env.save with
  | «open» e => rfl
  | none => cases Store.dump b <;> simp only [h, h2]
  | write e n => cases Store.dump b <;> simp only [h]
  | move e => cases Store.dump b <;> simp only [h]
  | copy e n => cases Store.dump b <;> simp only [h, h2]
  | unlink e => cases Store.dump b <;> simp only [h, h2]

/-- Asking the built-in gate for the orders a second time, when nothing has happened in between and saving goes as it did, gives the
same answer (or exception) and leaves gate and files as they are. -/
theorem c36_asking_again (env : Env) (s : AX ν) : (s.syncOrders env).1.syncOrders env = s.syncOrders env := by
  cases hu : s.files (.updates env.day) with
  | none => simp only [AX.syncOrders, hu]
  | some updates =>
    cases hr : s.files (.results env.day) with
    | none => simp only [AX.syncOrders, hu, hr]
    | some results =>
      have hp := c36_reading_again s.conf.ignoreErr results updates (⟨s.book, s.resOff, s.updOff⟩ : SyncState ν)
      simp only [AX.syncOrders, hu, hr]
      cases h1 : pollBoth s.conf.ignoreErr results updates (⟨s.book, s.resOff, s.updOff⟩ : SyncState ν) with
      | mk t r =>
        rw [h1] at hp
        cases r with
        | error e => simp only [hu, hr, hp]
        | ok u =>
          have hs := saveOrders_twice s.conf.dataDay env t.book s.files
          have hfu := saveOrders_other (g := .updates env.day) s.conf.dataDay env t.book s.files (by simp) (by simp)
          have hfr := saveOrders_other (g := .results env.day) s.conf.dataDay env t.book s.files (by simp) (by simp)
          cases h2 : saveOrders s.conf.dataDay env t.book s.files with
          | mk fs r =>
            rw [h2] at hs hfu hfr
            simp only at hs hfu hfr
            cases r <;> simp only [h2, hu, hr, hp, hfu, hfr, hs]

/-- When saving goes otherwise than before, the orders and the positions in the files stay the same all the same; the answer does,
if there is one both times. -/
theorem c36_asking_again_other_faults (env env2 : Env) (hd : env2.day = env.day) (s : AX ν) :
    let r := s.syncOrders env
    let r2 := r.1.syncOrders env2
    r2.1.book = r.1.book ∧ r2.1.resOff = r.1.resOff ∧ r2.1.updOff = r.1.updOff ∧
      (∀ os os2, r.2 = .ok os → r2.2 = .ok os2 → os2 = os) := by
  intro r r2
  simp only [r, r2]
  cases hu : s.files (.updates env.day) with
  | none => simp only [AX.syncOrders, hd, hu]; exact ⟨trivial, trivial, trivial, nofun⟩
  | some updates =>
    cases hr : s.files (.results env.day) with
    | none => simp only [AX.syncOrders, hd, hu, hr]; exact ⟨trivial, trivial, trivial, nofun⟩
    | some results =>
      have hp := c36_reading_again s.conf.ignoreErr results updates (⟨s.book, s.resOff, s.updOff⟩ : SyncState ν)
      simp only [AX.syncOrders, hd, hu, hr]
      cases h1 : pollBoth s.conf.ignoreErr results updates (⟨s.book, s.resOff, s.updOff⟩ : SyncState ν) with
      | mk t r =>
        rw [h1] at hp
        cases r with
        | error e => simp only [hu, hr, hp]; exact ⟨trivial, trivial, trivial, nofun⟩
        | ok u =>
          have hfu := saveOrders_other (g := .updates env.day) s.conf.dataDay env t.book s.files (by simp) (by simp)
          have hfr := saveOrders_other (g := .results env.day) s.conf.dataDay env t.book s.files (by simp) (by simp)
          cases h2 : saveOrders s.conf.dataDay env t.book s.files with
          | mk fs r =>
            rw [h2] at hfu hfr
            simp only at hfu hfr
            cases h3 : saveOrders s.conf.dataDay env2 t.book fs with
            | mk fs' r' =>
              cases r <;> cases r' <;> simp only [h2, hu, hr, hp, hfu, hfr, h3] <;>
                refine ⟨trivial, trivial, trivial, ?_⟩ <;> intro os os2 e1 e2 <;> cases e1 <;> cases e2
              rfl

end gate

/-- A fill is reported once and stays reported; the saving fails the second time. -/
example : let c := fileText [exUpdate c!"b1" c!"2" c!"100"]
    let s : AX Int := { conf := { acctNo := some c!"A1", dataDay := c!"20240102" }
                        book := [(c!"b1", exOrder)]
                        files := fun f => if f = .updates c!"20240102" then some c else if f = .results c!"20240102" then some [] else none }
    let env : Env := { now := ⟨2024, 1, 2, 9, 30, 0, 0⟩, day := c!"20240102" }
    let r := s.syncOrders env
    let r2 := r.1.syncOrders { env with save := .open .osError }
    (match r.2 with | .ok [o] => o.filled == some 100 | _ => false) = true ∧ r.1.updOff = c.length ∧
      (match (r.1.syncOrders env).2 with | .ok [o] => o.filled == some 100 | _ => false) = true ∧
      (match r2.2 with | .error e => e == .osError | _ => false) = true ∧ r2.1.updOff = c.length := by
  decide +kernel

end Jq
