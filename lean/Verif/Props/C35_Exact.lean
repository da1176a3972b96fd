import Verif.Props.C18_Gate
/-!
# C35: exactly how the code of a security shapes the record
-/
namespace Jq

private theorem split_count (s : Str) : (splitOn ',' s).length = s.count ',' + 1 := by
  induction s with
  | nil => rfl
  | cons c s ih =>
    rw [splitOn]
    split
    · rename_i hc; subst hc; simp [ih]
    · rename_i hc
      rw [List.count_cons_of_ne hc, ← ih]
      cases hs : splitOn ',' s <;> simp_all

private theorem count_plain {s : Str} (h : PlainField s) (c : Char) (hc : c = ',' ∨ c = '\n' ∨ c = '\r') : s.count c = 0 := by
  rw [List.count_eq_zero]
  rcases hc with rfl | rfl | rfl
  · exact h.1
  · exact h.2.1
  · exact h.2.2

private theorem count_enc {udig : Char → Bool} {code enc : Str} (h : BrokerCode udig code enc) (c : Char)
    (hc : c = ',' ∨ c = '\n' ∨ c = '\r') : enc.count c = code.count c := by
  obtain ⟨stem, sep, _, hd, ⟨rfl, rfl⟩ | ⟨rfl, rfl⟩⟩ := h <;>
    · simp only [List.count_append, List.count_cons, List.count_nil]
      rcases hc with rfl | rfl | rfl <;> simp

private theorem count_line [CellNum ν] [Store ν] {conf : AXConf} {t : DT} {id enc : Str} {n : Int} {st : Style ν} {items : List Str}
    (h : OrderRecord conf t id enc n st items) (ht : t.valid = true) (hid : PlainField id) (h1 : PlainField conf.counter)
    (h2 : ∀ a, conf.acctNo = some a → PlainField a) (h3 : PlainField conf.algo) (h4 : ∀ p, st = .limit p → PlainField (GateNum.str p))
    (c : Char) (hc : c = ',' ∨ c = '\n' ∨ c = '\r') :
    (joinWith c!"," items).count c = enc.count c + if c = ',' then 11 else 0 := by
  have hpl : ∀ f ∈ items.set 4 [], PlainField f := by
    refine record_plain (enc := []) (n := n) (st := st) ?_ ht hid ⟨by simp, by simp, by simp⟩ h1 h2 h3 h4
    obtain ⟨hl, e0, e1, e2, e3, e4, e5, e6, e7, e8⟩ := h
    match items, hl with
    | [i0, i1, i2, i3, i4, i5, i6, i7, i8, i9, i10, i11], _ =>
      exact ⟨by simp, by simpa using e0, by simpa using e1, by simpa using e2, by simpa using e3, by simp, by simpa using e5,
        by simpa using e6, by simpa using e7, by simpa using e8⟩
  obtain ⟨hl, _, _, _, _, e4, _, _, _, _⟩ := h
  match items, hl with
  | [i0, i1, i2, i3, i4, i5, i6, i7, i8, i9, i10, i11], _ =>
    simp only [List.getElem?_cons_zero, List.getElem?_cons_succ, Option.some.injEq] at e4
    subst e4
    have hz : ∀ f ∈ [i0, i1, i2, i3, i5, i6, i7, i8, i9, i10, i11], f.count c = 0 := by
      intro f hf
      refine count_plain (hpl f ?_) c hc
      simp only [List.set_cons_succ, List.set_cons_zero, List.mem_cons] at hf ⊢
      grind
    simp only [List.mem_cons, List.not_mem_nil, or_false, forall_eq_or_imp, forall_eq] at hz
    obtain ⟨z0, z1, z2, z3, z5, z6, z7, z8, z9, z10, z11⟩ := hz
    simp only [joinWith, List.count_append, z0, z1, z2, z3, z5, z6, z7, z8, z9, z10, z11]
    rcases hc with rfl | rfl | rfl <;> simp <;> omega

variable {ν : Type} [CellNum ν] [Store ν]

/-- **C35, exactly**: whatever code was accepted, the record that it gives has twelve fields and one more for every comma in
the code, and a line end exactly if the code has one.  (The configured texts and a limit price contain none.) -/
theorem c35_exact (udig : Char → Bool) (idn : Nat) (now : DT) (code : Str) (amount : AmtArg) (style : StyleArg ν)
    (side : SideArg) (x : Ctx (AXG ν) ν) (id : Str) (h : (x.order (axGate ν) udig idn now code amount style side).2 = .ok (some id))
    (hprice : ∀ p, style = .style (.limit p) → PlainField (GateNum.str p))
    (hconf : ∀ a, x.acct = some a → PlainField a.gate.ax.conf.counter ∧ PlainField a.gate.ax.conf.algo ∧
      (∀ n, a.gate.ax.conf.acctNo = some n → PlainField n) ∧ a.gate.cur.now.valid = true ∧
      (a.gate.ax.conf.win = true → '\n' ∉ code)) :
    ∃ a a' old line, x.acct = some a ∧ (x.order (axGate ν) udig idn now code amount style side).1.acct = some a' ∧
      a'.gate.ax.files (.orders a.gate.cur.day) = some (old ++ (line ++ lineEnd a.gate.ax.conf.win)) ∧
      (old = (a.gate.ready.files (.orders a.gate.cur.day)).getD [] ∨ old = joinWith c!"," orderColumns ++ lineEnd a.gate.ax.conf.win) ∧
      (splitOn ',' line).length = 12 + code.count ',' ∧ line.count '\n' = code.count '\n' ∧ line.count '\r' = code.count '\r' := by
  obtain ⟨a, a', n, st, sd, enc, items, h1, h2, h3, h4, h5, h6, h7, _⟩ := c18_one_record_partial udig idn now code amount style side x id h
  obtain ⟨c1, c2, c3, c4, c5⟩ := hconf a h1
  have hc := fun c hc => count_line h6 c4 (by rw [h5]; exact ⟨natStr_not_mem _ (by decide), natStr_not_mem _ (by decide), natStr_not_mem _ (by decide)⟩) c1 c3 c2 (by
    intro p hp
    rcases h3.2.2.1 with ⟨_, e⟩ | e
    · rw [e] at hp; cases hp
    · rw [hp] at e; exact hprice p e) c hc
  have hrest : (splitOn ',' (joinWith c!"," items)).length = 12 + code.count ',' ∧
      (joinWith c!"," items).count '\n' = code.count '\n' ∧ (joinWith c!"," items).count '\r' = code.count '\r' := by
    refine ⟨?_, ?_, ?_⟩
    · rw [split_count, hc ',' (.inl rfl), count_enc h4 ',' (.inl rfl)]; simp; omega
    · rw [hc '\n' (.inr (.inl rfl)), count_enc h4 '\n' (.inr (.inl rfl))]; simp
    · rw [hc '\r' (.inr (.inr rfl)), count_enc h4 '\r' (.inr (.inr rfl))]; simp
  have hwin : a.gate.ax.conf.win = true → ∀ f ∈ items, '\n' ∉ f := by
    intro hw f hf hn
    have h0 : (joinWith c!"," items).count '\n' = 0 := by rw [hrest.2.1, List.count_eq_zero]; exact c5 hw
    rw [List.count_eq_zero] at h0
    refine h0 ?_
    clear hrest h0 h6 h7 hc
    induction items with
    | nil => cases hf
    | cons b l ih =>
      cases l with
      | nil => simp only [List.mem_singleton] at hf; subst hf; simpa [joinWith] using hn
      | cons d l =>
        simp only [joinWith, List.mem_append]
        rcases List.mem_cons.1 hf with rfl | hf
        · exact .inl (.inl hn)
        · exact .inr (ih hf)
  rcases h7 hwin with ⟨_, h8⟩ | ⟨text, h8, _, h9⟩
  · exact ⟨a, a', _, joinWith c!"," items, h1, h2, h8, .inr rfl, hrest⟩
  · exact ⟨a, a', text, joinWith c!"," items, h1, h2, h9, .inl (by rw [h8]; rfl), hrest⟩

/-- Non-vacuity: an accepted code with a comma and one with a carriage return meet the hypotheses. -/
example : ((demoCtx false fun _ => demoEnv).order (axGate Int) (fun _ => false) 7 demoEnv.now c!"600000,XSHG" (.int 100) .falsy .falsy).2 = .ok (some c!"7") ∧
    ((demoCtx false fun _ => demoEnv).order (axGate Int) (fun _ => false) 7 demoEnv.now c!"600000\rXSHG" (.int 100) .falsy .falsy).2 = .ok (some c!"7") ∧
    PlainField (demoConf false).counter ∧ PlainField (demoConf false).algo ∧ demoEnv.now.valid = true ∧ (demoConf false).win = false :=
  ⟨by decide +kernel, by decide +kernel, ⟨by decide, by decide, by decide⟩, ⟨by decide, by decide, by decide⟩, by decide, rfl⟩

end Jq
