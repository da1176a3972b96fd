import Verif.Props.C18_Gate
set_option linter.unusedSectionVars false
/-! # C21: exactly what a call of `order()` leaves behind, whichever step of it fails -/
namespace Jq
variable {ν : Type} [CellNum ν] [Store ν]

private theorem header_join : orderHeader = joinWith c!"," orderColumns := by decide

private theorem columns_plain : ∀ s ∈ orderColumns, '\n' ∉ s := by decide

private theorem flushed (win : Bool) (e : PyErr) (k : Nat) (f : FileId) (header line : Str) (fs : Files) :
    appendLine win (.flush e k) f header line fs =
      (fs.set f (((appendLine win .none f header line fs).1 f).map fun w => w.take (((fs f).getD []).length + k)), .error e) := by
  simp only [appendLine, Files.set_self, Option.map_some, List.take_append, List.take_of_length_le (Nat.le_add_right _ _), Nat.add_sub_cancel_left]

/-- For every valid request.  Without an account number, or with another type of account, `order()` returns `None` and nothing
happens.  Otherwise there is one record that says what was asked for, and:
* if the file cannot be opened or locked: `None`, and all files and the order book are as before (but that the order file may
  have come into being, empty);
* if the disk fills up after `k` characters: `None`, and the order file has got exactly the first `k` characters of what a
  successful call appends; the other files and the book are as before;
* if it can be written: the record is appended and the order is in the book, and the id is returned if the book could be
  saved, with the data file then holding the book; if not, `None` is returned all the same and the data file is as before, unless
  the temporary file had to be copied, not renamed: then the data file is the part of the new text that was copied.

So `None` with the record in the order file means precisely that the book could not be saved. -/
theorem c21_exact_partial (udig : Char → Bool) (idn : Nat) (now : DT) (code : Str) (amount : AmtArg) (style : StyleArg ν) (side : SideArg)
    (x : Ctx (AXG ν) ν) (a : Acct (AXG ν) ν) (n : Int) (st : Style ν) (sd : Side) (hu : x.useAccount = true) (ha : x.acct = some a)
    (hv : ValidRequest udig code amount style side n st sd) :
    let r := x.order (axGate ν) udig idn now code amount style side
    let old := a.gate.ready.files
    let day := a.gate.cur.day
    let data := FileId.data a.gate.ax.conf.dataDay
    ∃ a', r.1.acct = some a' ∧
      (∀ f, f ≠ .orders day → f ≠ data → f ≠ .tmp a.gate.ax.conf.dataDay → a'.gate.ax.files f = old f) ∧
      (Unconfigured a.gate.ax.conf → r.2 = .ok none ∧ a'.gate.ax.files = old ∧ a'.gate.ax.book = a.gate.ax.book) ∧
      (¬ Unconfigured a.gate.ax.conf → ∃ enc items, BrokerCode udig code enc ∧
        OrderRecord a.gate.ax.conf a.gate.cur.now (natStr idn) enc n st items ∧
        ((a.gate.ax.conf.win = true → ∀ f ∈ items, '\n' ∉ f) → ∃ whole, Appended a.gate.ax.conf.win orderColumns items (old (.orders day)) (some whole) ∧
          (∀ e, a.gate.cur.write = .open e ∨ a.gate.cur.write = .lock e → r.2 = .ok none ∧ a'.gate.ax.book = a.gate.ax.book ∧
            (a'.gate.ax.files = old ∨ a'.gate.ax.files = old.set (.orders day) (some ((old (.orders day)).getD [])))) ∧
          (∀ e k, a.gate.cur.write = .flush e k → r.2 = .ok none ∧ a'.gate.ax.book = a.gate.ax.book ∧
            a'.gate.ax.files = old.set (.orders day) (some (whole.take (((old (.orders day)).getD []).length + k)))) ∧
          (a.gate.cur.write = .none → a'.gate.ax.files (.orders day) = some whole ∧
            (∃ i, i.orderId = some (natStr idn) ∧ i.code = some code ∧ i.amount = some (n.natAbs : Int) ∧ a'.gate.ax.book = dset a.gate.ax.book (natStr idn) i) ∧
            (a.gate.cur.save = .none ∧ (Store.dump a'.gate.ax.book).isSome →
              r.2 = .ok (some (natStr idn)) ∧ a'.gate.ax.files data = Store.dump a'.gate.ax.book) ∧
            (¬ (a.gate.cur.save = .none ∧ (Store.dump a'.gate.ax.book).isSome) → r.2 = .ok none ∧
              (a'.gate.ax.files data = old data ∨ ∃ text, Store.dump a'.gate.ax.book = some text ∧
                ((∃ e k, a.gate.cur.save = .copy e k ∧ a'.gate.ax.files data = some (text.take k)) ∨
                 (∃ e, a.gate.cur.save = .unlink e ∧ a'.gate.ax.files data = some text))))))) := by
  intro r old day data
  have hc := (c17_accepts_valid ..).2 hv
  have hacc : x.account = .ok a := by simp [Ctx.account, hu, ha]
  have hr : r = ({ x with acct := some (a.order (axGate ν) idn now code n st sd).1 }, (a.order (axGate ν) idn now code n st sd).2) := by
    simp only [r, Ctx.order, hc, hacc]
  obtain ⟨enc, he1, he2⟩ := c34_encoded udig code hv.1
  have hg : (a.order (axGate ν) idn now code n st sd).1.gate.ax = (a.gate.ready.order a.gate.cur (newOrder (natStr idn) now code n st)).1 := by
    rw [order_gate]; rfl
  -- the value that is returned
  have hres : r.2 = .ok (match (a.gate.ready.order a.gate.cur (newOrder (natStr idn) now code n st)).2 with
      | .ok _ => some (natStr idn) | .error _ => none) := by
    rw [hr]
    rcases order_cases (axGate ν) idn now code n st sd a with ⟨g, e, h5, h6⟩ | ⟨g, h5, h6⟩
    · have : (a.gate.ready.order a.gate.cur (newOrder (natStr idn) now code n st)).2 = .error e := congrArg Prod.snd h5
      rw [this, h6]
    · have : (a.gate.ready.order a.gate.cur (newOrder (natStr idn) now code n st)).2 = .ok () := congrArg Prod.snd h5
      rw [this, h6]
  refine ⟨(a.order (axGate ν) idn now code n st sd).1, by rw [hr], ?_⟩
  rw [hg, hres]
  clear hres hr hg
  rcases ax_order_cases a.gate.cur a.gate.ready now (natStr idn) code enc n st he1 with ⟨e, g1, g0⟩ | ⟨acct, hacct, hne, hrest⟩
  · rw [g1]
    exact ⟨fun _ _ _ _ => rfl, fun _ => ⟨rfl, rfl, rfl⟩, fun h => absurd g0 h⟩
  · by_cases hty : a.gate.ax.conf.acctType = c!"STOCK"
    case neg =>
      -- the type of account is refused before
      have he : orderFields a.gate.ready.conf a.gate.cur.now (newOrder (natStr idn) now code n st) = .error .invalidParam := by
        have h1 : a.gate.ready.conf.acctNo = some acct := hacct
        have h2 : a.gate.ready.conf.acctType ≠ c!"STOCK" := hty
        simp only [orderFields, AXConf.account, h1, if_neg hne, bind, Except.bind, if_pos h2]
      have g1 : a.gate.ready.order a.gate.cur (newOrder (natStr idn) now code n st) = (a.gate.ready, .error .invalidParam) := by
        simp only [AX.order, he]
      rw [g1]
      exact ⟨fun _ _ _ _ => rfl, fun _ => ⟨rfl, rfl, rfl⟩, fun h => absurd (.inr (.inr hty)) h⟩
    have hnot : ¬ Unconfigured a.gate.ax.conf := by
      have h1 : a.gate.ax.conf.acctNo = some acct := hacct
      rintro (h | h | h)
      · rw [h1] at h; cases h
      · rw [h1] at h; injection h with h; exact hne h
      · exact h hty
    have hrec := newItems_record a.gate.ax.conf acct a.gate.cur.now (natStr idn) enc n st hacct hv.2.1.2
    have hother : ∀ fs r', appendLine a.gate.ready.conf.win a.gate.cur.write (.orders a.gate.cur.day) orderHeader
        (joinWith c!"," (newItems a.gate.ready.conf acct a.gate.cur.now (natStr idn) enc n st) ++ linesep a.gate.ready.conf.win) a.gate.ready.files = (fs, r') →
        ∀ f, f ≠ .orders day → fs f = old f := by
      intro fs r' h f hf
      have := appendLine_other a.gate.ready.conf.win a.gate.cur.write (.orders a.gate.cur.day) orderHeader
        (joinWith c!"," (newItems a.gate.ready.conf acct a.gate.cur.now (natStr idn) enc n st) ++ linesep a.gate.ready.conf.win) a.gate.ready.files hf
      rw [h] at this
      exact this
    rcases hrest with ⟨fs, e, g1, g2⟩ | ⟨fs, g1, g2⟩
    · rw [g2]
      refine ⟨fun f hf _ _ => hother _ _ g1 f hf, fun h => absurd h hnot, fun _ => ⟨enc, _, he2, hrec, fun hw => ?_⟩⟩
      have h5 := appendLine_text a.gate.ready.conf.win (.orders a.gate.cur.day) orderColumns
        (newItems a.gate.ready.conf acct a.gate.cur.now (natStr idn) enc n st) a.gate.ready.files columns_plain hw
      rw [← header_join] at h5
      have hsome : ∃ whole, (appendLine a.gate.ready.conf.win .none (.orders a.gate.cur.day) orderHeader
          (joinWith c!"," (newItems a.gate.ready.conf acct a.gate.cur.now (natStr idn) enc n st) ++ linesep a.gate.ready.conf.win) a.gate.ready.files).1
          (.orders a.gate.cur.day) = some whole := by
        simp only [appendLine, Files.set_self]; exact ⟨_, rfl⟩
      obtain ⟨whole, hwhole⟩ := hsome
      rw [hwhole] at h5
      refine ⟨whole, h5.2, ?_, ?_, ?_⟩
      · rintro e' (hf | hf)
        · rw [hf] at g1
          simp only [appendLine] at g1
          injection g1 with g1 _
          exact ⟨rfl, rfl, .inl g1.symm⟩
        · rw [hf] at g1
          simp only [appendLine] at g1
          injection g1 with g1 _
          exact ⟨rfl, rfl, .inr g1.symm⟩
      · intro e' k hf
        rw [hf, flushed, hwhole] at g1
        injection g1 with g1 _
        exact ⟨rfl, rfl, g1.symm⟩
      · intro hf
        rw [hf] at g1
        simp [appendLine] at g1
    · rw [g2]
      refine ⟨fun f hf h1 h2 => ?_, fun h => absurd h hnot, fun _ => ⟨enc, _, he2, hrec, fun hw => ?_⟩⟩
      · show (saveOrders _ _ _ _).1 f = _
        exact (saveOrders_other a.gate.ready.conf.dataDay _ _ _ h1 h2).trans (hother _ _ g1 f hf)
      have hf := appendLine_ok g1
      have h5 := appendLine_text a.gate.ready.conf.win (.orders a.gate.cur.day) orderColumns
        (newItems a.gate.ready.conf acct a.gate.cur.now (natStr idn) enc n st) a.gate.ready.files columns_plain hw
      rw [← header_join, ← hf, g1] at h5
      have hsome : ∃ whole, fs (.orders a.gate.cur.day) = some whole := by
        rw [hf] at g1
        simp only [appendLine] at g1
        injection g1 with g1 _
        rw [← g1, Files.set_self]; exact ⟨_, rfl⟩
      obtain ⟨whole, hwhole⟩ := hsome
      simp only [hwhole] at h5
      refine ⟨whole, h5.2, ?_, ?_, fun _ => ⟨?_, ⟨newInfo (natStr idn) now code n st, rfl, rfl, rfl, rfl⟩, ?_, ?_⟩⟩
      · rintro e' (h | h) <;> rw [hf] at h <;> cases h
      · intro e' k h; rw [hf] at h; cases h
      · show (saveOrders _ _ _ _).1 _ = _
        rw [saveOrders_other _ _ _ _ (by simp) (by simp)]
        exact hwhole
      · rintro ⟨hs, hd⟩
        obtain ⟨text, hd⟩ := Option.isSome_iff_exists.1 hd
        simp only at hd
        simp only [saveOrders, hs, hd]
        exact ⟨trivial, Files.set_self _ _ _⟩
      · intro hno
        have hdata : fs data = old data := hother _ _ g1 data (by simp [data])
        rw [← hdata]
        cases hs : a.gate.cur.save with
        | «open» e => simp [saveOrders, hs]
        | none =>
          cases hd : Store.dump (dset a.gate.ready.book (natStr idn) (newInfo (natStr idn) now code n st)) with
          | none => simp [saveOrders, hs, hd, Files.set, data]
          | some text => exact absurd ⟨hs, by simp only [hd]; rfl⟩ hno
        | write e k =>
          cases hd : Store.dump (dset a.gate.ready.book (natStr idn) (newInfo (natStr idn) now code n st)) <;>
            simp [saveOrders, hs, hd, Files.set, data]
        | move e =>
          cases hd : Store.dump (dset a.gate.ready.book (natStr idn) (newInfo (natStr idn) now code n st)) <;>
            simp [saveOrders, hs, hd, Files.set, data]
        | copy e k =>
          cases hd : Store.dump (dset a.gate.ready.book (natStr idn) (newInfo (natStr idn) now code n st)) with
          | none => simp [saveOrders, hs, hd, Files.set, data]
          | some text =>
            simp only [saveOrders, hs, hd]
            exact ⟨trivial, .inr ⟨text, rfl, .inl ⟨e, k, rfl, Files.set_self _ _ _⟩⟩⟩
        | unlink e =>
          cases hd : Store.dump (dset a.gate.ready.book (natStr idn) (newInfo (natStr idn) now code n st)) with
          | none => simp [saveOrders, hs, hd, Files.set, data]
          | some text =>
            simp only [saveOrders, hs, hd]
            exact ⟨trivial, .inr ⟨text, rfl, .inr ⟨e, rfl, Files.set_self _ _ _⟩⟩⟩

/-- The disk fills up after 30 characters of a second record. -/
example :
    let x := ((demoCtx false fun k => if k = 0 then demoEnv else { demoEnv with write := .flush .osError 30 }).order (axGate Int) (fun _ => false) 7
      demoEnv.now c!"600000.XSHG" (.int 100) .falsy .falsy).1
    ¬ Unconfigured (demoConf false) ∧ x.useAccount = true ∧
    (x.order (axGate Int) (fun _ => false) 8 demoEnv.now c!"600000.XSHG" (.int 100) .falsy .falsy).2 = .ok none ∧
    (x.order (axGate Int) (fun _ => false) 8 demoEnv.now c!"600000.XSHG" (.int 100) .falsy .falsy).1.orderFile c!"20240102"
      = some (orderHeader ++ c!"\n093000.000025,7,UM0,88,600000.SH,1,100,DMA,P6,0,0,0\n093000.000025,8,UM0,88,600000.") := by
  refine ⟨?_, by decide +kernel, by decide +kernel, by decide +kernel⟩
  rintro (h | h | h)
  · cases h
  · injection h with h; cases h
  · exact h rfl

/-! ## C23 when the cancel file cannot be written -/

private theorem cancelHeader_columns : cancelHeader = joinWith c!"," cancelColumns := by decide

private theorem cancel_plain : ∀ s ∈ cancelColumns, '\n' ∉ s := by decide

/-- `cancel_order` of a known id never raises and leaves the orders of the account, the order book and all files but the cancel
file as they are.  The cancel file gets the whole record; or, if the disk fills up, its first `k` characters; or nothing, if
the file cannot be opened or locked (but it may have come into being, empty). -/
theorem c23_failed_writes (a : Acct (AXG ν) ν) (hwf : a.WF) (id : Str) (hknown : a.find id ≠ none)
    (hid : a.gate.ax.conf.win = true → '\n' ∉ id ∧ '\n' ∉ a.gate.cur.now.hmsf) :
    let a' := (a.cancel (axGate ν) id).1
    let old := a.gate.ready.files
    let file := FileId.cancels a.gate.cur.day
    (a.cancel (axGate ν) id).2 = .ok () ∧ a'.gate.ax.book = a.gate.ax.book ∧ (∀ i, a'.find i = a.find i) ∧
    ∃ whole, Appended a.gate.ax.conf.win cancelColumns [a.gate.cur.now.hmsf, id] (old file) (some whole) ∧
      (a.gate.cur.write = .none → a'.gate.ax.files = old.set file (some whole)) ∧
      (∀ e k, a.gate.cur.write = .flush e k → a'.gate.ax.files = old.set file (some (whole.take (((old file).getD []).length + k)))) ∧
      (∀ e, a.gate.cur.write = .lock e → a'.gate.ax.files = old.set file (some ((old file).getD []))) ∧
      (∀ e, a.gate.cur.write = .open e → a'.gate.ax.files = old) := by
  intro a' old file
  have hs : (a.find id).isSome = true := by cases hf : a.find id <;> simp_all
  have ha' : a' = { a with gate := ((axGate ν).cancel a.gate id).1 } := by
    simp only [a']; rw [c23_cancel_forwards_known _ _ _ hwf, if_pos hs]
  have hfiles : a'.gate.ax.files = (appendLine a.gate.ax.conf.win a.gate.cur.write file cancelHeader
      (joinWith c!"," [a.gate.cur.now.hmsf, id] ++ linesep a.gate.ax.conf.win) old).1 := by
    rw [ha']; rfl
  have h5 := appendLine_text a.gate.ax.conf.win file cancelColumns [a.gate.cur.now.hmsf, id] old cancel_plain (by
    intro hwin s hs
    simp only [List.mem_cons, List.not_mem_nil, or_false] at hs
    rcases hs with rfl | rfl
    · exact (hid hwin).2
    · exact (hid hwin).1)
  rw [← cancelHeader_columns] at h5
  have hsome : ∃ whole, (appendLine a.gate.ax.conf.win .none file cancelHeader
      (joinWith c!"," [a.gate.cur.now.hmsf, id] ++ linesep a.gate.ax.conf.win) old).1 file = some whole := by
    simp only [appendLine, Files.set_self]; exact ⟨_, rfl⟩
  obtain ⟨whole, hwhole⟩ := hsome
  rw [hwhole] at h5
  refine ⟨?_, by rw [ha']; rfl, fun i => by rw [ha']; rfl, whole, h5.2, fun hw => ?_, fun e k hw => ?_, fun e hw => ?_, fun e hw => ?_⟩
  · simp only [Acct.cancel, tryExcept]
    split <;> rfl
  · rw [hfiles, hw]
    funext f
    by_cases hf : f = file
    · subst hf; rw [hwhole, Files.set_self]
    · rw [appendLine_other _ _ _ _ _ _ hf]; simp [Files.set, hf]
  · rw [hfiles, hw, flushed, hwhole]; rfl
  · rw [hfiles, hw]; rfl
  · rw [hfiles, hw]; rfl

/-- A known order, and a disk that is full after five characters of the header. -/
example :
    let x := ((demoCtx false fun k => if k = 0 then demoEnv else { demoEnv with write := .flush .osError 5 }).order (axGate Int) (fun _ => false) 7
      demoEnv.now c!"600000.XSHG" (.int 100) .falsy .falsy).1
    ∃ a, x.acct = some a ∧ a.find c!"7" ≠ none ∧ (a.cancel (axGate Int) c!"7").1.gate.ax.files (.cancels c!"20240102") = some c!"updTi" := by
  refine ⟨_, rfl, by decide +kernel, by decide +kernel⟩

end Jq
