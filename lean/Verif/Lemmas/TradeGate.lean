import Verif.Spec.TradeGate
import Verif.Lemmas.Account
import Verif.Lemmas.Dict
import Verif.Lemmas.Str
import Verif.Lemmas.NatStr
import Verif.Props.C34_Code
set_option linter.unusedSectionVars false
/-! Facts about the trade gate. -/
namespace Jq

theorem Files.set_self (fs : Files) (f : FileId) (c : Option Str) : (fs.set f c) f = c := by simp [Files.set]

theorem Files.set_ne (fs : Files) {f g : FileId} (h : g ≠ f) (c : Option Str) : (fs.set f c) g = fs g := by simp [Files.set, h]

theorem onDisk_linesep (win : Bool) : onDisk win (linesep win) = lineEnd win := by cases win <;> decide

theorem onDisk_append (win : Bool) (a b : Str) : onDisk win (a ++ b) = onDisk win a ++ onDisk win b := by
  cases win <;> simp [onDisk]

theorem onDisk_plain (win : Bool) {s : Str} (h : '\n' ∉ s) : onDisk win s = s := by
  cases win
  · rfl
  · simp only [onDisk, if_true]
    induction s with
    | nil => rfl
    | cons c s ih =>
      simp only [List.mem_cons, not_or] at h
      rw [List.flatMap_cons, ih h.2, if_neg (fun e => h.1 e.symm)]
      rfl

/-- `_write` only touches its file. -/
theorem appendLine_other (win : Bool) (fault : WriteFault) (f : FileId) (header line : Str) (fs : Files) {g : FileId} (h : g ≠ f) :
    (appendLine win fault f header line fs).1 g = fs g := by
  cases fault <;> simp [appendLine, Files.set_ne _ h]

theorem appendLine_ok {win : Bool} {fault : WriteFault} {f : FileId} {header line : Str} {fs fs' : Files}
    (h : appendLine win fault f header line fs = (fs', .ok ())) : fault = .none := by
  cases fault <;> simp [appendLine] at h ⊢

/-- What a successful `_write` leaves in the file. -/
theorem appendLine_text (win : Bool) (f : FileId) (columns items : List Str) (fs : Files) (hc : ∀ s ∈ columns, '\n' ∉ s) (hi : win = true → ∀ s ∈ items, '\n' ∉ s) :
    (appendLine win .none f (joinWith c!"," columns) (joinWith c!"," items ++ linesep win) fs).2 = .ok () ∧
    Appended win columns items (fs f) ((appendLine win .none f (joinWith c!"," columns) (joinWith c!"," items ++ linesep win) fs).1 f) := by
  have hj : ∀ l : List Str, (∀ s ∈ l, '\n' ∉ s) → '\n' ∉ joinWith c!"," l := by
    intro l hl
    induction l with
    | nil => simp [joinWith]
    | cons a l ih =>
      cases l with
      | nil => simpa [joinWith] using hl a (by simp)
      | cons b l =>
        simp only [joinWith, List.mem_append, not_or]
        exact ⟨⟨hl a (by simp), by decide⟩, ih fun s hs => hl s (by simp [hs])⟩
  have hline : onDisk win (joinWith c!"," items ++ linesep win) = joinWith c!"," items ++ lineEnd win := by
    rw [onDisk_append, onDisk_linesep]
    cases win
    · rfl
    · rw [onDisk_plain _ (hj _ (hi rfl))]
  have hhead : onDisk win (joinWith c!"," columns ++ linesep win) = joinWith c!"," columns ++ lineEnd win := by
    rw [onDisk_append, onDisk_linesep, onDisk_plain _ (hj _ hc)]
  refine ⟨rfl, ?_⟩
  simp only [appendLine, Files.set_self]
  cases hf : fs f with
  | none =>
    refine .inl ⟨.inl rfl, ?_⟩
    simp only [Option.getD_none, if_true, List.nil_append]
    rw [onDisk_append, hhead, hline]
  | some text =>
    by_cases ht : text = []
    · subst ht
      refine .inl ⟨.inr rfl, ?_⟩
      simp only [Option.getD_some, if_true, List.nil_append]
      rw [onDisk_append, hhead, hline]
    · refine .inr ⟨text, rfl, ht, ?_⟩
      simp only [Option.getD_some, ht, if_false]
      rw [hline]

variable {ν : Type} [CellNum ν] [Store ν]

/-- `_save_orders` only touches the data file and its temporary file. -/
theorem saveOrders_other (day : Str) (env : Env) (b : Book ν) (fs : Files) {g : FileId} (h1 : g ≠ .data day) (h2 : g ≠ .tmp day) :
    (saveOrders day env b fs).1 g = fs g := by
  simp only [saveOrders]
  cases env.save <;> simp only <;> (try rfl) <;> cases Store.dump b <;> simp [Files.set_ne _ h1, Files.set_ne _ h2]

/-- If `_save_orders` succeeds, the data file has the whole book. -/
theorem saveOrders_ok {day : Str} {env : Env} {b : Book ν} {fs : Files} (h : (saveOrders day env b fs).2 = .ok ()) :
    ∃ text, Store.dump b = some text ∧ (saveOrders day env b fs).1 (.data day) = some text := by
  revert h
  simp only [saveOrders]
  cases env.save <;> simp only <;> (try (intro h; cases h)) <;> cases hd : Store.dump b <;> simp [Files.set]

theorem saveOrders_result (day : Str) (env : Env) (b : Book ν) (fs : Files) :
    ((saveOrders day env b fs).2 = .ok () ∧ ∃ text, Store.dump b = some text ∧ (saveOrders day env b fs).1 (.data day) = some text) ∨
    ∃ e, (saveOrders day env b fs).2 = .error e := by
  cases h : (saveOrders day env b fs).2 with
  | ok u => exact .inl ⟨rfl, saveOrders_ok h⟩
  | error e => exact .inr ⟨e, rfl⟩

/-- The data file after `_save_orders`, if nothing has to be copied: as before, or the whole book when it succeeded. -/
theorem saveOrders_data (day : Str) (env : Env) (hr : env.Renames) (b : Book ν) (fs : Files) :
    ((saveOrders day env b fs).2 = .ok () ∧ ∃ text, Store.dump b = some text ∧ (saveOrders day env b fs).1 (.data day) = some text) ∨
    ((∃ e, (saveOrders day env b fs).2 = .error e) ∧ (saveOrders day env b fs).1 (.data day) = fs (.data day)) := by
  simp only [saveOrders]
  cases hs : env.save <;> simp only <;> (try exact .inr ⟨⟨_, rfl⟩, rfl⟩) <;> (try exact absurd hs (hr _ _).1) <;> (try exact absurd hs (hr _ 0).2) <;>
    cases hd : Store.dump b <;> simp [Files.set]

/-- The fields written for an order of the account. -/
def newItems (c : AXConf) (acct : Str) (t : DT) (id enc : Str) (n : Int) (st : Style ν) : List Str :=
  [t.hmsf, id, c.counter, acct, enc, if n < 0 then c!"2" else c!"1", natStr n.natAbs, c.algo] ++
    match st with
    | .market _ => [if n < 0 then c!"P7" else c!"P6", c!"0", c!"0", c!"0"]
    | .limit p => [c!"AT", c!"0", GateNum.str p, GateNum.str p]

/-- Which orders of the account are refused before anything is written. -/
theorem orderFields_new (c : AXConf) (t now : DT) (id code enc : Str) (n : Int) (st : Style ν) (henc : encodeSecurity code = .ok enc) :
    (c.acctNo = none ∨ c.acctNo = some [] ∨ c.acctType ≠ c!"STOCK") ∧ (∃ e, orderFields c t (newOrder id now code n st) = .error e) ∨
    ∃ acct, c.acctNo = some acct ∧ acct ≠ [] ∧ c.acctType = c!"STOCK" ∧
      orderFields c t (newOrder id now code n st) = .ok (newItems c acct t id enc n st) := by
  have hact : (newOrder id now code n st).action = if n < 0 then .close else .opened := rfl
  have hb : ∀ (a b : Str), (if (newOrder id now code n st).action = .opened then a else b) = if n < 0 then b else a := by
    intro a b; rw [hact]; by_cases h : n < 0 <;> simp [h]
  have hbind : ∀ {α β : Type} (v : α) (f : α → Py β), ((Except.ok v : Py α) >>= f) = f v := fun _ _ => rfl
  have hberr : ∀ {α β : Type} (e : PyErr) (f : α → Py β), ((Except.error e : Py α) >>= f) = .error e := fun _ _ => rfl
  cases ha : c.acctNo with
  | none => exact .inl ⟨.inl rfl, .invalidParam, by simp [orderFields, AXConf.account, ha, hberr]⟩
  | some acct =>
    by_cases hne : acct = []
    · subst hne; exact .inl ⟨.inr (.inl rfl), .invalidParam, by simp [orderFields, AXConf.account, ha, hberr]⟩
    · by_cases ht : c.acctType = c!"STOCK"
      · refine .inr ⟨acct, rfl, hne, ht, ?_⟩
        have hp : priceFields (newOrder id now code n st) = .ok (match st with
            | .market _ => [if n < 0 then c!"P7" else c!"P6", c!"0", c!"0", c!"0"]
            | .limit p => [c!"AT", c!"0", GateNum.str p, GateNum.str p]) := by
          cases st with
          | market p => simp only [priceFields, hb]; rfl
          | limit p => rfl
        simp only [orderFields, AXConf.account, ha, hne, if_false, hbind, ht, ne_eq, not_true_eq_false]
        rw [show (newOrder id now code n st).side = some .long from rfl, show (newOrder id now code n st).code = code from rfl, henc, hp]
        simp only [not_true_eq_false, if_false, hbind, hb]
        cases st <;> rfl
      · exact .inl ⟨.inr (.inr ht), .invalidParam, by simp [orderFields, AXConf.account, ha, hne, hbind, ht]⟩

theorem newItems_record (c : AXConf) (acct : Str) (t : DT) (id enc : Str) (n : Int) (st : Style ν) (ha : c.acctNo = some acct) (hn : n ≠ 0) :
    OrderRecord c t id enc n st (newItems c acct t id enc n st) := by
  refine ⟨?_, rfl, rfl, rfl, ?_, rfl, ?_, ⟨n.natAbs, by omega, rfl⟩, rfl, ?_⟩
  · cases st <;> rfl
  · rw [ha]; rfl
  · rcases Int.lt_or_gt_of_ne hn with h | h
    · exact .inr ⟨h, by simp [newItems, h]⟩
    · have h' : ¬ n < 0 := by omega
      exact .inl ⟨h, by simp [newItems, h']⟩
  · cases st with
    | limit p => exact .limit p
    | market p =>
      rcases Int.lt_or_gt_of_ne hn with h | h
      · have : (newItems c acct t id enc n (.market p)).drop 8 = [c!"P7", c!"0", c!"0", c!"0"] := by simp [newItems, h]
        rw [this]; exact .marketSell p h
      · have h' : ¬ n < 0 := by omega
        have : (newItems c acct t id enc n (.market p)).drop 8 = [c!"P6", c!"0", c!"0", c!"0"] := by simp [newItems, h']
        rw [this]; exact .marketBuy p h

/-- The saved dictionary of an order of the account. -/
def newInfo (id : Str) (now : DT) (code : Str) (n : Int) (st : Style ν) : OrderInfo ν :=
  { code := some code, price := some st.price, amount := some n.natAbs, action := some (if n < 0 then c!"close" else c!"open")
    orderId := some id, status := some c!"new", style := some (.name st.name), createTime := some (.str now.full), entrustTime := none
    side := some c!"long", confirmId := none, filled := some 0, canceled := some 0, dealBalance := some PyNum.zero, avgCost := none
    commission := some PyNum.zero, errMsg := some [] }

theorem newOrder_json (id : Str) (now : DT) (code : Str) (n : Int) (st : Style ν) :
    (newOrder id now code n st).json = .ok (newInfo id now code n st) := by
  by_cases h : n < 0 <;> simp [newOrder, newInfo, Order.json, needAttr, h, bind, Except.bind, pure, Except.pure, Status.name, Side.name, Action.name]

/-- The three ways an order of the account goes through the gate. -/
theorem ax_order_cases (env : Env) (s : AX ν) (now : DT) (id code enc : Str) (n : Int) (st : Style ν) (henc : encodeSecurity code = .ok enc) :
    (∃ e, s.order env (newOrder id now code n st) = (s, .error e) ∧
      (s.conf.acctNo = none ∨ s.conf.acctNo = some [] ∨ s.conf.acctType ≠ c!"STOCK")) ∨
    ∃ acct, s.conf.acctNo = some acct ∧ acct ≠ [] ∧
      ((∃ fs e, appendLine s.conf.win env.write (.orders env.day) orderHeader
          (joinWith c!"," (newItems s.conf acct env.now id enc n st) ++ linesep s.conf.win) s.files = (fs, .error e) ∧
        s.order env (newOrder id now code n st) = ({ s with files := fs }, .error e)) ∨
       ∃ fs, appendLine s.conf.win env.write (.orders env.day) orderHeader
          (joinWith c!"," (newItems s.conf acct env.now id enc n st) ++ linesep s.conf.win) s.files = (fs, .ok ()) ∧
        s.order env (newOrder id now code n st) =
          ({ s with book := dset s.book id (newInfo id now code n st)
                    files := (saveOrders s.conf.dataDay env (dset s.book id (newInfo id now code n st)) fs).1 },
            (saveOrders s.conf.dataDay env (dset s.book id (newInfo id now code n st)) fs).2)) := by
  rcases orderFields_new s.conf env.now now id code enc n st henc with ⟨h1, e, h2⟩ | ⟨acct, h1, h2, _, h3⟩
  · exact .inl ⟨e, by simp only [AX.order, h2], h1⟩
  · refine .inr ⟨acct, h1, h2, ?_⟩
    simp only [AX.order, h3]
    cases ha : appendLine s.conf.win env.write (.orders env.day) orderHeader
          (joinWith c!"," (newItems s.conf acct env.now id enc n st) ++ linesep s.conf.win) s.files with
    | mk fs r =>
      cases r with
      | error e => exact .inl ⟨fs, e, rfl, rfl⟩
      | ok u => exact .inr ⟨fs, rfl, by simp only [AX.remember, newOrder_json]; rfl⟩

end Jq
