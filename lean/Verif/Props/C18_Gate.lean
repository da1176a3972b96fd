import Verif.Lemmas.GateRun
import Verif.Lemmas.Store
import Verif.Spec.Account
import Verif.Props.C17_Api
set_option linter.unusedSectionVars false
/-! # C18, C19, C21, C23, C35, C57: what the built-in trade gate writes -/
namespace Jq
variable {ν : Type} [CellNum ν] [Store ν]

/-! ## C18 -/

private theorem ctx_order {γ ν : Type} [PyNum ν] {G : Gate γ ν} {udig : Char → Bool} {idn : Nat} {now : DT} {code : Str} {amount : AmtArg}
    {style : StyleArg ν} {side : SideArg} {x : Ctx γ ν} {r : Option Str} (h : (x.order G udig idn now code amount style side).2 = .ok r) :
    ∃ a n st sd, x.acct = some a ∧ ValidRequest udig code amount style side n st sd ∧
      (x.order G udig idn now code amount style side).1.acct = some (a.order G idn now code n st sd).1 ∧
      (a.order G idn now code n st sd).2 = .ok r := by
  simp only [Ctx.order] at h ⊢
  cases hc : checkRequest udig code amount style side with
  | error e => rw [hc] at h; cases h
  | ok v =>
    obtain ⟨n, st, sd⟩ := v
    rw [hc] at h
    simp only at h ⊢
    cases ha : x.account with
    | error e => rw [ha] at h; cases h
    | ok a =>
      rw [ha] at h
      refine ⟨a, n, st, sd, ?_, (c17_accepts_valid ..).1 hc, rfl, h⟩
      simp only [Ctx.account] at ha
      split at ha
      · cases ha
      · split at ha
        · rename_i b hb; injection ha with ha; subst ha; exact hb
        · cases ha

private theorem orderHeader_join : orderHeader = joinWith c!"," orderColumns := by decide

private theorem orderColumns_plain : ∀ s ∈ orderColumns, '\n' ∉ s := by decide

/-- What an accepted order did to the files. -/
private theorem ax_order_ok (env : Env) (s s' : AX ν) (now : DT) (id code enc : Str) (n : Int) (st : Style ν)
    (henc : encodeSecurity code = .ok enc) (hn : n ≠ 0) (h : s.order env (newOrder id now code n st) = (s', .ok ())) :
    ∃ items, OrderRecord s.conf env.now id enc n st items ∧
      ((s.conf.win = true → ∀ f ∈ items, '\n' ∉ f) →
        Appended s.conf.win orderColumns items (s.files (.orders env.day)) (s'.files (.orders env.day))) ∧
      (∀ f, f ≠ .orders env.day → f ≠ .data s.conf.dataDay → f ≠ .tmp s.conf.dataDay → s'.files f = s.files f) ∧
      s'.book = dset s.book id (newInfo id now code n st) ∧
      Store.dump s'.book = s'.files (.data s.conf.dataDay) ∧ (Store.dump s'.book).isSome := by
  rcases ax_order_cases env s now id code enc n st henc with ⟨e, h1, _⟩ | ⟨acct, ha, hne, ⟨fs, e, _, h2⟩ | ⟨fs, h1, h2⟩⟩
  · rw [h1] at h; injection h with _ h; cases h
  · rw [h2] at h; injection h with _ h; cases h
  · rw [h2] at h
    injection h with h3 h4
    refine ⟨newItems s.conf acct env.now id enc n st, newItems_record _ _ _ _ _ _ _ ha hn, ?_, ?_, ?_, ?_⟩
    · intro hw
      have hf := appendLine_ok h1
      rw [hf] at h1
      have h5 := appendLine_text s.conf.win (.orders env.day) orderColumns (newItems s.conf acct env.now id enc n st) s.files orderColumns_plain hw
      rw [← orderHeader_join, h1] at h5
      rw [← h3]
      show Appended _ _ _ _ ((saveOrders _ _ _ _).1 _)
      rw [saveOrders_other _ _ _ _ (by simp) (by simp)]
      exact h5.2
    · intro f hf1 hf2 hf3
      rw [← h3]
      show (saveOrders _ _ _ _).1 f = _
      rw [saveOrders_other _ _ _ _ hf2 hf3]
      have := appendLine_other s.conf.win env.write (.orders env.day) orderHeader
        (joinWith c!"," (newItems s.conf acct env.now id enc n st) ++ linesep s.conf.win) s.files hf1
      rw [h1] at this
      exact this
    · rw [← h3]
    · rcases saveOrders_result s.conf.dataDay env (dset s.book id (newInfo id now code n st)) fs with ⟨_, text, h5, h6⟩ | ⟨e, h5⟩
      · rw [← h3]
        exact ⟨by simp only; rw [h6, h5], by simp only; rw [h5]; rfl⟩
      · rw [h5] at h4; cases h4

/-- When `order()` returns an id, the order file has grown by exactly one record of twelve columns saying what was asked
(preceded by the header if the file was empty); no other file has changed but the data file. -/
theorem c18_one_record_partial (udig : Char → Bool) (idn : Nat) (now : DT) (code : Str) (amount : AmtArg) (style : StyleArg ν)
    (side : SideArg) (x : Ctx (AXG ν) ν) (id : Str) (h : (x.order (axGate ν) udig idn now code amount style side).2 = .ok (some id)) :
    ∃ a a' n st sd enc items, x.acct = some a ∧ (x.order (axGate ν) udig idn now code amount style side).1.acct = some a' ∧
      ValidRequest udig code amount style side n st sd ∧ BrokerCode udig code enc ∧ id = natStr idn ∧
      OrderRecord a.gate.ax.conf a.gate.cur.now id enc n st items ∧
      ((a.gate.ax.conf.win = true → ∀ f ∈ items, '\n' ∉ f) →
        Appended a.gate.ax.conf.win orderColumns items (a.gate.ready.files (.orders a.gate.cur.day)) (a'.gate.ax.files (.orders a.gate.cur.day))) ∧
      (∀ f, f ≠ .orders a.gate.cur.day → f ≠ .data a.gate.ax.conf.dataDay → f ≠ .tmp a.gate.ax.conf.dataDay →
        a'.gate.ax.files f = a.gate.ready.files f) := by
  obtain ⟨a, n, st, sd, h1, h2, h3, h4⟩ := ctx_order h
  obtain ⟨enc, he1, he2⟩ := c34_encoded udig code h2.1
  rcases order_cases (axGate ν) idn now code n st sd a with ⟨g, e, _, h6⟩ | ⟨g, h5, h6⟩
  · rw [h6] at h4; cases h4
  · rw [h6] at h4
    injection h4 with h4
    injection h4 with h4
    simp only [axGate] at h5
    injection h5 with h5 h7
    obtain ⟨items, g1, g2, g3, _⟩ := ax_order_ok a.gate.cur a.gate.ready _ now (natStr idn) code enc n st he1 h2.2.1.2 (Prod.ext rfl h7)
    refine ⟨a, _, n, st, sd, enc, items, h1, h3, h2, he2, h4.symm, h4 ▸ g1, ?_, ?_⟩
    · rw [order_gate]; exact g2
    · rw [order_gate]; exact g3

private theorem recordFile_nil {win : Bool} {columns : List Str} {t : Option Str} {recs : List (List Str)} (h : RecordFile win columns t recs)
    (hr : recs = []) : t = none ∨ t = some [] := by
  cases h with
  | absent => exact .inl rfl
  | empty => exact .inr rfl
  | record _ _ => simp at hr

/-- The text of an order or cancel file with records: the header line once, first, then one line per record. -/
theorem c18_file_text (win : Bool) (columns : List Str) (hcol : joinWith c!"," columns ≠ []) (t : Option Str) (recs : List (List Str))
    (h : RecordFile win columns t recs) (hne : recs ≠ []) : t = some (linesText win (columns :: recs)) := by
  have hpos : ∀ recs, linesText win (columns :: recs) ≠ [] := by
    intro recs h
    simp only [linesText, List.flatMap_cons, List.append_eq_nil_iff] at h
    exact hcol h.1.1
  induction h with
  | absent => exact absurd rfl hne
  | empty => exact absurd rfl hne
  | @record old new recs items h1 h2 ih =>
    have ht : linesText win (columns :: (recs ++ [items])) = linesText win (columns :: recs) ++ (joinWith c!"," items ++ lineEnd win) := by
      simp [linesText]
    rw [ht]
    by_cases hr : recs = []
    · subst hr
      rcases h2 with ⟨_, h2⟩ | ⟨text, h2, h3, h4⟩
      · rw [h2]; simp [linesText]
      · exfalso
        rcases recordFile_nil h1 rfl with e | e <;> rw [e] at h2 <;> simp_all
    · have h5 := ih hr
      rcases h2 with ⟨h2, _⟩ | ⟨text, h2, h3, h4⟩
      · exfalso
        rw [h5] at h2
        rcases h2 with h2 | h2
        · cases h2
        · injection h2 with h2; exact hpos recs h2
      · rw [h5] at h2
        injection h2 with h2
        rw [h4, h2]

private theorem order_unconfigured (env : Env) (s : AX ν) (o : Order ν) (h : Unconfigured s.conf) : ∃ e, s.order env o = (s, .error e) := by
  have : ∃ e, orderFields s.conf env.now o = .error e := by
    simp only [orderFields, AXConf.account, bind, Except.bind]
    rcases h with h | h | h
    · rw [h]; exact ⟨_, rfl⟩
    · rw [h]; exact ⟨_, rfl⟩
    · cases s.conf.acctNo with
      | none => exact ⟨_, rfl⟩
      | some a =>
        by_cases ha : a = []
        · simp only [if_pos ha]; exact ⟨_, rfl⟩
        · simp only [if_neg ha, if_pos h]; exact ⟨_, rfl⟩
  obtain ⟨e, he⟩ := this
  exact ⟨e, by simp only [AX.order, he]⟩

private theorem appended_ne {columns items : List Str} {t : Option Str} (h : Appended false columns items t t) : False := by
  rcases h with ⟨h1 | h1, h2⟩ | ⟨text, h1, _, h2⟩
  · rw [h1] at h2; cases h2
  · rw [h1] at h2; injection h2 with h2; simp [lineEnd] at h2
  · rw [h1] at h2
    injection h2 with h2
    have := congrArg List.length h2
    simp [lineEnd] at this

/-- One step of a history, for the order file of a day. -/
theorem step_orders_file (D : Str) (a : Acct (AXG ν) ν) (op : AOp ν) (recs : List (List Str))
    (hwin : a.gate.ax.conf.win = false) (hnz : ∀ idn now code n st sd, op = .order idn now code n st sd → n ≠ 0)
    (hflush : ∀ e k, a.gate.cur.write ≠ .flush e k) (hday : a.gate.cur.day = D)
    (hext : ∀ fs, a.gate.cur.ext fs (.orders D) = fs (.orders D)) (h : RecordFile false orderColumns (a.gate.ax.files (.orders D)) recs) :
    ∃ new, RecordFile false orderColumns ((a.step (axGate ν) op).1.gate.ax.files (.orders D)) (recs ++ new) ∧
      (new = [] ∧ (∀ id, (a.step (axGate ν) op).2 ≠ .ok (some id)) ∧
        (∀ idn now code n st sd, op = .order idn now code n st sd → a.gate.cur.write ≠ .none ∨ Unconfigured a.gate.ax.conf ∨ ∀ enc, encodeSecurity code ≠ .ok enc) ∨
       ∃ idn now code n st sd enc items, op = .order idn now code n st sd ∧ new = [items] ∧ encodeSecurity code = .ok enc ∧
         OrderRecord a.gate.ax.conf a.gate.cur.now (natStr idn) enc n st items ∧
         ((a.step (axGate ν) op).2 = .ok none ∨ (a.step (axGate ν) op).2 = .ok (some (natStr idn))) ∧
         a.gate.cur.write = .none ∧ ¬ Unconfigured a.gate.ax.conf) := by
  have hready : a.gate.ready.files (.orders D) = a.gate.ax.files (.orders D) := hext _
  cases op with
  | order idn now code n st sd =>
    have hres : ∀ r, (a.step (axGate ν) (.order idn now code n st sd)).2 = r → (r = .ok none ∧ ∃ e, (a.gate.ready.order a.gate.cur (newOrder (natStr idn) now code n st)).2 = .error e) ∨ r = .ok (some (natStr idn)) ∧ (a.gate.ready.order a.gate.cur (newOrder (natStr idn) now code n st)).2 = .ok () := by
      intro r hr
      simp only [Acct.step] at hr
      rcases order_cases (axGate ν) idn now code n st sd a with ⟨g, e, h1, h2⟩ | ⟨g, h1, h2⟩
      · rw [h2] at hr
        exact .inl ⟨hr.symm, e, congrArg Prod.snd h1⟩
      · rw [h2] at hr
        exact .inr ⟨hr.symm, congrArg Prod.snd h1⟩
    have hgate : (a.step (axGate ν) (.order idn now code n st sd)).1.gate.ax = (a.gate.ready.order a.gate.cur (newOrder (natStr idn) now code n st)).1 := by
      simp only [Acct.step, order_gate]; rfl
    rw [hgate]
    have same : (a.gate.ready.order a.gate.cur (newOrder (natStr idn) now code n st)).1.files (.orders D) = a.gate.ready.files (.orders D) →
        (∃ e, (a.gate.ready.order a.gate.cur (newOrder (natStr idn) now code n st)).2 = .error e) →
        (a.gate.cur.write ≠ .none ∨ Unconfigured a.gate.ax.conf ∨ ∀ enc, encodeSecurity code ≠ .ok enc) →
        ∃ new, RecordFile false orderColumns ((a.gate.ready.order a.gate.cur (newOrder (natStr idn) now code n st)).1.files (.orders D)) (recs ++ new) ∧
      (new = [] ∧ (∀ id, (a.step (axGate ν) (.order idn now code n st sd)).2 ≠ .ok (some id)) ∧
        (∀ idn' now' code' n' st' sd', AOp.order idn now code n st sd = .order idn' now' code' n' st' sd' →
          a.gate.cur.write ≠ .none ∨ Unconfigured a.gate.ax.conf ∨ ∀ enc, encodeSecurity code' ≠ .ok enc) ∨
       ∃ idn' now' code' n' st' sd' enc items, AOp.order idn now code n st sd = .order idn' now' code' n' st' sd' ∧ new = [items] ∧ encodeSecurity code' = .ok enc ∧
         OrderRecord a.gate.ax.conf a.gate.cur.now (natStr idn') enc n' st' items ∧
         ((a.step (axGate ν) (.order idn now code n st sd)).2 = .ok none ∨ (a.step (axGate ν) (.order idn now code n st sd)).2 = .ok (some (natStr idn'))) ∧
         a.gate.cur.write = .none ∧ ¬ Unconfigured a.gate.ax.conf) := by
      intro h1 ⟨e, h2⟩ hwhy
      refine ⟨[], by rw [h1, hready, List.append_nil]; exact h, .inl ⟨rfl, ?_, by rintro _ _ _ _ _ _ ⟨⟩; exact hwhy⟩⟩
      intro id hid
      rcases hres _ hid with ⟨h3, _⟩ | ⟨_, h3⟩
      · cases h3
      · rw [h2] at h3; cases h3
    cases henc : encodeSecurity code with
    | error e =>
      obtain ⟨e', h1⟩ := ax_order_badcode a.gate.cur a.gate.ready now (natStr idn) code n st henc
      exact same (by rw [h1]) ⟨e', by rw [h1]⟩ (.inr (.inr (by simp [henc])))
    | ok enc =>
      rcases ax_order_cases a.gate.cur a.gate.ready now (natStr idn) code enc n st henc with ⟨e, h1, h0⟩ | ⟨acct, ha, hne, ⟨fs, e, h1, h2⟩ | ⟨fs, h1, h2⟩⟩
      · exact same (by rw [h1]) ⟨e, by rw [h1]⟩ (.inr (.inl h0))
      · -- the write failed: an empty file may have been made
        rw [hday] at h1
        cases hf : a.gate.cur.write with
        | none => rw [hf] at h1; simp [appendLine] at h1
        | flush e k => exact absurd hf (hflush e k)
        | «open» e' =>
          rw [hf] at h1
          simp only [appendLine] at h1
          injection h1 with h1 h3
          rw [hf] at same
          exact same (by rw [h2, ← h1]) ⟨e, by rw [h2]⟩ (.inl (by simp))
        | lock e' =>
          rw [hf] at h1
          simp only [appendLine] at h1
          injection h1 with h1 h3
          refine ⟨[], ?_, .inl ⟨rfl, ?_, fun _ _ _ _ _ _ _ => .inl (by simp)⟩⟩
          · rw [h2]
            show RecordFile false orderColumns (fs (.orders D)) _
            rw [← h1, Files.set_self, List.append_nil]
            rw [hready]
            cases ho : a.gate.ax.files (.orders D) with
            | none =>
              rw [ho] at h
              have : recs = [] := by
                cases h with
                | absent => rfl
                | record _ h2 => rcases h2 with ⟨_, h2⟩ | ⟨_, _, _, h2⟩ <;> cases h2
              subst this
              exact .empty
            | some t => rw [ho] at h; exact h
          · intro id hid
            rcases hres _ hid with ⟨h4, _⟩ | ⟨_, h4⟩
            · cases h4
            · rw [h2] at h4; cases h4
      · have hf := appendLine_ok h1
        rw [hf, hday] at h1
        have h5 := appendLine_text false (.orders D) orderColumns (newItems a.gate.ready.conf acct a.gate.cur.now (natStr idn) enc n st) a.gate.ready.files orderColumns_plain (by simp)
        rw [show a.gate.ready.conf.win = false from hwin, orderHeader_join] at h1
        rw [h1, hready] at h5
        refine ⟨[newItems a.gate.ready.conf acct a.gate.cur.now (natStr idn) enc n st], ?_, .inr ⟨idn, now, code, n, st, sd, enc, _, rfl, rfl, henc, newItems_record _ _ _ _ _ _ _ ha (hnz _ _ _ _ _ _ rfl), ?_, hf, ?_⟩⟩
        · rw [h2]
          show RecordFile false orderColumns ((saveOrders _ _ _ _).1 _) _
          rw [saveOrders_other _ _ _ _ (by simp) (by simp)]
          exact .record h h5.2
        · rcases hres _ rfl with ⟨h6, _⟩ | ⟨h6, _⟩
          · exact .inl h6
          · exact .inr h6
        · intro hun
          obtain ⟨e, h7⟩ := order_unconfigured a.gate.cur a.gate.ready (newOrder (natStr idn) now code n st) hun
          rw [h7] at h2
          injection h2 with h8 h9
          have h10 := congrArg AX.files h8
          have h11 := congrFun h10 (.orders D)
          have : a.gate.ready.files (.orders D) = (saveOrders a.gate.ready.conf.dataDay a.gate.cur (dset a.gate.ready.book (natStr idn) (newInfo (natStr idn) now code n st)) fs).1 (.orders D) := h11
          rw [saveOrders_other _ _ _ _ (by simp) (by simp)] at this
          have h12 : Appended false orderColumns _ (a.gate.ax.files (.orders D)) (fs (.orders D)) := h5.2
          rw [← this, hready] at h12
          exact appended_ne h12
  | cancel id =>
    refine ⟨[], ?_, .inl ⟨rfl, ?_, by simp⟩⟩
    · simp only [Acct.step, List.append_nil]
      rcases cancel_gate (axGate ν) id a with e | e <;> rw [e]
      · exact h
      · show RecordFile false orderColumns ((appendLine _ _ _ _ _ _).1 (.orders D)) recs
        rw [appendLine_other _ _ _ _ _ _ (by simp), hready]; exact h
    · intro i hi
      simp only [Acct.step] at hi
      cases hr : (a.cancel (axGate ν) id).2 <;> rw [hr] at hi <;> simp [Except.map] at hi
  | syncBalance =>
    refine ⟨[], ?_, .inl ⟨rfl, ?_, by simp⟩⟩
    · simp only [Acct.step, List.append_nil, syncBalance_gate]
      show RecordFile false orderColumns (a.gate.ready.files (.orders D)) recs
      rw [hready]; exact h
    · intro i hi
      simp only [Acct.step] at hi
      cases hr : (a.syncBalance (axGate ν)).2 <;> rw [hr] at hi <;> simp [Except.map] at hi
  | syncOrders =>
    refine ⟨[], ?_, .inl ⟨rfl, ?_, by simp⟩⟩
    · simp only [Acct.step, List.append_nil, syncOrders_gate]
      show RecordFile false orderColumns ((a.gate.ready.syncOrders a.gate.cur).1.files (.orders D)) recs
      rw [ax_syncOrders_files _ _ (by simp) (by simp), hready]; exact h
    · intro i hi
      simp only [Acct.step] at hi
      cases hr : (a.syncOrders (axGate ν)).2 <;> rw [hr] at hi <;> simp [Except.map] at hi

/-- In every history on one day, with this process as the only writer and whatever fails other than a disk filling up in
mid-line, the order file is the header followed by whole records: for every id that was returned its record, in order, and
otherwise only records of requested orders. -/
theorem c18_history_partial (D : Str) (ops : List (AOp ν)) (a : Acct (AXG ν) ν) (recs : List (List Str))
    (hwin : a.gate.ax.conf.win = false) (hnz : ∀ idn now code n st sd, .order idn now code n st sd ∈ ops → n ≠ 0)
    (hflush : ∀ i e k, (a.gate.env i).write ≠ .flush e k) (hday : ∀ i, (a.gate.env i).day = D)
    (hext : ∀ i fs, (a.gate.env i).ext fs (.orders D) = fs (.orders D)) (h : RecordFile false orderColumns (a.gate.ax.files (.orders D)) recs) :
    ∃ new, RecordFile false orderColumns ((a.run (axGate ν) ops).gate.ax.files (.orders D)) (recs ++ new) ∧
      (new.map (·[1]?)).Sublist ((requested ops).map some) ∧
      ((acknowledged (axGate ν) a ops).map some).Sublist (new.map (·[1]?)) ∧
      ∀ r ∈ new, ∃ i idn now code n st sd enc, .order idn now code n st sd ∈ ops ∧ encodeSecurity code = .ok enc ∧
        OrderRecord a.gate.ax.conf (a.gate.env i).now (natStr idn) enc n st r := by
  induction ops generalizing a recs with
  | nil => exact ⟨[], by simpa [Acct.run] using h, by simp [requested], by simp [acknowledged], by simp⟩
  | cons op ops ih =>
    obtain ⟨h1, h2⟩ := axg_step_static a op
    obtain ⟨new, h3, h4⟩ := step_orders_file D a op recs hwin (fun idn now code n st sd e => hnz idn now code n st sd (by simp [e]))
      (hflush _) (hday _) (hext _) h
    obtain ⟨new', g1, g2, g3, g4⟩ := ih (a.step (axGate ν) op).1 (recs ++ new) (by rw [h2]; exact hwin)
      (fun idn now code n st sd e => hnz idn now code n st sd (List.mem_cons_of_mem _ e)) (by rw [h1]; exact hflush) (by rw [h1]; exact hday)
      (by rw [h1]; exact hext) h3
    refine ⟨new ++ new', by rw [← List.append_assoc]; exact g1, ?_, ?_, ?_⟩
    · rcases h4 with ⟨rfl, _⟩ | ⟨idn, now, code, n, st, sd, enc, items, rfl, rfl, _, h5, _⟩
      · have : (requested ops).Sublist (requested (op :: ops)) := by
          cases op <;> simp [requested]
        exact g2.trans (this.map _)
      · simp only [requested, List.map_cons, List.singleton_append, h5.hId]
        exact g2.cons_cons _
    · rcases h4 with ⟨rfl, h5, _⟩ | ⟨idn, now, code, n, st, sd, enc, items, rfl, rfl, _, h5, h6, _⟩
      · have : acknowledged (axGate ν) a (op :: ops) = acknowledged (axGate ν) (a.step (axGate ν) op).1 ops := by
          rw [acknowledged]
          split
          · rename_i id hid; exact absurd hid (h5 id)
          · rfl
        rw [this]; exact g3
      · simp only [List.map_cons, List.singleton_append, h5.hId]
        rw [acknowledged]
        rcases h6 with h6 | h6 <;> rw [h6]
        · exact g3.cons _
        · simp only [List.map_cons]
          exact g3.cons_cons _
    · intro r hr
      rcases List.mem_append.1 hr with hr | hr
      · rcases h4 with ⟨rfl, _⟩ | ⟨idn, now, code, n, st, sd, enc, items, rfl, rfl, h7, h5, h6, _⟩
        · cases hr
        · rw [List.mem_singleton] at hr; subst hr
          exact ⟨_, idn, now, code, n, st, sd, enc, by simp, h7, h5⟩
      · obtain ⟨i, idn, now, code, n, st, sd, enc, e1, e2, e3⟩ := g4 r hr
        rw [h1, h2] at e3
        exact ⟨i, idn, now, code, n, st, sd, enc, List.mem_cons_of_mem _ e1, e2, e3⟩


/-! ### Examples -/

/-- A gate for examples: nothing on disk yet. -/
def demoConf (win : Bool) : AXConf := { acctNo := some c!"88", dataDay := c!"20240102", win := win }

def demoEnv : Env := { now := ⟨2024, 1, 2, 9, 30, 0, 25⟩, day := c!"20240102" }

def demoCtx (win : Bool) (env : Nat → Env) : Ctx (AXG Int) Int :=
  ⟨true, some (Acct.init ⟨AX.setup (demoConf win) fun _ => none, env, 0⟩)⟩

/-- The order file of the context. -/
def Ctx.orderFile (x : Ctx (AXG Int) Int) (day : Str) : Option Str := x.acct.bind fun a => a.gate.ax.files (.orders day)

def Ctx.cancelFile (x : Ctx (AXG Int) Int) (day : Str) : Option Str := x.acct.bind fun a => a.gate.ax.files (.cancels day)

/-- Non-vacuity of C18: a limit sell of 300. -/
example : ((demoCtx false fun _ => demoEnv).order (axGate Int) (fun _ => false) 7 demoEnv.now c!"600000.XSHG" (.int (-300)) (.style (.limit 12)) .falsy).2
      = .ok (some c!"7") ∧
    ((demoCtx false fun _ => demoEnv).order (axGate Int) (fun _ => false) 7 demoEnv.now c!"600000.XSHG" (.int (-300)) (.style (.limit 12)) .falsy).1.orderFile c!"20240102"
      = some (orderHeader ++ c!"\n093000.000025,7,UM0,88,600000.SH,2,300,DMA,AT,0,12,12\n") := by decide +kernel

/-- A history: a lock time-out, two accepted orders, a cancel. -/
private def demoOps : List (AOp Int) :=
  [.order 1 demoEnv.now c!"600000.XSHG" 100 (.market 0) .long, .order 2 demoEnv.now c!"000001.XSHE" (-200) (.limit 5) .long, .cancel c!"2",
   .order 3 demoEnv.now c!"000001.XSHE" 200 (.market 0) .long]

private def demoRun : Acct (AXG Int) Int :=
  Acct.init ⟨AX.setup (demoConf false) fun _ => none, fun i => if i = 0 then { demoEnv with write := .lock .timeOut } else demoEnv, 0⟩

example : (∀ i e k, (demoRun.gate.env i).write ≠ .flush e k) ∧ RecordFile false orderColumns (demoRun.gate.ax.files (.orders c!"20240102")) [] ∧
    acknowledged (axGate Int) demoRun demoOps = [c!"2", c!"3"] := by
  refine ⟨?_, .absent, by decide +kernel⟩
  intro i e k
  simp only [demoRun, Acct.init]
  split <;> simp [demoEnv]

/-- On Windows every record is followed by an empty line: `os.linesep` is written in text mode. -/
theorem c18_windows_blank_lines_refuted :
    ∃ text, ((demoCtx true fun _ => demoEnv).order (axGate Int) (fun _ => false) 7 demoEnv.now c!"600000.XSHG" (.int 100) .falsy .falsy).1.orderFile c!"20240102"
      = some text ∧ (rawLines text).map (·.1) = [orderHeader, [], c!"093000.000025,7,UM0,88,600000.SH,1,100,DMA,P6,0,0,0", []] :=
  ⟨orderHeader ++ c!"\r\r\n093000.000025,7,UM0,88,600000.SH,1,100,DMA,P6,0,0,0\r\r\n", by decide +kernel, by decide +kernel⟩

/-! ## C35 -/

private theorem plain_of_digits {s : Str} (h : ∀ c ∈ s, isDig c = true) : PlainField s := by
  refine ⟨fun hc => ?_, fun hc => ?_, fun hc => ?_⟩ <;> exact absurd (h _ hc) (by decide)

private theorem plain_append {s t : Str} (hs : PlainField s) (ht : PlainField t) : PlainField (s ++ t) := by
  obtain ⟨h1, h2, h3⟩ := hs
  obtain ⟨g1, g2, g3⟩ := ht
  simp only [PlainField, List.mem_append]
  exact ⟨fun h => h.elim h1 g1, fun h => h.elim h2 g2, fun h => h.elim h3 g3⟩

private theorem plain_cons {c : Char} {t : Str} (hs : PlainField [c]) (ht : PlainField t) : PlainField (c :: t) :=
  plain_append hs ht

private theorem plain_two {n : Nat} (h : n < 100) : PlainField (two n) :=
  plain_of_digits (by have := two_all n h; rwa [List.all_eq_true] at this)

theorem hmsf_plain {t : DT} (h : t.valid = true) : PlainField t.hmsf := by
  simp only [DT.valid, Bool.and_eq_true, decide_eq_true_eq] at h
  obtain ⟨⟨⟨⟨_, h1⟩, h2⟩, h3⟩, h4⟩ := h
  refine plain_append (plain_two (by omega)) (plain_append (plain_two (by omega)) (plain_append (plain_two (by omega)) (plain_cons ?_ ?_)))
  · refine ⟨by decide, by decide, by decide⟩
  · exact plain_append (plain_append (plain_two (by omega)) (plain_two (by omega))) (plain_two (by omega))

private theorem digitU_plain {udig : Char → Bool} {s : Str} (h : ∀ c ∈ s, isDigitU udig c = true) : PlainField s := by
  have key : ∀ d : Char, d.toNat < 128 → isDig d = false → d ∉ s := by
    intro d h1 h2 hd
    have := h d hd
    simp only [isDigitU, h2, Bool.false_or, Bool.and_eq_true, decide_eq_true_eq] at this
    omega
  exact ⟨key _ (by decide) (by decide), key _ (by decide) (by decide), key _ (by decide) (by decide)⟩

private theorem broker_plain {udig : Char → Bool} {code enc : Str} (h : BrokerCode udig code enc) (hc : PlainField code) : PlainField enc := by
  obtain ⟨stem, sep, _, hd, ⟨rfl, rfl⟩ | ⟨rfl, rfl⟩⟩ := h
  all_goals
    refine plain_append (digitU_plain hd) (plain_cons ?_ ⟨by decide, by decide, by decide⟩)
    obtain ⟨h1, h2, h3⟩ := hc
    simp only [List.mem_append, List.mem_cons, not_or] at h1 h2 h3
    exact ⟨by simpa using h1.2.1, by simpa using h2.2.1, by simpa using h3.2.1⟩

/-- The fields of a record are plain when what goes into them is. -/
theorem record_plain [GateNum ν] {conf : AXConf} {t : DT} {id enc : Str} {n : Int} {st : Style ν} {items : List Str}
    (h : OrderRecord conf t id enc n st items) (ht : t.valid = true) (hid : PlainField id) (he : PlainField enc) (h1 : PlainField conf.counter)
    (h2 : ∀ a, conf.acctNo = some a → PlainField a) (h3 : PlainField conf.algo) (h4 : ∀ p, st = .limit p → PlainField (GateNum.str p)) :
    ∀ f ∈ items, PlainField f := by
  obtain ⟨hl, e0, e1, e2, e3, e4, e5, e6, e7, e8⟩ := h
  match items, hl with
  | [i0, i1, i2, i3, i4, i5, i6, i7, i8, i9, i10, i11], _ =>
    simp only [List.getElem?_cons_zero, List.getElem?_cons_succ, Option.some.injEq, List.drop_succ_cons, List.drop_zero] at e0 e1 e2 e3 e4 e5 e6 e7 e8
    have hp : ∀ f ∈ [i8, i9, i10, i11], PlainField f := by
      cases e8 with
      | marketBuy p _ => intro f hf; revert hf; simp only [List.mem_cons, List.not_mem_nil, or_false]; rintro (rfl | rfl | rfl | rfl) <;> exact ⟨by decide, by decide, by decide⟩
      | marketSell p _ => intro f hf; revert hf; simp only [List.mem_cons, List.not_mem_nil, or_false]; rintro (rfl | rfl | rfl | rfl) <;> exact ⟨by decide, by decide, by decide⟩
      | limit p =>
        intro f hf
        simp only [List.mem_cons, List.not_mem_nil, or_false] at hf
        rcases hf with rfl | rfl | rfl | rfl
        · exact ⟨by decide, by decide, by decide⟩
        · exact ⟨by decide, by decide, by decide⟩
        · exact h4 p rfl
        · exact h4 p rfl
    intro f hf
    simp only [List.mem_cons, List.not_mem_nil, or_false] at hf
    rcases hf with rfl | rfl | rfl | rfl | rfl | rfl | rfl | rfl | hf
    · rw [e0]; exact hmsf_plain ht
    · rw [e1]; exact hid
    · rw [e2]; exact h1
    · exact h2 _ e3.symm
    · rw [e4]; exact he
    · rcases e5 with ⟨_, e⟩ | ⟨_, e⟩ <;> rw [e] <;> exact ⟨by decide, by decide, by decide⟩
    · obtain ⟨k, _, e⟩ := e6
      rw [e]; exact plain_of_digits (natStr_digits k)
    · rw [e7]; exact h3
    · exact hp f (by simpa using hf)

/-- With a code that contains no comma and no line end (and such configured texts and prices), the line of an accepted order
is one line of exactly twelve comma-separated fields: those of the record. -/
theorem c35_twelve_fields_partial (udig : Char → Bool) (idn : Nat) (now : DT) (code : Str) (amount : AmtArg) (style : StyleArg ν)
    (side : SideArg) (x : Ctx (AXG ν) ν) (id : Str) (h : (x.order (axGate ν) udig idn now code amount style side).2 = .ok (some id))
    (hcode : PlainField code) (hprice : ∀ p, style = .style (.limit p) → PlainField (GateNum.str p))
    (hconf : ∀ a, x.acct = some a → PlainField a.gate.ax.conf.counter ∧ PlainField a.gate.ax.conf.algo ∧
      (∀ n, a.gate.ax.conf.acctNo = some n → PlainField n) ∧ a.gate.cur.now.valid = true) :
    ∃ a a' old line, x.acct = some a ∧ (x.order (axGate ν) udig idn now code amount style side).1.acct = some a' ∧
      a'.gate.ax.files (.orders a.gate.cur.day) = some (old ++ (line ++ lineEnd a.gate.ax.conf.win)) ∧
      (old = (a.gate.ready.files (.orders a.gate.cur.day)).getD [] ∨ old = joinWith c!"," orderColumns ++ lineEnd a.gate.ax.conf.win) ∧
      '\n' ∉ line ∧ '\r' ∉ line ∧ (splitOn ',' line).length = 12 ∧ (splitOn ',' line)[1]? = some id := by
  obtain ⟨a, a', n, st, sd, enc, items, h1, h2, h3, h4, h5, h6, h7, _⟩ := c18_one_record_partial udig idn now code amount style side x id h
  obtain ⟨c1, c2, c3, c4⟩ := hconf a h1
  have hpl : ∀ f ∈ items, PlainField f := by
    refine record_plain h6 c4 ?_ (broker_plain h4 hcode) c1 c3 c2 ?_
    · rw [h5]; exact plain_of_digits (natStr_digits idn)
    · intro p hp
      rcases h3.2.2.1 with ⟨_, e⟩ | e
      · rw [e] at hp; cases hp
      · rw [hp] at e; exact hprice p e
  have hne : items ≠ [] := by intro e; have := h6.columns; rw [e] at this; cases this
  have hsplit : splitOn ',' (joinWith c!"," items) = items := splitOn_joinWith hne fun p hp => (hpl p hp).1
  have hmem : ∀ (c : Char), c ≠ ',' → (∀ f ∈ items, c ∉ f) → c ∉ joinWith c!"," items := by
    intro c hc
    clear hsplit hne hpl h6 h7
    induction items with
    | nil => intro _; simp [joinWith]
    | cons b l ih =>
      intro hl
      cases l with
      | nil => simpa [joinWith] using hl b (by simp)
      | cons d l =>
        simp only [joinWith, List.mem_append, not_or]
        exact ⟨⟨hl b (by simp), by simpa using hc⟩, ih fun s hs => hl s (List.mem_cons_of_mem _ hs)⟩
  have hrest : '\n' ∉ joinWith c!"," items ∧ '\r' ∉ joinWith c!"," items ∧ (splitOn ',' (joinWith c!"," items)).length = 12 ∧
      (splitOn ',' (joinWith c!"," items))[1]? = some id :=
    ⟨hmem _ (by decide) fun f hf => (hpl f hf).2.1, hmem _ (by decide) fun f hf => (hpl f hf).2.2, by rw [hsplit]; exact h6.columns, by rw [hsplit]; exact h6.hId⟩
  rcases h7 (fun _ f hf => (hpl f hf).2.1) with ⟨_, h8⟩ | ⟨text, h8, _, h9⟩
  · exact ⟨a, a', _, joinWith c!"," items, h1, h2, h8, .inr rfl, hrest⟩
  · exact ⟨a, a', text, joinWith c!"," items, h1, h2, h9, .inl (by rw [h8]; rfl), hrest⟩

example : PlainField c!"600000.XSHG" ∧ PlainField (demoConf false).counter ∧ demoEnv.now.valid = true :=
  ⟨⟨by decide, by decide, by decide⟩, ⟨by decide, by decide, by decide⟩, by decide⟩

/-- The code `600000,XSHG` is accepted and its record has thirteen fields. -/
theorem c35_comma_code_refuted : ∃ line,
    ((demoCtx false fun _ => demoEnv).order (axGate Int) (fun _ => false) 7 demoEnv.now c!"600000,XSHG" (.int 100) .falsy .falsy).2 = .ok (some c!"7") ∧
    ((demoCtx false fun _ => demoEnv).order (axGate Int) (fun _ => false) 7 demoEnv.now c!"600000,XSHG" (.int 100) .falsy .falsy).1.orderFile c!"20240102"
      = some (orderHeader ++ '\n' :: (line ++ c!"\n")) ∧ (splitOn ',' line).length = 13 :=
  ⟨c!"093000.000025,7,UM0,88,600000,SH,1,100,DMA,P6,0,0,0", by decide +kernel, by decide +kernel, by decide +kernel⟩

/-- With a line end as separator the record even becomes two lines. -/
theorem c35_newline_code_refuted :
    ((demoCtx false fun _ => demoEnv).order (axGate Int) (fun _ => false) 7 demoEnv.now c!"600000\nXSHG" (.int 100) .falsy .falsy).2 = .ok (some c!"7") ∧
    ((demoCtx false fun _ => demoEnv).order (axGate Int) (fun _ => false) 7 demoEnv.now c!"600000\nXSHG" (.int 100) .falsy .falsy).1.orderFile c!"20240102"
      = some (orderHeader ++ c!"\n093000.000025,7,UM0,88,600000\nSH,1,100,DMA,P6,0,0,0\n") := by
  constructor <;> decide +kernel

/-! ## C19 -/

/-- The gate itself refuses an order whose side is not `long`, before anything is written. -/
theorem c19_gate_refuses_partial (env : Env) (o : Order ν) (s : AX ν) (h : o.side ≠ some .long) : ∃ e, s.order env o = (s, .error e) := by
  have : ∃ e, orderFields s.conf env.now o = .error e := by
    simp only [orderFields, bind, Except.bind]
    split
    · exact ⟨_, rfl⟩
    · split
      · exact ⟨_, rfl⟩
      · exact ⟨_, rfl⟩
  obtain ⟨e, he⟩ := this
  exact ⟨e, by simp only [AX.order, he]⟩

example : (newOrder c!"7" demoEnv.now c!"600000.XSHG" 100 (.market (0 : Int))).side = some .long ∧
    ({ newOrder c!"7" demoEnv.now c!"600000.XSHG" 100 (.market (0 : Int)) with side := some .short } : Order Int).side ≠ some .long := by decide

/-- But `order(..., side='short')` sends a long-side buy to the broker. -/
theorem c19_short_sent_as_long_refuted :
    ((demoCtx false fun _ => demoEnv).order (axGate Int) (fun _ => false) 7 demoEnv.now c!"600000.XSHG" (.int 100) .falsy (.str c!"short")).2 = .ok (some c!"7") ∧
    ((demoCtx false fun _ => demoEnv).order (axGate Int) (fun _ => false) 7 demoEnv.now c!"600000.XSHG" (.int 100) .falsy (.str c!"short")).1.orderFile c!"20240102"
      = ((demoCtx false fun _ => demoEnv).order (axGate Int) (fun _ => false) 7 demoEnv.now c!"600000.XSHG" (.int 100) .falsy (.str c!"long")).1.orderFile c!"20240102" := by
  constructor <;> decide +kernel

/-! ## C21 -/

/-- When `order()` returns `None`, either nothing was written, or the disk filled up in mid-line, or the record was written
but the order book could not be saved. -/
theorem c21_none_partial (udig : Char → Bool) (idn : Nat) (now : DT) (code : Str) (amount : AmtArg) (style : StyleArg ν)
    (side : SideArg) (x : Ctx (AXG ν) ν) (h : (x.order (axGate ν) udig idn now code amount style side).2 = .ok none) :
    ∃ a a', x.acct = some a ∧ (x.order (axGate ν) udig idn now code amount style side).1.acct = some a' ∧
      (((∀ f, (a'.gate.ax.files f).getD [] = (a.gate.ready.files f).getD []) ∧ a'.gate.ax.book = a.gate.ax.book) ∨
       (∃ e k, a.gate.cur.write = .flush e k) ∨
       (a.gate.cur.write = .none ∧ (a.gate.cur.save ≠ .none ∨ Store.dump a'.gate.ax.book = none))) := by
  obtain ⟨a, n, st, sd, h1, h2, h3, h4⟩ := ctx_order h
  refine ⟨a, _, h1, h3, ?_⟩
  obtain ⟨enc, he1, he2⟩ := c34_encoded udig code h2.1
  rcases order_cases (axGate ν) idn now code n st sd a with ⟨g, e, h5, h6⟩ | ⟨g, h5, h6⟩
  case inr => rw [h6] at h4; cases h4
  have hg : (a.order (axGate ν) idn now code n st sd).1.gate.ax = (a.gate.ready.order a.gate.cur (newOrder (natStr idn) now code n st)).1 := by
    rw [order_gate]; rfl
  have herr : (a.gate.ready.order a.gate.cur (newOrder (natStr idn) now code n st)).2 = .error e := congrArg Prod.snd h5
  rw [hg]
  rcases ax_order_cases a.gate.cur a.gate.ready now (natStr idn) code enc n st he1 with ⟨e, g1, _⟩ | ⟨acct, ha, hne, ⟨fs, e, g1, g2⟩ | ⟨fs, g1, g2⟩⟩
  · rw [g1]; exact .inl ⟨fun f => rfl, rfl⟩
  · cases hf : a.gate.cur.write with
    | none => rw [hf] at g1; simp [appendLine] at g1
    | flush e k => exact .inr (.inl ⟨e, k, rfl⟩)
    | «open» e' =>
      rw [hf] at g1
      simp only [appendLine] at g1
      injection g1 with g1 _
      rw [g2, ← g1]; exact .inl ⟨fun f => rfl, rfl⟩
    | lock e' =>
      rw [hf] at g1
      simp only [appendLine] at g1
      injection g1 with g1 _
      rw [g2, ← g1]
      refine .inl ⟨fun f => ?_, rfl⟩
      simp only [Files.set]
      split
      · rename_i e; rw [e]; rfl
      · rfl
  · refine .inr (.inr ⟨appendLine_ok g1, ?_⟩)
    rw [g2] at herr ⊢
    simp only at herr ⊢
    cases hs : a.gate.cur.save with
    | none =>
      right
      cases hd : Store.dump (dset a.gate.ready.book (natStr idn) (newInfo (natStr idn) now code n st)) with
      | none => rfl
      | some text => simp only [saveOrders, hs, hd] at herr; cases herr
    | «open» e => left; simp
    | write e k => left; simp
    | move e => left; simp
    | copy e k => left; simp
    | unlink e => left; simp

/-- A gate without an account number: `None`, nothing written. -/
example : (({ demoCtx false fun _ => demoEnv with acct := some (Acct.init ⟨AX.setup { demoConf false with acctNo := none } fun _ => none, fun _ => demoEnv, 0⟩) } :
    Ctx (AXG Int) Int).order (axGate Int) (fun _ => false) 7 demoEnv.now c!"600000.XSHG" (.int 100) .falsy .falsy).2 = .ok none := by decide +kernel

/-- `order()` returns `None` although the record was written and the broker will execute it: saving the order book failed. -/
theorem c21_written_but_none_refuted :
    ((demoCtx false fun _ => { demoEnv with save := .write .osError 3 }).order (axGate Int) (fun _ => false) 7 demoEnv.now c!"600000.XSHG" (.int 100) .falsy .falsy).2 = .ok none ∧
    ((demoCtx false fun _ => { demoEnv with save := .write .osError 3 }).order (axGate Int) (fun _ => false) 7 demoEnv.now c!"600000.XSHG" (.int 100) .falsy .falsy).1.orderFile c!"20240102"
      = some (orderHeader ++ c!"\n093000.000025,7,UM0,88,600000.SH,1,100,DMA,P6,0,0,0\n") := by
  constructor <;> decide +kernel

/-- The same without any failing system call: a price that `json` cannot serialise (such as a `Decimal`). -/
theorem c21_unserialisable_price_refuted :
    ((demoCtx false fun _ => demoEnv).order (axGate Int) (fun _ => false) 7 demoEnv.now c!"600000.XSHG" (.int 100) (.style (.limit 666)) .falsy).2 = .ok none ∧
    ((demoCtx false fun _ => demoEnv).order (axGate Int) (fun _ => false) 7 demoEnv.now c!"600000.XSHG" (.int 100) (.style (.limit 666)) .falsy).1.orderFile c!"20240102"
      = some (orderHeader ++ c!"\n093000.000025,7,UM0,88,600000.SH,1,100,DMA,AT,0,666,666\n") := by
  constructor <;> decide +kernel


/-! ## C23 -/

private theorem cancelHeader_join : cancelHeader = joinWith c!"," cancelColumns := by decide

private theorem cancelColumns_plain : ∀ s ∈ cancelColumns, '\n' ∉ s := by decide

/-- What the gate's `cancel_order` does when the file can be written. -/
theorem gate_cancel_record (g : AXG ν) (id : Str) (hw : g.cur.write = .none) (hid : g.ax.conf.win = true → '\n' ∉ id ∧ '\n' ∉ g.cur.now.hmsf) :
    Appended g.ax.conf.win cancelColumns [g.cur.now.hmsf, id] (g.ready.files (.cancels g.cur.day)) (((axGate ν).cancel g id).1.ax.files (.cancels g.cur.day)) ∧
    (∀ f, f ≠ .cancels g.cur.day → ((axGate ν).cancel g id).1.ax.files f = g.ready.files f) ∧
    ((axGate ν).cancel g id).1.ax.book = g.ax.book ∧ ((axGate ν).cancel g id).2 = .ok () := by
  have h := appendLine_text g.ax.conf.win (.cancels g.cur.day) cancelColumns [g.cur.now.hmsf, id] g.ready.files cancelColumns_plain (by
    intro hwin s hs
    simp only [List.mem_cons, List.not_mem_nil, or_false] at hs
    rcases hs with rfl | rfl
    · exact (hid hwin).2
    · exact (hid hwin).1)
  rw [← cancelHeader_join] at h
  refine ⟨?_, ?_, rfl, ?_⟩
  · simp only [axGate, AXG.next, AX.cancel]
    rw [hw]; exact h.2
  · intro f hf
    simp only [axGate, AXG.next, AX.cancel]
    exact appendLine_other _ _ _ _ _ _ hf
  · simp only [axGate, AX.cancel]
    rw [hw]; exact h.1

/-- `cancel_order` of an id that the account knows appends exactly one record with this id to the cancel file (when it can be
written) and changes no other file; an unknown id changes nothing at all. -/
theorem c23_cancel_record (a : Acct (AXG ν) ν) (hwf : a.WF) (id : Str) :
    (a.find id = none → (a.cancel (axGate ν) id).1 = a) ∧
    (a.find id ≠ none → a.gate.cur.write = .none → (a.gate.ax.conf.win = true → '\n' ∉ id ∧ '\n' ∉ a.gate.cur.now.hmsf) →
      Appended a.gate.ax.conf.win cancelColumns [a.gate.cur.now.hmsf, id] (a.gate.ready.files (.cancels a.gate.cur.day))
        ((a.cancel (axGate ν) id).1.gate.ax.files (.cancels a.gate.cur.day)) ∧
      (∀ f, f ≠ .cancels a.gate.cur.day → (a.cancel (axGate ν) id).1.gate.ax.files f = a.gate.ready.files f) ∧
      (∀ i, (a.cancel (axGate ν) id).1.find i = a.find i)) := by
  rw [c23_cancel_forwards_known _ _ _ hwf]
  constructor
  · intro h; rw [h]; rfl
  · intro h hw hid
    have hs : (a.find id).isSome = true := by cases hf : a.find id <;> simp_all
    rw [if_pos hs]
    obtain ⟨h1, h2, _, _⟩ := gate_cancel_record a.gate id hw hid
    exact ⟨h1, h2, fun i => rfl⟩

/-- `batch_cancel_orders` appends one record for each known id, in turn, and nothing else. -/
theorem c23_batch_records (D : Str) (ids : List Str) (x : Ctx (AXG ν) ν) (a : Acct (AXG ν) ν) (hwf : a.WF) (hu : x.useAccount = true)
    (ha : x.acct = some a) (recs : List (List Str)) (hwin : a.gate.ax.conf.win = false) (hw : ∀ i, (a.gate.env i).write = .none)
    (hday : ∀ i, (a.gate.env i).day = D) (hext : ∀ i fs f, (a.gate.env i).ext fs f = fs f)
    (h : RecordFile false cancelColumns (a.gate.ax.files (.cancels D)) recs) :
    ∃ a' new, (Ctx.batchCancel (axGate ν) ids x).1.acct = some a' ∧
      RecordFile false cancelColumns (a'.gate.ax.files (.cancels D)) (recs ++ new) ∧
      (∀ r ∈ new, r.length = 2) ∧ new.map (·[1]?) = (ids.filter fun id => (a.find id).isSome).map some ∧
      (∀ f, f ≠ .cancels D → a'.gate.ax.files f = a.gate.ax.files f) ∧ a'.gate.ax.book = a.gate.ax.book ∧ (∀ i, a'.find i = a.find i) := by
  rw [c23_batch_forwards_known _ _ _ _ hwf hu ha]
  have key : ∀ (ids : List Str) (g : AXG ν) (recs : List (List Str)), g.ax.conf.win = false → (∀ i, (g.env i).write = .none) → (∀ i, (g.env i).day = D) →
      (∀ i fs f, (g.env i).ext fs f = fs f) → RecordFile false cancelColumns (g.ax.files (.cancels D)) recs →
      ∃ new, RecordFile false cancelColumns ((ids.foldl (fun g id => ((axGate ν).cancel g id).1) g).ax.files (.cancels D)) (recs ++ new) ∧
        (∀ r ∈ new, r.length = 2) ∧ new.map (·[1]?) = ids.map some ∧
        (∀ f, f ≠ .cancels D → (ids.foldl (fun g id => ((axGate ν).cancel g id).1) g).ax.files f = g.ax.files f) ∧
        (ids.foldl (fun g id => ((axGate ν).cancel g id).1) g).ax.book = g.ax.book := by
    intro ids
    induction ids with
    | nil => intro g recs _ _ _ _ h; exact ⟨[], by simpa using h, by simp, rfl, fun _ _ => rfl, rfl⟩
    | cons id ids ih =>
      intro g recs h1 h2 h3 h4 h5
      obtain ⟨r1, r2, r3, _⟩ := gate_cancel_record g id (h2 _) (by rw [h1]; simp)
      have hd : g.cur.day = D := h3 _
      have hr : g.ready.files = g.ax.files := funext fun f => h4 _ _ _
      rw [hd, hr, h1] at r1
      rw [hd, hr] at r2
      obtain ⟨new, n1, n2, n3, n4, n5⟩ := ih ((axGate ν).cancel g id).1 (recs ++ [[g.cur.now.hmsf, id]]) h1 h2 h3 h4 (.record h5 r1)
      refine ⟨[g.cur.now.hmsf, id] :: new, ?_, ?_, ?_, ?_, ?_⟩
      · simpa using n1
      · intro r hr
        rcases List.mem_cons.1 hr with rfl | hr
        · rfl
        · exact n2 r hr
      · simp [n3]
      · intro f hf
        rw [List.foldl_cons, n4 f hf, r2 f hf]
      · rw [List.foldl_cons, n5, r3]
  obtain ⟨new, n1, n2, n3, n4, n5⟩ := key (ids.filter fun id => (a.find id).isSome) a.gate recs hwin hw hday hext h
  exact ⟨_, new, rfl, n1, n2, n3, n4, n5, fun i => rfl⟩

/-- Non-vacuity: two known orders and an unknown id. -/
example :
    let x := ((demoCtx false fun _ => demoEnv).order (axGate Int) (fun _ => false) 7 demoEnv.now c!"600000.XSHG" (.int 100) .falsy .falsy).1
    let y := (x.order (axGate Int) (fun _ => false) 8 demoEnv.now c!"600000.XSHG" (.int 100) .falsy .falsy).1
    (Ctx.batchCancel (axGate Int) [c!"8", c!"99", c!"7"] y).1.cancelFile c!"20240102"
      = some (c!"updTime,custBatchNo\n093000.000025,8\n093000.000025,7\n") := by decide +kernel

/-! ## C57 -/

private theorem bookMembers_isSome {ν : Type} [JsonNum ν] (b : Book ν) : (bookMembers b).isSome ↔ ∀ e ∈ b, (infoJV e.2).isSome := by
  induction b with
  | nil => simp [bookMembers]
  | cons e b ih =>
    obtain ⟨k, o⟩ := e
    simp only [bookMembers, List.mem_cons, forall_eq_or_imp, ← ih]
    cases infoJV o <;> cases bookMembers b <;> simp

private theorem newInfo_json {ν : Type} [CellNum ν] [JsonNum ν] (id : Str) (now : DT) (code : Str) (n : Int) (st : Style ν) (h1 : (JsonNum.repr st.price).isSome)
    (h2 : (JsonNum.repr (PyNum.zero : ν)).isSome) : (infoJV (newInfo id now code n st)).isSome := by
  obtain ⟨l1, h1⟩ := Option.isSome_iff_exists.1 h1
  obtain ⟨l2, h2⟩ := Option.isSome_iff_exists.1 h2
  simp [infoJV, infoFields, newInfo, jvStr, jvNum, jvInt, jvStyle, jvDt, orNull, collect, h1, h2]

private theorem mem_dset_of {β : Type} {d : Dict Str β} {k : Str} {v : β} {e : Str × β} (h : e ∈ dset d k v) : e = (k, v) ∨ e ∈ d := by
  induction d with
  | nil => simpa [dset] using h
  | cons x d ih =>
    obtain ⟨k', v'⟩ := x
    rw [dset] at h
    split at h
    · rename_i hk
      rcases List.mem_cons.1 h with h | h
      · exact .inl (by rw [h, hk])
      · exact .inr (List.mem_cons_of_mem _ h)
    · rcases List.mem_cons.1 h with h | h
      · exact .inr (by simp [h])
      · rcases ih h with h | h
        · exact .inl h
        · exact .inr (List.mem_cons_of_mem _ h)

/-- Whatever happened before: when the file and the order book can be written, an order is accepted, its id is returned and
the data file holds the whole order book, with this order and every earlier one. -/
theorem c57_later_orders_partial {ν : Type} [CellNum ν] [JsonNum ν] (udig : Char → Bool) (idn : Nat) (now : DT) (code : Str) (n : Int) (st : Style ν)
    (x : Ctx (AXG ν) ν) (a : Acct (AXG ν) ν) (acct : Str) (hu : x.useAccount = true) (ha : x.acct = some a) (hcode : ValidCode udig code) (hn : n ≠ 0)
    (hno : a.gate.ax.conf.acctNo = some acct) (hne : acct ≠ []) (hty : a.gate.ax.conf.acctType = c!"STOCK")
    (hw : a.gate.cur.write = .none) (hs : a.gate.cur.save = .none)
    (hbook : ∀ id i, (id, i) ∈ a.gate.ax.book → (infoJV i).isSome) (hprice : (JsonNum.repr st.price).isSome)
    (hzero : (JsonNum.repr (PyNum.zero : ν)).isSome) :
    (x.order (axGate ν) udig idn now code (.int n) (.style st) .falsy).2 = .ok (some (natStr idn)) ∧
    ∃ a' i, (x.order (axGate ν) udig idn now code (.int n) (.style st) .falsy).1.acct = some a' ∧ i.orderId = some (natStr idn) ∧
      a'.gate.ax.book = dset a.gate.ax.book (natStr idn) i ∧
      (dumpBook a'.gate.ax.book).isSome ∧ a'.gate.ax.files (.data a.gate.ax.conf.dataDay) = dumpBook a'.gate.ax.book := by
  obtain ⟨enc, he1, he2⟩ := c34_encoded udig code hcode
  have hv : checkRequest udig code (.int n) (.style st) .falsy = .ok (n, st, .long) :=
    (c17_accepts_valid ..).2 ⟨hcode, ⟨rfl, hn⟩, .inr rfl, .inl ⟨rfl, rfl⟩⟩
  have hacc : x.account = .ok a := by simp [Ctx.account, hu, ha]
  have hx : x.order (axGate ν) udig idn now code (.int n) (.style st) .falsy =
      ({ x with acct := some (a.order (axGate ν) idn now code n st .long).1 }, (a.order (axGate ν) idn now code n st .long).2) := by
    simp only [Ctx.order, hv, hacc]
  rw [hx]
  obtain ⟨text, htext⟩ : ∃ text, dumpBook (dset a.gate.ax.book (natStr idn) (newInfo (natStr idn) now code n st)) = some text := by
    have : (bookMembers (dset a.gate.ax.book (natStr idn) (newInfo (natStr idn) now code n st))).isSome := by
      rw [bookMembers_isSome]
      intro e he
      rcases mem_dset_of he with rfl | he
      · exact newInfo_json _ _ _ _ _ hprice hzero
      · exact hbook e.1 e.2 he
    obtain ⟨ms, hms⟩ := Option.isSome_iff_exists.1 this
    exact ⟨_, by simp only [dumpBook, hms]; rfl⟩
  have hok : ∃ fs, a.gate.ready.order a.gate.cur (newOrder (natStr idn) now code n st) =
      ({ a.gate.ready with book := dset a.gate.ax.book (natStr idn) (newInfo (natStr idn) now code n st), files := fs }, .ok ()) ∧
      fs (.data a.gate.ax.conf.dataDay) = some text := by
    rcases ax_order_cases a.gate.cur a.gate.ready now (natStr idn) code enc n st he1 with ⟨e, _, g1⟩ | ⟨acct', ha', hne', ⟨fs, e, g1, g2⟩ | ⟨fs, g1, g2⟩⟩
    · exfalso
      have e1 : a.gate.ready.conf = a.gate.ax.conf := rfl
      rw [e1, hno, hty] at g1
      rcases g1 with g1 | g1 | g1
      · cases g1
      · injection g1 with g1; exact hne g1
      · exact g1 rfl
    · exfalso
      rw [hw] at g1
      simp [appendLine] at g1
    · have e2 : saveOrders a.gate.ready.conf.dataDay a.gate.cur (dset a.gate.ready.book (natStr idn) (newInfo (natStr idn) now code n st)) fs =
          ((fs.set (.tmp a.gate.ax.conf.dataDay) none).set (.data a.gate.ax.conf.dataDay) (some text), .ok ()) := by
        have e3 : Store.dump (dset a.gate.ready.book (natStr idn) (newInfo (natStr idn) now code n st)) = some text := htext
        simp only [saveOrders, hs, e3]; rfl
      rw [e2] at g2
      exact ⟨_, g2, Files.set_self _ _ _⟩
  obtain ⟨fs, h1, h2⟩ := hok
  rcases order_cases (axGate ν) idn now code n st .long a with ⟨g, e, h5, h6⟩ | ⟨g, h5, h6⟩
  · exfalso
    have := congrArg Prod.snd h5
    simp only [axGate, h1] at this
    cases this
  · refine ⟨by rw [h6], (a.order (axGate ν) idn now code n st .long).1, newInfo (natStr idn) now code n st, rfl, rfl, ?_, ?_, ?_⟩
    · rw [order_gate]; simp only [axGate, h1, AXG.next]
    · rw [order_gate]; simp only [axGate, h1, AXG.next, htext]; rfl
    · rw [order_gate]; simp only [axGate, h1, AXG.next, h2, htext]

/-- An order that `json` cannot serialise makes the whole book unserialisable … -/
private theorem dump_poisoned [JsonNum ν] (b : Book ν) (id0 : Str) (i0 : OrderInfo ν) (h : (id0, i0) ∈ b) (hi : infoJV i0 = none) : dumpBook b = none := by
  have : bookMembers b = none := by
    induction b with
    | nil => cases h
    | cons e b ih =>
      obtain ⟨k, o⟩ := e
      rcases List.mem_cons.1 h with e | h
      · injection e with e1 e2; subst e1 e2
        simp only [bookMembers, hi]
      · simp only [bookMembers, ih h]
        cases infoJV o <;> rfl
  simp only [dumpBook, this, Option.map_none]

/-- … so after it every later order is written to the order file and nevertheless reported as failed. -/
theorem c57_poisoned_refuted {ν : Type} [CellNum ν] [JsonNum ν] (ops : List (AOp ν)) (a : Acct (AXG ν) ν) (id0 : Str) (i0 : OrderInfo ν)
    (h0 : dget a.gate.ax.book id0 = some i0) (hi : infoJV i0 = none)
    (hops : ∀ op ∈ ops, ∃ idn now code n st sd, op = .order idn now code n st sd ∧ natStr idn ≠ id0) :
    acknowledged (axGate ν) a ops = [] ∧ dget (a.run (axGate ν) ops).gate.ax.book id0 = some i0 := by
  induction ops generalizing a with
  | nil => exact ⟨rfl, h0⟩
  | cons op ops ih =>
    obtain ⟨idn, now, code, n, st, sd, rfl, hne⟩ := hops op (by simp)
    have hstep : (a.step (axGate ν) (.order idn now code n st sd)).2 = .ok none ∧
        dget (a.step (axGate ν) (.order idn now code n st sd)).1.gate.ax.book id0 = some i0 := by
      have hgate : (a.step (axGate ν) (.order idn now code n st sd)).1.gate.ax = (a.gate.ready.order a.gate.cur (newOrder (natStr idn) now code n st)).1 := by
        simp only [Acct.step, order_gate]; rfl
      have herr : (∃ e, (a.gate.ready.order a.gate.cur (newOrder (natStr idn) now code n st)).2 = .error e) ∧
          dget (a.gate.ready.order a.gate.cur (newOrder (natStr idn) now code n st)).1.book id0 = some i0 := by
        cases henc : encodeSecurity code with
        | error e =>
          obtain ⟨e', h1⟩ := ax_order_badcode a.gate.cur a.gate.ready now (natStr idn) code n st henc
          rw [h1]; exact ⟨⟨e', rfl⟩, h0⟩
        | ok enc =>
          rcases ax_order_cases a.gate.cur a.gate.ready now (natStr idn) code enc n st henc with ⟨e, h1, _⟩ | ⟨acct, ha, _, ⟨fs, e, h1, h2⟩ | ⟨fs, h1, h2⟩⟩
          · rw [h1]; exact ⟨⟨e, rfl⟩, h0⟩
          · rw [h2]; exact ⟨⟨e, rfl⟩, h0⟩
          · have hd : dget (dset a.gate.ready.book (natStr idn) (newInfo (natStr idn) now code n st)) id0 = some i0 := by
              rw [dget_dset_ne _ hne]; exact h0
            rw [h2]
            refine ⟨?_, hd⟩
            rcases saveOrders_result a.gate.ready.conf.dataDay a.gate.cur (dset a.gate.ready.book (natStr idn) (newInfo (natStr idn) now code n st)) fs with ⟨_, text, h5, _⟩ | h5
            · have := dump_poisoned _ id0 i0 (mem_of_dget hd) hi
              rw [show Store.dump (dset a.gate.ready.book (natStr idn) (newInfo (natStr idn) now code n st)) = dumpBook _ from rfl, this] at h5
              cases h5
            · exact h5
      refine ⟨?_, by rw [hgate]; exact herr.2⟩
      obtain ⟨⟨e, he⟩, _⟩ := herr
      rcases order_cases (axGate ν) idn now code n st sd a with ⟨g, e', _, h2⟩ | ⟨g, h1, _⟩
      · simp only [Acct.step, h2]
      · have := congrArg Prod.snd h1
        simp only [axGate, he] at this
        cases this
    obtain ⟨g1, g2⟩ := ih (a.step (axGate ν) (.order idn now code n st sd)).1 hstep.2 (fun op ho => hops op (List.mem_cons_of_mem _ ho))
    refine ⟨?_, g2⟩
    rw [acknowledged, hstep.1]
    exact g1

/-- The first order has a price that cannot be serialised; the second is fine, is sent to the broker, and `order()` returns `None`. -/
theorem c57_witness :
    let x := ((demoCtx false fun _ => demoEnv).order (axGate Int) (fun _ => false) 7 demoEnv.now c!"600000.XSHG" (.int 100) (.style (.limit 666)) .falsy).1
    (x.order (axGate Int) (fun _ => false) 8 demoEnv.now c!"600000.XSHG" (.int 100) .falsy .falsy).2 = .ok none ∧
    (x.order (axGate Int) (fun _ => false) 8 demoEnv.now c!"600000.XSHG" (.int 100) .falsy .falsy).1.orderFile c!"20240102"
      = some (orderHeader ++ c!"\n093000.000025,7,UM0,88,600000.SH,1,100,DMA,AT,0,666,666\n093000.000025,8,UM0,88,600000.SH,1,100,DMA,P6,0,0,0\n") ∧
    ∃ a i, x.acct = some a ∧ dget a.gate.ax.book c!"7" = some i ∧ infoJV i = none := by
  refine ⟨by decide +kernel, by decide +kernel, _, _, rfl, rfl, by decide +kernel⟩

/-- Non-vacuity of `c57_later_orders_partial`: saving order 7 failed, then order 8 is accepted and both are on disk. -/
example :
    let x := ((demoCtx false fun i => if i = 0 then { demoEnv with save := .move .osError } else demoEnv).order (axGate Int) (fun _ => false) 7
      demoEnv.now c!"600000.XSHG" (.int 100) .falsy .falsy)
    let y := x.1.order (axGate Int) (fun _ => false) 8 demoEnv.now c!"600000.XSHG" (.int 100) .falsy .falsy
    x.2 = .ok none ∧ y.2 = .ok (some c!"8") ∧
    (y.1.acct.map fun a => dkeys (loadOrders c!"20240102" a.gate.ax.files : Book Int)) = some [c!"7", c!"8"] := by
  refine ⟨by decide +kernel, by decide +kernel, by decide +kernel⟩

end Jq
