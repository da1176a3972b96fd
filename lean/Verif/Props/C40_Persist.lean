import Verif.Lemmas.Persist
import Verif.Props.C18_Gate
set_option linter.unusedSectionVars false
/-! # C40, C41: being killed and started again -/
namespace Jq
variable {ν : Type} [CellNum ν] [Store ν]

/-! ## C40 -/

/-- The saved order is the acknowledged one. -/
def Restored (i : OrderInfo ν) (k : Ack ν) : Prop :=
  i.orderId = some k.id ∧ i.code = some k.code ∧ i.amount = some (k.amount.natAbs : Int) ∧
  i.action = some (if k.amount < 0 then c!"close" else c!"open") ∧ i.price = some k.style.price ∧ i.style = some (.name k.style.name) ∧
  i.createTime = some (.str k.now.full) ∧ i.side = some c!"long"

/-- The restored order `i` is what the call `op` asks for. -/
def AOp.Asks (op : AOp ν) (id : Str) (i : OrderInfo ν) : Prop :=
  ∃ idn now code n st sd, op = .order idn now code n st sd ∧ id = natStr idn ∧ Restored i ⟨id, now, code, n, st⟩

/-- What the data file is when the process is killed. -/
theorem crash_data (env : Env) (s : AX ν) (op : AOp ν) (ops pre : List FOp) (hwin : s.conf.win = false ∨ s.files (.data s.conf.dataDay) = none)
    (h : CallOps env s op ops) (hp : pre <+: ops) :
    runOps s.files pre (.data s.conf.dataDay) = s.files (.data s.conf.dataDay) ∨
    ∃ b text, Store.dump b = some text ∧ runOps s.files pre (.data s.conf.dataDay) = some text ∧
      ((∃ idn now code n st sd, op = .order idn now code n st sd ∧ b = dset s.book (natStr idn) (newInfo (natStr idn) now code n st)) ∨
       (op = .syncOrders ∧ ∃ updates results t, s.files (.updates env.day) = some updates ∧ s.files (.results env.day) = some results ∧
         pollBoth s.conf.ignoreErr results updates ⟨s.book, s.resOff, s.updOff⟩ = (t, .ok ()) ∧ b = t.book)) := by
  have hnil : ∀ {pre : List FOp}, pre <+: [] → runOps s.files pre (.data s.conf.dataDay) = s.files (.data s.conf.dataDay) := by
    intro pre hp; rw [List.prefix_nil.1 hp]; rfl
  have hwin : (s.conf.win && (s.files (.data s.conf.dataDay)).isSome) = false := by
    rcases hwin with h | h <;> simp [h]
  cases h with
  | orderRefused _ _ => exact .inl (hnil hp)
  | cancelUnknown => exact .inl (hnil hp)
  | balance => exact .inl (hnil hp)
  | syncFailed => exact .inl (hnil hp)
  | cancel _ => exact .inl (runOps_untouched _ (fun o ho => writeOps_untouched (by simp) _ o (hp.subset ho)) _)
  | @order idn now code n st sd o items info pieces sops h1 h2 h3 h4 h5 =>
    rcases prefix_append hp with hp | ⟨q, rfl, hq⟩
    · exact .inl (runOps_untouched _ (fun o ho => writeOps_untouched (by simp) _ o (hp.subset ho)) _)
    · have h6 : runOps s.files (writeOps (.orders env.day) pieces) (.data s.conf.dataDay) = s.files (.data s.conf.dataDay) :=
        runOps_untouched _ (fun o ho => writeOps_untouched (by simp) _ o ho) _
      have h4' : info = newInfo (natStr idn) now code n st ∧ o.orderId = natStr idn := by
        rw [load_newOrderInfo] at h1
        injection h1 with h1
        subst h1
        rw [newOrder_json] at h4
        injection h4 with h4
        exact ⟨h4.symm, rfl⟩
      rw [runOps_append]
      rcases saveOps_data hwin h5 hq (runOps s.files (writeOps (.orders env.day) pieces)) with h | ⟨text, g1, g2, _⟩
      · exact .inl (h.trans h6)
      · exact .inr ⟨_, text, g1, g2, .inl ⟨idn, now, code, n, st, sd, rfl, by rw [h4'.1, h4'.2]⟩⟩
  | @sync updates results t sops h1 h2 h3 h4 =>
    rcases saveOps_data hwin h4 hp s.files with h | ⟨text, g1, g2, _⟩
    · exact .inl h
    · exact .inr ⟨_, text, g1, g2, .inr ⟨rfl, updates, results, t, h1, h2, h3, rfl⟩⟩

/-- POSIX, or on Windows when there is no data file yet: killed at any point of any call, the data file is the one before the call or the complete new order book: the book
with the new order, or the book after the poll. -/
theorem c40_not_torn_partial (env : Env) (s : AX ν) (op : AOp ν) (ops pre : List FOp)
    (hwin : s.conf.win = false ∨ s.files (.data s.conf.dataDay) = none)
    (h : CallOps env s op ops) (hp : pre <+: ops) :
    runOps s.files pre (.data s.conf.dataDay) = s.files (.data s.conf.dataDay) ∨
    ∃ b text, Store.dump b = some text ∧ runOps s.files pre (.data s.conf.dataDay) = some text ∧
      ((∃ id i, op.Asks id i ∧ b = dset s.book id i) ∨
       ∃ updates results t, s.files (.updates env.day) = some updates ∧ s.files (.results env.day) = some results ∧
         pollBoth s.conf.ignoreErr results updates ⟨s.book, s.resOff, s.updOff⟩ = (t, .ok ()) ∧ b = t.book) := by
  rcases crash_data env s op ops pre hwin h hp with h | ⟨b, text, h1, h2, ⟨idn, now, code, n, st, sd, rfl, h3⟩ | ⟨_, h3⟩⟩
  · exact .inl h
  · exact .inr ⟨b, text, h1, h2, .inl ⟨_, _, ⟨idn, now, code, n, st, sd, rfl, rfl, rfl, rfl, rfl, rfl, rfl, rfl, rfl, rfl⟩, h3⟩⟩
  · exact .inr ⟨b, text, h1, h2, .inr h3⟩

/-- The step-by-step operations are those of the model of `_save_orders`: run to the end, they give the same files. -/
theorem c40_steps_complete (win : Bool) (day : Str) (env : Env) (b : Book ν) (there : Bool) (ops : List FOp) (h : SaveOps win day b there ops)
    (he : env.save = .none) (hd : (Store.dump b).isSome) (fs : Files) :
    runOps fs ops = (saveOrders day env b fs).1 ∧ (saveOrders day env b fs).2 = .ok () := saveOps_complete h env he fs hd

/-- The operations of a `_write` run to the end give the files of the model of `_write`. -/
theorem c40_write_complete (win : Bool) (f : FileId) (header line : Str) (pieces : List Str) (fs : Files)
    (h : pieces.flatten = addedText win f header line fs) :
    runOps fs (writeOps f pieces) = (appendLine win .none f header line fs).1 := by
  funext g
  by_cases hg : f = g
  · subst hg
    have h1 : runOps fs (writeOps f pieces) f = some ((fs f).getD [] ++ pieces.flatten) := by
      show runOps (FOp.run fs (.touch f)) _ f = _
      exact runOps_appends f pieces _ _ (Files.set_self _ _ _)
    rw [h1, h]
    exact (Files.set_self _ _ _).symm
  · rw [runOps_untouched _ (writeOps_untouched hg pieces), appendLine_other _ _ _ _ _ _ (Ne.symm hg)]

/-! ## C41 -/

theorem Restored.same {i i' : OrderInfo ν} {k : Ack ν} (h : Restored i k) (hs : SameRequest i i') : Restored i' k := by
  obtain ⟨h1, h2, h3, h4, h5, h6, h7, h8⟩ := h
  obtain ⟨g1, g2, g3, g4, g5, g6, g7, g8, _⟩ := hs
  exact ⟨g5.trans h1, g1.trans h2, g3.trans h3, g4.trans h4, g2.trans h5, g6.trans h6, g7.trans h7, g8.trans h8⟩

/-- What holds at all times. -/
private structure PInv (s : PState ν) : Prop where
  win : s.acct.gate.ax.conf.win = false
  ext : ∀ i fs d, (s.acct.gate.env i).ext fs (.data d) = fs (.data d)
  ren : ∀ i, (s.acct.gate.env i).Renames
  ok : DictOk s.acct.gate.ax.book
  drawn : ∀ k ∈ s.acks, k.id ∈ s.used
  book : ∀ k ∈ s.acks, ∃ i, dget s.acct.gate.ax.book k.id = some i ∧ Restored i k
  disk : ∀ k ∈ s.acks, ∃ i, dget (loadOrders s.acct.gate.ax.conf.dataDay s.acct.gate.ax.files : Book ν) k.id = some i ∧ Restored i k

theorem load_data {day : Str} {fs fs' : Files} (h : fs (.data day) = fs' (.data day)) : (loadOrders day fs : Book ν) = loadOrders day fs' := by
  simp only [loadOrders, h]

variable [LawfulStore ν]

theorem load_dumped {day : Str} {fs : Files} {b : Book ν} {text : Str} (hb : DictOk b) (h1 : Store.dump b = some text)
    (h2 : fs (.data day) = some text) : loadOrders day fs = b := by
  simp only [loadOrders, h2, LawfulStore.load_dump b text hb h1]

theorem load_dictOk (day : Str) (fs : Files) : DictOk (loadOrders day fs : Book ν) := by
  simp only [loadOrders]
  have he : DictOk ([] : Book ν) := by simp [DictOk, dkeys]
  split
  · exact he
  · split
    · rename_i b hb; exact LawfulStore.load_ok _ b hb
    · exact he

theorem restored_new (id : Str) (now : DT) (code : Str) (n : Int) (st : Style ν) : Restored (newInfo id now code n st) ⟨id, now, code, n, st⟩ :=
  ⟨rfl, rfl, rfl, rfl, rfl, rfl, rfl, rfl⟩

private theorem pinv_step (s t : PState ν) (hi : PInv s) (h : PStep s t) : PInv t := by
  have hdr : ∀ d, s.acct.gate.ready.files (.data d) = s.acct.gate.ax.files (.data d) := fun d => hi.ext _ _ _
  have hload : (loadOrders s.acct.gate.ax.conf.dataDay s.acct.gate.ready.files : Book ν) = loadOrders s.acct.gate.ax.conf.dataDay s.acct.gate.ax.files := load_data (hdr _)
  -- a book extended by a poll, or with an order under another id, still holds the acknowledged orders
  have hext : ∀ {b b' : Book ν}, BookExt b b' → (∀ k ∈ s.acks, ∃ i, dget b k.id = some i ∧ Restored i k) →
      ∀ k ∈ s.acks, ∃ i, dget b' k.id = some i ∧ Restored i k := by
    intro b b' hb h k hk
    obtain ⟨i, h1, h2⟩ := h k hk
    obtain ⟨i', h3, h4⟩ := hb.2 _ _ h1
    exact ⟨i', h3, h2.same h4⟩
  have hset : ∀ {b : Book ν} {id : Str} (v : OrderInfo ν), id ∉ s.used → (∀ k ∈ s.acks, ∃ i, dget b k.id = some i ∧ Restored i k) →
      ∀ k ∈ s.acks, ∃ i, dget (dset b id v) k.id = some i ∧ Restored i k := by
    intro b id v hid h k hk
    obtain ⟨i, h1, h2⟩ := h k hk
    refine ⟨i, ?_, h2⟩
    rw [dget_dset_ne _ (fun e => hid (by rw [e]; exact hi.drawn k hk))]
    exact h1
  obtain ⟨op, h⟩ := h
  cases h with
  | op hfresh =>
    obtain ⟨hst1, hst2⟩ := axg_step_static s.acct op
    have hwin : (s.acct.step (axGate ν) op).1.gate.ax.conf.win = false := by rw [hst2]; exact hi.win
    have hex : ∀ i fs d, ((s.acct.step (axGate ν) op).1.gate.env i).ext fs (.data d) = fs (.data d) := by rw [hst1]; exact hi.ext
    have hrn : ∀ i, ((s.acct.step (axGate ν) op).1.gate.env i).Renames := by rw [hst1]; exact hi.ren
    -- operations that only read, or write other files
    have quiet : (s.acct.step (axGate ν) op).1.gate.ax.book = s.acct.gate.ax.book →
        (s.acct.step (axGate ν) op).1.gate.ax.files (.data s.acct.gate.ax.conf.dataDay) = s.acct.gate.ax.files (.data s.acct.gate.ax.conf.dataDay) →
        op.acks (s.acct.step (axGate ν) op).2 = [] →
        PInv ⟨(s.acct.step (axGate ν) op).1, s.acks ++ op.acks (s.acct.step (axGate ν) op).2, s.used ++ op.draws⟩ := by
      intro h1 h2 h3
      refine ⟨hwin, hex, hrn, ?_, ?_, ?_, ?_⟩
      · simp only [h1]; exact hi.ok
      · simp only [h3, List.append_nil, List.mem_append]; exact fun k hk => .inl (hi.drawn k hk)
      · simp only [h3, List.append_nil, h1]; exact hi.book
      · simp only [h3, List.append_nil, hst2]; rw [load_data h2]; exact hi.disk
    cases op with
    | syncBalance =>
      refine quiet ?_ ?_ rfl
      · simp only [Acct.step, syncBalance_gate]; rfl
      · simp only [Acct.step, syncBalance_gate]; exact hdr _
    | cancel id =>
      refine quiet ?_ ?_ rfl
      · simp only [Acct.step]; rcases cancel_gate (axGate ν) id s.acct with e | e <;> rw [e]; rfl
      · simp only [Acct.step]
        rcases cancel_gate (axGate ν) id s.acct with e | e <;> rw [e]
        show (appendLine _ _ _ _ _ _).1 _ = _
        rw [appendLine_other _ _ _ _ _ _ (by simp)]; exact hdr _
    | syncOrders =>
      have hg : (s.acct.step (axGate ν) .syncOrders).1.gate.ax = (s.acct.gate.ready.syncOrders s.acct.gate.cur).1 := by
        simp only [Acct.step, syncOrders_gate]; rfl
      obtain ⟨hb, hd⟩ := ax_syncOrders_book s.acct.gate.cur (hi.ren _) s.acct.gate.ready
      have hok : DictOk (s.acct.gate.ready.syncOrders s.acct.gate.cur).1.book := by
        rw [DictOk, hb.1]; exact hi.ok
      have hbook := hext hb hi.book
      have hno : (AOp.syncOrders : AOp ν).acks (s.acct.step (axGate ν) .syncOrders).2 = [] := rfl
      refine ⟨hwin, hex, hrn, by simp only [hg]; exact hok, ?_, ?_, ?_⟩
      · simp only [hno, List.append_nil, List.mem_append]; exact fun k hk => .inl (hi.drawn k hk)
      · simp only [hno, List.append_nil, hg]; exact hbook
      · simp only [hno, List.append_nil, hst2]
        rw [hg]
        rcases hd with hd | ⟨text, h1, h2⟩
        · have hd' := load_data (ν := ν) (day := s.acct.gate.ax.conf.dataDay) (hd.trans (hdr _))
          rw [hd']; exact hi.disk
        · have hd' := load_dumped (day := s.acct.gate.ax.conf.dataDay) hok h1 h2
          rw [hd']; exact hbook
    | order idn now code n st sd =>
      have hfr : natStr idn ∉ s.used := hfresh _ (by simp [AOp.draws])
      have hg : (s.acct.step (axGate ν) (.order idn now code n st sd)).1.gate.ax =
          (s.acct.gate.ready.order s.acct.gate.cur (newOrder (natStr idn) now code n st)).1 := by
        simp only [Acct.step, order_gate]; rfl
      have hres : ((s.acct.step (axGate ν) (.order idn now code n st sd)).2 = .ok none ∧
            ∃ e, (s.acct.gate.ready.order s.acct.gate.cur (newOrder (natStr idn) now code n st)).2 = .error e) ∨
          ((s.acct.step (axGate ν) (.order idn now code n st sd)).2 = .ok (some (natStr idn)) ∧
            (s.acct.gate.ready.order s.acct.gate.cur (newOrder (natStr idn) now code n st)).2 = .ok ()) := by
        simp only [Acct.step]
        rcases order_cases (axGate ν) idn now code n st sd s.acct with ⟨g, e, h1, h2⟩ | ⟨g, h1, h2⟩
        · exact .inl ⟨by rw [h2], e, congrArg Prod.snd h1⟩
        · exact .inr ⟨by rw [h2], congrArg Prod.snd h1⟩
      -- refused before the book changes
      have failed : ∀ fs e, s.acct.gate.ready.order s.acct.gate.cur (newOrder (natStr idn) now code n st) = ({ s.acct.gate.ready with files := fs }, .error e) →
          fs (.data s.acct.gate.ax.conf.dataDay) = s.acct.gate.ready.files (.data s.acct.gate.ax.conf.dataDay) →
          PInv ⟨(s.acct.step (axGate ν) (.order idn now code n st sd)).1,
            s.acks ++ (AOp.order idn now code n st sd).acks (s.acct.step (axGate ν) (.order idn now code n st sd)).2,
            s.used ++ (AOp.order idn now code n st sd).draws⟩ := by
        intro fs e h1 h2
        refine quiet (by rw [hg, h1]; rfl) (by rw [hg, h1]; exact h2.trans (hdr _)) ?_
        rcases hres with ⟨h3, _⟩ | ⟨_, h3⟩
        · rw [h3]; rfl
        · rw [h1] at h3; cases h3
      cases henc : encodeSecurity code with
      | error e =>
        obtain ⟨e', h1⟩ := ax_order_badcode s.acct.gate.cur s.acct.gate.ready now (natStr idn) code n st henc
        exact failed _ e' h1 rfl
      | ok enc =>
        rcases ax_order_cases s.acct.gate.cur s.acct.gate.ready now (natStr idn) code enc n st henc with ⟨e, h1, _⟩ | ⟨acct, ha, hne, ⟨fs, e, h1, h2⟩ | ⟨fs, h1, h2⟩⟩
        · exact failed _ e h1 rfl
        · refine failed fs e h2 ?_
          have := appendLine_other s.acct.gate.ready.conf.win s.acct.gate.cur.write (.orders s.acct.gate.cur.day) orderHeader
            (joinWith c!"," (newItems s.acct.gate.ready.conf acct s.acct.gate.cur.now (natStr idn) enc n st) ++ linesep s.acct.gate.ready.conf.win)
            s.acct.gate.ready.files (g := .data s.acct.gate.ax.conf.dataDay) (by simp)
          rw [h1] at this
          exact this
        · have hfs : fs (.data s.acct.gate.ax.conf.dataDay) = s.acct.gate.ax.files (.data s.acct.gate.ax.conf.dataDay) := by
            have := appendLine_other s.acct.gate.ready.conf.win s.acct.gate.cur.write (.orders s.acct.gate.cur.day) orderHeader
              (joinWith c!"," (newItems s.acct.gate.ready.conf acct s.acct.gate.cur.now (natStr idn) enc n st) ++ linesep s.acct.gate.ready.conf.win)
              s.acct.gate.ready.files (g := .data s.acct.gate.ax.conf.dataDay) (by simp)
            rw [h1] at this
            exact this.trans (hdr _)
          have hok : DictOk (dset s.acct.gate.ax.book (natStr idn) (newInfo (natStr idn) now code n st)) := hi.ok.dset _ _
          have hbook := hset (newInfo (natStr idn) now code n st) hfr hi.book
          have hsd := saveOrders_data s.acct.gate.ax.conf.dataDay s.acct.gate.cur (hi.ren _) (dset s.acct.gate.ax.book (natStr idn) (newInfo (natStr idn) now code n st)) fs
          have hb' : (s.acct.step (axGate ν) (.order idn now code n st sd)).1.gate.ax.book = dset s.acct.gate.ax.book (natStr idn) (newInfo (natStr idn) now code n st) := by
            rw [hg, h2]; rfl
          have hf' : (s.acct.step (axGate ν) (.order idn now code n st sd)).1.gate.ax.files =
              (saveOrders s.acct.gate.ax.conf.dataDay s.acct.gate.cur (dset s.acct.gate.ax.book (natStr idn) (newInfo (natStr idn) now code n st)) fs).1 := by
            rw [hg, h2]; rfl
          have hr' : (s.acct.gate.ready.order s.acct.gate.cur (newOrder (natStr idn) now code n st)).2 =
              (saveOrders s.acct.gate.ax.conf.dataDay s.acct.gate.cur (dset s.acct.gate.ax.book (natStr idn) (newInfo (natStr idn) now code n st)) fs).2 := by
            rw [h2]; rfl
          rcases hsd with ⟨h3, text, h4, h5⟩ | ⟨⟨e, h3⟩, h4⟩
          · -- accepted
            have hack : (AOp.order idn now code n st sd).acks (s.acct.step (axGate ν) (.order idn now code n st sd)).2 = [⟨natStr idn, now, code, n, st⟩] := by
              rcases hres with ⟨_, e, h6⟩ | ⟨h6, _⟩
              · rw [hr', h3] at h6; cases h6
              · rw [h6]; rfl
            have hall : ∀ k ∈ s.acks ++ [⟨natStr idn, now, code, n, st⟩], ∃ i,
                dget (dset s.acct.gate.ax.book (natStr idn) (newInfo (natStr idn) now code n st)) k.id = some i ∧ Restored i k := by
              intro k hk
              rcases List.mem_append.1 hk with hk | hk
              · exact hbook k hk
              · rw [List.mem_singleton] at hk
                subst hk
                exact ⟨_, dget_dset_self _ _ _, restored_new _ _ _ _ _⟩
            refine ⟨hwin, hex, hrn, by rw [hb']; exact hok, ?_, ?_, ?_⟩
            · simp only [hack, AOp.draws, List.mem_append, List.mem_singleton]
              rintro k (hk | rfl)
              · exact .inl (hi.drawn k hk)
              · exact .inr rfl
            · simp only [hack, hb']; exact hall
            · simp only [hack, hst2, hf']
              rw [load_dumped hok h4 h5]; exact hall
          · -- written but not saved
            have hack : (AOp.order idn now code n st sd).acks (s.acct.step (axGate ν) (.order idn now code n st sd)).2 = [] := by
              rcases hres with ⟨h6, _⟩ | ⟨_, h6⟩
              · rw [h6]; rfl
              · rw [hr', h3] at h6; cases h6
            refine ⟨hwin, hex, hrn, by rw [hb']; exact hok, ?_, ?_, ?_⟩
            · simp only [hack, List.append_nil, List.mem_append]; exact fun k hk => .inl (hi.drawn k hk)
            · simp only [hack, List.append_nil, hb']; exact hbook
            · simp only [hack, List.append_nil, hst2, hf']
              rw [load_data (h4.trans hfs)]; exact hi.disk
  | crash ops pre hfresh hc hp =>
    have hdisk : ∀ k ∈ s.acks, ∃ i, dget (loadOrders s.acct.gate.ax.conf.dataDay (runOps s.acct.gate.ready.files pre) : Book ν) k.id = some i ∧ Restored i k := by
      rcases c40_not_torn_partial s.acct.gate.cur s.acct.gate.ready op ops pre (.inl hi.win) hc hp with h | ⟨b, text, h1, h2, h3⟩
      · have hd := load_data (ν := ν) (day := s.acct.gate.ax.conf.dataDay) (h.trans (hdr _))
        rw [hd]; exact hi.disk
      · have hb : DictOk b ∧ ∀ k ∈ s.acks, ∃ i, dget b k.id = some i ∧ Restored i k := by
          rcases h3 with ⟨id, i, ⟨idn, now, code, n, st, sd, rfl, rfl, _⟩, rfl⟩ | ⟨u, r, t, _, _, h6, rfl⟩
          · exact ⟨hi.ok.dset _ _, hset i (hfresh _ (by simp [AOp.draws])) hi.book⟩
          · have he := pollBoth_ext s.acct.gate.ready.conf.ignoreErr r u ⟨s.acct.gate.ready.book, s.acct.gate.ready.resOff, s.acct.gate.ready.updOff⟩
            rw [h6] at he
            exact ⟨by rw [DictOk, he.1]; exact hi.ok, hext he hi.book⟩
        have hd := load_dumped (day := s.acct.gate.ax.conf.dataDay) hb.1 h1 h2
        rw [hd]; exact hb.2
    exact ⟨hi.win, hi.ext, hi.ren, load_dictOk _ _, fun k hk => List.mem_append.2 (.inl (hi.drawn k hk)), hdisk, hdisk⟩

/-- However often the process is killed and started again on the day, on POSIX: every order whose id was returned is in the
order book (hence `setup` restored it), and it is in the data file. -/
theorem c41_acknowledged_survive_partial (conf : AXConf) (fs : Files) (env : Nat → Env) (n : Nat) (used : List Str) (t : PState ν)
    (hwin : conf.win = false) (hext : ∀ i fs d, (env i).ext fs (.data d) = fs (.data d)) (hren : ∀ i, (env i).Renames)
    (h : PRun ⟨Acct.init ⟨AX.setup conf fs, env, n⟩, [], used⟩ t) :
    ∀ k ∈ t.acks, (∃ i, dget t.acct.gate.ax.book k.id = some i ∧ Restored i k) ∧
      ∃ i, dget (loadOrders t.acct.gate.ax.conf.dataDay t.acct.gate.ax.files : Book ν) k.id = some i ∧ Restored i k := by
  have : PInv t := by
    generalize hs : (⟨Acct.init ⟨AX.setup conf fs, env, n⟩, [], used⟩ : PState ν) = s at h
    have h0 : PInv s := by
      subst hs
      exact ⟨hwin, hext, hren, load_dictOk _ _, fun k hk => by simp at hk, fun k hk => by simp at hk, fun k hk => by simp at hk⟩
    clear hs
    induction h with
    | refl => exact h0
    | step _ h2 ih => exact pinv_step _ _ ih h2
  exact fun k hk => ⟨this.book k hk, this.disk k hk⟩

/-- The same over histories: on POSIX the data file is at all times the one found at the start or the complete text of an
order book, which a restart reads back exactly. -/
theorem c40_history_partial (conf : AXConf) (fs : Files) (env : Nat → Env) (n : Nat) (used : List Str) (t : PState ν)
    (hwin : conf.win = false) (hext : ∀ i fs d, (env i).ext fs (.data d) = fs (.data d)) (hren : ∀ i, (env i).Renames)
    (h : PRun ⟨Acct.init ⟨AX.setup conf fs, env, n⟩, [], used⟩ t) :
    t.acct.gate.ax.files (.data conf.dataDay) = fs (.data conf.dataDay) ∨
    ∃ b text, Store.dump b = some text ∧ t.acct.gate.ax.files (.data conf.dataDay) = some text ∧ (AX.setup conf t.acct.gate.ax.files : AX ν).book = b := by
  have hinv : PInv t ∧ t.acct.gate.ax.conf = conf ∧ t.acct.gate.env = env ∧
      (t.acct.gate.ax.files (.data conf.dataDay) = fs (.data conf.dataDay) ∨
        ∃ b text, DictOk b ∧ Store.dump (b : Book ν) = some text ∧ t.acct.gate.ax.files (.data conf.dataDay) = some text) := by
    generalize hs : (⟨Acct.init ⟨AX.setup conf fs, env, n⟩, [], used⟩ : PState ν) = s at h
    induction h with
    | refl =>
      subst hs
      exact ⟨⟨hwin, hext, hren, load_dictOk _ _, fun k hk => by simp at hk, fun k hk => by simp at hk, fun k hk => by simp at hk⟩, rfl, rfl, .inl rfl⟩
    | @step s' t' _ h2 ih =>
      obtain ⟨hi, hc, he, hd⟩ := ih
      have hn := pinv_step _ _ hi h2
      have hdr : ∀ d, s'.acct.gate.ready.files (.data d) = s'.acct.gate.ax.files (.data d) := fun d => hi.ext _ _ _
      obtain ⟨op, h2⟩ := h2
      cases h2 with
      | op hfresh =>
        obtain ⟨hst1, hst2⟩ := axg_step_static s'.acct op
        refine ⟨hn, hst2.trans hc, hst1.trans he, ?_⟩
        have hok := hn.ok
        rw [← hc] at hd ⊢
        suffices hsuf : (s'.acct.step (axGate ν) op).1.gate.ax.files (.data s'.acct.gate.ax.conf.dataDay) = s'.acct.gate.ax.files (.data s'.acct.gate.ax.conf.dataDay) ∨
            ∃ text, Store.dump (s'.acct.step (axGate ν) op).1.gate.ax.book = some text ∧
              (s'.acct.step (axGate ν) op).1.gate.ax.files (.data s'.acct.gate.ax.conf.dataDay) = some text by
          rcases hsuf with h | ⟨text, h1, h2⟩
          · rcases hd with hd | ⟨b, text, h1, h2, h3⟩
            · exact .inl (h.trans hd)
            · exact .inr ⟨b, text, h1, h2, h.trans h3⟩
          · exact .inr ⟨_, text, hok, h1, h2⟩
        cases op with
        | syncBalance => exact .inl (by simp only [Acct.step, syncBalance_gate]; exact hdr _)
        | cancel id =>
          left
          simp only [Acct.step]
          rcases cancel_gate (axGate ν) id s'.acct with e | e <;> rw [e]
          show (appendLine _ _ _ _ _ _).1 _ = _
          rw [appendLine_other _ _ _ _ _ _ (by simp)]; exact hdr _
        | syncOrders =>
          have hg : (s'.acct.step (axGate ν) .syncOrders).1.gate.ax = (s'.acct.gate.ready.syncOrders s'.acct.gate.cur).1 := by
            simp only [Acct.step, syncOrders_gate]; rfl
          rw [hg]
          rcases (ax_syncOrders_book s'.acct.gate.cur (hi.ren _) s'.acct.gate.ready).2 with h | h
          · exact .inl (h.trans (hdr _))
          · exact .inr h
        | order idn now code n st sd =>
          have hg : (s'.acct.step (axGate ν) (.order idn now code n st sd)).1.gate.ax =
              (s'.acct.gate.ready.order s'.acct.gate.cur (newOrder (natStr idn) now code n st)).1 := by
            simp only [Acct.step, order_gate]; rfl
          rw [hg]
          cases henc : encodeSecurity code with
          | error e =>
            obtain ⟨e', h1⟩ := ax_order_badcode s'.acct.gate.cur s'.acct.gate.ready now (natStr idn) code n st henc
            rw [h1]; exact .inl (hdr _)
          | ok enc =>
            have hap : ∀ items, (appendLine s'.acct.gate.ready.conf.win s'.acct.gate.cur.write (.orders s'.acct.gate.cur.day) orderHeader items
                s'.acct.gate.ready.files).1 (.data s'.acct.gate.ax.conf.dataDay) = s'.acct.gate.ax.files (.data s'.acct.gate.ax.conf.dataDay) :=
              fun items => (appendLine_other _ _ _ _ _ _ (by simp)).trans (hdr _)
            rcases ax_order_cases s'.acct.gate.cur s'.acct.gate.ready now (natStr idn) code enc n st henc with ⟨e, h1, _⟩ | ⟨acct, ha, hne, ⟨fs, e, h1, h2⟩ | ⟨fs, h1, h2⟩⟩
            · rw [h1]; exact .inl (hdr _)
            · rw [h2]
              have := hap (joinWith c!"," (newItems s'.acct.gate.ready.conf acct s'.acct.gate.cur.now (natStr idn) enc n st) ++ linesep s'.acct.gate.ready.conf.win)
              rw [h1] at this
              exact .inl this
            · have := hap (joinWith c!"," (newItems s'.acct.gate.ready.conf acct s'.acct.gate.cur.now (natStr idn) enc n st) ++ linesep s'.acct.gate.ready.conf.win)
              rw [h1] at this
              rw [h2]
              rcases saveOrders_data s'.acct.gate.ax.conf.dataDay s'.acct.gate.cur (hi.ren _) (dset s'.acct.gate.ax.book (natStr idn) (newInfo (natStr idn) now code n st)) fs with
                ⟨_, text, h4, h5⟩ | ⟨_, h4⟩
              · exact .inr ⟨text, h4, h5⟩
              · exact .inl (h4.trans this)
      | crash ops pre hfresh hco hp =>
        refine ⟨hn, hc, he, ?_⟩
        rw [← hc] at hd ⊢
        rcases c40_not_torn_partial s'.acct.gate.cur s'.acct.gate.ready op ops pre (.inl hi.win) hco hp with h | ⟨b, text, h1, h2, h3⟩
        · rcases hd with hd | ⟨b, text, h1, h2, h3⟩
          · exact .inl ((h.trans (hdr _)).trans hd)
          · exact .inr ⟨b, text, h1, h2, (h.trans (hdr _)).trans h3⟩
        · refine .inr ⟨b, text, ?_, h1, h2⟩
          rcases h3 with ⟨id, i, _, rfl⟩ | ⟨u, r, t, _, _, h6, rfl⟩
          · exact hi.ok.dset _ _
          · have he := pollBoth_ext s'.acct.gate.ready.conf.ignoreErr r u ⟨s'.acct.gate.ready.book, s'.acct.gate.ready.resOff, s'.acct.gate.ready.updOff⟩
            rw [h6] at he
            rw [DictOk, he.1]; exact hi.ok
  obtain ⟨_, _, _, h | ⟨b, text, h1, h2, h3⟩⟩ := hinv
  · exact .inl h
  · exact .inr ⟨b, text, h2, h3, load_dumped h1 h2 h3⟩

/-! ## Witnesses -/

private def demoP (win : Bool) : PState Int := ⟨Acct.init ⟨AX.setup (demoConf win) fun _ => none, fun _ => demoEnv, 0⟩, [], []⟩

private def op7 : AOp Int := .order 7 demoEnv.now c!"600000.XSHG" 100 (.limit 12) .long
private def op8 : AOp Int := .order 8 demoEnv.now c!"000001.XSHE" (-200) (.limit 5) .long

/-- One accepted order. -/
private def demoP7 (win : Bool) : PState Int :=
  ⟨((demoP win).acct.step (axGate Int) op7).1, (demoP win).acks ++ op7.acks ((demoP win).acct.step (axGate Int) op7).2, (demoP win).used ++ op7.draws⟩

private theorem demoP7_run (win : Bool) : PRun (demoP win) (demoP7 win) :=
  .step (.refl _) ⟨op7, .op _ (by intro id hid; simp [demoP])⟩

/-- A complete list of operations of an order, with each text in one piece. -/
private def orderOps (s : AX Int) (op : AOp Int) : List FOp :=
  match op with
  | .order idn now code n st _ =>
    match orderFields s.conf demoEnv.now (newOrder (natStr idn) now code n st) with
    | .ok items =>
      let text := (Store.dump (dset s.book (natStr idn) (newInfo (natStr idn) now code n st))).getD []
      writeOps (.orders demoEnv.day) [addedText s.conf.win (.orders demoEnv.day) orderHeader (joinWith c!"," items ++ linesep s.conf.win) s.files] ++
        saveOps s.conf.win s.conf.dataDay [text] [text] (s.files (.data s.conf.dataDay)).isSome
    | .error _ => []
  | _ => []

private theorem orderOps_calls (s : AX Int) (idn : Nat) (now : DT) (code : Str) (n : Int) (st : Style Int) (sd : Side) (items : List Str)
    (h : orderFields s.conf demoEnv.now (newOrder (natStr idn) now code n st) = .ok items)
    (hd : (Store.dump (dset s.book (natStr idn) (newInfo (natStr idn) now code n st))).isSome) :
    CallOps demoEnv s (.order idn now code n st sd) (orderOps s (.order idn now code n st sd)) := by
  obtain ⟨text, ht⟩ := Option.isSome_iff_exists.1 hd
  simp only [orderOps, h, ht, Option.getD_some]
  exact .order (load_newOrderInfo _ _ _ _ _) h (by simp) (newOrder_json _ _ _ _ _) (.saved ht (by simp) (by simp))

/-- Killed after the record of order 8 was written and before the order book was saved, and started again. -/
private def demoLost : PState Int :=
  ⟨Acct.init ⟨AX.setup (demoConf false) (runOps (demoP7 false).acct.gate.ready.files ((orderOps (demoP7 false).acct.gate.ready op8).take 2)),
    fun _ => demoEnv, 2⟩, (demoP7 false).acks, (demoP7 false).used ++ op8.draws⟩

/-- POSIX: an order that is in the broker's order file is not restored when the process is killed before the book is saved;
the earlier order is. -/
theorem c41_written_lost_refuted : PRun (demoP false) demoLost ∧
    demoLost.acct.gate.ax.files (.orders c!"20240102") =
      some (orderHeader ++ c!"\n093000.000025,7,UM0,88,600000.SH,1,100,DMA,AT,0,12,12\n093000.000025,8,UM0,88,000001.SZ,2,200,DMA,AT,0,5,5\n") ∧
    dkeys demoLost.acct.gate.ax.book = [c!"7"] := by
  refine ⟨.step (demoP7_run false) ⟨op8, .crash _ _ _ ?_ (orderOps_calls _ _ _ _ _ _ _ _ rfl (by decide +kernel)) (List.take_prefix _ _)⟩, by decide +kernel, by decide +kernel⟩
  decide +kernel

/-- Windows: killed after the move of the new book began, that is, after the old data file was emptied. -/
private def demoTorn : PState Int :=
  ⟨Acct.init ⟨AX.setup (demoConf true) (runOps (demoP7 true).acct.gate.ready.files ((orderOps (demoP7 true).acct.gate.ready op8).take 5)),
    fun _ => demoEnv, 2⟩, (demoP7 true).acks, (demoP7 true).used ++ op8.draws⟩

/-- Windows: the data file is neither the old nor the new order book, and the acknowledged order 7 is not restored. -/
theorem c40_windows_refuted : PRun (demoP true) demoTorn ∧ demoTorn.acks.map (·.id) = [c!"7"] ∧
    (∃ text, (demoP7 true).acct.gate.ax.files (.data c!"20240102") = some text ∧ text ≠ []) ∧
    demoTorn.acct.gate.ax.files (.data c!"20240102") = some [] ∧ (Store.load [] : Option (Book Int)) = none ∧ demoTorn.acct.gate.ax.book = [] := by
  refine ⟨.step (demoP7_run true) ⟨op8, .crash _ _ _ ?_ (orderOps_calls _ _ _ _ _ _ _ _ rfl (by decide +kernel)) (List.take_prefix _ _)⟩, by decide +kernel,
    ⟨_, rfl, by decide +kernel⟩, by decide +kernel, by decide +kernel, by decide +kernel⟩
  decide +kernel

/-- No process is killed: saving order 8 falls back to a copy (`shutil.move`), which fails after 10 characters. -/
private def copyEnv (i : Nat) : Env := if i = 1 then { demoEnv with save := .copy .osError 10 } else demoEnv
private def demoC : PState Int := ⟨Acct.init ⟨AX.setup (demoConf false) fun _ => none, copyEnv, 0⟩, [], []⟩
private def demoC7 : PState Int := ⟨(demoC.acct.step (axGate Int) op7).1, demoC.acks ++ op7.acks (demoC.acct.step (axGate Int) op7).2, demoC.used ++ op7.draws⟩
private def demoC8 : PState Int := ⟨(demoC7.acct.step (axGate Int) op8).1, demoC7.acks ++ op8.acks (demoC7.acct.step (axGate Int) op8).2, demoC7.used ++ op8.draws⟩
/-- Started again afterwards. -/
private def demoC9 : PState Int := ⟨Acct.init ⟨AX.setup (demoConf false) demoC8.acct.gate.ready.files, copyEnv, 3⟩, demoC8.acks, demoC8.used⟩

/-- Where the temporary file cannot be renamed to the data file, a copy that fails destroys the saved order book: the order after it is
refused, but the order acknowledged before it is not restored. -/
theorem c40_failed_copy_refuted : PRun demoC demoC9 ∧ demoC9.acks.map (·.id) = [c!"7"] ∧
    (∃ text, demoC7.acct.gate.ax.files (.data c!"20240102") = some text ∧ 10 < text.length ∧
      demoC8.acct.gate.ax.files (.data c!"20240102") = some (text.take 10)) ∧
    dkeys demoC7.acct.gate.ax.book = [c!"7"] ∧ demoC9.acct.gate.ax.book = [] := by
  refine ⟨.step (.step (.step (.refl _) ⟨op7, .op _ (by decide +kernel)⟩) ⟨op8, .op _ (by decide +kernel)⟩)
    ⟨.syncBalance, .crash _ [] [] (by decide +kernel) .balance (List.prefix_refl _)⟩, by decide +kernel,
    ⟨_, rfl, by decide +kernel, by decide +kernel⟩, by decide +kernel, by decide +kernel⟩

/-- Non-vacuity of C40 and C41: on POSIX, killed at the last moment of order 8 (everything on disk, no id returned) after order 7 was
acknowledged; both are restored. -/
example : ∃ t, PRun (demoP false) t ∧ t.acks.map (·.id) = [c!"7"] ∧ dkeys t.acct.gate.ax.book = [c!"7", c!"8"] := by
  refine ⟨_, .step (demoP7_run false) ⟨op8, .crash _ _ _ ?_ (orderOps_calls _ _ _ _ _ _ _ _ rfl (by decide +kernel)) (List.prefix_refl _)⟩, by decide +kernel, by decide +kernel⟩
  decide +kernel

end Jq
