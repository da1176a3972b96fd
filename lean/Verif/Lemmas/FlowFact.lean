import Verif.Lemmas.FlowInv
set_option linter.unusedSectionVars false
/-! Facts about the entries of the order book and the orders of the account that hold throughout a day with crashes and restarts. -/
namespace Jq
variable {ν : Type} [CellNum ν] [Store ν]

/-- The times in the update file can be written and read back. -/
def LineTimes (updates : Str) : Prop :=
  ∀ l ∈ rawLines updates, ∀ items ln d, lineKind 20 l.1 = .fields items → OrderLine.ofItems items = .ok ln →
    strptime mCompact (ln.orderDate ++ ln.orderTime) = .ok d → 1000 ≤ d.year

/-- `P results updates id i`, about an entry of the order book, and `Q results updates id o`, about an order of the account, hold of new
orders and are kept by everything that happens. -/
structure EntryFact (P : Str → Str → Str → OrderInfo ν → Prop) (Q : Str → Str → Str → Order ν → Prop) : Prop where
  laterP : ∀ {r u id i}, WholeLines r → WholeLines u → ∀ r' u', P r u id i → P (r ++ r') (u ++ u') id i
  laterQ : ∀ {r u id o}, WholeLines r → WholeLines u → ∀ r' u', Q r u id o → Q (r ++ r') (u ++ u') id o
  newP : ∀ r u id now code n st, P r u id (newInfo id now code n st)
  newQ : ∀ r u id now code n st, Q r u id (newOrder id now code n st)
  pollP : ∀ {r u id i}, LineTimes u → P r u id i → P r u id (linesView 20 updView id ((rawLines u).takeWhile (notStop 20))
    (linesView 6 resView id ((rawLines r).takeWhile (notStop 6)) i))
  loadQ : ∀ {r u id i o}, P r u id i → i.orderId = some id → Order.load i = .ok o → Q r u id o

variable {P : Str → Str → Str → OrderInfo ν → Prop} {Q : Str → Str → Str → Order ν → Prop}

def BookHas (P : Str → Str → Str → OrderInfo ν → Prop) (r u : Str) (b : Book ν) : Prop := ∀ id i, dget b id = some i → P r u id i

def AcctHas {γ : Type} (Q : Str → Str → Str → Order ν → Prop) (r u : Str) (a : Acct γ ν) : Prop := ∀ id o, a.find id = some o → Q r u id o

theorem BookHas.later (F : EntryFact P Q) {r u : Str} {b : Book ν} (h : BookHas P r u b) (hr : WholeLines r) (hu : WholeLines u) (r' u' : Str) :
    BookHas P (r ++ r') (u ++ u') b := fun id i hi => F.laterP hr hu r' u' (h id i hi)

theorem BookHas.place (F : EntryFact P Q) {r u : Str} {b : Book ν} (h : BookHas P r u b) (id : Str) (now : DT) (code : Str) (n : Int) (st : Style ν) :
    BookHas P r u (dset b id (newInfo id now code n st)) := by
  intro id' i hi
  rw [dget_dset] at hi
  split at hi
  · rename_i e; injection hi with hi; subst hi; subst e; exact F.newP _ _ _ _ _ _ _
  · exact h id' i hi

theorem BookHas.poll (F : EntryFact P Q) {r u : Str} {s : SyncState ν} (h : BookHas P r u s.book)
    (hr : WholeLines r) (hu : WholeLines u) (h1 : Absorbed 6 resView r s.book s.resOff) (h2 : Absorbed 20 updView u s.book s.updOff)
    (hone : ∀ id, ¬ (RejectedIn id r ∧ UpdatedIn id u)) (ht : LineTimes u) : BookHas P r u (pollBoth true r u s).1.book := by
  intro id i hi
  rw [poll_dget hr hu h1 h2 hone] at hi
  cases h0 : dget s.book id with
  | none => rw [h0] at hi; cases hi
  | some i0 =>
    rw [h0] at hi
    simp only [Option.map_some, Option.some.injEq] at hi
    rw [← hi]
    exact F.pollP ht (h id i0 h0)

section
variable {γ : Type}

theorem AcctHas.merge (F : EntryFact P Q) {r u : Str} {a : Acct γ ν} (h : AcctHas Q r u a) (hwf : a.WF) {i : OrderInfo ν} {id : Str}
    (hid : i.orderId = some id) (hi : P r u id i) : AcctHas Q r u (a.mergeOrder i).1 := by
  simp only [Acct.mergeOrder, hid]
  cases hl : Order.load i with
  | error e => exact h
  | ok o =>
    have put : AcctHas Q r u (a.putOrder id o) := by
      intro id' o' ho
      rw [find_putOrder hwf] at ho
      split at ho
      · rename_i e; injection ho with ho; subst ho; subst e; exact F.loadQ hi hid hl
      · exact h id' o' ho
    simp only
    cases hf : a.find id with
    | none => exact put
    | some l =>
      simp only
      split
      · exact h
      · intro id' o' ho
        exact put id' o' ((find_congr (a := a.putOrder id o) rfl rfl id').trans ho)

theorem AcctHas.merges (F : EntryFact P Q) {r u : Str} {infos : List (OrderInfo ν)} {a : Acct γ ν} (h : AcctHas Q r u a) (hwf : a.WF)
    (hi : ∀ i ∈ infos, ∃ id, i.orderId = some id ∧ P r u id i) : AcctHas Q r u (a.mergeOrders infos).1 := by
  induction infos generalizing a with
  | nil => exact h
  | cons i is ih =>
    obtain ⟨id, hid, hp⟩ := hi i (by simp)
    have h1 := h.merge F hwf hid hp
    have h2 := wf_mergeOrder hwf i
    simp only [Acct.mergeOrders]
    cases hm : a.mergeOrder i with
    | mk b v =>
      rw [hm] at h1 h2
      cases v with
      | error e => exact h1
      | ok u => exact ih h1 h2 (fun j hj => hi j (by simp [hj]))

end

/-- The facts hold now. -/
structure FactInv (P : Str → Str → Str → OrderInfo ν → Prop) (Q : Str → Str → Str → Order ν → Prop) (conf : AXConf) (R U : Nat → Option Str)
    (t : PState ν) : Prop where
  book : BookHas P ((R t.acct.gate.n).getD []) ((U t.acct.gate.n).getD []) t.acct.gate.ax.book
  disk : BookHas P ((R t.acct.gate.n).getD []) ((U t.acct.gate.n).getD []) (loadOrders conf.dataDay t.acct.gate.ax.files)
  acct : AcctHas Q ((R t.acct.gate.n).getD []) ((U t.acct.gate.n).getD []) t.acct

variable [LawfulStore ν]

theorem fact_start {conf : AXConf} {env : Nat → Env} {R U : Nat → Option Str} {fs : Files} {n : Nat} {used : List Str}
    (h0 : fs (.data conf.dataDay) = none) : FactInv P Q conf R U (⟨Acct.init ⟨AX.setup conf fs, env, n⟩, [], used⟩ : PState ν) := by
  have hl : (loadOrders conf.dataDay fs : Book ν) = [] := by simp only [loadOrders, h0]
  refine ⟨?_, ?_, fun id o h => by cases h⟩
  · intro id i hi
    rw [show (PState.acct (ν := ν) ⟨Acct.init ⟨AX.setup conf fs, env, n⟩, [], used⟩).gate.ax.book = loadOrders conf.dataDay fs from rfl, hl] at hi
    cases hi
  · intro id i hi
    rw [show (PState.acct (ν := ν) ⟨Acct.init ⟨AX.setup conf fs, env, n⟩, [], used⟩).gate.ax.files = fs from rfl, hl] at hi
    cases hi

/-- The orders of the account after an operation, measured by the files at the operation. -/
theorem fact_acct (F : EntryFact P Q) {D : Str} {conf : AXConf} {env : Nat → Env} {R U : Nat → Option Str} (hB : Broker D env R U)
    (hign : conf.ignoreErr = true) {asked : List (Ack ν)} {s : PState ν} (op : AOp ν)
    (hi : FInv conf env R U asked s) (hf : FactInv P Q conf R U s) :
    AcctHas Q ((R s.acct.gate.n).getD []) ((U s.acct.gate.n).getD []) (s.acct.step (axGate ν) op).1 := by
  have hcur : s.acct.gate.cur = env s.acct.gate.n := by rw [AXG.cur, hi.henv]
  have hrd : ∀ f, s.acct.gate.ready.files f = (env s.acct.gate.n).ext s.acct.gate.ax.files f := fun f => by rw [AXG.ready, hcur]
  have hrconf : s.acct.gate.ready.conf = conf := hi.hconf
  have hday : s.acct.gate.cur.day = D := by rw [hcur, hB.day]
  have hru : s.acct.gate.ready.files (.updates D) = U s.acct.gate.n := by rw [hrd, hB.updates]
  have hrr : s.acct.gate.ready.files (.results D) = R s.acct.gate.n := by rw [hrd, hB.results]
  have hwr := hB.wholeR s.acct.gate.n
  have hwu := hB.wholeU s.acct.gate.n
  have hone := hB.one s.acct.gate.n
  have htimes := hB.times s.acct.gate.n
  have hpoll : BookHas P ((R s.acct.gate.n).getD []) ((U s.acct.gate.n).getD [])
      (pollBoth true ((R s.acct.gate.n).getD []) ((U s.acct.gate.n).getD []) ⟨s.acct.gate.ax.book, s.acct.gate.ax.resOff, s.acct.gate.ax.updOff⟩).1.book :=
    BookHas.poll (s := ⟨_, _, _⟩) F hf.book hwr hwu hi.res hi.upd hone htimes
  have hgood : BookOk asked ((R s.acct.gate.n).getD []) ((U s.acct.gate.n).getD [])
      (pollBoth true ((R s.acct.gate.n).getD []) ((U s.acct.gate.n).getD []) ⟨s.acct.gate.ax.book, s.acct.gate.ax.resOff, s.acct.gate.ax.updOff⟩).1.book :=
    BookOk.poll (s := ⟨_, _, _⟩) hi.book hwr hwu hi.res hi.upd hone htimes
  cases op with
  | order idn now code n st sd =>
    intro id o ho
    simp only [Acct.step] at ho
    rw [order_find hi.wf] at ho
    split at ho
    · rename_i e
      injection ho with ho
      subst ho; subst e
      exact F.newQ _ _ _ _ _ _ _
    · exact hf.acct id o ho
  | cancel id =>
    intro id' o ho
    simp only [Acct.step] at ho
    obtain ⟨h1, h2, _⟩ := cancel_fields (axGate ν) id s.acct
    rw [find_congr h1 h2] at ho
    exact hf.acct id' o ho
  | syncBalance =>
    intro id' o ho
    simp only [Acct.step] at ho
    obtain ⟨h1, h2, _⟩ := syncBalance_orders (axGate ν) s.acct
    rw [find_congr h1 h2] at ho
    exact hf.acct id' o ho
  | syncOrders =>
    simp only [Acct.step, Acct.syncOrders, tryExcept_fst', Acct.syncOrdersBody]
    cases hG : (axGate ν).orders s.acct.gate with
    | mk g r =>
      cases r with
      | error e => exact hf.acct
      | ok infos =>
        have hinf : ∀ i ∈ infos, ∃ id, i.orderId = some id ∧ P ((R s.acct.gate.n).getD []) ((U s.acct.gate.n).getD []) id i := by
          have h2 : (s.acct.gate.ready.syncOrders s.acct.gate.cur).2 = .ok infos := congrArg Prod.snd hG
          simp only [AX.syncOrders, hday, hru, hrr, hrconf, hign] at h2
          cases hu : U s.acct.gate.n with
          | none => rw [hu] at h2; cases h2
          | some u =>
            cases hr : R s.acct.gate.n with
            | none => rw [hu, hr] at h2; cases h2
            | some rr =>
              rw [hu, hr] at h2 hpoll hgood
              simp only [Option.getD_some] at hpoll hgood ⊢
              simp only at h2
              cases hp : pollBoth true rr u ⟨s.acct.gate.ready.book, s.acct.gate.ready.resOff, s.acct.gate.ready.updOff⟩ with
              | mk p v =>
                have hp' : (pollBoth true rr u ⟨s.acct.gate.ax.book, s.acct.gate.ax.resOff, s.acct.gate.ax.updOff⟩).1.book = p.book := congrArg (·.1.book) hp
                rw [hp'] at hpoll hgood
                rw [hp] at h2
                cases v with
                | error e => cases h2
                | ok _ =>
                  simp only at h2
                  split at h2
                  · cases h2
                  · injection h2 with h2
                    intro i hm
                    rw [← h2] at hm
                    obtain ⟨⟨id, i'⟩, hm1, rfl⟩ := List.mem_map.1 hm
                    have hok : DictOk p.book := by
                      have := poll_keys rr u ⟨s.acct.gate.ax.book, s.acct.gate.ax.resOff, s.acct.gate.ax.updOff⟩
                      rw [hp'] at this
                      rw [DictOk, this]; exact hi.ok
                    obtain ⟨k, _, g1, g2, _⟩ := hgood id i' (dget_of_mem hok hm1)
                    exact ⟨id, by rw [← g1]; exact g2.asked.1, hpoll id i' (dget_of_mem hok hm1)⟩
        have hm := AcctHas.merges (a := { s.acct with gate := g }) F hf.acct (wf_gate hi.wf g) hinf
        simp only
        cases hmm : ({ s.acct with gate := g } : Acct (AXG ν) ν).mergeOrders infos with
        | mk b v =>
          rw [hmm] at hm
          cases v with
          | error e => exact hm
          | ok _ => exact hm

/-- A step of the run. -/
theorem fact_step (F : EntryFact P Q) {D : Str} {conf : AXConf} {env : Nat → Env} {R U : Nat → Option Str} (hB : Broker D env R U)
    (hwin : conf.win = false) (hign : conf.ignoreErr = true) {asked : List (Ack ν)} {s t : PState ν} (op : AOp ν)
    (hi : FInv conf env R U asked s) (hf : FactInv P Q conf R U s) (h : PStepBy op s t) : FactInv P Q conf R U t := by
  have hcur : s.acct.gate.cur = env s.acct.gate.n := by rw [AXG.cur, hi.henv]
  have hrd : ∀ f, s.acct.gate.ready.files f = (env s.acct.gate.n).ext s.acct.gate.ax.files f := fun f => by rw [AXG.ready, hcur]
  have hdr : s.acct.gate.ready.files (.data conf.dataDay) = s.acct.gate.ax.files (.data conf.dataDay) := by rw [hrd, hB.data]
  have hrconf : s.acct.gate.ready.conf = conf := hi.hconf
  have hday : s.acct.gate.cur.day = D := by rw [hcur, hB.day]
  have hru : s.acct.gate.ready.files (.updates D) = U s.acct.gate.n := by rw [hrd, hB.updates]
  have hrr : s.acct.gate.ready.files (.results D) = R s.acct.gate.n := by rw [hrd, hB.results]
  have hwr := hB.wholeR s.acct.gate.n
  have hwu := hB.wholeU s.acct.gate.n
  have hlater : ∀ n', (n' = s.acct.gate.n ∨ n' = s.acct.gate.n + 1) → ∃ r u, (R n').getD [] = (R s.acct.gate.n).getD [] ++ r ∧
      (U n').getD [] = (U s.acct.gate.n).getD [] ++ u := by
    rintro n' (rfl | rfl)
    · exact ⟨[], [], by simp, by simp⟩
    · obtain ⟨r, hr⟩ := hB.growR s.acct.gate.n
      obtain ⟨u, hu⟩ := hB.growU s.acct.gate.n
      exact ⟨r, u, hr, hu⟩
  have bookLater : ∀ {n' b}, (n' = s.acct.gate.n ∨ n' = s.acct.gate.n + 1) →
      BookHas P ((R s.acct.gate.n).getD []) ((U s.acct.gate.n).getD []) b → BookHas P ((R n').getD []) ((U n').getD []) b := by
    intro n' b hn hb
    obtain ⟨r, u, h1, h2⟩ := hlater n' hn
    rw [h1, h2]; exact hb.later F hwr hwu r u
  have acctLater : ∀ {n'} {a : Acct (AXG ν) ν}, (n' = s.acct.gate.n ∨ n' = s.acct.gate.n + 1) →
      AcctHas Q ((R s.acct.gate.n).getD []) ((U s.acct.gate.n).getD []) a → AcctHas Q ((R n').getD []) ((U n').getD []) a := by
    intro n' a hn ha id o ho
    obtain ⟨r, u, h1, h2⟩ := hlater n' hn
    rw [h1, h2]; exact F.laterQ hwr hwu r u (ha id o ho)
  have hone := hB.one s.acct.gate.n
  have htimes := hB.times s.acct.gate.n
  have hpoll : BookHas P ((R s.acct.gate.n).getD []) ((U s.acct.gate.n).getD [])
      (pollBoth true ((R s.acct.gate.n).getD []) ((U s.acct.gate.n).getD []) ⟨s.acct.gate.ax.book, s.acct.gate.ax.resOff, s.acct.gate.ax.updOff⟩).1.book :=
    BookHas.poll (s := ⟨_, _, _⟩) F hf.book hwr hwu hi.res hi.upd hone htimes
  have hkeys := poll_keys ((R s.acct.gate.n).getD []) ((U s.acct.gate.n).getD []) ⟨s.acct.gate.ax.book, s.acct.gate.ax.resOff, s.acct.gate.ax.updOff⟩
  cases h with
  | op hfr =>
    obtain ⟨hn, heff⟩ := op_effect s.acct (by rw [AXG.cur, hi.henv]; exact hB.renames _) op
    have hacct := fact_acct F hB hign op hi hf
    simp only at heff
    rcases heff with ⟨e1, e2, e3, e4, e5⟩ | ⟨idn, now, code, n, st, sd, rfl, e1, e2, e3, e4⟩ | ⟨rfl, e0, u, r, eu, er, e1, e2⟩
    · have e1 : (s.acct.step (axGate ν) op).1.gate.ax.book = s.acct.gate.ax.book := e1
      have hd : (s.acct.step (axGate ν) op).1.gate.ax.files (.data conf.dataDay) = s.acct.gate.ax.files (.data conf.dataDay) := by
        rw [hrconf] at e4
        rcases e4 with e | e
        · exact e.trans hdr
        · exact e
      refine ⟨?_, ?_, acctLater hn hacct⟩
      · rw [e1]; exact bookLater hn hf.book
      · rw [load_data hd]; exact bookLater hn hf.disk
    · have e1 : (s.acct.step (axGate ν) (.order idn now code n st sd)).1.gate.ax.book = dset s.acct.gate.ax.book (natStr idn) (newInfo (natStr idn) now code n st) := e1
      have hb := hf.book.place F (natStr idn) now code n st
      have hok : DictOk (dset s.acct.gate.ax.book (natStr idn) (newInfo (natStr idn) now code n st)) := hi.ok.dset _ _
      rw [hrconf] at e4
      refine ⟨by rw [e1]; exact bookLater hn hb, ?_, acctLater hn hacct⟩
      rcases e4 with ⟨_, text, h1, h2⟩ | ⟨_, h2⟩
      · rw [e1] at h1
        rw [load_dumped hok h1 h2]; exact bookLater hn hb
      · rw [load_data (h2.trans hdr)]; exact bookLater hn hf.disk
    · rw [hday, hru] at eu
      rw [hday, hrr] at er
      rw [hrconf, hign] at e1
      have e1' : (⟨(s.acct.step (axGate ν) .syncOrders).1.gate.ax.book, (s.acct.step (axGate ν) .syncOrders).1.gate.ax.resOff,
          (s.acct.step (axGate ν) .syncOrders).1.gate.ax.updOff⟩ : SyncState ν) =
          (pollBoth true ((R s.acct.gate.n).getD []) ((U s.acct.gate.n).getD []) ⟨s.acct.gate.ax.book, s.acct.gate.ax.resOff, s.acct.gate.ax.updOff⟩).1 := by
        rw [eu, er]; exact e1
      rw [← e1'] at hpoll hkeys
      simp only at hpoll hkeys
      have hok : DictOk (s.acct.step (axGate ν) .syncOrders).1.gate.ax.book := by rw [DictOk, hkeys]; exact hi.ok
      rw [hrconf] at e2
      refine ⟨bookLater hn hpoll, ?_, acctLater hn hacct⟩
      rcases e2 with ⟨text, h1, h2⟩ | h2
      · rw [load_dumped hok h1 h2]; exact bookLater hn hpoll
      · rw [load_data (h2.trans hdr)]; exact bookLater hn hf.disk
  | crash ops pre hfr hc hp =>
    have hn : s.acct.gate.n + 1 = s.acct.gate.n ∨ s.acct.gate.n + 1 = s.acct.gate.n + 1 := .inr rfl
    have hdisk : BookHas P ((R s.acct.gate.n).getD []) ((U s.acct.gate.n).getD []) (loadOrders conf.dataDay (runOps s.acct.gate.ready.files pre)) := by
      rcases crash_data s.acct.gate.cur s.acct.gate.ready op ops pre (.inl (by rw [hrconf]; exact hwin)) hc hp with h | ⟨b, text, h1, h2, h3⟩
      · rw [hrconf] at h
        rw [load_data (h.trans hdr)]
        exact hf.disk
      · rw [hrconf] at h2
        rcases h3 with ⟨idn, now, code, n, st, sd, rfl, rfl⟩ | ⟨rfl, u, r, tt, eu, er, h3, rfl⟩
        · rw [load_dumped (hi.ok.dset _ _) h1 h2]
          exact hf.book.place F _ _ _ _ _
        · rw [hday, hru] at eu
          rw [hday, hrr] at er
          rw [hrconf, hign] at h3
          rw [eu, er] at hpoll hkeys
          simp only [Option.getD_some] at hpoll hkeys
          have e : (pollBoth true r u ⟨s.acct.gate.ax.book, s.acct.gate.ax.resOff, s.acct.gate.ax.updOff⟩).1.book = tt.book := congrArg (·.1.book) h3
          rw [e] at hpoll hkeys
          have hok : DictOk tt.book := by rw [DictOk, hkeys]; exact hi.ok
          rw [load_dumped hok h1 h2, eu, er]
          exact hpoll
    refine ⟨?_, bookLater hn hdisk, fun id o ho => by cases ho⟩
    show BookHas P _ _ (loadOrders s.acct.gate.ax.conf.dataDay _)
    rw [hi.hconf]; exact bookLater hn hdisk

end Jq
