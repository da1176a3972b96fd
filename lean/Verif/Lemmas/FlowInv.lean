import Verif.Lemmas.Flow
set_option linter.unusedSectionVars false
/-! What holds at all times during a day with crashes and restarts. -/
namespace Jq
variable {ν : Type} [CellNum ν] [Store ν]

/-- The entries of an order book are orders that were asked for; an order that the files do not name is as it was made. -/
def BookOk (asked : List (Ack ν)) (results updates : Str) (b : Book ν) : Prop :=
  ∀ id i, dget b id = some i → ∃ k ∈ asked, k.id = id ∧ Good k i ∧
    (¬ RejectedIn id results → ¬ UpdatedIn id updates → i = newInfo k.id k.now k.code k.amount k.style)

theorem bookOk_nil (asked : List (Ack ν)) (results updates : Str) : BookOk asked results updates [] := by
  intro id i h; cases h

theorem BookOk.asked {asked more : List (Ack ν)} {results updates : Str} {b : Book ν} (h : BookOk asked results updates b) :
    BookOk (asked ++ more) results updates b := by
  intro id i hi
  obtain ⟨k, h1, h2⟩ := h id i hi
  exact ⟨k, by simp [h1], h2⟩

theorem BookOk.later {asked : List (Ack ν)} {results updates : Str} {b : Book ν} (h : BookOk asked results updates b)
    (hr : WholeLines results) (hu : WholeLines updates) (r u : Str) : BookOk asked (results ++ r) (updates ++ u) b := by
  intro id i hi
  obtain ⟨k, h1, h2, h3, h4⟩ := h id i hi
  exact ⟨k, h1, h2, h3, fun g1 g2 => h4 (fun e => g1 (e.mono hr r)) (fun e => g2 (e.mono hu u))⟩

theorem BookOk.place {asked : List (Ack ν)} {results updates : Str} {b : Book ν} (h : BookOk asked results updates b) (k : Ack ν) (hk : k.now.ok) :
    BookOk (asked ++ [k]) results updates (dset b k.id (newInfo k.id k.now k.code k.amount k.style)) := by
  intro id i hi
  rw [dget_dset] at hi
  split at hi
  · rename_i he
    injection hi with hi
    subst hi
    exact ⟨k, by simp, he, good_new k hk, fun _ _ => rfl⟩
  · exact h.asked id i hi

/-- The values after a poll. -/
theorem poll_dget {results updates : Str} {s : SyncState ν} (hr : WholeLines results) (hu : WholeLines updates)
    (h1 : Absorbed 6 resView results s.book s.resOff) (h2 : Absorbed 20 updView updates s.book s.updOff)
    (hone : ∀ id, ¬ (RejectedIn id results ∧ UpdatedIn id updates)) (id : Str) :
    dget (pollBoth true results updates s).1.book id =
      ((dget s.book id).map (linesView 6 resView id ((rawLines results).takeWhile (notStop 6)))).map
        (linesView 20 updView id ((rawLines updates).takeWhile (notStop 20))) :=
  poll_value ⟨s, results, updates⟩ ⟨hr, hu, h1, h2⟩ hone id

theorem poll_absorbs {results updates : Str} {s : SyncState ν} (hr : WholeLines results) (hu : WholeLines updates)
    (h1 : Absorbed 6 resView results s.book s.resOff) (h2 : Absorbed 20 updView updates s.book s.updOff)
    (hone : ∀ id, ¬ (RejectedIn id results ∧ UpdatedIn id updates)) :
    Absorbed 6 resView results (pollBoth true results updates s).1.book (pollBoth true results updates s).1.resOff ∧
    Absorbed 20 updView updates (pollBoth true results updates s).1.book (pollBoth true results updates s).1.updOff :=
  have h := syncInv_step ⟨s, results, updates⟩ .poll ⟨hr, hu, h1, h2⟩ hone
  ⟨h.res, h.upd⟩

theorem BookOk.poll {asked : List (Ack ν)} {results updates : Str} {s : SyncState ν} (h : BookOk asked results updates s.book)
    (hr : WholeLines results) (hu : WholeLines updates)
    (h1 : Absorbed 6 resView results s.book s.resOff) (h2 : Absorbed 20 updView updates s.book s.updOff)
    (hone : ∀ id, ¬ (RejectedIn id results ∧ UpdatedIn id updates))
    (ht : ∀ l ∈ rawLines updates, ∀ items ln d, lineKind 20 l.1 = .fields items → OrderLine.ofItems items = .ok ln →
      strptime mCompact (ln.orderDate ++ ln.orderTime) = .ok d → 1000 ≤ d.year) :
    BookOk asked results updates (pollBoth true results updates s).1.book := by
  intro id i hi
  rw [poll_dget hr hu h1 h2 hone] at hi
  cases h0 : dget s.book id with
  | none => rw [h0] at hi; cases hi
  | some i0 =>
    rw [h0] at hi
    simp only [Option.map_some, Option.some.injEq] at hi
    obtain ⟨k, g1, g2, g3, g4⟩ := h id i0 h0
    refine ⟨k, g1, g2, ?_, fun e1 e2 => ?_⟩
    · rw [← hi]
      exact (g3.refused _ _).updated _ _ (fun l hl => ht l ((List.takeWhile_sublist _).subset hl))
    · rw [← hi, linesView_trivial (cols := 6) id _ (fun l hl => not_rejected_view e1 l ((List.takeWhile_sublist _).subset hl)),
        linesView_trivial (cols := 20) id _ (fun l hl => not_updated_view e2 l ((List.takeWhile_sublist _).subset hl))]
      exact g4 e1 e2

section
variable {γ : Type}

/-- The orders of the account are orders that were asked for. -/
def AcctOk (asked : List (Ack ν)) (a : Acct γ ν) : Prop := ∀ id o, a.find id = some o → ∃ k ∈ asked, k.id = id ∧ o.AsAsked k

theorem AcctOk.merge {asked : List (Ack ν)} {a : Acct γ ν} (h : AcctOk asked a) (hwf : a.WF) {i : OrderInfo ν}
    (hi : ∃ k ∈ asked, Good k i) : AcctOk asked (a.mergeOrder i).1 := by
  obtain ⟨k, hk, hg⟩ := hi
  obtain ⟨r, hl, hr⟩ := hg.load
  have put : AcctOk asked (a.putOrder k.id r) := by
    intro id o ho
    rw [find_putOrder hwf] at ho
    split at ho
    · rename_i e; injection ho with ho; subst ho; exact ⟨k, hk, e, hr⟩
    · exact h id o ho
  simp only [Acct.mergeOrder, hg.asked.1, hl]
  cases hf : a.find k.id with
  | none => exact put
  | some l =>
    simp only
    split
    · exact h
    · intro id o ho
      exact put id o ((find_congr (a := a.putOrder k.id r) rfl rfl id).trans ho)

theorem AcctOk.merges {asked : List (Ack ν)} {infos : List (OrderInfo ν)} {a : Acct γ ν} (h : AcctOk asked a) (hwf : a.WF)
    (hi : ∀ i ∈ infos, ∃ k ∈ asked, Good k i) : AcctOk asked (a.mergeOrders infos).1 := by
  induction infos generalizing a with
  | nil => exact h
  | cons i is ih =>
    have h1 := h.merge hwf (hi i (by simp))
    have h2 := wf_mergeOrder hwf i
    simp only [Acct.mergeOrders]
    cases hm : a.mergeOrder i with
    | mk b v =>
      rw [hm] at h1 h2
      cases v with
      | error e => exact h1
      | ok u => exact ih h1 h2 (fun j hj => hi j (by simp [hj]))

end

/-- What holds at all times. -/
structure FInv (conf : AXConf) (env : Nat → Env) (R U : Nat → Option Str) (asked : List (Ack ν)) (t : PState ν) : Prop where
  hconf : t.acct.gate.ax.conf = conf
  henv : t.acct.gate.env = env
  wf : t.acct.WF
  used : ∀ k ∈ asked, k.id ∈ t.used
  uniq : ∀ k ∈ asked, ∀ k' ∈ asked, k.id = k'.id → k = k'
  ok : DictOk t.acct.gate.ax.book
  book : BookOk asked ((R t.acct.gate.n).getD []) ((U t.acct.gate.n).getD []) t.acct.gate.ax.book
  disk : BookOk asked ((R t.acct.gate.n).getD []) ((U t.acct.gate.n).getD []) (loadOrders conf.dataDay t.acct.gate.ax.files)
  res : Absorbed 6 resView ((R t.acct.gate.n).getD []) t.acct.gate.ax.book t.acct.gate.ax.resOff
  upd : Absorbed 20 updView ((U t.acct.gate.n).getD []) t.acct.gate.ax.book t.acct.gate.ax.updOff
  acks : ∀ k ∈ t.acks, k ∈ asked ∧ k.id ∈ dkeys t.acct.gate.ax.book ∧ k.id ∈ dkeys (loadOrders conf.dataDay t.acct.gate.ax.files : Book ν)
  acct : AcctOk asked t.acct

variable [LawfulStore ν]

theorem finv_start {conf : AXConf} {env : Nat → Env} {R U : Nat → Option Str} {fs : Files} {n : Nat} {used : List Str}
    (h0 : fs (.data conf.dataDay) = none) : FInv conf env R U ([] : List (Ack ν)) ⟨Acct.init ⟨AX.setup conf fs, env, n⟩, [], used⟩ := by
  have hl : (loadOrders conf.dataDay fs : Book ν) = [] := by simp only [loadOrders, h0]
  refine ⟨rfl, rfl, wf_init _, by simp, by simp, load_dictOk _ _, ?_, ?_, absorbed_zero _ _, absorbed_zero _ _, by simp, ?_⟩
  · show BookOk _ _ _ (loadOrders conf.dataDay fs); rw [hl]; exact bookOk_nil _ _ _
  · show BookOk _ _ _ (loadOrders conf.dataDay fs); rw [hl]; exact bookOk_nil _ _ _
  · intro id o h; cases h

/-- A step of the run. -/
theorem finv_step {D : Str} {conf : AXConf} {env : Nat → Env} {R U : Nat → Option Str} (hB : Broker D env R U) (hwin : conf.win = false)
    (hign : conf.ignoreErr = true) {asked : List (Ack ν)} {s t : PState ν} (op : AOp ν) (hi : FInv conf env R U asked s) (h : PStepBy op s t)
    (hnew : ∀ k ∈ op.asks, k.now.ok ∧ ¬ RejectedIn k.id ((R s.acct.gate.n).getD []) ∧ ¬ UpdatedIn k.id ((U s.acct.gate.n).getD [])) :
    FInv conf env R U (asked ++ op.asks) t := by
  have hcur : s.acct.gate.cur = env s.acct.gate.n := by rw [AXG.cur, hi.henv]
  have hrd : ∀ f, s.acct.gate.ready.files f = (env s.acct.gate.n).ext s.acct.gate.ax.files f := fun f => by rw [AXG.ready, hcur]
  have hdr : s.acct.gate.ready.files (.data conf.dataDay) = s.acct.gate.ax.files (.data conf.dataDay) := by rw [hrd, hB.data]
  have hrconf : s.acct.gate.ready.conf = conf := hi.hconf
  have hday : s.acct.gate.cur.day = D := by rw [hcur, hB.day]
  have hru : s.acct.gate.ready.files (.updates D) = U s.acct.gate.n := by rw [hrd, hB.updates]
  have hrr : s.acct.gate.ready.files (.results D) = R s.acct.gate.n := by rw [hrd, hB.results]
  have hdraw : op.asks.map (·.id) = op.draws := by cases op <;> rfl
  have hfresh : ∀ id ∈ op.draws, id ∉ s.used := by cases h <;> assumption
  have hused : t.used = s.used ++ op.draws := by cases h <;> rfl
  have hused' : ∀ k ∈ asked ++ op.asks, k.id ∈ t.used := by
    intro k hk
    rw [hused]
    rcases List.mem_append.1 hk with hk | hk
    · simp [hi.used k hk]
    · rw [← hdraw]; exact List.mem_append.2 (.inr (List.mem_map_of_mem hk))
  have huniq' : ∀ k ∈ asked ++ op.asks, ∀ k' ∈ asked ++ op.asks, k.id = k'.id → k = k' := by
    have hx : ∀ k ∈ asked, ∀ k' ∈ op.asks, k.id ≠ k'.id := by
      intro k hk k' hk' e
      exact hfresh k'.id (by rw [← hdraw]; exact List.mem_map_of_mem hk') (e ▸ hi.used k hk)
    intro k hk k' hk' e
    rcases List.mem_append.1 hk with hk | hk <;> rcases List.mem_append.1 hk' with hk' | hk'
    · exact hi.uniq k hk k' hk' e
    · exact absurd e (hx k hk k' hk')
    · exact absurd e.symm (hx k' hk' k hk)
    · cases op <;> simp only [AOp.asks, List.mem_singleton, List.not_mem_nil] at hk hk'
      rw [hk, hk']
  -- the files at the next call
  have hlater : ∀ n', (n' = s.acct.gate.n ∨ n' = s.acct.gate.n + 1) → ∃ r u, (R n').getD [] = (R s.acct.gate.n).getD [] ++ r ∧
      (U n').getD [] = (U s.acct.gate.n).getD [] ++ u := by
    rintro n' (rfl | rfl)
    · exact ⟨[], [], by simp, by simp⟩
    · obtain ⟨r, hr⟩ := hB.growR s.acct.gate.n
      obtain ⟨u, hu⟩ := hB.growU s.acct.gate.n
      exact ⟨r, u, hr, hu⟩
  have hwr := hB.wholeR s.acct.gate.n
  have hwu := hB.wholeU s.acct.gate.n
  have bookLater : ∀ {n' b}, (n' = s.acct.gate.n ∨ n' = s.acct.gate.n + 1) →
      BookOk (asked ++ op.asks) ((R s.acct.gate.n).getD []) ((U s.acct.gate.n).getD []) b → BookOk (asked ++ op.asks) ((R n').getD []) ((U n').getD []) b := by
    intro n' b hn hb
    obtain ⟨r, u, h1, h2⟩ := hlater n' hn
    rw [h1, h2]; exact hb.later hwr hwu r u
  have resLater : ∀ {n' b off}, (n' = s.acct.gate.n ∨ n' = s.acct.gate.n + 1) → Absorbed 6 (resView (ν := ν)) ((R s.acct.gate.n).getD []) b off →
      Absorbed 6 (resView (ν := ν)) ((R n').getD []) b off := by
    intro n' b off hn hb
    obtain ⟨r, u, h1, h2⟩ := hlater n' hn
    rw [h1]; exact absorbed_append hwr r hb
  have updLater : ∀ {n' b off}, (n' = s.acct.gate.n ∨ n' = s.acct.gate.n + 1) → Absorbed 20 (updView (ν := ν)) ((U s.acct.gate.n).getD []) b off →
      Absorbed 20 (updView (ν := ν)) ((U n').getD []) b off := by
    intro n' b off hn hb
    obtain ⟨r, u, h1, h2⟩ := hlater n' hn
    rw [h2]; exact absorbed_append hwu u hb
  have hone := hB.one s.acct.gate.n
  have htimes := hB.times s.acct.gate.n
  have hpoll : BookOk asked ((R s.acct.gate.n).getD []) ((U s.acct.gate.n).getD [])
      (pollBoth true ((R s.acct.gate.n).getD []) ((U s.acct.gate.n).getD []) ⟨s.acct.gate.ax.book, s.acct.gate.ax.resOff, s.acct.gate.ax.updOff⟩).1.book :=
    BookOk.poll (s := ⟨_, _, _⟩) hi.book hwr hwu hi.res hi.upd hone htimes
  have hplace : ∀ idn now code n st sd, op = .order idn now code n st sd →
      BookOk (asked ++ op.asks) ((R s.acct.gate.n).getD []) ((U s.acct.gate.n).getD [])
        (dset s.acct.gate.ax.book (natStr idn) (newInfo (natStr idn) now code n st)) := by
    rintro idn now code n st sd rfl
    exact hi.book.place ⟨natStr idn, now, code, n, st⟩ (hnew _ (by simp [AOp.asks])).1
  cases h with
  | op hfr =>
    obtain ⟨hst1, hst2⟩ := axg_step_static s.acct op
    obtain ⟨hn, heff⟩ := op_effect s.acct (by rw [AXG.cur, hi.henv]; exact hB.renames _) op
    have hconf' : (s.acct.step (axGate ν) op).1.gate.ax.conf = conf := hst2.trans hi.hconf
    have hacct : AcctOk (asked ++ op.asks) (s.acct.step (axGate ν) op).1 := by
      have hbase : AcctOk (asked ++ op.asks) s.acct := by
        intro id o ho
        obtain ⟨k, h1, h2⟩ := hi.acct id o ho
        exact ⟨k, by simp [h1], h2⟩
      cases op with
      | order idn now code n st sd =>
        intro id o ho
        simp only [Acct.step] at ho
        rw [order_find hi.wf] at ho
        split at ho
        · rename_i e
          injection ho with ho
          subst ho
          refine ⟨⟨natStr idn, now, code, n, st⟩, by simp [AOp.asks], e, rfl, rfl, ?_, rfl, rfl, rfl, rfl⟩
          simp only [newOrder]; split <;> omega
        · exact hbase id o ho
      | cancel id =>
        intro id' o ho
        simp only [Acct.step] at ho
        obtain ⟨h1, h2, _⟩ := cancel_fields (axGate ν) id s.acct
        rw [find_congr h1 h2] at ho
        exact hbase id' o ho
      | syncBalance =>
        intro id' o ho
        simp only [Acct.step] at ho
        obtain ⟨h1, h2, _⟩ := syncBalance_orders (axGate ν) s.acct
        rw [find_congr h1 h2] at ho
        exact hbase id' o ho
      | syncOrders =>
        simp only [Acct.step, Acct.syncOrders, tryExcept_fst', Acct.syncOrdersBody]
        cases hG : (axGate ν).orders s.acct.gate with
        | mk g r =>
          cases r with
          | error e => exact hbase
          | ok infos =>
            have hinf : ∀ i ∈ infos, ∃ k ∈ asked ++ (AOp.syncOrders : AOp ν).asks, Good k i := by
              have h2 : (s.acct.gate.ready.syncOrders s.acct.gate.cur).2 = .ok infos := congrArg Prod.snd hG
              simp only [AX.syncOrders, hday, hru, hrr, hrconf, hign] at h2
              cases hu : U s.acct.gate.n with
              | none => rw [hu] at h2; cases h2
              | some u =>
                cases hr : R s.acct.gate.n with
                | none => rw [hu, hr] at h2; cases h2
                | some rr =>
                  rw [hu, hr] at h2 hpoll
                  simp only [Option.getD_some] at hpoll
                  simp only at h2
                  cases hp : pollBoth true rr u ⟨s.acct.gate.ready.book, s.acct.gate.ready.resOff, s.acct.gate.ready.updOff⟩ with
                  | mk p v =>
                    have hp' : (pollBoth true rr u ⟨s.acct.gate.ax.book, s.acct.gate.ax.resOff, s.acct.gate.ax.updOff⟩).1.book = p.book := congrArg (·.1.book) hp
                    rw [hp'] at hpoll
                    rw [hp] at h2
                    cases v with
                    | error e => cases h2
                    | ok _ =>
                      simp only at h2
                      split at h2
                      · cases h2
                      · injection h2 with h2
                        intro i hm
                        rw [← h2] at hm
                        obtain ⟨⟨id, i'⟩, hm1, rfl⟩ := List.mem_map.1 hm
                        have hok : DictOk p.book := by
                          have := poll_keys rr u ⟨s.acct.gate.ax.book, s.acct.gate.ax.resOff, s.acct.gate.ax.updOff⟩
                          rw [hp'] at this
                          rw [DictOk, this]; exact hi.ok
                        obtain ⟨k, g1, _, g2, _⟩ := hpoll id i' (dget_of_mem hok hm1)
                        exact ⟨k, by simp [g1], g2⟩
            have hm := AcctOk.merges (a := { s.acct with gate := g }) hbase (wf_gate hi.wf g) hinf
            simp only
            cases hmm : ({ s.acct with gate := g } : Acct (AXG ν) ν).mergeOrders infos with
            | mk b v =>
              rw [hmm] at hm
              cases v with
              | error e => exact hm
              | ok _ => exact hm
    simp only at heff
    rcases heff with ⟨e1, e2, e3, e4, e5⟩ | ⟨idn, now, code, n, st, sd, rfl, e1, e2, e3, e4⟩ | ⟨rfl, e0, u, r, eu, er, e1, e2⟩
    · have e1 : (s.acct.step (axGate ν) op).1.gate.ax.book = s.acct.gate.ax.book := e1
      have hd : (s.acct.step (axGate ν) op).1.gate.ax.files (.data conf.dataDay) = s.acct.gate.ax.files (.data conf.dataDay) := by
        rw [hrconf] at e4
        rcases e4 with e | e
        · exact e.trans hdr
        · exact e
      refine ⟨hconf', hst1.trans hi.henv, wf_step hi.wf _ op, hused', huniq', ?_, ?_, ?_, ?_, ?_, ?_, hacct⟩
      · rw [e1]; exact hi.ok
      · rw [e1]; exact bookLater hn hi.book.asked
      · rw [load_data hd]; exact bookLater hn hi.disk.asked
      · rw [e1, e2]; exact resLater hn hi.res
      · rw [e1, e3]; exact updLater hn hi.upd
      · rw [e5, List.append_nil, load_data hd]
        simp only [e1]
        intro k hk
        obtain ⟨h1, h2, h3⟩ := hi.acks k hk
        exact ⟨by simp [h1], h2, h3⟩
    · have e1 : (s.acct.step (axGate ν) (.order idn now code n st sd)).1.gate.ax.book = dset s.acct.gate.ax.book (natStr idn) (newInfo (natStr idn) now code n st) := e1
      have hb := hplace idn now code n st sd rfl
      obtain ⟨hnow, hnr, hnu⟩ := hnew _ (List.mem_singleton.2 rfl)
      simp only at hnr hnu
      have hok : DictOk (dset s.acct.gate.ax.book (natStr idn) (newInfo (natStr idn) now code n st)) := hi.ok.dset _ _
      have hkeys : ∀ {b : Book ν} {k : Str} {v}, k ∈ dkeys b → k ∈ dkeys (dset b (natStr idn) v) := by
        intro b k v hk
        rw [mem_dkeys_iff] at hk ⊢
        rw [dget_dset]; split
        · rfl
        · exact hk
      rw [hrconf] at e4
      refine ⟨hconf', hst1.trans hi.henv, wf_step hi.wf _ _, hused', huniq', by rw [e1]; exact hok, by rw [e1]; exact bookLater hn hb, ?_, ?_, ?_, ?_, hacct⟩
      · rcases e4 with ⟨_, text, h1, h2⟩ | ⟨_, h2⟩
        · rw [e1] at h1
          rw [load_dumped hok h1 h2]; exact bookLater hn hb
        · rw [load_data (h2.trans hdr)]; exact bookLater hn hi.disk.asked
      · rw [e1, e2]
        refine resLater hn (absorbed_congr hi.res fun id' _ => ?_)
        by_cases he : natStr idn = id'
        · subst he; exact .inr (not_rejected_view hnr)
        · exact .inl (dget_dset_ne _ he _)
      · rw [e1, e3]
        refine updLater hn (absorbed_congr hi.upd fun id' _ => ?_)
        by_cases he : natStr idn = id'
        · subst he; exact .inr (not_updated_view hnu)
        · exact .inl (dget_dset_ne _ he _)
      · rcases e4 with ⟨h0, text, h1, h2⟩ | ⟨h0, h2⟩
        · rw [e1] at h1
          rw [load_dumped hok h1 h2]
          simp only [e1, h0]
          intro k hk
          rcases List.mem_append.1 hk with hk | hk
          · obtain ⟨g1, g2, g3⟩ := hi.acks k hk
            exact ⟨by simp [g1], hkeys g2, hkeys g2⟩
          · refine ⟨by simp [hk], ?_⟩
            simp only [AOp.asks, List.mem_singleton] at hk
            subst hk
            have : natStr idn ∈ dkeys (dset s.acct.gate.ax.book (natStr idn) (newInfo (natStr idn) now code n st)) := by
              rw [mem_dkeys_iff, dget_dset_self]; rfl
            exact ⟨this, this⟩
        · rw [load_data (h2.trans hdr)]
          simp only [e1, h0, List.append_nil]
          intro k hk
          obtain ⟨g1, g2, g3⟩ := hi.acks k hk
          exact ⟨by simp [g1], hkeys g2, g3⟩
    · rw [hday, hru] at eu
      rw [hday, hrr] at er
      rw [hrconf, hign] at e1
      have hpa := poll_absorbs (s := ⟨s.acct.gate.ax.book, s.acct.gate.ax.resOff, s.acct.gate.ax.updOff⟩) hwr hwu hi.res hi.upd hone
      have hk := poll_keys ((R s.acct.gate.n).getD []) ((U s.acct.gate.n).getD []) ⟨s.acct.gate.ax.book, s.acct.gate.ax.resOff, s.acct.gate.ax.updOff⟩
      have e1' : (⟨(s.acct.step (axGate ν) .syncOrders).1.gate.ax.book, (s.acct.step (axGate ν) .syncOrders).1.gate.ax.resOff,
          (s.acct.step (axGate ν) .syncOrders).1.gate.ax.updOff⟩ : SyncState ν) =
          (pollBoth true ((R s.acct.gate.n).getD []) ((U s.acct.gate.n).getD []) ⟨s.acct.gate.ax.book, s.acct.gate.ax.resOff, s.acct.gate.ax.updOff⟩).1 := by
        rw [eu, er]; exact e1
      rw [← e1'] at hpoll hpa hk
      simp only at hpoll hpa hk
      have hok : DictOk (s.acct.step (axGate ν) .syncOrders).1.gate.ax.book := by rw [DictOk, hk]; exact hi.ok
      rw [hrconf] at e2
      have hb : BookOk (asked ++ (AOp.syncOrders : AOp ν).asks) _ _ _ := hpoll.asked
      refine ⟨hconf', hst1.trans hi.henv, wf_step hi.wf _ _, hused', huniq', hok, bookLater hn hb, ?_, resLater hn hpa.1, updLater hn hpa.2, ?_, hacct⟩
      · rcases e2 with ⟨text, h1, h2⟩ | h2
        · rw [load_dumped hok h1 h2]; exact bookLater hn hb
        · rw [load_data (h2.trans hdr)]; exact bookLater hn hi.disk.asked
      · rw [e0, List.append_nil]
        intro k hk'
        obtain ⟨g1, g2, g3⟩ := hi.acks k hk'
        refine ⟨by simp [g1], by rw [hk]; exact g2, ?_⟩
        rcases e2 with ⟨text, h1, h2⟩ | h2
        · rw [load_dumped hok h1 h2, hk]; exact g2
        · rw [load_data (h2.trans hdr)]; exact g3
  | crash ops pre hfr hc hp =>
    have hn : s.acct.gate.n + 1 = s.acct.gate.n ∨ s.acct.gate.n + 1 = s.acct.gate.n + 1 := .inr rfl
    have hdisk : BookOk (asked ++ op.asks) ((R s.acct.gate.n).getD []) ((U s.acct.gate.n).getD []) (loadOrders conf.dataDay (runOps s.acct.gate.ready.files pre)) ∧
        ∀ k ∈ s.acks, k.id ∈ dkeys (loadOrders conf.dataDay (runOps s.acct.gate.ready.files pre) : Book ν) := by
      rcases crash_data s.acct.gate.cur s.acct.gate.ready op ops pre (.inl (by rw [hrconf]; exact hwin)) hc hp with h | ⟨b, text, h1, h2, h3⟩
      · rw [hrconf] at h
        rw [load_data (h.trans hdr)]
        exact ⟨hi.disk.asked, fun k hk => (hi.acks k hk).2.2⟩
      · rw [hrconf] at h2
        rcases h3 with ⟨idn, now, code, n, st, sd, rfl, rfl⟩ | ⟨rfl, u, r, tt, eu, er, h3, rfl⟩
        · rw [load_dumped (hi.ok.dset _ _) h1 h2]
          refine ⟨hplace idn now code n st sd rfl, fun k hk => ?_⟩
          have := (hi.acks k hk).2.1
          rw [mem_dkeys_iff] at this ⊢
          rw [dget_dset]; split
          · rfl
          · exact this
        · rw [hday, hru] at eu
          rw [hday, hrr] at er
          rw [hrconf, hign] at h3
          rw [eu, er] at hpoll
          simp only [Option.getD_some] at hpoll
          have e : (pollBoth true r u ⟨s.acct.gate.ax.book, s.acct.gate.ax.resOff, s.acct.gate.ax.updOff⟩).1.book = tt.book := congrArg (·.1.book) h3
          have hk := poll_keys r u ⟨s.acct.gate.ax.book, s.acct.gate.ax.resOff, s.acct.gate.ax.updOff⟩
          rw [e] at hpoll hk
          have hok : DictOk tt.book := by rw [DictOk, hk]; exact hi.ok
          rw [load_dumped hok h1 h2, eu, er]
          exact ⟨hpoll.asked, fun k hk' => by rw [hk]; exact (hi.acks k hk').2.1⟩
    refine ⟨hi.hconf, hi.henv, wf_init _, hused', huniq', ?_, ?_, ?_, absorbed_zero _ _, absorbed_zero _ _, ?_, ?_⟩
    · exact load_dictOk _ _
    · show BookOk _ _ _ (loadOrders s.acct.gate.ax.conf.dataDay _)
      rw [hi.hconf]; exact bookLater hn hdisk.1
    · exact bookLater hn hdisk.1
    · intro k hk
      refine ⟨by simp [(hi.acks k hk).1], ?_, hdisk.2 k hk⟩
      show _ ∈ dkeys (loadOrders s.acct.gate.ax.conf.dataDay _)
      rw [hi.hconf]; exact hdisk.2 k hk
    · intro id o ho; cases ho

end Jq
