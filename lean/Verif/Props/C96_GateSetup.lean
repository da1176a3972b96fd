import Verif.Lemmas.GateSetup
/-! # C96: the trade gate works with the settings that it was given -/
namespace Jq
variable {ν : Type} [CellNum ν] [Store ν]

omit [CellNum ν] in
/-- What a `setup` that returned has gone through. -/
private theorem setup_ok (E : SetupEnv) (o : GOpts) (s0 : GateSt ν) :
    (s0.setup E o).2 = .ok () ↔ ∃ dir run m, o.get c!"order_dir" (.str defaultOrderDir) = .str dir ∧ E.there dir = true ∧
      o.get c!"runtime_dir" (.str E.runtimeDir) = .str run ∧
      (E.there (joinPath run c!"data") = true ∨ E.mkdir (joinPath run c!"data") = .ok ()) ∧
      retryArgs (o.get c!"sync_retry_kwargs" (.dict [(c!"max_attempts", 3), (c!"attempt_internal", 0)] [])) = .ok m ∧
      s0.setup E o = (({ s0 with
        options := some o
        orderDir := .str dir
        counter := o.get c!"counter_type" (.str c!"UM0")
        algo := o.get c!"algo_type" (.str c!"DMA")
        dataFile := some (joinPath run c!"data", E.task, E.day)
        coding := o.get c!"file_encoding" (.str E.fsEncoding)
        ignoreErr := o.get c!"ignore_error_line" (.bool true)
        wraps := m :: s0.wraps
        waitInterval := o.get c!"wait_lock_internal" (.float 50000 '0' c!".05")
        waitTimeOut := o.get c!"wait_lock_time_out" (.int 5) } : GateSt ν).load E.read (dataPath (joinPath run c!"data") E.task E.day), .ok ()) := by
  simp only [GateSt.setup]
  cases hd : o.get c!"order_dir" (.str defaultOrderDir) with
  | str dir =>
    cases ht : E.there dir with
    | false => simp [OptVal.path, ht]
    | true =>
      cases hr : o.get c!"runtime_dir" (.str E.runtimeDir) with
      | str run =>
        cases hk : E.there (joinPath run c!"data") with
        | true =>
          cases hm : retryArgs (o.get c!"sync_retry_kwargs" (.dict [(c!"max_attempts", 3), (c!"attempt_internal", 0)] [])) with
          | ok m => simp [OptVal.path, ht, hk]
          | error e => simp [OptVal.path, ht, hk]
        | false =>
          cases hmk : E.mkdir (joinPath run c!"data") with
          | error e => simp [OptVal.path, ht, hk, hmk]
          | ok _ =>
            cases hm : retryArgs (o.get c!"sync_retry_kwargs" (.dict [(c!"max_attempts", 3), (c!"attempt_internal", 0)] [])) with
            | ok m => simp [OptVal.path, ht, hk, hmk]
            | error e => simp [OptVal.path, ht, hk, hmk]
      | _ => simp [OptVal.path, ht]
  | _ => simp [OptVal.path]

private theorem retryArgs_ok {o : GOpts} (ho : OptsOk o) :
    (∃ m, retryArgs (o.get c!"sync_retry_kwargs" (.dict [(c!"max_attempts", 3), (c!"attempt_internal", 0)] [])) = .ok m) ↔ HasRetryArgs o := by
  have key : ∀ v, InForce o c!"sync_retry_kwargs" (.dict [(c!"max_attempts", 3), (c!"attempt_internal", 0)] []) v →
      ∀ d t, v = .dict d t → DictOk d := by
    rintro v (hm | ⟨_, rfl⟩) d t e
    · subst e; exact ho.2 _ _ _ hm
    · cases e; simp [DictOk, dkeys]
  constructor
  · rintro ⟨m, hm⟩
    have hf := (inForce_iff ho.1 c!"sync_retry_kwargs" (.dict [(c!"max_attempts", 3), (c!"attempt_internal", 0)] []) _).2 rfl
    revert hm
    generalize hv : o.get c!"sync_retry_kwargs" (.dict [(c!"max_attempts", 3), (c!"attempt_internal", 0)] []) = v
    rw [hv] at hf
    intro hm
    cases v with
    | dict d t =>
      have hd := key _ hf d t rfl
      refine ⟨d, t, hf, ?_, ?_⟩
      · intro k w hk
        simp only [retryArgs] at hm
        split at hm
        · cases hm
        · rename_i hno
          have hk' : k ∈ dkeys d := List.mem_map.2 ⟨(k, w), hk, rfl⟩
          simp only [List.any_eq_true, Bool.not_eq_true', decide_eq_false_iff_not, not_exists, not_and, List.mem_cons, List.not_mem_nil, or_false,
            Decidable.not_not] at hno
          exact hno k hk'
      · intro w hw
        simp only [retryArgs, dget_of_mem hd hw, Option.getD_some] at hm
        split at hm
        · cases hm
        · split at hm
          · cases hm
          · rename_i h; omega
    | _ => cases hm
  · rintro ⟨d, t, hf, hk, hw⟩
    have hd := key _ hf d t rfl
    rw [(inForce_iff ho.1 _ _ _).1 hf]
    have h1 : ∀ k ∈ dkeys d, k = c!"on_exception" ∨ k = c!"max_attempts" ∨ k = c!"attempt_internal" := by
      intro k hkm
      obtain ⟨⟨k', w⟩, hm, rfl⟩ := List.mem_map.1 hkm
      exact hk k' w hm
    have h2 : (dget d c!"on_exception").getD 0 = 0 := by
      cases hg : dget d c!"on_exception" with
      | none => rfl
      | some w => exact hw w ((mem_iff_dget hd).2 hg)
    exact ⟨(dget d c!"max_attempts").getD 3, by simpa [retryArgs, h2, ← Decidable.or_iff_not_imp_left] using h1⟩

omit [CellNum ν] in
/-- `setup` returns exactly if the order directory exists, the directory of the data file exists or can be made, and the arguments for
retrying are those of `simple_retry`. -/
theorem c96_returns_iff (E : SetupEnv) (o : GOpts) (ho : OptsOk o) (s0 : GateSt ν) :
    (s0.setup E o).2 = .ok () ↔ HasOrderDir E o ∧ HasDataDir E o ∧ HasRetryArgs o := by
  rw [setup_ok, ← retryArgs_ok ho]
  constructor
  · rintro ⟨dir, run, m, h1, h2, h3, h4, h5, _⟩
    exact ⟨⟨dir, (inForce_iff ho.1 _ _ _).2 h1, h2⟩, ⟨run, (inForce_iff ho.1 _ _ _).2 h3, h4⟩, m, h5⟩
  · rintro ⟨⟨dir, h1, h2⟩, ⟨run, h3, h4⟩, m, h5⟩
    have h1' := (inForce_iff ho.1 _ _ _).1 h1
    have h3' := (inForce_iff ho.1 _ _ _).1 h3
    refine ⟨dir, run, m, h1', h2, h3', h4, h5, ?_⟩
    have h1'' : o.get c!"order_dir" (.str defaultOrderDir) = .str dir := h1'
    simp only [GateSt.setup, h1'', OptVal.path, h2, h3', h5]
    cases hk : E.there (joinPath run c!"data") with
    | true => simp
    | false =>
      rcases h4 with h4 | h4
      · rw [hk] at h4; cases h4
      · simp [h4]

omit [CellNum ν] in
/-- A missing order directory is told as `FileNotFoundError`. -/
theorem c96_missing_directory (E : SetupEnv) (o : GOpts) (ho : OptsOk o) (s0 : GateSt ν) (d : Str)
    (hd : InForce o c!"order_dir" (.str c!"C:\\Ax\\国投OneQuant\\csvTemplate\\DMA算法") (.str d)) (ht : E.there d = false) :
    (s0.setup E o).2 = .error .fileNotFound := by
  have h1 : o.get c!"order_dir" (.str defaultOrderDir) = .str d := (inForce_iff ho.1 _ _ _).1 hd
  simp [GateSt.setup, h1, OptVal.path, ht]

omit [CellNum ν] in
/-- Why `setup` raised: a directory that is not a string, an order directory that is not there, a data directory that cannot be made, or
arguments for retrying that are not those of `simple_retry`; what is wrong first counts. -/
theorem c96_raised (E : SetupEnv) (o : GOpts) (ho : OptsOk o) (s0 : GateSt ν) (e : PyErr) (h : (s0.setup E o).2 = .error e) :
    (∃ v, InForce o c!"order_dir" (.str c!"C:\\Ax\\国投OneQuant\\csvTemplate\\DMA算法") v ∧ (∀ d, v ≠ .str d) ∧ e = .typeError) ∨
    (∃ d, InForce o c!"order_dir" (.str c!"C:\\Ax\\国投OneQuant\\csvTemplate\\DMA算法") (.str d) ∧ E.there d = false ∧ e = .fileNotFound) ∨
    HasOrderDir E o ∧
      ((∃ v, InForce o c!"runtime_dir" (.str E.runtimeDir) v ∧ (∀ d, v ≠ .str d) ∧ e = .typeError) ∨
       (∃ run, InForce o c!"runtime_dir" (.str E.runtimeDir) (.str run) ∧ E.there (joinPath run c!"data") = false ∧
          E.mkdir (joinPath run c!"data") = .error e) ∨
       HasDataDir E o ∧ ∃ v, (c!"sync_retry_kwargs", v) ∈ o ∧
          (((∀ d t, v ≠ .dict d t) ∧ e = .typeError) ∨
           (∃ d t k w, v = .dict d t ∧ (k, w) ∈ d ∧ ¬ RetryWord k ∧ e = .typeError) ∨
           (∃ d t w, v = .dict d t ∧ (c!"on_exception", w) ∈ d ∧ w ≠ 0 ∧ (∀ k w, (k, w) ∈ d → RetryWord k) ∧ e = .valueError))) := by
  have hf1 := fun w => inForce_iff ho.1 c!"order_dir" (.str defaultOrderDir) w
  have hf2 := fun w => inForce_iff ho.1 c!"runtime_dir" (.str E.runtimeDir) w
  have hf3 := fun w => inForce_iff ho.1 c!"sync_retry_kwargs" (.dict [(c!"max_attempts", 3), (c!"attempt_internal", 0)] []) w
  simp only [GateSt.setup] at h
  cases hd : o.get c!"order_dir" (.str defaultOrderDir) with
  | str dir =>
    cases ht : E.there dir with
    | false =>
      simp [hd, OptVal.path, ht] at h
      exact .inr (.inl ⟨dir, (hf1 _).2 hd, ht, h.symm⟩)
    | true =>
      refine .inr (.inr ⟨⟨dir, (hf1 _).2 hd, ht⟩, ?_⟩)
      simp only [hd, OptVal.path, ht] at h
      cases hr : o.get c!"runtime_dir" (.str E.runtimeDir) with
      | str run =>
        refine .inr ?_
        rcases hmk : (if E.there (joinPath run c!"data") then .ok () else E.mkdir (joinPath run c!"data")) with e' | _
        · simp [hr, hmk] at h
          subst h
          refine .inl ⟨run, (hf2 _).2 hr, ?_⟩
          cases hk : E.there (joinPath run c!"data") with
          | true => simp [hk] at hmk
          | false => simpa [hk] using hmk
        · refine .inr ⟨⟨run, (hf2 _).2 hr, ?_⟩, ?_⟩
          · cases hk : E.there (joinPath run c!"data") with
            | true => exact .inl rfl
            | false => exact .inr (by simpa [hk] using hmk)
          · simp only [hr, hmk] at h
            generalize hv : o.get c!"sync_retry_kwargs" (.dict [(c!"max_attempts", 3), (c!"attempt_internal", 0)] []) = v at h
            have hin := (hf3 v).2 hv
            have he : retryArgs v = .error e := by
              revert h
              cases retryArgs v <;> simp
            have hm : (c!"sync_retry_kwargs", v) ∈ o := by
              rcases hin with h | ⟨_, rfl⟩
              · exact h
              · revert he; simp [retryArgs, dkeys, dget]
            refine ⟨v, hm, ?_⟩
            cases v with
            | dict d t =>
              have hdo : DictOk d := ho.2 _ _ _ hm
              simp only [retryArgs] at he
              split at he
              · rename_i hany
                simp only [List.any_eq_true] at hany
                obtain ⟨k, hk, hno⟩ := hany
                obtain ⟨⟨k', w⟩, hmem, rfl⟩ := List.mem_map.1 hk
                refine .inr (.inl ⟨d, t, k', w, rfl, hmem, ?_, by simpa using he.symm⟩)
                simpa [RetryWord] using hno
              · rename_i hany
                split at he
                · rename_i hw
                  refine .inr (.inr ?_)
                  cases hg : dget d c!"on_exception" with
                  | none => simp [hg] at hw
                  | some w =>
                    refine ⟨d, t, w, rfl, (mem_iff_dget hdo).2 hg, by simpa [hg] using hw, ?_, by simpa using he.symm⟩
                    intro k w hk
                    simp only [List.any_eq_true, Bool.not_eq_true', decide_eq_false_iff_not, not_exists, not_and, List.mem_cons, List.not_mem_nil, or_false,
                      Decidable.not_not] at hany
                    exact hany k (List.mem_map.2 ⟨(k, w), hk, rfl⟩)
                · cases he
            | _ =>
              simp only [retryArgs] at he
              exact .inl ⟨by simp, by simpa using he.symm⟩
      | _ =>
        simp [hr] at h
        exact .inl ⟨_, (hf2 _).2 hr, by simp, h.symm⟩
  | _ =>
    simp [hd, OptVal.path] at h
    exact .inl ⟨_, (hf1 _).2 hd, by simp, h.symm⟩

/-- After a `setup` that returned, the account works with the gate that the options describe: with the given or else the default settings,
whatever happens, every call has the outcome of the gate of `Model/TradeGate` with this configuration, and the files, the orders, the
positions, the cash and the messages are the same, and so is what the gate would report next. -/
theorem c96_as_configured (E : SetupEnv) (o : GOpts) (ho : OptsOk o) (before : List Int) (s : GateSt ν)
    (h : ({ wraps := before } : GateSt ν).setup E o = (s, .ok ())) (win : Bool) :
    ∃ conf, ConfiguredBy o before conf ∧ conf.dataDay = E.day ∧ conf.win = win ∧
      ∀ fs : Files, (∀ d, InForce o c!"runtime_dir" (.str E.runtimeDir) (.str d) →
          fs (.data E.day) = E.read (dataPath (joinPath d c!"data") E.task E.day)) →
        ∀ (env : Nat → Env) (n : Nat) (ops : List (AOp ν)) (op : AOp ν),
          let a := (Acct.init ⟨s, fs, env, n, win⟩ : Acct (GateIn ν) ν).run (gateIn ν) ops
          let b := (Acct.init ⟨AX.setup conf fs, env, n⟩ : Acct (AXG ν) ν).run (axGate ν) ops
          AlikeAccount a b ∧ a.gate.files = b.gate.ax.files ∧ a.gate.st.book = b.gate.ax.book ∧
            (a.step (gateIn ν) op).2 = (b.step (axGate ν) op).2 ∧ a.gate.n = b.gate.n ∧
            ((gateIn ν).orders a.gate).2 = ((axGate ν).orders b.gate).2 ∧
            ((gateIn ν).balance a.gate).2 = ((axGate ν).balance b.gate).2 := by
  have hok := (setup_ok E o ({ wraps := before } : GateSt ν)).1 (by rw [h])
  obtain ⟨dir, run, m, h1, h2, h3, h4, h5, h6⟩ := hok
  rw [h] at h6
  simp only [Prod.mk.injEq, and_true] at h6
  have hload : ∀ (r : Str → Option Str) (p : Str) (x : GateSt ν), (x.load r p) = { x with book := (x.load r p).book } := by
    intro r p x
    simp only [GateSt.load]
    split
    · rfl
    · split <;> rfl
  rw [hload] at h6
  have hup : s.Up o E.day := by
    rw [h6]
    exact ⟨rfl, ⟨dir, rfl⟩, ⟨_, _, rfl⟩, by simp⟩
  have hretry := (retryArgs_ok ho).1 ⟨m, h5⟩
  refine ⟨s.conf o E.day win, ⟨?_, ?_, ?_, ?_, ?_, ?_⟩, rfl, rfl, ?_⟩
  · refine ⟨_, (inForce_iff ho.1 _ _ _).2 rfl, ?_⟩
    simp only [AXConf.account, GateSt.conf]
    cases ht : (o.get c!"account_no" .none).truth with
    | false => simp
    | true => simp [text_ne_nil ht]
  · simp only [GateSt.conf]
    rw [inForce_iff ho.1]
    split
    · rename_i e; simp [e]
    · rename_i e; simp [e]
  · exact ⟨_, (inForce_iff ho.1 _ _ _).2 rfl, by rw [h6]; rfl⟩
  · exact ⟨_, (inForce_iff ho.1 _ _ _).2 rfl, by rw [h6]; rfl⟩
  · exact ⟨_, (inForce_iff ho.1 _ _ _).2 rfl, by rw [h6]; rfl⟩
  · obtain ⟨d, t, hf, hk, hw⟩ := hretry
    have hd : DictOk d := by
      rcases hf with hm | ⟨_, e⟩
      · exact ho.2 _ _ _ hm
      · cases e; simp [DictOk, dkeys]
    refine ⟨d, t, m, hf, by rw [h6]; rfl, ?_⟩
    rw [(inForce_iff ho.1 _ _ _).1 hf] at h5
    simp only [retryArgs] at h5
    split at h5
    · cases h5
    · split at h5
      · cases h5
      · have hm : (dget d c!"max_attempts").getD 3 = m := by injection h5
        constructor
        · intro k hk
          rw [dget_of_mem hd hk] at hm
          exact hm
        · intro hno
          rw [← hm]
          cases hg : dget d c!"max_attempts" with
          | none => rfl
          | some w => exact absurd ((mem_iff_dget hd).2 hg) (hno w)
  · intro fs hfs env n ops op a b
    have hbook : s.book = loadOrders E.day fs := by
      rw [h6]
      have hr := hfs run ((inForce_iff ho.1 _ _ _).2 h3)
      simp only [GateSt.load, loadOrders, hr]
      cases E.read (dataPath (joinPath run c!"data") E.task E.day) with
      | none => rfl
      | some text =>
        cases hl : (Store.load text : Option (Book ν)) <;> simp [hl]
    have hx : AX.setup (s.conf o E.day win) fs = s.toAX o E.day win fs := by
      have e1 : s.resOff = 0 := by rw [h6]
      have e2 : s.updOff = 0 := by rw [h6]
      have e3 : s.synced = false := by rw [h6]
      simp only [AX.setup, GateSt.toAX, e1, e2, e3, hbook]
      rfl
    have hR : SameUp o E.day win (⟨s, fs, env, n, win⟩ : GateIn ν) ⟨AX.setup (s.conf o E.day win) fs, env, n⟩ := ⟨hup, rfl, by rw [hx]⟩
    obtain ⟨h', hr', e⟩ := run_sim (sim_up o E.day win) ops (Acct.init ⟨s, fs, env, n, win⟩ : Acct (GateIn ν) ν) ⟨AX.setup (s.conf o E.day win) fs, env, n⟩ hR
    have hb : b = a.regate h' := e
    obtain ⟨h'', _, e'⟩ := step_sim (sim_up o E.day win) a h' hr' op
    refine ⟨by rw [hb]; exact ⟨rfl, rfl, rfl, rfl, rfl, rfl, rfl, rfl, rfl, rfl⟩, ?_, ?_, by rw [hb, e'], ?_, ?_, ?_⟩
    · rw [hb]
      show a.gate.files = h'.ax.files
      rw [hr'.2.2]; rfl
    · rw [hb]
      show a.gate.st.book = h'.ax.book
      rw [hr'.2.2]; rfl
    · rw [hb]
      show a.gate.n = h'.n
      rw [hr'.2.2]
    · rw [hb]
      exact ((sim_up o E.day win).orders _ _ hr').2
    · rw [hb]
      exact ((sim_up o E.day win).balance _ _ hr').2

/-- The files of a gate have different names, so that they are different files wherever the directories are. -/
theorem c96_files_distinct (dir dataDir task : Str) (f g : FileId) (hf : '/' ∉ f.day) (hg : '/' ∉ g.day)
    (h : fileAt (gatePath dir dataDir task f) = fileAt (gatePath dir dataDir task g)) : f = g := by
  have hdata : ∃ x : Str, ∀ d : Str, dataPath dataDir task d = x ++ (c!"_" ++ d ++ c!".json") := by
    cases task with
    | nil =>
      by_cases hd : dataDir = [] ∨ dataDir.getLast? = some '/'
      · exact ⟨dataDir, fun d => by simp [dataPath, joinPath, hd]⟩
      · exact ⟨dataDir ++ ['/'], fun d => by simp [dataPath, joinPath, hd]⟩
    | cons c t =>
      by_cases hc : c = '/'
      · exact ⟨c :: t, fun d => by simp [dataPath, joinPath, hc]⟩
      · by_cases hd : dataDir = [] ∨ dataDir.getLast? = some '/'
        · exact ⟨dataDir ++ (c :: t), fun d => by simp [dataPath, joinPath, hd, hc]⟩
        · exact ⟨dataDir ++ '/' :: (c :: t), fun d => by simp [dataPath, joinPath, hd, hc]⟩
  obtain ⟨x, hx⟩ := hdata
  have name : ∀ k : FileId, '/' ∉ k.day → (fileAt (gatePath dir dataDir task k)).2 = match k with
      | .orders d => c!"algoOrder_" ++ d ++ c!".csv"
      | .cancels d => c!"algoOrderStop_" ++ d ++ c!".csv"
      | .results d => c!"execResult_" ++ d ++ c!".csv"
      | .updates d => c!"orderUpdate_" ++ d ++ c!".csv"
      | .data d => (fileAt x).2 ++ (c!"_" ++ d ++ c!".json")
      | .tmp d => (fileAt x).2 ++ (c!"_" ++ d ++ c!".json" ++ c!".tmp") := by
    intro k hk
    cases k with
    | orders d => exact fileAt_join _ _ (by simpa [FileId.day] using hk)
    | cancels d => exact fileAt_join _ _ (by simpa [FileId.day] using hk)
    | results d => exact fileAt_join _ _ (by simpa [FileId.day] using hk)
    | updates d => exact fileAt_join _ _ (by simpa [FileId.day] using hk)
    | data d =>
      show (fileAt (dataPath dataDir task d)).2 = _
      rw [hx, fileAt_append _ _ (by simpa [FileId.day] using hk)]
    | tmp d =>
      show (fileAt (dataPath dataDir task d ++ c!".tmp")).2 = _
      rw [hx, List.append_assoc, fileAt_append _ _ (by simpa [FileId.day] using hk)]
  have hn := congrArg Prod.snd h
  rw [name f hf, name g hg] at hn
  have ends : ∀ (p q : Str) (w w' : Str), p ++ w = q ++ w' → w.length = w'.length → w = w' := fun p q w w' e l => (List.append_inj' e l).2
  have csv_data : ∀ p q : Str, p ++ c!".csv" ≠ q ++ c!".json" := fun p q e =>
    absurd (ends p (q ++ c!".") c!".csv" c!"json" (by simpa using e) rfl) (by decide)
  have csv_tmp : ∀ p q : Str, p ++ c!".csv" ≠ q ++ c!".tmp" := fun p q e => absurd (ends p q c!".csv" c!".tmp" e rfl) (by decide)
  have data_tmp : ∀ p q : Str, p ++ c!".json" ≠ q ++ c!".tmp" := fun p q e =>
    absurd (ends (p ++ c!".") q c!"json" c!".tmp" (by simpa using e) rfl) (by decide)
  cases f <;> cases g <;> simp only [← List.append_assoc] at hn
  all_goals first
    | exact absurd hn (csv_data _ _)
    | exact absurd hn.symm (csv_data _ _)
    | exact absurd hn (csv_tmp _ _)
    | exact absurd hn.symm (csv_tmp _ _)
    | exact absurd hn (data_tmp _ _)
    | exact absurd hn.symm (data_tmp _ _)
    | (simp at hn ⊢; done)
    | (simp at hn ⊢; exact hn)

/-! ## A gate that was not set up -/

/-- Before `setup` every call is refused, and changes nothing: there are no options, and no directory. -/
theorem c96_never_set_up (before : List Int) (win : Bool) (env : Env) (r : Order ν) (id : Str) (fs : Files) :
    let s : GateSt ν := { wraps := before }
    s.order win env r fs = ((s, fs), .error .attributeError) ∧ s.cancel win env id fs = ((s, fs), .error .typeError) ∧
    s.balance env = .error .typeError ∧ s.syncOrders env fs = ((s, fs), .error .typeError) := ⟨rfl, rfl, rfl, rfl⟩

/-! ## A `setup` that raised, and whose exception was caught -/

omit [Store ν] in
private theorem balance_unwrapped {s : GateSt ν} {o : GOpts} {dir : Str} (h1 : s.orderDir = .str dir) (h2 : s.options = some o) (h3 : s.wraps = [])
    (v : OptVal) (hv : o.get c!"account_no" .none = v) (ht : v.truth = true) (env : Env) (ha : env.assetsThere = true) :
    s.balance env = .error .indexError := by
  simp [GateSt.balance, h1, OptVal.path, ha, GateSt.option, h2, hv, ht, h3]

/-- In the first task of a process whose `sync_retry_kwargs` is refused, the assets and positions are never read: `_read_csv` looks for the path
in its second argument, which only the wrapped function has. -/
theorem c96_balance_unread (E : SetupEnv) (o : GOpts) (ho : OptsOk o) (hd : HasOrderDir E o) (hf : HasDataDir E o) (hr : ¬ HasRetryArgs o)
    (v : OptVal) (hv : (c!"account_no", v) ∈ o) (ht : v.truth = true) (env : Env) (ha : env.assetsThere = true) :
    (∃ e, (({} : GateSt ν).setup E o).2 = .error e) ∧ (({} : GateSt ν).setup E o).1.balance env = .error .indexError := by
  obtain ⟨dir, hd, hthere⟩ := hd
  obtain ⟨run, hrun, hmk⟩ := hf
  have h1 : o.get c!"order_dir" (.str defaultOrderDir) = .str dir := (inForce_iff ho.1 _ _ _).1 hd
  have h2 : o.get c!"runtime_dir" (.str E.runtimeDir) = .str run := (inForce_iff ho.1 _ _ _).1 hrun
  have h3 : (if E.there (joinPath run c!"data") then .ok () else E.mkdir (joinPath run c!"data")) = .ok () := by
    rcases hmk with h | h
    · simp [h]
    · rw [h]; split <;> rfl
  have h4 : ∃ e, retryArgs (o.get c!"sync_retry_kwargs" (.dict [(c!"max_attempts", 3), (c!"attempt_internal", 0)] [])) = .error e := by
    cases h : retryArgs (o.get c!"sync_retry_kwargs" (.dict [(c!"max_attempts", 3), (c!"attempt_internal", 0)] [])) with
    | error e => exact ⟨e, rfl⟩
    | ok m => exact absurd ((retryArgs_ok ho).1 ⟨m, h⟩) hr
  obtain ⟨e, h4⟩ := h4
  have h5 : o.get c!"account_no" .none = v := (inForce_iff ho.1 _ _ _).1 (.inl hv)
  simp only [GateSt.setup, h1, OptVal.path, hthere, h2, h3, h4]
  exact ⟨⟨e, rfl⟩, balance_unwrapped rfl rfl rfl v h5 ht env ha⟩

private theorem keeps_no_file (a : Acct (GateIn ν) ν) (h : a.gate.st.dataFile = none) (op : AOp ν) :
    (a.step (gateIn ν) op).1.gate.st.dataFile = none ∧ (a.step (gateIn ν) op).1.synced = a.synced ∧
      (∀ idn now code n st sd id, op = .order idn now code n st sd → (a.step (gateIn ν) op).2 ≠ .ok (some id)) := by
  have horder : ∀ (g : GateIn ν) (r : Order ν), g.st.dataFile = none →
      ((gateIn ν).order g r).1.st.dataFile = none ∧ ∃ e, ((gateIn ν).order g r).2 = .error e := by
    intro g r hg
    simp only [gateIn, GateSt.order]
    split
    · exact ⟨hg, _, rfl⟩
    · split
      · exact ⟨hg, _, rfl⟩
      · split
        · exact ⟨hg, _, rfl⟩
        · split
          · exact ⟨hg, _, rfl⟩
          · simp only [GateSt.save, hg]
            exact ⟨trivial, _, rfl⟩
  have hcancel : ∀ (g : GateIn ν) (id : Str), g.st.dataFile = none → ((gateIn ν).cancel g id).1.st.dataFile = none := by
    intro g id hg
    simp only [gateIn, GateSt.cancel]
    split <;> exact hg
  have horders : ∀ (g : GateIn ν), g.st.dataFile = none →
      ((gateIn ν).orders g).1.st.dataFile = none ∧ ∃ e, ((gateIn ν).orders g).2 = .error e := by
    intro g hg
    simp only [gateIn, GateSt.syncOrders]
    split
    · exact ⟨hg, _, rfl⟩
    · split
      · split
        · exact ⟨hg, _, rfl⟩
        · simp only [GateSt.save, hg]
          exact ⟨trivial, _, rfl⟩
      · exact ⟨hg, _, rfl⟩
  cases op with
  | order idn now code n st sd =>
    simp only [Acct.step, Acct.order]
    cases Order.load (newOrderInfo (natStr idn) now code n st) with
    | error e => exact ⟨h, rfl, by simp⟩
    | ok o =>
      have hg : (a.putOrder (natStr idn) o).gate = a.gate := rfl
      obtain ⟨h1, e, h2⟩ := horder a.gate o h
      simp only [Acct.orderBody, hg]
      rcases hr : (gateIn ν).order a.gate o with ⟨g, r⟩
      rw [hr] at h1 h2
      simp only at h2
      subst h2
      exact ⟨h1, rfl, by simp [tryExcept]⟩
  | cancel id =>
    refine ⟨?_, ?_, by simp⟩
    all_goals
      simp only [Acct.step, Acct.cancel, Acct.cancelBody]
      by_cases hm : id ∈ dkeys a.orders
      · simp only [hm, if_true]
        have := hcancel a.gate id h
        cases hr : ((gateIn ν).cancel a.gate id).2 <;> simp [tryExcept, this]
      · simp [hm, tryExcept, h]
  | syncBalance =>
    have hb : ∀ (is : List (PosInfo ν)) (x : Acct (GateIn ν) ν), (Acct.loadPositions is x).1.gate = x.gate ∧ (Acct.loadPositions is x).1.synced = x.synced := by
      intro is
      induction is with
      | nil => intro x; exact ⟨rfl, rfl⟩
      | cons i is ih =>
        intro x
        simp only [Acct.loadPositions]
        cases Pos.load i with
        | error e => exact ⟨rfl, rfl⟩
        | ok p =>
          have : (x.putPos p).gate = x.gate ∧ (x.putPos p).synced = x.synced := by
            simp only [Acct.putPos]
            cases p.side <;> exact ⟨rfl, rfl⟩
          have h2 := ih (x.putPos p)
          exact ⟨h2.1.trans this.1, h2.2.trans this.2⟩
    have htry : ∀ (r : Acct (GateIn ν) ν × Py Unit), (tryExcept () r).1 = r.1 := by
      rintro ⟨x, r⟩; cases r <;> rfl
    have hg : ((gateIn ν).balance a.gate).1.st = a.gate.st := rfl
    refine ⟨?_, ?_, by simp⟩
    all_goals
      simp only [Acct.step, Acct.syncBalance, htry, Acct.syncBalanceBody]
      rcases hr : (gateIn ν).balance a.gate with ⟨g, r⟩
      rw [hr] at hg
      simp only at hg
      cases r with
      | error e => simp [hg, h]
      | ok info =>
        simp only [Acct.applyBalance]
        cases info.cash with
        | none => simp [hg, h]
        | some c =>
          cases info.positions with
          | none => simp [hg, h]
          | some ps => simp only [(hb ps _).1, (hb ps _).2, hg, h]
  | syncOrders =>
    obtain ⟨h1, e, h2⟩ := horders a.gate h
    simp only [Acct.step, Acct.syncOrders, Acct.syncOrdersBody]
    rcases hr : (gateIn ν).orders a.gate with ⟨g, r⟩
    rw [hr] at h1 h2
    simp only at h2
    subst h2
    exact ⟨h1, rfl, by simp⟩

/-- The order directory was missing during `setup` and the exception was caught: whatever happens afterwards, no order is acknowledged and
no synchronisation of the orders succeeds.  (Not claimed, see below: that nothing is sent.) -/
theorem c96_not_set_up_partial (E : SetupEnv) (o : GOpts) (ho : OptsOk o) (before : List Int) (d : Str)
    (hd : InForce o c!"order_dir" (.str c!"C:\\Ax\\国投OneQuant\\csvTemplate\\DMA算法") (.str d)) (ht : E.there d = false)
    (fs : Files) (env : Nat → Env) (win : Bool) (ops : List (AOp ν)) :
    let s := (({ wraps := before } : GateSt ν).setup E o).1
    let a := (Acct.init ⟨s, fs, env, 0, win⟩ : Acct (GateIn ν) ν).run (gateIn ν) ops
    a.synced = false ∧ ∀ idn now code n st sd id, (a.step (gateIn ν) (.order idn now code n st sd)).2 ≠ .ok (some id) := by
  intro s a
  have hs : s.dataFile = none := by
    have h1 : o.get c!"order_dir" (.str defaultOrderDir) = .str d := (inForce_iff ho.1 _ _ _).1 hd
    simp [s, GateSt.setup, h1, OptVal.path, ht]
  have key : ∀ (ops : List (AOp ν)) (x : Acct (GateIn ν) ν), x.gate.st.dataFile = none →
      (x.run (gateIn ν) ops).gate.st.dataFile = none ∧ (x.run (gateIn ν) ops).synced = x.synced := by
    intro ops
    induction ops with
    | nil => intro x hx; exact ⟨hx, rfl⟩
    | cons op ops ih =>
      intro x hx
      obtain ⟨k1, k2, _⟩ := keeps_no_file x hx op
      have := ih (x.step (gateIn ν) op).1 k1
      exact ⟨this.1, this.2.trans k2⟩
  obtain ⟨k1, k2⟩ := key ops (Acct.init ⟨s, fs, env, 0, win⟩) hs
  exact ⟨k2, fun idn now code n st sd id => (keeps_no_file a k1 (.order idn now code n st sd)).2.2 idn now code n st sd id rfl⟩

private def today : Env := { now := ⟨2024, 1, 2, 9, 30, 0, 25⟩, day := c!"20240102" }

private def opts : GOpts := [(c!"account_no", .int 88), (c!"order_dir", .str c!"/oq"), (c!"algo_type", .str c!"TWAP")]

private def there (dirs : List Str) (data : Option Str) : SetupEnv :=
  { there := fun p => decide (p ∈ dirs), runtimeDir := c!"/run", task := c!"t", day := c!"20240102", read := fun _ => data }

private def started (E : SetupEnv) (o : GOpts) (fs : Files) : Acct (GateIn Int) Int :=
  Acct.init ⟨(({} : GateSt Int).setup E o).1, fs, fun _ => today, 0, false⟩

private def buy (idn : Nat) : AOp Int := .order idn today.now c!"600000.XSHG" 100 (.market 0) .long

/-- The directory is missing when the task starts and is there later (the user starts the trading program): `order` returns `None`, but the
order has been sent, with `None` as counter and as algorithm. -/
theorem c96_sent_without_settings_refuted :
    let E := there [] none
    let a := started E opts fun _ => none
    (({} : GateSt Int).setup E opts).2 = .error .fileNotFound ∧
    (a.step (gateIn Int) (buy 7)).2 = .ok none ∧
    (a.step (gateIn Int) (buy 7)).1.gate.files (.orders c!"20240102") =
      some (orderHeader ++ c!"\n093000.000025,7,None,88,600000.SH,1,100,None,P6,0,0,0\n") := by
  decide +kernel

/-- `sync_retry_kwargs` is refused after the data file has been chosen and before it is read: the gate accepts orders, and the first of
them replaces the data file.  Orders that were acknowledged before are forgotten, also by later tasks whose options are right. -/
theorem c96_orders_replaced_refuted :
    let wrong := opts ++ [(c!"sync_retry_kwargs", .none)]
    let first := ((started (there [c!"/oq"] none) opts fun _ => none).step (gateIn Int) (buy 7)).1
    let data := first.gate.files (.data c!"20240102")
    let second := (started (there [c!"/oq"] data) wrong first.gate.files).step (gateIn Int) (buy 8)
    let third := started (there [c!"/oq"] (second.1.gate.files (.data c!"20240102"))) opts second.1.gate.files
    ((started (there [c!"/oq"] none) opts fun _ => none).step (gateIn Int) (buy 7)).2 = .ok (some c!"7") ∧
    (({} : GateSt Int).setup (there [c!"/oq"] data) wrong).2 = .error .typeError ∧
    second.2 = .ok (some c!"8") ∧
    dkeys (started (there [c!"/oq"] data) opts first.gate.files).gate.st.book = [c!"7"] ∧
    dkeys third.gate.st.book = [c!"8"] := by
  decide +kernel

/-- An account type that is not supported is not refused by `setup`; every single order is, later, and no message of `setup` says so. -/
theorem c96_account_type_refuted (E : SetupEnv) (o : GOpts) (ho : OptsOk o) (before : List Int) (s : GateSt ν)
    (hd : HasOrderDir E o) (hf : HasDataDir E o) (hr : HasRetryArgs o)
    (hs : s = (({ wraps := before } : GateSt ν).setup E o).1) (v : OptVal) (hv : (c!"account_type", v) ∈ o) (hne : v ≠ .str c!"STOCK") :
    (({ wraps := before } : GateSt ν).setup E o).2 = .ok () ∧
    ∀ (win : Bool) (env : Env) (r : Order ν) (fs : Files), s.order win env r fs = ((s, fs), .error .invalidParam) := by
  have hok := (c96_returns_iff E o ho ({ wraps := before } : GateSt ν)).2 ⟨hd, hf, hr⟩
  refine ⟨hok, ?_⟩
  obtain ⟨dir, run, m, h1, h2, h3, h4, h5, h6⟩ := (setup_ok E o ({ wraps := before } : GateSt ν)).1 hok
  have hopt : s.options = some o := by
    rw [hs, h6]
    simp only [GateSt.load]
    split
    · rfl
    · split <;> rfl
  intro win env r fs
  have hg : o.get c!"account_type" (.str c!"STOCK") = v := (inForce_iff ho.1 _ _ _).1 (.inl hv)
  have hfields : s.fields env.now r = .error .invalidParam := by
    simp only [GateSt.fields, GateSt.option, hopt, hg, bind, Except.bind]
    split
    · rfl
    · rfl
  simp [GateSt.order, hfields]

/-! ## Non-vacuity -/

/-- The hypotheses of `c96_balance_unread`, and its conclusion. -/
example :
    let wrong := opts ++ [(c!"sync_retry_kwargs", .dict [(c!"attempts", 5)] c!"'attempts': 5}")]
    (({} : GateSt Int).setup (there [c!"/oq"] none) wrong).2 = .error .typeError ∧ (c!"account_no", .int 88) ∈ wrong ∧
    (({} : GateSt Int).setup (there [c!"/oq"] none) wrong).1.balance today = .error .indexError := by
  decide +kernel

/-- A gate with settings given and left out; the order record shows them. -/
example :
    let a := (started (there [c!"/oq", c!"/run/data"] none) opts fun _ => none).step (gateIn Int) (buy 7)
    (({} : GateSt Int).setup (there [c!"/oq", c!"/run/data"] none) opts).2 = .ok () ∧ a.2 = .ok (some c!"7") ∧
    a.1.gate.files (.orders c!"20240102") = some (orderHeader ++ c!"\n093000.000025,7,UM0,88,600000.SH,1,100,TWAP,P6,0,0,0\n") := by
  decide +kernel

/-- An account number and an algorithm given as `True` and `False`: the line has the words that Python prints. -/
example :
    ((started (there [c!"/oq"] none) [(c!"account_no", .bool true), (c!"order_dir", .str c!"/oq"), (c!"algo_type", .bool false)]
      fun _ => none).step (gateIn Int) (buy 7)).1.gate.files (.orders c!"20240102") =
      some (orderHeader ++ c!"\n093000.000025,7,UM0,True,600000.SH,1,100,False,P6,0,0,0\n") := by
  decide +kernel

/-- Non-vacuity of `c96_raised`. -/
example : let out := fun (o : GOpts) (E : SetupEnv) => (({} : GateSt Int).setup E o).2
    out [(c!"order_dir", .none)] (there [c!"/oq"] none) = .error .typeError ∧
    out (opts ++ [(c!"runtime_dir", .int 3)]) (there [c!"/oq"] none) = .error .typeError ∧
    out opts { there [c!"/oq"] none with mkdir := fun _ => .error .osError } = .error .osError ∧
    out (opts ++ [(c!"sync_retry_kwargs", .dict [(c!"on_exception", 1)] [])]) (there [c!"/oq"] none) = .error .valueError ∧
    out (opts ++ [(c!"sync_retry_kwargs", .dict [(c!"on_exception", 1), (c!"times", 1)] [])]) (there [c!"/oq"] none) = .error .typeError := by
  decide +kernel

example : OptsOk opts ∧ OptsOk (opts ++ [(c!"sync_retry_kwargs", .dict [(c!"max_attempts", 5)] c!"'max_attempts': 5}")]) := by
  refine ⟨⟨by simp [DictOk, dkeys, opts], by simp [opts]⟩, ⟨by simp [DictOk, dkeys, opts], ?_⟩⟩
  intro k d t h
  simp [opts] at h
  rw [h.2.1]
  simp [DictOk, dkeys]

example : HasOrderDir (there [c!"/oq"] none) opts ∧ HasDataDir (there [c!"/oq"] none) opts ∧ HasRetryArgs opts :=
  ⟨⟨c!"/oq", .inl (by decide), by decide⟩, ⟨c!"/run", .inr ⟨by simp [opts], rfl⟩, .inr rfl⟩,
    ⟨_, _, .inr ⟨by simp [opts], rfl⟩, by simp [RetryWord]; grind, by simp⟩⟩

example : fileAt (gatePath c!"/oq" c!"/run/data" c!"t" (.tmp c!"20240102")) = ([c!"run", c!"data"], c!"t_20240102.json.tmp") ∧
    fileAt (gatePath c!"/oq" c!"/run/data" c!"t" (.cancels c!"20240102")) = ([c!"oq"], c!"algoOrderStop_20240102.csv") := by decide +kernel

end Jq
