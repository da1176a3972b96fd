import Verif.Props.C66_Numbering
import Verif.Props.C76_Options
import Verif.Model.Launch
/-! # C90: what `run_daily`, `set_options`, the start and `print` refuse -/
namespace Jq
variable {γ ν μ : Type}

/-- `run_daily` raises `AttributeError` exactly for an object without a name, `InvalidCall` exactly for one with a name outside
`process_initialize`, and `InvalidParam` exactly for one with a name, inside, that cannot be called.  Then nothing has changed. -/
theorem c90_task_refused (s : StratSt) (f : FuncObj) (t : Str) (e : PyErr) :
    s.runDaily f t = (s, .error e) ↔
      (f.fname = none ∧ e = .attributeError) ∨ (f.fname ≠ none ∧ s.allowed = false ∧ e = .invalidCall) ∨
      (f.fname ≠ none ∧ s.allowed = true ∧ f.callable = false ∧ e = .invalidParam) := by
  cases hf : f.fname with
  | none => simp [StratSt.runDaily, hf]; exact eq_comm
  | some n =>
    cases ha : s.allowed
    · simp [StratSt.runDaily, hf, ha]; exact eq_comm
    · cases hc : f.callable
      · simp [StratSt.runDaily, hf, ha, hc]; exact eq_comm
      · simp [StratSt.runDaily, hf, ha, hc]

example : (({} : StratSt).runDaily ⟨1, none, true⟩ c!"open").2 = .error .attributeError ∧
    (({} : StratSt).runDaily ⟨1, some c!"f", false⟩ c!"open").2 = .error .invalidCall ∧
    (({ allowed := true } : StratSt).runDaily ⟨1, some c!"f", false⟩ c!"open").2 = .error .invalidParam := by decide +kernel

/-- The options ask for an account: they say so, or say nothing and the configuration does. -/
def AsksAccount (cfg : Bool) (o : Opts) : Prop := o.useAccount = some true ∨ (o.useAccount = none ∧ cfg = true)

/-- What can be wrong when options have been understood, in the order in which it is found. -/
inductive OptionsRefused (cfg : Bool) (o : Opts) (mkdir : Py Unit) (gateConfigured : Bool) (ctor : Py γ) (setup : γ → Py Unit) : PyErr → Prop
  /-- the runtime directory cannot be made -/
  | directory (e : PyErr) : mkdir = .error e → OptionsRefused cfg o mkdir gateConfigured ctor setup e
  /-- there is no account number -/
  | number : mkdir = .ok () → AsksAccount cfg o → o.accountNo = none → OptionsRefused cfg o mkdir gateConfigured ctor setup .invalidParam
  /-- no trade gate is configured -/
  | noGate : mkdir = .ok () → AsksAccount cfg o → o.accountNo ≠ none → gateConfigured = false →
      OptionsRefused cfg o mkdir gateConfigured ctor setup .configError
  /-- the trade gate cannot be made -/
  | gate (e : PyErr) : mkdir = .ok () → AsksAccount cfg o → o.accountNo ≠ none → gateConfigured = true → ctor = .error e →
      OptionsRefused cfg o mkdir gateConfigured ctor setup e
  /-- the trade gate does not accept the options -/
  | options (g : γ) (e : PyErr) : mkdir = .ok () → AsksAccount cfg o → o.accountNo ≠ none → gateConfigured = true → ctor = .ok g →
      setup g = .error e → OptionsRefused cfg o mkdir gateConfigured ctor setup e

private theorem use_iff (cfg : Bool) (o o' : Opts) (h : o'.useAccount = o.useAccount) : o'.useAccount.getD cfg = true ↔ AsksAccount cfg o := by
  rw [h]
  unfold AsksAccount
  cases o.useAccount <;> simp

/-- `set_options` with options that can be understood raises exactly what is wrong first; what the account raises is an input. -/
theorem c90_options_refused (s : StratSt) (hs : s.allowed = true) (o o' : Opts) (hk : KeptOptions o o') (env : OptEnv) (e : PyErr) :
    (s.setOptions o env).2 = .error e ↔
      OptionsRefused s.setupAccountCfg o env.mkdir env.gateConfigured env.gateCtor (fun _ => env.acctSetup) e := by
  simp only [StratSt.setOptions, hs, Bool.not_true, Bool.false_eq_true, if_false, (parse_iff _ _).2 hk]
  have hn := hk.same.2.2.2.2
  have hu := use_iff s.setupAccountCfg o o' hk.same.1
  constructor
  · intro h
    split at h
    · rename_i e' hm; cases h; exact .directory e hm
    · rename_i hm
      split at h
      · rename_i huse
        have huse := hu.1 huse
        simp only [StratSt.setupAccount] at h
        split at h
        · rename_i h0
          cases h
          exact .number hm huse (by rw [← hn]; simpa using h0)
        · rename_i h0
          have h0 : o.accountNo ≠ none := by rw [← hn]; simpa using h0
          split at h
          · rename_i hg
            cases h
            exact .noGate hm huse h0 (by simpa using hg)
          · rename_i hg
            have hg : env.gateConfigured = true := by simpa using hg
            split at h
            · rename_i e' hc; cases h; exact .gate e hm huse h0 hg hc
            · rename_i hc; exact .options () e hm huse h0 hg hc h
      · cases h
  · intro h
    cases h with
    | directory _ hm => rw [hm]
    | number hm huse h0 => simp [hm, hu.2 huse, StratSt.setupAccount, hn, h0]
    | noGate hm huse h0 hg => simp [hm, hu.2 huse, StratSt.setupAccount, hn, h0, hg]
    | gate _ hm huse h0 hg hc => simp [hm, hu.2 huse, StratSt.setupAccount, hn, h0, hg, hc]
    | options _ _ hm huse h0 hg hc ha =>
      simp [hm, hu.2 huse, StratSt.setupAccount, hn, h0, hg]
      rw [hc]
      exact ha

/-- Several things are wrong: the first one counts; and the account's own exception. -/
example : let s : StratSt := { allowed := true }
    (s.setOptions {} { gateConfigured := false }).2 = .error .invalidParam ∧
    (s.setOptions { accountNo := some c!"1" } { gateConfigured := false, gateCtor := .error .typeError }).2 = .error .configError ∧
    (s.setOptions {} { mkdir := .error .osError }).2 = .error .osError ∧
    (s.setOptions { accountNo := some c!"1" } { acctSetup := .error .keyError }).2 = .error .keyError ∧
    (s.setOptions { useAccount := some false } { acctSetup := .error .keyError }).2 = .ok () := by decide +kernel
example : KeptOptions {} {} ∧ AsksAccount true {} :=
  ⟨⟨.none, .none, by simp, by simp⟩, .inr ⟨rfl, rfl⟩⟩

/-- The same when a process starts: what is wrong first is raised; and if nothing is and no account is asked for, or neither the balance nor the
orders are to be synchronised, `set_options` returns. -/
theorem c90_start_refused [PyNum ν] (E : StartEnv γ ν) (s : StartSt γ ν μ) (hs : s.strat.allowed = true) (o o' : Opts)
    (hk : KeptOptions o o') (inp : OptInputs γ) :
    let Refused := OptionsRefused s.strat.setupAccountCfg o inp.mkdir inp.gateConfigured inp.gateCtor (fun g => (E.gateSetup o' g).2)
    (∀ e, Refused e → ∃ s', s.setOptions E o inp = some (s', .error e)) ∧
    ((∀ e, ¬ Refused e) → (¬ AsksAccount s.strat.setupAccountCfg o ∨ (wantBalance E o = false ∧ wantOrders E o = false)) →
      ∃ s', s.setOptions E o inp = some (s', .ok ())) := by
  have hn := hk.same.2.2.2.2
  have hu := use_iff s.strat.setupAccountCfg o o' hk.same.1
  simp only [StartSt.setOptions, hs, Bool.not_true, Bool.false_eq_true, if_false, (parse_iff _ _).2 hk]
  constructor
  · intro e h
    cases h with
    | directory _ hm => rw [hm]; exact ⟨_, rfl⟩
    | number hm huse h0 => simp [hm, hu.2 huse, hn, h0]
    | noGate hm huse h0 hg => simp [hm, hu.2 huse, hn, h0, hg]
    | gate _ hm huse h0 hg hc => simp [hm, hu.2 huse, hn, h0, hg, hc]
    | options g _ hm huse h0 hg hc ha =>
      have hsplit : E.gateSetup o' g = ((E.gateSetup o' g).1, .error e) := by rw [← ha]
      simp only [hm, hu.2 huse, if_true, hn, hg, hc]
      rw [if_neg (by simpa using h0)]
      simp only [Bool.not_true, Bool.false_eq_true, if_false, StartSt.accountSetup]
      rw [hsplit]
      simp only [Except.isOk, Except.toBool, Bool.false_and, Bool.false_eq_true, if_false, Acct.setup, Acct.init]
      rw [hsplit]
      exact ⟨_, rfl⟩
  · intro hno hor
    cases hm : inp.mkdir with
    | error e => exact absurd (.directory e hm) (hno e)
    | ok u =>
      simp only
      split
      · rename_i huse
        have huse := hu.1 huse
        have hw : wantBalance E o = false ∧ wantOrders E o = false := by
          rcases hor with h | h
          · exact absurd huse h
          · exact h
        split
        · rename_i h0
          exact absurd (.number hm huse (by rw [← hn]; simpa using h0)) (hno _)
        · rename_i h0
          have h0 : o.accountNo ≠ none := by rw [← hn]; simpa using h0
          split
          · rename_i hg
            exact absurd (.noGate hm huse h0 (by simpa using hg)) (hno _)
          · rename_i hg
            have hg : inp.gateConfigured = true := by simpa using hg
            split
            · rename_i e hc; exact absurd (.gate e hm huse h0 hg hc) (hno _)
            · rename_i g hc
              have hb : E.cfg.needBalance o' = false := by
                rw [← hw.1]; simp only [ProcCfg.needBalance, wantBalance, hk.same.2.1]; cases o.syncBalance <;> rfl
              have ho : E.cfg.needOrders o' = false := by
                rw [← hw.2]; simp only [ProcCfg.needOrders, wantOrders, hk.same.2.2.1]; cases o.syncOrder <;> rfl
              cases hq : (E.gateSetup o' g).2 with
              | error e => exact absurd (.options g e hm huse h0 hg hc hq) (hno _)
              | ok u =>
                have hsplit : E.gateSetup o' g = ((E.gateSetup o' g).1, .ok ()) := by rw [← hq]
                simp only [StartSt.accountSetup, hb, ho, Bool.or_false, Bool.and_false, Bool.false_eq_true, if_false, Acct.setup, Acct.init]
                rw [hsplit]
                exact ⟨_, rfl⟩
      · exact ⟨_, rfl⟩

/-- Outside `process_initialize` it is an `InvalidCall`, whatever the options are, and nothing changes. -/
theorem c90_start_outside [PyNum ν] (E : StartEnv γ ν) (s : StartSt γ ν μ) (hs : s.strat.allowed = false) (o : Opts) (inp : OptInputs γ) :
    s.setOptions E o inp = some (s, .error .invalidCall) := by
  simp [StartSt.setOptions, hs]

example : ({} : StratSt).allowed = false := rfl

/-- Starting a task whose configuration says whether there is an account: without a function `process_initialize` it is a `TaskError`, and the
user's code has not been called. -/
theorem c90_no_initialize (l : Launch) (s : LaunchSt) (ns : Dict Str UObj) (v : CfgVal) (hv : dget s.options c!"SETUP_ACCOUNT" = some v)
    (hno : dget (makeApis v.truth ns) c!"process_initialize" = none) : l.setup s ns = (s, .error .taskError) := by
  simp [Launch.setup, hv, hno]

example : dget (makeApis true [(c!"f", .user 1)]) c!"process_initialize" = none ∧
    dget (makeApis true [(c!"process_initialize", .user 1)]) c!"process_initialize" ≠ none := by decide +kernel

/-- `print` raises `InternalError` exactly if there is no context, and otherwise only what opening the file of the task raises; it raises in no
other case. -/
theorem c90_print_refused (inst : Option (Option Str)) (canOpen : Str → Py Unit) (text : Str) (file : FileArg) (s : OutSt) (e : PyErr) :
    (strategyPrint inst canOpen text file s).2 = .error e ↔
      (inst = none ∧ e = .internalError) ∨
      (∃ path, inst = some (some path) ∧ path ≠ [] ∧ file = .absent ∧ canOpen path = .error e) := by
  cases inst with
  | none => simp [strategyPrint, eq_comm]
  | some out =>
    cases out with
    | none => simp [strategyPrint]
    | some path =>
      simp only [strategyPrint, Option.getD_some, reduceCtorEq, false_and, false_or, Option.some.injEq, exists_eq_left']
      by_cases h : path ≠ [] ∧ file = .absent
      · rw [if_pos h]
        cases hc : canOpen path with
        | error x => simp [h]
        | ok u => simp
      · rw [if_neg h]
        simp only [reduceCtorEq, false_iff]
        intro h'
        exact h ⟨h'.1, h'.2.1⟩

/-- A `print` that raises has written nothing. -/
theorem c90_print_unwritten (inst : Option (Option Str)) (canOpen : Str → Py Unit) (text : Str) (file : FileArg) (s : OutSt) (e : PyErr)
    (h : (strategyPrint inst canOpen text file s).2 = .error e) : (strategyPrint inst canOpen text file s).1 = s := by
  unfold strategyPrint at h ⊢
  split at h
  · rfl
  · split at h
    · rename_i hp
      rw [if_pos hp]
      split at h
      · rfl
      · cases h
    · cases h

example : (strategyPrint none (fun _ => .ok ()) c!"x" .absent ⟨[], fun _ => [], fun _ => []⟩).2 = .error .internalError ∧
    (strategyPrint (some (some c!"/o")) (fun _ => .error .osError) c!"x" .absent ⟨[], fun _ => [], fun _ => []⟩).2 = .error .osError ∧
    (strategyPrint (some (some c!"/o")) (fun _ => .error .osError) c!"x" .none ⟨[], fun _ => [], fun _ => []⟩).2 = .ok () := by decide +kernel

end Jq
