import Verif.Model.GateSetup
/-!
# Vocabulary for C96: the settings of the trade gate
-/
namespace Jq

/-- The value of a setting: the one that was given, otherwise the default. -/
def InForce (o : GOpts) (key : Str) (dflt v : OptVal) : Prop :=
  (key, v) ∈ o ∨ ((∀ w, (key, w) ∉ o) ∧ v = dflt)

/-- The configuration of the gate that the options describe; `before` are the `max_attempts` of earlier gates of the process. -/
structure ConfiguredBy (o : GOpts) (before : List Int) (c : AXConf) : Prop where
  account : ∃ v, InForce o c!"account_no" .none v ∧ c.account = if v.truth then .ok v.text else .error .invalidParam
  accountType : c.acctType = c!"STOCK" ↔ InForce o c!"account_type" (.str c!"STOCK") (.str c!"STOCK")
  counter : ∃ v, InForce o c!"counter_type" (.str c!"UM0") v ∧ c.counter = v.text
  algo : ∃ v, InForce o c!"algo_type" (.str c!"DMA") v ∧ c.algo = v.text
  ignoreErr : ∃ v, InForce o c!"ignore_error_line" (.bool true) v ∧ c.ignoreErr = v.truth
  attempts : ∃ d t m, InForce o c!"sync_retry_kwargs" (.dict [(c!"max_attempts", 3), (c!"attempt_internal", 0)] []) (.dict d t) ∧
    c.maxAttempts = m :: before ∧ (∀ k, (c!"max_attempts", k) ∈ d → k = m) ∧ ((∀ k, (c!"max_attempts", k) ∉ d) → m = 3)

/-- The order directory is a path that exists. -/
def HasOrderDir (E : SetupEnv) (o : GOpts) : Prop :=
  ∃ d, InForce o c!"order_dir" (.str c!"C:\\Ax\\国投OneQuant\\csvTemplate\\DMA算法") (.str d) ∧ E.there d = true

/-- The directory of the data file exists or can be made. -/
def HasDataDir (E : SetupEnv) (o : GOpts) : Prop :=
  ∃ d, InForce o c!"runtime_dir" (.str E.runtimeDir) (.str d) ∧
    (E.there (joinPath d c!"data") = true ∨ E.mkdir (joinPath d c!"data") = .ok ())

/-- The names of the arguments for retrying. -/
def RetryWord (k : Str) : Prop := k = c!"on_exception" ∨ k = c!"max_attempts" ∨ k = c!"attempt_internal"

/-- The arguments for retrying are those that there are. -/
def HasRetryArgs (o : GOpts) : Prop :=
  ∃ d t, InForce o c!"sync_retry_kwargs" (.dict [(c!"max_attempts", 3), (c!"attempt_internal", 0)] []) (.dict d t) ∧
    (∀ k w, (k, w) ∈ d → RetryWord k) ∧
    ∀ w, (c!"on_exception", w) ∈ d → w = 0

/-- What can be wrong with the options of the gate, in the order in which it is found. -/
inductive GateRefused (E : SetupEnv) (o : GOpts) : PyErr → Prop
  /-- the order directory is not a string -/
  | orderDir (v : OptVal) : InForce o c!"order_dir" (.str c!"C:\\Ax\\国投OneQuant\\csvTemplate\\DMA算法") v → (∀ d, v ≠ .str d) →
      GateRefused E o .typeError
  /-- it is not there -/
  | noOrderDir (d : Str) : InForce o c!"order_dir" (.str c!"C:\\Ax\\国投OneQuant\\csvTemplate\\DMA算法") (.str d) → E.there d = false →
      GateRefused E o .fileNotFound
  /-- the runtime directory is not a string -/
  | runtimeDir (v : OptVal) : HasOrderDir E o → InForce o c!"runtime_dir" (.str E.runtimeDir) v → (∀ d, v ≠ .str d) → GateRefused E o .typeError
  /-- the data directory cannot be made -/
  | dataDir (run : Str) (e : PyErr) : HasOrderDir E o → InForce o c!"runtime_dir" (.str E.runtimeDir) (.str run) →
      E.there (joinPath run c!"data") = false → E.mkdir (joinPath run c!"data") = .error e → GateRefused E o e
  /-- the arguments for retrying are not a dictionary -/
  | retry (v : OptVal) : HasOrderDir E o → HasDataDir E o → (c!"sync_retry_kwargs", v) ∈ o → (∀ d t, v ≠ .dict d t) → GateRefused E o .typeError
  /-- one of them has an unknown name -/
  | retryName (d : Dict Str Int) (t k : Str) (w : Int) : HasOrderDir E o → HasDataDir E o → (c!"sync_retry_kwargs", .dict d t) ∈ o → (k, w) ∈ d →
      ¬ RetryWord k → GateRefused E o .typeError
  /-- the function to be called cannot be called -/
  | retryCall (d : Dict Str Int) (t : Str) (w : Int) : HasOrderDir E o → HasDataDir E o → (c!"sync_retry_kwargs", .dict d t) ∈ o →
      (∀ k v, (k, v) ∈ d → RetryWord k) → (c!"on_exception", w) ∈ d → w ≠ 0 → GateRefused E o .valueError

/-- What an account shows, apart from the gate. -/
def AlikeAccount {γ γ' ν : Type} (a : Acct γ ν) (b : Acct γ' ν) : Prop :=
  a.oheap = b.oheap ∧ a.orders = b.orders ∧ a.pheap = b.pheap ∧ a.long = b.long ∧ a.short = b.short ∧ a.total = b.total ∧
    a.avail = b.avail ∧ a.locked = b.locked ∧ a.synced = b.synced ∧ a.notes = b.notes

/-- Options as Python dictionaries: no key twice. -/
def OptsOk (o : GOpts) : Prop := DictOk o ∧ ∀ k d t, (k, .dict d t) ∈ o → DictOk d

/-- The day in the name of a file. -/
def FileId.day : FileId → Str
  | .orders d => d
  | .cancels d => d
  | .results d => d
  | .updates d => d
  | .data d => d
  | .tmp d => d

end Jq
