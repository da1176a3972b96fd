import Verif.Model.RuntimeDir
import Verif.Model.Store
/-!
# The trade gate before, during and after `setup`

`trade_gate.py:216-236` (`__init__`), `519-555` (`setup`), and the calls of the gate whatever its attributes are: `Model/TradeGate` has
the gate whose `setup` returned.  An exception of `setup` may be caught in `process_initialize`; the account and the gate have been
put into the context before (`strategy.py:238-246`), so calls of the API reach the gate as it is.

The order directory is used by one gate here; what the operating system says is in the environment.  Simplified: options are not
objects with methods of their own, `on_exception` in `sync_retry_kwargs` is not a function; a path that is not a string is refused
(`os.path.exists` takes an integer for a file descriptor, then every use of the directory is refused).
-/
namespace Jq

/-- A value of an option. -/
inductive OptVal where
  | none
  | bool (b : Bool)
  | int (n : Int)
  /-- a float: its value in microseconds, and its `str`, which is not empty -/
  | float (us : Int) (first : Char) (rest : Str)
  | str (s : Str)
  /-- a dictionary with these items, and what its `str` has after the brace -/
  | dict (items : Dict Str Int) (rest : Str)
deriving DecidableEq, Repr

/-- `str(v)`. -/
def OptVal.text : OptVal → Str
  | .none => c!"None"
  | .bool true => c!"True"
  | .bool false => c!"False"
  | .int n => intStr n
  | .float _ c s => c :: s
  | .str s => s
  | .dict _ s => '{' :: s

/-- `bool(v)`. -/
def OptVal.truth : OptVal → Bool
  | .none => false
  | .bool b => b
  | .int n => n ≠ 0
  | .float us _ _ => us ≠ 0
  | .str s => s ≠ []
  | .dict d _ => d ≠ []

abbrev GOpts := Dict Str OptVal

/-- `options.get(key, default)`. -/
def GOpts.get (o : GOpts) (key : Str) (dflt : OptVal) : OptVal := (dget o key).getD dflt

/-- `trade_gate.py:216-236` the attributes of the gate (`none` is `None`), and how often and with which `max_attempts` `_read_csv` of
the class was wrapped. -/
structure GateSt (ν : Type) where
  options : Option GOpts := .none
  orderDir : OptVal := .none
  counter : OptVal := .none
  algo : OptVal := .none
  /-- directory, task and day of `_data_file` -/
  dataFile : Option (Str × Str × Str) := .none
  coding : OptVal := .none
  ignoreErr : OptVal := .none
  waitInterval : OptVal := .none
  waitTimeOut : OptVal := .none
  book : Book ν := []
  resOff : Nat := 0
  updOff : Nat := 0
  synced : Bool := false
  wraps : List Int := []

/-- What `setup` meets: the existing paths, the default of the runtime directory, the name of the task, the day, creating a directory,
the encoding of file names, and the contents of files. -/
structure SetupEnv where
  there : Str → Bool
  runtimeDir : Str
  task : Str
  day : Str
  mkdir : Str → Py Unit := fun _ => .ok ()
  fsEncoding : Str := c!"utf-8"
  read : Str → Option Str

/-- `trade_gate.py:160`. -/
def defaultOrderDir : Str := c!"C:\\Ax\\国投OneQuant\\csvTemplate\\DMA算法"

/-- `os.path.exists(p)`, `os.path.join(p, …)`: a path is a string. -/
def OptVal.path : OptVal → Py Str
  | .str s => .ok s
  | _ => .error .typeError

/-- `simple_retry(**kwargs)` (`common/utils.py:13-15`): the `max_attempts`. -/
def retryArgs : OptVal → Py Int
  | .dict d _ =>
    if (dkeys d).any fun k => !(k ∈ [c!"on_exception", c!"max_attempts", c!"attempt_internal"]) then .error .typeError
    else if (dget d c!"on_exception").getD 0 ≠ 0 then .error .valueError
    else .ok ((dget d c!"max_attempts").getD 3)
  | _ => .error .typeError

variable {ν : Type} [CellNum ν] [Store ν]

/-- `trade_gate.py:499-512` `_load_orders`: a file that is missing or cannot be read leaves the book as it is. -/
def GateSt.load (read : Str → Option Str) (path : Str) (s : GateSt ν) : GateSt ν :=
  match read path with
  | .none => s
  | some text =>
    match Store.load text with
    | some b => { s with book := b }
    | .none => s

/-- `trade_gate.py:519-555` `setup`. -/
def GateSt.setup (E : SetupEnv) (o : GOpts) (s : GateSt ν) : GateSt ν × Py Unit :=
  let s := { s with
    options := some o
    orderDir := o.get c!"order_dir" (.str defaultOrderDir) }
  match s.orderDir.path with
  | .error e => (s, .error e)
  | .ok dir =>
    if !E.there dir then (s, .error .fileNotFound)
    else
      let s := { s with
        counter := o.get c!"counter_type" (.str c!"UM0")
        algo := o.get c!"algo_type" (.str c!"DMA") }
      match (o.get c!"runtime_dir" (.str E.runtimeDir)).path with
      | .error e => (s, .error e)
      | .ok runtime =>
        let dataDir := joinPath runtime c!"data"
        match (if E.there dataDir then .ok () else E.mkdir dataDir) with
        | .error e => (s, .error e)
        | .ok () =>
          let s := { s with
            dataFile := some (dataDir, E.task, E.day)
            coding := o.get c!"file_encoding" (.str E.fsEncoding)
            ignoreErr := o.get c!"ignore_error_line" (.bool true) }
          match retryArgs (o.get c!"sync_retry_kwargs" (.dict [(c!"max_attempts", 3), (c!"attempt_internal", 0)] [])) with
          | .error e => (s, .error e)
          | .ok m =>
            let s := { s with
              wraps := m :: s.wraps
              waitInterval := o.get c!"wait_lock_internal" (.float 50000 '0' c!".05")
              waitTimeOut := o.get c!"wait_lock_time_out" (.int 5) }
            (s.load E.read (dataPath dataDir E.task E.day), .ok ())

/-- `self._options.get(key, default)`; there are no options before `setup`. -/
def GateSt.option (s : GateSt ν) (key : Str) (dflt : OptVal) : Py OptVal :=
  match s.options with
  | .none => .error .attributeError
  | some o => .ok (o.get key dflt)

/-- `trade_gate.py:493-497` `_save_orders`; without a data file `None + ".tmp"` is refused.  `day` is that of the name of the file. -/
def GateSt.save (env : Env) (s : GateSt ν) (fs : Files) : Files × Py Unit :=
  match s.dataFile with
  | .none => (fs, .error .typeError)
  | some (_, _, day) => saveOrders day env s.book fs

/-- `trade_gate.py:239-271` the fields of the order record. -/
def GateSt.fields (s : GateSt ν) (now : DT) (o : Order ν) : Py (List Str) := do
  let acct ← s.option c!"account_no" .none
  if !acct.truth then .error .invalidParam
  else do
    let type ← s.option c!"account_type" (.str c!"STOCK")
    if type ≠ .str c!"STOCK" then .error .invalidParam
    else if o.side ≠ some .long then .error .invalidParam
    else do
      let code ← encodeSecurity o.code
      let price ← priceFields o
      return [now.hmsf, o.orderId, s.counter.text, acct.text, code, if o.action = .opened then c!"1" else c!"2",
              natStr o.amount.natAbs, s.algo.text] ++ price

/-- `trade_gate.py:238-278` `order`. -/
def GateSt.order (win : Bool) (env : Env) (o : Order ν) (s : GateSt ν) (fs : Files) : (GateSt ν × Files) × Py Unit :=
  match s.fields env.now o with
  | .error e => ((s, fs), .error e)
  | .ok items =>
    match s.orderDir.path with
    | .error e => ((s, fs), .error e)
    | .ok _ =>
      match appendLine win env.write (.orders env.day) orderHeader (joinWith c!"," items ++ linesep win) fs with
      | (fs, .error e) => ((s, fs), .error e)
      | (fs, .ok ()) =>
        match o.json with
        | .error e => ((s, fs), .error e)
        | .ok info =>
          let s := { s with book := dset s.book o.orderId info }
          let r := s.save env fs
          ((s, r.1), r.2)

/-- `trade_gate.py:280-285` `cancel_order`. -/
def GateSt.cancel (win : Bool) (env : Env) (id : Str) (s : GateSt ν) (fs : Files) : (GateSt ν × Files) × Py Unit :=
  match s.orderDir.path with
  | .error e => ((s, fs), .error e)
  | .ok _ =>
    let r := appendLine win env.write (.cancels env.day) cancelHeader (joinWith c!"," [env.now.hmsf, id] ++ linesep win) fs
    ((s, r.1), r.2)

/-- `trade_gate.py:304-357` `sync_balance`; `_read_csv` takes the path from its second argument, which only the wrapped function has. -/
def GateSt.balance (env : Env) (s : GateSt ν) : Py (BalInfo ν) :=
  match s.orderDir.path with
  | .error e => .error e
  | .ok _ =>
    if !env.assetsThere then .error .fileNotFound
    else
      match s.option c!"account_no" .none with
      | .error e => .error e
      | .ok acct =>
        if !acct.truth then .error .invalidParam
        else if s.wraps = [] then .error .indexError
        else
          let read := fun (content : Nat → Option Str) =>
            (wrapAgain (fun n : Nat => (n + 1, readCsv (content n))) s.wraps 0).2
          balanceOf (some acct.text) (env.assetsThere, read env.assets) (env.positionsThere, read env.positions)

/-- `trade_gate.py:392-480` `sync_orders`. -/
def GateSt.syncOrders (env : Env) (s : GateSt ν) (fs : Files) : (GateSt ν × Files) × Py (List (OrderInfo ν)) :=
  match s.orderDir.path with
  | .error e => ((s, fs), .error e)
  | .ok _ =>
    match fs (.updates env.day), fs (.results env.day) with
    | some updates, some results =>
      match pollBoth s.ignoreErr.truth results updates ⟨s.book, s.resOff, s.updOff⟩ with
      | (t, .error e) => (({ s with book := t.book, resOff := t.resOff, updOff := t.updOff }, fs), .error e)
      | (t, .ok ()) =>
        let s := { s with book := t.book, resOff := t.resOff, updOff := t.updOff, synced := true }
        match s.save env fs with
        | (fs, .error e) => ((s, fs), .error e)
        | (fs, .ok ()) => ((s, fs), .ok (dvalues t.book))
    | _, _ => ((s, fs), .error .fileNotFound)

/-- A gate with the files and the script of what happens at the successive calls. -/
structure GateIn (ν : Type) where
  st : GateSt ν
  files : Files
  env : Nat → Env
  n : Nat := 0
  win : Bool := false

/-- The files after others have changed them. -/
def GateIn.cur (g : GateIn ν) : Files := (g.env g.n).ext g.files

/-- The gate as the account sees it. -/
def gateIn (ν : Type) [CellNum ν] [Store ν] : Gate (GateIn ν) ν where
  order g o :=
    let r := g.st.order g.win (g.env g.n) o g.cur
    ({ g with st := r.1.1, files := r.1.2, n := g.n + 1 }, r.2)
  cancel g id :=
    let r := g.st.cancel g.win (g.env g.n) id g.cur
    ({ g with st := r.1.1, files := r.1.2, n := g.n + 1 }, r.2)
  balance g := ({ g with files := g.cur, n := g.n + 1 }, g.st.balance (g.env g.n))
  orders g :=
    let r := g.st.syncOrders (g.env g.n) g.cur
    ({ g with st := r.1.1, files := r.1.2, n := g.n + 1 }, r.2)

/-! ## Where the files are -/

/-- `trade_gate.py:561-575`, `544`, `494` the path of a file of a gate with the order directory `dir`, whose data file is that of
the task `task` in `dataDir`. -/
def gatePath (dir dataDir task : Str) : FileId → Str
  | .orders d => joinPath dir (c!"algoOrder_" ++ d ++ c!".csv")
  | .cancels d => joinPath dir (c!"algoOrderStop_" ++ d ++ c!".csv")
  | .results d => joinPath dir (c!"execResult_" ++ d ++ c!".csv")
  | .updates d => joinPath dir (c!"orderUpdate_" ++ d ++ c!".csv")
  | .data d => dataPath dataDir task d
  | .tmp d => dataPath dataDir task d ++ c!".tmp"

end Jq
