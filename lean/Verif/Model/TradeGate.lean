import Verif.Model.Account
import Verif.Model.Balance
import Verif.Model.Code
import Verif.Model.OrderSync
import Verif.Model.Retry
/-!
# The built-in trade gate

Models `trade_gate.py:127-587` (`AnXinDMATradeGate`): `order`, `cancel_order`, `_write`, `_save_orders`, `_load_orders`,
`setup`, `sync_orders` and `sync_balance` (whose parts are in `Model/OrderSync`, `Model/Balance`, `Model/Retry`).

The file system is a map from files to contents.  What the environment decides during a call (clock, date, other
processes, failing system calls, contents seen by repeated reads) is an `Env`.  One writer at a time is modelled here;
concurrent writers are in `Model/FileWriters`, crashes in `Model/Persist`.
-/
namespace Jq

/-- The files, per day (`trade_gate.py:544-587`); file names of different days or kinds differ. -/
inductive FileId where
  | orders (day : Str)
  | cancels (day : Str)
  | results (day : Str)
  | updates (day : Str)
  /-- `{task}_{day}.json` -/
  | data (day : Str)
  /-- `{task}_{day}.json.tmp` -/
  | tmp (day : Str)
deriving DecidableEq, Repr

/-- Contents; `none`: the file does not exist. -/
abbrev Files := FileId → Option Str

def Files.set (fs : Files) (f : FileId) (c : Option Str) : Files := fun g => if g = f then c else fs g

/-- How `_write` goes. -/
inductive WriteFault where
  | none
  /-- `open` fails -/
  | open (e : PyErr)
  /-- the lock is not obtained (`TimeOut`), or locking fails -/
  | lock (e : PyErr)
  /-- the flush when the file is closed fails after `n` characters (disk full) -/
  | flush (e : PyErr) (n : Nat)
deriving DecidableEq, Repr

/-- How `_save_orders` goes, if `json.dump` accepts the orders. -/
inductive SaveFault where
  | none
  | open (e : PyErr)
  /-- writing fails after `n` characters -/
  | write (e : PyErr) (n : Nat)
  /-- neither renaming nor opening the data file works -/
  | move (e : PyErr)
  /-- the temporary file is not renamed (Windows: the data file exists; POSIX: the file system refuses), so `shutil.move` copies it, and
  that fails after `n` characters -/
  | copy (e : PyErr) (n : Nat)
  /-- it is copied, but cannot be removed -/
  | unlink (e : PyErr)
deriving DecidableEq, Repr

/-- What the environment decides during one call. -/
structure Env where
  now : DT
  /-- `context.current_dt` as `%Y%m%d` -/
  day : Str
  write : WriteFault := .none
  save : SaveFault := .none
  /-- what `json.dump` wrote before it failed -/
  junk : Str := []
  /-- what others did to the files since the last call -/
  ext : Files → Files := id
  /-- whether `check_file_exists` finds the asset file, and its contents at the successive reads -/
  assetsThere : Bool := true
  assets : Nat → Option Str := fun _ => .none
  positionsThere : Bool := true
  positions : Nat → Option Str := fun _ => .none

/-- `json.dump` and `json.load` of the order book; `none`: an exception. -/
class Store (ν : Type) where
  dump : Book ν → Option Str
  load : Str → Option (Book ν)

/-- The options (`trade_gate.py:519-555`) and the platform. -/
structure AXConf where
  /-- `account_no`; `none` or empty: not set -/
  acctNo : Option Str
  acctType : Str := c!"STOCK"
  counter : Str := c!"UM0"
  algo : Str := c!"DMA"
  ignoreErr : Bool := true
  /-- the `max_attempts` of the calls of `setup` so far, the last one first: `_read_csv` is wrapped by each of them -/
  maxAttempts : List Int := [3]
  /-- the day of `setup`, in the name of the data file -/
  dataDay : Str
  /-- Windows: `os.linesep` is `\r\n`, and text files are written with `\n` translated to `\r\n` -/
  win : Bool := false
deriving DecidableEq, Repr

/-- The trade gate and the files. -/
structure AX (ν : Type) where
  conf : AXConf
  book : Book ν
  resOff : Nat := 0
  updOff : Nat := 0
  synced : Bool := false
  files : Files

/-- `os.linesep`. -/
def linesep (win : Bool) : Str := if win then c!"\r\n" else c!"\n"

/-- What a text file gets when `s` is written. -/
def onDisk (win : Bool) (s : Str) : Str := if win then s.flatMap fun c => if c = '\n' then c!"\r\n" else [c] else s

/-- `trade_gate.py:206-209`. -/
def orderHeader : Str := c!"updTime,custBatchNo,acctType,acct,symbol,tradeSide,targetQty,algoId,priceType,ticks,highLimitPrice,lowLimitPrice"

def cancelHeader : Str := c!"updTime,custBatchNo"

/-- `trade_gate.py:287-302` `_write` in append mode. -/
def appendLine (win : Bool) (fault : WriteFault) (f : FileId) (header line : Str) (fs : Files) : Files × Py Unit :=
  let old := (fs f).getD []
  let text := onDisk win (if old = [] then header ++ linesep win ++ line else line)
  match fault with
  | .open e => (fs, .error e)
  | .lock e => (fs.set f (some old), .error e)
  | .flush e n => (fs.set f (some (old ++ text.take n)), .error e)
  | .none => (fs.set f (some (old ++ text)), .ok ())

/-- `trade_gate.py:493-497` `_save_orders`. -/
def saveOrders {ν : Type} [Store ν] (day : Str) (env : Env) (b : Book ν) (fs : Files) : Files × Py Unit :=
  match env.save with
  | .open e => (fs, .error e)
  | fault =>
    match Store.dump b with
    | none => (fs.set (.tmp day) (some env.junk), .error .typeError)
    | some text =>
      match fault with
      | .write e n => (fs.set (.tmp day) (some (text.take n)), .error e)
      | .move e => (fs.set (.tmp day) (some text), .error e)
      | .copy e n => ((fs.set (.tmp day) (some text)).set (.data day) (some (text.take n)), .error e)
      | .unlink e => ((fs.set (.tmp day) (some text)).set (.data day) (some text), .error e)
      | _ => ((fs.set (.tmp day) none).set (.data day) (some text), .ok ())

/-- `trade_gate.py:499-512` `_load_orders`: a file that cannot be read leaves the book empty. -/
def loadOrders {ν : Type} [Store ν] (day : Str) (fs : Files) : Book ν :=
  match fs (.data day) with
  | none => []
  | some text =>
    match Store.load text with
    | some b => b
    | none => []

/-- `trade_gate.py:519-555` `setup` (the directory exists). -/
def AX.setup {ν : Type} [Store ν] (conf : AXConf) (fs : Files) : AX ν :=
  { conf := conf, book := loadOrders conf.dataDay fs, files := fs }

/-- `self._options.get("account_no")`, refused when not set (`trade_gate.py:239-241`). -/
def AXConf.account (c : AXConf) : Py Str :=
  match c.acctNo with
  | none => .error .invalidParam
  | some a => if a = [] then .error .invalidParam else .ok a

variable {ν : Type} [CellNum ν] [Store ν]

/-- `trade_gate.py:262-269` price type, ticks and limits. -/
def priceFields (o : Order ν) : Py (List Str) :=
  match o.style with
  | some (.market _) => .ok [if o.action = .opened then c!"P6" else c!"P7", c!"0", c!"0", c!"0"]
  | some (.limit p) => .ok [c!"AT", c!"0", GateNum.str p, GateNum.str p]
  | none => .error .attributeError

/-- `trade_gate.py:239-271` the fields of the order record. -/
def orderFields (c : AXConf) (now : DT) (o : Order ν) : Py (List Str) := do
  let acct ← c.account
  if c.acctType ≠ c!"STOCK" then .error .invalidParam
  else if o.side ≠ some .long then .error .invalidParam
  else do
    let code ← encodeSecurity o.code
    let price ← priceFields o
    return [now.hmsf, o.orderId, c.counter, acct, code, if o.action = .opened then c!"1" else c!"2",
            natStr o.amount.natAbs, c.algo] ++ price

/-- `trade_gate.py:275-278` after the record was written. -/
def AX.remember (env : Env) (o : Order ν) (s : AX ν) : AX ν × Py Unit :=
  match o.json with
  | .error e => (s, .error e)
  | .ok info =>
    let b := dset s.book o.orderId info
    let r := saveOrders s.conf.dataDay env b s.files
    ({ s with book := b, files := r.1 }, r.2)

/-- `trade_gate.py:238-278` `order`. -/
def AX.order (env : Env) (o : Order ν) (s : AX ν) : AX ν × Py Unit :=
  match orderFields s.conf env.now o with
  | .error e => (s, .error e)
  | .ok items =>
    match appendLine s.conf.win env.write (.orders env.day) orderHeader (joinWith c!"," items ++ linesep s.conf.win) s.files with
    | (fs, .error e) => ({ s with files := fs }, .error e)
    | (fs, .ok ()) => ({ s with files := fs } : AX ν).remember env o

/-- `trade_gate.py:280-285` `cancel_order`. -/
def AX.cancel (env : Env) (id : Str) (s : AX ν) : AX ν × Py Unit :=
  let r := appendLine s.conf.win env.write (.cancels env.day) cancelHeader
    (joinWith c!"," [env.now.hmsf, id] ++ linesep s.conf.win) s.files
  ({ s with files := r.1 }, r.2)

/-- `trade_gate.py:304-357` `sync_balance`. -/
def AX.balance (env : Env) (s : AX ν) : Py (BalInfo ν) :=
  let read := fun (content : Nat → Option Str) =>
    (wrapAgain (fun n : Nat => (n + 1, readCsv (content n))) s.conf.maxAttempts 0).2
  balanceOf s.conf.acctNo (env.assetsThere, read env.assets) (env.positionsThere, read env.positions)

/-- `trade_gate.py:392-480` `sync_orders`. -/
def AX.syncOrders (env : Env) (s : AX ν) : AX ν × Py (List (OrderInfo ν)) :=
  match s.files (.updates env.day), s.files (.results env.day) with
  | some updates, some results =>
    match pollBoth s.conf.ignoreErr results updates ⟨s.book, s.resOff, s.updOff⟩ with
    | (t, .error e) => ({ s with book := t.book, resOff := t.resOff, updOff := t.updOff }, .error e)
    | (t, .ok ()) =>
      match saveOrders s.conf.dataDay env t.book s.files with
      | (fs, .error e) => ({ s with book := t.book, resOff := t.resOff, updOff := t.updOff, synced := true, files := fs }, .error e)
      | (fs, .ok ()) =>
        ({ s with book := t.book, resOff := t.resOff, updOff := t.updOff, synced := true, files := fs }, .ok (dvalues t.book))
  | _, _ => (s, .error .fileNotFound)

/-- The gate in an environment: the script of what happens at the successive calls. -/
structure AXG (ν : Type) where
  ax : AX ν
  env : Nat → Env
  n : Nat

/-- The environment of the next call. -/
def AXG.cur (g : AXG ν) : Env := g.env g.n

/-- The gate after others have changed the files. -/
def AXG.ready (g : AXG ν) : AX ν := { g.ax with files := g.cur.ext g.ax.files }

def AXG.next (g : AXG ν) (s : AX ν) : AXG ν := { g with ax := s, n := g.n + 1 }

/-- The built-in trade gate as the account sees it. -/
def axGate (ν : Type) [CellNum ν] [Store ν] : Gate (AXG ν) ν where
  order g o := let r := g.ready.order g.cur o; (g.next r.1, r.2)
  cancel g id := let r := g.ready.cancel g.cur id; (g.next r.1, r.2)
  balance g := (g.next g.ready, g.ready.balance g.cur)
  orders g := let r := g.ready.syncOrders g.cur; (g.next r.1, r.2)

end Jq
