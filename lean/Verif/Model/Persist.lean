import Verif.Model.TradeGate
/-!
# Being killed

The file operations of `_write` and `_save_orders` (`trade_gate.py:287-302`, `493-497`) one by one, so that the process can
be killed between any two of them, and the restart (`trade_gate.py:519-555`).

Text reaches the disk in arbitrary pieces.  `shutil.move` is `os.rename`: atomic on POSIX; on Windows it is refused when the
destination exists, and `shutil.move` then copies into the destination and removes the source.
-/
namespace Jq

/-- The primitive file operations. -/
inductive FOp where
  /-- `open(f, "a")`: makes the file if it is not there -/
  | touch (f : FileId)
  /-- `open(f, "w")` -/
  | truncate (f : FileId)
  | append (f : FileId) (s : Str)
  | rename (f g : FileId)
  | remove (f : FileId)
deriving DecidableEq, Repr

def FOp.run (fs : Files) : FOp → Files
  | .touch f => fs.set f (some ((fs f).getD []))
  | .truncate f => fs.set f (some [])
  | .append f s => fs.set f (some ((fs f).getD [] ++ s))
  | .rename f g => (fs.set g (fs f)).set f none
  | .remove f => fs.set f none

def runOps (fs : Files) (ops : List FOp) : Files := ops.foldl FOp.run fs

/-- `trade_gate.py:287-302` the operations of a `_write` of the text, which reaches the disk in pieces. -/
def writeOps (f : FileId) (pieces : List Str) : List FOp := .touch f :: pieces.map (.append f)

/-- `trade_gate.py:493-497` the operations of `_save_orders`: the text is written in pieces, then moved.  The last argument
says whether there is a data file already. -/
def saveOps (win : Bool) (day : Str) (pieces copied : List Str) (there : Bool) : List FOp :=
  .truncate (.tmp day) :: pieces.map (.append (.tmp day)) ++
    if win && there then .truncate (.data day) :: copied.map (.append (.data day)) ++ [.remove (.tmp day)]
    else [.rename (.tmp day) (.data day)]

/-- The operations of saving a book: a book that `json.dump` refuses is written up to the failure and not moved. -/
inductive SaveOps {ν : Type} [Store ν] (win : Bool) (day : Str) (b : Book ν) (there : Bool) : List FOp → Prop
  | saved {text : Str} {pieces copied : List Str} : Store.dump b = some text → pieces.flatten = text → copied.flatten = text →
      SaveOps win day b there (saveOps win day pieces copied there)
  | refused {pieces : List Str} : Store.dump b = none → SaveOps win day b there (.truncate (.tmp day) :: pieces.map (.append (.tmp day)))

variable {ν : Type} [CellNum ν] [Store ν]

/-- The text that `_write` adds to a file (`appendLine`). -/
def addedText (win : Bool) (f : FileId) (header line : Str) (fs : Files) : Str :=
  onDisk win (if (fs f).getD [] = [] then header ++ linesep win ++ line else line)

/-- The file operations of one call of the gate by the account, when nothing fails (being killed during a call that fails
leaves the files as being killed somewhere before the failure does). -/
inductive CallOps (env : Env) (s : AX ν) : AOp ν → List FOp → Prop
  /-- `trade_gate.py:238-278` an order that is refused before anything is written -/
  | orderRefused {idn now code n st sd o e} : Order.load (newOrderInfo (natStr idn) now code n st) = .ok o →
      orderFields s.conf env.now o = .error e → CallOps env s (.order idn now code n st sd) []
  /-- `trade_gate.py:238-278` record, then order book -/
  | order {idn now code n st sd o items info pieces ops} : Order.load (newOrderInfo (natStr idn) now code n st) = .ok o →
      orderFields s.conf env.now o = .ok items →
      pieces.flatten = addedText s.conf.win (.orders env.day) orderHeader (joinWith c!"," items ++ linesep s.conf.win) s.files →
      o.json = .ok info → SaveOps s.conf.win s.conf.dataDay (dset s.book o.orderId info) (s.files (.data s.conf.dataDay)).isSome ops →
      CallOps env s (.order idn now code n st sd) (writeOps (.orders env.day) pieces ++ ops)
  /-- `trade_gate.py:280-285` -/
  | cancel {id pieces} :
      pieces.flatten = addedText s.conf.win (.cancels env.day) cancelHeader (joinWith c!"," [env.now.hmsf, id] ++ linesep s.conf.win) s.files →
      CallOps env s (.cancel id) (writeOps (.cancels env.day) pieces)
  /-- nothing is called for an unknown id (`account.py:179-184`), and `sync_balance` only reads -/
  | cancelUnknown {id} : CallOps env s (.cancel id) []
  | balance : CallOps env s .syncBalance []
  /-- `trade_gate.py:392-480` without files, or with an exception while reading -/
  | syncFailed : CallOps env s .syncOrders []
  /-- `trade_gate.py:392-480` -/
  | sync {updates results t ops} : s.files (.updates env.day) = some updates → s.files (.results env.day) = some results →
      pollBoth s.conf.ignoreErr results updates ⟨s.book, s.resOff, s.updOff⟩ = (t, .ok ()) →
      SaveOps s.conf.win s.conf.dataDay t.book (s.files (.data s.conf.dataDay)).isSome ops → CallOps env s .syncOrders ops

/-- An order whose id was returned. -/
structure Ack (ν : Type) where
  id : Str
  now : DT
  code : Str
  amount : Int
  style : Style ν

/-- A process with the ids returned so far and the ids drawn so far, over restarts. -/
structure PState (ν : Type) where
  acct : Acct (AXG ν) ν
  acks : List (Ack ν) := []
  used : List Str := []

/-- The ids an operation draws. -/
def AOp.draws : AOp ν → List Str
  | .order idn _ _ _ _ _ => [natStr idn]
  | _ => []

/-- What an operation tells the user. -/
def AOp.acks (op : AOp ν) (r : Py (Option Str)) : List (Ack ν) :=
  match op, r with
  | .order _ now code n st _, .ok (some id) => [⟨id, now, code, n, st⟩]
  | _, _ => []

/-- The process goes on, or is killed during an operation and started again on the same day with the same options. -/
inductive PStepBy (op : AOp ν) : PState ν → PState ν → Prop
  | op (s : PState ν) : (∀ id ∈ op.draws, id ∉ s.used) →
      PStepBy op s ⟨(s.acct.step (axGate ν) op).1, s.acks ++ op.acks (s.acct.step (axGate ν) op).2, s.used ++ op.draws⟩
  | crash (s : PState ν) (ops pre : List FOp) : (∀ id ∈ op.draws, id ∉ s.used) →
      CallOps s.acct.gate.cur s.acct.gate.ready op ops → pre <+: ops →
      PStepBy op s ⟨Acct.init ⟨AX.setup s.acct.gate.ax.conf (runOps s.acct.gate.ready.files pre), s.acct.gate.env, s.acct.gate.n + 1⟩,
        s.acks, s.used ++ op.draws⟩

def PStep (s t : PState ν) : Prop := ∃ op, PStepBy op s t

/-- Any number of steps. -/
inductive PRun : PState ν → PState ν → Prop
  | refl (s : PState ν) : PRun s s
  | step {s t u : PState ν} : PRun s t → PStep t u → PRun s u

end Jq
