import Verif.Model.Account
/-!
# The account API used by strategies

Models `account/api.py`, the account part of `scheduler/context.py` (`context.py:85-118`) and
`account/portfolio.py`.

Arguments are dynamically typed in Python; the cases that the checks distinguish are the constructors of the
argument types below.  A security code is a string.  `udig` says which non-ASCII characters `str.isdigit`
accepts.
-/
namespace Jq

/-- `amount`: an integer (`bool` is a subclass of `int`: `True` is 1) or anything else. -/
inductive AmtArg where
  | int (n : Int)
  | other
deriving DecidableEq, Repr

/-- `style`: a value that counts as false, an order style, or any other object. -/
inductive StyleArg (ν : Type) where
  | falsy
  | style (s : Style ν)
  | other
deriving DecidableEq, Repr

/-- `side`: a value that counts as false, a string, or another hashable object (an `OrderSide` member is one: the check
looks it up among the names). -/
inductive SideArg where
  | falsy
  | str (s : Str)
  | other
deriving DecidableEq, Repr

/-- `str.isdigit` for one character. -/
def isDigitU (udig : Char → Bool) (c : Char) : Bool := isDig c || (decide (128 ≤ c.toNat) && udig c)

/-- `s.isdigit()`. -/
def isDigitStr (udig : Char → Bool) (s : Str) : Bool := s ≠ [] && s.all (isDigitU udig)

/-- `s[-n:]`. -/
def lastN (n : Nat) (s : Str) : Str := s.drop (s.length - n)

/-- `s[:-n]`. -/
def dropLastN (n : Nat) (s : Str) : Str := s.take (s.length - n)

/-- `api.py:13-15` `_check_code`. -/
def checkCode (udig : Char → Bool) (code : Str) : Py Unit :=
  if (lastN 4 code = c!"XSHE" ∨ lastN 4 code = c!"XSHG") ∧ isDigitStr udig (dropLastN 5 code) = true then .ok ()
  else .error .invalidParam

/-- `api.py:18-20` `_check_amount`. -/
def checkAmount : AmtArg → Py Int
  | .int n => if n = 0 then .error .invalidParam else .ok n
  | .other => .error .invalidParam

variable {γ ν : Type} [PyNum ν]

/-- `api.py:55-58`: the style or a market order at price 0. -/
def checkStyle : StyleArg ν → Py (Style ν)
  | .falsy => .ok (.market PyNum.zero)
  | .style s => .ok s
  | .other => .error .invalidParam

/-- `api.py:60-65`: a known side name, `long` by default. -/
def checkSide : SideArg → Py Side
  | .falsy => .ok .long
  | .str s => if s = c!"long" then .ok .long else if s = c!"short" then .ok .short else .error .invalidParam
  | .other => .error .invalidParam

/-- `context.py:28-33`: what the API uses of the context. The account exists once `set_options` created it. -/
structure Ctx (γ ν : Type) where
  useAccount : Bool
  acct : Option (Acct γ ν)
deriving DecidableEq, Repr

/-- `context.py:85-90` the property `account`, and the attribute access that follows it (on `None` when
`set_options` failed before the account was made). -/
def Ctx.account (x : Ctx γ ν) : Py (Acct γ ν) :=
  if !x.useAccount then .error .invalidCall
  else
    match x.acct with
    | some a => .ok a
    | none => .error .attributeError

/-- A validated request. -/
def checkRequest (udig : Char → Bool) (code : Str) (amount : AmtArg) (style : StyleArg ν) (side : SideArg) :
    Py (Int × Style ν × Side) := do
  checkCode udig code
  let n ← checkAmount amount
  let st ← checkStyle style
  let sd ← checkSide side
  return (n, st, sd)

/-- `api.py:38-69` `order`. -/
def Ctx.order (G : Gate γ ν) (udig : Char → Bool) (idn : Nat) (now : DT) (code : Str) (amount : AmtArg)
    (style : StyleArg ν) (side : SideArg) (x : Ctx γ ν) : Ctx γ ν × Py (Option Str) :=
  match checkRequest udig code amount style side with
  | .error e => (x, .error e)
  | .ok (n, st, sd) =>
    match x.account with
    | .error e => (x, .error e)
    | .ok a =>
      let (a', r) := a.order G idn now code n st sd
      ({ x with acct := some a' }, r)

/-- `api.py:72-81` `cancel_order` (the id as a string). -/
def Ctx.cancel (G : Gate γ ν) (id : Str) (x : Ctx γ ν) : Ctx γ ν × Py Unit :=
  match x.account with
  | .error e => (x, .error e)
  | .ok a =>
    let (a', r) := a.cancel G id
    ({ x with acct := some a' }, r)

/-- `api.py:166-167` `batch_cancel_orders`. -/
def Ctx.batchCancel (G : Gate γ ν) : List Str → Ctx γ ν → Ctx γ ν × Py Unit
  | [], x => (x, .ok ())
  | id :: ids, x =>
    match x.cancel G id with
    | (x, .error e) => (x, .error e)
    | (x, .ok ()) => Ctx.batchCancel G ids x

/-- `api.py:170-171`. -/
def Ctx.syncBalance (G : Gate γ ν) (x : Ctx γ ν) : Ctx γ ν × Py Unit :=
  match x.account with
  | .error e => (x, .error e)
  | .ok a =>
    let (a', r) := a.syncBalance G
    ({ x with acct := some a' }, r)

/-- `api.py:174-175`. -/
def Ctx.syncOrders (G : Gate γ ν) (x : Ctx γ ν) : Ctx γ ν × Py Unit :=
  match x.account with
  | .error e => (x, .error e)
  | .ok a =>
    let (a', r) := a.syncOrders G
    ({ x with acct := some a' }, r)

/-- One entry of a batch: the fields of the dictionary (`none`: absent or `None`) and the values the
environment gives when it is submitted (id number, clock). -/
structure BatchEntry (ν : Type) where
  code : Option Str
  amount : Option AmtArg
  style : StyleArg ν
  side : SideArg
  idn : Nat
  now : DT

/-- `api.py:139-154` one entry: every exception gives `None`. -/
def Ctx.batchOne (G : Gate γ ν) (udig : Char → Bool) (e : BatchEntry ν) (x : Ctx γ ν) : Ctx γ ν × Option Str :=
  match e.code with
  | none => (x, none)
  | some code =>
    match e.amount with
    | none => (x, none)
    | some amount =>
      match x.order G udig e.idn e.now code amount e.style e.side with
      | (x, .error _) => (x, none)
      | (x, .ok r) => (x, r)

/-- `api.py:124-157` `batch_submit_orders`. -/
def Ctx.batch (G : Gate γ ν) (udig : Char → Bool) : List (BatchEntry ν) → Ctx γ ν → Ctx γ ν × List (Option Str)
  | [], x => (x, [])
  | e :: es, x =>
    let (x, r) := x.batchOne G udig e
    let (x, rs) := Ctx.batch G udig es x
    (x, r :: rs)

/-- `api.py:117-119` the filter on the status: `o.status.value` of an order without status raises. -/
def filterStatus (s : Status) : List (Order ν × Nat) → Py (List (Order ν × Nat))
  | [] => .ok []
  | (o, n) :: os =>
    match o.status with
    | none => .error .attributeError
    | some t =>
      match filterStatus s os with
      | .error e => .error e
      | .ok r => .ok (if t = s then (o, n) :: r else r)

/-- The order objects of the account with their addresses, in dictionary order. -/
def Acct.orderList (a : Acct γ ν) : List (Order ν × Nat) :=
  a.orders.filterMap fun e => (a.oheap[e.2]?).map fun o => (o, e.2)

/-- `api.py:99-100`: an empty or missing code is no filter. -/
def checkOptCode (udig : Char → Bool) (code : Option Str) : Py Unit :=
  match optStr code with
  | some c => checkCode udig c
  | none => .ok ()

/-- `api.py:102-106`: the status is checked; a member is given by its name. -/
def checkOptStatus (status : Option Str) : Py (Option Status) :=
  match optStr status with
  | some s =>
    match Status.get s with
    | .ok t => .ok (some t)
    | .error _ => .error .invalidParam
  | none => .ok none

/-- `api.py:110-113`. -/
def Acct.selectId (a : Acct γ ν) (orderId : Option Str) : List (Order ν × Nat) :=
  match optStr orderId with
  | some id =>
    match dget a.orders id with
    | some n =>
      match a.oheap[n]? with
      | some o => [(o, n)]
      | none => []
    | none => []
  | none => a.orderList

/-- `api.py:115-116`. -/
def selectCode (code : Option Str) (l : List (Order ν × Nat)) : List (Order ν × Nat) :=
  match optStr code with
  | some c => l.filter fun o => decide (o.1.code = c)
  | none => l

/-- `api.py:118-119`. -/
def selectStatus (st : Option Status) (l : List (Order ν × Nat)) : Py (List (Order ν × Nat)) :=
  match st with
  | some t => filterStatus t l
  | none => .ok l

/-- `api.py:84-121` `get_orders`.  The result maps ids to the addresses of the order objects that the
`UserOrder`s refer to. -/
def Ctx.getOrders (udig : Char → Bool) (orderId code status : Option Str) (x : Ctx γ ν) : Py (Dict Str Nat) := do
  checkOptCode udig code
  let st ← checkOptStatus status
  let a ← x.account
  let orders ← selectStatus st (selectCode code (a.selectId orderId))
  return orders.foldl (fun d o => dset d o.1.orderId o.2) []

/-- `api.py:184-250` what a `UserOrder` shows: the attributes of the object it refers to, read when asked. -/
def Acct.userOrder (a : Acct γ ν) (addr : Nat) : Option (Order ν) := a.oheap[addr]?

/-- `api.py:274-315` what a `UserPosition` shows. -/
def Acct.userPosition (a : Acct γ ν) (addr : Nat) : Option (Pos ν) := a.pheap[addr]?

/-- `api.py:278-280` `get_empty_pos`. -/
def emptyPos (code : Str) (side : Side) : Pos ν :=
  { code := code, amount := 0, avail := 0, avgCost := PyNum.zero, side := side, lastPrice := some PyNum.zero
    value := some PyNum.zero }

/-- `portfolio.py:13-17`, `api.py:265-271`: `portfolio.long_positions[code]`, as the object shown now. -/
def Acct.longPosition (a : Acct γ ν) (code : Str) : Pos ν := (a.findLong code).getD (emptyPos code .long)

/-- `portfolio.py:22-26`: `portfolio.short_positions[code]`. -/
def Acct.shortPosition (a : Acct γ ν) (code : Str) : Pos ν := (a.findShort code).getD (emptyPos code .short)

/-- `portfolio.py:41-42` `position_value`: the loop variable is a key (a string), which has no attribute
`position_value`; the sum over no positions is 0. -/
def Acct.positionValue (a : Acct γ ν) : Py ν :=
  match dkeys a.long with
  | [] => .ok PyNum.zero
  | _ :: _ => .error .attributeError

end Jq
