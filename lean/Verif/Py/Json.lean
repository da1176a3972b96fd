import Verif.Py.Str
/-!
# JSON texts

Models `json.dumps` (default options: ASCII only, separators `", "` and `": "`) and `json.loads` of the CPython library
(`json/encoder.py`, `json/decoder.py`, `json/scanner.py`, and `Modules/_json.c`, which takes ASCII digits only).  A number is kept as
its text.  Strings are made of Unicode scalar values: a text with the escape of a lone surrogate is refused, where Python makes a
string that no file can be written with.  Nesting is not limited.
-/
namespace Jq

/-- A JSON value. -/
inductive JV where
  | null
  | bool (b : Bool)
  | num (lexeme : Str)
  | str (s : Str)
  | arr (items : List JV)
  | obj (members : List (Str × JV))

/-- `'%x'` of a number below 16. -/
def hexChar (n : Nat) : Char := if n < 10 then Char.ofNat (48 + n) else Char.ofNat (87 + n)

/-- Value of a hexadecimal digit. -/
def hexVal (c : Char) : Option Nat :=
  if '0' ≤ c ∧ c ≤ '9' then some (c.toNat - 48)
  else if 'a' ≤ c ∧ c ≤ 'f' then some (c.toNat - 87)
  else if 'A' ≤ c ∧ c ≤ 'F' then some (c.toNat - 55)
  else none

/-- `'\\u{0:04x}'.format(n)`. -/
def uEscape (n : Nat) : Str :=
  ['\\', 'u', hexChar (n / 4096 % 16), hexChar (n / 256 % 16), hexChar (n / 16 % 16), hexChar (n % 16)]

/-- `encoder.py:34-67` `py_encode_basestring_ascii`: one character. -/
def escapeChar (c : Char) : Str :=
  if c = '"' then ['\\', '"']
  else if c = '\\' then ['\\', '\\']
  else if c = '\n' then ['\\', 'n']
  else if c = '\r' then ['\\', 'r']
  else if c = '\t' then ['\\', 't']
  else if c = '\x0c' then ['\\', 'f']
  else if c = '\x08' then ['\\', 'b']
  else if 32 ≤ c.toNat ∧ c.toNat ≤ 126 then [c]
  else if c.toNat < 65536 then uEscape c.toNat
  else uEscape (55296 + (c.toNat - 65536) / 1024) ++ uEscape (56320 + (c.toNat - 65536) % 1024)

/-- A quoted string. -/
def jsonStr (s : Str) : Str := '"' :: (s.flatMap escapeChar ++ ['"'])

mutual
/-- `encoder.py:206-440` `iterencode`. -/
def JV.dump : JV → Str
  | .null => c!"null"
  | .bool b => if b then c!"true" else c!"false"
  | .num l => l
  | .str s => jsonStr s
  | .arr vs => '[' :: (dumpItems vs ++ [']'])
  | .obj ms => '{' :: (dumpMembers ms ++ ['}'])
/-- The items of an array. -/
def dumpItems : List JV → Str
  | [] => []
  | v :: vs => v.dump ++ dumpItemsRest vs
/-- The items after the first. -/
def dumpItemsRest : List JV → Str
  | [] => []
  | v :: vs => c!", " ++ (v.dump ++ dumpItemsRest vs)
/-- The members of an object. -/
def dumpMembers : List (Str × JV) → Str
  | [] => []
  | (k, v) :: ms => jsonStr k ++ (c!": " ++ (v.dump ++ dumpRest ms))
/-- The members after the first. -/
def dumpRest : List (Str × JV) → Str
  | [] => []
  | (k, v) :: ms => c!", " ++ (jsonStr k ++ (c!": " ++ (v.dump ++ dumpRest ms)))
end

/-- Four hexadecimal digits. -/
def hex4 (a b c d : Char) : Option Nat :=
  match hexVal a, hexVal b, hexVal c, hexVal d with
  | some a, some b, some c, some d => some (((a * 16 + b) * 16 + c) * 16 + d)
  | _, _, _, _ => none

/-- `decoder.py:57-67` the escapes of one character. -/
def escapeOf (c : Char) : Option Nat :=
  if c = '"' then some 34 else if c = '\\' then some 92 else if c = '/' then some 47 else if c = 'b' then some 8
  else if c = 'f' then some 12 else if c = 'n' then some 10 else if c = 'r' then some 13 else if c = 't' then some 9 else none

/-- `decoder.py:69-126` `py_scanstring` (strict), after the opening quote: the code units and the rest. -/
def scanUnits : Str → Option (List Nat × Str)
  | [] => none
  | c :: s =>
    if c = '"' then some ([], s)
    else if c = '\\' then
      match s with
      | [] => none
      | e :: s1 =>
        if e = 'u' then
          match s1 with
          | a :: b :: c :: d :: s2 =>
            match hex4 a b c d with
            | none => none
            | some n => (scanUnits s2).map fun r => (n :: r.1, r.2)
          | _ => none
        else
          match escapeOf e with
          | none => none
          | some n => (scanUnits s1).map fun r => (n :: r.1, r.2)
    else if c.toNat < 32 then none
    else (scanUnits s).map fun r => (c.toNat :: r.1, r.2)

/-- A scalar value; `none` for a surrogate. -/
def scalar (n : Nat) : Option Char := if n < 55296 ∨ (57344 ≤ n ∧ n < 1114112) then some (Char.ofNat n) else none

/-- Surrogate pairs are put together (`decoder.py:113-121`). -/
def joinUnits : List Nat → Option Str
  | [] => some []
  | [n] => (scalar n).map fun c => [c]
  | n :: m :: l =>
    if 55296 ≤ n ∧ n < 56320 ∧ 56320 ≤ m ∧ m < 57344 then
      match joinUnits l with
      | some s => (scalar (65536 + (n - 55296) * 1024 + (m - 56320))).map fun c => c :: s
      | none => none
    else
      match joinUnits (m :: l) with
      | some s => (scalar n).map fun c => c :: s
      | none => none

/-- A string, after the opening quote. -/
def scanStr (s : Str) : Option (Str × Str) :=
  match scanUnits s with
  | none => none
  | some (us, r) => (joinUnits us).map fun t => (t, r)

/-- `decoder.py:131` white space. -/
def isJsonSpace (c : Char) : Bool := c ∈ c!" \t\n\r"

def skipSpace (s : Str) : Str := s.dropWhile isJsonSpace

/-- `_match_number_unicode` of `_json.c`, the whole part: `0`, or digits that do not begin with `0`. -/
def scanWhole : Str → Option (Str × Str)
  | [] => none
  | c :: s => if c = '0' then some (['0'], s) else if isDig c then some (c :: s.takeWhile isDig, s.dropWhile isDig) else none

/-- `_match_number_unicode`, the fraction, if a digit follows the point. -/
def scanFrac : Str → Str × Str
  | [] => ([], [])
  | c :: s => if c = '.' ∧ s.takeWhile isDig ≠ [] then ('.' :: s.takeWhile isDig, s.dropWhile isDig) else ([], c :: s)

/-- The sign of an exponent. -/
def scanSign : Str → Str × Str
  | [] => ([], [])
  | c :: s => if c = '+' ∨ c = '-' then ([c], s) else ([], c :: s)

/-- `_match_number_unicode`, the exponent, if it has digits. -/
def scanExp : Str → Str × Str
  | [] => ([], [])
  | c :: s =>
    if (c = 'e' ∨ c = 'E') ∧ (scanSign s).2.takeWhile isDig ≠ [] then
      (c :: ((scanSign s).1 ++ (scanSign s).2.takeWhile isDig), (scanSign s).2.dropWhile isDig)
    else ([], c :: s)

/-- `-`. -/
def scanMinus : Str → Str × Str
  | [] => ([], [])
  | c :: s => if c = '-' then (['-'], s) else ([], c :: s)

/-- `scanner.py:11-13`, `48-55` a number. -/
def scanDecimal (s : Str) : Option (JV × Str) :=
  match scanWhole (scanMinus s).2 with
  | none => none
  | some (w, s1) =>
    some (.num ((scanMinus s).1 ++ (w ++ ((scanFrac s1).1 ++ (scanExp (scanFrac s1).2).1))), (scanExp (scanFrac s1).2).2)

/-- `scanner.py:48-63` a number or one of the constants. -/
def scanNum (s : Str) : Option (JV × Str) :=
  if c!"NaN".isPrefixOf s then some (.num c!"NaN", s.drop 3)
  else if c!"Infinity".isPrefixOf s then some (.num c!"Infinity", s.drop 8)
  else if c!"-Infinity".isPrefixOf s then some (.num c!"-Infinity", s.drop 9)
  else scanDecimal s

mutual
/-- `scanner.py:28-63` `scan_once`; the fuel bounds the nesting and the members. -/
def parseVal : Nat → Str → Option (JV × Str)
  | 0, _ => none
  | _ + 1, [] => none
  | n + 1, c :: s =>
    if c = '"' then (scanStr s).map fun r => (.str r.1, r.2)
    else if c = '{' then
      match skipSpace s with
      | [] => none
      | d :: t =>
        if d = '}' then some (.obj [], t)
        else if d = '"' then (parseMembers n t).map fun r => (.obj r.1, r.2)
        else none
    else if c = '[' then
      match skipSpace s with
      | [] => none
      | d :: t => if d = ']' then some (.arr [], t) else (parseArray n (d :: t)).map fun r => (.arr r.1, r.2)
    else if c!"null".isPrefixOf (c :: s) then some (.null, (c :: s).drop 4)
    else if c!"true".isPrefixOf (c :: s) then some (.bool true, (c :: s).drop 4)
    else if c!"false".isPrefixOf (c :: s) then some (.bool false, (c :: s).drop 5)
    else scanNum (c :: s)
/-- `decoder.py:217-249` `JSONArray`: the items, after white space. -/
def parseArray : Nat → Str → Option (List JV × Str)
  | 0, _ => none
  | n + 1, s =>
    match parseVal n s with
    | none => none
    | some (v, s1) =>
      match skipSpace s1 with
      | [] => none
      | d :: s2 =>
        if d = ']' then some ([v], s2)
        else if d = ',' then (parseArray n (skipSpace s2)).map fun r => (v :: r.1, r.2)
        else none
/-- `decoder.py:136-215` `JSONObject`: the members, after the opening quote of a key. -/
def parseMembers : Nat → Str → Option (List (Str × JV) × Str)
  | 0, _ => none
  | n + 1, s =>
    match scanStr s with
    | none => none
    | some (k, s1) =>
      match skipSpace s1 with
      | [] => none
      | c :: s2 =>
        if c ≠ ':' then none
        else
          match parseVal n (skipSpace s2) with
          | none => none
          | some (v, s3) =>
            match skipSpace s3 with
            | [] => none
            | d :: s4 =>
              if d = '}' then some ([(k, v)], s4)
              else if d = ',' then
                match skipSpace s4 with
                | [] => none
                | q :: s5 => if q = '"' then (parseMembers n s5).map fun r => ((k, v) :: r.1, r.2) else none
              else none
end

/-- `decoder.py:332-360` `json.loads`: nothing but white space may follow. -/
def jsonLoads (s : Str) : Option JV :=
  match parseVal (s.length + 1) (skipSpace s) with
  | none => none
  | some (v, r) => if skipSpace r = [] then some v else none

end Jq
