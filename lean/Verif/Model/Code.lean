import Verif.Py.Str
/-! # Security codes in the broker's notation

Models `trade_gate.py:374-390`. -/
namespace Jq

/-- `s.endswith(t)`. -/
def endsWith (s t : Str) : Bool := t.isSuffixOf s

/-- `s.replace(old, new)` for a non-empty `old`: occurrences from the left, not overlapping.  `skip` characters
of an occurrence already replaced remain to be dropped. -/
def replaceGo (old new : Str) : Nat → Str → Str
  | _, [] => []
  | k + 1, _ :: s => replaceGo old new k s
  | 0, c :: s => if old.isPrefixOf (c :: s) then new ++ replaceGo old new (old.length - 1) s else c :: replaceGo old new 0 s

/-- `s.replace(old, new)`. -/
def pyReplace (old new s : Str) : Str := replaceGo old new 0 s

/-- `trade_gate.py:374-381` `_decode_security`. -/
def decodeSecurity (code : Str) : Py Str :=
  if endsWith code c!"SZ" then .ok (pyReplace c!"SZ" c!"XSHE" code)
  else if endsWith code c!"SH" then .ok (pyReplace c!"SH" c!"XSHG" code)
  else .error .valueError

/-- `trade_gate.py:383-390` `_encode_security`. -/
def encodeSecurity (code : Str) : Py Str :=
  if endsWith code c!"XSHE" then .ok (pyReplace c!"XSHE" c!"SZ" code)
  else if endsWith code c!"XSHG" then .ok (pyReplace c!"XSHG" c!"SH" code)
  else .error .valueError

end Jq
