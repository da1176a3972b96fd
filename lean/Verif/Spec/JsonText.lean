import Verif.Py.Json
/-!
# What a JSON text is

The grammar of RFC 8259, with `NaN`, `Infinity` and `-Infinity` as numbers.  It does not refer to any reader.
-/
namespace Jq

/-- White space. -/
def SpaceText (w : Str) : Prop := ∀ c ∈ w, c = ' ' ∨ c = '\t' ∨ c = '\n' ∨ c = '\r'

/-- One digit or more. -/
def DigitsText (s : Str) : Prop := s ≠ [] ∧ ∀ c ∈ s, c ∈ c!"0123456789"

/-- A whole number without leading zeros. -/
def WholeText (s : Str) : Prop := DigitsText s ∧ (s.head? = some '0' → s = ['0'])

/-- The exponent of a number. -/
def ExpText (s : Str) : Prop :=
  s = [] ∨ ∃ e sign ds, s = e :: (sign ++ ds) ∧ (e = 'e' ∨ e = 'E') ∧ (sign = [] ∨ sign = ['+'] ∨ sign = ['-']) ∧ DigitsText ds

/-- A number. -/
def NumberText (s : Str) : Prop :=
  s = c!"NaN" ∨ s = c!"Infinity" ∨ s = c!"-Infinity" ∨
    ∃ minus whole frac exp, s = minus ++ (whole ++ (frac ++ exp)) ∧ (minus = [] ∨ minus = ['-']) ∧ WholeText whole ∧
      (frac = [] ∨ ∃ ds, frac = '.' :: ds ∧ DigitsText ds) ∧ ExpText exp

/-- A hexadecimal digit and its value. -/
def HexText (c : Char) (n : Nat) : Prop := n < 16 ∧ (c!"0123456789abcdef"[n]? = some c ∨ c!"0123456789ABCDEF"[n]? = some c)

/-- `\uXXXX` and its value. -/
def UnitText (s : Str) (n : Nat) : Prop :=
  ∃ a b c d x y z w, s = ['\\', 'u', a, b, c, d] ∧ HexText a x ∧ HexText b y ∧ HexText c z ∧ HexText d w ∧
    n = x * 4096 + y * 256 + z * 16 + w

/-- The escapes of one character and what they stand for. -/
def shortEscapes : List (Char × Char) :=
  [('"', '"'), ('\\', '\\'), ('/', '/'), ('b', '\x08'), ('f', '\x0c'), ('n', '\n'), ('r', '\r'), ('t', '\t')]

/-- What stands for a character inside a string: itself, unless it is a control character, a quote or a backslash; a short escape; its
number; or the numbers of its surrogate pair. -/
inductive CharText : Char → Str → Prop
  | plain (c : Char) : c ≠ '"' → c ≠ '\\' → 32 ≤ c.toNat → CharText c [c]
  | short (e c : Char) : (e, c) ∈ shortEscapes → CharText c ['\\', e]
  | unit (c : Char) (s : Str) : UnitText s c.toNat → CharText c s
  | pair (c : Char) (s t : Str) (hi lo : Nat) : UnitText s hi → UnitText t lo → 0xD800 ≤ hi → hi < 0xDC00 → 0xDC00 ≤ lo → lo < 0xE000 →
      c.toNat = 0x10000 + (hi - 0xD800) * 0x400 + (lo - 0xDC00) → CharText c (s ++ t)

/-- The characters of a string, without the quotes. -/
inductive CharsText : Str → Str → Prop
  | nil : CharsText [] []
  | cons (c : Char) (x cs s : Str) : CharText c x → CharsText cs s → CharsText (c :: cs) (x ++ s)

mutual
/-- A value. -/
inductive JsonText : JV → Str → Prop
  | null : JsonText .null c!"null"
  | yes : JsonText (.bool true) c!"true"
  | no : JsonText (.bool false) c!"false"
  | num (l : Str) : NumberText l → JsonText (.num l) l
  | str (t s : Str) : CharsText t s → JsonText (.str t) ('"' :: (s ++ ['"']))
  | noItems (w : Str) : SpaceText w → JsonText (.arr []) ('[' :: (w ++ [']']))
  | arr (vs : List JV) (s : Str) : ItemsText vs s → JsonText (.arr vs) ('[' :: (s ++ [']']))
  | noMembers (w : Str) : SpaceText w → JsonText (.obj []) ('{' :: (w ++ ['}']))
  | obj (ms : List (Str × JV)) (s : Str) : MembersText ms s → JsonText (.obj ms) ('{' :: (s ++ ['}']))
/-- The items of an array, with commas between them and white space around them. -/
inductive ItemsText : List JV → Str → Prop
  | one (v : JV) (w1 s w2 : Str) : SpaceText w1 → JsonText v s → SpaceText w2 → ItemsText [v] (w1 ++ (s ++ w2))
  | more (v : JV) (w1 s w2 : Str) (vs : List JV) (r : Str) : SpaceText w1 → JsonText v s → SpaceText w2 → ItemsText vs r →
      ItemsText (v :: vs) (w1 ++ (s ++ (w2 ++ ',' :: r)))
/-- The members of an object. -/
inductive MembersText : List (Str × JV) → Str → Prop
  | one (k : Str) (v : JV) (w1 ks w2 w3 s w4 : Str) : SpaceText w1 → CharsText k ks → SpaceText w2 → SpaceText w3 → JsonText v s →
      SpaceText w4 → MembersText [(k, v)] (w1 ++ '"' :: (ks ++ '"' :: (w2 ++ ':' :: (w3 ++ (s ++ w4)))))
  | more (k : Str) (v : JV) (w1 ks w2 w3 s w4 : Str) (ms : List (Str × JV)) (r : Str) : SpaceText w1 → CharsText k ks → SpaceText w2 →
      SpaceText w3 → JsonText v s → SpaceText w4 → MembersText ms r →
      MembersText ((k, v) :: ms) (w1 ++ '"' :: (ks ++ '"' :: (w2 ++ ':' :: (w3 ++ (s ++ (w4 ++ ',' :: r))))))
end

/-- A JSON text: a value with white space around it. -/
def IsJson (v : JV) (text : Str) : Prop := ∃ w1 s w2, text = w1 ++ (s ++ w2) ∧ SpaceText w1 ∧ JsonText v s ∧ SpaceText w2

end Jq
