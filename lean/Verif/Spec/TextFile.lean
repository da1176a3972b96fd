import Verif.Model.TextFile
/-! What an encoded file is, stated without the decoder's run. -/
namespace Jq

/-- The bytes are the character: no beginning of them is, and none is wrong. -/
def IsChar (D : Codec) (g : Bytes) (c : Char) : Prop :=
  D.tok g = .char c ∧ g ≠ [] ∧ ∀ p, p <+: g → p ≠ [] → p ≠ g → D.tok p = .more

/-- The bytes begin no character. -/
def IsWrong (D : Codec) (g : Bytes) : Prop :=
  D.tok g = .bad ∧ g ≠ [] ∧ ∀ p, p <+: g → p ≠ [] → p ≠ g → D.tok p = .more

/-- The bytes are the beginning of a character, no more. -/
def IsBegun (D : Codec) (g : Bytes) : Prop :=
  g ≠ [] ∧ ∀ p, p <+: g → p ≠ [] → D.tok p = .more

/-- A text with the bytes of each character. -/
abbrev Encoded := List (Bytes × Char)

/-- The bytes of the text. -/
def Encoded.bytes (gs : Encoded) : Bytes := gs.flatMap (·.1)

/-- The text. -/
def Encoded.text (gs : Encoded) : Str := gs.map (·.2)

/-- It is a text in the encoding. -/
def Encoded.In (D : Codec) (gs : Encoded) : Prop := ∀ g ∈ gs, IsChar D g.1 g.2

/-- The position in the file of the `k`-th character. -/
def Encoded.pos (gs : Encoded) (k : Nat) : Cookie := ⟨Encoded.bytes (gs.take k) |>.length, false⟩

/-- A text in UTF-8. -/
def inUtf8 (t : Str) : Encoded := t.map fun c => (String.utf8EncodeChar c, c)

end Jq
