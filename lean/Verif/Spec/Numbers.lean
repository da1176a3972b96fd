import Verif.Spec.Times
/-! Specification vocabulary for C80: how a text writes a whole number. -/
namespace Jq

/-- The text of a whole number: blanks, a sign or none, digits in groups with one underscore between two groups, blanks. -/
inductive IntText : Str → Int → Prop where
  | plain (l r g : Str) (gs : List Str) (hl : ∀ c ∈ l, isIntSpace c = true) (hr : ∀ c ∈ r, isIntSpace c = true)
      (hg : ∀ w ∈ g :: gs, w ≠ [] ∧ ∀ c ∈ w, '0' ≤ c ∧ c ≤ '9') :
      IntText (l ++ (g ++ gs.flatMap ('_' :: ·)) ++ r) (decimal (g ++ gs.flatten) : Nat)
  | plus (l r g : Str) (gs : List Str) (hl : ∀ c ∈ l, isIntSpace c = true) (hr : ∀ c ∈ r, isIntSpace c = true)
      (hg : ∀ w ∈ g :: gs, w ≠ [] ∧ ∀ c ∈ w, '0' ≤ c ∧ c ≤ '9') :
      IntText (l ++ '+' :: (g ++ gs.flatMap ('_' :: ·)) ++ r) (decimal (g ++ gs.flatten) : Nat)
  | minus (l r g : Str) (gs : List Str) (hl : ∀ c ∈ l, isIntSpace c = true) (hr : ∀ c ∈ r, isIntSpace c = true)
      (hg : ∀ w ∈ g :: gs, w ≠ [] ∧ ∀ c ∈ w, '0' ≤ c ∧ c ≤ '9') :
      IntText (l ++ '-' :: (g ++ gs.flatMap ('_' :: ·)) ++ r) (-(decimal (g ++ gs.flatten) : Nat))

end Jq
