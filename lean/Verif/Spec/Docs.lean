import Verif.Spec.PySource
/-!
# Escaped text and links
-/
namespace Verif.Spec

/-- `enc` is a way to write `u` with backslashes: a character after a backslash stands for itself, and the characters in `special` only occur after a backslash. -/
inductive Escaped (special : Char → Prop) : List Char → List Char → Prop
  | nil : Escaped special [] []
  | plain (c : Char) (enc u : List Char) : c ≠ '\\' → ¬ special c → Escaped special enc u → Escaped special (c :: enc) (c :: u)
  | escaped (c : Char) (enc u : List Char) : Escaped special enc u → Escaped special ('\\' :: c :: enc) (c :: u)

/-- The angle brackets that delimit the target of a link in reStructuredText. -/
def Angle (c : Char) : Prop := c = '<' ∨ c = '>'

/-- `text` is the link of reStructuredText with the given label and target: `` `label <target>`_ ``, with escaped angle brackets in the target. -/
def IsLink (text label target : List Char) : Prop := ∃ enc, text = "`".toList ++ label ++ " <".toList ++ enc ++ ">`_".toList ∧ Escaped Angle enc target

/-- No white space at either end. -/
def Trimmed (l : List Char) : Prop := (∀ c ∈ l.head?, ¬ White c) ∧ ∀ c ∈ l.getLast?, ¬ White c

end Verif.Spec
