import Mathlib.Data.List.DropRight
/-!
# Functions in a Python source text

What it means that a function at the top level of a source text has certain statements as its body, if every statement is on one line.
-/
namespace Verif.Spec

/-- White space inside a source text. -/
def White (c : Char) : Prop := c = ' ' ∨ c = '\n' ∨ c = '\t' ∨ c = '\r' ∨ c = '\x0b' ∨ c = '\x0c'

instance : DecidablePred White := fun c => by unfold White; infer_instance

/-- The lines that are not blank, without white space at their end. -/
def codeLines (ls : List (List Char)) : List (List Char) := (ls.map (List.rdropWhile fun c => decide (White c))).filter fun l => l ≠ []

/-- A line that does not begin with white space. -/
def Flush (l : List Char) : Prop := ∀ c ∈ l.head?, ¬ White c

instance : DecidablePred Flush := fun l => by unfold Flush; infer_instance

/-- The source has exactly one line `header`; the block below it, up to the next line that begins in the first column or to the end of the
file, consists of the statements `body`, all of them indented by exactly two spaces. -/
structure HasFunction (src : List (List Char)) (header : List Char) (body : List (List Char)) : Prop where
  flush : ∀ l ∈ body, Flush l ∧ l ≠ []
  block : ∃ pre blk post, src = pre ++ header :: (blk ++ post) ∧ header ∉ pre ∧ header ∉ blk ∧ header ∉ post ∧
    codeLines blk = body.map (fun l => ' ' :: ' ' :: l) ∧ ∀ l ∈ post.head?, Flush l ∧ l ≠ []

end Verif.Spec
