import Mathlib.Data.Rat.Defs
import Mathlib.Algebra.Field.Rat
/-!
# What the rewriting of Maple's output is about: numerals, names and cube roots, as text
-/
namespace Verif.Spec

/-- The characters of `s` stand for the characters of `m`; a dot stands for any character (regular expressions). -/
def Fits (s m : List Char) : Prop := List.Forall₂ (fun p c => p = '.' ∨ p = c) s m

/-- The text contains something that the pattern `s` stands for. -/
def Contains (s : String) (t : List Char) : Prop := ∃ a m b, t = a ++ (m ++ b) ∧ Fits s.toList m

/-- The ASCII digits. -/
def DigitChar (c : Char) : Prop := '0' ≤ c ∧ c ≤ '9'

instance : DecidablePred DigitChar := fun _ => inferInstanceAs (Decidable (_ ∧ _))

/-- The value of a string of digits. -/
def digitsNat (ds : List Char) : ℕ := ds.foldl (fun n c => n * 10 + (c.toNat - '0'.toNat)) 0

/-- A numeral `int.frac` or `int.frac e [-] exp`, as in Python. -/
structure Numeral where
  int : List Char
  frac : List Char
  /-- the sign (`true` for minus) and the digits of the exponent -/
  exp : Option (Bool × List Char)

/-- The text of a numeral. -/
def Numeral.text (n : Numeral) : List Char :=
  n.int ++ '.' :: (n.frac ++ match n.exp with
    | none => []
    | some (true, es) => 'e' :: '-' :: es
    | some (false, es) => 'e' :: es)

/-- The exponent of a numeral. -/
def Numeral.power (n : Numeral) : ℤ :=
  match n.exp with
  | none => 0
  | some (true, es) => -(digitsNat es : ℤ)
  | some (false, es) => digitsNat es

/-- The value of a numeral. -/
def Numeral.val (n : Numeral) : ℚ := (digitsNat (n.int ++ n.frac) : ℚ) / 10 ^ n.frac.length * 10 ^ n.power

/-- A numeral that Python accepts: digits everywhere, at least one in front, and at least one in the exponent if there is one. -/
structure Numeral.OK (n : Numeral) : Prop where
  int : n.int ≠ []
  intDigits : ∀ c ∈ n.int, DigitChar c
  fracDigits : ∀ c ∈ n.frac, DigitChar c
  exp : ∀ s es, n.exp = some (s, es) → es ≠ [] ∧ ∀ c ∈ es, DigitChar c

/-- A numeral as Maple prints it: `0.frac e exp`, where a positive exponent has no leading zeros (it may consist of zeros). -/
structure MapleNumeral (n : Numeral) : Prop where
  ok : n.OK
  zero : n.int = ['0']
  exp : ∃ s es, n.exp = some (s, es) ∧ (es.head? ≠ some '0' ∨ s = true ∨ ∀ c ∈ es, c = '0')

/-- What the rules of `post_process` look for, apart from numerals and `_a_`. -/
def triggers : List String := ["0.31415926535897932385e1", "math.erf", " ** (0.1e1 / 0.3e1)", "scipy.special.i0", "scipy.special.lambertw", "math",
  "atan", "asinh", "abs", "DBL_EPSILON", "lambda"]

/-- The names and numbers that Maple writes, and those that Python needs: the constant π, the special functions, the module, and the distance of 1 to the next
double precision number (`numpy.finfo(float).eps`).  A parameter called `lambda` gets an underscore, since that is a keyword. -/
def wordTable : List (String × String) := [("0.31415926535897932385e1", "jnp.pi"), ("math.erf", "jax.lax.erf"), ("scipy.special.i0", "jax.scipy.special.i0"),
  ("scipy.special.lambertw", "lambertw"), ("math", "jnp"), ("atan", "arctan"), ("asinh", "arcsinh"), ("abs", "jnp.abs"),
  ("DBL_EPSILON", "2.220446049250313e-16"), ("lambda", "lambda_")]

/-- An index `_digits_`. -/
def HasIndex (t : List Char) : Prop := ∃ a ds b, t = a ++ ('_' :: (ds ++ '_' :: b)) ∧ ds ≠ [] ∧ ∀ c ∈ ds, DigitChar c

/-- A text in which none of the rules after the numerals finds anything. -/
structure Quiet (t : List Char) : Prop where
  words : ∀ s ∈ triggers, ¬ Contains s t
  index : ¬ HasIndex t

/-- A text in which the rules for numerals find nothing: no zero before an `e`, no digit or dot before `e0`. -/
structure NumQuiet (t : List Char) : Prop where
  zeroE : ¬ ['0', 'e'] <:+: t
  eZero : ∀ c, DigitChar c ∨ c = '.' → ¬ [c, 'e', '0'] <:+: t

/-- Balanced parentheses. -/
inductive Bal : List Char → Prop
  | nil : Bal []
  | char (c : Char) (t : List Char) (h1 : c ≠ '(') (h2 : c ≠ ')') (h : Bal t) : Bal (c :: t)
  | group (t u : List Char) (h : Bal t) (h' : Bal u) : Bal ('(' :: (t ++ ')' :: u))

end Verif.Spec
