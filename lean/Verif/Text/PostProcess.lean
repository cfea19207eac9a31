/-!
# `post_process` of `gen_repo/impl/gen_py.py:20-50`

The rewriting of Maple's `CodeGeneration[Python]` output.  The Python function applies sixteen `re.sub` calls
in order.  Each is modelled as a function on the characters of one line.

Simplification: the text is processed line by line.  None of the patterns can match a newline
(`.` does not match it), except the character class `[^)(]` of the recursive cube-root pattern (gen_py.py:33), which could
only do so if a parenthesis were left open at the end of a line; that never happens in Maple's output.
`\d` is restricted to ASCII digits.
-/
namespace Verif.Text

/-- Is `c` an ASCII digit (`\d`)? -/
def isDig (c : Char) : Bool := '0' ≤ c && c ≤ '9'

/-- A literal pattern; `none` is the regular expression `.` (any character of the line). -/
abbrev Pat := List (Option Char)

/-- The pattern that matches exactly the text `s`, except that `.` in `s` matches any character, as in a Python regular
expression where the author did not escape the dot. -/
def pat (s : String) : Pat := s.toList.map fun c => if c = '.' then none else some c

/-- Does the pattern match a prefix of the text? -/
def matchPat : Pat → List Char → Bool
  | [], _ => true
  | _ :: _, [] => false
  | none :: ps, _ :: cs => matchPat ps cs
  | some p :: ps, c :: cs => p == c && matchPat ps cs

/-- `re.sub(pat, rep, text)` for a pattern of fixed length: leftmost, non-overlapping.  `skip` counts the characters of the
current match that are still to be dropped. -/
def subPatGo (p : Pat) (rep : List Char) : Nat → List Char → List Char
  | _, [] => []
  | k + 1, _ :: cs => subPatGo p rep k cs
  | 0, c :: cs =>
    if matchPat p (c :: cs) then rep ++ subPatGo p rep (p.length - 1) cs else c :: subPatGo p rep 0 cs

/-- `re.sub(pat, rep, text)` for a non-empty pattern of fixed length. -/
def subPat (p rep : String) (t : List Char) : List Char := subPatGo (pat p) rep.toList 0 t

/-- `re.sub("0+e", "e", text)` (gen_py.py:24); `k` zeros are pending. -/
def dropZerosE : Nat → List Char → List Char
  | k, [] => List.replicate k '0'
  | k, c :: cs =>
    if c = '0' then dropZerosE (k + 1) cs
    else if c = 'e' then 'e' :: dropZerosE 0 cs
    else List.replicate k '0' ++ c :: dropZerosE 0 cs

/-- State of `dropE0`: copying (`seen` = the last character copied since the last match is in `[\d\.]`), or dropping the zeros of a match. -/
inductive E0 | copy (seen : Bool) | drop
  deriving DecidableEq

/-- `re.sub(r"([\d\.]+)e0+", r"\1", text)` (gen_py.py:26). -/
def dropE0 : E0 → List Char → List Char
  | _, [] => []
  | .drop, c :: cs =>
    if c = '0' then dropE0 .drop cs
    else c :: dropE0 (.copy (isDig c || c == '.')) cs
  | .copy seen, c :: cs =>
    if seen && c == 'e' && cs.head? == some '0' then dropE0 .drop cs
    else c :: dropE0 (.copy (isDig c || c == '.')) cs

/-- `re.sub(r"_(\d+)_", r"[\1]", text)` (gen_py.py:27).  `some ds`: an underscore followed by the digits `ds` (reversed) is pending. -/
def indexSub : Option (List Char) → List Char → List Char
  | none, [] => []
  | some ds, [] => '_' :: ds.reverse
  | none, c :: cs => if c = '_' then indexSub (some []) cs else c :: indexSub none cs
  | some ds, c :: cs =>
    if isDig c then indexSub (some (c :: ds)) cs
    else if c = '_' then
      (if ds.isEmpty then '_' :: indexSub (some []) cs
       else '[' :: (ds.reverse ++ ']' :: indexSub none cs))
    else '_' :: (ds.reverse ++ c :: indexSub none cs)

/-- The text ` ** (0.1e1 / 0.3e1)` as a regular expression (the dots match anything), gen_py.py:33,37. -/
def cbrtExp : Pat := pat " ** (0.1e1 / 0.3e1)"

/-- The balanced group `(\((?:[^)(]+|(?2))*+\))` of gen_py.py:33 at the head of the text:
returns the group and the rest.  `d` is the current depth. -/
def balanced : Nat → List Char → Option (List Char × List Char)
  | _, [] => none
  | d, c :: cs =>
    if c = '(' then (balanced (d + 1) cs).map fun (g, r) => (c :: g, r)
    else if c = ')' then
      (if d = 1 then some ([c], cs) else (balanced (d - 1) cs).map fun (g, r) => (c :: g, r))
    else if d = 0 then none
    else (balanced d cs).map fun (g, r) => (c :: g, r)

/-- The match of gen_py.py:33 in a line: because the first group `(.*)` is greedy, it is the *last* opening parenthesis whose
balanced group is followed by the cube-root exponent.  Returns `(\1, \2, \3)`. -/
def lastParenCbrt : List Char → Option (List Char × List Char × List Char)
  | [] => none
  | c :: cs =>
    match lastParenCbrt cs with
    | some (a, g, b) => some (c :: a, g, b)
    | none =>
      if c = '(' then
        match balanced 0 (c :: cs) with
        | some (g, r) => if matchPat cbrtExp r then some ([], g, r.drop cbrtExp.length) else none
        | none => none
      else none

/-- gen_py.py:31-35 on one line (at most one replacement, since the pattern consumes the line). -/
def cbrtParen (l : List Char) : List Char :=
  match lastParenCbrt l with
  | some (a, g, b) => a ++ "jnp.cbrt".toList ++ g ++ b
  | none => l

/-- The last occurrence of the cube-root exponent in a line: text before and after it. -/
def lastExp : List Char → Option (List Char × List Char)
  | [] => none
  | c :: cs =>
    match lastExp cs with
    | some (a, b) => some (c :: a, b)
    | none => if matchPat cbrtExp (c :: cs) then some ([], (c :: cs).drop cbrtExp.length) else none

/-- Split at the last space: `"ab cd"` gives `("ab", "cd")`. -/
def lastSpace : List Char → Option (List Char × List Char)
  | [] => none
  | c :: cs =>
    match lastSpace cs with
    | some (a, b) => some (c :: a, b)
    | none => if c = ' ' then some ([], cs) else none

/-- gen_py.py:37 on one line: `(.*) (.*) \*\* \(0.1e1 \/ 0.3e1\)(.*)` → `\1 jnp.cbrt(\2)\3`. Both leading groups are greedy, so
the match uses the last cube-root exponent and the last space before it. -/
def cbrtVar (l : List Char) : List Char :=
  match lastExp l with
  | some (pre, post) =>
    match lastSpace pre with
    | some (a, b) => a ++ " jnp.cbrt(".toList ++ b ++ ")".toList ++ post
    | none => l
  | none => l

/-- The value of `f"{jnp.finfo(float).eps}"` inserted by gen_py.py:44. -/
def dblEpsilon : String := "2.220446049250313e-16"

/-- `post_process` (gen_py.py:20-50) on one line, rules in order. -/
def postProcessLine (l : List Char) : List Char :=
  let l := subPat "_a_" "." l
  let l := dropZerosE 0 l
  let l := dropE0 (.copy false) l
  let l := indexSub none l
  let l := subPat "0.31415926535897932385e1" "jnp.pi" l
  let l := subPat "math.erf" "jax.lax.erf" l
  let l := cbrtParen l
  let l := cbrtVar l
  let l := subPat "scipy.special.i0" "jax.scipy.special.i0" l
  let l := subPat "scipy.special.lambertw" "lambertw" l
  let l := subPat "math" "jnp" l
  let l := subPat "atan" "arctan" l
  let l := subPat "asinh" "arcsinh" l
  let l := subPat "abs" "jnp.abs" l
  let l := subPat "DBL_EPSILON" dblEpsilon l
  let l := subPat "lambda" "lambda_" l
  l

/-- Split a text into lines. -/
def splitLines : List Char → List (List Char)
  | [] => [[]]
  | c :: cs =>
    match splitLines cs with
    | [] => [[c]]
    | l :: ls => if c = '\n' then [] :: l :: ls else (c :: l) :: ls

/-- `post_process` (gen_py.py:20-50), line by line. -/
def postProcess (t : List Char) : List (List Char) := (splitLines t).map postProcessLine

end Verif.Text
