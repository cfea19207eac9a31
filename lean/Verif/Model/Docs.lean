import Verif.Model.Gen
import Verif.Model.Wrap
/-!
# The documentation of the functionals

Model of what `gen_repo/gen_py.py:main` (`gen_repo/gen_py.py:57-88`) collects for the docstrings, and of the two places of `gen_repo/python_template.jinja`
that print it (lines 33-41: references; lines 53-56: parameters).

Simplifications: only the references and the list of parameters of a docstring are modelled, as lists of entries instead of indented text; `\s` is ASCII.
-/
namespace Verif.Model
open Verif.Text

/-- `(.*?)\}` at the head of a text: the characters before the first closing brace, if there is one before the end of the line. -/
def lazyBrace : List Char → Option (List Char)
  | [] => none
  | c :: cs => if c = '}' then some [] else if c = '\n' then none else (lazyBrace cs).map (c :: ·)

/-- The text after a given beginning. -/
def afterPrefix : List Char → List Char → Option (List Char)
  | [], t => some t
  | _ :: _, [] => none
  | p :: ps, c :: cs => if p = c then afterPrefix ps cs else none

/-- `re.findall(r"url = \{(.*?)\}|$", bibtex)[0]` (`gen_repo/gen_py.py:68`): at each position the first alternative is tried; the second one only matches at the
end, with an empty group. -/
def findUrl : List Char → List Char
  | [] => []
  | c :: cs =>
    match (afterPrefix "url = {".toList (c :: cs)).bind lazyBrace with
    | some u => u
    | none => findUrl cs

/-- `re.sub(r"\\(.)", r"\1", url)` (`gen_repo/gen_py.py:70`). -/
def unescape : List Char → List Char
  | [] => []
  | [c] => [c]
  | c :: d :: cs => if c = '\\' ∧ d ≠ '\n' then d :: unescape cs else c :: unescape (d :: cs)

/-- `url.replace("<", r"\<").replace(">", r"\>")` (`gen_repo/gen_py.py:72`). -/
def escapeAngle (u : List Char) : List Char :=
  (u.flatMap fun c => if c = '<' then ['\\', '<'] else [c]).flatMap fun c => if c = '>' then ['\\', '>'] else [c]

/-- The URL of a reference as it is printed (`gen_repo/gen_py.py:66-78`). -/
def urlOf (bibtex : List Char) : List Char := strip (escapeAngle (unescape (findUrl bibtex)))

/-- `info` (`gen_repo/gen_py.py:66-78`): the stripped triples of `zip(urls, dois, refs)`. -/
def infoOf (bibtexes dois refs : List (List Char)) : List (List Char × List Char × List Char) :=
  (bibtexes.map fun b => escapeAngle (unescape (findUrl b))).zip (dois.zip refs) |>.map fun (u, d, r) => (strip u, strip d, strip r)

/-- One reference in a docstring (`gen_repo/python_template.jinja:34-39`): its two lines. -/
def renderInfo : List Char × List Char × List Char → List (List Char)
  | (url, doi, ref) => [ref, if url ≠ [] then '`' :: (doi ++ (" <".toList ++ (url ++ ">`_".toList))) else doi]

/-- The documented parameters (`gen_repo/python_template.jinja:53-56`): `zip(ext_params.items(), ext_params_descriptions)`. -/
def paramDocs (func : Option (List String × List ℝ)) (descriptions : List String) : List ((String × ℝ) × String) := (getExtParams func).zip descriptions

end Verif.Model
