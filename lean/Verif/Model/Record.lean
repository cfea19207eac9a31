import Verif.Model.Gen
/-!
# `dict_to_namedtuple`

Model of `gen_repo/utils.py:14-40`.
-/
namespace Verif.Model
open Verif.Py

/-- A numpy array: shape and entries (row-major). -/
structure Arr where
  shape : List ℕ
  data : List ℝ

/-- The Python values that occur in the dict of `gen_repo/libxc/libxc.cc:86-129`. -/
inductive PyVal
  | str (s : String)
  | num (x : ℝ)
  | int (n : ℕ)
  | arr (a : Arr)
  | dict (d : List (String × PyVal))
  | list (l : List PyVal)

/-- The values after the conversion. -/
inductive NT
  | str (s : String)
  | num (x : ℝ)
  | int (n : ℕ)
  | arr (a : Arr)
  /-- an instance of the namedtuple class `name` with these fields -/
  | tup (name : String) (fields : List (String × NT))
  | list (l : List NT)

/-- Python's keywords. -/
def keywords : List String :=
  ["False", "None", "True", "and", "as", "assert", "async", "await", "break", "class", "continue", "def", "del", "elif", "else", "except", "finally",
   "for", "from", "global", "if", "import", "in", "is", "lambda", "nonlocal", "not", "or", "pass", "raise", "return", "try", "while", "with", "yield"]

/-- A letter or an underscore. -/
def isStart (c : Char) : Bool := ('a' ≤ c && c ≤ 'z') || ('A' ≤ c && c ≤ 'Z') || c == '_'

/-- `s.isidentifier()`, restricted to ASCII. -/
def isIdentifier (s : String) : Bool :=
  match s.toList with
  | [] => false
  | c :: cs => isStart c && cs.all fun c => isStart c || Text.isDig c

/-- Python accepts `s` as the name of a namedtuple class: an identifier and not a keyword. -/
def typeOK (s : String) : Bool := isIdentifier s && !keywords.contains s

/-- Python accepts `s` as the name of a field: also, no leading underscore. -/
def fieldOK (s : String) : Bool := typeOK s && s.toList.head? != some '_'

/-- `namedtuple(name, fields.keys())(*fields.values())` (`gen_repo/utils.py:40`). -/
def namedtuple (name : String) (fields : List (String × NT)) : Except PyErr NT :=
  if typeOK name ∧ (∀ k ∈ fields.map Prod.fst, fieldOK k = true) ∧ (fields.map Prod.fst).Nodup then .ok (.tup name fields) else .error .valueError

/-- The new name of a key. -/
def ren (k : String) : String := if k = "lambda" then "lambda_" else k

/-- `if "lambda" in d: d["lambda_"] = d.pop("lambda")` (`gen_repo/utils.py:31-32`): the item moves to the end of the dict,
unless there is already a key `lambda_`, whose value it replaces. -/
def popLambda {α : Type} (d : List (String × α)) : List (String × α) :=
  match d.lookup "lambda" with
  | none => d
  | some v => dictSet "lambda_" v (d.filter fun x => x.1 ≠ "lambda")

/-- Evaluate the conversions in order; the first exception wins. -/
def seqFields : List (String × Except PyErr NT) → Except PyErr (List (String × NT))
  | [] => .ok []
  | (k, x) :: l => do
    let x ← x
    let l ← seqFields l
    .ok ((k, x) :: l)

mutual
/-- The value of the key `k` after the loop of `gen_repo/utils.py:34-38`. -/
def convVal (k : String) : PyVal → Except PyErr NT
  | .str s => .ok (.str s)
  | .num x => .ok (.num x)
  | .int n => .ok (.int n)
  | .arr a => .ok (.arr a)
  | .dict d => do
    -- `dict_to_namedtuple(v, k)`
    let fs ← seqFields (popLambda (convDict d))
    namedtuple k fs
  | .list l => do
    let l ← convList k l
    .ok (.list l)
/-- All items of a dict, each converted under the name that its key will have. -/
def convDict : List (String × PyVal) → List (String × Except PyErr NT)
  | [] => []
  | x :: d => (x.1, convItem x) :: convDict d
/-- One item. -/
def convItem : String × PyVal → Except PyErr NT
  | (k, v) => convVal (ren k) v
/-- `[dict_to_namedtuple(i, k) for i in v]` (`gen_repo/utils.py:38`); an element that is not a dict raises. -/
def convList (k : String) : List PyVal → Except PyErr (List NT)
  | [] => .ok []
  | x :: l => do
    let y ← (match x with
      | .dict d => do
        let fs ← seqFields (popLambda (convDict d))
        namedtuple k fs
      | .num _ => .error .typeError
      | .int _ => .error .typeError
      | _ => .error .attributeError)
    let l ← convList k l
    .ok (y :: l)
end

/-- `dict_to_namedtuple(d, name)` (`gen_repo/utils.py:14-40`). -/
def dictToNT (d : List (String × PyVal)) (name : String) : Except PyErr NT := convVal name (.dict d)

end Verif.Model
