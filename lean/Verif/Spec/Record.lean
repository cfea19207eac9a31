import Verif.Model.Record
/-!
# What it means that a conversion of records loses nothing
-/
namespace Verif.Spec
open Verif.Py Verif.Model

/-- A value made of dicts whose keys are distinct and do not contain both `lambda` and `lambda_`. -/
inductive Proper : PyVal → Prop
  | str (s) : Proper (.str s)
  | num (x) : Proper (.num x)
  | int (n) : Proper (.int n)
  | arr (a) : Proper (.arr a)
  | dict (d : List (String × PyVal)) (hd : (d.map Prod.fst).Nodup) (hl : "lambda" ∈ d.map Prod.fst → "lambda_" ∉ d.map Prod.fst)
      (h : ∀ x ∈ d, Proper x.2) : Proper (.dict d)
  | list (l : List PyVal) (h : ∀ x ∈ l, Proper x) : Proper (.list l)

/-- The attribute `k` of a namedtuple. -/
def attr (k : String) : NT → Option NT
  | .tup _ fs => fs.lookup k
  | _ => none

/-- `w` is `v` with dicts replaced by namedtuples: the fields correspond one to one to the keys (`lambda` became `lambda_`) and lists keep their order. -/
inductive Keeps : PyVal → NT → Prop
  | str (s) : Keeps (.str s) (.str s)
  | num (x) : Keeps (.num x) (.num x)
  | int (n) : Keeps (.int n) (.int n)
  | arr (a) : Keeps (.arr a) (.arr a)
  | dict (d : List (String × PyVal)) (name : String) (fs : List (String × NT)) (hn : (fs.map Prod.fst).Nodup) (hl : fs.length = d.length)
      (hs : ∀ k v, (k, v) ∈ d → (fs.lookup (if k = "lambda" then "lambda_" else k)).isSome)
      (h : ∀ k v w, (k, v) ∈ d → fs.lookup (if k = "lambda" then "lambda_" else k) = some w → Keeps v w) : Keeps (.dict d) (.tup name fs)
  | list (l : List PyVal) (ws : List NT) (hl : l.length = ws.length) (h : ∀ (n : ℕ) v w, l[n]? = some v → ws[n]? = some w → Keeps v w) :
      Keeps (.list l) (.list ws)

/-- Every key is a field name that Python accepts (the key `lambda` is renamed first), and every element of a list is a dict. -/
inductive Convertible : PyVal → Prop
  | str (s) : Convertible (.str s)
  | num (x) : Convertible (.num x)
  | int (n) : Convertible (.int n)
  | arr (a) : Convertible (.arr a)
  | dict (d : List (String × PyVal)) (hk : ∀ x ∈ d, x.1 = "lambda" ∨ fieldOK x.1 = true) (h : ∀ x ∈ d, Convertible x.2) : Convertible (.dict d)
  | list (l : List PyVal) (hd : ∀ x ∈ l, ∃ d, x = .dict d) (h : ∀ x ∈ l, Convertible x) : Convertible (.list l)

end Verif.Spec
