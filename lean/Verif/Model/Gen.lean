import Verif.Model.Functionals
import Verif.Text.PostProcess
/-!
# What the generator passes to the wrapper template

Model of `gen_repo/gen_py.py:21-54`.
-/
namespace Verif.Model
open Verif.Py Verif.Text

/-- `re.sub(r"\[(\d+)\]", r"_\1_", name)` (`gen_repo/gen_py.py:23`).  `some ds`: an opening bracket followed by the digits `ds` (reversed) is pending. -/
def bracketSub : Option (List Char) → List Char → List Char
  | none, [] => []
  | some ds, [] => '[' :: ds.reverse
  | none, c :: cs => if c = '[' then bracketSub (some []) cs else c :: bracketSub none cs
  | some ds, c :: cs =>
    if isDig c then bracketSub (some (c :: ds)) cs
    else if c = ']' ∧ ds ≠ [] then '_' :: (ds.reverse ++ '_' :: bracketSub none cs)
    else if c = '[' then '[' :: (ds.reverse ++ bracketSub (some []) cs)
    else '[' :: (ds.reverse ++ c :: bracketSub none cs)

/-- `post_process` (`gen_repo/gen_py.py:21-29`). -/
def sanitise (name : String) : String := String.ofList (subPat "lambda" "lambda_" (bracketSub none name.toList))

/-- `d[k] = v` for a dict, which keeps the position of a key that is already there. -/
def dictSet {α : Type} (k : String) (v : α) : List (String × α) → List (String × α)
  | [] => [(k, v)]
  | (k', v') :: d => if k' = k then (k, v) :: d else (k', v') :: dictSet k v d

/-- `dict(pairs)`. -/
def pyDict {α : Type} (l : List (String × α)) : List (String × α) := l.foldl (fun d x => dictSet x.1 x.2 d) []

/-- `get_ext_params` (`gen_repo/gen_py.py:32-40`); `none`: a method of pylibxc raised `AttributeError`. -/
def getExtParams (func : Option (List String × List ℝ)) : List (String × ℝ) :=
  match func with
  | none => []
  | some (names, defaults) => pyDict ((names.map sanitise).zip defaults)

/-- The arguments of a call that passes external parameters by keyword; those not passed are `None` (`gen_repo/python_template.jinja:30-32`). -/
def givenOf (ps : List (String × ℝ)) (kwargs : String → Option ℝ) : List (Option ℝ) := ps.map fun x => kwargs x.1

/-- `check_deorbitalize` (`gen_repo/gen_py.py:43-54`); a record without components has no attribute `func_aux`. -/
def checkDeorbitalize (p : PTree) : Except PyErr Unit :=
  if p.aux = [] then .error .attributeError
  else if p.aux.length ≠ 2 then .error .valueError
  else if ∀ q ∈ p.aux, q.info.type = "mgga" then .ok () else .error .valueError

end Verif.Model
