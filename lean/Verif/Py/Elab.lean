import Lean.Elab.Command
import Verif.Py.Parse
import Verif.Model.Formula
/-!
# Embedding the generated formulas

`formula NAME pol "…" unpol "…"` defines, for the two texts (verbatim copies of `gen_repo/impl/prebuilt/pol/NAME.py` and
`gen_repo/impl/prebuilt/unpol/NAME.py`),

* `NAME.polText`, `NAME.unpolText : String`,
* `NAME.polBody`, `NAME.unpolBody : Prog`, the result of running `progOf` on them at elaboration time,
* `NAME : Formula`, the pair of both.

The elaborator is in the trusted base in this sense: it is what connects `NAME.polBody` with `NAME.polText`
(see `DESIGN.md`).
-/
namespace Verif.Py
open Lean Elab Command

deriving instance ToExpr for Inp
deriving instance ToExpr for Fld
deriving instance ToExpr for Fn1
deriving instance ToExpr for Fn2
deriving instance ToExpr for Expr
deriving instance ToExpr for Prog

syntax "formula " ident " pol " str " unpol " str : command

def addDefn (n : Name) (ty val : Lean.Expr) : CommandElabM Unit := liftCoreM do
  let d := Declaration.defnDecl {
    name := n, levelParams := [], type := ty, value := val, hints := .abbrev, safety := .safe }
  addDecl d

elab_rules : command
  | `(formula $n:ident pol $p:str unpol $u:str) => do
    let ns := (← getCurrNamespace) ++ n.getId
    for (tag, t) in [("pol", p.getString), ("unpol", u.getString)] do
      match progOf t with
      | none => throwError "cannot parse {tag} of {n.getId}"
      | some pr =>
        addDefn (ns ++ Name.mkSimple (tag ++ "Text")) (mkConst ``String) (toExpr t)
        addDefn (ns ++ Name.mkSimple (tag ++ "Body")) (mkConst ``Prog) (toExpr pr)
    addDefn ns (mkConst ``Verif.Model.Formula) (mkApp2 (mkConst ``Verif.Model.Formula.mk) (mkConst (ns ++ `polBody)) (mkConst (ns ++ `unpolBody)))

end Verif.Py
