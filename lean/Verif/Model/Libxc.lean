import Verif.Model.Record
/-!
# From libxc's C structs to the record `p`

Model of `gen_repo/libxc/libxc.cc`, `gen_repo/libxc/register.h`, `gen_repo/utils.py:43-50` and of the classification of names in
`gen_repo/impl/gen_maple.py` and `gen_repo/impl/gen_py.py`.
libxc itself (`xc_func_init`, `set_ext_params`) is not part of the repository and is a parameter of the model.
-/
namespace Verif.Model
open Verif.Py

/-! ## Classification of names -/

/-- `s.startswith(pre)` (Python) and `s.rfind(pre, 0) == 0` (C++). -/
def startsWith (pre s : String) : Bool := pre.toList.isPrefixOf s.toList

/-- `name_to_type` (`gen_repo/libxc/libxc.cc:74-84`). -/
def nameToType (name : String) : Except PyErr String :=
  if startsWith "lda" name || startsWith "hyb_lda" name then .ok "lda"
  else if startsWith "gga" name || startsWith "hyb_gga" name then .ok "gga"
  else if startsWith "mgga" name || startsWith "hyb_mgga" name then .ok "mgga"
  else .error .runtimeError

/-- The type that `gen_repo/impl/gen_maple.py:19-25` gives to a Maple file; `name` is the base name of the file.
Without a match the variable `type` is unbound when it is used. -/
def genMapleType (name : String) : Except PyErr String :=
  if startsWith "lda" name || startsWith "hyb_lda" name then .ok "lda"
  else if startsWith "gga" name || startsWith "hyb_gga" name then .ok "gga"
  else if startsWith "mgga" name || startsWith "hyb_mgga" name then .ok "mgga"
  else .error .nameError

/-- `name.split(".")[0]`. -/
def stem (name : String) : String := String.ofList (name.toList.takeWhile fun c => c ≠ '.')

/-- The type that `gen_repo/impl/gen_py.py:54-60` gives to an output file; `output` is the base name of the file. -/
def genPyType (output : String) : Except PyErr String :=
  let name := stem output
  if startsWith "lda" name || startsWith "hyb_lda" name then .ok "lda"
  else if startsWith "gga" name || startsWith "hyb_gga" name then .ok "gga"
  else if startsWith "mgga" name || startsWith "hyb_mgga" name then .ok "mgga"
  else .error .nameError

/-! ## The registries of `register.h` -/

/-- `work_to_maple_name` as a map from addresses (`gen_repo/libxc/register.h:31`). -/
abbrev WorkMap := ℕ → Option String

/-- `RegisterMaple` (`gen_repo/libxc/register.h:38-41`). -/
def registerMaple (m : WorkMap) (work : ℕ) (mapleName : String) : WorkMap := fun k => if k = work then some mapleName else m k

/-- The map after the static initialisers have run in some order. -/
def workMap (history : List (ℕ × String)) : WorkMap := history.foldl (fun m x => registerMaple m x.1 x.2) fun _ => none

/-- `registry` (`gen_repo/libxc/register.h:30,33-36`): for the address of an init function, the members of the parameter struct. -/
abbrev ParamMap := ℕ → Option (List String)

/-- `Register` (`gen_repo/libxc/register.h:33-36`). -/
def registerInit (m : ParamMap) (init : ℕ) (fields : List String) : ParamMap := fun k => if k = init then some fields else m k

/-- The map after the static initialisers have run in some order. -/
def paramMap (history : List (ℕ × List String)) : ParamMap := history.foldl (fun m x => registerInit m x.1 x.2) fun _ => none

/-! ## libxc's structs -/

/-- `xc_func_info_type`: addresses of functions; `none` is `NULL`.  `name` is `xc_functional_get_name(info->number)`. -/
structure CInfo where
  name : String
  lda : Option ℕ
  gga : Option ℕ
  mgga : Option ℕ
  init : ℕ

/-- `xc_func_type`, without components. -/
structure CFields where
  info : CInfo
  nspin : ℕ
  camOmega : ℝ
  camAlpha : ℝ
  camBeta : ℝ
  nlcB : ℝ
  nlcC : ℝ
  densThreshold : ℝ
  zetaThreshold : ℝ
  sigmaThreshold : ℝ
  tauThreshold : ℝ
  /-- the members of the struct that `params` points to -/
  params : String → Arr
  /-- `func_aux != NULL` -/
  hasAux : Bool
  /-- what reading `mix_coef[i]` gives -/
  mixCoef : ℕ → ℝ

/-- `xc_func_type` with its `n_func_aux` components. -/
inductive CFunc
  | mk (f : CFields) (aux : List CFunc)

/-- The struct without its components. -/
def CFunc.f : CFunc → CFields
  | .mk f _ => f

/-- `get_params` (`gen_repo/libxc/libxc.cc:23-29`, `gen_repo/libxc/register.h:62-71`).
Simplification: the order of the entries (`std::map` sorts them) is not modelled. -/
def getParams (R : ParamMap) (c : CFields) : List (String × PyVal) :=
  match R c.info.init with
  | none => []
  | some fields => fields.map fun k => (k, .arr (c.params k))

/-- The key of `get_maple_name` (`gen_repo/libxc/libxc.cc:37-44`). -/
def workKey (i : CInfo) : Option ℕ :=
  match i.lda with
  | some k => some k
  | none => match i.gga with
    | some k => some k
    | none => i.mgga

/-- `get_maple_name` (`gen_repo/libxc/libxc.cc:35-72`). -/
def getMapleName (W : WorkMap) (c : CFields) : Except PyErr String :=
  let key := workKey c.info
  if c.info.name = "mgga_x_2d_prhg07_prp10" then .ok "mgga_x_2d_prp10"
  else if c.info.name = "hyb_mgga_xc_b98" then .ok "mgga_xc_b98"
  else if c.hasAux then .ok ""
  else match key with
    | some k => match W k with
      | none => .error .runtimeError
      | some name => .ok name
    | none => .error .runtimeError

/-- The entries of the dict of `get_p` that every functional has (`gen_repo/libxc/libxc.cc:89-105`). -/
def getPBase (W : WorkMap) (R : ParamMap) (c : CFields) : Except PyErr (List (String × PyVal)) := do
  let maple ← getMapleName W c
  let type ← nameToType c.info.name
  .ok [("name", .str c.info.name), ("cam_omega", .num c.camOmega), ("cam_alpha", .num c.camAlpha), ("cam_beta", .num c.camBeta),
    ("nlc_b", .num c.nlcB), ("nlc_C", .num c.nlcC), ("dens_threshold", .num c.densThreshold), ("zeta_threshold", .num c.zetaThreshold),
    ("sigma_threshold", .num c.sigmaThreshold), ("tau_threshold", .num c.tauThreshold), ("params", .dict (getParams R c)),
    ("maple_name", .str maple), ("type", .str type), ("nspin", .int c.nspin)]

mutual
/-- `get_p` of C++ (`gen_repo/libxc/libxc.cc:86-129`). -/
def cGetP (W : WorkMap) (R : ParamMap) : CFunc → Except PyErr (List (String × PyVal))
  | .mk c aux => do
    let d ← getPBase W R c
    match aux with
    | [] => .ok d
    | a :: as => do
      let l ← cGetPs W R (a :: as)
      .ok (d ++ [("func_aux", .list l), ("mix_coef", .arr ⟨[as.length + 1], (List.range (as.length + 1)).map c.mixCoef⟩)])
/-- The list of `gen_repo/libxc/libxc.cc:120-123`. -/
def cGetPs (W : WorkMap) (R : ParamMap) : List CFunc → Except PyErr (List PyVal)
  | [] => .ok []
  | a :: as => do
    let x ← cGetP W R a
    let l ← cGetPs W R as
    .ok (.dict x :: l)
end

/-- libxc: create a functional, and set its external parameters. -/
structure Lib where
  init : String → ℕ → Except PyErr CFunc
  setExt : CFunc → List ℝ → Except PyErr CFunc

/-- `get_p` of Python (`gen_repo/utils.py:43-50`). -/
def pyGetP (L : Lib) (W : WorkMap) (R : ParamMap) (name : String) (polarized : Bool) (ext : List ℝ) : Except PyErr NT := do
  let func ← L.init name ((if polarized then 1 else 0) + 1)
  let func ← (if ext ≠ [] then L.setExt func ext else .ok func)
  let d ← cGetP W R func
  dictToNT d "P"

/-! ## Reading a record -/

/-- The attribute `k` of a namedtuple. -/
def NT.attr (k : String) : NT → Option NT
  | .tup _ fs => fs.lookup k
  | _ => none

/-- The texts under which formulas refer to the entries of an array parameter `k`: `params.k` or `params.k[i]`. -/
def paramEntries (k : String) (a : Arr) : List (ℕ × ℝ) :=
  match a.shape with
  | [] => (a.data.take 1).map fun x => (nameCode k, x)
  | _ => a.data.zipIdx.map fun x => (nameCode (k ++ "[" ++ toString x.2 ++ "]"), x.1)

/-- The value of `params.…` in formulas (0 if there is no such parameter; Python would raise). -/
def paramValue (fs : List (String × NT)) (code : ℕ) : ℝ :=
  ((fs.flatMap fun x => match x.2 with
    | .arr a => paramEntries x.1 a
    | _ => []).lookup code).getD 0

/-- The attributes of a record without its components; `none` if one is missing or of the wrong kind. -/
def readInfo (t : NT) : Option PInfo := do
  let .str name ← t.attr "name" | none
  let .str maple ← t.attr "maple_name" | none
  let .str type ← t.attr "type" | none
  let .int nspin ← t.attr "nspin" | none
  let .num omega ← t.attr "cam_omega" | none
  let .num alpha ← t.attr "cam_alpha" | none
  let .num beta ← t.attr "cam_beta" | none
  let .num b ← t.attr "nlc_b" | none
  let .num c ← t.attr "nlc_C" | none
  let .num dens ← t.attr "dens_threshold" | none
  let .num zeta ← t.attr "zeta_threshold" | none
  let .tup _ params ← t.attr "params" | none
  let mix := match t.attr "mix_coef" with
    | some (.arr a) => a.data
    | _ => []
  some { name, mapleName := maple, type, nspin, nlcB := b, nlcC := c, mixCoef := mix
         vals := { fld := fun
                     | .zetaThreshold => zeta
                     | .densThreshold => dens
                     | .camOmega => omega
                     | .camAlpha => alpha
                     | .camBeta => beta
                   param := paramValue params } }

/-- What the rest of the model calls the record tree `p`: its attributes, and the elements of `p.func_aux` (no components if it has no such attribute). -/
inductive ReadsAs : NT → PTree → Prop
  | leaf (t : NT) (i : PInfo) (hi : readInfo t = some i) (ha : t.attr "func_aux" = none) : ReadsAs t (.node i [])
  | mix (t : NT) (i : PInfo) (l : List NT) (aux : List PTree) (hi : readInfo t = some i) (ha : t.attr "func_aux" = some (.list l))
      (hl : l.length = aux.length) (h : ∀ (n : ℕ) u q, l[n]? = some u → aux[n]? = some q → ReadsAs u q) : ReadsAs t (.node i aux)

end Verif.Model
