import Verif.Py.Ast
import Verif.Text.PostProcess
/-!
# Parser for the generated straight-line Python

Total functions from text to `Prog`, following the grammar of Python expressions (The Python Language Reference, ch. 6):
comparison < `+ -` < `* /` < unary `-` < `**` (whose right operand may be a unary expression).
Names are resolved against what `gen_repo/impl/python_template.jinja:3-9` imports.
-/
namespace Verif.Py

inductive Tok
  | num (t : List Char)
  | name (t : List Char)
  | op (c : Char)
  /-- `**` -/
  | pow
  /-- `<=` -/
  | le
  /-- `==` -/
  | eqeq
  deriving DecidableEq, Repr

def isDig (c : Char) : Bool := Text.isDig c
def isNameStart (c : Char) : Bool := c.isAlpha || c == '_'
/-- Identifier characters; dots are included so that `jnp.cbrt` is one token. -/
def isNameChar (c : Char) : Bool := c.isAlphanum || c == '_' || c == '.'

/-- Split off the longest prefix satisfying `f`. -/
def spanC (f : Char → Bool) : List Char → List Char × List Char
  | [] => ([], [])
  | c :: cs => if f c then let (a, b) := spanC f cs; (c :: a, b) else ([], c :: cs)

/-- Number token: digits and dots, then possibly an exponent `e[+-]digits`. -/
def numTok (cs : List Char) : List Char × List Char :=
  let (m, r) := spanC (fun c => isDig c || c == '.') cs
  match r with
  | 'e' :: '-' :: r' => let (d, r'') := spanC isDig r'; (m ++ 'e' :: '-' :: d, r'')
  | 'e' :: r' => let (d, r'') := spanC isDig r'; (m ++ 'e' :: d, r'')
  | _ => (m, r)

def tokenize : Nat → List Char → Option (List Tok)
  | 0, _ => none
  | _, [] => some []
  | f + 1, c :: cs =>
    if c == ' ' then tokenize f cs
    else if isDig c then
      let (t, r) := numTok (c :: cs)
      (tokenize f r).map (Tok.num t :: ·)
    else if isNameStart c then
      let (t, r) := spanC isNameChar (c :: cs)
      (tokenize f r).map (Tok.name t :: ·)
    else match c, cs with
      | '*', '*' :: cs => (tokenize f cs).map (Tok.pow :: ·)
      | '<', '=' :: cs => (tokenize f cs).map (Tok.le :: ·)
      | '=', '=' :: cs => (tokenize f cs).map (Tok.eqeq :: ·)
      | _, _ => (tokenize f cs).map (Tok.op c :: ·)

def digitsVal : List Char → Nat → Nat
  | [], n => n
  | c :: cs, n => digitsVal cs (n * 10 + (c.toNat - 48))

/-- Value of a number token. -/
def numLit (t : List Char) : Option Expr :=
  let (ip, r) := spanC isDig t
  let (fp, r) := match r with
    | '.' :: r => spanC isDig r
    | r => ([], r)
  let m := digitsVal (ip ++ fp) 0
  let sh : Int := fp.length
  match r with
  | [] => some (.num m (-sh))
  | 'e' :: '-' :: ds => if ds.isEmpty || !ds.all isDig then none else some (.num m (-(digitsVal ds 0 : Int) - sh))
  | 'e' :: ds => if ds.isEmpty || !ds.all isDig then none else some (.num m ((digitsVal ds 0 : Int) - sh))
  | _ => none

def fn1Of (s : String) : Option Fn1 :=
  match s with
  | "jnp.cbrt" => some .cbrt
  | "jnp.log" => some .log
  | "jnp.sqrt" => some .sqrt
  | "jnp.exp" => some .exp
  | "jnp.arctan" => some .arctan
  | "jnp.arcsinh" => some .arcsinh
  | "jnp.arctanh" => some .arctanh
  | "jnp.abs" => some .abs
  | "jnp.tanh" => some .tanh
  | "jnp.cosh" => some .cosh
  | "jnp.cos" => some .cos
  | "jnp.sin" => some .sin
  | "jax.lax.erf" => some .erf
  | "jax.lax.erfc" => some .erfc
  | "jax.scipy.special.i0" => some .i0
  | "lambertw" => some .lambertw
  | "xc_E1_scaled" => some .e1Scaled
  | "xc_erfcx" => some .erfcx
  | "Heaviside" => some .heaviside
  | _ => none

/-- A name that is not called. -/
def resolveName (t : List Char) : Option Expr :=
  match String.ofList t with
  | "r0" => some (.inp .r0)
  | "r1" => some (.inp .r1)
  | "s0" => some (.inp .s0)
  | "s1" => some (.inp .s1)
  | "s2" => some (.inp .s2)
  | "l0" => some (.inp .l0)
  | "l1" => some (.inp .l1)
  | "tau0" => some (.inp .tau0)
  | "tau1" => some (.inp .tau1)
  | "jnp.pi" => some .pi
  | "p.zeta_threshold" => some (.fld .zetaThreshold)
  | "p.dens_threshold" => some (.fld .densThreshold)
  | "p.cam_omega" => some (.fld .camOmega)
  | "p.cam_alpha" => some (.fld .camAlpha)
  | "p.cam_beta" => some (.fld .camBeta)
  -- the record itself; it only occurs as an argument of `xbspline` and `cbspline`, which are not in scope, so the value of this
  -- subexpression is never needed (the name of the function is looked up first)
  | "params" => some (.undef (nameCode "params"))
  | _ =>
    match t with
    | 'p' :: 'a' :: 'r' :: 'a' :: 'm' :: 's' :: '.' :: n => some (.param (nameCodeChars n 0))
    | 't' :: ds => if ds.isEmpty || !ds.all isDig then none else some (.tmp (digitsVal ds 0))
    | _ => none

/-- A call. -/
def resolveCall (t : List Char) (args : List Expr) : Option Expr :=
  let s := String.ofList t
  match s, args with
  | "lax_cond", [c, a, b] => some (.cond c a b)
  | "jnp.logical_or", [a, b] => some (.lor a b)
  | "jnp.logical_and", [a, b] => some (.land a b)
  | "jnp.arctan2", [a, b] => some (.call2 .arctan2 a b)
  | _, args =>
    match fn1Of s, args with
    | some f, [a] => some (.call1 f a)
    | some _, _ => none
    | none, _ => some (.undef (nameCode s))

/-- Precedence levels of the recursive descent. -/
inductive Lvl | cmp | sum | prod | unary | power | prim | args | index
  deriving DecidableEq

/-- Results: a parsed expression, or a list of call arguments. -/
inductive Res | e (x : Expr) | es (xs : List Expr) | txt (t : List Char)

/-- The result as an expression. -/
def asE : Option (Res × List Tok) → Option (Expr × List Tok)
  | some (.e x, ts) => some (x, ts)
  | _ => none
/-- The result as an argument list. -/
def asEs : Option (Res × List Tok) → Option (List Expr × List Tok)
  | some (.es x, ts) => some (x, ts)
  | _ => none
/-- The result as a text. -/
def asT : Option (Res × List Tok) → Option (List Char × List Tok)
  | some (.txt x, ts) => some (x, ts)
  | _ => none

/-- Recursive descent with fuel.  `acc` is the left operand accumulated so far at levels `sum` and `prod`, the
name being indexed at level `index`, or the arguments read so far at level `args`. -/
def parseGo : Nat → Lvl → Option Expr → List Tok → Option (Res × List Tok)
  | 0, _, _, _ => none
  | f + 1, .cmp, _, ts => do
    let (a, ts) ← asE (parseGo f .sum none ts)
    match ts with
    | .le :: ts => let (b, ts) ← asE (parseGo f .sum none ts); some (.e (.le a b), ts)
    | .op '<' :: ts => let (b, ts) ← asE (parseGo f .sum none ts); some (.e (.lt a b), ts)
    | .eqeq :: ts => let (b, ts) ← asE (parseGo f .sum none ts); some (.e (.eq a b), ts)
    | ts => some (.e a, ts)
  | f + 1, .sum, none, ts => do
    let (a, ts) ← asE (parseGo f .prod none ts)
    parseGo f .sum (some a) ts
  | f + 1, .sum, some a, ts =>
    match ts with
    | .op '+' :: ts => do let (b, ts) ← asE (parseGo f .prod none ts); parseGo f .sum (some (.add a b)) ts
    | .op '-' :: ts => do let (b, ts) ← asE (parseGo f .prod none ts); parseGo f .sum (some (.sub a b)) ts
    | ts => some (.e a, ts)
  | f + 1, .prod, none, ts => do
    let (a, ts) ← asE (parseGo f .unary none ts)
    parseGo f .prod (some a) ts
  | f + 1, .prod, some a, ts =>
    match ts with
    | .op '*' :: ts => do let (b, ts) ← asE (parseGo f .unary none ts); parseGo f .prod (some (.mul a b)) ts
    | .op '/' :: ts => do let (b, ts) ← asE (parseGo f .unary none ts); parseGo f .prod (some (.div a b)) ts
    | ts => some (.e a, ts)
  | f + 1, .unary, _, ts =>
    match ts with
    | .op '-' :: ts => do let (a, ts) ← asE (parseGo f .unary none ts); some (.e (.neg a), ts)
    | ts => parseGo f .power none ts
  | f + 1, .power, _, ts => do
    let (a, ts) ← asE (parseGo f .prim none ts)
    match ts with
    | .pow :: ts => let (b, ts) ← asE (parseGo f .unary none ts); some (.e (.pow a b), ts)
    | ts => some (.e a, ts)
  | f + 1, .prim, _, ts =>
    match ts with
    | .num t :: ts => do let e ← numLit t; some (.e e, ts)
    | .op '(' :: ts => do
      let (a, ts) ← asE (parseGo f .cmp none ts)
      match ts with
      | .op ')' :: ts => some (.e a, ts)
      | _ => none
    | .name n :: .op '(' :: ts => do
      let (as, ts) ← asEs (parseGo f .args none ts)
      let e ← resolveCall n as
      some (.e e, ts)
    | .name n :: ts => do
      let (ix, ts) ← asT (parseGo f .index none ts)
      let e ← resolveName (n ++ ix)
      some (.e e, ts)
    | _ => none
  | f + 1, .args, _, ts => do
    let (a, ts) ← asE (parseGo f .cmp none ts)
    match ts with
    | .op ',' :: ts => let (as, ts) ← asEs (parseGo f .args none ts); some (.es (a :: as), ts)
    | .op ')' :: ts => some (.es [a], ts)
    | _ => none
  | f + 1, .index, _, ts =>
    match ts with
    | .op '[' :: .num t :: .op ']' :: ts => do
      let (ix, ts) ← asT (parseGo f .index none ts)
      some (.txt ('[' :: t ++ ']' :: ix), ts)
    | ts => some (.txt [], ts)

/-- Parse a complete expression. -/
def parseExpr (cs : List Char) : Option Expr := do
  let ts ← tokenize (cs.length + 1) cs
  let (.e a, []) ← parseGo (12 * ts.length + 20) .cmp none ts | none
  some a

/-- Target of an assignment: `some n` is `tn`, `none` is `res`. -/
def parseLine (cs : List Char) : Option (Option Nat × Expr) :=
  match cs with
  | 'r' :: 'e' :: 's' :: ' ' :: '=' :: ' ' :: r => (parseExpr r).map (none, ·)
  | 't' :: r =>
    let (ds, r) := spanC isDig r
    match r with
    | ' ' :: '=' :: ' ' :: r => if ds.isEmpty then none else (parseExpr r).map (some (digitsVal ds 0), ·)
    | _ => none
  | _ => none

def parseLines : List (List Char) → Option Prog
  | [] => none
  | l :: ls =>
    match parseLine l with
    | some (some n, e) => (parseLines ls).map fun p => { p with body := (n, e) :: p.body }
    | some (none, e) => if ls.all (fun l => l.isEmpty) then some { body := [], res := e } else none
    | none => none

/-- From Maple's Python text to a program: `post_process`, then parsing. -/
def progOf (src : String) : Option Prog := parseLines (Text.postProcess src.toList)

end Verif.Py
