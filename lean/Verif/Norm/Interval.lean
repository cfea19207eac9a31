import Verif.Norm.Core
/-!
# Interval analysis of formulas (definitions)

Proof machinery for C49.  A number is described by bounds that are multiples of `2^-64`, open or closed, and by a tag for the
few combinations of inputs whose relations matter (`(r0 - r1) / (r0 + r1)` lies between -1 and 1).
`acheck` runs through a formula body and succeeds if the value of `res` is defined.  Soundness is proved in `Verif.Norm.IntervalSound`.
-/
namespace Verif.Norm
open Verif.Py

noncomputable section

/-- A lower bound: none, or `n / 2^64`, strict or not. -/
inductive Bd
  | inf
  | fin (n : Int) (s : Bool)

/-- A lower bound of `x` and a lower bound of `-x`. -/
structure Itv where
  lo : Bd
  hi : Bd

/-- `2^64`. -/
def sc : Nat := 18446744073709551616

def nnI (n : Int) : Bool := Int.rec (fun _ => true) (fun _ => false) n
/-- `max n 0`. -/
def posN (n : Int) : Nat := Int.rec (fun k => k) (fun _ => 0) n
/-- `max (-n) 0`. -/
def negN (n : Int) : Nat := Int.rec (fun _ => 0) (fun k => Nat.succ k) n

def bor (a b : Bool) : Bool := kif a then true else b
def band (a b : Bool) : Bool := kif a then b else false

def bdAdd (a b : Bd) : Bd := Bd.rec .inf (fun n s => Bd.rec .inf (fun m t => .fin (Int.add n m) (bor s t)) b) a
/-- `0 ≤` -/
def bdNN (a : Bd) : Bool := Bd.rec false (fun n _ => nnI n) a
/-- `0 <` -/
def bdPos (a : Bd) : Bool := Bd.rec false (fun n s => Int.rec (fun k => bor s (Nat.ble 1 k)) (fun _ => false) n) a
/-- The stronger bound. -/
def bdMax (a b : Bd) : Bd :=
  Bd.rec b (fun n s => Bd.rec a (fun m t =>
    Int.rec (fun k => kif Nat.beq k 0 then .fin n (bor s t) else b) (fun _ => a) (Int.sub m n)) b) a
/-- The weaker bound. -/
def bdMin (a b : Bd) : Bd :=
  Bd.rec .inf (fun n s => Bd.rec .inf (fun m t =>
    Int.rec (fun k => kif Nat.beq k 0 then .fin n (band s t) else a) (fun _ => b) (Int.sub m n)) b) a
/-- The same bound, strict if `s`. -/
def bdStrict (s : Bool) (a : Bd) : Bd := Bd.rec .inf (fun n t => .fin n (bor s t)) a

def top : Itv := ⟨.inf, .inf⟩
def zeroB : Bd := .fin (Int.ofNat 0) false
def posB : Bd := .fin (Int.ofNat 0) true
def oneB : Bd := .fin (Int.ofNat sc) false
def monB : Bd := .fin (Int.negOfNat sc) false
def nn : Itv := ⟨zeroB, .inf⟩
def pos : Itv := ⟨posB, .inf⟩

def Itv.neg (a : Itv) : Itv := ⟨a.hi, a.lo⟩
def Itv.add (a b : Itv) : Itv := ⟨bdAdd a.lo b.lo, bdAdd a.hi b.hi⟩
def Itv.meet (a b : Itv) : Itv := ⟨bdMax a.lo b.lo, bdMax a.hi b.hi⟩
def Itv.join (a b : Itv) : Itv := ⟨bdMin a.lo b.lo, bdMin a.hi b.hi⟩
/-- `n / 2^64` up to `m / 2^64`. -/
def Itv.ofNat (n m : Nat) : Itv := ⟨.fin (Int.ofNat n) false, .fin (Int.negOfNat m) false⟩

/-! ## Products -/

/-- Lower bound of a product of nonnegative numbers. -/
def mulLo (a b : Bd) : Bd :=
  Bd.rec zeroB (fun n s => Bd.rec zeroB (fun m t =>
    (fun l => .fin (Int.ofNat l) (kif bdPos a then kif bdPos b then bor (Nat.beq l 0) (bor s t) else false else false))
      (Nat.div (Nat.mul (posN n) (posN m)) sc)) b) a

/-- Upper bound of a product of nonnegative numbers. -/
def mulHi (a b : Bd) : Bd :=
  Bd.rec .inf (fun n s => Bd.rec .inf (fun m t =>
    (fun q => .fin (Int.negOfNat (Nat.div (Nat.add q 18446744073709551615) sc)) (kif Nat.beq q 0 then false else bor s t))
      (Nat.mul (negN n) (negN m))) b) a

/-- Product of nonnegative numbers. -/
def mulNN (a b : Itv) : Itv := ⟨mulLo a.lo b.lo, mulHi a.hi b.hi⟩

/-- `|x| ≤ n / 2^64`, or no bound. -/
def mag {β : Type} (a : Itv) (z : β) (k : Nat → β) : β :=
  Bd.rec z (fun n _ => Bd.rec z (fun m _ => (fun x y => kif Nat.ble x y then k y else k x) (negN n) (negN m)) a.hi) a.lo

def mulMix (a b : Itv) : Itv :=
  mag a top fun x => mag b top fun y =>
    (fun q => ⟨.fin (Int.negOfNat q) false, .fin (Int.negOfNat q) false⟩) (Nat.div (Nat.add (Nat.mul x y) 18446744073709551615) sc)

def zeroI : Itv := ⟨zeroB, zeroB⟩

/-- Product. -/
def Itv.mul (a b : Itv) : Itv :=
  kif bdNN a.lo then
    kif bdNN a.hi then zeroI
    else kif bdNN b.lo then (kif bdNN b.hi then zeroI else mulNN a b)
    else kif bdNN b.hi then (mulNN a b.neg).neg else mulMix a b
  else kif bdNN a.hi then
    kif bdNN b.lo then (kif bdNN b.hi then zeroI else (mulNN a.neg b).neg)
    else kif bdNN b.hi then mulNN a.neg b.neg else mulMix a b
  else kif band (bdNN b.lo) (bdNN b.hi) then zeroI else mulMix a b

/-- `|x|`. -/
def Itv.abs (a : Itv) : Itv :=
  kif bdNN a.lo then a else kif bdNN a.hi then a.neg else mag a nn fun x => ⟨zeroB, .fin (Int.negOfNat x) false⟩

/-- Natural power by repeated multiplication. -/
def npowI (a : Itv) (n : Nat) : Itv := Nat.rec (Itv.ofNat sc sc) (fun _ ih => Itv.mul ih a) n

/-- Natural power. -/
def Itv.pow (a : Itv) (n : Nat) : Itv :=
  kif Nat.beq (Nat.mod n 2) 0 then npowI a.abs n else Itv.mul (npowI a.abs (Nat.sub n 1)) a

/-- Inverse of a positive number. -/
def invPos (a : Itv) : Itv :=
  ⟨Bd.rec posB (fun m s => (fun l => .fin (Int.ofNat l) (bor s (Nat.beq l 0))) (Nat.div (Nat.mul sc sc) (negN m))) a.hi,
    Bd.rec .inf (fun n s => (fun k => kif Nat.beq k 0 then .inf else .fin (Int.negOfNat (Nat.div (Nat.add (Nat.mul sc sc) (Nat.sub k 1)) k)) s) (posN n)) a.lo⟩

/-! ## Roots and logarithms -/

/-- Integer square root, approximately (not trusted). -/
def sqrtC (n : Nat) : Nat :=
  Nat.rec (Nat.pow 2 (Nat.succ (Nat.div (Nat.log2 n) 2))) (fun _ r => Nat.div (Nat.add r (Nat.div n r)) 2) 7
/-- `r * r ≤ n`. -/
def sqrtLo (n : Nat) : Nat :=
  (fun r => kif Nat.ble (Nat.mul r r) n then r else (fun q => kif Nat.ble (Nat.mul q q) n then q else 0) (Nat.sub r 1)) (sqrtC n)
/-- `n ≤ r * r`. -/
def sqrtUp (n : Nat) : Nat :=
  kif Nat.beq n 0 then 0 else (fun r => kif Nat.ble n (Nat.mul r r) then r else Nat.succ n) (Nat.succ (sqrtC n))
/-- Integer cube root, approximately (not trusted). -/
def cbrtC (n : Nat) : Nat :=
  Nat.rec (Nat.pow 2 (Nat.succ (Nat.div (Nat.log2 n) 3))) (fun _ r => Nat.div (Nat.add (Nat.mul 2 r) (Nat.div n (Nat.mul r r))) 3) 8
/-- `r * r * r ≤ n`. -/
def cbrtLo (n : Nat) : Nat :=
  (fun r => kif Nat.ble (Nat.mul (Nat.mul r r) r) n then r else (fun q => kif Nat.ble (Nat.mul (Nat.mul q q) q) n then q else 0) (Nat.sub r 1)) (cbrtC n)
/-- `n ≤ r * r * r`. -/
def cbrtUp (n : Nat) : Nat :=
  (fun r => kif Nat.ble n (Nat.mul (Nat.mul r r) r) then r else Nat.succ n) (Nat.succ (cbrtC n))

def bdCbrt (a : Bd) : Bd :=
  Bd.rec .inf (fun n s => Int.rec
    (fun k => kif Nat.beq k 0 then .fin n s else .fin (Int.ofNat (cbrtLo (Nat.mul k (Nat.mul sc sc)))) s)
    (fun k => .fin (Int.negOfNat (cbrtUp (Nat.mul (Nat.succ k) (Nat.mul sc sc)))) false) n) a
def Itv.cbrt (a : Itv) : Itv := ⟨bdCbrt a.lo, bdCbrt a.hi⟩

/-- Square root of a nonnegative number. -/
def Itv.sqrt (a : Itv) : Itv :=
  ⟨Bd.rec zeroB (fun n s => (fun k => kif Nat.beq k 0 then .fin n s else .fin (Int.ofNat (sqrtLo (Nat.mul k sc))) s) (posN n)) a.lo,
    Bd.rec .inf (fun n _ => .fin (Int.negOfNat (sqrtUp (Nat.mul (negN n) sc))) false) a.hi⟩

/-- `h/2^64 ≤ (root16 h / 2^64)^16`. -/
def root16 (h : Nat) : Nat := sqrtUp (Nat.mul (sqrtUp (Nat.mul (sqrtUp (Nat.mul (sqrtUp (Nat.mul h sc)) sc)) sc)) sc)

/-- From a bound of `-x` to a bound of `-log x`. -/
def bdLog (a : Bd) : Bd :=
  Bd.rec .inf (fun n _ => .fin (Int.subNatNat (Nat.mul 16 sc) (Nat.mul 16 (root16 (negN n)))) false) a

/-- Logarithm of a positive number. -/
def Itv.log (a : Itv) : Itv :=
  ⟨bdMax (bdLog (invPos a).hi) (Bd.rec .inf (fun n s => kif Nat.ble sc (posN n) then .fin (Int.ofNat 0) (bor s (Nat.ble (Nat.succ sc) (posN n))) else .inf) a.lo),
    bdMax (bdLog a.hi) (Bd.rec .inf (fun n s => kif Nat.ble (negN n) sc then .fin (Int.ofNat 0) (bor s (Nat.ble (Nat.succ (negN n)) sc)) else .inf) a.hi)⟩

def bdSign (a : Bd) : Bd := kif bdPos a then posB else kif bdNN a then zeroB else .inf
/-- What is known of an odd increasing function of the number. -/
def Itv.sign (a : Itv) : Itv := ⟨bdSign a.lo, bdSign a.hi⟩

/-- A lower bound of `exp x`, from a lower bound of `x`: `(1 + x / 1024) ^ 1024`. -/
def expLo (n : Int) : Nat :=
  Nat.rec (Nat.div (kif Nat.ble (posN (Int.add n (Int.ofNat (Nat.mul 1024 sc)))) (Nat.mul 1724 sc) then posN (Int.add n (Int.ofNat (Nat.mul 1024 sc))) else Nat.mul 1724 sc) 1024)
    (fun _ r => Nat.div (Nat.mul r r) sc) 10
/-- An upper bound of `exp x` from an upper bound `m / 2^64` of `1024 + x`: `(1 + t + t ^ 2) ^ 1024` with `t = x / 1024`. -/
def expUp (m : Nat) : Nat :=
  Nat.rec (Nat.succ (Nat.sub (Nat.add (Nat.succ (Nat.div (Nat.mul m m) (Nat.mul 1048576 sc))) sc) (Nat.div m 1024))) (fun _ r => Nat.succ (Nat.div (Nat.mul r r) sc)) 10
def bdExpLo (a : Bd) : Bd := Bd.rec posB (fun n _ => .fin (Int.ofNat (expLo n)) (Nat.beq (expLo n) 0)) a
def bdExpUp (a : Bd) : Bd :=
  Bd.rec .inf (fun n _ => kif Nat.ble (posN (Int.sub (Int.ofNat (Nat.mul 1024 sc)) n)) (Nat.mul 2048 sc) then
    .fin (Int.negOfNat (expUp (posN (Int.sub (Int.ofNat (Nat.mul 1024 sc)) n)))) false else .inf) a

def Itv.exp (a : Itv) : Itv :=
  ⟨bdMax (kif bdNN a.lo then .fin (Int.ofNat sc) (bdPos a.lo) else posB) (bdExpLo a.lo), bdMax (kif bdNN a.hi then .fin (Int.negOfNat sc) (bdPos a.hi) else .inf) (bdExpUp a.hi)⟩

/-- `1 ≤` -/
def bdGe1 (a : Bd) : Bool := Bd.rec false (fun n _ => Nat.ble sc (posN n)) a
/-- from a bound of `-x`: `x ≤ 1` -/
def bdLe1 (a : Bd) : Bool := Bd.rec false (fun n _ => Nat.ble (negN n) sc) a

/-- `x ** y` for positive `x`. -/
def powPos (a b : Itv) : Itv :=
  Itv.meet ⟨kif (bor (band (bdNN b.lo) (bdGe1 a.lo)) (band (bdNN b.hi) (bdLe1 a.hi))) then oneB else posB,
    kif (bor (band (bdNN b.lo) (bdLe1 a.hi)) (band (bdNN b.hi) (bdGe1 a.lo))) then monB else .inf⟩ (Itv.exp (Itv.mul (Itv.log a) b))

/-! ## Abstract values -/

/-- Numbers that are known exactly in terms of the inputs. -/
inductive Tag
  | none | one | two | r0 | r1 | s0 | s1 | s2
  /-- `r0 + r1`, its inverse, `r0 - r1`, and the squares of the three -/
  | sum | isum | diff | sum2 | isum2 | diff2
  /-- `2 * s1` and `s0 + 2 * s1` -/
  | twoS1 | s01
  /-- `r0 / 2` -/
  | half
  /-- `2 * r0`, `2 * r1` -/
  | twoR0 | twoR1

/-- What is known about a truth value. -/
inductive Tri | tt | ff | unk

/-- The comparison a truth value comes from: `0` none, `1` is `x ≤ y`, `2` is `x < y`, `3` is `x = y`. -/
structure Fact where
  op : Nat
  x : Expr
  I : Itv
  y : Expr
  J : Itv

/-- Abstract values; `undef` = perhaps no value. -/
inductive AV
  | undef
  | num (I : Itv) (t : Tag)
  | bool (t : Tri) (f : Fact)

/-- What is assumed: which inputs there are; intervals for `r0`, `r1`, the polarization `(r0 - r1) / (r0 + r1)` and its square, `s0`, `s1`, `s2`, `s0 + 2 s1 + s2`,
`tau0`, `tau1` and the density threshold; whether `r0` and `r1` are above the threshold; which parameters are positive, which are negative, and which fields of the record are
positive. -/
structure ACfg where
  pol : Bool
  hasS : Bool
  hasM : Bool
  rI : Itv
  r1I : Itv
  zI : Itv
  zzI : Itv
  sI : Itv
  s1I : Itv
  s2I : Itv
  stI : Itv
  tI : Itv
  t1I : Itv
  dI : Itv
  above : Bool
  above1 : Bool
  par : List Nat
  npar : List Nat
  flds : List Nat
  /-- interval of the polarization threshold, of positive parameters, of parameters of unknown sign, of Laplacians -/
  ztI : Itv
  pI : Itv
  oI : Itv
  lI : Itv

def mem (n : Nat) (l : List Nat) : Bool := List.rec false (fun a _ ih => kif Nat.beq a n then true else ih) l

def ainp (C : ACfg) (i : Inp) : AV :=
  Inp.rec (.num C.rI .r0) (kif C.pol then .num C.r1I .r1 else .undef)
    (kif C.hasS then .num C.sI .s0 else .undef)
    (kif C.hasS then kif C.pol then .num C.s1I .s1 else .undef else .undef)
    (kif C.hasS then kif C.pol then .num C.s2I .s2 else .undef else .undef)
    (kif C.hasM then .num C.lI .none else .undef)
    (kif C.hasM then kif C.pol then .num C.lI .none else .undef else .undef)
    (kif C.hasM then .num C.tI .none else .undef)
    (kif C.hasM then kif C.pol then .num C.t1I .none else .undef else .undef) i

/-- `0 < x < 1` -/
def openI : Itv := ⟨posB, .fin (Int.negOfNat sc) true⟩

def afld (C : ACfg) (f : Fld) : Itv :=
  Fld.rec C.ztI C.dI (kif mem 2 C.flds then C.pI else C.oI) (kif mem 3 C.flds then C.pI else C.oI)
    (kif mem 4 C.flds then C.pI else C.oI) f

/-- Decimal literals. -/
def alit (n : Nat) (e : Int) : AV :=
  Int.rec (fun e => (fun q => AV.num (Itv.ofNat q q) (kif Nat.beq n 1 then (kif Nat.beq e 0 then .one else .none) else kif Nat.beq n 2 then (kif Nat.beq e 0 then .two else .none) else .none))
      (Nat.mul sc (Nat.mul n (Nat.pow 10 e))))
    (fun e => (fun d => (fun q => AV.num ⟨.fin (Int.ofNat q) (kif Nat.beq q 0 then Nat.ble 1 n else false), .fin (Int.negOfNat (kif Nat.beq (Nat.mul q d) (Nat.mul sc n) then q else Nat.succ q)) false⟩
        (kif Nat.beq n d then .one else kif Nat.beq n (Nat.mul 2 d) then .two else .none))
      (Nat.div (Nat.mul sc n) d)) (Nat.pow 10 (Nat.succ e))) e

/-- The natural number that a literal denotes. -/
def litNat {β : Type} (e : Expr) (z : β) (k : Nat → β) : β :=
  Expr.rec (fun n e => Int.rec (fun e => k (Nat.mul n (Nat.pow 10 e)))
      (fun e => (fun d => kif Nat.beq (Nat.mod n d) 0 then k (Nat.div n d) else z) (Nat.pow 10 (Nat.succ e))) e)
    z (fun _ => z) (fun _ => z) (fun _ => z) (fun _ => z) (fun _ _ => z) (fun _ _ _ _ => z) (fun _ _ _ _ => z) (fun _ _ _ _ => z) (fun _ _ _ _ => z)
    (fun _ _ _ _ => z) (fun _ _ _ _ => z) (fun _ _ _ _ => z) (fun _ _ _ _ => z) (fun _ _ _ _ => z) (fun _ _ _ _ => z) (fun _ _ _ _ _ _ => z)
    (fun _ _ _ => z) (fun _ _ _ _ _ => z) (fun _ => z) e

def aAdd (C : ACfg) (I : Itv) (s : Tag) (J : Itv) (t : Tag) : AV :=
  match s, t with
  | .r0, .r1 => .num (I.add J) .sum
  | .s0, .twoS1 => .num (I.add J) .s01
  | .s01, .s2 => .num ((I.add J).meet C.stI) .none
  | _, _ => .num (I.add J) .none

def aSub (I : Itv) (s : Tag) (J : Itv) (t : Tag) : AV :=
  match s, t with
  | .r0, .r1 => .num (I.add J.neg) .diff
  | _, _ => .num (I.add J.neg) .none

/-- `(-1, 1)` and `[0, 1)`. -/
def unitI : Itv := ⟨.fin (Int.negOfNat sc) true, .fin (Int.negOfNat sc) true⟩
def unitNN : Itv := ⟨zeroB, .fin (Int.negOfNat sc) true⟩

def oneI : Itv := Itv.ofNat sc sc

def aMul (C : ACfg) (I : Itv) (s : Tag) (J : Itv) (t : Tag) : AV :=
  match s, t with
  | .two, .s1 => .num (I.mul J) .twoS1
  | .two, .r0 => .num (I.mul J) .twoR0
  | .two, .r1 => .num (I.mul J) .twoR1
  | .diff, .isum => .num C.zI .none
  | .diff2, .isum2 => .num C.zzI .none
  | .twoR0, .isum => .num (oneI.add C.zI) .none
  | .twoR1, .isum => .num (oneI.add C.zI.neg) .none
  | _, _ => .num (I.mul J) .none

def Itv.inv (J : Itv) (z : AV) (k : Itv → AV) : AV :=
  kif bdPos J.lo then k (invPos J) else kif bdPos J.hi then k (invPos J.neg).neg else z

def aDiv (C : ACfg) (I : Itv) (s : Tag) (J : Itv) (t : Tag) : AV :=
  match s, t with
  | .diff, .sum => .num C.zI .none
  | .diff2, .sum2 => .num C.zzI .none
  | .one, .sum => J.inv .undef fun K => .num (I.mul K) .isum
  | .r0, .two => J.inv .undef fun K => .num (I.mul K) .half
  | .one, .sum2 => J.inv .undef fun K => .num (I.mul K) .isum2
  | _, _ => J.inv .undef fun K => .num (I.mul K) .none

def powTag (t : Tag) (n : Nat) : Tag :=
  match t with
  | .sum => kif Nat.beq n 2 then .sum2 else .none
  | .diff => kif Nat.beq n 2 then .diff2 else .none
  | _ => .none

/-- `x ** y`, where `b` is the text of `y`. -/
def aPow (b : Expr) (I : Itv) (s : Tag) (J : Itv) : AV :=
  (fun z => litNat b z fun n => kif Nat.ble n 64 then .num (I.pow n) (powTag s n) else z)
    (kif bdPos I.lo then .num (powPos I J) .none else kif bdNN I.lo then (kif bdNN J.lo then .num (kif band (bdNN I.hi) (bdPos J.lo) then zeroI else nn) .none else .undef) else .undef)

def aFn1 (f : Fn1) (I : Itv) : AV :=
  Fn1.rec
    /- cbrt -/ (.num I.cbrt .none)
    /- log -/ (kif bdPos I.lo then .num I.log .none else .undef)
    /- sqrt -/ (kif bdNN I.lo then .num I.sqrt .none else .undef)
    /- exp -/ (.num I.exp .none)
    /- arctan -/ (.num (I.sign.meet ⟨.fin (Int.negOfNat (Nat.mul 2 sc)) false, .fin (Int.negOfNat (Nat.mul 2 sc)) false⟩) .none)
    /- arcsinh -/ (.num I.sign .none)
    /- arctanh -/ (kif bdPos (bdAdd I.lo oneB) then kif bdPos (bdAdd I.hi oneB) then .num I.sign .none else .undef else .undef)
    /- abs -/ (.num I.abs .none)
    /- tanh -/ (.num (I.sign.meet unitI) .none)
    /- cosh -/ (.num ⟨oneB, .inf⟩ .none)
    /- cos, sin -/ (.num ⟨monB, monB⟩ .none) (.num ⟨monB, monB⟩ .none)
    /- erf, erfc, i0 -/ (.num top .none) (.num top .none) (.num top .none)
    /- lambertw -/ (kif bdNN I.lo then .num top .none else .undef)
    /- e1Scaled -/ (kif bdPos I.lo then .num top .none else .undef)
    /- erfcx -/ (.num top .none)
    /- heaviside -/ (.num ⟨zeroB, monB⟩ .none) f

/-- Codes of expressions that can be refined by a comparison. -/
def keyE (e : Expr) : Nat :=
  Expr.rec (fun _ _ => 0) 0 (fun i => Nat.add 1 (Nat.mul 4 (Inp.rec 0 1 2 3 4 5 6 7 8 i))) (fun f => Nat.add 2 (Nat.mul 4 (Fld.rec 0 1 2 3 4 f)))
    (fun _ => 0) (fun n => Nat.add 3 (Nat.mul 4 n)) (fun _ _ => 0) (fun _ _ _ _ => 0) (fun _ _ _ _ => 0) (fun _ _ _ _ => 0) (fun _ _ _ _ => 0)
    (fun _ _ _ _ => 0) (fun _ _ _ _ => 0) (fun _ _ _ _ => 0) (fun _ _ _ _ => 0) (fun _ _ _ _ => 0) (fun _ _ _ _ => 0) (fun _ _ _ _ _ _ => 0)
    (fun _ _ _ => 0) (fun _ _ _ _ _ => 0) (fun _ => 0) e

def sameE (k : Nat) (x : Expr) : Bool := kif Nat.beq k 0 then false else Nat.beq k (keyE x)

/-- The first branch, where the comparison holds. -/
def refT (f : Fact) (a : Expr) (I : Itv) : Itv :=
  (fun k => (fun s =>
    kif sameE k f.x then ⟨I.lo, bdMax I.hi (bdStrict s f.J.hi)⟩
    else kif sameE k f.y then ⟨bdMax I.lo (bdStrict s f.I.lo), I.hi⟩ else I) (Nat.beq f.op 2)) (keyE a)

/-- The second branch, where the comparison fails. -/
def refF (f : Fact) (b : Expr) (I : Itv) : Itv :=
  (fun k =>
    kif Nat.beq f.op 3 then
      kif sameE k f.x then kif bdNN f.J.lo then kif bdNN f.J.hi then ⟨kif bdNN I.lo then bdMax I.lo posB else I.lo, I.hi⟩ else I else I else I
    else (fun s =>
      kif sameE k f.x then ⟨bdMax I.lo (bdStrict s f.J.lo), I.hi⟩
      else kif sameE k f.y then ⟨I.lo, bdMax I.hi (bdStrict s f.I.hi)⟩ else I) (Nat.beq f.op 1)) (keyE b)

def aCond (c : AV) (ea eb : Expr) (a b : AV) : AV :=
  AV.rec .undef (fun _ _ => .undef) (fun t f =>
    Tri.rec (AV.rec .undef (fun I t => .num I t) (fun _ _ => .undef) a) (AV.rec .undef (fun I t => .num I t) (fun _ _ => .undef) b)
      (AV.rec .undef (fun I _ => AV.rec .undef (fun J _ =>
          kif Nat.beq f.op 0 then .num (I.join J) .none else .num ((refT f ea I).join (refF f eb J)) .none) (fun _ _ => .undef) b) (fun _ _ => .undef) a)
      t) c

def noFact : Fact := ⟨0, .pi, top, .pi, top⟩

/-- Comparisons of a density with the threshold that are known to fail. -/
def aboveT (C : ACfg) (s : Tag) (y : Expr) : Bool :=
  kif Nat.beq (keyE y) 6 then
    match s with
    | .r0 => C.above
    | .r1 => C.above1
    | .half => kif C.pol then false else C.above
    | _ => false
  else false

def aLe (C : ACfg) (x y : Expr) (I : Itv) (s : Tag) (J : Itv) : AV :=
  (fun d => .bool (kif aboveT C s y then .ff else kif bdNN d.lo then .tt else kif bdPos d.hi then .ff else .unk) ⟨1, x, I, y, J⟩) (J.add I.neg)
def aLt (x y : Expr) (I J : Itv) : AV :=
  (fun d => .bool (kif bdPos d.lo then .tt else kif bdNN d.hi then .ff else .unk) ⟨2, x, I, y, J⟩) (J.add I.neg)
def aEq (x y : Expr) (I J : Itv) : AV :=
  (fun d => .bool (kif bdPos d.lo then .ff else kif bdPos d.hi then .ff else .unk) ⟨3, x, I, y, J⟩) (J.add I.neg)

def triOr (a b : Tri) : Tri := Tri.rec .tt b (Tri.rec .tt .unk .unk b) a
def triAnd (a b : Tri) : Tri := Tri.rec b .ff (Tri.rec .unk .ff .unk b) a

def av2 (a b : AV) (k : Itv → Tag → Itv → Tag → AV) : AV :=
  AV.rec .undef (fun I s => AV.rec .undef (fun J t => k I s J t) (fun _ _ => .undef) b) (fun _ _ => .undef) a

def avB (a b : AV) (k : Tri → Tri → Tri) : AV :=
  AV.rec .undef (fun _ _ => .undef) (fun s _ => AV.rec .undef (fun _ _ => .undef) (fun t _ => .bool (k s t) noFact) b) a

/-- `3.1415926 < π < 3.1415927` -/
def piI : Itv := Itv.ofNat 57952154676059781906 57952156520734189278

/-- Abstract value of an expression. -/
def aev (C : ACfg) (T : Trie AV) (e : Expr) : AV :=
  Expr.rec
    (fun n e => alit n e)
    (.num piI .none)
    (fun i => ainp C i)
    (fun f => .num (afld C f) .none)
    (fun c => .num (kif mem c C.par then C.pI else kif mem c C.npar then C.pI.neg else C.oI) .none)
    (fun n => Option.rec .undef (fun v => v) (Trie.get 20 T n))
    (fun _ a => AV.rec .undef (fun I _ => .num I.neg .none) (fun _ _ => .undef) a)
    (fun _ _ a b => av2 a b fun I s J t => aAdd C I s J t)
    (fun _ _ a b => av2 a b fun I s J t => aSub I s J t)
    (fun _ _ a b => av2 a b fun I s J t => aMul C I s J t)
    (fun _ _ a b => av2 a b fun I s J t => aDiv C I s J t)
    (fun _ eb a b => av2 a b fun I s J _ => aPow eb I s J)
    (fun x y a b => av2 a b fun I s J _ => aLe C x y I s J)
    (fun x y a b => av2 a b fun I _ J _ => aLt x y I J)
    (fun x y a b => av2 a b fun I _ J _ => aEq x y I J)
    (fun _ _ a b => avB a b triOr)
    (fun _ _ a b => avB a b triAnd)
    (fun _ ea eb c a b => aCond c ea eb a b)
    (fun f _ a => AV.rec .undef (fun I _ => aFn1 f I) (fun _ _ => .undef) a)
    (fun _ _ _ a b => av2 a b fun _ _ _ _ => .num top .none)
    (fun _ => .undef)
    e

/-- Compute a bound before going on. -/
def Bd.force {β : Type} (a : Bd) (k : Bd → β) : β :=
  Bd.rec (k .inf) (fun n s => Int.rec
    (fun n => Nat.rec (k (.fin (Int.ofNat 0) s)) (fun m _ => k (.fin (Int.ofNat (Nat.succ m)) s)) n)
    (fun n => Nat.rec (k (.fin (Int.negSucc 0) s)) (fun m _ => k (.fin (Int.negSucc (Nat.succ m)) s)) n) n) a

/-- Compute an abstract value before going on. -/
def AV.force {β : Type} (a : AV) (k : AV → β) : β :=
  AV.rec (k .undef) (fun I t => Itv.rec (fun lo hi => lo.force fun lo => hi.force fun hi => k (.num ⟨lo, hi⟩ t)) I) (fun t f => k (.bool t f)) a

/-- Run through a body; every temporary must be assigned once. -/
def abody (C : ACfg) (b : List (Nat × Expr)) : Trie AV → (Trie AV → Bool) → Bool :=
  List.rec (fun T k => k T) (fun ne _ ih T k =>
    Prod.rec (fun n e => Option.rec ((aev C T e).force fun v => ih (Trie.set v 20 T n) k) (fun _ => false) (kif Nat.ble n 500000 then Trie.get 20 T n else some .undef)) ne) b

/-- Is the value of `res` defined? -/
def acheck (C : ACfg) (p : Prog) : Bool :=
  Prog.rec (fun body res => abody C body .leaf fun T => AV.rec false (fun _ _ => true) (fun _ _ => false) (aev C T res)) p

/-! ## Certainly not a number -/

def isNum (a : AV) : Bool := AV.rec false (fun _ _ => true) (fun _ _ => false) a
def isZero (a : AV) : Bool := AV.rec false (fun J _ => band (bdNN J.lo) (bdNN J.hi)) (fun _ _ => false) a
def isNonzero (a : AV) : Bool := AV.rec false (fun J _ => bor (bdPos J.lo) (bdPos J.hi)) (fun _ _ => false) a
def isNeg (a : AV) : Bool := AV.rec false (fun I _ => bdPos I.hi) (fun _ _ => false) a

/-- What is known of a value that the strict semantics does not have: nothing, an infinity, `nan`, or a comparison that is false since a side is `nan`. -/
inductive NK
  | no | inf | nan | ff

/-- Forget about comparisons. -/
def NK.num (k : NK) : NK := NK.rec .no .inf .nan .no k
def NK.isNan (k : NK) : Bool := NK.rec false false true false k

/-- Sum or difference. -/
def kAdd (a b : NK) (x y : AV) : NK :=
  NK.rec (NK.rec .no (kif isNum x then .inf else .no) .nan .no b) (NK.rec (kif isNum y then .inf else .no) .no .nan .no b) .nan (NK.rec .no .no .nan .no b) a

/-- An infinity times something of the given kind and value. -/
def kInf (b : NK) (y : AV) : NK := NK.rec (kif isZero y then .nan else kif isNonzero y then .inf else .no) .inf .nan .no b

def kMul (a b : NK) (x y : AV) : NK :=
  NK.rec (NK.rec .no (kInf .no x) .nan .no b) (kInf b y) .nan (NK.rec .no .no .nan .no b) a

def kDiv (a b : NK) (x y : AV) : NK :=
  NK.rec (NK.rec (kif isZero y then kif isZero x then .nan else kif isNonzero x then .inf else .no else .no) .no .nan .no b)
    (NK.rec (kif isNum y then .inf else .no) .nan .nan .no b) .nan (NK.rec .no .no .nan .no b) a

def kPow (a b : NK) (y : AV) : NK := NK.rec .no .no (NK.rec (kif isNonzero y then .nan else .no) .no .nan .no b) .no a

def kCmp (a b : NK) (x y : AV) : NK :=
  NK.rec (NK.rec .no .no (kif isNum x then .ff else .no) .no b) .no (NK.rec (kif isNum y then .ff else .no) .no .ff .no b) .no a

def kCond (c a b : NK) (z : AV) : NK :=
  AV.rec (NK.rec .no .no .no b.num c) (fun _ _ => .no)
    (fun t _ => Tri.rec a.num b.num (NK.rec .no (NK.rec .no .inf .no .no b) (NK.rec .no .no .nan .no b) .no a) t) z

/-- What is known of the value of an expression; `D` says what is known of the temporaries. -/
def nanE (C : ACfg) (A : Trie AV) (D : Trie NK) (e : Expr) : NK :=
  Expr.rec (fun _ _ => .no) .no (fun _ => .no) (fun _ => .no) (fun _ => .no)
    (fun n => Option.rec .no (fun k => k) (Trie.get 20 D n))
    (fun _ a => a.num)
    (fun ea eb a b => kAdd a b (aev C A ea) (aev C A eb))
    (fun ea eb a b => kAdd a b (aev C A ea) (aev C A eb))
    (fun ea eb a b => kMul a b (aev C A ea) (aev C A eb))
    (fun ea eb a b => kDiv a b (aev C A ea) (aev C A eb))
    (fun _ eb a b => kPow a b (aev C A eb))
    (fun ea eb a b => kCmp a b (aev C A ea) (aev C A eb))
    (fun ea eb a b => kCmp a b (aev C A ea) (aev C A eb))
    (fun ea eb a b => kCmp a b (aev C A ea) (aev C A eb))
    (fun _ _ _ _ => .no)
    (fun _ _ _ _ => .no)
    (fun ec _ _ c a b => kCond c a b (aev C A ec))
    (fun f ea a => kif a.isNan then Fn1.rec .nan .nan .nan .nan .nan .nan .nan .nan .nan .nan .nan .nan .nan .nan .nan .no .no .nan .nan f else
      (fun neg => Fn1.rec .no neg neg .no .no .no .no .no .no .no .no .no .no .no .no .no .no .no .no f) (kif isNeg (aev C A ea) then .nan else .no))
    (fun _ _ _ _ _ => .no)
    (fun _ => .no)
    e

/-- Evaluate what is known. -/
def NK.force (k : NK) (f : NK → Bool) : Bool := NK.rec (f .no) (f .inf) (f .nan) (f .ff) k

/-- Run through a body, noting temporaries without a strict value; every temporary must be assigned once. -/
def nbody (C : ACfg) (b : List (Nat × Expr)) : Trie AV → Trie NK → (Trie AV → Trie NK → Bool) → Bool :=
  List.rec (fun A D k => k A D) (fun ne _ ih A D k =>
    Prod.rec (fun n e => Option.rec ((aev C A e).force fun v => (nanE C A D e).force fun w =>
        NK.rec (ih (Trie.set v 20 A n) D k) (ih (Trie.set v 20 A n) (Trie.set .inf 20 D n) k) (ih (Trie.set v 20 A n) (Trie.set .nan 20 D n) k)
          (ih (Trie.set v 20 A n) (Trie.set .ff 20 D n) k) w)
      (fun _ => false) (kif Nat.ble n 500000 then Trie.get 20 A n else some .undef)) ne) b

/-- Is `res` certainly `nan`? -/
def ncheck (C : ACfg) (p : Prog) : Bool := Prog.rec (fun body res => nbody C body .leaf .leaf fun A D => (nanE C A D res).isNan) p

end

end Verif.Norm
