import Verif.Py.Ast
/-!
# A symbolic normaliser for the generated formulas (definitions)

This is proof machinery, not a model of code in `/repo`.  A formula is turned into a sum of terms
`(p - m)/d * (a/b) * c`, where

* `p`, `m`, `d` are natural numbers: a rational coefficient;
* `a`, `b` are natural numbers that encode, by prime factorisation, products of *strictly positive* quantities raised to
  powers of `1/U` (`U` a natural number chosen per formula): the prime 2 stands for `r0^(1/U)`, 3 for `r1^(1/U)`, 5 for
  `2^(1/U)`, 7 for `3^(1/U)`, …;
* `c` encodes in the same way a product of arbitrary quantities ("atoms"): nonnegative inputs (`s0^(1/U)`, …), and
  entries of a table: parameters, conditionals, transcendental functions of normal forms, …

Multiplying terms is multiplying numbers, so the kernel can run the normaliser on whole formulas.
To be fast in the kernel the functions are written with recursors and in continuation-passing style: a function
that produces an `α` (and may extend the table, or give up by answering `false`) has type
`St → (α → St → Bool) → Bool`.
Soundness is proved in `Verif.Norm.Sound`.
-/
namespace Verif.Norm
open Verif.Py

noncomputable section

/-- `if` by the recursor of `Bool`. -/
macro "kif " c:term:60 " then " t:term " else " e:term : term => `(@Bool.rec (fun _ => _) $e $t $c)

/-- Sums of terms `(p - m)/d * (a/b) * c`. -/
inductive Poly
  | nil
  | cons (a b c p m d : Nat) (tl : Poly)
  deriving Repr, Inhabited

/-- Binary trie over natural numbers. -/
inductive Trie (α : Type)
  | leaf
  | node (v : Option α) (l r : Trie α)
  deriving Inhabited

/-- Table of atoms, newest first.  The prime `pr` stands for the atom, the prime `qr` for its inverse; `h` is a hash.
What `tag x y b p q` mean is defined in `Verif.Norm.Sound` (`atomVal`). -/
inductive Tab
  | nil
  | cons (pr qr h tag x y : Nat) (b p q : Poly) (tl : Tab)
  deriving Inhabited

/-- Assumed comparisons: `tag = 0` is `0 ≤ p`, otherwise `p = 0`. -/
inductive Facts
  | nil
  | cons (tag : Nat) (p : Poly) (v : Bool) (tl : Facts)
  deriving Inhabited

structure Cfg where
  /-- exponents are in units of `1/U` -/
  U : Nat
  /-- products with more terms than this are kept unexpanded -/
  cap : Nat
  /-- comparisons whose truth value is assumed -/
  facts : Facts
  deriving Inhabited

structure St where
  /-- unused primes -/
  free : List Nat
  tab : Tab
  /-- index by hash -/
  idx : Trie Tab
  deriving Inhabited

/-- State transformers in continuation-passing style; `false` is failure. -/
def M (α : Type) := St → (α → St → Bool) → Bool

/-- A function receiving the six numbers of a term. -/
abbrev TmK (β : Type) := Nat → Nat → Nat → Nat → Nat → Nat → β

/-! ## Equality tests and hashes -/

def polyBeq (x : Poly) : Poly → Bool :=
  Poly.rec (fun y => Poly.rec true (fun _ _ _ _ _ _ _ _ => false) y)
    (fun a b c p m d _ ih y => Poly.rec false (fun a' b' c' p' m' d' tl' _ =>
      kif Nat.beq c c' then
        kif Nat.beq a a' then
          kif Nat.beq b b' then
            kif Nat.beq p p' then
              kif Nat.beq m m' then
                kif Nat.beq d d' then ih tl' else false
              else false
            else false
          else false
        else false
      else false) y) x

def inpCode : Inp → Nat
  | .r0 => 0 | .r1 => 1 | .s0 => 2 | .s1 => 3 | .s2 => 4 | .l0 => 5 | .l1 => 6 | .tau0 => 7 | .tau1 => 8
def fldCode : Fld → Nat
  | .zetaThreshold => 0 | .densThreshold => 1 | .camOmega => 2 | .camAlpha => 3 | .camBeta => 4
def fn1Code : Fn1 → Nat
  | .cbrt => 0 | .log => 1 | .sqrt => 2 | .exp => 3 | .arctan => 4 | .arcsinh => 5 | .arctanh => 6 | .abs => 7 | .tanh => 8
  | .cosh => 9 | .cos => 10 | .sin => 11 | .erf => 12 | .erfc => 13 | .i0 => 14 | .lambertw => 15 | .e1Scaled => 16
  | .erfcx => 17 | .heaviside => 18

/-- Hash of a polynomial, folded into `h` (only used to find table entries). -/
def hashP (x : Poly) : Nat → Nat :=
  Poly.rec (fun h => h) (fun a b c p m _ _ ih h =>
    ih (Nat.mod (Nat.add (Nat.mul h 1000003) (Nat.add (Nat.mul a 31) (Nat.add (Nat.mul c 1009) (Nat.add p (Nat.add b (Nat.mul 3 m))))))
      2305843009213693951)) x

def hashA (tag x y : Nat) (b p q : Poly) : Nat :=
  hashP b (hashP q (hashP p (Nat.add tag (Nat.mul 17 (Nat.add x (Nat.mul y 131))))))

/-! ## Tries -/

/-- Look up `k`; `f` is fuel (number of bits). -/
def Trie.get {α : Type} (f : Nat) : Trie α → Nat → Option α :=
  Nat.rec (fun _ _ => none) (fun _ ih t k =>
    Trie.rec none (fun v l r _ _ =>
      kif Nat.beq k 0 then v
      else kif Nat.beq (Nat.mod k 2) 0 then ih l (Nat.div k 2) else ih r (Nat.div k 2)) t) f

/-- Insert at `k`. -/
def Trie.set {α : Type} (x : α) (f : Nat) : Trie α → Nat → Trie α :=
  Nat.rec (fun t _ => t) (fun _ ih t k =>
    Trie.rec
      (kif Nat.beq k 0 then .node (some x) .leaf .leaf
        else kif Nat.beq (Nat.mod k 2) 0 then .node none (ih .leaf (Nat.div k 2)) .leaf
        else .node none .leaf (ih .leaf (Nat.div k 2)))
      (fun v l r _ _ =>
        kif Nat.beq k 0 then .node (some x) l r
        else kif Nat.beq (Nat.mod k 2) 0 then .node v (ih l (Nat.div k 2)) r
        else .node v l (ih r (Nat.div k 2))) t) f

/-! ## Atoms -/

/-- Number of entries of the index is `2^6`. -/
def idxSize : Nat := 64

/-- Find an atom in a table: calls `k` with its two primes, or `z` if absent. -/
def findE (h tag x y : Nat) (b p q : Poly) (k : Nat → Nat → Bool) (z : Bool) (t : Tab) : Bool :=
  Tab.rec z (fun pr qr h' tag' x' y' b' p' q' _ ih =>
    kif Nat.beq h h' then
      kif Nat.beq tag tag' then
        kif Nat.beq x x' then
          kif Nat.beq y y' then
            kif polyBeq p p' then
              kif polyBeq q q' then
                kif polyBeq b b' then k pr qr
                else ih
              else ih
            else ih
          else ih
        else ih
      else ih
    else ih) t

/-- The primes of an atom; a table entry is created if it is new. -/
def mkAtom (tag x y : Nat) (b p q : Poly) (s : St) (k : Nat → Nat → St → Bool) : Bool :=
  (fun h => (fun (bucket : Tab) =>
    findE h tag x y b p q (fun pr qr => k pr qr s)
      (List.rec false (fun pr fr _ =>
        List.rec false (fun qr fr' _ =>
          k pr qr ⟨fr', .cons pr qr h tag x y b p q s.tab,
            Trie.set (Tab.cons pr qr h tag x y b p q bucket) 7 s.idx (Nat.mod h idxSize)⟩) fr) s.free) bucket)
    (Option.rec Tab.nil (fun t => t) (Trie.get 7 s.idx (Nat.mod h idxSize))))
  (hashA tag x y b p q)

/-! ## Terms -/

/-- Reduce a coefficient. -/
def redQ {β : Type} (p m d : Nat) (k : Nat → Nat → Nat → β) : β :=
  (fun p' m' =>
    kif Nat.beq d 1 then k p' m' d
    else (fun g => k (Nat.div p' g) (Nat.div m' g) (Nat.div d g)) (Nat.gcd (Nat.add p' m') d))
  (Nat.sub p m) (Nat.sub m p)

/-- Move whole powers of the number `l` (Gödel prime `g`) from the monomial to the coefficient; at most `f` steps. -/
def relNum {β : Type} (U g l f : Nat) (k : Nat → Nat → Nat → Nat → Nat → β) : Nat → Nat → Nat → Nat → Nat → β :=
  Nat.rec (fun a b p m d => k a b p m d) (fun _ ih a b p m d =>
    (fun gU =>
      kif Nat.beq (Nat.mod a gU) 0 then ih (Nat.div a gU) b (Nat.mul p l) (Nat.mul m l) d
      else kif Nat.beq (Nat.mod b g) 0 then
        (fun a' => (fun h => ih (Nat.div a' h) (Nat.div b h) p m (Nat.mul d l)) (Nat.gcd a' b)) (Nat.mul a gU)
      else k a b p m d) (Nat.pow g U)) f

/-- Reduce a term: lowest terms, whole powers of numbers in the coefficient.
Gödel primes of the numbers 2, 3, 5, 7, 11, 13 are 5, 7, 17, 19, 23, 29. -/
def redT {β : Type} (U f a b c p m d : Nat) (k : TmK β) : β :=
  (fun g => (fun a b =>
    (fun kk =>
      (fun kk2 =>
        kif Nat.beq (Nat.gcd (Nat.mul a b) 35) 1 then kk2 a b p m d
        else relNum U 5 2 f (fun a b p m d => relNum U 7 3 f kk2 a b p m d) a b p m d)
      (fun a b p m d =>
        kif Nat.beq (Nat.gcd (Nat.mul a b) 215441) 1 then kk a b p m d
        else relNum U 17 5 f (fun a b p m d => relNum U 19 7 f
          (fun a b p m d => relNum U 23 11 f (fun a b p m d => relNum U 29 13 f kk a b p m d) a b p m d) a b p m d) a b p m d))
    (fun a b p m d => redQ p m d fun p m d => k a b c p m d))
    (Nat.div a g) (Nat.div b g)) (Nat.gcd a b)

/-- Product of two terms. -/
def mulT {β : Type} (U a b c p m d a' b' c' p' m' d' : Nat) (k : TmK β) : β :=
  redT U 8 (Nat.mul a a') (Nat.mul b b') (Nat.mul c c')
    (Nat.add (Nat.mul p p') (Nat.mul m m')) (Nat.add (Nat.mul p m') (Nat.mul m p')) (Nat.mul d d') k

/-- Compare monomials: `e` if equal, `l` if smaller, `g` if greater. -/
def cmpM {β : Type} (a b c a' b' c' : Nat) (e l g : β) : β :=
  kif Nat.beq c c' then
    kif Nat.beq a a' then
      kif Nat.beq b b' then e
      else kif Nat.ble b b' then l else g
    else kif Nat.ble a a' then l else g
  else kif Nat.ble c c' then l else g

/-- Prepend the sum of two terms with the same monomial. -/
def consSum (a b c p m d p' m' d' : Nat) (r : Poly) : Poly :=
  kif Nat.beq (Nat.mul d d') 0 then .cons a b c p m d (.cons a b c p' m' d' r)
  else redQ (Nat.add (Nat.mul p d') (Nat.mul p' d)) (Nat.add (Nat.mul m d') (Nat.mul m' d)) (Nat.mul d d') fun p m d =>
    kif Nat.beq (Nat.add p m) 0 then r else .cons a b c p m d r

/-- Sum. -/
def addP (x : Poly) : Poly → Poly :=
  Poly.rec (fun ys => ys) (fun a b c p m d xs ih ys =>
    Poly.rec (.cons a b c p m d xs) (fun a' b' c' p' m' d' ys' ih2 =>
      cmpM a b c a' b' c'
        (consSum a b c p m d p' m' d' (ih ys'))
        (.cons a b c p m d (ih (.cons a' b' c' p' m' d' ys')))
        (.cons a' b' c' p' m' d' ih2)) ys) x

/-- Insert a term. -/
def insT (a b c p m d : Nat) (y : Poly) : Poly :=
  Poly.rec (.cons a b c p m d .nil) (fun a' b' c' p' m' d' ys' ih2 =>
    cmpM a b c a' b' c'
      (consSum a b c p m d p' m' d' ys')
      (.cons a b c p m d (.cons a' b' c' p' m' d' ys'))
      (.cons a' b' c' p' m' d' ih2)) y

/-- Product with a term. -/
def mulTP (U a b c p m d : Nat) (y : Poly) : Poly :=
  Poly.rec .nil (fun a' b' c' p' m' d' _ ih => mulT U a b c p m d a' b' c' p' m' d' fun a b c p m d => insT a b c p m d ih) y

/-- Product, fully expanded. -/
def mulRaw (U : Nat) (x y : Poly) : Poly :=
  Poly.rec .nil (fun a b c p m d _ ih => addP (mulTP U a b c p m d y) ih) x

/-- Negation. -/
def negP (x : Poly) : Poly := Poly.rec .nil (fun a b c p m d _ ih => .cons a b c m p d ih) x

def one : Poly := .cons 1 1 1 1 0 1 .nil

/-- The constant `(p - m)/d`. -/
def ofQ (p m d : Nat) : Poly :=
  redQ p m d fun p m d => kif Nat.beq (Nat.add p m) 0 then .nil else .cons 1 1 1 p m d .nil

/-- The polynomial consisting of an atom. -/
def ofC (c : Nat) : Poly := .cons 1 1 c 1 0 1 .nil

def isNil (x : Poly) : Bool := Poly.rec true (fun _ _ _ _ _ _ _ _ => false) x

/-- `1`? -/
def isOne (x : Poly) : Bool := polyBeq x one

def gcdA (x : Poly) : Nat → Nat := Poly.rec (fun g => g) (fun a _ _ _ _ _ _ ih g => ih (Nat.gcd a g)) x
def lcmB (x : Poly) : Nat → Nat :=
  Poly.rec (fun g => g) (fun _ b _ _ _ _ _ ih l => ih (Nat.div (Nat.mul b l) (Nat.gcd b l))) x
def gcdC (x : Poly) : Nat → Nat := Poly.rec (fun g => g) (fun _ _ c _ _ _ _ ih g => ih (Nat.gcd c g)) x
def lenP (x : Poly) : Nat := Poly.rec 0 (fun _ _ _ _ _ _ _ ih => Nat.succ ih) x

/-- `P = n/d*a/b * rest` with positive numbers (`k a b n d rest s`): the largest common monomial of positive quantities, and the absolute
value of the first coefficient, are divided out. `s` is the sign of the first coefficient (`true`: negative). -/
def splitPos (U : Nat) (x : Poly) (k : Nat → Nat → Nat → Nat → Poly → Bool → Bool) : Bool :=
  Poly.rec false (fun a b _ p m d tl _ =>
    (fun a b n =>
      kif Nat.ble 1 (Nat.mul (Nat.mul a b) (Nat.mul n d)) then
        k a b n d (mulTP U b a 1 d 0 n x) (Nat.ble 1 m)
      else false) (gcdA tl a) (lcmB tl b) (Nat.add p m)) x

/-- A sum as an atom, with its content and sign factored out: `P = (p-m)/d*a/b * atom` (`k a b p m d pr qr`). -/
def wrapE (U : Nat) (x : Poly) (s : St) (k : Nat → Nat → Nat → Nat → Nat → Nat → Nat → St → Bool) : Bool :=
  splitPos U x fun a b n d rest sg =>
    kif sg then mkAtom 1 0 0 .nil (negP rest) .nil s fun pr qr s => k a b 0 n d pr qr s
    else mkAtom 1 0 0 .nil rest .nil s fun pr qr s => k a b n 0 d pr qr s

/-- Replace a sum by a term. -/
def wrap (U : Nat) (x : Poly) (s : St) (k : Poly → St → Bool) : Bool :=
  Poly.rec (k x s) (fun _ _ _ _ _ _ tl _ =>
    Poly.rec (k x s) (fun _ _ _ _ _ _ _ _ =>
      wrapE U x s fun a b p m d pr _ s => k (.cons a b pr p m d .nil) s) tl) x

/-- Product. -/
def mulP (C : Cfg) (x y : Poly) (s : St) (k : Poly → St → Bool) : Bool :=
  kif Nat.ble (Nat.mul (lenP x) (lenP y)) C.cap then k (mulRaw C.U x y) s
  else wrap C.U x s fun x s => wrap C.U y s fun y s => k (mulRaw C.U x y) s

/-! ## Inverses -/

/-- Divide `c` by `p` as often as possible, multiplying `o` by `q` each time. -/
def divAll {β : Type} (p q f : Nat) (k : Nat → Nat → β) : Nat → Nat → β :=
  Nat.rec (fun c o => k c o) (fun _ ih c o =>
    kif Nat.beq (Nat.mod c p) 0 then ih (Nat.div c p) (Nat.mul o q) else k c o) f

/-- Replace `p` by `q` and `q` by `p` in `c`. -/
def divPair {β : Type} (p q c o : Nat) (k : Nat → Nat → β) : β :=
  kif Nat.beq (Nat.gcd c (Nat.mul p q)) 1 then k c o
  else divAll p q 4000 (fun c o => divAll q p 4000 k c o) c o

def invTab {β : Type} (t : Tab) (k : Nat → Nat → β) : Nat → Nat → β :=
  Tab.rec (fun c o => k c o) (fun pr qr _ _ _ _ _ _ _ _ ih c o =>
    kif Nat.beq c 1 then k c o else divPair pr qr c o ih) t

/-- The code of the inverse of an atom product.  Nonnegative inputs `s0, s2, tau0, tau1` have primes 2, 3, 5, 7 and
inverses 11, 13, 17, 19. -/
def invC (c : Nat) (s : St) (k : Nat → Bool) : Bool :=
  kif Nat.beq c 1 then k 1
  else divPair 2 11 c 1 fun c o => divPair 3 13 c o fun c o => divPair 5 17 c o fun c o => divPair 7 19 c o fun c o =>
    invTab s.tab (fun c o => kif Nat.beq c 1 then k o else false) c o

/-- Inverse of a term. -/
def invT (U a b c p m d : Nat) (s : St) (k : TmK Bool) : Bool :=
  invC c s fun c =>
    kif Nat.beq p 0 then
      kif Nat.beq m 0 then false else redT U 8 b a c 0 d m k
    else kif Nat.beq m 0 then redT U 8 b a c d 0 p k else false

/-- Inverse. -/
def invP (U : Nat) (x : Poly) (s : St) (k : Poly → St → Bool) : Bool :=
  Poly.rec false (fun a b c p m d tl _ =>
    Poly.rec (invT U a b c p m d s fun a b c p m d => k (.cons a b c p m d .nil) s) (fun _ _ _ _ _ _ _ _ =>
      wrapE U x s fun a b p m d _ qr s => invT U a b 1 p m d s fun a b _ p m d => k (.cons a b qr p m d .nil) s) tl) x

/-! ## Powers -/

/-- Product of `n` copies. -/
def npowP (C : Cfg) (x : Poly) (n : Nat) : St → (Poly → St → Bool) → Bool :=
  Nat.rec (fun s k => k one s) (fun _ ih s k => ih s fun r s => mulP C r x s k) n

/-- Power of a term (one of `p`, `m` must be zero). -/
def powT (U a b c p m d n : Nat) (k : Poly → Bool) : Bool :=
  kif Nat.beq m 0 then
    redT U (Nat.add n 2) (Nat.pow a n) (Nat.pow b n) (Nat.pow c n) (Nat.pow p n) 0 (Nat.pow d n) fun a b c p m d => k (.cons a b c p m d .nil)
  else kif Nat.beq p 0 then
    kif Nat.beq (Nat.mod n 2) 0 then
      redT U (Nat.add n 2) (Nat.pow a n) (Nat.pow b n) (Nat.pow c n) (Nat.pow m n) 0 (Nat.pow d n) fun a b c p m d => k (.cons a b c p m d .nil)
    else
      redT U (Nat.add n 2) (Nat.pow a n) (Nat.pow b n) (Nat.pow c n) 0 (Nat.pow m n) (Nat.pow d n) fun a b c p m d => k (.cons a b c p m d .nil)
  else false

/-- Natural power. -/
def natPow (C : Cfg) (x : Poly) (n : Nat) (s : St) (k : Poly → St → Bool) : Bool :=
  Poly.rec (kif Nat.beq n 0 then k one s else k .nil s) (fun a b c p m d tl _ =>
    Poly.rec (powT C.U a b c p m d n fun r => k r s) (fun _ _ _ _ _ _ _ _ =>
      kif Nat.ble n 8 then npowP C x n s k
      else wrapE C.U x s fun a b p m d pr _ s => powT C.U a b pr p m d n fun r => k r s) tl) x

/-- Divide `a` by `g^(4m)` and then `g^m` as often as possible; `x` collects what was divided out and `y` its `n/m`-th power. -/
def rootLoop {β : Type} (gm gn f : Nat) (k : Nat → Nat → Nat → β) : Nat → Nat → Nat → β :=
  Nat.rec (fun a x y => k a x y) (fun _ ih a x y =>
    kif Nat.beq (Nat.mod a gm) 0 then ih (Nat.div a gm) (Nat.mul x gm) (Nat.mul y gn) else k a x y) f

def rootPrime {β : Type} (n m g : Nat) (k : Nat → Nat → Nat → β) (a x y : Nat) : β :=
  kif Nat.beq (Nat.mod a g) 0 then
    rootLoop (Nat.pow g (Nat.mul 4 m)) (Nat.pow g (Nat.mul 4 n)) 40
      (fun a x y => rootLoop (Nat.pow g m) (Nat.pow g n) 40 k a x y) a x y
  else k a x y

/-- For the power `n/m`: a divisor of `a` made of the given primes with exact root, and its `n/m`-th power.
(Not trusted: the caller checks.) -/
def rootGo {β : Type} (n m : Nat) (gs : List Nat) (k : Nat → Nat → β) : Nat → Nat → Nat → β :=
  List.rec (fun _ x y => k x y) (fun g _ ih a x y =>
    kif Nat.beq a 1 then k x y else rootPrime n m g ih a x y) gs

/-- Gödel primes of all positive quantities: r0 2, r1 3, numbers 5 7 17 19 23 29, π 11, zeta threshold 13,
density threshold 31, scale 37. -/
def posPrimes : List Nat := [2, 3, 5, 7, 11, 13, 17, 19, 23, 29, 31, 37]
/-- Primes of nonnegative quantities and of their inverses. -/
def nnPrimes : List Nat := [2, 3, 5, 7, 11, 13, 17, 19]

/-- `a` times the Gödel code of the part of the natural number `n` made of 2, 3, 5, 7, 11, 13. -/
def absorb {β : Type} (U n a : Nat) (k : Nat → β) : β :=
  kif Nat.beq n 1 then k a else
  divAll 2 (Nat.pow 5 U) 200 (fun n a =>
  kif Nat.beq n 1 then k a else
  divAll 3 (Nat.pow 7 U) 200 (fun n a =>
  kif Nat.beq n 1 then k a else
  divAll 5 (Nat.pow 17 U) 200 (fun n a =>
  kif Nat.beq n 1 then k a else
  divAll 7 (Nat.pow 19 U) 200 (fun n a =>
  kif Nat.beq n 1 then k a else
  divAll 11 (Nat.pow 23 U) 200 (fun n a =>
  kif Nat.beq n 1 then k a else
  divAll 13 (Nat.pow 29 U) 200 (fun _ a => k a) n a) n a) n a) n a) n a) n a

/-- Divide the atom code of all terms by `c` (checked), and pass on the result. -/
def divC {β : Type} (c : Nat) (z : β) (x : Poly) : (Poly → β) → β :=
  Poly.rec (fun k => k .nil) (fun a b c' p m d _ ih k =>
    (fun c'' => kif Nat.beq (Nat.mul c'' c) c' then ih fun r => k (.cons a b c'' p m d r) else z) (Nat.div c' c)) x

/-- All prime factors of `c` are primes of nonnegative quantities. -/
def nnOnly (c : Nat) : Bool :=
  kif Nat.beq c 1 then true else Nat.beq (Nat.mod (Nat.pow 9699690 (Nat.succ (Nat.log2 c))) c) 0

/-- The pieces of a power, `k A A' B B' C C'`: the polynomial is to be divided by `A/B*C`, and
`A', B', C'` are the `n/m`-th powers of `A, B, C`. Untrusted. -/
def rootPieces {β : Type} (U n m : Nat) (x : Poly) (k : TmK β) : β :=
  kif Nat.ble 200 m then k 1 1 1 1 1 1 else
  kif Nat.ble 2000 n then k 1 1 1 1 1 1 else
  Poly.rec (k 1 1 1 1 1 1) (fun a b c p mm d tl _ =>
    absorb U (Nat.add p mm) (gcdA tl a) fun a1 =>
    absorb U d (lcmB tl b) fun b1 =>
    (fun g => rootGo n m posPrimes (fun x y =>
      rootGo n m posPrimes (fun u v =>
        (fun gc =>
          kif Nat.beq (Nat.gcd gc 9699690) 1 then k x y u v 1 1
          else rootGo n m nnPrimes (fun w z => k x y u v w z) gc 1 1) (gcdC tl c))
        (Nat.div b1 g) 1 1) (Nat.div a1 g) 1 1) (Nat.gcd a1 b1)) x

/-- Check that `y` is the `n/m`-th power of `x` (both positive). -/
def rootOk (n m x y : Nat) : Bool :=
  kif Nat.beq x 1 then
    kif Nat.beq y 1 then true else false
  else kif Nat.ble 1 x then
    kif Nat.ble 1 y then Nat.beq (Nat.pow y m) (Nat.pow x n) else false
  else false

/-- Finish a power: the factor `a/b*c` times the power of the remaining polynomial `x` (tag `tag`). -/
def powRest (U tag n m : Nat) (x : Poly) (a b c : Nat) (s : St) (k : Poly → St → Bool) : Bool :=
  redT U 40 a b c 1 0 1 fun a b c p mm d =>
    kif isOne x then k (.cons a b c p mm d .nil) s
    else mkAtom tag n m .nil x .nil s fun pr _ s => k (.cons a b (Nat.mul c pr) p mm d .nil) s

/-- Rational power `n/m` (tag 2), `-n/m` (tag 3), or cube root (tag 4, with `n/m = 1/3`). -/
def ratPow (C : Cfg) (tag : Nat) (x : Poly) (n m : Nat) (s : St) (k : Poly → St → Bool) : Bool :=
  kif Nat.ble 1 (Nat.mul n m) then
    rootPieces C.U n m x fun xa xa' xb xb' w w' =>
      kif rootOk n m xa xa' then
        kif rootOk n m xb xb' then
          kif rootOk n m w w' then
            kif nnOnly w then
              kif nnOnly w' then
                divC w false x fun p1 =>
                  (fun p2 =>
                    kif Nat.beq tag 3 then invC w' s fun c => powRest C.U tag n m p2 xb' xa' c s k
                    else powRest C.U tag n m p2 xa' xb' w' s k)
                  (mulTP C.U xb xa 1 1 0 1 p1)
              else false
            else false
          else false
        else false
      else false
  else false

/-- `x ** y`. -/
def powP (C : Cfg) (x y : Poly) (s : St) (k : Poly → St → Bool) : Bool :=
  (fun generic => Poly.rec (k one s) (fun a b c p m d tl _ =>
    Poly.rec
      (kif Nat.beq (Nat.mul a (Nat.mul b c)) 1 then
        kif Nat.beq d 1 then
          kif Nat.beq m 0 then
            kif Nat.ble p 200 then natPow C x p s k else false
          else kif Nat.beq p 0 then
            kif Nat.ble m 200 then natPow C x m s fun r s => invP C.U r s k else false
          else false
        else kif Nat.beq m 0 then ratPow C 2 x p d s k
        else kif Nat.beq p 0 then ratPow C 3 x m d s k
        else false
      else generic)
      (fun _ _ _ _ _ _ _ _ => generic) tl) y)
  (kif isOne x then k one s
    else mkAtom 5 0 0 .nil x y s fun pr _ s => k (ofC pr) s)

/-! ## Comparisons

A truth value is a polynomial `t` with value 0 or 1, together with a flag: `true` for negation.  Constants are `one` with a flag. -/

/-- All coefficients `≥ 0` and all atoms nonnegative. -/
def allNN (x : Poly) : Bool :=
  Poly.rec true (fun _ _ c _ m _ _ ih => kif Nat.beq m 0 then kif nnOnly c then ih else false else false) x

/-- Some term is a positive number times a positive monomial. -/
def somePos (x : Poly) : Bool :=
  Poly.rec false (fun a b c p m d _ ih =>
    kif Nat.beq c 1 then
      kif Nat.beq m 0 then
        kif Nat.ble 1 (Nat.mul (Nat.mul a b) (Nat.mul p d)) then true else ih
      else ih
    else ih) x

/-- Look for an assumed comparison. -/
def findFact (tag : Nat) (x : Poly) (fs : Facts) (k : Bool → Bool) (z : Bool) : Bool :=
  Facts.rec z (fun tag' p v _ ih =>
    kif Nat.beq tag tag' then
      kif polyBeq x p then k v else ih
    else ih) fs

/-- `0 ≤ x`. -/
def mkNN (C : Cfg) (x : Poly) (s : St) (k : Poly → Bool → St → Bool) : Bool :=
  kif allNN x then k one false s
  else (fun y =>
    kif (kif allNN y then somePos y else false) then k one true s
    else splitPos C.U x fun _ _ _ _ rest _ =>
      findFact 0 rest C.facts (fun v => kif v then k one false s else k one true s)
        (mkAtom 9 0 0 .nil rest .nil s fun pr _ s => k (ofC pr) false s)) (negP x)

/-- `x = 0`. -/
def mkIsz (C : Cfg) (x : Poly) (s : St) (k : Poly → Bool → St → Bool) : Bool :=
  kif isNil x then k one false s
  else splitPos C.U x fun _ _ _ _ rest sg =>
    (fun rest =>
      kif (kif allNN rest then somePos rest else false) then k one true s
      else findFact 1 rest C.facts (fun v => kif v then k one false s else k one true s)
        (mkAtom 10 0 0 .nil rest .nil s fun pr _ s => k (ofC pr) false s))
    (kif sg then negP rest else rest)

def notB (b : Bool) : Bool := kif b then false else true

/-- Code of two flags. -/
def flags (a b : Bool) : Nat := kif a then (kif b then 3 else 2) else (kif b then 1 else 0)

/-- Disjunction of ordered operands. -/
def mkOr0 (p : Poly) (a : Bool) (q : Poly) (b : Bool) (s : St) (k : Poly → Bool → St → Bool) : Bool :=
  kif isOne p then (kif a then k q b s else k one false s)
  else kif isOne q then (kif b then k p a s else k one false s)
  else mkAtom 11 (flags a b) 0 .nil p q s fun pr _ s => k (ofC pr) false s

/-- Conjunction of ordered operands. -/
def mkAnd0 (p : Poly) (a : Bool) (q : Poly) (b : Bool) (s : St) (k : Poly → Bool → St → Bool) : Bool :=
  kif isOne p then (kif a then k one true s else k q b s)
  else kif isOne q then (kif b then k one true s else k p a s)
  else mkAtom 12 (flags a b) 0 .nil p q s fun pr _ s => k (ofC pr) false s

/-- Code of the atoms of the first term, to order operands. -/
def firstC (x : Poly) : Nat := Poly.rec 0 (fun _ _ c _ _ _ _ _ => c) x

/-- Disjunction. -/
def mkOr (p : Poly) (a : Bool) (q : Poly) (b : Bool) (s : St) (k : Poly → Bool → St → Bool) : Bool :=
  kif Nat.ble (firstC p) (firstC q) then mkOr0 p a q b s k else mkOr0 q b p a s k

/-- Conjunction. -/
def mkAnd (p : Poly) (a : Bool) (q : Poly) (b : Bool) (s : St) (k : Poly → Bool → St → Bool) : Bool :=
  kif Nat.ble (firstC p) (firstC q) then mkAnd0 p a q b s k else mkAnd0 q b p a s k

/-- `lax_cond`. -/
def mkCond (t : Poly) (a : Bool) (p q : Poly) (s : St) (k : Poly → St → Bool) : Bool :=
  kif isOne t then (kif a then k q s else k p s)
  else kif polyBeq p q then k p s
  else kif a then mkAtom 6 0 0 t q p s fun pr _ s => k (ofC pr) s
  else mkAtom 6 0 0 t p q s fun pr _ s => k (ofC pr) s

/-! ## Functions -/

def mkAbs (C : Cfg) (x : Poly) (s : St) (k : Poly → St → Bool) : Bool :=
  kif allNN x then k x s
  else splitPos C.U x fun a b n d rest sg =>
    (fun rest =>
      kif allNN rest then k (mulTP C.U a b 1 n 0 d rest) s
      else mkAtom 7 7 0 .nil rest .nil s fun pr _ s => k (mulTP C.U a b 1 n 0 d (ofC pr)) s)
    (kif sg then negP rest else rest)

def mkFn1 (C : Cfg) (f : Fn1) (x : Poly) (s : St) (k : Poly → St → Bool) : Bool :=
  (fun c =>
    kif Nat.beq c 0 then (kif isNil x then k .nil s else ratPow C 4 x 1 3 s k)
    else kif Nat.beq c 2 then (kif isNil x then k .nil s else ratPow C 2 x 1 2 s k)
    else kif Nat.beq c 7 then mkAbs C x s k
    else kif (kif Nat.beq c 3 then isNil x else false) then k one s
    else kif (kif Nat.beq c 1 then isOne x else false) then k .nil s
    else mkAtom 7 c 0 .nil x .nil s fun pr _ s => k (ofC pr) s) (fn1Code f)

/-! ## Programs -/

inductive V
  | num (p : Poly)
  | bool (p : Poly) (neg : Bool)
  deriving Inhabited

/-- Normal forms of the inputs and of the scalar fields of `p`, and a rewriting of sums that keeps their value. -/
structure Sub where
  inp : Inp → Option Poly
  fld : Fld → Option Poly
  post : Poly → Poly := fun p => p

/-- Decimal literals. -/
def litP (n : Nat) (e : Int) : Poly :=
  Int.rec (fun e => ofQ (Nat.mul n (Nat.pow 10 e)) 0 1) (fun e => ofQ n 0 (Nat.pow 10 (Nat.succ e))) e

/-- Subtract the multiple of `R` (whose first term is 1) that cancels the given term, if that makes the sum shorter. -/
def relTry (U : Nat) (x R : Poly) (a b c p m d : Nat) (z : Poly) (k : Poly → Poly) : Poly :=
  (fun y => kif Nat.ble (Nat.succ (lenP y)) (lenP x) then k y else z) (addP x (mulTP U a b c m p d R))

/-- Try all terms `t` of `x` and all relations `R0`, `R1`, `R2`. -/
def relStep (U : Nat) (R0 R1 R2 x : Poly) (k : Poly → Poly) (t : Poly) : Poly :=
  Poly.rec x (fun a b c p m d _ ih =>
    relTry U x R0 a b c p m d (relTry U x R1 a b c p m d (relTry U x R2 a b c p m d ih k) k) k) t

/-- Shorten a sum of at most `n` terms with relations `R0 = R1 = R2 = 0`, in at most `f` steps. -/
def relPost (U n : Nat) (R0 R1 R2 : Poly) (f : Nat) : Poly → Poly :=
  Nat.rec (fun x => x) (fun _ ih x =>
    kif Nat.ble (lenP x) 1 then x else kif Nat.ble (lenP x) n then relStep U R0 R1 R2 x ih x else x) f

def asNum (v : V) (k : Poly → Bool) : Bool := V.rec k (fun _ _ => false) v
def asBool (v : V) (k : Poly → Bool → Bool) : Bool := V.rec (fun _ => false) k v

/-- Two numeric operands. -/
def ev2 (a b : St → (V → St → Bool) → Bool) (s : St) (k : Poly → Poly → St → Bool) : Bool :=
  a s fun x s => asNum x fun p => b s fun y s => asNum y fun q => k p q s

def ev (C : Cfg) (S : Sub) (T : Trie V) (e : Expr) : St → (V → St → Bool) → Bool :=
  Expr.rec
    (fun n e s k => k (.num (litP n e)) s)
    (fun s k => k (.num (.cons (Nat.pow 11 C.U) 1 1 1 0 1 .nil)) s)
    (fun i s k => Option.rec false (fun p => k (.num p) s) (S.inp i))
    (fun f s k => Option.rec (mkAtom 0 1 (fldCode f) .nil .nil .nil s fun pr _ s => k (.num (ofC pr)) s) (fun p => k (.num p) s) (S.fld f))
    (fun c s k => mkAtom 0 0 c .nil .nil .nil s fun pr _ s => k (.num (ofC pr)) s)
    (fun n s k => Option.rec false (fun v => k v s) (Trie.get 20 T n))
    (fun _ ih s k => ih s fun x s => asNum x fun p => k (.num (negP p)) s)
    (fun _ _ ia ib s k => ev2 ia ib s fun p q s => k (.num (S.post (addP p q))) s)
    (fun _ _ ia ib s k => ev2 ia ib s fun p q s => k (.num (S.post (addP p (negP q)))) s)
    (fun _ _ ia ib s k => ev2 ia ib s fun p q s => mulP C p q s fun r s => k (.num r) s)
    (fun _ _ ia ib s k => ev2 ia ib s fun p q s => invP C.U q s fun r s => mulP C p r s fun r s => k (.num r) s)
    (fun _ _ ia ib s k => ev2 ia ib s fun p q s => powP C p q s fun r s => k (.num r) s)
    (fun _ _ ia ib s k => ev2 ia ib s fun p q s => mkNN C (S.post (addP q (negP p))) s fun t b s => k (.bool t b) s)
    (fun _ _ ia ib s k => ev2 ia ib s fun p q s => mkNN C (S.post (addP p (negP q))) s fun t b s => k (.bool t (notB b)) s)
    (fun _ _ ia ib s k => ev2 ia ib s fun p q s => mkIsz C (S.post (addP p (negP q))) s fun t b s => k (.bool t b) s)
    (fun _ _ ia ib s k => ia s fun x s => asBool x fun p a => ib s fun y s => asBool y fun q b => mkOr p a q b s fun t b s => k (.bool t b) s)
    (fun _ _ ia ib s k => ia s fun x s => asBool x fun p a => ib s fun y s => asBool y fun q b => mkAnd p a q b s fun t b s => k (.bool t b) s)
    (fun _ _ _ ic ia ib s k => ic s fun z s => asBool z fun t a => ev2 ia ib s fun p q s => mkCond t a p q s fun r s => k (.num r) s)
    (fun f _ ia s k => ia s fun x s => asNum x fun p => mkFn1 C f p s fun r s => k (.num r) s)
    (fun _ _ _ ia ib s k => ev2 ia ib s fun p q s => mkAtom 8 0 0 .nil p q s fun pr _ s => k (.num (ofC pr)) s)
    (fun _ _ _ => false)
    e

def evBody (C : Cfg) (S : Sub) (b : List (Nat × Expr)) : Trie V → St → (Trie V → St → Bool) → Bool :=
  List.rec (fun T s k => k T s) (fun ne _ ih T s k =>
    Prod.rec (fun n e => ev C S T e s fun v s => ih (Trie.set v 20 T n) s k) ne) b

def evProg (C : Cfg) (S : Sub) (P : Prog) (s : St) (k : Poly → St → Bool) : Bool :=
  Prog.rec (fun body res => evBody C S body .leaf s fun T s => ev C S T res s fun v s => asNum v fun r => k r s) P

end

end Verif.Norm
