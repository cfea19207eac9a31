import Verif.Norm.FloatLemmas
/-!
# Rounding errors of formulas

Proof machinery for C61.  `fcheck K` runs through a formula body with the abstract values of `Verif.Norm.Interval` and with bounds of the relative and the absolute error of
each temporary, and succeeds if the relative error of `res` is at most `K u`.
-/
namespace Verif.Norm
open Verif.Py Verif.Model Verif.Spec

noncomputable section

/-- Bounds of the relative error, in units of `u`, and of the absolute error, in units of `u / 2^64`.  Numbers above `2^24` and `2^400` say nothing. -/
structure Er where
  rel : Nat
  abs : Nat

/-- No bound. -/
def big : Nat := 3273390607896141870013189696827599152216642046043064789483291368096133796404674554883270092325904157150886684127560071009217256545885393053328527589376
def noEr : Er := ⟨big, big⟩

def okR (k : Nat) : Bool := Nat.ble k 16777216
def okA (a : Nat) : Bool := Nat.ble a 2582249878086908589655919172003011874329705792829223512830659356540647622016841194629645353280137831435903171972747493376

def minN (a b : Nat) : Nat := kif Nat.ble a b then a else b
def maxN (a b : Nat) : Nat := kif Nat.ble a b then b else a

def bdP (a : Bd) : Nat := Bd.rec 0 (fun n _ => posN n) a
/-- `loMag I / 2^64 ≤ |x|`. -/
def loMag (I : Itv) : Nat := maxN (bdP I.lo) (bdP I.hi)

def Nat.frc {β : Type} (n : Nat) (k : Nat → β) : β := Nat.rec (k 0) (fun m _ => k (Nat.succ m)) n
def Er.force {β : Type} (e : Er) (k : Er → β) : β := Er.rec (fun r a => Nat.frc r fun r => Nat.frc a fun a => k ⟨r, a⟩) e

/-- Either error from the other. -/
def fixE (I : Itv) (e : Er) : Er :=
  ⟨minN e.rel (kif okA e.abs then (fun l => kif Nat.beq l 0 then big else Nat.succ (Nat.div e.abs l)) (loMag I) else big),
    minN e.abs (kif okR e.rel then kif Nat.beq e.rel 0 then 0 else mag I big (fun m => Nat.mul e.rel m) else big)⟩

/-- Rounding. -/
def rndE (I : Itv) (e : Er) : Er :=
  ⟨rnd1 e.rel, kif okA e.abs then mag I big (fun m => Nat.add (Nat.add e.abs m) (Nat.succ (Nat.div e.abs 1125899906842624))) else big⟩

/-- The result of an operation, where `I` is the interval of the exact result and `e` describes the error before rounding. -/
def finE (I : Itv) (e : Er) : Er := (fixE I e).force fun e => (rndE I e).force fun e => (fixE I e).force fun e => e

def getI (a : AV) : Itv := AV.rec top (fun I _ => I) (fun _ _ => top) a

def addE (I J : Itv) (a b : Er) : Er :=
  ⟨kif bor (band (bdNN I.lo) (bdNN J.lo)) (band (bdNN I.hi) (bdNN J.hi)) then maxN a.rel b.rel else big, kif okA a.abs then kif okA b.abs then Nat.add a.abs b.abs else big else big⟩

def mulE (I J : Itv) (a b : Er) : Er :=
  ⟨kif okR a.rel then kif okR b.rel then prodW a.rel b.rel else big else big,
    kif okA a.abs then kif okA b.abs then mag I big fun A => mag J big fun B =>
      Nat.succ (Nat.div (Nat.add (Nat.add (Nat.mul a.abs B) (Nat.mul A b.abs)) (Nat.mul a.abs (Nat.succ (Nat.div b.abs 1125899906842624)))) sc) else big else big⟩

def divE (J Q : Itv) (a b : Er) : Er :=
  ⟨kif okR a.rel then kif okR (Nat.succ b.rel) then prodW a.rel (kif Nat.beq b.rel 0 then 0 else Nat.succ b.rel) else big else big,
    kif okA a.abs then kif okR b.rel then (fun l => kif Nat.beq l 0 then big else mag Q big fun q =>
      Nat.mul 2 (Nat.add (Nat.succ (Nat.div (Nat.mul a.abs sc) l)) (Nat.mul q b.rel))) (loMag J) else big else big⟩

/-- Powers with real exponents. -/
def rpowE (I J : Itv) (a b : Er) : Er :=
  ⟨kif bdPos I.lo then kif okR a.rel then kif okA b.abs then mag J big fun m =>
      Nat.add (Nat.div (Nat.add (Nat.mul m (Nat.succ a.rel)) (Nat.mul 710 b.abs)) sc) 2 else big else big else big, big⟩

/-- Powers with natural exponents. -/
def npowE (I : Itv) (a : Er) (n : Nat) : Er :=
  ⟨kif okR (Nat.mul n a.rel) then kif Nat.beq a.rel 0 then 0 else Nat.succ (Nat.mul n a.rel) else big,
    kif okA a.abs then mag I big fun A =>
      Nat.succ (Nat.div (Nat.mul (Nat.mul n a.abs) (Nat.pow (Nat.add A (Nat.succ (Nat.div a.abs 1125899906842624))) (Nat.sub n 1))) (Nat.pow sc (Nat.sub n 1))) else big⟩

def powE (eb : Expr) (I J : Itv) (a b : Er) : Er :=
  (fun z => litNat eb z fun n => kif Nat.ble n 64 then npowE I a n else z) (rpowE I J a b)

/-- `[-711, 711]` -/
def limI : Itv := ⟨.fin (Int.negOfNat (Nat.mul 711 sc)) false, .fin (Int.negOfNat (Nat.mul 711 sc)) false⟩

def expE (a : Er) : Er :=
  ⟨minN (kif okA a.abs then Nat.add (Nat.div a.abs sc) 2 else big) (kif okR a.rel then Nat.add (Nat.mul 712 a.rel) 2 else big), big⟩

/-- Calls; `Q` is the interval of the result. -/
def fn1E (f : Fn1) (Q : Itv) (a : Er) : Er :=
  Fn1.rec
    /- cbrt -/ (finE Q ⟨a.rel, big⟩)
    /- log -/ (kif okR a.rel then finE (Q.meet limI) ⟨big, Nat.mul (kif Nat.beq a.rel 0 then 0 else Nat.succ a.rel) sc⟩ else noEr)
    /- sqrt -/ (finE Q ⟨a.rel, big⟩)
    /- exp -/ (finE Q (expE a))
    /- arctan, arcsinh -/ (finE Q a) (finE Q a)
    /- arctanh -/ noEr
    /- abs -/ (finE Q a)
    /- tanh, cosh, cos, sin, erf, erfc, i0, lambertw, e1Scaled, erfcx, heaviside -/ noEr noEr noEr noEr noEr noEr noEr noEr noEr noEr noEr f

/-- Errors of an expression. `D` holds those of the temporaries. -/
def erE (C : ACfg) (A : Trie AV) (D : Trie Er) (e : Expr) : Er :=
  Expr.rec
    (fun n e => fixE (getI (alit n e)) ⟨litNat (.num n e) 1 fun n => kif Nat.ble n 9007199254740992 then 0 else 1, big⟩)
    (fixE piI ⟨1, big⟩) (fun _ => ⟨0, 0⟩) (fun _ => ⟨0, 0⟩) (fun _ => ⟨0, 0⟩)
    (fun n => Option.rec noEr (fun b => b) (Trie.get 20 D n))
    (fun _ a => a)
    (fun ea eb a b => finE (getI (aev C A (.add ea eb))) (addE (getI (aev C A ea)) (getI (aev C A eb)) a b))
    (fun ea eb a b => finE (getI (aev C A (.sub ea eb))) (addE (getI (aev C A ea)) (getI (aev C A eb)).neg a b))
    (fun ea eb a b => finE (getI (aev C A (.mul ea eb))) (mulE (getI (aev C A ea)) (getI (aev C A eb)) a b))
    (fun ea eb a b => (fun Q => finE Q (divE (getI (aev C A eb)) Q a b)) (getI (aev C A (.div ea eb))))
    (fun ea eb a b => finE (getI (aev C A (.pow ea eb))) (powE eb (getI (aev C A ea)) (getI (aev C A eb)) a b))
    (fun _ _ _ _ => noEr)
    (fun _ _ _ _ => noEr)
    (fun _ _ _ _ => noEr)
    (fun _ _ _ _ => noEr)
    (fun _ _ _ _ => noEr)
    (fun ec ea eb _ a b => AV.rec noEr (fun _ _ => noEr) (fun t _ => Tri.rec a b (fixE (getI (aev C A (.cond ec ea eb))) ⟨maxN a.rel b.rel, maxN a.abs b.abs⟩) t) (aev C A ec))
    (fun f ea a => fn1E f (getI (aev C A (.call1 f ea))) a)
    (fun _ _ _ _ _ => noEr)
    (fun _ => noEr)
    e

/-- Run through a body; every temporary must be assigned once. -/
def fbody (C : ACfg) (b : List (Nat × Expr)) : Trie AV → Trie Er → (Trie AV → Trie Er → Bool) → Bool :=
  List.rec (fun A D k => k A D) (fun ne _ ih A D k =>
    Prod.rec (fun n e => Option.rec ((aev C A e).force fun v => (erE C A D e).force fun w => ih (Trie.set v 20 A n) (Trie.set w 20 D n) k)
      (fun _ => false) (kif Nat.ble n 500000 then Trie.get 20 A n else some .undef)) ne) b

/-- Is the relative error of `res` at most `K u`? -/
def fcheck (C : ACfg) (p : Prog) (K : Nat) : Bool :=
  Prog.rec (fun body res => fbody C body .leaf .leaf fun A D =>
    band (band (Nat.ble (erE C A D res).rel K) (okR K)) (AV.rec false (fun _ _ => true) (fun _ _ => false) (aev C A res))) p

/-! ## Soundness -/

def ErOk (u : ℝ) (e : Er) (v z : ℝ) : Prop := (okR e.rel = true → RelOk u e.rel v z) ∧ (okA e.abs = true → AbsOk u e.abs v z)

theorem okR_t {k : ℕ} : okR k = true ↔ k ≤ 16777216 := by rw [okR, Nat.ble_eq]
theorem okA_t {k : ℕ} : okA k = true ↔ k ≤ 2582249878086908589655919172003011874329705792829223512830659356540647622016841194629645353280137831435903171972747493376 := by rw [okA, Nat.ble_eq]
theorem okR_big : okR big = false := by decide
theorem okA_big : okA big = false := by decide
theorem minN_eq (a b : ℕ) : minN a b = min a b := by
  rw [minN, kif_ble]; split_ifs <;> omega
theorem maxN_eq (a b : ℕ) : maxN a b = max a b := by
  rw [maxN, kif_ble]; split_ifs <;> omega

theorem noEr_ok {u v z : ℝ} : ErOk u noEr v z := ⟨fun h => (Bool.false_ne_true (okR_big.symm.trans h)).elim, fun h => (Bool.false_ne_true (okA_big.symm.trans h)).elim⟩

theorem frc_eq {β : Type} (n : Nat) (k : Nat → β) : Nat.frc n k = k n := by cases n <;> rfl
theorem Er.force_eq {β : Type} (e : Er) (k : Er → β) : e.force k = k e := by
  obtain ⟨r, a⟩ := e
  change Nat.frc r (fun r => Nat.frc a fun a => k ⟨r, a⟩) = _
  rw [frc_eq, frc_eq]

theorem loMag_ok {I : Itv} {x : ℝ} (h : I.Has x) : (loMag I : ℝ) ≤ |x| * rS := by
  have hr := rS_pos
  have key : ∀ (b : Bd) (y : ℝ), LB b y → |y| = |x| → (bdP b : ℝ) ≤ |x| * rS := by
    intro b y hb e
    cases b with
    | inf => change ((0 : ℕ) : ℝ) ≤ _; push_cast; positivity
    | fin n s =>
      change (posN n : ℝ) ≤ _
      rw [← e]
      refine posN_le ?_ (by positivity)
      have h1 : (n : ℝ) ≤ y * rS := hb.1
      exact h1.trans (mul_le_mul_of_nonneg_right (le_abs_self y) hr.le)
  rw [loMag, maxN_eq]
  rcases le_total (bdP I.lo) (bdP I.hi) with h1 | h1
  · rw [max_eq_right h1]; exact key _ _ h.hi (abs_neg x)
  · rw [max_eq_left h1]; exact key _ _ h.lo rfl

section
variable {u : ℝ} (hu0 : 0 ≤ u) (hu : u ≤ 1 / 2 ^ 50)

include hu0 in
theorem fixE_ok {I : Itv} {e : Er} {v z : ℝ} (hI : I.Has v) (h : ErOk u e v z) : ErOk u (fixE I e) v z := by
  constructor
  · intro hk
    change okR (minN _ _) = true at hk
    change RelOk u (minN _ _) v z
    rw [minN, kif_ble] at hk ⊢
    split_ifs at hk ⊢
    · exact h.1 hk
    · rw [kif_eq] at hk ⊢
      split_ifs at hk ⊢ with ha
      · change okR (kif Nat.beq (loMag I) 0 then big else Nat.succ (Nat.div e.abs (loMag I))) = true at hk
        change RelOk u (kif Nat.beq (loMag I) 0 then big else Nat.succ (Nat.div e.abs (loMag I))) v z
        rw [kif_beq] at hk ⊢
        split_ifs at hk ⊢ with h0
        · rw [okR_big] at hk; cases hk
        · exact (h.2 ha).rel hu0 (loMag_ok hI) (Nat.pos_of_ne_zero h0)
      · rw [okR_big] at hk; cases hk
  · intro hk
    change okA (minN _ _) = true at hk
    change AbsOk u (minN _ _) v z
    rw [minN, kif_ble] at hk ⊢
    split_ifs at hk ⊢
    · exact h.2 hk
    · rw [kif_eq] at hk ⊢
      split_ifs at hk ⊢ with ha
      · rw [kif_beq] at hk ⊢
        split_ifs at hk ⊢ with h0
        · have := h.1 ha
          rw [h0] at this
          rw [this.eq]; exact AbsOk.refl _
        · rcases mag_ok hI big (fun m => Nat.mul e.rel m) with hm | ⟨m, hm, h2⟩
          · rw [hm, okA_big] at hk; cases hk
          · rw [h2]; exact (h.1 ha).abs hu0 hm
      · rw [okA_big] at hk; cases hk

include hu0 hu in
theorem rndE_ok {I : Itv} {e : Er} {v y z : ℝ} (hI : I.Has v) (h : ErOk u e v y) (hz : |z - y| ≤ u * |y|) : ErOk u (rndE I e) v z := by
  constructor
  · intro hk
    change okR (rnd1 e.rel) = true at hk
    have h1 : okR e.rel = true := by
      rw [okR_t] at hk ⊢
      rw [rnd1, kif_beq] at hk
      split_ifs at hk with h0
      · omega
      · change e.rel + 2 ≤ _ at hk; omega
    exact rnd_rel hu0 hu (okR_t.1 h1) (h.1 h1) hz
  · intro hk
    change okA (kif _ then _ else _) = true at hk
    change AbsOk u (kif _ then _ else _) v z
    rw [kif_eq] at hk ⊢
    split_ifs at hk ⊢ with ha
    · rcases mag_ok hI big (fun m => Nat.add (Nat.add e.abs m) (Nat.succ (Nat.div e.abs 1125899906842624))) with hm | ⟨m, hm, h2⟩
      · rw [hm, okA_big] at hk; cases hk
      · rw [h2]
        exact rnd_abs hu0 hu (h.2 ha) hm hz
    · rw [okA_big] at hk; cases hk

include hu0 hu in
theorem finE_ok {I : Itv} {e : Er} {v y z : ℝ} (hI : I.Has v) (h : ErOk u e v y) (hz : |z - y| ≤ u * |y|) : ErOk u (finE I e) v z := by
  rw [finE, Er.force_eq, Er.force_eq, Er.force_eq]
  exact fixE_ok hu0 hI (rndE_ok hu0 hu hI (fixE_ok hu0 hI h) hz)

include hu0 in
theorem addE_ok {I J : Itv} {a b : Er} {x y x' y' : ℝ} (hI : I.Has x) (hJ : J.Has y) (ha : ErOk u a x x') (hb : ErOk u b y y') : ErOk u (addE I J a b) (x + y) (x' + y') := by
  constructor
  · intro hk
    change okR (kif _ then _ else _) = true at hk
    change RelOk u (kif _ then _ else _) _ _
    rw [kif_eq] at hk ⊢
    split_ifs at hk ⊢ with hs
    · rw [maxN_eq] at hk ⊢
      have hk' := okR_t.1 hk
      refine (ha.1 (okR_t.2 (by omega))).add hu0 (hb.1 (okR_t.2 (by omega))) ?_
      rcases bor_t.1 hs with hs | hs <;> obtain ⟨h1, h2⟩ := band_t.1 hs
      · exact .inl ⟨bdNN_ok h1 hI.lo, bdNN_ok h2 hJ.lo⟩
      · have a1 := bdNN_ok h1 hI.hi
        have a2 := bdNN_ok h2 hJ.hi
        exact .inr ⟨by linarith, by linarith⟩
    · rw [okR_big] at hk; cases hk
  · intro hk
    change okA (kif _ then _ else _) = true at hk
    change AbsOk u (kif _ then _ else _) _ _
    rw [kif_eq, kif_eq] at hk ⊢
    split_ifs at hk ⊢ with h1 h2
    · exact (ha.2 h1).add (hb.2 h2)
    · rw [okA_big] at hk; cases hk
    · rw [okA_big] at hk; cases hk

include hu0 hu in
theorem mulE_ok {I J : Itv} {a b : Er} {x y x' y' : ℝ} (hI : I.Has x) (hJ : J.Has y) (ha : ErOk u a x x') (hb : ErOk u b y y') : ErOk u (mulE I J a b) (x * y) (x' * y') := by
  constructor
  · intro hk
    change okR (kif _ then _ else _) = true at hk
    change RelOk u (kif _ then _ else _) _ _
    rw [kif_eq, kif_eq] at hk ⊢
    split_ifs at hk ⊢ with h1 h2
    · exact (ha.1 h1).mul hu0 hu (okR_t.1 h1) (okR_t.1 h2) (hb.1 h2)
    · rw [okR_big] at hk; cases hk
    · rw [okR_big] at hk; cases hk
  · intro hk
    change okA (kif _ then _ else _) = true at hk
    change AbsOk u (kif _ then _ else _) _ _
    rw [kif_eq, kif_eq] at hk ⊢
    split_ifs at hk ⊢ with h1 h2
    · revert hk
      rcases mag_ok hI big (fun A => mag J big fun B =>
        Nat.succ (Nat.div (Nat.add (Nat.add (Nat.mul a.abs B) (Nat.mul A b.abs)) (Nat.mul a.abs (Nat.succ (Nat.div b.abs 1125899906842624)))) sc)) with hm | ⟨m, hm, h3⟩
      · rw [hm, okA_big]; exact fun h => nomatch h
      · rw [h3]
        rcases mag_ok hJ big (fun B =>
          Nat.succ (Nat.div (Nat.add (Nat.add (Nat.mul a.abs B) (Nat.mul m b.abs)) (Nat.mul a.abs (Nat.succ (Nat.div b.abs 1125899906842624)))) sc)) with hm' | ⟨m', hm', h4⟩
        · rw [hm', okA_big]; exact fun h => nomatch h
        · rw [h4]; exact fun _ => (ha.2 h1).mul hu0 hu (hb.2 h2) hm hm'
    · rw [okA_big] at hk; cases hk
    · rw [okA_big] at hk; cases hk

include hu0 hu in
theorem divE_ok {J Q : Itv} {a b : Er} {x y x' y' : ℝ} (hJ : J.Has y) (hQ : Q.Has (x / y)) (ha : ErOk u a x x') (hb : ErOk u b y y') : ErOk u (divE J Q a b) (x / y) (x' / y') := by
  constructor
  · intro hk
    change okR (kif _ then _ else _) = true at hk
    change RelOk u (kif _ then _ else _) _ _
    rw [kif_eq, kif_eq] at hk ⊢
    split_ifs at hk ⊢ with h1 h2
    · have h2' : b.rel + 1 ≤ 16777216 := okR_t.1 h2
      exact (ha.1 h1).div hu0 hu (okR_t.1 h1) h2' (hb.1 (okR_t.2 (by omega)))
    · rw [okR_big] at hk; cases hk
    · rw [okR_big] at hk; cases hk
  · intro hk
    change okA (kif _ then kif _ then (kif Nat.beq (loMag J) 0 then big else mag Q big fun q =>
      Nat.mul 2 (Nat.add (Nat.succ (Nat.div (Nat.mul a.abs sc) (loMag J))) (Nat.mul q b.rel))) else _ else _) = true at hk
    change AbsOk u (kif _ then kif _ then (kif Nat.beq (loMag J) 0 then big else mag Q big fun q =>
      Nat.mul 2 (Nat.add (Nat.succ (Nat.div (Nat.mul a.abs sc) (loMag J))) (Nat.mul q b.rel))) else _ else _) _ _
    rw [kif_eq, kif_eq, kif_beq] at hk ⊢
    split_ifs at hk ⊢ with h1 h2 h3
    · rw [okA_big] at hk; cases hk
    · rcases mag_ok hQ big (fun q => Nat.mul 2 (Nat.add (Nat.succ (Nat.div (Nat.mul a.abs sc) (loMag J))) (Nat.mul q b.rel))) with hm | ⟨m, hm, h4⟩
      · rw [hm, okA_big] at hk; cases hk
      · rw [h4]; exact (ha.2 h1).div hu0 hu (okR_t.1 h2) (hb.1 h2) (loMag_ok hJ) (Nat.pos_of_ne_zero h3) hm
    · rw [okA_big] at hk; cases hk
    · rw [okA_big] at hk; cases hk

include hu0 hu in
theorem rpowE_ok {I J : Itv} {a b : Er} {x y x' y' : ℝ} (hI : I.Has x) (hJ : J.Has y) (ha : ErOk u a x x') (hb : ErOk u b y y') (hx : Normal x') :
    ErOk u (rpowE I J a b) (x ^ y) (x' ^ y') := by
  constructor
  · intro hk
    change okR (kif _ then _ else _) = true at hk
    change RelOk u (kif _ then _ else _) _ _
    rw [kif_eq, kif_eq, kif_eq] at hk ⊢
    split_ifs at hk ⊢ with h1 h2 h3
    · rcases mag_ok hJ big (fun m => Nat.add (Nat.div (Nat.add (Nat.mul m (Nat.succ a.rel)) (Nat.mul 710 b.abs)) sc) 2) with hm | ⟨m, hm, h4⟩
      · rw [hm, okR_big] at hk; cases hk
      · rw [h4] at hk ⊢
        refine (ha.1 h2).rpow hu0 hu (okR_t.1 h2) (bdPos_ok h1 hI.lo) hx (hb.2 h3) hm ?_
        have : (m * (a.rel + 1) + 710 * b.abs) / sc + 2 ≤ 16777216 := okR_t.1 hk
        omega
    all_goals rw [okR_big] at hk; cases hk
  · intro hk
    rw [show (rpowE I J a b).abs = big from rfl, okA_big] at hk; cases hk

include hu0 hu in
theorem npowE_ok {I : Itv} {a : Er} {x x' : ℝ} {n : ℕ} (hI : I.Has x) (ha : ErOk u a x x') (hn : n ≠ 0) : ErOk u (npowE I a n) (x ^ n) (x' ^ n) := by
  constructor
  · intro hk
    change okR (kif _ then _ else _) = true at hk
    change RelOk u (kif _ then _ else _) _ _
    rw [kif_eq] at hk ⊢
    split_ifs at hk ⊢ with h1
    · rw [kif_beq]
      have h1' : n * a.rel ≤ 16777216 := okR_t.1 h1
      have h2 : a.rel ≤ n * a.rel := Nat.le_mul_of_pos_left _ (Nat.pos_of_ne_zero hn)
      exact (ha.1 (okR_t.2 (by omega))).npow hu0 hu h1'
    · rw [okR_big] at hk; cases hk
  · intro hk
    change okA (kif _ then _ else _) = true at hk
    change AbsOk u (kif _ then _ else _) _ _
    rw [kif_eq] at hk ⊢
    split_ifs at hk ⊢ with h1
    · rcases mag_ok hI big (fun A =>
        Nat.succ (Nat.div (Nat.mul (Nat.mul n a.abs) (Nat.pow (Nat.add A (Nat.succ (Nat.div a.abs 1125899906842624))) (Nat.sub n 1))) (Nat.pow sc (Nat.sub n 1)))) with hm | ⟨m, hm, h4⟩
      · rw [hm, okA_big] at hk; cases hk
      · rw [h4]; exact (ha.2 h1).npow hu0 hu hm
    · rw [okA_big] at hk; cases hk

include hu0 hu in
theorem expE_ok {a : Er} {x x' z : ℝ} (ha : ErOk u a x x') (hz : Rnd u (Real.exp x') z) : ErOk u (expE a) (Real.exp x) (Real.exp x') := by
  constructor
  · intro hk
    change okR (minN _ _) = true at hk
    change RelOk u (minN _ _) _ _
    have p1 : okR (kif okA a.abs then Nat.add (Nat.div a.abs sc) 2 else big) = true → RelOk u (kif okA a.abs then Nat.add (Nat.div a.abs sc) 2 else big) (Real.exp x) (Real.exp x') := by
      rw [kif_eq]
      split_ifs with h1
      · intro hk
        have : a.abs / sc + 2 ≤ 16777216 := okR_t.1 hk
        exact RelOk.exp hu0 hu (ha.2 h1) (by omega)
      · intro hk
        rw [okR_big] at hk; cases hk
    have p2 : okR (kif okR a.rel then Nat.add (Nat.mul 712 a.rel) 2 else big) = true → RelOk u (kif okR a.rel then Nat.add (Nat.mul 712 a.rel) 2 else big) (Real.exp x) (Real.exp x') := by
      rw [kif_eq]
      split_ifs with h2
      · intro hk
        have hk' : 712 * a.rel + 2 ≤ 16777216 := okR_t.1 hk
        have e : 712 * a.rel * sc / sc = 712 * a.rel := Nat.mul_div_cancel _ (by unfold sc; norm_num)
        have := RelOk.exp hu0 hu (RelOk.exp' hu0 hu (okR_t.1 h2) (ha.1 h2) hz) (by omega)
        rw [e] at this
        exact this
      · intro hk
        rw [okR_big] at hk; cases hk
    rw [minN, kif_ble] at hk ⊢
    split_ifs at hk ⊢
    · exact p1 hk
    · exact p2 hk
  · intro hk
    rw [show (expE a).abs = big from rfl, okA_big] at hk; cases hk

theorem relOnly {a : Er} {v z v' z' : ℝ} (ha : ErOk u a v z) (h : okR a.rel = true → RelOk u a.rel v z → RelOk u a.rel v' z') : ErOk u ⟨a.rel, big⟩ v' z' :=
  ⟨fun hk => h hk (ha.1 hk), fun hk => (Bool.false_ne_true (okA_big.symm.trans hk)).elim⟩

theorem lip_abs (a b : ℝ) : |(|a|) - (|b|)| ≤ |a - b| := abs_abs_sub_abs_le a b

include hu0 hu in
theorem fn1E_ok (P : Prims) {f : Fn1} {Q : Itv} {a : Er} {x x' z : ℝ} (hQ : Q.Has (fn1Val P f x)) (ha : ErOk u a x x') (hd : dom1 f x) (hx : Normal x') (hz : Rnd u (fn1Val P f x') z) :
    ErOk u (fn1E f Q a) (fn1Val P f x) z := by
  cases f with
  | cbrt => exact finE_ok hu0 hu hQ (relOnly ha fun hk h => h.cbrt hu0 hu (okR_t.1 hk)) hz.1
  | sqrt => exact finE_ok hu0 hu hQ (relOnly ha fun hk h => h.sqrt hu0 hu (okR_t.1 hk) hd) hz.1
  | exp => exact finE_ok hu0 hu hQ (expE_ok hu0 hu ha hz) hz.1
  | log =>
    change ErOk u (kif _ then _ else _) _ _
    rw [kif_eq]
    split_ifs with h1
    · have hd' : 0 < x := hd
      obtain ⟨hp, hl⟩ := (ha.1 h1).log_sub hu0 hu (okR_t.1 h1) hd'
      have hn := normal_log hx hp
      have hw : ((kif Nat.beq a.rel 0 then 0 else Nat.succ a.rel : ℕ) : ℝ) * u ≤ 1 := by
        have : (kif Nat.beq a.rel 0 then 0 else Nat.succ a.rel : ℕ) ≤ 16777217 := by
          have := okR_t.1 h1
          rw [kif_beq]; split_ifs
          · omega
          · change a.rel + 1 ≤ _; omega
        have : ((kif Nat.beq a.rel 0 then 0 else Nat.succ a.rel : ℕ) : ℝ) ≤ 16777217 := by exact_mod_cast this
        calc _ ≤ (16777217 : ℝ) * (1 / 2 ^ 50) := by gcongr
          _ ≤ 1 := by norm_num
      have hlim : limI.Has (Real.log x) := by
        have b1 : |Real.log x| ≤ 711 := by
          calc |Real.log x| = |Real.log x' - (Real.log x' - Real.log x)| := by ring_nf
            _ ≤ |Real.log x'| + |Real.log x' - Real.log x| := abs_sub _ _
            _ ≤ 711 := by linarith
        obtain ⟨b2, b3⟩ := abs_le.1 b1
        have hr := rS_pos
        have e : ((Nat.mul 711 sc : ℕ) : ℝ) = 711 * rS := by rw [rS]; change ((711 * sc : ℕ) : ℝ) = _; push_cast; ring
        refine ⟨?_, ?_⟩
        · have := LB.negOfNat (k := Nat.mul 711 sc) (s := false) (x := -Real.log x) (by rw [e]; nlinarith) (fun h => nomatch h)
          rwa [neg_neg] at this
        · exact LB.negOfNat (k := Nat.mul 711 sc) (s := false) (x := Real.log x) (by rw [e]; nlinarith) (fun h => nomatch h)
      refine finE_ok hu0 hu (hQ.meet hlim) (y := Real.log x') ⟨fun hk => (Bool.false_ne_true (okR_big.symm.trans hk)).elim, fun _ => ?_⟩ hz.1
      change |Real.log x' - Real.log x| * rS ≤ ((_ * sc : ℕ) : ℝ) * u
      have hr := rS_pos
      rw [Nat.cast_mul]
      calc |Real.log x' - Real.log x| * rS ≤ ((kif Nat.beq a.rel 0 then 0 else Nat.succ a.rel : ℕ) : ℝ) * u * rS := by gcongr
        _ = _ := by rw [rS]; ring
    · exact noEr_ok
  | arctan =>
    exact finE_ok hu0 hu hQ ⟨fun hk => (ha.1 hk).concave Real.arctan_neg arctan_concave (fun x hx => by rw [← Real.arctan_zero]; exact Real.arctan_strictMono.monotone hx)
      Real.arctan_strictMono.monotone hu0 hu (okR_t.1 hk), fun hk => (ha.2 hk).lip arctan_lip⟩ hz.1
  | arcsinh =>
    exact finE_ok hu0 hu hQ ⟨fun hk => (ha.1 hk).concave Real.arsinh_neg arsinh_concave (fun x hx => Real.arsinh_nonneg_iff.2 hx)
      Real.arsinh_strictMono.monotone hu0 hu (okR_t.1 hk), fun hk => (ha.2 hk).lip arsinh_lip⟩ hz.1
  | abs =>
    exact finE_ok hu0 hu hQ ⟨fun hk => by
      have := ha.1 hk
      have h1 : |x' - x| ≤ _ := this
      change |(|x'|) - (|x|)| ≤ _ * _ * |(|x|)|
      rw [abs_abs]
      exact (abs_abs_sub_abs_le _ _).trans h1, fun hk => (ha.2 hk).lip lip_abs⟩ hz.1
  | _ => exact noEr_ok

end

theorem getI_ok {P : Prims} {E : Env} {V : Vars} {T : Nat → Option Val} {a : AV} {v : ℝ} (h : AVOk P E V T a (some (.num v))) : (getI a).Has v := by
  cases a with
  | undef => exact has_top v
  | bool _ _ => exact has_top v
  | num I t =>
    obtain ⟨x, e1, e2, -⟩ := h
    cases e1
    exact e2

/-- What is known of the temporaries of a floating-point evaluation. -/
def FltOk (u : ℝ) (A : Trie AV) (D : Trie Er) (S F : Nat → Option Val) : Prop :=
  (∀ n z, F n = some (.num z) → Normal z) ∧
    ∀ n e, Trie.get 20 D n = some e → Trie.get 20 A n ≠ none ∧ ∀ v z, S n = some (.num v) → F n = some (.num z) → ErOk u e v z

section
variable {P : Prims} {E : Env} {V : Vars} {C : ACfg} (G : Good C E V) {A : Trie AV} {D : Trie Er} {S F : Nat → Option Val} {u : ℝ} (hu0 : 0 ≤ u) (hu : u ≤ 1 / 2 ^ 50)
  (hT : TrieOk P E V A S) (hD : FltOk u A D S F)

theorem normal_neg {x : ℝ} (h : Normal x) : Normal (-x) := by
  rcases h with h | h
  · exact .inl (by rw [h, neg_zero])
  · exact .inr (by rw [abs_neg]; exact h)

theorem snum2 {a b : Expr} {f : ℝ → ℝ → Option Val} {v : Val} (h : (do let x ← sNum (seval P E S a); let y ← sNum (seval P E S b); f x y) = some v) :
    ∃ x y, seval P E S a = some (.num x) ∧ seval P E S b = some (.num y) ∧ f x y = some v := by
  obtain ⟨x, hx, h⟩ := obind h
  obtain ⟨y, hy, h⟩ := obind h
  exact ⟨x, y, sNum_some hx, sNum_some hy, h⟩

include G hu0 hu hT hD in
theorem erE_ok (e : Expr) : ∀ v z, seval P E S e = some (.num v) → fl u P E S F e (.num z) → Normal z ∧ ErOk u (erE C A D e) v z := by
  have itv : ∀ {e v}, seval P E S e = some (.num v) → (getI (aev C A e)).Has v := fun {e v} h => getI_ok (P := P) (E := E) (V := V) (T := S) (h ▸ aev_ok (P := P) G hT e)
  induction e with
  | num n e =>
    rintro v z hv ⟨z', h1, h2, h3⟩
    cases h1
    simp only [seval, Option.some.injEq, Val.num.injEq] at hv
    refine ⟨h2.2, fixE_ok hu0 ?_ ?_⟩
    · rw [← hv]; exact getI_ok (P := P) (E := E) (V := V) (T := S) (alit_ok n e)
    · refine ⟨fun _ => ?_, fun hk => (Bool.false_ne_true (okA_big.symm.trans hk)).elim⟩
      have one : RelOk u 1 v z := by
        have := h2.1
        rw [hv] at this
        simpa [RelOk] using this
      have zero : ∀ k : ℕ, v = k → RelOk u (kif Nat.ble k 9007199254740992 then 0 else 1) v z := fun k hk => by
        rw [kif_ble]
        split_ifs with h
        · have : z = v := by rw [← hv]; exact h3 ⟨k, by norm_num; exact h, by rw [hv, hk]⟩
          rw [this]; exact RelOk.refl _
        · exact one
      cases e with
      | ofNat e =>
        refine zero _ (hv.symm.trans ?_)
        rw [Int.ofNat_eq_natCast, zpow_natCast]
        show _ = ((n * 10 ^ e : ℕ) : ℝ)
        push_cast; rfl
      | negSucc e =>
        change RelOk u (kif Nat.beq (Nat.mod n (10 ^ (e + 1))) 0 then (kif Nat.ble (Nat.div n (10 ^ (e + 1))) 9007199254740992 then 0 else 1) else 1) v z
        rw [kif_beq]
        split_ifs with h
        · refine zero _ (hv.symm.trans ?_)
          have h1 : n / 10 ^ (e + 1) * 10 ^ (e + 1) = n := Nat.div_mul_cancel (Nat.dvd_of_mod_eq_zero h)
          have h2 : ((n / 10 ^ (e + 1) : ℕ) : ℝ) * (10 : ℝ) ^ (e + 1) = n := by exact_mod_cast h1
          show _ = ((n / 10 ^ (e + 1) : ℕ) : ℝ)
          rw [zpow_negSucc, ← h2, mul_assoc, mul_inv_cancel₀ (by positivity), mul_one]
        · exact one
  | pi =>
    rintro v z hv ⟨z', h1, h2⟩
    cases h1
    simp only [seval, Option.some.injEq, Val.num.injEq] at hv
    subst hv
    refine ⟨h2.2, fixE_ok hu0 piI_ok ⟨fun _ => ?_, fun hk => (Bool.false_ne_true (okA_big.symm.trans hk)).elim⟩⟩
    simpa [RelOk] using h2.1
  | inp i =>
    rintro v z hv ⟨x, h1, h2, h3⟩
    cases h3
    simp only [seval, h1, Option.some.injEq, Val.num.injEq] at hv
    subst hv
    exact ⟨h2, fun _ => RelOk.refl _, fun _ => AbsOk.refl _⟩
  | fld f =>
    rintro v z hv ⟨h1, h2⟩
    cases h2
    simp only [seval, Option.some.injEq, Val.num.injEq] at hv
    subst hv
    exact ⟨h1, fun _ => RelOk.refl _, fun _ => AbsOk.refl _⟩
  | param c =>
    rintro v z hv ⟨h1, h2⟩
    cases h2
    simp only [seval, Option.some.injEq, Val.num.injEq] at hv
    subst hv
    exact ⟨h1, fun _ => RelOk.refl _, fun _ => AbsOk.refl _⟩
  | tmp n =>
    intro v z hv hz
    have hz' : F n = some (.num z) := hz
    have hv' : S n = some (.num v) := hv
    refine ⟨hD.1 n z hz', ?_⟩
    change ErOk u (Option.rec noEr (fun b => b) (Trie.get 20 D n)) v z
    cases hg : Trie.get 20 D n with
    | none => exact noEr_ok
    | some e => exact (hD.2 n e hg).2 v z hv' hz'
  | neg a ih =>
    rintro v z hv ⟨x, h1, h2⟩
    cases h2
    obtain ⟨y, hy, e⟩ := obind hv
    cases e
    obtain ⟨h3, h4⟩ := ih y x (sNum_some hy) h1
    exact ⟨normal_neg h3, fun hk => (h4.1 hk).neg, fun hk => (h4.2 hk).neg⟩
  | add a b iha ihb =>
    rintro v z hv ⟨x', y', z', h1, h2, h3, h4⟩
    cases h4
    have hv0 := hv
    obtain ⟨x, y, hx, hy, e⟩ := snum2 hv
    cases e
    obtain ⟨-, e1⟩ := iha x x' hx h1
    obtain ⟨-, e2⟩ := ihb y y' hy h2
    exact ⟨h3.2, finE_ok hu0 hu (itv hv0) (addE_ok hu0 (itv hx) (itv hy) e1 e2) h3.1⟩
  | sub a b iha ihb =>
    rintro v z hv ⟨x', y', z', h1, h2, h3, h4⟩
    cases h4
    have hv0 := hv
    obtain ⟨x, y, hx, hy, e⟩ := snum2 hv
    cases e
    obtain ⟨-, e1⟩ := iha x x' hx h1
    obtain ⟨-, e2⟩ := ihb y y' hy h2
    have e3 : ErOk u (erE C A D b) (-y) (-y') := ⟨fun hk => (e2.1 hk).neg, fun hk => (e2.2 hk).neg⟩
    have := addE_ok hu0 (itv hx) (itv hy).neg e1 e3
    rw [← sub_eq_add_neg, ← sub_eq_add_neg] at this
    exact ⟨h3.2, finE_ok hu0 hu (itv hv0) this h3.1⟩
  | mul a b iha ihb =>
    rintro v z hv ⟨x', y', z', h1, h2, h3, h4⟩
    cases h4
    have hv0 := hv
    obtain ⟨x, y, hx, hy, e⟩ := snum2 hv
    cases e
    obtain ⟨-, e1⟩ := iha x x' hx h1
    obtain ⟨-, e2⟩ := ihb y y' hy h2
    exact ⟨h3.2, finE_ok hu0 hu (itv hv0) (mulE_ok hu0 hu (itv hx) (itv hy) e1 e2) h3.1⟩
  | div a b iha ihb =>
    rintro v z hv ⟨x', y', z', h1, h2, -, h3, h4⟩
    cases h4
    have hv0 := hv
    obtain ⟨x, y, hx, hy, e⟩ := snum2 hv
    split_ifs at e with h0
    cases e
    obtain ⟨-, e1⟩ := iha x x' hx h1
    obtain ⟨-, e2⟩ := ihb y y' hy h2
    exact ⟨h3.2, finE_ok hu0 hu (itv hv0) (divE_ok hu0 hu (itv hy) (itv hv0) e1 e2) h3.1⟩
  | pow a b iha ihb =>
    rintro v z hv ⟨x', y', z', h1, h2, -, h3, h4⟩
    cases h4
    have hv0 := hv
    obtain ⟨x, y, hx, hy, e⟩ := snum2 hv
    split_ifs at e with h0
    cases e
    obtain ⟨n1, e1⟩ := iha x x' hx h1
    obtain ⟨-, e2⟩ := ihb y y' hy h2
    refine ⟨h3.2, finE_ok hu0 hu (itv hv0) ?_ h3.1⟩
    have real := rpowE_ok hu0 hu (itv hx) (itv hy) e1 e2 n1
    have nat : ∀ n : ℕ, y = n → (n ≤ 64 → y' = n) → ErOk u (kif Nat.ble n 64 then npowE (getI (aev C A a)) (erE C A D a) n else
        rpowE (getI (aev C A a)) (getI (aev C A b)) (erE C A D a) (erE C A D b)) (x ^ y) (x' ^ y') := by
      intro n hn hn'
      rw [kif_ble]
      split_ifs with h64
      · rw [hn, hn' h64, Real.rpow_natCast, Real.rpow_natCast]
        by_cases h0 : n = 0
        · subst h0
          rw [pow_zero, pow_zero]
          exact ⟨fun _ => (RelOk.refl 1).mono hu0 (Nat.zero_le _), fun _ => (AbsOk.refl 1).mono hu0 (Nat.zero_le _)⟩
        · exact npowE_ok hu0 hu (itv hx) e1 h0
      · exact real
    have key : ∀ n : ℕ, y = n → (n ≤ 64 → fl u P E S F b (.num y') → y' = n) → _ := fun n hn h => nat n hn fun h6 => h h6 h2
    cases b with
    | num m e =>
      simp only [seval, Option.some.injEq, Val.num.injEq] at hy
      have ex : ∀ n : ℕ, y = n → n ≤ 64 → fl u P E S F (.num m e) (.num y') → y' = n := by
        rintro n hn h6 ⟨w, f1, f2, f3⟩
        cases f1
        rw [← hn, ← hy]
        exact f3 ⟨n, by omega, by rw [hy, hn]⟩
      cases e with
      | ofNat e =>
        have : y = ((m * 10 ^ e : ℕ) : ℝ) := by
          rw [← hy, Int.ofNat_eq_natCast, zpow_natCast]; push_cast; rfl
        exact key _ this (ex _ this)
      | negSucc e =>
        change ErOk u (kif Nat.beq (Nat.mod m (10 ^ (e + 1))) 0 then (kif Nat.ble (Nat.div m (10 ^ (e + 1))) 64 then _ else _) else _) _ _
        rw [kif_beq]
        split_ifs with h
        · have : y = ((m / 10 ^ (e + 1) : ℕ) : ℝ) := by
            have h1 : m / 10 ^ (e + 1) * 10 ^ (e + 1) = m := Nat.div_mul_cancel (Nat.dvd_of_mod_eq_zero h)
            have h2 : ((m / 10 ^ (e + 1) : ℕ) : ℝ) * (10 : ℝ) ^ (e + 1) = m := by exact_mod_cast h1
            rw [← hy, zpow_negSucc, ← h2, mul_assoc, mul_inv_cancel₀ (by positivity), mul_one]
          exact key _ this (ex _ this)
        · exact real
    | _ => exact real
  | le a b => rintro v z hv ⟨_, _, _, _, h⟩; cases h
  | lt a b => rintro v z hv ⟨_, _, _, _, h⟩; cases h
  | eq a b => rintro v z hv ⟨_, _, _, _, h⟩; cases h
  | lor a b => rintro v z hv ⟨_, _, _, _, h⟩; cases h
  | land a b => rintro v z hv ⟨_, _, _, _, h⟩; cases h
  | cond c a b ihc iha ihb =>
    rintro v z hv ⟨p, q, h1, h2, h3, h4⟩
    have hv0 := hv
    have ho := aev_ok (P := P) G hT c
    rw [h2] at ho
    obtain ⟨q', hq, hv⟩ := obind hv
    rw [h2] at hq
    cases hq
    have ra : ¬q ∨ Normal z ∧ ErOk u (erE C A D a) v z := by
      by_cases hq : q
      · right
        rw [if_pos hq] at hv
        obtain ⟨y, hy, e⟩ := obind hv
        cases e
        rcases h4 with ⟨_, h⟩ | ⟨h, _⟩
        · exact iha _ z (sNum_some hy) h
        · exact absurd (h3.2 hq) h
      · exact .inl hq
    have rb : q ∨ Normal z ∧ ErOk u (erE C A D b) v z := by
      by_cases hq : q
      · exact .inl hq
      · right
        rw [if_neg hq] at hv
        obtain ⟨y, hy, e⟩ := obind hv
        cases e
        rcases h4 with ⟨h, _⟩ | ⟨_, h⟩
        · exact absurd (h3.1 h) hq
        · exact ihb _ z (sNum_some hy) h
    have hn : Normal z := by
      by_cases hq : q
      · exact (ra.resolve_left (not_not.2 hq)).1
      · exact (rb.resolve_left hq).1
    refine ⟨hn, ?_⟩
    change ErOk u (AV.rec noEr (fun _ _ => noEr) (fun t _ => Tri.rec (erE C A D a) (erE C A D b)
      (fixE (getI (aev C A (.cond c a b))) ⟨maxN (erE C A D a).rel (erE C A D b).rel, maxN (erE C A D a).abs (erE C A D b).abs⟩) t) (aev C A c)) v z
    revert ho
    cases aev C A c with
    | undef => exact fun _ => noEr_ok
    | num _ _ => exact fun _ => noEr_ok
    | bool t f =>
      rintro ⟨b', e1, e2, -⟩
      cases e1
      cases t with
      | tt => exact (ra.resolve_left (not_not.2 e2)).2
      | ff => exact (rb.resolve_left e2).2
      | unk =>
        refine fixE_ok hu0 (itv hv0) ⟨fun hk => ?_, fun hk => ?_⟩
        · change okR (maxN _ _) = true at hk
          change RelOk u (maxN _ _) _ _
          rw [maxN_eq] at hk ⊢
          have hk' := okR_t.1 hk
          by_cases hq : q
          · exact ((ra.resolve_left (not_not.2 hq)).2.1 (okR_t.2 (by omega))).mono hu0 (le_max_left _ _)
          · exact ((rb.resolve_left hq).2.1 (okR_t.2 (by omega))).mono hu0 (le_max_right _ _)
        · change okA (maxN _ _) = true at hk
          change AbsOk u (maxN _ _) _ _
          rw [maxN_eq] at hk ⊢
          have hk' := okA_t.1 hk
          by_cases hq : q
          · exact ((ra.resolve_left (not_not.2 hq)).2.2 (okA_t.2 (by omega))).mono hu0 (le_max_left _ _)
          · exact ((rb.resolve_left hq).2.2 (okA_t.2 (by omega))).mono hu0 (le_max_right _ _)
  | call1 f a ih =>
    rintro v z hv ⟨x', z', h1, -, h3, h4⟩
    cases h4
    have hv0 := hv
    obtain ⟨x, hx, e⟩ := obind hv
    split_ifs at e with h0
    cases e
    obtain ⟨n1, e1⟩ := ih x x' (sNum_some hx) h1
    exact ⟨h3.2, fn1E_ok hu0 hu P (itv hv0) e1 h0 n1 h3⟩
  | call2 f a b iha ihb =>
    rintro v z hv ⟨_, _, _, _, _, h3, h4⟩
    cases h4
    exact ⟨h3.2, noEr_ok⟩
  | undef c => exact fun v z hv h => nomatch h

end

theorem fl_normal {P : Prims} {E : Env} {S F : Nat → Option Val} {u : ℝ} (hF : ∀ n z, F n = some (.num z) → Normal z) (e : Expr) : ∀ z, fl u P E S F e (.num z) → Normal z := by
  induction e with
  | num n e => rintro z ⟨z', h1, h2, -⟩; cases h1; exact h2.2
  | pi => rintro z ⟨z', h1, h2⟩; cases h1; exact h2.2
  | inp i => rintro z ⟨z', -, h1, h2⟩; cases h2; exact h1
  | fld f => rintro z ⟨h1, h2⟩; cases h2; exact h1
  | param f => rintro z ⟨h1, h2⟩; cases h2; exact h1
  | tmp n => exact fun z h => hF n z h
  | neg a ih => rintro z ⟨x, h1, h2⟩; cases h2; exact normal_neg (ih _ h1)
  | add a b => rintro z ⟨_, _, _, _, _, h1, h2⟩; cases h2; exact h1.2
  | sub a b => rintro z ⟨_, _, _, _, _, h1, h2⟩; cases h2; exact h1.2
  | mul a b => rintro z ⟨_, _, _, _, _, h1, h2⟩; cases h2; exact h1.2
  | div a b => rintro z ⟨_, _, _, _, _, _, h1, h2⟩; cases h2; exact h1.2
  | pow a b => rintro z ⟨_, _, _, _, _, _, h1, h2⟩; cases h2; exact h1.2
  | le a b => rintro z ⟨_, _, _, _, h⟩; cases h
  | lt a b => rintro z ⟨_, _, _, _, h⟩; cases h
  | eq a b => rintro z ⟨_, _, _, _, h⟩; cases h
  | lor a b => rintro z ⟨_, _, _, _, h⟩; cases h
  | land a b => rintro z ⟨_, _, _, _, h⟩; cases h
  | cond c a b _ iha ihb =>
    rintro z ⟨_, _, _, _, _, ⟨_, h⟩ | ⟨_, h⟩⟩
    · exact iha z h
    · exact ihb z h
  | call1 f a => rintro z ⟨_, _, _, _, h1, h2⟩; cases h2; exact h1.2
  | call2 f a b => rintro z ⟨_, _, _, _, _, h1, h2⟩; cases h2; exact h1.2
  | undef c => exact fun z h => nomatch h

theorem fbody_ok {P : Prims} {E : Env} {V : Vars} {C : ACfg} (G : Good C E V) {u : ℝ} (hu0 : 0 ≤ u) (hu : u ≤ 1 / 2 ^ 50) (res : Expr) (z : ℝ) (b : List (Nat × Expr)) :
    ∀ (A : Trie AV) (D : Trie Er) (S F : Nat → Option Val) (k : Trie AV → Trie Er → Bool), TrieOk P E V A S → FltOk u A D S F → flRun u P E res z b S F →
      fbody C b A D k = true → ∃ A' D' F', TrieOk P E V A' (sexec P E b S) ∧ FltOk u A' D' (sexec P E b S) F' ∧ fl u P E (sexec P E b S) F' res (.num z) ∧ k A' D' = true := by
  induction b with
  | nil => exact fun A D S F k hT hD hz h => ⟨A, D, F, hT, hD, hz, h⟩
  | cons ne r ih =>
    obtain ⟨n, e⟩ := ne
    rintro A D S F k hT hD ⟨o, ho, hz⟩ h
    change Option.rec ((aev C A e).force fun v => (erE C A D e).force fun w => fbody C r (Trie.set v 20 A n) (Trie.set w 20 D n) k)
      (fun _ => false) (kif Nat.ble n 500000 then Trie.get 20 A n else some .undef) = true at h
    rw [kif_ble] at h
    split_ifs at h with hn
    cases hg : Trie.get 20 A n with
    | some a => rw [hg] at h; cases h
    | none =>
      rw [hg] at h
      change ((aev C A e).force fun v => (erE C A D e).force fun w => fbody C r (Trie.set v 20 A n) (Trie.set w 20 D n) k) = true at h
      rw [AV.force_eq, Er.force_eq] at h
      have st := trie_step G hT hn hg e
      have nor : ∀ z, o = some (.num z) → Normal z := by
        intro z hz
        exact fl_normal hD.1 e z (ho _ hz)
      refine ih _ _ _ _ k st ⟨?_, ?_⟩ hz h
      · intro m z hm
        by_cases hne : m = n
        · subst hne
          rw [Function.update_self] at hm
          exact nor z hm
        · rw [Function.update_of_ne hne] at hm
          exact hD.1 m z hm
      · intro m x hm
        rcases Trie.get_set _ _ _ _ _ _ hm with ⟨e1, e2⟩ | ⟨e1, e2⟩
        · subst e1
          rw [Function.update_self, Function.update_self]
          refine ⟨by rw [Trie.get_set_self _ 19 _ _ (by omega)]; exact Option.some_ne_none _, fun v z hv hz => ?_⟩
          rw [e2]
          exact (erE_ok G hu0 hu hT hD e v z hv (ho _ hz)).2
        · have hne : m ≠ n := by rintro rfl; exact (hD.2 m x e2).1 hg
          rw [Function.update_of_ne hne, Function.update_of_ne hne]
          exact ⟨fun h => (hD.2 m x e2).1 (Trie.get_set_none _ _ _ _ _ h), (hD.2 m x e2).2⟩

theorem fcheck_ok {P : Prims} {E : Env} {V : Vars} {C : ACfg} (G : Good C E V) {u : ℝ} (hu0 : 0 ≤ u) (hu : u ≤ 1 / 2 ^ 50) {p : Prog} {K : ℕ} (h : fcheck C p K = true) {z : ℝ}
    (hz : FloatRun u P E p z) : ∃ v, srun P E p = some v ∧ |z - v| ≤ K * u * |v| := by
  obtain ⟨body, res⟩ := p
  have h0 : TrieOk P E V .leaf fun _ => none := fun n => by rw [Trie.get_leaf]
  obtain ⟨A, D, F, hA, hD, hf, hr⟩ := fbody_ok (P := P) G hu0 hu res z body .leaf .leaf _ (fun _ => none) _ h0
    ⟨fun n z h => (nomatch h), fun n x h => by rw [Trie.get_leaf] at h; cases h⟩ hz h
  obtain ⟨h1, h2⟩ := band_t.mp hr
  obtain ⟨h1, h3⟩ := band_t.mp h1
  have ha := aev_ok (P := P) G hA res
  revert h2 ha
  cases aev C A res with
  | undef => exact fun h => nomatch h
  | bool _ _ => exact fun h => nomatch h
  | num I t =>
    rintro - ⟨x, hx, -⟩
    have h4 := Nat.ble_eq.mp h1
    have key := (erE_ok G hu0 hu hA hD res x z hx hf).2.1 (okR_t.2 (h4.trans (okR_t.1 h3)))
    refine ⟨x, ?_, key.mono hu0 h4⟩
    unfold srun
    change sNum (seval P E _ res) = _
    rw [hx]
    rfl

theorem acheck_of_fbody {C : ACfg} (b : List (Nat × Expr)) : ∀ (A : Trie AV) (D : Trie Er) (k : Trie AV → Trie Er → Bool) (k' : Trie AV → Bool), (∀ A D, k A D = true → k' A = true) →
      fbody C b A D k = true → abody C b A k' = true := by
    induction b with
    | nil => exact fun A D k k' hk h => hk A D h
    | cons ne r ih =>
      obtain ⟨n, e⟩ := ne
      intro A D k k' hk h
      change Option.rec ((aev C A e).force fun v => (erE C A D e).force fun w => fbody C r (Trie.set v 20 A n) (Trie.set w 20 D n) k)
        (fun _ => false) (kif Nat.ble n 500000 then Trie.get 20 A n else some .undef) = true at h
      change Option.rec ((aev C A e).force fun v => abody C r (Trie.set v 20 A n) k') (fun _ => false)
        (kif Nat.ble n 500000 then Trie.get 20 A n else some .undef) = true
      revert h
      cases (kif Nat.ble n 500000 then Trie.get 20 A n else some .undef) with
      | some a => exact fun h => h
      | none =>
        intro h
        change ((aev C A e).force fun v => (erE C A D e).force fun w => fbody C r (Trie.set v 20 A n) (Trie.set w 20 D n) k) = true at h
        change ((aev C A e).force fun v => abody C r (Trie.set v 20 A n) k') = true
        rw [AV.force_eq, Er.force_eq] at h
        rw [AV.force_eq]
        exact ih _ _ k k' hk h

theorem acheck_of_fcheck {C : ACfg} {p : Prog} {K : ℕ} (h : fcheck C p K = true) : acheck C p = true := by
  obtain ⟨body, res⟩ := p
  exact acheck_of_fbody body .leaf .leaf _ _ (fun A D h => (band_t.mp h).2) h

theorem accurateUnpol_of (a : Assume) {K : ℕ} {fam : Fam} {f : Formula} {par npar flds : List Nat} (hp : a.params.map nameCode = par)
    (hn : a.neg.map nameCode = npar) (hf : a.flds.map fldNo = flds) (h : fcheck (acfg false fam a.sPos a.tPos par npar flds) f.unpolBody K = true) :
    AccurateUnpol K a fam f := by
  intro u P p ρ σ l τ hu0 hu hrec hρ hσ hτ hs ht
  subst hp; subst hn; subst hf
  have G := ugood (fam := fam) (l := l) hrec hρ hσ hτ hs ht
  obtain ⟨v, hv⟩ := acheck_ok (P := P) G (acheck_of_fcheck h)
  refine ⟨v, hv, fun z hz => ?_⟩
  obtain ⟨v', h1, h2⟩ := fcheck_ok (P := P) G hu0 hu h hz
  rw [hv] at h1
  cases h1
  exact h2

theorem accuratePol_of (a : Assume) {K : ℕ} {fam : Fam} {f : Formula} {par npar flds : List Nat} (hp : a.params.map nameCode = par)
    (hn : a.neg.map nameCode = npar) (hf : a.flds.map fldNo = flds) (h : fcheck (acfg true fam a.sPos a.tPos par npar flds) f.polBody K = true) :
    AccuratePol K a fam f := by
  intro u P p r0 r1 s0 s1 s2 l0 l1 t0 t1 hu0 hu hrec h0 h1 hs0 hs2 hst ht0 ht1 hs ht
  subst hp; subst hn; subst hf
  have G := pgood (fam := fam) (l0 := l0) (l1 := l1) hrec h0 h1 hs0 hs2 hst ht0 ht1 hs ht
  obtain ⟨v, hv⟩ := acheck_ok (P := P) G (acheck_of_fcheck h)
  refine ⟨v, hv, fun z hz => ?_⟩
  obtain ⟨v', h1, h2⟩ := fcheck_ok (P := P) G hu0 hu h hz
  rw [hv] at h1
  cases h1
  exact h2

/-! ## Bounded inputs -/

/-- Is the relative or the absolute error of `res` at most `K u`? -/
def fcheckB (rel : Bool) (C : ACfg) (p : Prog) (K : Nat) : Bool :=
  Prog.rec (fun body res => fbody C body .leaf .leaf fun A D =>
    band (kif rel then band (Nat.ble (erE C A D res).rel K) (okR K) else band (Nat.ble (erE C A D res).abs (Nat.mul K sc)) (okA (Nat.mul K sc)))
      (AV.rec false (fun _ _ => true) (fun _ _ => false) (aev C A res))) p

theorem fcheckB_ok {rel : Bool} {P : Prims} {E : Env} {V : Vars} {C : ACfg} (G : Good C E V) {u : ℝ} (hu0 : 0 ≤ u) (hu : u ≤ 1 / 2 ^ 50) {p : Prog} {K : ℕ} (h : fcheckB rel C p K = true)
    {z : ℝ} (hz : FloatRun u P E p z) : ∃ v, srun P E p = some v ∧ Close rel K u v z := by
  obtain ⟨body, res⟩ := p
  have h0 : TrieOk P E V .leaf fun _ => none := fun n => by rw [Trie.get_leaf]
  obtain ⟨A, D, F, hA, hD, hf, hr⟩ := fbody_ok (P := P) G hu0 hu res z body .leaf .leaf _ (fun _ => none) _ h0
    ⟨fun n z h => (nomatch h), fun n x h => by rw [Trie.get_leaf] at h; cases h⟩ hz h
  obtain ⟨h1, h2⟩ := band_t.mp hr
  have ha := aev_ok (P := P) G hA res
  revert h2 ha
  cases aev C A res with
  | undef => exact fun h => nomatch h
  | bool _ _ => exact fun h => nomatch h
  | num I t =>
    rintro - ⟨x, hx, -⟩
    have key := (erE_ok G hu0 hu hA hD res x z hx hf).2
    refine ⟨x, ?_, ?_⟩
    · unfold srun
      change sNum (seval P E _ res) = _
      rw [hx]
      rfl
    · cases rel with
      | true =>
        obtain ⟨h1, h3⟩ := band_t.mp h1
        have h4 := Nat.ble_eq.mp h1
        have := (key.1 (okR_t.2 (h4.trans (okR_t.1 h3)))).mono hu0 h4
        have h5 : |z - x| ≤ K * u * |x| := this
        simpa [Close] using h5
      | false =>
        obtain ⟨h1, h3⟩ := band_t.mp h1
        have h4 := Nat.ble_eq.mp h1
        have := (key.2 (okA_t.2 (h4.trans (okA_t.1 h3)))).mono hu0 h4
        have h5 : |z - x| * rS ≤ ((K * sc : ℕ) : ℝ) * u := this
        have hr := rS_pos
        have h6 : |z - x| * rS ≤ K * u * rS := by
          refine h5.trans (le_of_eq ?_)
          rw [rS]; push_cast; ring
        simpa [Close] using le_of_mul_le_mul_right h6 hr

theorem acheck_of_fcheckB {rel : Bool} {C : ACfg} {p : Prog} {K : ℕ} (h : fcheckB rel C p K = true) : acheck C p = true := by
  obtain ⟨body, res⟩ := p
  exact acheck_of_fbody body .leaf .leaf _ _ (fun A D h => (band_t.mp h).2) h

/-- `[2^-k, 2^k]`, `[0, 2^k]`, `[-2^k, 2^k]` -/
def boxI (k : Nat) : Itv := Itv.ofNat (Nat.pow 2 (Nat.sub 64 k)) (Nat.pow 2 (Nat.add 64 k))
def nnBoxI (k : Nat) : Itv := Itv.ofNat 0 (Nat.pow 2 (Nat.add 64 k))
def symBoxI (k : Nat) : Itv := (fun q => ⟨.fin (Int.negOfNat q) false, .fin (Int.negOfNat q) false⟩) (Nat.pow 2 (Nat.add 64 k))
/-- A bound of the polarization, times `2^64`. -/
def zBox (k : Nat) : Nat := (fun q => Nat.succ (Nat.div (Nat.mul (Nat.sub q 1) sc) (Nat.succ q))) (Nat.pow 2 (Nat.mul 2 k))

/-- The configuration of a claim about bounded inputs. -/
def bcfg (k q : Nat) (pol : Bool) (fam : Fam) (sp tp : Bool) (par npar flds : List Nat) : ACfg where
  pol := pol
  hasS := Fam.rec false true true fam
  hasM := Fam.rec false false true fam
  rI := boxI k
  r1I := boxI k
  zI := (fun q => ⟨.fin (Int.negOfNat q) false, .fin (Int.negOfNat q) false⟩) (zBox k)
  zzI := Itv.ofNat 0 (zBox k)
  sI := kif sp then boxI k else nnBoxI k
  s1I := symBoxI k
  s2I := kif sp then boxI k else nnBoxI k
  stI := Itv.ofNat (kif sp then Nat.pow 2 (Nat.sub 64 k) else 0) (Nat.mul 4 (Nat.pow 2 (Nat.add 64 k)))
  tI := kif tp then boxI k else nnBoxI k
  t1I := kif tp then boxI k else nnBoxI k
  dI := ⟨posB, .fin (Int.negOfNat (Nat.pow 2 (Nat.sub 62 k))) false⟩
  above := false
  above1 := false
  par := par
  npar := npar
  flds := flds
  ztI := ⟨posB, .fin (Int.negOfNat (Nat.pow 2 (Nat.sub 63 (Nat.mul 2 k)))) false⟩
  pI := boxI q
  oI := symBoxI q
  lI := symBoxI k

section
variable {k : ℕ} (hk : k ≤ 31)

theorem pow_hi : ((Nat.pow 2 (Nat.add 64 k) : ℕ) : ℝ) = 2 ^ k * rS := by
  change ((2 ^ (64 + k) : ℕ) : ℝ) = _
  rw [rS_val, pow_add]; push_cast; ring

include hk in
theorem pow_lo : ((Nat.pow 2 (Nat.sub 64 k) : ℕ) : ℝ) = 1 / 2 ^ k * rS := by
  change ((2 ^ (64 - k) : ℕ) : ℝ) = _
  rw [rS_val]; push_cast
  rw [div_mul_eq_mul_div, one_mul, eq_div_iff (by positivity), ← pow_add, Nat.sub_add_cancel (hk.trans (by decide))]

include hk in
theorem boxI_ok {x : ℝ} (h : InBox k x) : (boxI k).Has x := by
  have hr := rS_pos
  refine has_ofNat ?_ ?_
  · rw [pow_lo hk]; exact mul_le_mul_of_nonneg_right h.1 hr.le
  · rw [pow_hi]; exact mul_le_mul_of_nonneg_right h.2 hr.le

theorem nnBoxI_ok {x : ℝ} (h0 : 0 ≤ x) (h : x ≤ 2 ^ k) : (nnBoxI k).Has x := by
  have hr := rS_pos
  refine has_ofNat (by push_cast; positivity) ?_
  rw [pow_hi]; exact mul_le_mul_of_nonneg_right h hr.le

theorem symI_ok {q : ℕ} {x : ℝ} (h : |x| * rS ≤ q) : (⟨.fin (Int.negOfNat q) false, .fin (Int.negOfNat q) false⟩ : Itv).Has x := by
  have hr := rS_pos
  refine ⟨?_, ?_⟩
  · have := LB.negOfNat (k := q) (s := false) (x := -x) (le_trans (mul_le_mul_of_nonneg_right (neg_le_abs x) hr.le) h) (fun h => nomatch h)
    rwa [neg_neg] at this
  · exact LB.negOfNat (le_trans (mul_le_mul_of_nonneg_right (le_abs_self x) hr.le) h) (fun h => nomatch h)

theorem symBoxI_ok {x : ℝ} (h : |x| ≤ 2 ^ k) : (symBoxI k).Has x := by
  refine symI_ok ?_
  rw [pow_hi]; exact mul_le_mul_of_nonneg_right h rS_pos.le

theorem zBox_ge {t : ℝ} (h : t * (2 ^ (2 * k) + 1) ≤ 2 ^ (2 * k) - 1) : t * rS ≤ zBox k := by
  have hr := rS_pos
  set q := 2 ^ (2 * k) with hq
  have hq1 : 1 ≤ q := Nat.one_le_two_pow
  have e : zBox k = (q - 1) * sc / (q + 1) + 1 := rfl
  have h1 : ((q - 1) * sc : ℕ) ≤ zBox k * (q + 1) := by
    rw [e]
    have := Nat.lt_div_mul_add (a := (q - 1) * sc) (b := q + 1) (by omega)
    nlinarith
  have h2 : (((q - 1) * sc : ℕ) : ℝ) ≤ ((zBox k * (q + 1) : ℕ) : ℝ) := by exact_mod_cast h1
  rw [Nat.cast_mul, Nat.cast_sub hq1, Nat.cast_mul] at h2
  push_cast at h2
  have hqr : ((q : ℕ) : ℝ) = 2 ^ (2 * k) := by rw [hq]; push_cast; ring
  have hp : (0 : ℝ) < 2 ^ (2 * k) + 1 := by positivity
  refine le_of_mul_le_mul_right ?_ hp
  rw [hqr] at h2
  calc t * rS * (2 ^ (2 * k) + 1) = t * (2 ^ (2 * k) + 1) * rS := by ring
    _ ≤ (2 ^ (2 * k) - 1) * rS := by gcongr
    _ ≤ _ := h2

theorem zeta_box {a b : ℝ} (ha : InBox k a) (hb : InBox k b) : |(a - b) / (a + b)| * (2 ^ (2 * k) + 1) ≤ 2 ^ (2 * k) - 1 := by
  have hp : (0 : ℝ) < 2 ^ k := by positivity
  have e : (2 : ℝ) ^ (2 * k) = 2 ^ k * 2 ^ k := by rw [two_mul, pow_add]
  set t : ℝ := 2 ^ k
  obtain ⟨a1, a2⟩ := ha
  obtain ⟨b1, b2⟩ := hb
  have i : 0 < 1 / t := by positivity
  have hs : 0 < a + b := by linarith
  rw [e, abs_div, abs_of_pos hs, div_mul_eq_mul_div, div_le_iff₀ hs]
  rw [div_le_iff₀ hp] at a1 b1
  have ha0 : 0 < a := by nlinarith
  have hb0 : 0 < b := by nlinarith
  have m1 : a ≤ t * t * b := by nlinarith
  have m2 : b ≤ t * t * a := by nlinarith
  rcases abs_cases (a - b) with ⟨h, -⟩ | ⟨h, -⟩ <;> rw [h] <;> nlinarith

theorem zeta2_box {a b : ℝ} (ha : InBox k a) (hb : InBox k b) : ((a - b) ^ 2 / (a + b) ^ 2) * (2 ^ (2 * k) + 1) ≤ 2 ^ (2 * k) - 1 := by
  have h := zeta_box ha hb
  rw [← div_pow, ← sq_abs]
  have h0 := abs_nonneg ((a - b) / (a + b))
  have h1 : |(a - b) / (a + b)| ≤ 1 := by
    have : (0 : ℝ) < 2 ^ (2 * k) := by positivity
    nlinarith
  have : |(a - b) / (a + b)| ^ 2 ≤ |(a - b) / (a + b)| := by nlinarith
  have hp : (0 : ℝ) < 2 ^ (2 * k) + 1 := by positivity
  nlinarith

theorem zzI_ok {x : ℝ} (h0 : 0 ≤ x) (h : x * (2 ^ (2 * k) + 1) ≤ 2 ^ (2 * k) - 1) : (Itv.ofNat 0 (zBox k)).Has x :=
  has_ofNat (by have := rS_pos; push_cast; positivity) (zBox_ge h)

theorem thr_ok {m n : ℕ} (hm : m + n = 64) {x : ℝ} (h0 : 0 < x) (h : x ≤ 1 / 2 ^ n) : (⟨posB, .fin (Int.negOfNat (Nat.pow 2 m)) false⟩ : Itv).Has x := by
  refine ⟨posB_ok h0, .negOfNat ?_ fun e => nomatch e⟩
  change _ ≤ ((2 ^ m : ℕ) : ℝ)
  have e : ((2 ^ m : ℕ) : ℝ) = 1 / 2 ^ n * rS := by
    rw [rS_val, ← hm, pow_add]; push_cast; field_simp
  rw [e]
  exact mul_le_mul_of_nonneg_right h rS_pos.le

include hk in
theorem bfld_ok {q : ℕ} (hq : q ≤ 31) {C : ACfg} {a : Assume} {p : Model.Rec} (h : a.BoxRec k q p) (hz : C.ztI = ⟨posB, .fin (Int.negOfNat (Nat.pow 2 (Nat.sub 63 (Nat.mul 2 k)))) false⟩)
    (hd : C.dI = ⟨posB, .fin (Int.negOfNat (Nat.pow 2 (Nat.sub 62 k))) false⟩) (hp : C.pI = boxI q) (ho : C.oI = symBoxI q) (hf : C.flds = a.flds.map fldNo) (f : Fld) :
    (afld C f).Has (p.fld f) := by
  have key : ∀ g : Fld, (kif mem (fldNo g) C.flds then C.pI else C.oI).Has (p.fld g) := by
    intro g
    rw [kif_eq, hf, hp, ho]
    split_ifs with hm
    · obtain ⟨b, hb, e⟩ := mem_map hm
      have : b = g := by revert e; cases b <;> cases g <;> first | exact fun _ => rfl | exact fun h => absurd h (by decide)
      exact boxI_ok hq (h.camPos g (this ▸ hb))
    · exact symBoxI_ok (h.cam g)
  cases f with
  | zetaThreshold =>
    show C.ztI.Has _
    rw [hz]
    exact thr_ok (n := 2 * k + 1) (by change 63 - 2 * k + _ = 64; omega) h.zeta h.zetaLe
  | densThreshold =>
    show C.dI.Has _
    rw [hd]
    exact thr_ok (n := k + 2) (by change 62 - k + _ = 64; omega) h.dens h.densLe
  | camOmega => exact key .camOmega
  | camAlpha => exact key .camAlpha
  | camBeta => exact key .camBeta

theorem bpar_ok {q : ℕ} (hq : q ≤ 31) {a : Assume} {p : Model.Rec} (h : a.BoxRec k q p) (c : Nat) (hc : mem c (a.params.map nameCode) = true) : (boxI q).Has (p.param c) := by
  obtain ⟨n, hn, e⟩ := mem_map hc
  exact e ▸ boxI_ok hq (h.par n hn)

theorem bnpar_ok {q : ℕ} (hq : q ≤ 31) {a : Assume} {p : Model.Rec} (h : a.BoxRec k q p) (c : Nat) (hc : mem c (a.neg.map nameCode) = true) : (boxI q).Has (-p.param c) := by
  obtain ⟨n, hn, e⟩ := mem_map hc
  exact e ▸ boxI_ok hq (h.npar n hn)

include hk in
theorem bI2_ok {b : Bool} {x : ℝ} (h0 : 0 ≤ x) (h : x ≤ 2 ^ k) (hs : b = true → InBox k x) : (kif b then boxI k else nnBoxI k : Itv).Has x := by
  rw [kif_eq]
  split_ifs with hb
  · exact boxI_ok hk (hs hb)
  · exact nnBoxI_ok h0 h

include hk in
theorem tot_ok {b : Bool} {x : ℝ} (h0 : 0 ≤ x) (h : x ≤ 4 * 2 ^ k) (hs : b = true → 1 / 2 ^ k ≤ x) :
    (Itv.ofNat (kif b then Nat.pow 2 (Nat.sub 64 k) else 0) (Nat.mul 4 (Nat.pow 2 (Nat.add 64 k)))).Has x := by
  have hr := rS_pos
  refine has_ofNat ?_ ?_
  · rw [kif_eq]
    split_ifs with hb
    · rw [pow_lo hk]; exact mul_le_mul_of_nonneg_right (hs hb) hr.le
    · push_cast; positivity
  · change _ ≤ ((4 * Nat.pow 2 (Nat.add 64 k) : ℕ) : ℝ)
    rw [Nat.cast_mul, pow_hi]
    push_cast
    nlinarith

theorem inBox_pos {x : ℝ} (h : InBox k x) : 0 < x := lt_of_lt_of_le (by positivity) h.1

include hk in
theorem ubgood {q : ℕ} (hq : q ≤ 31) {a : Assume} {fam : Fam} {p : Model.Rec} {ρ σ l τ : ℝ} (hrec : a.BoxRec k q p) (hρ : InBox k ρ) (hσ : 0 ≤ σ) (hσ' : σ ≤ 2 ^ k) (hl : |l| ≤ 2 ^ k) (hτ : 0 ≤ τ) (hτ' : τ ≤ 2 ^ k)
    (hs : a.sPos = true → InBox k σ) (ht : a.tPos = true → InBox k τ) :
    Good (bcfg k q false fam a.sPos a.tPos (a.params.map nameCode) (a.neg.map nameCode) (a.flds.map fldNo)) (unpolEnv p ρ (fam.grad σ) (fam.meta l) (fam.meta τ)) ⟨ρ, ρ, σ, 0, 0⟩ := by
  refine ⟨inBox_pos hρ, (inBox_pos hρ).le, symI_ok (zBox_ge (zeta_box hρ hρ)), zzI_ok (by positivity) (zeta2_box hρ hρ), tot_ok hk (by simpa using hσ) ?_ fun e => ?_, fun i I t hi => ?_,
    fun f => bfld_ok hk hq hrec rfl rfl rfl rfl rfl f, fun c hc => bpar_ok hq hrec c hc, fun c hc => bnpar_ok hq hrec c hc, fun c => symBoxI_ok (hrec.size c), (fun h => nomatch h), (fun h => nomatch h)⟩
  · have : (0 : ℝ) < 2 ^ k := by positivity
    change σ + 2 * 0 + 0 ≤ _; linarith
  · change 1 / 2 ^ k ≤ σ + 2 * 0 + 0; linarith [(hs e).1]
  cases fam <;> cases i <;> first
    | (cases hi; done)
    | (cases hi; exact ⟨_, rfl, boxI_ok hk hρ, rfl⟩)
    | (cases hi; exact ⟨_, rfl, bI2_ok hk hσ hσ' hs, rfl⟩)
    | (cases hi; exact ⟨_, rfl, bI2_ok hk hτ hτ' ht, trivial⟩)
    | (cases hi; exact ⟨_, rfl, symBoxI_ok hl, trivial⟩)

include hk in
theorem pbgood {q : ℕ} (hq : q ≤ 31) {a : Assume} {fam : Fam} {p : Model.Rec} {r0 r1 s0 s1 s2 l0 l1 t0 t1 : ℝ} (hrec : a.BoxRec k q p) (h0 : InBox k r0) (h1 : InBox k r1) (hs0 : 0 ≤ s0) (hs0' : s0 ≤ 2 ^ k)
    (hs1 : |s1| ≤ 2 ^ k) (hs2 : 0 ≤ s2) (hs2' : s2 ≤ 2 ^ k) (hst : 0 ≤ s0 + 2 * s1 + s2) (hl0 : |l0| ≤ 2 ^ k) (hl1 : |l1| ≤ 2 ^ k) (ht0 : 0 ≤ t0) (ht0' : t0 ≤ 2 ^ k) (ht1 : 0 ≤ t1) (ht1' : t1 ≤ 2 ^ k)
    (hs : a.sPos = true → InBox k s0 ∧ InBox k s2 ∧ 1 / 2 ^ k ≤ s0 + 2 * s1 + s2) (ht : a.tPos = true → InBox k t0 ∧ InBox k t1) :
    Good (bcfg k q true fam a.sPos a.tPos (a.params.map nameCode) (a.neg.map nameCode) (a.flds.map fldNo))
      (polEnv p (r0, r1) (fam.grad (s0, s1, s2)) (fam.meta (l0, l1)) (fam.meta (t0, t1))) ⟨r0, r1, s0, s1, s2⟩ := by
  refine ⟨inBox_pos h0, (inBox_pos h1).le, symI_ok (zBox_ge (zeta_box h0 h1)), zzI_ok (by positivity) (zeta2_box h0 h1), tot_ok hk hst ?_ (fun e => (hs e).2.2), fun i I t hi => ?_,
    fun f => bfld_ok hk hq hrec rfl rfl rfl rfl rfl f, fun c hc => bpar_ok hq hrec c hc, fun c hc => bnpar_ok hq hrec c hc, fun c => symBoxI_ok (hrec.size c), (fun h => nomatch h), (fun h => nomatch h)⟩
  · have := (abs_le.1 hs1).2
    change s0 + 2 * s1 + s2 ≤ _; linarith
  cases fam <;> cases i <;> first
    | (cases hi; done)
    | (cases hi; exact ⟨_, rfl, boxI_ok hk h0, rfl⟩)
    | (cases hi; exact ⟨_, rfl, boxI_ok hk h1, rfl⟩)
    | (cases hi; exact ⟨_, rfl, bI2_ok hk hs0 hs0' fun e => (hs e).1, rfl⟩)
    | (cases hi; exact ⟨_, rfl, bI2_ok hk hs2 hs2' fun e => (hs e).2.1, rfl⟩)
    | (cases hi; exact ⟨_, rfl, symBoxI_ok hs1, rfl⟩)
    | (cases hi; exact ⟨_, rfl, bI2_ok hk ht0 ht0' fun e => (ht e).1, trivial⟩)
    | (cases hi; exact ⟨_, rfl, bI2_ok hk ht1 ht1' fun e => (ht e).2, trivial⟩)
    | (cases hi; exact ⟨_, rfl, symBoxI_ok hl0, trivial⟩)
    | (cases hi; exact ⟨_, rfl, symBoxI_ok hl1, trivial⟩)

end

theorem accurateUnpolBox_of (a : Assume) {rel : Bool} {k q K : ℕ} {fam : Fam} {f : Formula} {par npar flds : List Nat} (hk : k ≤ 31) (hq : q ≤ 31) (hp : a.params.map nameCode = par)
    (hn : a.neg.map nameCode = npar) (hf : a.flds.map fldNo = flds) (h : fcheckB rel (bcfg k q false fam a.sPos a.tPos par npar flds) f.unpolBody K = true) :
    AccurateUnpolBox rel k q K a fam f := by
  intro u P p ρ σ l τ hu0 hu hrec hρ hσ hσ' hl hτ hτ' hs ht
  subst hp; subst hn; subst hf
  have G := ubgood (fam := fam) hk hq hrec hρ hσ hσ' hl hτ hτ' hs ht
  obtain ⟨v, hv⟩ := acheck_ok (P := P) G (acheck_of_fcheckB h)
  refine ⟨v, hv, fun z hz => ?_⟩
  obtain ⟨v', h1, h2⟩ := fcheckB_ok (P := P) G hu0 hu h hz
  rw [hv] at h1
  cases h1
  exact h2

theorem accuratePolBox_of (a : Assume) {rel : Bool} {k q K : ℕ} {fam : Fam} {f : Formula} {par npar flds : List Nat} (hk : k ≤ 31) (hq : q ≤ 31) (hp : a.params.map nameCode = par)
    (hn : a.neg.map nameCode = npar) (hf : a.flds.map fldNo = flds) (h : fcheckB rel (bcfg k q true fam a.sPos a.tPos par npar flds) f.polBody K = true) :
    AccuratePolBox rel k q K a fam f := by
  intro u P p r0 r1 s0 s1 s2 l0 l1 t0 t1 hu0 hu hrec h0 h1 hs0 hs0' hs1 hs2 hs2' hst hl0 hl1 ht0 ht0' ht1 ht1' hs ht
  subst hp; subst hn; subst hf
  have G := pbgood (fam := fam) hk hq hrec h0 h1 hs0 hs0' hs1 hs2 hs2' hst hl0 hl1 ht0 ht0' ht1 ht1' hs ht
  obtain ⟨v, hv⟩ := acheck_ok (P := P) G (acheck_of_fcheckB h)
  refine ⟨v, hv, fun z hz => ?_⟩
  obtain ⟨v', h1, h2⟩ := fcheckB_ok (P := P) G hu0 hu h hz
  rw [hv] at h1
  cases h1
  exact h2

end

end Verif.Norm
