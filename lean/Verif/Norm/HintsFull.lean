import Verif.Norm.HintsMore
/-!
# Hints where there are electrons of one spin only

Proof machinery for C51.  A hint about the other spin is carried over: the value of an expression that reads only the inputs of one spin does not depend on
those of the other.
-/
namespace Verif.Norm
open Verif.Py Verif.Spec Verif.Model Verif.Lib

noncomputable section

/-- Does the expression read only the first spin's inputs, and temporaries marked in `D`? -/
def safeE (D : Trie Bool) : Expr → Bool
  | .num _ _ => true
  | .pi => true
  | .inp i => Inp.rec true false true false false true false true false i
  | .fld _ => true
  | .param _ => true
  | .tmp m => Option.rec false (fun b => b) (Trie.get 20 D m)
  | .neg a => safeE D a
  | .add a b => safeE D a && safeE D b
  | .sub a b => safeE D a && safeE D b
  | .mul a b => safeE D a && safeE D b
  | .div a b => safeE D a && safeE D b
  | .pow a b => safeE D a && safeE D b
  | .le a b => safeE D a && safeE D b
  | .lt a b => safeE D a && safeE D b
  | .eq a b => safeE D a && safeE D b
  | .lor a b => safeE D a && safeE D b
  | .land a b => safeE D a && safeE D b
  | .cond c a b => safeE D c && (safeE D a && safeE D b)
  | .call1 _ a => safeE D a
  | .call2 _ a b => safeE D a && safeE D b
  | .undef _ => true

def safeBody (b : List (Nat × Expr)) : Trie Bool → (Trie Bool → Bool) → Bool :=
  List.rec (fun D k => k D) (fun ne _ ih D k => kif Nat.ble ne.1 499999 then (kif safeE D ne.2 then ih (Trie.set true 20 D ne.1) k else ih (Trie.set false 20 D ne.1) k) else false) b

/-- Does the hint read only the first spin's inputs? -/
def safeHint (p : Prog) (h : Hint) : Bool := safeBody (p.body.take h.pos) .leaf fun D => safeE D h.e

/-- The two environments agree on the first spin's inputs. -/
structure Same (E E' : Env) : Prop where
  r0 : E.inp .r0 = E'.inp .r0
  s0 : E.inp .s0 = E'.inp .s0
  l0 : E.inp .l0 = E'.inp .l0
  t0 : E.inp .tau0 = E'.inp .tau0
  fld : E.fld = E'.fld
  param : E.param = E'.param

variable {P : Prims} {E E' : Env}

theorem safeE_ok (H : Same E E') {D : Trie Bool} {T T' : Nat → Option Val} (hT : ∀ n, Trie.get 20 D n = some true → T n = T' n) (e : Expr) (he : safeE D e = true) :
    seval P E T e = seval P E' T' e := by
  induction e with
  | num _ _ => rfl
  | pi => rfl
  | inp i =>
    cases i <;> first
      | exact Bool.noConfusion he
      | (simp only [seval, H.r0, H.s0, H.l0, H.t0])
  | fld f => simp only [seval, H.fld]
  | param f => simp only [seval, H.param]
  | tmp m =>
    refine hT m ?_
    unfold safeE at he
    revert he
    cases Trie.get 20 D m with
    | none => exact fun h => nomatch h
    | some b => exact fun h => congrArg some h
  | undef _ => rfl
  | neg a ih => have h := ih he; simp only [seval, h]
  | call1 f a ih => have h := ih he; simp only [seval, h]
  | cond c a b ihc iha ihb =>
    simp only [safeE, Bool.and_eq_true] at he
    have h1 := ihc he.1; have h2 := iha he.2.1; have h3 := ihb he.2.2
    simp only [seval, h1, h2, h3]
  | add a b iha ihb | sub a b iha ihb | mul a b iha ihb | div a b iha ihb | pow a b iha ihb | le a b iha ihb | lt a b iha ihb | eq a b iha ihb
  | lor a b iha ihb | land a b iha ihb | call2 f a b iha ihb =>
    simp only [safeE, Bool.and_eq_true] at he
    have h1 := iha he.1; have h2 := ihb he.2
    simp only [seval, h1, h2]

theorem safeBody_ok (H : Same E E') (b : List (Nat × Expr)) {k : Trie Bool → Bool} {D : Trie Bool} {T T' : Nat → Option Val} (hT : ∀ n, Trie.get 20 D n = some true → T n = T' n)
    (h : safeBody b D k = true) : ∃ D, (∀ n, Trie.get 20 D n = some true → sexec P E b T n = sexec P E' b T' n) ∧ k D = true := by
  induction b generalizing D T T' with
  | nil => exact ⟨D, hT, h⟩
  | cons ne b ih =>
    obtain ⟨n, e⟩ := ne
    change (kif Nat.ble n 499999 then (kif safeE D e then safeBody b (Trie.set true 20 D n) k else safeBody b (Trie.set false 20 D n) k) else false) = true at h
    rw [kif_ble] at h
    split_ifs at h with hn
    rw [kif_eq] at h
    have step : ∀ v : Bool, (v = true → safeE D e = true) → safeBody b (Trie.set v 20 D n) k = true →
        ∃ D, (∀ m, Trie.get 20 D m = some true → sexec P E ((n, e) :: b) T m = sexec P E' ((n, e) :: b) T' m) ∧ k D = true := by
      intro v hv hb
      refine ih (fun m hm => ?_) hb
      rcases Trie.get_set _ _ _ _ _ _ hm with ⟨rfl, e2⟩ | ⟨e1, e2⟩
      · rw [Function.update_self, Function.update_self]
        exact safeE_ok H hT e (hv e2.symm)
      · rw [Function.update_of_ne e1, Function.update_of_ne e1]
        exact hT m e2
    cases hs : safeE D e with
    | true => rw [hs] at h; exact step true (fun _ => hs) h
    | false => rw [hs] at h; exact step false (fun h => nomatch h) h

theorem safeHint_ok (H : Same E E') {p : Prog} {h : Hint} (hs : safeHint p h = true) (hh : h.Ok P E' p) : h.Ok P E p := by
  intro x hx
  obtain ⟨D, hD, hk⟩ := safeBody_ok (P := P) H (p.body.take h.pos) (D := .leaf) (T := fun _ => none) (T' := fun _ => none) (fun _ _ => rfl) hs
  refine hh x ?_
  rw [← hx]
  show sNum _ = sNum _
  rw [safeE_ok H hD h.e hk]

/-- What a hint says where there are electrons of one spin only. -/
def FullHint (a : Assume) (fam : Fam) (b : Prog) (h : Hint) : Prop :=
  ∀ (P : Prims) (p : Model.Rec) (r s l t : ℝ), a.Rec p → p.fld .densThreshold < r → 0 < s → 0 < t →
    h.Ok P (polEnv p (r, 0) (fam.grad (s, 0, 0)) (fam.meta (l, 0)) (fam.meta (t, 0))) b

/-- A hint that reads only the first spin's inputs. -/
theorem PolHint.full {a : Assume} {fam : Fam} {b : Prog} {h : Hint} (hh : PolHint a fam b h) (hv : a.vw = false) (hs : safeHint b h = true) : FullHint a fam b h := by
  intro P p r s l t hrec hr h1 h2
  have hr0 := hrec.dens.trans hr
  refine safeHint_ok (E' := polEnv p (r, 1) (fam.grad (s, 0, 1)) (fam.meta (l, 0)) (fam.meta (t, 1))) ?_ hs
    (hh P _ p r 1 s 0 1 l 0 t 1 ⟨rfl, hrec, hr0, one_pos, h1.le, zero_le_one, by linarith, h2.le, zero_le_one, fun _ => ⟨h1, one_pos, by linarith⟩, fun _ => ⟨h2, one_pos⟩,
      fun h => by rw [hv] at h; exact nomatch h⟩)
  cases fam <;> exact ⟨rfl, rfl, rfl, rfl, rfl, rfl⟩

/-- The hint that the Perdew–Wang interpolation is negative. -/
theorem fullHint_pw {a : Assume} {fam : Fam} {b : Prog} {n : Nat} {e : Expr} (ha : a.zetaSmall = true) (cA cB cC dA dB dC : ℝ)
    (he : ∀ P p r0 r1 s0 s1 s2 l0 l1 t0 t1,
      run P (polEnv p (r0, r1) (fam.grad (s0, s1, s2)) (fam.meta (l0, l1)) (fam.meta (t0, t1))) ⟨b.body.take n, e⟩ =
      .ok (pwExpr P (p.fld .zetaThreshold) cA cB cC dA dB dC r0 r1))
    (h : 0 < cA ∧ 0 < cC ∧ 0 < dA ∧ 0 < dB ∧ 0 < dC ∧ dC * (13 / 10) ≤ 12 / 5 * dA ∧ dA * (21 / 10) ≤ 11 / 10 * dB ∧ cC * (12 / 5) ≤ 17 / 20 * cA ∧ cA * (11 / 10) * 2 ≤ 10 * cB) :
    FullHint a fam b ⟨n, e, pos.neg⟩ := by
  intro P p r s l t hrec hr _ _ y hy
  rw [run_agree hy (he P p r 0 s 0 0 l 0 t 0)]
  obtain ⟨h1, h2, h3, h4, h5, h6, h7, h8, h9⟩ := h
  have := pwExpr_neg P hrec.zeta (hrec.zetaSmall ha) (hrec.dens.trans hr) le_rfl h1 h2 h3 h4 h5 h6 h7 h8 h9
  have := (has_pos (neg_pos.mpr this)).neg
  rwa [neg_neg] at this

theorem definedFullH_of (a : Assume) {fam : Fam} {f : Formula} (hr : NeverRaises fam f) {hs : List Hint} (hh : ∀ h ∈ hs, FullHint a fam f.polBody h)
    {par npar flds : List Nat} (hp : a.params.map nameCode = par) (hn : a.neg.map nameCode = npar) (hf : a.flds.map fldNo = flds)
    (h : hcheck (fcfg fam par npar flds) hs f.polBody = true) : DefinedFull a fam f := by
  intro P p r s l t hrec h1 h2 h3
  obtain ⟨e, he⟩ := hr.1 P p (r, 0) (s, 0, 0) (l, 0) (t, 0)
  subst hp; subst hn; subst hf
  obtain ⟨x, hx⟩ := hcheck_ok (P := P) (fgood hrec h1 h2 h3) (fun g hg => hh g hg P p r s l t hrec h1 h2 h3) h
  exact ⟨x, hx, by rw [run_agree hx he]; exact he⟩

end
end Verif.Norm
