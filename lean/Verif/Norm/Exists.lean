import Verif.Norm.Sound
/-!
# Every checked table of atoms has a valuation
-/
namespace Verif.Norm
open Verif.Py

noncomputable section

/-- All atom codes of a polynomial are coprime to `R`. -/
def copr (R : Nat) (x : Poly) : Bool :=
  Poly.rec true (fun _ _ c _ _ _ _ ih => kif Nat.beq c 1 then ih else kif Nat.beq (Nat.gcd c R) 1 then ih else false) x

/-- No entry mentions itself or newer entries, and all codes are different (newest entry first; `R` is the product of the newer codes). -/
def ordChk (t : Tab) : Nat → Bool :=
  Tab.rec (fun _ => true) (fun pr qr _ _ _ _ b p q _ ih R =>
    (fun pq =>
      kif Nat.beq pr qr then false
      else kif Nat.beq (Nat.gcd pq R) 1 then
        kif Nat.beq (Nat.gcd pq 9699690) 1 then
          (fun R' =>
            kif copr R' b then kif copr R' p then kif copr R' q then ih R' else false else false else false) (Nat.mul R pq)
        else false
      else false) (Nat.mul pr qr)) t

theorem copr_den {R : Nat} {x : Poly} (h : copr R x = true) {vp vc vc' : Nat → ℝ} (hv : ∀ p, p.Prime → ¬ p ∣ R → vc p = vc' p) :
    den vp vc x = den vp vc' x := by
  induction x with
  | nil => rfl
  | cons a b c p m d tl ih =>
    change (kif Nat.beq c 1 then copr R tl else kif Nat.beq (Nat.gcd c R) 1 then copr R tl else false) = true at h
    rw [kif_beq, kif_beq] at h
    have key : Nat.gcd c R = 1 → H vc c = H vc' c := fun hc => H_congr fun p hp hpc => hv p hp fun hpR => by
      have := Nat.dvd_gcd hpc hpR
      rw [hc] at this
      exact hp.one_lt.ne' (Nat.dvd_one.mp this)
    split_ifs at h with h1 h2
    · rw [den_cons, den_cons, ih h, tm, tm, h1, H_one, H_one]
    · rw [den_cons, den_cons, ih h, tm, tm, key h2]

/-- A valuation, built from the oldest entry on. -/
def build (K : Ctx) (vc0 : Nat → ℝ) : Tab → Nat → ℝ
  | .nil => vc0
  | .cons pr qr _ tag x y b p q tl =>
    let v := build K vc0 tl
    let a := atomVal K v tag x y b p q
    Function.update (Function.update v pr a) qr a⁻¹

theorem ordChk_cons {pr qr h tag x y : Nat} {b p q : Poly} {tl : Tab} {R : Nat} (hc : ordChk (.cons pr qr h tag x y b p q tl) R = true) :
    pr ≠ qr ∧ Nat.gcd (pr * qr) R = 1 ∧ Nat.gcd (pr * qr) 9699690 = 1 ∧ copr (R * (pr * qr)) b = true ∧ copr (R * (pr * qr)) p = true ∧
      copr (R * (pr * qr)) q = true ∧ ordChk tl (R * (pr * qr)) = true := by
  change (kif Nat.beq pr qr then false
      else kif Nat.beq (Nat.gcd (pr * qr) R) 1 then
        kif Nat.beq (Nat.gcd (pr * qr) 9699690) 1 then
          kif copr (R * (pr * qr)) b then kif copr (R * (pr * qr)) p then kif copr (R * (pr * qr)) q then ordChk tl (R * (pr * qr)) else false else false else false
        else false
      else false) = true at hc
  rw [kif_beq, kif_beq, kif_beq, kif_eq, kif_eq, kif_eq] at hc
  split_ifs at hc with h1 h2 h3 h4 h5 h6
  exact ⟨h1, h2, h3, h4, h5, h6, hc⟩

theorem atomVal_congr {K : Ctx} {v w : Nat → ℝ} (tag x y : Nat) {b p q : Poly} (hb : den K.vp v b = den K.vp w b)
    (hp : den K.vp v p = den K.vp w p) (hq : den K.vp v q = den K.vp w q) : atomVal K v tag x y b p q = atomVal K w tag x y b p q := by
  unfold atomVal tr
  rw [hb, hp, hq]

theorem build_spec (K : Ctx) (vc0 : Nat → ℝ) (t : Tab) (R : Nat) (hc : ordChk t R = true) (hpr : ∀ e ∈ t.ents, e.pr.Prime ∧ e.qr.Prime)
    (vc : Nat → ℝ) (hv : ∀ p, p.Prime → ¬ p ∣ R → vc p = build K vc0 t p) :
    ∀ e ∈ t.ents, H vc e.pr = e.val K vc ∧ H vc e.qr = (e.val K vc)⁻¹ := by
  induction t generalizing R with
  | nil => intro e he; exact absurd he (by simp [Tab.ents])
  | cons pr qr h tag x y b p q tl ih =>
    obtain ⟨h1, h2, h3, h4, h5, h6, h7⟩ := ordChk_cons hc
    obtain ⟨hpP, hqP⟩ := hpr ⟨pr, qr, tag, x, y, b, p, q⟩ (List.mem_cons_self ..)
    simp only at hpP hqP
    have hpR : ¬ pr ∣ R := fun hd => by
      have := Nat.dvd_gcd (Dvd.intro _ rfl : pr ∣ pr * qr) hd
      rw [h2] at this
      exact hpP.one_lt.ne' (Nat.dvd_one.mp this)
    have hqR : ¬ qr ∣ R := fun hd => by
      have := Nat.dvd_gcd (Dvd.intro_left _ rfl : qr ∣ pr * qr) hd
      rw [h2] at this
      exact hqP.one_lt.ne' (Nat.dvd_one.mp this)
    have hv' : ∀ p, p.Prime → ¬ p ∣ R * (pr * qr) → vc p = build K vc0 tl p := by
      intro p' hp' hnd
      have n1 : ¬ p' ∣ R := fun h => hnd (h.mul_right _)
      have n2 : p' ≠ pr := fun h => hnd (by rw [h]; exact (Dvd.intro _ rfl : pr ∣ pr * qr).mul_left _)
      have n3 : p' ≠ qr := fun h => hnd (by rw [h]; exact (Dvd.intro_left _ rfl : qr ∣ pr * qr).mul_left _)
      rw [hv p' hp' n1]
      simp only [build]
      rw [Function.update_of_ne n3, Function.update_of_ne n2]
    intro e he
    simp only [Tab.ents, List.mem_cons] at he
    rcases he with rfl | he
    · simp only [Ent.val]
      have hval : atomVal K vc tag x y b p q = atomVal K (build K vc0 tl) tag x y b p q :=
        atomVal_congr tag x y (copr_den h4 hv') (copr_den h5 hv') (copr_den h6 hv')
      rw [hval, H_prime _ hpP, H_prime _ hqP, hv pr hpP hpR, hv qr hqP hqR]
      simp only [build]
      rw [Function.update_of_ne h1, Function.update_self, Function.update_self]
      exact ⟨rfl, rfl⟩
    · exact ih _ h7 (fun e he => hpr e (List.mem_cons_of_mem _ he)) hv' e he

theorem build_base (K : Ctx) (vc0 : Nat → ℝ) (t : Tab) (R : Nat) (hc : ordChk t R = true) {p : Nat} (hp : p.Prime) (hd : p ∣ 9699690) :
    build K vc0 t p = vc0 p := by
  induction t generalizing R with
  | nil => rfl
  | cons pr qr h tag x y b p' q tl ih =>
    obtain ⟨h1, h2, h3, h4, h5, h6, h7⟩ := ordChk_cons hc
    have key : ¬ p ∣ pr * qr := fun h => by
      have := Nat.dvd_gcd h hd
      rw [h3] at this
      exact hp.one_lt.ne' (Nat.dvd_one.mp this)
    have n2 : p ≠ pr := fun h => key (by rw [h]; exact Dvd.intro _ rfl)
    have n3 : p ≠ qr := fun h => key (by rw [h]; exact Dvd.intro_left _ rfl)
    simp only [build]
    rw [Function.update_of_ne n3, Function.update_of_ne n2, ih _ h7]

theorem nnPrimes_prime : ∀ p ∈ nnPrimes, p.Prime ∧ p ∣ 9699690 := by
  intro p hp
  simp only [nnPrimes, List.mem_cons, List.not_mem_nil, or_false] at hp
  rcases hp with rfl | rfl | rfl | rfl | rfl | rfl | rfl | rfl <;> norm_num

theorem NnOk.congr {vc vc' : Nat → ℝ} (hv : ∀ p ∈ nnPrimes, vc p = vc' p) (h : NnOk vc) : NnOk vc' := by
  have m : ∀ p ∈ nnPrimes, H vc' p = H vc p := fun p hp => by
    rw [H_prime _ (nnPrimes_prime p hp).1, H_prime _ (nnPrimes_prime p hp).1, hv p hp]
  refine ⟨fun p hp => ?_, ?_, ?_, ?_, ?_⟩
  · rw [← hv p hp]; exact h.nn p hp
  · rw [m 11 (by simp [nnPrimes]), m 2 (by simp [nnPrimes])]; exact h.i2
  · rw [m 13 (by simp [nnPrimes]), m 3 (by simp [nnPrimes])]; exact h.i3
  · rw [m 17 (by simp [nnPrimes]), m 5 (by simp [nnPrimes])]; exact h.i5
  · rw [m 19 (by simp [nnPrimes]), m 7 (by simp [nnPrimes])]; exact h.i7

/-- The assumed comparisons hold as soon as the base quantities and the atoms of `s` have their values. -/
def FactsHold (K : Ctx) (s : St) : Prop :=
  ∀ vc : Nat → ℝ, (∀ p ∈ nnPrimes, vc p = K.vb p) → (∀ e ∈ s.tab.ents, H vc e.pr = e.val K vc ∧ H vc e.qr = (e.val K vc)⁻¹) → FactsOk K.vp vc K.facts

theorem FactsHold.mono {K : Ctx} {s s' : St} (h : Step s s') (hf : FactsHold K s) : FactsHold K s' :=
  fun vc h1 h2 => hf vc h1 fun e he => h2 e (h.sub e he)

theorem exists_ok {K : Ctx} {s : St} (hw : s.WF) (hc : ordChk s.tab 1 = true) (h0 : NnOk K.vb) (hf : FactsHold K s) : ∃ vc, Ok K vc s := by
  have hb : ∀ p ∈ nnPrimes, build K K.vb s.tab p = K.vb p := fun p hp =>
    build_base K K.vb s.tab 1 hc (nnPrimes_prime p hp).1 (nnPrimes_prime p hp).2
  have hat := build_spec K K.vb s.tab 1 hc hw.used _ fun _ _ _ => rfl
  exact ⟨build K K.vb s.tab, h0.congr fun p hp => (hb p hp).symm, hb, hf _ hb hat, hat⟩

/-! ## The comparison of two programs -/

/-- Initial state: the inputs without sign condition are pre-registered, with codes 23 (`s1`), 31 (`l0`), 41 (`l1`). -/
def st0 (pr : List Nat) : St :=
  ⟨pr, .cons 41 43 0 0 2 6 .nil .nil .nil (.cons 31 37 0 0 2 5 .nil .nil .nil (.cons 23 29 0 0 2 3 .nil .nil .nil .nil)), .leaf⟩

/-- Same normal form. -/
def chk (pr : List Nat) (C : Cfg) (A : Sub) (p : Prog) (B : Sub) (q : Prog) : Bool :=
  evProg C A p (st0 pr) fun x s => evProg C B q s fun y s =>
    kif polyBeq x y then ordChk s.tab 1 else false

theorem st0_wf {pr : List Nat} (h : ∀ p ∈ pr, p.Prime) : (st0 pr).WF := by
  refine ⟨fun k t ht => ?_, fun e he => ?_, h⟩
  · rw [show (st0 pr).idx = .leaf from rfl, Trie.get_leaf] at ht; cases ht
  · simp only [st0, Tab.ents, List.mem_cons, List.not_mem_nil, or_false] at he
    rcases he with rfl | rfl | rfl <;> norm_num

/-- **Soundness of the comparison.** -/
theorem chk_sound {pr : List Nat} (hpr : ∀ p ∈ pr, p.Prime) {C : Cfg} {K : Ctx} {A B : Sub} {p q : Prog} {EA EB : Env}
    (hp : PosOk C.U K.vp) (hC : C.facts = K.facts) (h0 : NnOk K.vb) (hf : FactsHold K (st0 pr))
    (hA : SubOk C K A EA (st0 pr)) (hB : SubOk C K B EB (st0 pr)) (h : chk pr C A p B q = true) :
    ∃ x, run K.P EA p = .ok x ∧ run K.P EB q = .ok x := by
  obtain ⟨r1, s1, x1, hs1, hr1, hx1, h⟩ := evProg_spec hp hC hA (st0_wf hpr) h
  obtain ⟨r2, s2, x2, hs2, hr2, hx2, h⟩ := evProg_spec hp hC (hB.mono hs1) hs1.wf h
  rw [kand] at h
  obtain ⟨he, ho⟩ := h
  obtain ⟨vc, hvc⟩ := exists_ok hs2.wf ho h0 (hf.mono (hs1.trans hs2))
  refine ⟨x1, hr1, ?_⟩
  rw [hr2, hx2 vc hvc, hx1 vc (hs2.ok hvc), polyBeq_eq he]

end

end Verif.Norm
