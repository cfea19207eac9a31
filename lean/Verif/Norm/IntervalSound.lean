import Verif.Norm.Interval
import Verif.Norm.Sound
import Verif.Spec.Strict
import Mathlib.Analysis.Real.Pi.Bounds
import Mathlib.Analysis.SpecialFunctions.Trigonometric.DerivHyp
import Verif.Norm.Static

/-!
# Soundness of the interval analysis: arithmetic of bounds
-/
namespace Verif.Norm
open Verif.Py

noncomputable section

/-- `2^64` as a real number. -/
abbrev rS : ℝ := (sc : ℝ)

theorem rS_pos : 0 < rS := by norm_num [rS, sc]

/-- The bound holds of `x`. -/
def LB : Bd → ℝ → Prop
  | .inf, _ => True
  | .fin n s, x => (n : ℝ) ≤ x * rS ∧ (s = true → (n : ℝ) < x * rS)

/-- The interval contains `x`. -/
structure Itv.Has (a : Itv) (x : ℝ) : Prop where
  lo : LB a.lo x
  hi : LB a.hi (-x)

theorem bor_t {a b : Bool} : bor a b = true ↔ a = true ∨ b = true := by cases a <;> cases b <;> decide
theorem band_t {a b : Bool} : band a b = true ↔ a = true ∧ b = true := by cases a <;> cases b <;> decide

theorem nnI_t {n : Int} : nnI n = true ↔ 0 ≤ n := by
  cases n with
  | ofNat k => exact ⟨fun _ => Int.natCast_nonneg k, fun _ => rfl⟩
  | negSucc k => exact iff_of_false (fun h => Bool.false_ne_true h) (by omega)

theorem posN_eq (n : Int) : (posN n : Int) = max n 0 := by
  cases n with
  | ofNat k => show (k : Int) = max (k : Int) 0; omega
  | negSucc k => show (0 : Int) = max (Int.negSucc k) 0; omega
theorem negN_eq (n : Int) : (negN n : Int) = max (-n) 0 := by
  cases n with
  | ofNat k => show (0 : Int) = max (-(k : Int)) 0; omega
  | negSucc k => show ((k + 1 : ℕ) : Int) = max (-Int.negSucc k) 0; omega

theorem le_posN (n : Int) : (n : ℝ) ≤ posN n := by
  have := posN_eq n
  exact_mod_cast (by omega : n ≤ (posN n : Int))
theorem neg_le_negN (n : Int) : -(n : ℝ) ≤ negN n := by
  have := negN_eq n
  exact_mod_cast (by omega : -n ≤ (negN n : Int))
theorem posN_le {n : Int} {y : ℝ} (h : (n : ℝ) ≤ y) (hy : 0 ≤ y) : (posN n : ℝ) ≤ y := by
  have h1 := posN_eq n
  rcases le_total 0 n with hn | hn
  · have : (posN n : Int) = n := by omega
    have : (posN n : ℝ) = n := by exact_mod_cast this
    rwa [this]
  · have : (posN n : Int) = 0 := by omega
    have : (posN n : ℝ) = 0 := by exact_mod_cast this
    rwa [this]

theorem cast_negOfNat (k : ℕ) : ((Int.negOfNat k : Int) : ℝ) = -(k : ℝ) := by
  rw [Int.negOfNat_eq]; simp
theorem cast_ofNat (k : ℕ) : ((Int.ofNat k : Int) : ℝ) = (k : ℝ) := by simp

theorem LB.ofNat {k : ℕ} {s : Bool} {x : ℝ} (h : (k : ℝ) ≤ x * rS) (h' : s = true → (k : ℝ) < x * rS) : LB (.fin (Int.ofNat k) s) x := by
  refine ⟨?_, fun e => ?_⟩ <;> rw [cast_ofNat]
  · exact h
  · exact h' e
theorem LB.negOfNat {k : ℕ} {s : Bool} {x : ℝ} (h : x * rS ≤ k) (h' : s = true → x * rS < k) : LB (.fin (Int.negOfNat k) s) (-x) := by
  refine ⟨?_, fun e => ?_⟩ <;> rw [cast_negOfNat]
  · linarith
  · linarith [h' e]

theorem bdAdd_ok {a b : Bd} {x y : ℝ} (ha : LB a x) (hb : LB b y) : LB (bdAdd a b) (x + y) := by
  cases a with
  | inf => trivial
  | fin n s => cases b with
    | inf => trivial
    | fin m t =>
      obtain ⟨h1, h2⟩ := ha
      obtain ⟨h3, h4⟩ := hb
      have e : ((Int.add n m : Int) : ℝ) = n + m := by exact_mod_cast (Int.cast_add n m)
      refine ⟨?_, fun h => ?_⟩
      · rw [e]; nlinarith
      · rw [e]
        rcases bor_t.mp h with h | h
        · have := h2 h; nlinarith
        · have := h4 h; nlinarith

theorem bdNN_ok {a : Bd} {x : ℝ} (h : bdNN a = true) (ha : LB a x) : 0 ≤ x := by
  cases a with
  | inf => cases h
  | fin n s =>
    have h1 : (0 : ℝ) ≤ n := by exact_mod_cast nnI_t.mp h
    exact nonneg_of_mul_nonneg_left (h1.trans ha.1) rS_pos

theorem bdPos_ok {a : Bd} {x : ℝ} (h : bdPos a = true) (ha : LB a x) : 0 < x := by
  cases a with
  | inf => cases h
  | fin n s => cases n with
    | negSucc k => cases h
    | ofNat k =>
      refine pos_of_mul_pos_left ?_ rS_pos.le
      obtain ⟨h1, h2⟩ := ha
      rw [cast_ofNat] at h1 h2
      rcases bor_t.mp h with h | h
      · exact lt_of_le_of_lt (Nat.cast_nonneg k) (h2 h)
      · have : (1 : ℝ) ≤ k := by exact_mod_cast ble_t.mp h
        linarith

theorem bdPos_nn {a : Bd} (h : bdPos a = true) : bdNN a = true := by
  cases a with
  | inf => cases h
  | fin n s => cases n with
    | negSucc k => cases h
    | ofNat k => rfl

theorem sub_nonneg' {n m : Int} {k : ℕ} (h : Int.sub m n = Int.ofNat k) : m = n + k := by
  have : m - n = k := h
  omega

theorem bdMax_ok {a b : Bd} {x : ℝ} (ha : LB a x) (hb : LB b x) : LB (bdMax a b) x := by
  cases a with
  | inf => exact hb
  | fin n s => cases b with
    | inf => exact ha
    | fin m t =>
      show LB (Int.rec (motive := fun _ => Bd) _ _ (Int.sub m n)) x
      cases h : Int.sub m n with
      | negSucc k => exact ha
      | ofNat k =>
        show LB (kif Nat.beq k 0 then .fin n (bor s t) else .fin m t) x
        rw [kif_beq]
        split_ifs with h0
        · subst h0
          have e : m = n := by have := sub_nonneg' h; omega
          refine ⟨ha.1, fun e2 => ?_⟩
          rcases bor_t.mp e2 with e2 | e2
          · exact ha.2 e2
          · rw [← e]; exact hb.2 e2
        · exact hb

theorem LB.weaken {n m : Int} {s t : Bool} {x : ℝ} (h : LB (.fin n s) x) (hm : m < n) : LB (.fin m t) x := by
  have h1 : (m : ℝ) < n := by exact_mod_cast hm
  exact ⟨h1.le.trans h.1, fun _ => h1.trans_le h.1⟩

theorem bdMin_left {a : Bd} (b : Bd) {x : ℝ} (ha : LB a x) : LB (bdMin a b) x := by
  cases a with
  | inf => trivial
  | fin n s => cases b with
    | inf => trivial
    | fin m t =>
      show LB (Int.rec (motive := fun _ => Bd) _ _ (Int.sub m n)) x
      cases h : Int.sub m n with
      | negSucc k => exact ha.weaken (by have : m - n = Int.negSucc k := h; omega)
      | ofNat k =>
        show LB (kif Nat.beq k 0 then .fin n (band s t) else .fin n s) x
        rw [kif_beq]
        split_ifs with h0
        · exact ⟨ha.1, fun e2 => ha.2 (band_t.mp e2).1⟩
        · exact ha

theorem bdMin_right (a : Bd) {b : Bd} {x : ℝ} (hb : LB b x) : LB (bdMin a b) x := by
  cases a with
  | inf => trivial
  | fin n s => cases b with
    | inf => trivial
    | fin m t =>
      show LB (Int.rec (motive := fun _ => Bd) _ _ (Int.sub m n)) x
      cases h : Int.sub m n with
      | negSucc k => exact hb
      | ofNat k =>
        show LB (kif Nat.beq k 0 then .fin n (band s t) else .fin n s) x
        rw [kif_beq]
        have e := sub_nonneg' h
        split_ifs with h0
        · subst h0
          have e : m = n := by omega
          exact ⟨e ▸ hb.1, fun e2 => e ▸ hb.2 (band_t.mp e2).2⟩
        · exact hb.weaken (by omega)

theorem bdStrict_ok {s : Bool} {a : Bd} {x y : ℝ} (ha : LB a x) (h : x ≤ y) (h' : s = true → x < y) : LB (bdStrict s a) y := by
  cases a with
  | inf => trivial
  | fin n t =>
    have h1 : x * rS ≤ y * rS := mul_le_mul_of_nonneg_right h rS_pos.le
    refine ⟨ha.1.trans h1, fun e => ?_⟩
    rcases bor_t.mp e with e | e
    · exact ha.1.trans_lt (mul_lt_mul_of_pos_right (h' e) rS_pos)
    · exact (ha.2 e).trans_le h1

theorem zeroB_ok {x : ℝ} (h : 0 ≤ x) : LB zeroB x :=
  .ofNat (by simpa using mul_nonneg h rS_pos.le) (fun e => nomatch e)
theorem posB_ok {x : ℝ} (h : 0 < x) : LB posB x :=
  .ofNat (by simpa using mul_nonneg h.le rS_pos.le) (fun _ => by simpa using mul_pos h rS_pos)
theorem oneB_ok {x : ℝ} (h : 1 ≤ x) : LB oneB x :=
  .ofNat (by have := mul_le_mul_of_nonneg_right h rS_pos.le; rwa [one_mul] at this) (fun e => nomatch e)
theorem monB_ok {x : ℝ} (h : x ≤ 1) : LB monB (-x) :=
  .negOfNat (by have := mul_le_mul_of_nonneg_right h rS_pos.le; rwa [one_mul] at this) (fun e => nomatch e)

theorem has_top (x : ℝ) : top.Has x := ⟨trivial, trivial⟩
theorem has_nn {x : ℝ} (h : 0 ≤ x) : nn.Has x := ⟨zeroB_ok h, trivial⟩
theorem has_pos {x : ℝ} (h : 0 < x) : pos.Has x := ⟨posB_ok h, trivial⟩
theorem Itv.Has.neg {a : Itv} {x : ℝ} (h : a.Has x) : a.neg.Has (-x) := ⟨h.hi, by rw [neg_neg]; exact h.lo⟩
theorem Itv.Has.add {a b : Itv} {x y : ℝ} (h : a.Has x) (g : b.Has y) : (a.add b).Has (x + y) :=
  ⟨bdAdd_ok h.lo g.lo, by rw [neg_add]; exact bdAdd_ok h.hi g.hi⟩
theorem Itv.Has.sub {a b : Itv} {x y : ℝ} (h : a.Has x) (g : b.Has y) : (a.add b.neg).Has (x - y) := by
  rw [sub_eq_add_neg]; exact h.add g.neg
theorem Itv.Has.meet {a b : Itv} {x : ℝ} (h : a.Has x) (g : b.Has x) : (a.meet b).Has x := ⟨bdMax_ok h.lo g.lo, bdMax_ok h.hi g.hi⟩
theorem Itv.Has.join_left {a : Itv} (b : Itv) {x : ℝ} (h : a.Has x) : (a.join b).Has x := ⟨bdMin_left _ h.lo, bdMin_left _ h.hi⟩
theorem Itv.Has.join_right (a : Itv) {b : Itv} {x : ℝ} (h : b.Has x) : (a.join b).Has x := ⟨bdMin_right _ h.lo, bdMin_right _ h.hi⟩
theorem has_zero : zeroI.Has 0 := ⟨zeroB_ok le_rfl, zeroB_ok (by simp)⟩

/-! ## Products -/

theorem natDiv_le (p q : ℕ) : ((Nat.div p q : ℕ) : ℝ) ≤ (p : ℝ) / q := Nat.cast_div_le

theorem le_ceil (p : ℕ) : (p : ℝ) ≤ (Nat.div (Nat.add p 18446744073709551615) sc : ℕ) * rS := by
  have h : p ≤ (Nat.div (Nat.add p 18446744073709551615) sc) * sc := by
    show p ≤ ((p + 18446744073709551615) / 18446744073709551616) * 18446744073709551616
    omega
  exact_mod_cast h

theorem mulLo_ok {a b : Bd} {x y : ℝ} (ha : LB a x) (hb : LB b y) (hx : 0 ≤ x) (hy : 0 ≤ y) : LB (mulLo a b) (x * y) := by
  have hS := rS_pos
  have hxy := mul_nonneg hx hy
  cases a with
  | inf => exact zeroB_ok hxy
  | fin n s => cases b with
    | inf => exact zeroB_ok hxy
    | fin m t =>
      have h1 : (posN n : ℝ) ≤ x * rS := posN_le ha.1 (mul_nonneg hx hS.le)
      have h2 : (posN m : ℝ) ≤ y * rS := posN_le hb.1 (mul_nonneg hy hS.le)
      have hq : ((Nat.div (Nat.mul (posN n) (posN m)) sc : ℕ) : ℝ) ≤ (posN n : ℝ) * posN m / rS := by
        have := natDiv_le (Nat.mul (posN n) (posN m)) sc
        rwa [show ((Nat.mul (posN n) (posN m) : ℕ) : ℝ) = (posN n : ℝ) * posN m from Nat.cast_mul _ _] at this
      have h3 : (posN n : ℝ) * posN m / rS ≤ x * y * rS := by
        rw [div_le_iff₀ hS]
        calc (posN n : ℝ) * posN m ≤ (x * rS) * (y * rS) := mul_le_mul h1 h2 (Nat.cast_nonneg _) (mul_nonneg hx hS.le)
          _ = _ := by ring
      refine .ofNat (hq.trans h3) fun e => ?_
      rw [kif_eq, kif_eq] at e
      split_ifs at e with e1 e2
      have px := bdPos_ok e1 ha
      have py := bdPos_ok e2 hb
      rcases bor_t.mp e with e | e
      · rw [beq_t.mp e]; push_cast; positivity
      · refine hq.trans_lt ?_
        rw [div_lt_iff₀ hS]
        rcases bor_t.mp e with e | e
        · have h4 : (posN n : ℝ) < x * rS := by
            rcases le_total 0 n with hn | hn
            · have : (posN n : Int) = n := by have := posN_eq n; omega
              have : (posN n : ℝ) = n := by exact_mod_cast this
              rw [this]; exact ha.2 e
            · have : (posN n : Int) = 0 := by have := posN_eq n; omega
              have : (posN n : ℝ) = 0 := by exact_mod_cast this
              rw [this]; positivity
          calc (posN n : ℝ) * posN m ≤ (posN n : ℝ) * (y * rS) := mul_le_mul_of_nonneg_left h2 (Nat.cast_nonneg _)
            _ < (x * rS) * (y * rS) := mul_lt_mul_of_pos_right h4 (by positivity)
            _ = _ := by ring
        · have h4 : (posN m : ℝ) < y * rS := by
            rcases le_total 0 m with hn | hn
            · have : (posN m : Int) = m := by have := posN_eq m; omega
              have : (posN m : ℝ) = m := by exact_mod_cast this
              rw [this]; exact hb.2 e
            · have : (posN m : Int) = 0 := by have := posN_eq m; omega
              have : (posN m : ℝ) = 0 := by exact_mod_cast this
              rw [this]; positivity
          calc (posN n : ℝ) * posN m ≤ (x * rS) * posN m := mul_le_mul_of_nonneg_right h1 (Nat.cast_nonneg _)
            _ < (x * rS) * (y * rS) := mul_lt_mul_of_pos_left h4 (by positivity)
            _ = _ := by ring

/-- From a bound of `-x` to an upper bound of `x`. -/
theorem hi_le {n : Int} {s : Bool} {x : ℝ} (h : LB (.fin n s) (-x)) : x * rS ≤ negN n := by
  have := neg_le_negN n
  have := h.1
  linarith
theorem hi_lt {n : Int} {s : Bool} {x : ℝ} (h : LB (.fin n s) (-x)) (e : s = true) : x * rS < negN n := by
  have := neg_le_negN n
  have := h.2 e
  linarith

theorem mulHi_ok {a b : Bd} {x y : ℝ} (ha : LB a (-x)) (hb : LB b (-y)) (hx : 0 ≤ x) (hy : 0 ≤ y) : LB (mulHi a b) (-(x * y)) := by
  have hS := rS_pos
  cases a with
  | inf => trivial
  | fin n s => cases b with
    | inf => trivial
    | fin m t =>
      have h1 := hi_le ha
      have h2 := hi_le hb
      have hx' : 0 ≤ x * rS := mul_nonneg hx hS.le
      have hy' : 0 ≤ y * rS := mul_nonneg hy hS.le
      have hc := le_ceil (Nat.mul (negN n) (negN m))
      rw [show ((Nat.mul (negN n) (negN m) : ℕ) : ℝ) = (negN n : ℝ) * negN m from Nat.cast_mul _ _] at hc
      have h3 : (x * rS) * (y * rS) ≤ (negN n : ℝ) * negN m := mul_le_mul h1 h2 hy' (Nat.cast_nonneg _)
      refine .negOfNat ?_ fun e => ?_
      · refine le_of_mul_le_mul_right ?_ hS
        calc x * y * rS * rS = (x * rS) * (y * rS) := by ring
          _ ≤ _ := h3.trans hc
      · rw [kif_beq] at e
        split_ifs at e with e0
        have hq : (0 : ℝ) < (negN n : ℝ) * negN m := by
          have : 0 < negN n * negN m := Nat.pos_of_ne_zero e0
          exact_mod_cast this
        refine lt_of_mul_lt_mul_right ?_ hS.le
        refine lt_of_lt_of_le ?_ hc
        have p1 : (0 : ℝ) < negN n := (pos_iff_pos_of_mul_pos hq).mpr (by
          rcases (Nat.cast_nonneg (α := ℝ) (negN m)).lt_or_eq with h | h
          · exact h
          · rw [← h, mul_zero] at hq; exact absurd hq (lt_irrefl _))
        have p2 : (0 : ℝ) < negN m := (pos_iff_pos_of_mul_pos hq).mp p1
        calc x * y * rS * rS = (x * rS) * (y * rS) := by ring
          _ < _ := by
            rcases bor_t.mp e with e | e
            · have h4 := hi_lt ha e
              calc (x * rS) * (y * rS) ≤ (x * rS) * negN m := mul_le_mul_of_nonneg_left h2 hx'
                _ < _ := mul_lt_mul_of_pos_right h4 p2
            · have h4 := hi_lt hb e
              calc (x * rS) * (y * rS) ≤ negN n * (y * rS) := mul_le_mul_of_nonneg_right h1 hy'
                _ < _ := mul_lt_mul_of_pos_left h4 p1

theorem mulNN_ok {a b : Itv} {x y : ℝ} (ha : a.Has x) (hb : b.Has y) (hx : 0 ≤ x) (hy : 0 ≤ y) : (mulNN a b).Has (x * y) :=
  ⟨mulLo_ok ha.lo hb.lo hx hy, mulHi_ok ha.hi hb.hi hx hy⟩

theorem mag_ok {β : Type} {a : Itv} {x : ℝ} (ha : a.Has x) (z : β) (k : ℕ → β) : mag a z k = z ∨ ∃ n : ℕ, |x| * rS ≤ n ∧ mag a z k = k n := by
  obtain ⟨lo, hi⟩ := a
  obtain ⟨h1, h2⟩ := ha
  cases lo with
  | inf => exact .inl rfl
  | fin n s => cases hi with
    | inf => exact .inl rfl
    | fin m t =>
      right
      have e1 : -x * rS ≤ negN n := by
        have := neg_le_negN n
        have := h1.1
        linarith
      have e2 := hi_le h2
      have key : ∀ q : ℕ, negN n ≤ q → negN m ≤ q → |x| * rS ≤ q := by
        intro q hn hm
        have hn' : (negN n : ℝ) ≤ q := by exact_mod_cast hn
        have hm' : (negN m : ℝ) ≤ q := by exact_mod_cast hm
        rcases abs_cases x with ⟨h, -⟩ | ⟨h, -⟩ <;> rw [h] <;> linarith
      show ∃ q : ℕ, _ ∧ (kif Nat.ble (negN n) (negN m) then k (negN m) else k (negN n)) = k q
      rw [kif_ble]
      split_ifs with h
      · exact ⟨_, key _ h le_rfl, rfl⟩
      · exact ⟨_, key _ le_rfl (by omega), rfl⟩

theorem mulMix_ok {a b : Itv} {x y : ℝ} (ha : a.Has x) (hb : b.Has y) : (mulMix a b).Has (x * y) := by
  have hS := rS_pos
  unfold mulMix
  rcases mag_ok ha top (fun x => mag b top fun y => (fun q => ⟨.fin (Int.negOfNat q) false, .fin (Int.negOfNat q) false⟩)
    (Nat.div (Nat.add (Nat.mul x y) 18446744073709551615) sc)) with h | ⟨n, hn, h⟩
  · rw [h]; exact has_top _
  · rw [h]
    rcases mag_ok hb top (fun y => (fun q => (⟨.fin (Int.negOfNat q) false, .fin (Int.negOfNat q) false⟩ : Itv))
      (Nat.div (Nat.add (Nat.mul n y) 18446744073709551615) sc)) with h | ⟨m, hm, h⟩
    · rw [h]; exact has_top _
    · rw [h]
      have hc := le_ceil (Nat.mul n m)
      rw [show ((Nat.mul n m : ℕ) : ℝ) = (n : ℝ) * m from Nat.cast_mul _ _] at hc
      have h3 : |x * y| * rS ≤ (Nat.div (Nat.add (Nat.mul n m) 18446744073709551615) sc : ℕ) := by
        refine le_of_mul_le_mul_right ?_ hS
        calc |x * y| * rS * rS = (|x| * rS) * (|y| * rS) := by rw [abs_mul]; ring
          _ ≤ n * m := mul_le_mul hn hm (by positivity) (Nat.cast_nonneg _)
          _ ≤ _ := hc
      have a1 := mul_le_mul_of_nonneg_right (le_abs_self (x * y)) hS.le
      have a2 := mul_le_mul_of_nonneg_right (neg_le_abs (x * y)) hS.le
      refine ⟨?_, .negOfNat (a1.trans h3) (fun e => nomatch e)⟩
      rw [← neg_neg (x * y)]
      exact .negOfNat (a2.trans h3) (fun e => nomatch e)

theorem Itv.Has.mul {a b : Itv} {x y : ℝ} (ha : a.Has x) (hb : b.Has y) : (a.mul b).Has (x * y) := by
  have za : ∀ {a : Itv} {x : ℝ}, a.Has x → bdNN a.lo = true → bdNN a.hi = true → x = 0 := fun h e1 e2 =>
    le_antisymm (by have := bdNN_ok e2 h.hi; linarith) (bdNN_ok e1 h.lo)
  unfold Itv.mul
  simp only [kif_eq]
  split_ifs with h1 h2 h3 h4 h5 h6 h7 h8 h9 h10
  · rw [za ha h1 h2, zero_mul]; exact has_zero
  · rw [za hb h3 h4, mul_zero]; exact has_zero
  · exact mulNN_ok ha hb (bdNN_ok h1 ha.lo) (bdNN_ok h3 hb.lo)
  · have := (mulNN_ok ha hb.neg (bdNN_ok h1 ha.lo) (bdNN_ok h5 hb.hi)).neg
    rwa [mul_neg, neg_neg] at this
  · exact mulMix_ok ha hb
  · rw [za hb h7 h8, mul_zero]; exact has_zero
  · have := (mulNN_ok ha.neg hb (bdNN_ok h6 ha.hi) (bdNN_ok h7 hb.lo)).neg
    rwa [neg_mul, neg_neg] at this
  · have := mulNN_ok ha.neg hb.neg (bdNN_ok h6 ha.hi) (bdNN_ok h9 hb.hi)
    rwa [neg_mul_neg] at this
  · exact mulMix_ok ha hb
  · obtain ⟨e1, e2⟩ := band_t.mp h10
    rw [za hb e1 e2, mul_zero]; exact has_zero
  · exact mulMix_ok ha hb

theorem Itv.Has.abs {a : Itv} {x : ℝ} (ha : a.Has x) : a.abs.Has |x| := by
  unfold Itv.abs
  simp only [kif_eq]
  split_ifs with h1 h2
  · rw [abs_of_nonneg (bdNN_ok h1 ha.lo)]; exact ha
  · rw [abs_of_nonpos (by have := bdNN_ok h2 ha.hi; linarith)]; exact ha.neg
  · rcases mag_ok ha nn (fun x => ⟨zeroB, .fin (Int.negOfNat x) false⟩) with h | ⟨n, hn, h⟩
    · rw [h]; exact has_nn (abs_nonneg x)
    · rw [h]; exact ⟨zeroB_ok (abs_nonneg x), .negOfNat hn (fun e => nomatch e)⟩

theorem has_ofNat {n m : ℕ} {x : ℝ} (h1 : (n : ℝ) ≤ x * rS) (h2 : x * rS ≤ m) : (Itv.ofNat n m).Has x :=
  ⟨.ofNat h1 (fun e => nomatch e), .negOfNat h2 (fun e => nomatch e)⟩

theorem has_npow {a : Itv} {x : ℝ} (ha : a.Has x) (n : ℕ) : (npowI a n).Has (x ^ n) := by
  induction n with
  | zero => exact has_ofNat (by simp) (by simp)
  | succ n ih => rw [pow_succ]; exact ih.mul ha

theorem Itv.Has.pow {a : Itv} {x : ℝ} (ha : a.Has x) (n : ℕ) : (a.pow n).Has (x ^ n) := by
  unfold Itv.pow
  rw [kif_beq]
  split_ifs with h
  · have hn : Even n := Nat.even_iff.mpr h
    rw [← hn.pow_abs]
    exact has_npow ha.abs n
  · have hn : Nat.mod n 2 = 1 := (Nat.mod_two_eq_zero_or_one n).resolve_left h
    have he : Even (Nat.sub n 1) := Nat.even_iff.mpr (by
      have h1 : n % 2 = 1 := hn
      show (n - 1) % 2 = 0
      omega)
    have e : x ^ n = |x| ^ (Nat.sub n 1) * x := by
      rw [he.pow_abs, ← pow_succ]
      congr 1
      have h1 : n % 2 = 1 := hn
      show n = n - 1 + 1
      omega
    rw [e]
    exact (has_npow ha.abs _).mul ha

theorem invPos_ok {a : Itv} {x : ℝ} (ha : a.Has x) (hx : 0 < x) : (invPos a).Has (1 / x) := by
  have hS := rS_pos
  obtain ⟨lo, hi⟩ := a
  obtain ⟨h1, h2⟩ := ha
  have hSS : ((Nat.mul sc sc : ℕ) : ℝ) = rS * rS := Nat.cast_mul _ _
  refine ⟨?_, ?_⟩
  · cases hi with
    | inf => exact posB_ok (one_div_pos.mpr hx)
    | fin m s =>
      have h3 := hi_le h2
      have hm : (0 : ℝ) < negN m := lt_of_lt_of_le (mul_pos hx hS) h3
      have hq := natDiv_le (Nat.mul sc sc) (negN m)
      rw [hSS] at hq
      have e : rS * rS / negN m ≤ 1 / x * rS := by
        rw [div_le_iff₀ hm, div_mul_eq_mul_div, div_mul_eq_mul_div, le_div_iff₀ hx, one_mul]
        calc rS * rS * x = rS * (x * rS) := by ring
          _ ≤ _ := mul_le_mul_of_nonneg_left h3 hS.le
      refine .ofNat (hq.trans e) fun e1 => ?_
      rcases bor_t.mp e1 with e1 | e1
      · refine hq.trans_lt ?_
        have h4 := hi_lt h2 e1
        rw [div_lt_iff₀ hm, div_mul_eq_mul_div, div_mul_eq_mul_div, lt_div_iff₀ hx, one_mul]
        calc rS * rS * x = rS * (x * rS) := by ring
          _ < _ := mul_lt_mul_of_pos_left h4 hS
      · rw [beq_t.mp e1]; push_cast; positivity
  · cases lo with
    | inf => trivial
    | fin n s =>
      show LB (kif Nat.beq (posN n) 0 then .inf else .fin (Int.negOfNat (Nat.div (Nat.add (Nat.mul sc sc) (Nat.sub (posN n) 1)) (posN n))) s) _
      rw [kif_beq]
      split_ifs with h0
      · trivial
      have hp : (0 : ℝ) < posN n := by exact_mod_cast Nat.pos_of_ne_zero h0
      have h3 : (posN n : ℝ) ≤ x * rS := posN_le h1.1 (mul_nonneg hx.le hS.le)
      have hq : rS * rS / posN n ≤ (Nat.div (Nat.add (Nat.mul sc sc) (Nat.sub (posN n) 1)) (posN n) : ℕ) := by
        rw [← hSS, div_le_iff₀ hp]
        have h4 : sc * sc ≤ (sc * sc + (posN n - 1)) / posN n * posN n := by
          have h5 := Nat.lt_mul_div_succ (sc * sc + (posN n - 1)) (Nat.pos_of_ne_zero h0)
          rw [Nat.mul_add, Nat.mul_one, Nat.mul_comm (posN n)] at h5
          generalize (sc * sc + (posN n - 1)) / posN n * posN n = u at h5 ⊢
          generalize sc * sc = w at h5 ⊢
          omega
        exact_mod_cast h4
      refine .negOfNat (le_trans ?_ hq) fun e1 => lt_of_lt_of_le ?_ hq
      · rw [le_div_iff₀ hp, div_mul_eq_mul_div, div_mul_eq_mul_div, div_le_iff₀ hx, one_mul]
        calc rS * posN n ≤ rS * (x * rS) := mul_le_mul_of_nonneg_left h3 hS.le
          _ = _ := by ring
      · have h4 : (posN n : ℝ) < x * rS := by
          have := h1.2 e1
          have h6 : (posN n : ℝ) = n := by
            have := posN_eq n
            exact_mod_cast (by omega : (posN n : Int) = n)
          rw [h6]; exact this
        rw [lt_div_iff₀ hp, div_mul_eq_mul_div, div_mul_eq_mul_div, div_lt_iff₀ hx, one_mul]
        calc rS * posN n < rS * (x * rS) := mul_lt_mul_of_pos_left h4 hS
          _ = _ := by ring

end

end Verif.Norm


/-!
# Soundness of the interval analysis: roots, logarithms and the other functions
-/
namespace Verif.Norm
open Verif.Py Verif.Spec

noncomputable section

theorem sqrtLo_ok (n : ℕ) : sqrtLo n * sqrtLo n ≤ n := by
  unfold sqrtLo
  simp only [kif_ble]
  split_ifs with h1 h2
  · exact h1
  · exact h2
  · simp
theorem sqrtUp_ok (n : ℕ) : n ≤ sqrtUp n * sqrtUp n := by
  unfold sqrtUp
  simp only [kif_ble, kif_beq]
  split_ifs with h0 h1
  · omega
  · exact h1
  · show n ≤ (n + 1) * (n + 1); nlinarith
theorem cbrtLo_ok (n : ℕ) : cbrtLo n * cbrtLo n * cbrtLo n ≤ n := by
  unfold cbrtLo
  simp only [kif_ble]
  split_ifs with h1 h2
  · exact h1
  · exact h2
  · simp
theorem cbrtUp_ok (n : ℕ) : n ≤ cbrtUp n * cbrtUp n * cbrtUp n := by
  unfold cbrtUp
  simp only [kif_ble]
  split_ifs with h1
  · exact h1
  · show n ≤ (n + 1) * (n + 1) * (n + 1); nlinarith [Nat.zero_le (n * n), Nat.zero_le (n * n * n)]

theorem cbrtR_cubed (x : ℝ) : cbrtR x ^ 3 = x := by
  have h0 : ∀ y : ℝ, 0 ≤ y → cbrtR y ^ 3 = y := fun y hy => by
    rw [cbrtR_of_nonneg hy, ← Real.rpow_natCast, ← Real.rpow_mul hy]; norm_num
  rcases le_total 0 x with h | h
  · exact h0 x h
  · have := h0 (-x) (by linarith)
    rw [cbrtR_neg] at this
    nlinarith

theorem cube_le {x y : ℝ} (h : x ^ 3 ≤ y ^ 3) : x ≤ y := (Odd.strictMono_pow (by decide : Odd 3)).le_iff_le.mp h
theorem cube_lt {x y : ℝ} (h : x ^ 3 < y ^ 3) : x < y := (Odd.strictMono_pow (by decide : Odd 3)).lt_iff_lt.mp h

theorem bdCbrt_ok {a : Bd} {x : ℝ} (ha : LB a x) : LB (bdCbrt a) (cbrtR x) := by
  have hS := rS_pos
  have e3 : (cbrtR x * rS) ^ 3 = x * rS * (rS * rS) := by rw [mul_pow, cbrtR_cubed]; ring
  cases a with
  | inf => trivial
  | fin n s => cases n with
    | ofNat k =>
      obtain ⟨h1, h2⟩ := ha
      rw [cast_ofNat] at h1 h2
      show LB (kif Nat.beq k 0 then .fin (Int.ofNat k) s else .fin (Int.ofNat (cbrtLo (Nat.mul k (Nat.mul sc sc)))) s) _
      rw [kif_beq]
      split_ifs with h0
      · subst h0
        refine .ofNat (cube_le ?_) fun e => cube_lt ?_
        · rw [e3]; push_cast; nlinarith [mul_pos hS hS, h1]
        · rw [e3]; push_cast; have := h2 e; push_cast at this; rw [zero_pow (by norm_num)]; positivity
      · have hr : ((cbrtLo (Nat.mul k (Nat.mul sc sc)) : ℕ) : ℝ) ^ 3 ≤ k * (rS * rS) := by
          have := cbrtLo_ok (Nat.mul k (Nat.mul sc sc))
          rw [pow_succ, pow_two]
          exact_mod_cast this
        refine .ofNat (cube_le ?_) fun e => cube_lt ?_
        · rw [e3]; exact hr.trans (mul_le_mul_of_nonneg_right h1 (by positivity))
        · rw [e3]; exact hr.trans_lt (mul_lt_mul_of_pos_right (h2 e) (by positivity))
    | negSucc k =>
      have h1 := ha.1
      have hr : ((Nat.succ k : ℕ) : ℝ) * (rS * rS) ≤ ((cbrtUp (Nat.mul (Nat.succ k) (Nat.mul sc sc)) : ℕ) : ℝ) ^ 3 := by
        have := cbrtUp_ok (Nat.mul (Nat.succ k) (Nat.mul sc sc))
        rw [pow_succ, pow_two]
        exact_mod_cast this
      have ek : ((Int.negSucc k : Int) : ℝ) = -((Nat.succ k : ℕ) : ℝ) := by rw [Int.cast_negSucc]
      rw [ek] at h1
      show LB (.fin (Int.negOfNat (cbrtUp (Nat.mul (Nat.succ k) (Nat.mul sc sc)))) false) _
      rw [← neg_neg (cbrtR x)]
      refine .negOfNat (cube_le ?_) fun e => nomatch e
      rw [neg_mul, neg_pow, e3]
      nlinarith [mul_pos hS hS]

theorem Itv.Has.cbrt {a : Itv} {x : ℝ} (ha : a.Has x) : a.cbrt.Has (cbrtR x) :=
  ⟨bdCbrt_ok ha.lo, by rw [← cbrtR_neg]; exact bdCbrt_ok ha.hi⟩

theorem Itv.Has.sqrt {a : Itv} {x : ℝ} (ha : a.Has x) (hx : 0 ≤ x) : a.sqrt.Has (Real.sqrt x) := by
  have hS := rS_pos
  have e2 : (Real.sqrt x * rS) ^ 2 = x * rS * rS := by rw [mul_pow, Real.sq_sqrt hx]; ring
  have hq := Real.sqrt_nonneg x
  obtain ⟨lo, hi⟩ := a
  obtain ⟨h1, h2⟩ := ha
  refine ⟨?_, ?_⟩
  · cases lo with
    | inf => exact zeroB_ok hq
    | fin n s =>
      show LB (kif Nat.beq (posN n) 0 then .fin n s else .fin (Int.ofNat (sqrtLo (Nat.mul (posN n) sc))) s) _
      rw [kif_beq]
      split_ifs with h0
      · have hn : n ≤ 0 := by have := posN_eq n; omega
        have hn' : (n : ℝ) ≤ 0 := by exact_mod_cast hn
        refine ⟨hn'.trans (by positivity), fun e => ?_⟩
        rcases hn.lt_or_eq with h | h
        · have : (n : ℝ) < 0 := by exact_mod_cast h
          exact this.trans_le (by positivity)
        · subst h
          have := h1.2 e
          push_cast at this ⊢
          have hx0 : 0 < x := pos_of_mul_pos_left this hS.le
          exact mul_pos (Real.sqrt_pos.mpr hx0) hS
      · have hpn : (posN n : ℝ) = n := by
          have := posN_eq n
          exact_mod_cast (by omega : (posN n : Int) = n)
        have hr : ((sqrtLo (Nat.mul (posN n) sc) : ℕ) : ℝ) ^ 2 ≤ n * rS := by
          have := sqrtLo_ok (Nat.mul (posN n) sc)
          rw [← hpn, pow_two]
          exact_mod_cast this
        refine .ofNat (pow_le_pow_left_iff_of_nonneg' ?_ ?_) fun e => lt_of_pow_lt_pow_left₀ 2 (by positivity) ?_
        · positivity
        · rw [e2]; exact hr.trans (mul_le_mul_of_nonneg_right h1.1 hS.le)
        · rw [e2]; exact hr.trans_lt (mul_lt_mul_of_pos_right (h1.2 e) hS)
  · cases hi with
    | inf => trivial
    | fin n s =>
      have h3 := hi_le h2
      have hr : (negN n : ℝ) * rS ≤ ((sqrtUp (Nat.mul (negN n) sc) : ℕ) : ℝ) ^ 2 := by
        have := sqrtUp_ok (Nat.mul (negN n) sc)
        rw [pow_two]
        exact_mod_cast this
      refine .negOfNat (pow_le_pow_left_iff_of_nonneg' (Nat.cast_nonneg _) ?_) fun e => nomatch e
      rw [e2]; exact (mul_le_mul_of_nonneg_right h3 hS.le).trans hr
where
  pow_le_pow_left_iff_of_nonneg' {u v : ℝ} (hv : 0 ≤ v) (h : u ^ 2 ≤ v ^ 2) : u ≤ v := by
    exact abs_le_of_sq_le_sq' h hv |>.2

theorem sqrtUp_div (h : ℕ) : (h : ℝ) / rS ≤ ((sqrtUp (Nat.mul h sc) : ℕ) / rS) ^ 2 := by
  have hS := rS_pos
  have := sqrtUp_ok (Nat.mul h sc)
  have h1 : (h : ℝ) * rS ≤ (sqrtUp (Nat.mul h sc) : ℝ) ^ 2 := by rw [pow_two]; exact_mod_cast this
  rw [div_pow, div_le_div_iff₀ hS (by positivity)]
  nlinarith

theorem root16_ok (h : ℕ) : (h : ℝ) / rS ≤ ((root16 h : ℕ) / rS) ^ 16 := by
  have hS := rS_pos
  have st : ∀ {u : ℝ} (v : ℕ) (n : ℕ), u ≤ ((v : ℝ) / rS) ^ n → u ≤ ((sqrtUp (Nat.mul v sc) : ℕ) / rS) ^ (2 * n) := by
    intro u v n hu
    refine hu.trans ?_
    rw [pow_mul]
    exact pow_le_pow_left₀ (by positivity) (sqrtUp_div v) n
  have h0 : (h : ℝ) / rS ≤ ((h : ℝ) / rS) ^ 1 := by rw [pow_one]
  exact st _ 8 (st _ 4 (st _ 2 (st _ 1 h0)))

theorem bdLog_ok {a : Bd} {z : ℝ} (ha : LB a (-z)) (hz : 0 < z) : LB (bdLog a) (-Real.log z) := by
  have hS := rS_pos
  cases a with
  | inf => trivial
  | fin n s =>
    have h1 := hi_le ha
    have h2 : z ≤ (negN n : ℝ) / rS := by rwa [le_div_iff₀ hS]
    have h3 := h2.trans (root16_ok (negN n))
    have hy : 0 < ((root16 (negN n) : ℕ) : ℝ) / rS := by
      rcases (by positivity : 0 ≤ ((root16 (negN n) : ℕ) : ℝ) / rS).lt_or_eq with h | h
      · exact h
      · rw [← h, zero_pow (by norm_num)] at h3; linarith
    have h4 : Real.log z ≤ 16 * (((root16 (negN n) : ℕ) : ℝ) / rS - 1) := by
      calc Real.log z ≤ Real.log ((((root16 (negN n) : ℕ) : ℝ) / rS) ^ 16) := Real.log_le_log hz h3
        _ = 16 * Real.log (((root16 (negN n) : ℕ) : ℝ) / rS) := by rw [Real.log_pow]; norm_num
        _ ≤ _ := mul_le_mul_of_nonneg_left (Real.log_le_sub_one_of_pos hy) (by norm_num)
    refine ⟨?_, fun e => nomatch e⟩
    rw [Int.subNatNat_eq_coe]
    push_cast
    rw [show ((Nat.mul 16 sc : ℕ) : ℝ) = 16 * rS from by exact_mod_cast rfl,
      show ((Nat.mul 16 (root16 (negN n)) : ℕ) : ℝ) = 16 * (root16 (negN n) : ℕ) from by exact_mod_cast rfl]
    have h5 := mul_le_mul_of_nonneg_right h4 hS.le
    have h6 : 16 * (((root16 (negN n) : ℕ) : ℝ) / rS - 1) * rS = 16 * (root16 (negN n) : ℕ) - 16 * rS := by field_simp
    rw [h6] at h5
    linarith

theorem posN_ge {n : Int} (h : sc ≤ posN n) : (posN n : ℝ) = n := by
  have := posN_eq n
  have h1 : 0 < posN n := lt_of_lt_of_le (by decide) h
  exact_mod_cast (by omega : (posN n : Int) = n)

theorem Itv.Has.log {a : Itv} {x : ℝ} (ha : a.Has x) (hx : 0 < x) : a.log.Has (Real.log x) := by
  have hS := rS_pos
  refine ⟨bdMax_ok ?_ ?_, bdMax_ok (bdLog_ok ha.hi hx) ?_⟩
  · have := bdLog_ok (invPos_ok ha hx).hi (one_div_pos.mpr hx)
    rwa [one_div, Real.log_inv, neg_neg] at this
  · obtain ⟨lo, hi⟩ := a
    obtain ⟨h1, h2⟩ := ha
    cases lo with
    | inf => trivial
    | fin n s =>
      show LB (kif Nat.ble sc (posN n) then .fin (Int.ofNat 0) (bor s (Nat.ble (Nat.succ sc) (posN n))) else .inf) _
      rw [kif_ble]
      split_ifs with h
      · have hn := posN_ge h
        have h3 : rS ≤ n := by rw [← hn]; exact_mod_cast h
        have h4 : 1 ≤ x := by
          refine le_of_mul_le_mul_right ?_ hS
          rw [one_mul]; exact h3.trans h1.1
        refine .ofNat (by have := Real.log_nonneg h4; push_cast; positivity) fun e => ?_
        have h5 : 1 < x := by
          refine lt_of_mul_lt_mul_right ?_ hS.le
          rw [one_mul]
          rcases bor_t.mp e with e | e
          · exact h3.trans_lt (h1.2 e)
          · refine lt_of_lt_of_le ?_ h1.1
            rw [← hn]
            exact_mod_cast ble_t.mp e
        have := Real.log_pos h5
        push_cast; positivity
      · trivial
  · obtain ⟨lo, hi⟩ := a
    obtain ⟨h1, h2⟩ := ha
    cases hi with
    | inf => trivial
    | fin n s =>
      show LB (kif Nat.ble (negN n) sc then .fin (Int.ofNat 0) (bor s (Nat.ble (Nat.succ (negN n)) sc)) else .inf) _
      rw [kif_ble]
      split_ifs with h
      · have h' : (negN n : ℝ) ≤ rS := by exact_mod_cast h
        have h4 : x ≤ 1 := by
          refine le_of_mul_le_mul_right ?_ hS
          rw [one_mul]; exact (hi_le h2).trans h'
        refine .ofNat ?_ fun e => ?_
        · have := Real.log_nonpos hx.le h4
          push_cast
          exact mul_nonneg (by linarith) hS.le
        · have h5 : x < 1 := by
            refine lt_of_mul_lt_mul_right ?_ hS.le
            rw [one_mul]
            rcases bor_t.mp e with e | e
            · exact (hi_lt h2 e).trans_le h'
            · exact (hi_le h2).trans_lt (by exact_mod_cast ble_t.mp e)
          have := Real.log_neg hx h5
          push_cast
          exact mul_pos (by linarith) hS
      · trivial

theorem bdSign_ok {a : Bd} {x y : ℝ} (ha : LB a x) (h1 : 0 ≤ x → 0 ≤ y) (h2 : 0 < x → 0 < y) : LB (bdSign a) y := by
  unfold bdSign
  simp only [kif_eq]
  split_ifs with e1 e2
  · exact posB_ok (h2 (bdPos_ok e1 ha))
  · exact zeroB_ok (h1 (bdNN_ok e2 ha))
  · trivial

theorem sign_odd {a : Itv} {x : ℝ} (ha : a.Has x) (f : ℝ → ℝ) (hf : ∀ x, f (-x) = -f x) (h1 : ∀ x, 0 ≤ x → 0 ≤ f x) (h2 : ∀ x, 0 < x → 0 < f x) :
    a.sign.Has (f x) := ⟨bdSign_ok ha.lo (h1 x) (h2 x), by rw [← hf]; exact bdSign_ok ha.hi (h1 _) (h2 _)⟩

theorem sc_pos : 0 < sc := by decide

theorem sq10_lo {r0 : ℕ} {y : ℝ} (hy : 0 ≤ y) (h : (r0 : ℝ) ≤ y * rS) (n : ℕ) :
    ((Nat.rec r0 (fun _ r => Nat.div (Nat.mul r r) sc) n : ℕ) : ℝ) ≤ y ^ (2 ^ n) * rS := by
  have hS := rS_pos
  induction n with
  | zero => simpa using h
  | succ n ih =>
    set r : ℕ := Nat.rec r0 (fun _ r => Nat.div (Nat.mul r r) sc) n
    change ((r * r / sc : ℕ) : ℝ) ≤ _
    have h1 : ((r * r / sc : ℕ) : ℝ) * rS ≤ r * r := by
      rw [rS]; exact_mod_cast Nat.div_mul_le_self (r * r) sc
    have h2 : (r : ℝ) * r ≤ y ^ (2 ^ n) * rS * (y ^ (2 ^ n) * rS) := mul_le_mul ih ih (by positivity) (by positivity)
    refine le_of_mul_le_mul_right ?_ hS
    calc _ ≤ (r : ℝ) * r := h1
      _ ≤ _ := h2
      _ = _ := by rw [pow_succ 2 n, pow_mul]; ring

theorem sq10_up {r0 : ℕ} {y : ℝ} (hy : 0 ≤ y) (h : y * rS ≤ r0) (n : ℕ) :
    y ^ (2 ^ n) * rS ≤ ((Nat.rec r0 (fun _ r => Nat.succ (Nat.div (Nat.mul r r) sc)) n : ℕ) : ℝ) := by
  have hS := rS_pos
  induction n with
  | zero => simpa using h
  | succ n ih =>
    set r : ℕ := Nat.rec r0 (fun _ r => Nat.succ (Nat.div (Nat.mul r r) sc)) n
    change _ ≤ ((r * r / sc + 1 : ℕ) : ℝ)
    have h1 : (r : ℝ) * r ≤ ((r * r / sc + 1 : ℕ) : ℝ) * rS := by
      rw [rS]
      have := (Nat.lt_div_mul_add (a := r * r) (b := sc) sc_pos).le
      exact_mod_cast this.trans (by rw [Nat.add_mul, one_mul])
    have h2 : y ^ (2 ^ n) * rS * (y ^ (2 ^ n) * rS) ≤ (r : ℝ) * r := mul_le_mul ih ih (by positivity) (by positivity)
    refine le_of_mul_le_mul_right ?_ hS
    calc _ = y ^ (2 ^ n) * rS * (y ^ (2 ^ n) * rS) := by rw [pow_succ 2 n, pow_mul]; ring
      _ ≤ _ := h2
      _ ≤ _ := h1

theorem exp_1024 (x : ℝ) : Real.exp (x / 1024) ^ (2 ^ 10) = Real.exp x := by
  rw [← Real.exp_nat_mul]; congr 1; push_cast; ring

theorem expLo_ok {n : Int} {x : ℝ} (h : (n : ℝ) ≤ x * rS) : (expLo n : ℝ) ≤ Real.exp x * rS := by
  have hS := rS_pos
  rw [← exp_1024 x]
  refine sq10_lo (Real.exp_pos _).le ?_ 10
  have key : ((kif Nat.ble (posN (Int.add n (Int.ofNat (Nat.mul 1024 sc)))) (Nat.mul 1724 sc) then posN (Int.add n (Int.ofNat (Nat.mul 1024 sc))) else Nat.mul 1724 sc : ℕ) : ℝ) ≤
      Real.exp (x / 1024) * rS * 1024 := by
    have h1 : ((kif Nat.ble (posN (Int.add n (Int.ofNat (Nat.mul 1024 sc)))) (Nat.mul 1724 sc) then posN (Int.add n (Int.ofNat (Nat.mul 1024 sc))) else Nat.mul 1724 sc : ℕ) : ℝ) ≤
        posN (Int.add n (Int.ofNat (Nat.mul 1024 sc))) := by
      rw [kif_ble]
      split_ifs with h
      · exact le_rfl
      · exact_mod_cast (not_le.mp h).le
    refine h1.trans (posN_le ?_ (by positivity))
    have h2 := mul_le_mul_of_nonneg_right (Real.add_one_le_exp (x / 1024)) hS.le
    change ((n + ((1024 * sc : ℕ) : Int) : Int) : ℝ) ≤ _
    have h3 : ((sc : ℕ) : ℝ) = rS := rfl
    push_cast
    rw [h3]
    linarith
  set m : ℕ := (kif Nat.ble (posN (Int.add n (Int.ofNat (Nat.mul 1024 sc)))) (Nat.mul 1724 sc) then posN (Int.add n (Int.ofNat (Nat.mul 1024 sc))) else Nat.mul 1724 sc : ℕ)
  have h4 : ((m / 1024 : ℕ) : ℝ) * 1024 ≤ m := by exact_mod_cast Nat.div_mul_le_self m 1024
  change ((m / 1024 : ℕ) : ℝ) ≤ _
  linarith

theorem expUp_ok {m : ℕ} {x : ℝ} (hm : m ≤ 2048 * sc) (h : (1024 + x) * rS ≤ m) : Real.exp x * rS ≤ expUp m := by
  have hS := rS_pos
  have h3 : ((sc : ℕ) : ℝ) = rS := rfl
  obtain ⟨t, ht⟩ : ∃ t : ℝ, (m : ℝ) = 1024 * (1 + t) * rS := ⟨m / (1024 * rS) - 1, by field_simp; ring⟩
  have hxt : x / 1024 ≤ t := by
    have : (1024 + x) ≤ 1024 * (1 + t) := le_of_mul_le_mul_right (by linarith) hS
    linarith
  have ht1 : -1 ≤ t := by
    have h0 : (0 : ℝ) ≤ m := by positivity
    rw [ht] at h0
    have := nonneg_of_mul_nonneg_left h0 hS
    linarith
  have ht2 : t ≤ 1 := by
    have h0 : (m : ℝ) ≤ 2048 * rS := by rw [← h3]; exact_mod_cast hm
    rw [ht] at h0
    have := le_of_mul_le_mul_right h0 hS
    linarith
  have hexp : Real.exp (x / 1024) ≤ 1 + t + t ^ 2 := by
    have h5 := (abs_le.mp (Real.abs_exp_sub_one_sub_id_le (abs_le.mpr ⟨ht1, ht2⟩))).2
    have h6 := Real.exp_le_exp.mpr hxt
    linarith
  rw [← exp_1024 x]
  refine sq10_up (Real.exp_pos _).le ((mul_le_mul_of_nonneg_right hexp hS.le).trans ?_) 10
  change _ ≤ (((m * m / (1048576 * sc) + 1 + sc - m / 1024) + 1 : ℕ) : ℝ)
  have h7 : ((m * m : ℕ) : ℝ) ≤ ((m * m / (1048576 * sc) + 1 : ℕ) : ℝ) * (1048576 * rS) := by
    have := (Nat.lt_div_mul_add (a := m * m) (b := 1048576 * sc) (by decide)).le
    rw [← h3]
    exact_mod_cast this.trans (by rw [Nat.add_mul, one_mul])
  have h8 : ((m / 1024 : ℕ) : ℝ) * 1024 ≤ m := by exact_mod_cast Nat.div_mul_le_self m 1024
  have h9 : ((m * m / (1048576 * sc) + 1 + sc : ℕ) : ℝ) - ((m / 1024 : ℕ) : ℝ) ≤ ((m * m / (1048576 * sc) + 1 + sc - m / 1024 : ℕ) : ℝ) := by
    have : ((m * m / (1048576 * sc) + 1 + sc : ℕ) : ℝ) ≤ ((m * m / (1048576 * sc) + 1 + sc - m / 1024 : ℕ) : ℝ) + ((m / 1024 : ℕ) : ℝ) := by
      exact_mod_cast (by omega : m * m / (1048576 * sc) + 1 + sc ≤ (m * m / (1048576 * sc) + 1 + sc - m / 1024) + m / 1024)
    linarith
  have h10 : (1 + t) ^ 2 * rS ≤ ((m * m / (1048576 * sc) + 1 : ℕ) : ℝ) := by
    refine le_of_mul_le_mul_right ?_ (by positivity : (0 : ℝ) < 1048576 * rS)
    refine le_trans (le_of_eq ?_) h7
    push_cast
    rw [ht]; ring
  have h11 : ((m * m / (1048576 * sc) + 1 + sc : ℕ) : ℝ) = ((m * m / (1048576 * sc) + 1 : ℕ) : ℝ) + rS := by
    rw [Nat.cast_add (m * m / (1048576 * sc) + 1) sc, h3]
  rw [h11] at h9
  rw [Nat.cast_add _ 1, Nat.cast_one]
  rw [ht] at h8
  nlinarith

theorem bdExpLo_ok {a : Bd} {x : ℝ} (h : LB a x) : LB (bdExpLo a) (Real.exp x) := by
  have hS := rS_pos
  have hx := Real.exp_pos x
  cases a with
  | inf => exact posB_ok hx
  | fin n s =>
    refine .ofNat (expLo_ok h.1) fun e => ?_
    have e : expLo n = 0 := Nat.eq_of_beq_eq_true e
    rw [e, Nat.cast_zero]; positivity

theorem bdExpUp_ok {a : Bd} {x : ℝ} (h : LB a (-x)) : LB (bdExpUp a) (-Real.exp x) := by
  have hS := rS_pos
  cases a with
  | inf => trivial
  | fin n s =>
    change LB (kif _ then _ else _) _
    rw [kif_ble]
    split_ifs with hm
    · refine .negOfNat (expUp_ok hm ?_) fun e => nomatch e
      refine le_trans ?_ (le_posN _)
      have h1 : (n : ℝ) ≤ -x * rS := h.1
      have h3 : ((sc : ℕ) : ℝ) = rS := rfl
      change _ ≤ ((((1024 * sc : ℕ) : Int) - n : Int) : ℝ)
      push_cast
      rw [h3]
      linarith
    · trivial

theorem Itv.Has.exp {a : Itv} {x : ℝ} (ha : a.Has x) : a.exp.Has (Real.exp x) := by
  have hS := rS_pos
  refine ⟨bdMax_ok ?_ (bdExpLo_ok ha.lo), bdMax_ok ?_ (bdExpUp_ok ha.hi)⟩ <;> simp only [kif_eq] <;> split_ifs with h
  · refine .ofNat ?_ fun e => ?_
    · have := mul_le_mul_of_nonneg_right (Real.one_le_exp (bdNN_ok h ha.lo)) hS.le
      rwa [one_mul] at this
    · have := mul_lt_mul_of_pos_right (Real.one_lt_exp_iff.mpr (bdPos_ok e ha.lo)) hS
      rwa [one_mul] at this
  · exact posB_ok (Real.exp_pos x)
  · refine .negOfNat ?_ fun e => ?_
    · have := mul_le_mul_of_nonneg_right (Real.exp_le_one_iff.mpr (by have := bdNN_ok h ha.hi; linarith : x ≤ 0)) hS.le
      rwa [one_mul] at this
    · have := mul_lt_mul_of_pos_right (Real.exp_lt_one_iff.mpr (by have := bdPos_ok e ha.hi; linarith : x < 0)) hS
      rwa [one_mul] at this
  · trivial

theorem bdGe1_ok {a : Bd} {x : ℝ} (h : bdGe1 a = true) (ha : LB a x) : 1 ≤ x := by
  cases a with
  | inf => cases h
  | fin n s =>
    have h' := ble_t.mp h
    refine le_of_mul_le_mul_right ?_ rS_pos
    rw [one_mul]
    refine le_trans ?_ ha.1
    rw [← posN_ge h']
    exact_mod_cast h'
theorem bdLe1_ok {a : Bd} {x : ℝ} (h : bdLe1 a = true) (ha : LB a (-x)) : x ≤ 1 := by
  cases a with
  | inf => cases h
  | fin n s =>
    have h' := ble_t.mp h
    refine le_of_mul_le_mul_right ?_ rS_pos
    rw [one_mul]
    exact (hi_le ha).trans (by exact_mod_cast h')

theorem powPos_ok {a b : Itv} {x y : ℝ} (ha : a.Has x) (hb : b.Has y) (hx : 0 < x) : (powPos a b).Has (x ^ y) := by
  refine Itv.Has.meet ?_ (by rw [Real.rpow_def_of_pos hx]; exact ((ha.log hx).mul hb).exp)
  refine ⟨?_, ?_⟩ <;> simp only [kif_eq] <;> split_ifs with h
  · apply oneB_ok
    rcases bor_t.mp h with h | h <;> obtain ⟨h1, h2⟩ := band_t.mp h
    · exact Real.one_le_rpow (bdGe1_ok h2 ha.lo) (bdNN_ok h1 hb.lo)
    · exact Real.one_le_rpow_of_pos_of_le_one_of_nonpos hx (bdLe1_ok h2 ha.hi) (by have := bdNN_ok h1 hb.hi; linarith)
  · exact posB_ok (Real.rpow_pos_of_pos hx y)
  · apply monB_ok
    rcases bor_t.mp h with h | h <;> obtain ⟨h1, h2⟩ := band_t.mp h
    · exact Real.rpow_le_one hx.le (bdLe1_ok h2 ha.hi) (bdNN_ok h1 hb.lo)
    · exact Real.rpow_le_one_of_one_le_of_nonpos (bdGe1_ok h2 ha.lo) (by have := bdNN_ok h1 hb.hi; linarith)
  · trivial

/-- What an abstract number says about an operation with value `y`, defined when `d`. -/
def NumOk (a : AV) (d : Prop) (y : ℝ) : Prop :=
  match a with
  | .num I _ => d ∧ I.Has y
  | .undef => True
  | .bool _ _ => False

theorem unitI_ok {x : ℝ} (h1 : -1 < x) (h2 : x < 1) : unitI.Has x := by
  have hS := rS_pos
  refine ⟨?_, .negOfNat (by nlinarith) fun _ => by nlinarith⟩
  rw [← neg_neg x]
  exact .negOfNat (by nlinarith) fun _ => by nlinarith

theorem aFn1_ok (P : Prims) (f : Fn1) {I : Itv} {x : ℝ} (h : I.Has x) : NumOk (aFn1 f I) (dom1 f x) (fn1Val P f x) := by
  have hS := rS_pos
  have hlin : ∀ {y : ℝ}, |y| ≤ 1 → (⟨monB, monB⟩ : Itv).Has y := fun {y} hy => by
    obtain ⟨h1, h2⟩ := abs_le.mp hy
    exact ⟨by rw [← neg_neg y]; exact monB_ok (by linarith), monB_ok h2⟩
  cases f with
  | cbrt => exact ⟨trivial, h.cbrt⟩
  | log =>
    show NumOk (kif bdPos I.lo then .num I.log .none else .undef) _ _
    rw [kif_eq]
    split_ifs with h1
    · have hx := bdPos_ok h1 h.lo
      exact ⟨hx, h.log hx⟩
    · trivial
  | sqrt =>
    show NumOk (kif bdNN I.lo then .num I.sqrt .none else .undef) _ _
    rw [kif_eq]
    split_ifs with h1
    · have hx := bdNN_ok h1 h.lo
      exact ⟨hx, h.sqrt hx⟩
    · trivial
  | exp => exact ⟨trivial, h.exp⟩
  | arctan =>
    refine ⟨trivial, (sign_odd h Real.arctan Real.arctan_neg (fun x hx => Real.arctan_nonneg.mpr hx) (fun x hx => Real.arctan_pos.mpr hx)).meet ?_⟩
    have h1 := Real.arctan_lt_pi_div_two x
    have h2 := Real.neg_pi_div_two_lt_arctan x
    have h3 := Real.pi_lt_d2
    have e : ((Nat.mul 2 sc : ℕ) : ℝ) = 2 * rS := by exact_mod_cast rfl
    refine ⟨?_, .negOfNat (by rw [e]; exact mul_le_mul_of_nonneg_right (by linarith) hS.le) fun e => nomatch e⟩
    show LB _ (Real.arctan x)
    rw [← neg_neg (Real.arctan x)]
    exact .negOfNat (by rw [e]; exact mul_le_mul_of_nonneg_right (by linarith) hS.le) fun e => nomatch e
  | arcsinh =>
    exact ⟨trivial, sign_odd h Real.arsinh (fun x => Real.arsinh_neg x) (fun x hx => Real.arsinh_nonneg_iff.mpr hx) (fun x hx => Real.arsinh_pos_iff.mpr hx)⟩
  | arctanh =>
    show NumOk (kif bdPos (bdAdd I.lo oneB) then kif bdPos (bdAdd I.hi oneB) then .num I.sign .none else .undef else .undef) _ _
    rw [kif_eq, kif_eq]
    split_ifs with h1 h2
    · have e1 := bdPos_ok h1 (bdAdd_ok h.lo (oneB_ok le_rfl))
      have e2 := bdPos_ok h2 (bdAdd_ok h.hi (oneB_ok le_rfl))
      have hd : dom1 .arctanh x := ⟨by linarith, by linarith⟩
      refine ⟨hd, bdSign_ok h.lo Real.artanh_nonneg fun hx => Real.artanh_pos ⟨hx, hd.2⟩, bdSign_ok h.hi (fun hx => ?_) fun hx => ?_⟩
      · have := Real.artanh_nonpos (by linarith : x ≤ 0)
        exact neg_nonneg.mpr this
      · have := Real.artanh_neg (x := x) ⟨hd.1, by linarith⟩
        exact neg_pos.mpr this
    · trivial
    · trivial
  | abs => exact ⟨trivial, h.abs⟩
  | tanh =>
    have key : ∀ y : ℝ, 0 < y → 0 < Real.tanh y := fun y hy => by
      rw [Real.tanh_eq_sinh_div_cosh]; exact div_pos (Real.sinh_pos_iff.mpr hy) (Real.cosh_pos y)
    refine ⟨trivial, (sign_odd h Real.tanh Real.tanh_neg (fun y hy => ?_) key).meet
      (unitI_ok (Real.neg_one_lt_tanh x) (Real.tanh_lt_one x))⟩
    rcases hy.lt_or_eq with hy | hy
    · exact (key y hy).le
    · rw [← hy, Real.tanh_zero]
  | cosh => exact ⟨trivial, oneB_ok (Real.one_le_cosh x), trivial⟩
  | cos => exact ⟨trivial, hlin (Real.abs_cos_le_one x)⟩
  | sin => exact ⟨trivial, hlin (Real.abs_sin_le_one x)⟩
  | erf => exact ⟨trivial, has_top _⟩
  | erfc => exact ⟨trivial, has_top _⟩
  | i0 => exact ⟨trivial, has_top _⟩
  | lambertw =>
    show NumOk (kif bdNN I.lo then .num top .none else .undef) _ _
    rw [kif_eq]
    split_ifs with h1
    · have hx := bdNN_ok h1 h.lo
      have hd : dom1 .lambertw x := by
        have := Real.exp_pos (-1)
        show -Real.exp (-1) ≤ x
        linarith
      exact ⟨hd, has_top _⟩
    · trivial
  | e1Scaled =>
    show NumOk (kif bdPos I.lo then .num top .none else .undef) _ _
    rw [kif_eq]
    split_ifs with h1
    · have hx := bdPos_ok h1 h.lo
      exact ⟨hx, has_top _⟩
    · trivial
  | erfcx => exact ⟨trivial, has_top _⟩
  | heaviside =>
    refine ⟨trivial, ?_⟩
    show (⟨zeroB, monB⟩ : Itv).Has (heavisideR x)
    unfold heavisideR
    split_ifs
    · exact ⟨zeroB_ok le_rfl, monB_ok zero_le_one⟩
    · exact ⟨zeroB_ok zero_le_one, monB_ok le_rfl⟩

end

end Verif.Norm


/-!
# Soundness of the interval analysis: expressions and bodies
-/
namespace Verif.Norm
open Verif.Py Verif.Spec Verif.Model

noncomputable section

/-- The inputs that tags refer to. -/
structure Vars where
  r0 : ℝ
  r1 : ℝ
  s0 : ℝ
  s1 : ℝ
  s2 : ℝ

/-- What a tag says. -/
def ITag (V : Vars) (t : Tag) (x : ℝ) : Prop :=
  match t with
  | .none => True
  | .one => x = 1
  | .two => x = 2
  | .r0 => x = V.r0
  | .r1 => x = V.r1
  | .s0 => x = V.s0
  | .s1 => x = V.s1
  | .s2 => x = V.s2
  | .sum => x = V.r0 + V.r1
  | .isum => x = 1 / (V.r0 + V.r1)
  | .diff => x = V.r0 - V.r1
  | .sum2 => x = (V.r0 + V.r1) ^ 2
  | .isum2 => x = 1 / (V.r0 + V.r1) ^ 2
  | .diff2 => x = (V.r0 - V.r1) ^ 2
  | .twoS1 => x = 2 * V.s1
  | .s01 => x = V.s0 + 2 * V.s1
  | .half => x = V.r0 / 2
  | .twoR0 => x = 2 * V.r0
  | .twoR1 => x = 2 * V.r1

def TriOk (t : Tri) (b : Prop) : Prop :=
  match t with
  | .tt => b
  | .ff => ¬ b
  | .unk => True

def CmpOk (op : Nat) (x y : ℝ) (b : Prop) : Prop :=
  (op = 1 ∧ (b ↔ x ≤ y)) ∨ (op = 2 ∧ (b ↔ x < y)) ∨ (op = 3 ∧ (b ↔ x = y))

/-- What a stored comparison says. -/
def FactOk (P : Prims) (E : Env) (T : Nat → Option Val) (f : Fact) (b : Prop) : Prop :=
  f.op ≠ 0 → ∃ x y, (keyE f.x ≠ 0 → seval P E T f.x = some (.num x)) ∧ (keyE f.y ≠ 0 → seval P E T f.y = some (.num y)) ∧
    f.I.Has x ∧ f.J.Has y ∧ CmpOk f.op x y b

/-- What an abstract value says. -/
def AVOk (P : Prims) (E : Env) (V : Vars) (T : Nat → Option Val) (a : AV) (v : Option Val) : Prop :=
  match a with
  | .undef => True
  | .num I t => ∃ x, v = some (.num x) ∧ I.Has x ∧ ITag V t x
  | .bool t f => ∃ b, v = some (.bool b) ∧ TriOk t b ∧ FactOk P E T f b

/-- The environment meets the assumptions. -/
structure Good (C : ACfg) (E : Env) (V : Vars) : Prop where
  r0 : 0 < V.r0
  r1 : 0 ≤ V.r1
  z : C.zI.Has ((V.r0 - V.r1) / (V.r0 + V.r1))
  zz : C.zzI.Has ((V.r0 - V.r1) ^ 2 / (V.r0 + V.r1) ^ 2)
  tot : C.stI.Has (V.s0 + 2 * V.s1 + V.s2)
  inp : ∀ i I t, ainp C i = .num I t → ∃ x, E.inp i = .ok x ∧ I.Has x ∧ ITag V t x
  fld : ∀ f, (afld C f).Has (E.fld f)
  par : ∀ c, mem c C.par = true → C.pI.Has (E.param c)
  npar : ∀ c, mem c C.npar = true → C.pI.Has (-E.param c)
  oth : ∀ c, C.oI.Has (E.param c)
  above : C.above = true → E.fld .densThreshold < V.r0 ∧ (C.pol = false → E.fld .densThreshold < V.r0 / 2)
  above1 : C.above1 = true → E.fld .densThreshold < V.r1

/-- The temporaries are as described. -/
def TrieOk (P : Prims) (E : Env) (V : Vars) (A : Trie AV) (T : Nat → Option Val) : Prop :=
  ∀ n, match Trie.get 20 A n with
    | none => T n = none
    | some a => AVOk P E V T a (T n)

/-- More temporaries have values. -/
def Ext (T T' : Nat → Option Val) : Prop := ∀ n v, T n = some v → T' n = some v

theorem key_mono {P : Prims} {E : Env} {T T' : Nat → Option Val} (hT : Ext T T') {e : Expr} (hk : keyE e ≠ 0) {v : Val}
    (h : seval P E T e = some v) : seval P E T' e = some v := by
  cases e <;> first | exact absurd rfl hk | exact h | exact hT _ _ h

theorem FactOk.mono {P : Prims} {E : Env} {T T' : Nat → Option Val} (hT : Ext T T') {f : Fact} {b : Prop} (h : FactOk P E T f b) : FactOk P E T' f b := by
  intro h0
  obtain ⟨x, y, h1, h2, h3⟩ := h h0
  exact ⟨x, y, fun hk => key_mono hT hk (h1 hk), fun hk => key_mono hT hk (h2 hk), h3⟩

theorem AVOk.mono {P : Prims} {E : Env} {V : Vars} {T T' : Nat → Option Val} (hT : Ext T T') {a : AV} {v : Option Val} (h : AVOk P E V T a v) :
    AVOk P E V T' a v := by
  cases a with
  | undef => trivial
  | num I t => exact h
  | bool t f =>
    obtain ⟨b, h1, h2, h3⟩ := h
    exact ⟨b, h1, h2, h3.mono hT⟩

theorem Trie.get_set_self {α : Type} (x : α) (f : Nat) (t : Trie α) (k : Nat) (h : k < 2 ^ f) : Trie.get (f + 1) (Trie.set x (f + 1) t k) k = some x := by
  induction f generalizing t k with
  | zero =>
    have h0 : k = 0 := by omega
    subst h0
    cases t <;> rfl
  | succ f ih =>
    have h' : k / 2 < 2 ^ f := by rw [pow_succ] at h; omega
    cases t with
    | leaf =>
      rw [Trie.set_succ_leaf]
      split_ifs with h1 h2
      · rw [Trie.get_succ_node, if_pos h1]
      · rw [Trie.get_succ_node, if_neg h1, if_pos h2]; exact ih _ _ h'
      · rw [Trie.get_succ_node, if_neg h1, if_neg h2]; exact ih _ _ h'
    | node v l r =>
      rw [Trie.set_succ_node]
      split_ifs with h1 h2
      · rw [Trie.get_succ_node, if_pos h1]
      · rw [Trie.get_succ_node, if_neg h1, if_pos h2]; exact ih _ _ h'
      · rw [Trie.get_succ_node, if_neg h1, if_neg h2]; exact ih _ _ h'

theorem Trie.get_set_none {α : Type} (x : α) (f : Nat) (t : Trie α) (k k' : Nat) (h : Trie.get f (Trie.set x f t k) k' = none) :
    Trie.get f t k' = none := by
  induction f generalizing t k k' with
  | zero => rfl
  | succ f ih =>
    cases t with
    | leaf => exact Trie.get_leaf _ _
    | node v l r =>
      rw [Trie.set_succ_node] at h
      rw [Trie.get_succ_node]
      split_ifs at h with h1 h2
      · rw [Trie.get_succ_node] at h
        split_ifs at h ⊢ <;> exact h
      · rw [Trie.get_succ_node] at h
        split_ifs at h ⊢ <;> first | exact h | exact ih _ _ _ h
      · rw [Trie.get_succ_node] at h
        split_ifs at h ⊢ <;> first | exact h | exact ih _ _ _ h

theorem Bd.force_eq {β : Type} (a : Bd) (k : Bd → β) : a.force k = k a := by
  cases a with
  | inf => rfl
  | fin n s => cases n with
    | ofNat n => cases n <;> rfl
    | negSucc n => cases n <;> rfl

theorem AV.force_eq {β : Type} (a : AV) (k : AV → β) : a.force k = k a := by
  cases a with
  | undef => rfl
  | bool t f => rfl
  | num I t =>
    obtain ⟨lo, hi⟩ := I
    show lo.force (fun lo => hi.force fun hi => k (.num ⟨lo, hi⟩ t)) = _
    rw [Bd.force_eq, Bd.force_eq]

section
variable {P : Prims} {E : Env} {V : Vars} {T : Nat → Option Val}

theorem AVOk.num {I : Itv} {t : Tag} {x : ℝ} (h : I.Has x) (ht : ITag V t x) : AVOk P E V T (.num I t) (some (.num x)) := ⟨x, rfl, h, ht⟩

theorem av2_ok {a b : AV} {va vb w : Option Val} {k : Itv → Tag → Itv → Tag → AV} (ha : AVOk P E V T a va) (hb : AVOk P E V T b vb)
    (h : ∀ I s x J t y, va = some (.num x) → I.Has x → ITag V s x → vb = some (.num y) → J.Has y → ITag V t y → AVOk P E V T (k I s J t) w) :
    AVOk P E V T (av2 a b k) w := by
  cases a with
  | undef => trivial
  | bool _ _ => trivial
  | num I s => cases b with
    | undef => trivial
    | bool _ _ => trivial
    | num J t =>
      obtain ⟨x, h1, h2, h3⟩ := ha
      obtain ⟨y, h4, h5, h6⟩ := hb
      exact h I s x J t y h1 h2 h3 h4 h5 h6

theorem tagTT {b : Bool} {β γ : Tag} {x : ℝ} (h1 : b = true → ITag V β x) (h2 : ITag V γ x) : ITag V (kif b then β else γ) x := by
  cases b
  · exact h2
  · exact h1 rfl

theorem alit_ok (n : Nat) (e : Int) : AVOk P E V T (alit n e) (some (.num ((n : ℝ) * (10 : ℝ) ^ e))) := by
  have hS := rS_pos
  cases e with
  | ofNat e =>
    have hx : (n : ℝ) * (10 : ℝ) ^ (Int.ofNat e) = ((n * 10 ^ e : ℕ) : ℝ) := by
      push_cast; rw [Int.ofNat_eq_natCast, zpow_natCast]
    refine .num ?_ ?_
    · rw [hx]
      have hq : ((Nat.mul sc (Nat.mul n (Nat.pow 10 e)) : ℕ) : ℝ) = ((n * 10 ^ e : ℕ) : ℝ) * rS := by
        rw [mul_comm]; exact_mod_cast rfl
      refine ⟨.ofNat hq.le fun h => (nomatch h), .negOfNat hq.ge fun h => (nomatch h)⟩
    · have key : ∀ m : ℕ, Nat.beq n m = true → Nat.beq e 0 = true → (n : ℝ) * (10 : ℝ) ^ (Int.ofNat e) = m := by
        intro m h1 h2
        rw [hx, beq_t.mp h1, beq_t.mp h2]; norm_num
      exact tagTT (fun h1 => tagTT (fun h2 => by have := key 1 h1 h2; push_cast at this; exact this) trivial)
        (tagTT (fun h1 => tagTT (fun h2 => by have := key 2 h1 h2; push_cast at this; exact this) trivial) trivial)
  | negSucc e =>
    have hd : (0 : ℝ) < ((10 ^ (e + 1) : ℕ) : ℝ) := by positivity
    have hdN : 0 < 10 ^ (e + 1) := by positivity
    have hx : (n : ℝ) * (10 : ℝ) ^ (Int.negSucc e) = n / ((10 ^ (e + 1) : ℕ) : ℝ) := by
      rw [zpow_negSucc, div_eq_mul_inv]; push_cast; rfl
    rw [hx]
    have hq1 : ((Nat.div (Nat.mul sc n) (10 ^ (e + 1)) : ℕ) : ℝ) * ((10 ^ (e + 1) : ℕ) : ℝ) ≤ rS * n := by
      have := Nat.div_mul_le_self (sc * n) (10 ^ (e + 1))
      exact_mod_cast this
    have hxs : (n : ℝ) / ((10 ^ (e + 1) : ℕ) : ℝ) * rS = rS * n / ((10 ^ (e + 1) : ℕ) : ℝ) := by ring
    refine .num ⟨.ofNat ?_ fun h => ?_, .negOfNat ?_ fun h => nomatch h⟩ ?_
    · rw [hxs, le_div_iff₀ hd]; exact hq1
    · change (kif Nat.beq (Nat.div (Nat.mul sc n) (Nat.pow 10 (Nat.succ e))) 0 then Nat.ble 1 n else false) = true at h
      rw [kif_beq] at h
      split_ifs at h with h0
      have hn : 1 ≤ n := ble_t.mp h
      have hn' : (0 : ℝ) < n := by exact_mod_cast hn
      refine lt_of_eq_of_lt (b := 0) ?_ (by positivity)
      exact_mod_cast h0
    · show _ ≤ (((kif Nat.beq (Nat.mul (Nat.div (Nat.mul sc n) (10 ^ (e + 1))) (10 ^ (e + 1))) (Nat.mul sc n) then Nat.div (Nat.mul sc n) (10 ^ (e + 1))
        else Nat.succ (Nat.div (Nat.mul sc n) (10 ^ (e + 1))) : ℕ)) : ℝ)
      rw [kif_beq, hxs]
      split_ifs with h0
      · rw [div_le_iff₀ hd]
        have : (Nat.div (Nat.mul sc n) (10 ^ (e + 1))) * (10 ^ (e + 1)) = sc * n := h0
        exact le_of_eq (by exact_mod_cast this.symm)
      · rw [div_le_iff₀ hd]
        have := (Nat.lt_succ_mul_of_div' (sc * n) hdN).le
        exact_mod_cast this
    · refine tagTT (fun h1 => ?_) (tagTT (fun h1 => ?_) trivial)
      · have h : n = 10 ^ (e + 1) := beq_t.mp h1
        show (n : ℝ) / _ = 1
        rw [h, div_self hd.ne']
      · have h : n = 2 * 10 ^ (e + 1) := beq_t.mp h1
        show (n : ℝ) / _ = 2
        rw [h, Nat.cast_mul, mul_div_assoc, div_self hd.ne']
        norm_num
where
  Nat.lt_succ_mul_of_div' (m : ℕ) {d : ℕ} (hd : 0 < d) : m < Nat.succ (m / d) * d := by
    rw [mul_comm]; exact Nat.lt_mul_div_succ m hd

theorem litNat_ok {a : AV} {w : Option Val} {b : Expr} {k : Nat → AV} {y : ℝ} (hy : seval P E T b = some (.num y))
    (hz : AVOk P E V T a w) (hk : ∀ n : ℕ, y = n → AVOk P E V T (k n) w) : AVOk P E V T (litNat b a k) w := by
  cases b <;> try exact hz
  rename_i n e
  have e1 : y = (n : ℝ) * (10 : ℝ) ^ e := by
    have := Option.some.inj hy
    exact (Val.num.inj this).symm
  cases e with
  | ofNat e =>
    refine hk _ (e1.trans ?_)
    rw [Int.ofNat_eq_natCast, zpow_natCast]
    show _ = ((n * 10 ^ e : ℕ) : ℝ)
    push_cast; rfl
  | negSucc e =>
    show AVOk P E V T (kif Nat.beq (Nat.mod n (10 ^ (e + 1))) 0 then k (Nat.div n (10 ^ (e + 1))) else a) w
    rw [kif_beq]
    split_ifs with h
    · refine hk _ (e1.trans ?_)
      have h1 : n / 10 ^ (e + 1) * 10 ^ (e + 1) = n := Nat.div_mul_cancel (Nat.dvd_of_mod_eq_zero h)
      have h2 : ((n / 10 ^ (e + 1) : ℕ) : ℝ) * (10 : ℝ) ^ (e + 1) = n := by exact_mod_cast h1
      show _ = ((n / 10 ^ (e + 1) : ℕ) : ℝ)
      rw [zpow_negSucc, ← h2, mul_assoc, mul_inv_cancel₀ (by positivity), mul_one]
    · exact hz

theorem inv_ok {J : Itv} {y : ℝ} {z : AV} {k : Itv → AV} {w : Option Val} (h : J.Has y) (hz : AVOk P E V T z w)
    (hk : ∀ K : Itv, y ≠ 0 → K.Has (1 / y) → AVOk P E V T (k K) w) : AVOk P E V T (J.inv z k) w := by
  unfold Itv.inv
  simp only [kif_eq]
  split_ifs with h1 h2
  · have hy := bdPos_ok h1 h.lo
    exact hk _ hy.ne' (invPos_ok h hy)
  · have hy := bdPos_ok h2 h.hi
    refine hk _ (by linarith : y < 0).ne ?_
    have := (invPos_ok h.neg hy).neg
    rwa [one_div_neg_eq_neg_one_div, neg_neg] at this
  · exact hz

theorem piI_ok : piI.Has Real.pi := by
  have h1 := Real.pi_gt_d20
  have h2 := Real.pi_lt_d20
  have e : rS = 18446744073709551616 := by unfold rS; norm_num [sc]
  refine ⟨.ofNat ?_ (fun h => nomatch h), .negOfNat ?_ (fun h => nomatch h)⟩
  · rw [e]; push_cast; norm_num at h1 ⊢; linarith
  · rw [e]; push_cast; norm_num at h2 ⊢; linarith

theorem unit_lem {a b : ℝ} (ha : 0 < a) (hb : 0 < b) : unitI.Has ((a - b) / (a + b)) := by
  apply unitI_ok
  · rw [lt_div_iff₀ (by positivity)]; linarith
  · rw [div_lt_iff₀ (by positivity)]; linarith

theorem unitNN_lem {a b : ℝ} (ha : 0 < a) (hb : 0 < b) : unitNN.Has ((a - b) ^ 2 / (a + b) ^ 2) := by
  have hS := rS_pos
  refine ⟨zeroB_ok (by positivity), .negOfNat ?_ fun _ => ?_⟩
  · have : (a - b) ^ 2 / (a + b) ^ 2 ≤ 1 := by rw [div_le_iff₀ (by positivity)]; nlinarith
    have := mul_le_mul_of_nonneg_right this hS.le
    rwa [one_mul] at this
  · have : (a - b) ^ 2 / (a + b) ^ 2 < 1 := by rw [div_lt_iff₀ (by positivity)]; nlinarith [mul_pos ha hb]
    have := mul_lt_mul_of_pos_right this hS
    rwa [one_mul] at this

theorem has_one : oneI.Has 1 := has_ofNat (by simp) (by simp)

variable {C : ACfg} (G : Good C E V)

theorem aSub_ok {I J : Itv} {s t : Tag} {x y : ℝ} (h1 : I.Has x) (h2 : ITag V s x) (h3 : J.Has y) (h4 : ITag V t y) :
    AVOk P E V T (aSub I s J t) (some (.num (x - y))) := by
  unfold aSub
  split
  · exact .num (h1.sub h3) (congrArg₂ (· - ·) h2 h4)
  · exact .num (h1.sub h3) trivial

section
include G
theorem aAdd_ok {I J : Itv} {s t : Tag} {x y : ℝ} (h1 : I.Has x) (h2 : ITag V s x) (h3 : J.Has y) (h4 : ITag V t y) :
    AVOk P E V T (aAdd C I s J t) (some (.num (x + y))) := by
  unfold aAdd
  split
  · exact .num (h1.add h3) (congrArg₂ (· + ·) h2 h4)
  · exact .num (h1.add h3) (congrArg₂ (· + ·) h2 h4)
  · refine .num ((h1.add h3).meet ?_) trivial
    have e : x + y = V.s0 + 2 * V.s1 + V.s2 := congrArg₂ (· + ·) h2 h4
    rw [e]; exact G.tot
  · exact .num (h1.add h3) trivial

theorem aMul_ok {I J : Itv} {s t : Tag} {x y : ℝ} (h1 : I.Has x) (h2 : ITag V s x) (h3 : J.Has y) (h4 : ITag V t y) :
    AVOk P E V T (aMul C I s J t) (some (.num (x * y))) := by
  have hs := add_pos_of_pos_of_nonneg G.r0 G.r1
  unfold aMul
  split
  · exact .num (h1.mul h3) (congrArg₂ (· * ·) h2 h4)
  · exact .num (h1.mul h3) (congrArg₂ (· * ·) h2 h4)
  · exact .num (h1.mul h3) (congrArg₂ (· * ·) h2 h4)
  · have e : x * y = (V.r0 - V.r1) / (V.r0 + V.r1) := (congrArg₂ (· * ·) h2 h4).trans (by ring)
    rw [e]; exact .num G.z trivial
  · have e : x * y = (V.r0 - V.r1) ^ 2 / (V.r0 + V.r1) ^ 2 := (congrArg₂ (· * ·) h2 h4).trans (by ring)
    rw [e]; exact .num G.zz trivial
  · have e : x * y = 1 + (V.r0 - V.r1) / (V.r0 + V.r1) := (congrArg₂ (· * ·) h2 h4).trans (by field_simp; ring)
    rw [e]; exact .num (has_one.add G.z) trivial
  · have e : x * y = 1 - (V.r0 - V.r1) / (V.r0 + V.r1) := (congrArg₂ (· * ·) h2 h4).trans (by field_simp; ring)
    rw [e]; exact .num (has_one.sub G.z) trivial
  · exact .num (h1.mul h3) trivial

open Classical in
theorem aDiv_ok {I J : Itv} {s t : Tag} {x y : ℝ} (h1 : I.Has x) (h2 : ITag V s x) (h3 : J.Has y) (h4 : ITag V t y) :
    AVOk P E V T (aDiv C I s J t) (if y = 0 then none else some (.num (x / y))) := by
  have hs := add_pos_of_pos_of_nonneg G.r0 G.r1
  have gen : ∀ tg : Tag, (y ≠ 0 → ITag V tg (x / y)) →
      AVOk P E V T (J.inv .undef fun K => .num (I.mul K) tg) (if y = 0 then none else some (.num (x / y))) := by
    intro tg htg
    refine inv_ok h3 trivial fun K hy hK => ?_
    rw [if_neg hy]
    refine .num ?_ (htg hy)
    rw [div_eq_mul_one_div]; exact h1.mul hK
  unfold aDiv
  split
  · have e1 : x = V.r0 - V.r1 := h2
    have e2 : y = V.r0 + V.r1 := h4
    rw [if_neg (by rw [e2]; exact hs.ne'), e1, e2]
    exact .num G.z trivial
  · have e1 : x = (V.r0 - V.r1) ^ 2 := h2
    have e2 : y = (V.r0 + V.r1) ^ 2 := h4
    rw [if_neg (by rw [e2]; positivity), e1, e2]
    exact .num G.zz trivial
  · exact gen _ fun _ => congrArg₂ (· / ·) h2 h4
  · exact gen _ fun _ => congrArg₂ (· / ·) h2 h4
  · exact gen _ fun _ => congrArg₂ (· / ·) h2 h4
  · exact gen _ fun _ => trivial
end

theorem domPow_nat (x : ℝ) (n : ℕ) : domPow x n := by
  rcases lt_trichotomy x 0 with h | h | h
  · exact .inr (.inr ⟨h, n, by push_cast; rfl⟩)
  · exact .inr (.inl ⟨h, Nat.cast_nonneg n⟩)
  · exact .inl h

open Classical in
theorem aPow_ok {b : Expr} {I J : Itv} {s : Tag} {x y : ℝ} (h1 : I.Has x) (h2 : ITag V s x) (h3 : J.Has y) (hb : seval P E T b = some (.num y)) :
    AVOk P E V T (aPow b I s J) (if domPow x y then some (.num (x ^ y)) else none) := by
  have hz : AVOk P E V T (kif bdPos I.lo then .num (powPos I J) .none else kif bdNN I.lo then (kif bdNN J.lo then .num (kif band (bdNN I.hi) (bdPos J.lo) then zeroI else nn) .none else .undef) else .undef)
      (if domPow x y then some (.num (x ^ y)) else none) := by
    rw [kif_eq]
    by_cases h4 : bdPos I.lo = true
    · have hx := bdPos_ok h4 h1.lo
      rw [if_pos h4, if_pos (.inl hx)]
      exact .num (powPos_ok h1 h3 hx) trivial
    · rw [if_neg h4, kif_eq]
      by_cases h5 : bdNN I.lo = true
      · rw [if_pos h5, kif_eq]
        by_cases h6 : bdNN J.lo = true
        · have hx := bdNN_ok h5 h1.lo
          have hy := bdNN_ok h6 h3.lo
          rw [if_pos h6, if_pos (hx.lt_or_eq.elim .inl fun h => .inr (.inl ⟨h.symm, hy⟩))]
          refine .num ?_ trivial
          rw [kif_eq]
          split_ifs with h7
          · obtain ⟨h8, h9⟩ := band_t.mp h7
            have hx' := bdNN_ok h8 h1.hi
            have hy' := bdPos_ok h9 h3.lo
            rw [show x = 0 by linarith, Real.zero_rpow hy'.ne']
            exact has_zero
          · exact has_nn (Real.rpow_nonneg hx y)
        · rw [if_neg h6]; trivial
      · rw [if_neg h5]; trivial
  have hk : ∀ n : ℕ, y = n → AVOk P E V T (kif Nat.ble n 64 then .num (I.pow n) (powTag s n) else
      (kif bdPos I.lo then .num (powPos I J) .none else kif bdNN I.lo then (kif bdNN J.lo then .num (kif band (bdNN I.hi) (bdPos J.lo) then zeroI else nn) .none else .undef) else .undef))
      (if domPow x y then some (.num (x ^ y)) else none) := by
    intro n hn
    rw [kif_eq (Nat.ble n 64)]
    by_cases h4 : Nat.ble n 64 = true
    · rw [if_pos h4]
      subst hn
      rw [if_pos (domPow_nat x n), Real.rpow_natCast]
      refine .num (h1.pow n) ?_
      unfold powTag
      split
      · rw [kif_beq]
        split_ifs with h6
        · subst h6; exact congrArg (· ^ 2) h2
        · trivial
      · rw [kif_beq]
        split_ifs with h6
        · subst h6; exact congrArg (· ^ 2) h2
        · trivial
      · trivial
    · rw [if_neg h4]; exact hz
  exact litNat_ok hb hz hk

theorem key_eq {a b : Expr} (h0 : keyE a ≠ 0) (h : keyE a = keyE b) : a = b := by
  have e1 : ∀ n : ℕ, Nat.add 1 (Nat.mul 4 n) = 4 * n + 1 := fun n => by show 1 + 4 * n = _; omega
  have e2 : ∀ n : ℕ, Nat.add 2 (Nat.mul 4 n) = 4 * n + 2 := fun n => by show 2 + 4 * n = _; omega
  have e3 : ∀ n : ℕ, Nat.add 3 (Nat.mul 4 n) = 4 * n + 3 := fun n => by show 3 + 4 * n = _; omega
  cases a <;> first | exact absurd rfl h0 | skip
  · rename_i i
    cases b <;> first | exact absurd h h0 | skip
    · rename_i j
      cases i <;> cases j <;> first | rfl | exact absurd h (by decide)
    · rename_i f
      simp only [keyE, e1, e2] at h; omega
    · simp only [keyE, e1, e3] at h; omega
  · rename_i i
    cases b <;> first | exact absurd h h0 | skip
    · simp only [keyE, e1, e2] at h; omega
    · rename_i j
      cases i <;> cases j <;> first | rfl | exact absurd h (by decide)
    · simp only [keyE, e2, e3] at h; omega
  · rename_i i
    cases b <;> first | exact absurd h h0 | skip
    · simp only [keyE, e1, e3] at h; omega
    · simp only [keyE, e2, e3] at h; omega
    · simp only [keyE, e3] at h
      congr 1; omega

theorem same_spec {a x : Expr} (h : sameE (keyE a) x = true) : keyE x ≠ 0 ∧ a = x := by
  unfold sameE at h
  rw [kif_beq] at h
  split_ifs at h with h0
  have h' := beq_t.mp h
  exact ⟨h' ▸ h0, key_eq h0 h'⟩

theorem LB.le {a : Bd} {x y : ℝ} (h : LB a x) (hxy : x ≤ y) : LB a y := by
  cases a with
  | inf => trivial
  | fin n s =>
    have := mul_le_mul_of_nonneg_right hxy rS_pos.le
    exact ⟨h.1.trans this, fun e => (h.2 e).trans_le this⟩

theorem LB.strict {a : Bd} {x y : ℝ} {s : Bool} (h : LB a x) (hxy : x ≤ y) (hs : s = true → x < y) : LB (bdStrict s a) y := by
  cases a with
  | inf => trivial
  | fin n t =>
    have h1 := mul_le_mul_of_nonneg_right hxy rS_pos.le
    refine ⟨h.1.trans h1, fun e => ?_⟩
    rcases bor_t.mp e with e | e
    · exact h.1.trans_lt (mul_lt_mul_of_pos_right (hs e) rS_pos)
    · exact (h.2 e).trans_le h1

theorem refT_ok {f : Fact} {b : Prop} (hf : FactOk P E T f b) (h0 : f.op ≠ 0) (hb : b) {a : Expr} {I : Itv} {u : ℝ}
    (ha : seval P E T a = some (.num u)) (hI : I.Has u) : (refT f a I).Has u := by
  obtain ⟨x, y, hx, hy, hIx, hJy, hc⟩ := hf h0
  have hle : x ≤ y := by
    rcases hc with ⟨_, h⟩ | ⟨_, h⟩ | ⟨_, h⟩
    · exact h.mp hb
    · exact (h.mp hb).le
    · exact (h.mp hb).le
  have hlt : Nat.beq f.op 2 = true → x < y := fun e => by
    have e := beq_t.mp e
    rcases hc with ⟨h, _⟩ | ⟨_, h⟩ | ⟨h, _⟩
    · omega
    · exact h.mp hb
    · omega
  unfold refT
  simp only [kif_eq]
  split_ifs with h1 h2
  · obtain ⟨hk, rfl⟩ := same_spec h1
    have e : u = x := by have := ha.symm.trans (hx hk); exact Val.num.inj (Option.some.inj this)
    subst e
    exact ⟨hI.lo, bdMax_ok hI.hi (hJy.hi.strict (by linarith) fun e => by have := hlt e; linarith)⟩
  · obtain ⟨hk, rfl⟩ := same_spec h2
    have e : u = y := by have := ha.symm.trans (hy hk); exact Val.num.inj (Option.some.inj this)
    subst e
    exact ⟨bdMax_ok hI.lo (hIx.lo.strict hle hlt), hI.hi⟩
  · exact hI

theorem refF_ok {f : Fact} {b : Prop} (hf : FactOk P E T f b) (h0 : f.op ≠ 0) (hb : ¬ b) {a : Expr} {I : Itv} {u : ℝ}
    (ha : seval P E T a = some (.num u)) (hI : I.Has u) : (refF f a I).Has u := by
  obtain ⟨x, y, hx, hy, hIx, hJy, hc⟩ := hf h0
  unfold refF
  simp only [kif_eq]
  by_cases h3 : Nat.beq f.op 3 = true
  · rw [if_pos h3]
    have h3' := beq_t.mp h3
    have hne : x ≠ y := by
      rcases hc with ⟨h, _⟩ | ⟨h, _⟩ | ⟨_, h⟩
      · omega
      · omega
      · exact fun e => hb (h.mpr e)
    split_ifs with h1 h2 h4 h5
    · obtain ⟨hk, rfl⟩ := same_spec h1
      have e : u = x := by have := ha.symm.trans (hx hk); exact Val.num.inj (Option.some.inj this)
      subst e
      have y0 := bdNN_ok h2 hJy.lo
      have y1 := bdNN_ok h4 hJy.hi
      have hy0 : y = 0 := by linarith
      have hu : 0 < u := lt_of_le_of_ne (bdNN_ok h5 hI.lo) (by rw [← hy0]; exact hne.symm)
      exact ⟨bdMax_ok hI.lo (posB_ok hu), hI.hi⟩
    all_goals exact hI
  · rw [if_neg h3]
    have h3' : f.op ≠ 3 := fun e => h3 (beq_t.mpr e)
    have hle : y ≤ x := by
      rcases hc with ⟨_, h⟩ | ⟨_, h⟩ | ⟨h, _⟩
      · exact (not_le.mp fun e => hb (h.mpr e)).le
      · exact not_lt.mp fun e => hb (h.mpr e)
      · exact absurd h h3'
    have hlt : Nat.beq f.op 1 = true → y < x := fun e => by
      have e := beq_t.mp e
      rcases hc with ⟨_, h⟩ | ⟨h, _⟩ | ⟨h, _⟩
      · exact not_le.mp fun e => hb (h.mpr e)
      · omega
      · omega
    split_ifs with h1 h2
    · obtain ⟨hk, rfl⟩ := same_spec h1
      have e : u = x := by have := ha.symm.trans (hx hk); exact Val.num.inj (Option.some.inj this)
      subst e
      exact ⟨bdMax_ok hI.lo (hJy.lo.strict hle hlt), hI.hi⟩
    · obtain ⟨hk, rfl⟩ := same_spec h2
      have e : u = y := by have := ha.symm.trans (hy hk); exact Val.num.inj (Option.some.inj this)
      subst e
      exact ⟨hI.lo, bdMax_ok hI.hi (hIx.hi.strict (by linarith) fun e => by have := hlt e; linarith)⟩
    · exact hI

open Classical in
theorem aCond_ok {c a b : AV} {ea eb : Expr} {vc : Option Val} (hc : AVOk P E V T c vc) (ha : AVOk P E V T a (seval P E T ea))
    (hb : AVOk P E V T b (seval P E T eb)) :
    AVOk P E V T (aCond c ea eb a b) (do
      let z ← sBool vc
      let x ← sNum (if z then seval P E T ea else seval P E T eb)
      some (.num x)) := by
  cases c with
  | undef => trivial
  | num _ _ => trivial
  | bool t f =>
    obtain ⟨z, rfl, ht, hf⟩ := hc
    have A : z → ∀ I s, a = .num I s → ∃ x, seval P E T ea = some (.num x) ∧ I.Has x ∧ ITag V s x ∧
        (do let z ← sBool (some (.bool z)); let x ← sNum (if z then seval P E T ea else seval P E T eb); some (Val.num x)) = some (.num x) := by
      rintro hz I s rfl
      obtain ⟨x, h1, h2, h3⟩ := ha
      refine ⟨x, h1, h2, h3, ?_⟩
      simp only [sBool, Option.bind_eq_bind, Option.bind_some, if_pos hz, h1, sNum]
    have B : ¬ z → ∀ I s, b = .num I s → ∃ x, seval P E T eb = some (.num x) ∧ I.Has x ∧ ITag V s x ∧
        (do let z ← sBool (some (.bool z)); let x ← sNum (if z then seval P E T ea else seval P E T eb); some (Val.num x)) = some (.num x) := by
      rintro hz I s rfl
      obtain ⟨x, h1, h2, h3⟩ := hb
      refine ⟨x, h1, h2, h3, ?_⟩
      simp only [sBool, Option.bind_eq_bind, Option.bind_some, if_neg hz, h1, sNum]
    cases t with
    | tt =>
      cases a with
      | undef => trivial
      | bool _ _ => trivial
      | num I s => obtain ⟨x, -, h2, h3, h4⟩ := A ht I s rfl; exact ⟨x, h4, h2, h3⟩
    | ff =>
      cases b with
      | undef => trivial
      | bool _ _ => trivial
      | num I s => obtain ⟨x, -, h2, h3, h4⟩ := B ht I s rfl; exact ⟨x, h4, h2, h3⟩
    | unk =>
      cases a with
      | undef => trivial
      | bool _ _ => trivial
      | num I s => cases b with
        | undef => trivial
        | bool _ _ => trivial
        | num J t =>
          show AVOk P E V T (kif Nat.beq f.op 0 then .num (I.join J) .none else .num ((refT f ea I).join (refF f eb J)) .none) _
          rw [kif_beq]
          by_cases hz : z
          · obtain ⟨x, h1, h2, -, h4⟩ := A hz I s rfl
            rw [h4]
            split_ifs with h0
            · exact .num (h2.join_left _) trivial
            · exact .num ((refT_ok hf h0 hz h1 h2).join_left _) trivial
          · obtain ⟨x, h1, h2, -, h4⟩ := B hz J t rfl
            rw [h4]
            split_ifs with h0
            · exact .num (h2.join_right _) trivial
            · exact .num ((refF_ok hf h0 hz h1 h2).join_right _) trivial

theorem tri2 {b : Prop} {c : Bool} {t1 t2 : Tri} (h1 : c = true → TriOk t1 b) (h2 : TriOk t2 b) : TriOk (kif c then t1 else t2) b := by
  cases c
  · exact h2
  · exact h1 rfl

theorem tri3 {b : Prop} {c d : Bool} {t1 t2 t3 : Tri} (h1 : c = true → TriOk t1 b) (h2 : d = true → TriOk t2 b) (h3 : TriOk t3 b) :
    TriOk (kif c then t1 else kif d then t2 else t3) b := by
  cases c
  · cases d
    · exact h3
    · exact h2 rfl
  · exact h1 rfl

include G in
theorem aboveT_ok {s : Tag} {y : Expr} {u v : ℝ} (h : aboveT C s y = true) (hs : ITag V s u) (hy : seval P E T y = some (.num v)) : ¬ u ≤ v := by
  unfold aboveT at h
  rw [kif_beq] at h
  split_ifs at h with h2
  have e : y = .fld .densThreshold := (key_eq (a := .fld .densThreshold) (by decide) (show 6 = keyE y from h2.symm)).symm
  subst e
  have hv : v = E.fld .densThreshold := (Val.num.inj (Option.some.inj hy)).symm
  rw [hv, not_le]
  split at h
  · have hs : u = V.r0 := hs
    rw [hs]; exact (G.above h).1
  · have hs : u = V.r1 := hs
    rw [hs]; exact G.above1 h
  · rw [kif_eq] at h
    split_ifs at h with h3
    have hs : u = V.r0 / 2 := hs
    rw [hs]; exact (G.above h).2 (by simpa using h3)
  · cases h

include G in
theorem aLe_ok {x y : Expr} {I J : Itv} {s : Tag} {u v : ℝ} (hx : seval P E T x = some (.num u)) (hy : seval P E T y = some (.num v)) (hI : I.Has u)
    (hs : ITag V s u) (hJ : J.Has v) : AVOk P E V T (aLe C x y I s J) (some (.bool (u ≤ v))) := by
  have hd := hJ.sub hI
  refine ⟨_, rfl, tri3 (t3 := kif _ then _ else _) (fun h => aboveT_ok G h hs hy) (fun h => ?_) (tri2 (fun h => ?_) trivial),
    fun _ => ⟨u, v, fun _ => hx, fun _ => hy, hI, hJ, .inl ⟨rfl, Iff.rfl⟩⟩⟩
  · have := bdNN_ok h hd.lo
    show u ≤ v; linarith
  · have := bdPos_ok h hd.hi
    show ¬ u ≤ v; intro; linarith

theorem aLt_ok {x y : Expr} {I J : Itv} {u v : ℝ} (hx : seval P E T x = some (.num u)) (hy : seval P E T y = some (.num v)) (hI : I.Has u) (hJ : J.Has v) :
    AVOk P E V T (aLt x y I J) (some (.bool (u < v))) := by
  have hd := hJ.sub hI
  refine ⟨_, rfl, tri3 (fun h => ?_) (fun h => ?_) trivial, fun _ => ⟨u, v, fun _ => hx, fun _ => hy, hI, hJ, .inr (.inl ⟨rfl, Iff.rfl⟩)⟩⟩
  · have := bdPos_ok h hd.lo
    show u < v; linarith
  · have := bdNN_ok h hd.hi
    show ¬ u < v; intro; linarith

theorem aEq_ok {x y : Expr} {I J : Itv} {u v : ℝ} (hx : seval P E T x = some (.num u)) (hy : seval P E T y = some (.num v)) (hI : I.Has u) (hJ : J.Has v) :
    AVOk P E V T (aEq x y I J) (some (.bool (u = v))) := by
  have hd := hJ.sub hI
  refine ⟨_, rfl, tri3 (fun h => ?_) (fun h => ?_) trivial, fun _ => ⟨u, v, fun _ => hx, fun _ => hy, hI, hJ, .inr (.inr ⟨rfl, Iff.rfl⟩)⟩⟩
  · have := bdPos_ok h hd.lo
    show ¬ u = v; intro; linarith
  · have := bdPos_ok h hd.hi
    show ¬ u = v; intro; linarith

theorem avB_ok {a b : AV} {va vb w : Option Val} {k : Tri → Tri → Tri} {op : Prop → Prop → Prop} (ha : AVOk P E V T a va) (hb : AVOk P E V T b vb)
    (hk : ∀ s t x y, TriOk s x → TriOk t y → TriOk (k s t) (op x y))
    (hw : ∀ x y, va = some (.bool x) → vb = some (.bool y) → w = some (.bool (op x y))) : AVOk P E V T (avB a b k) w := by
  cases a with
  | undef => trivial
  | num _ _ => trivial
  | bool s f => cases b with
    | undef => trivial
    | num _ _ => trivial
    | bool t g =>
      obtain ⟨x, h1, h2, -⟩ := ha
      obtain ⟨y, h4, h5, -⟩ := hb
      exact ⟨_, hw x y h1 h4, hk _ _ _ _ h2 h5, fun h => absurd rfl h⟩

theorem triOr_ok (s t : Tri) (x y : Prop) (h1 : TriOk s x) (h2 : TriOk t y) : TriOk (triOr s t) (x ∨ y) := by
  cases s <;> cases t <;> simp_all [TriOk, triOr]
theorem triAnd_ok (s t : Tri) (x y : Prop) (h1 : TriOk s x) (h2 : TriOk t y) : TriOk (triAnd s t) (x ∧ y) := by
  cases s <;> cases t <;> simp_all [TriOk, triAnd]

include G
theorem ainp_ok (i : Inp) : AVOk P E V T (ainp C i) (seval P E T (.inp i)) := by
  have key : ∀ a, ainp C i = a → (∀ t f, a ≠ .bool t f) → AVOk P E V T a (seval P E T (.inp i)) := by
    intro a h hb
    cases a with
    | undef => trivial
    | bool t f => exact absurd rfl (hb t f)
    | num I t =>
      obtain ⟨x, h1, h2⟩ := G.inp i I t h
      exact ⟨x, by simp only [seval, h1], h2⟩
  refine key _ rfl fun t f => ?_
  cases i <;> simp only [ainp] <;> cases C.hasS <;> cases C.hasM <;> cases C.pol <;> exact fun h => nomatch h

open Classical in
theorem aev_ok {A : Trie AV} (hT : TrieOk P E V A T) (e : Expr) : AVOk P E V T (aev C A e) (seval P E T e) := by
  induction e with
  | num n e => exact alit_ok n e
  | pi => exact .num piI_ok trivial
  | inp i => exact ainp_ok G i
  | fld f => exact .num (G.fld f) trivial
  | param c =>
    show AVOk P E V T (.num (kif mem c C.par then C.pI else kif mem c C.npar then C.pI.neg else C.oI) .none) (some (.num (E.param c)))
    refine .num ?_ trivial
    rw [kif_eq, kif_eq]
    split_ifs with h h'
    · exact G.par c h
    · rw [← neg_neg (E.param c)]
      exact (G.npar c h').neg
    · exact G.oth c
  | tmp n =>
    have := hT n
    show AVOk P E V T (Option.rec .undef (fun v => v) (Trie.get 20 A n)) (T n)
    cases h : Trie.get 20 A n with
    | none => trivial
    | some a => rw [h] at this; exact this
  | neg a ih =>
    show AVOk P E V T (AV.rec .undef (fun I _ => .num I.neg .none) (fun _ _ => .undef) (aev C A a)) _
    revert ih
    cases aev C A a with
    | undef => exact fun _ => trivial
    | bool _ _ => exact fun _ => trivial
    | num I t =>
      rintro ⟨x, h1, h2, -⟩
      simp only [seval, h1, sNum, Option.bind_eq_bind, Option.bind_some]
      exact .num h2.neg trivial
  | add a b iha ihb =>
    refine av2_ok iha ihb fun I s x J t y h1 h2 h3 h4 h5 h6 => ?_
    simp only [seval, h1, h4, sNum, Option.bind_eq_bind, Option.bind_some]
    exact aAdd_ok G h2 h3 h5 h6
  | sub a b iha ihb =>
    refine av2_ok iha ihb fun I s x J t y h1 h2 h3 h4 h5 h6 => ?_
    simp only [seval, h1, h4, sNum, Option.bind_eq_bind, Option.bind_some]
    exact aSub_ok h2 h3 h5 h6
  | mul a b iha ihb =>
    refine av2_ok iha ihb fun I s x J t y h1 h2 h3 h4 h5 h6 => ?_
    simp only [seval, h1, h4, sNum, Option.bind_eq_bind, Option.bind_some]
    exact aMul_ok G h2 h3 h5 h6
  | div a b iha ihb =>
    refine av2_ok iha ihb fun I s x J t y h1 h2 h3 h4 h5 h6 => ?_
    simp only [seval, h1, h4, sNum, Option.bind_eq_bind, Option.bind_some]
    exact aDiv_ok G h2 h3 h5 h6
  | pow a b iha ihb =>
    refine av2_ok iha ihb fun I s x J t y h1 h2 h3 h4 h5 h6 => ?_
    simp only [seval, h1, h4, sNum, Option.bind_eq_bind, Option.bind_some]
    exact aPow_ok h2 h3 h5 h4
  | le a b iha ihb =>
    refine av2_ok iha ihb fun I s x J t y h1 h2 h3 h4 h5 h6 => ?_
    simp only [seval, h1, h4, sNum, Option.bind_eq_bind, Option.bind_some]
    exact aLe_ok G h1 h4 h2 h3 h5
  | lt a b iha ihb =>
    refine av2_ok iha ihb fun I s x J t y h1 h2 h3 h4 h5 h6 => ?_
    simp only [seval, h1, h4, sNum, Option.bind_eq_bind, Option.bind_some]
    exact aLt_ok h1 h4 h2 h5
  | eq a b iha ihb =>
    refine av2_ok iha ihb fun I s x J t y h1 h2 h3 h4 h5 h6 => ?_
    simp only [seval, h1, h4, sNum, Option.bind_eq_bind, Option.bind_some]
    exact aEq_ok h1 h4 h2 h5
  | lor a b iha ihb =>
    refine avB_ok iha ihb triOr_ok fun x y h1 h2 => ?_
    simp only [seval, h1, h2, sBool, Option.bind_eq_bind, Option.bind_some]
  | land a b iha ihb =>
    refine avB_ok iha ihb triAnd_ok fun x y h1 h2 => ?_
    simp only [seval, h1, h2, sBool, Option.bind_eq_bind, Option.bind_some]
  | cond c a b ihc iha ihb => exact aCond_ok ihc iha ihb
  | call1 f a ih =>
    show AVOk P E V T (AV.rec .undef (fun I _ => aFn1 f I) (fun _ _ => .undef) (aev C A a)) _
    revert ih
    cases aev C A a with
    | undef => exact fun _ => trivial
    | bool _ _ => exact fun _ => trivial
    | num I t =>
      rintro ⟨x, h1, h2, -⟩
      simp only [seval, h1, sNum, Option.bind_eq_bind, Option.bind_some]
      have h := aFn1_ok P f h2
      have hn : ∀ J t, aFn1 f I = .num J t → t = .none := by
        intro J t
        cases f <;> simp only [aFn1, kif_eq] <;> (try split_ifs) <;> intro h <;> cases h <;> rfl
      change AVOk P E V T (aFn1 f I) _
      revert h hn
      cases aFn1 f I with
      | undef => exact fun _ _ => trivial
      | bool _ _ => exact fun h => h.elim
      | num J t =>
        rintro ⟨hd, hJ⟩ hn
        rw [if_pos hd, hn J t rfl]
        exact .num hJ trivial
  | call2 f a b iha ihb =>
    refine av2_ok iha ihb fun I s x J t y h1 h2 h3 h4 h5 h6 => ?_
    simp only [seval, h1, h4, sNum, Option.bind_eq_bind, Option.bind_some]
    exact .num (has_top _) trivial
  | undef c => trivial

end

theorem trie_step {P : Prims} {E : Env} {V : Vars} {C : ACfg} (G : Good C E V) {A : Trie AV} {T : Nat → Option Val} (hT : TrieOk P E V A T) {n : Nat}
    (hn : n ≤ 500000) (hg : Trie.get 20 A n = none) (e : Expr) : TrieOk P E V (Trie.set (aev C A e) 20 A n) (Function.update T n (seval P E T e)) := by
  have hTn : T n = none := by have := hT n; rw [hg] at this; exact this
  have hext : Ext T (Function.update T n (seval P E T e)) := fun m v hm => by
    rw [Function.update_of_ne]
    · exact hm
    · rintro rfl; rw [hTn] at hm; cases hm
  intro m
  cases hm : Trie.get 20 (Trie.set (aev C A e) 20 A n) m with
  | none =>
    have h1 := Trie.get_set_none _ _ _ _ _ hm
    have h2 : m ≠ n := by
      rintro rfl
      rw [Trie.get_set_self _ 19 _ _ (by omega)] at hm
      cases hm
    have := hT m
    rw [h1] at this
    simp only [Function.update_of_ne h2]
    exact this
  | some a =>
    rcases Trie.get_set _ _ _ _ _ _ hm with ⟨e1, e2⟩ | ⟨e1, e2⟩
    · subst e1; subst e2
      simp only [Function.update_self]
      exact (aev_ok G hT e).mono hext
    · have := hT m
      rw [e2] at this
      simp only [Function.update_of_ne e1]
      exact this.mono hext

theorem abody_ok {P : Prims} {E : Env} {V : Vars} {C : ACfg} (G : Good C E V) (b : List (Nat × Expr)) :
    ∀ (A : Trie AV) (T : Nat → Option Val) (k : Trie AV → Bool), TrieOk P E V A T → abody C b A k = true →
      ∃ A', TrieOk P E V A' (sexec P E b T) ∧ k A' = true := by
  induction b with
  | nil => exact fun A T k hT h => ⟨A, hT, h⟩
  | cons ne r ih =>
    obtain ⟨n, e⟩ := ne
    intro A T k hT h
    change Option.rec ((aev C A e).force fun v => abody C r (Trie.set v 20 A n) k) (fun _ => false)
      (kif Nat.ble n 500000 then Trie.get 20 A n else some .undef) = true at h
    rw [kif_ble] at h
    split_ifs at h with hn
    cases hg : Trie.get 20 A n with
    | some a => rw [hg] at h; cases h
    | none =>
      rw [hg] at h
      change ((aev C A e).force fun v => abody C r (Trie.set v 20 A n) k) = true at h
      rw [AV.force_eq] at h
      exact ih _ _ k (trie_step G hT hn hg e) h

theorem acheck_ok {P : Prims} {E : Env} {V : Vars} {C : ACfg} (G : Good C E V) {p : Prog} (h : acheck C p = true) : ∃ x, srun P E p = some x := by
  obtain ⟨body, res⟩ := p
  have h0 : TrieOk P E V .leaf fun _ => none := fun n => by rw [Trie.get_leaf]
  obtain ⟨A, hA, hr⟩ := abody_ok (P := P) G body .leaf _ _ h0 h
  have := aev_ok G hA res
  revert hr this
  cases aev C A res with
  | undef => exact fun hr => nomatch hr
  | bool _ _ => exact fun hr => nomatch hr
  | num I t =>
    rintro - ⟨x, hx, -⟩
    exact ⟨x, by simp only [srun, hx, sNum]⟩

/-! ## Certainly not a number -/

/-- Values agree with strict values. -/
def NExt (S : Nat → Option Val) (N : Nat → NVal) : Prop := ∀ n v, S n = some v → N n = .val v

theorem sNum_some {v : Option Val} {x : ℝ} (h : sNum v = some x) : v = some (.num x) := by
  unfold sNum at h
  split at h
  · rw [Option.some.inj h]
  · cases h
theorem sBool_some {v : Option Val} {x : Prop} (h : sBool v = some x) : v = some (.bool x) := by
  unfold sBool at h
  split at h
  · rw [Option.some.inj h]
  · cases h
theorem obind {α β : Type} {a : Option α} {f : α → Option β} {y : β} (h : a >>= f = some y) : ∃ x, a = some x ∧ f x = some y := by
  cases a with
  | none => cases h
  | some x => exact ⟨x, rfl, h⟩

open Classical in
theorem nFn1_dom {P : Prims} {f : Fn1} {x : ℝ} (hd : dom1 f x) : nFn1 P f (.val (.num x)) = .val (.num (fn1Val P f x)) := by
  cases f <;> exact if_pos hd

open Classical in
theorem neval_agree {P : Prims} {E : Env} {S : Nat → Option Val} {N : Nat → NVal} (hT : NExt S N) (e : Expr) :
    ∀ v, seval P E S e = some v → neval P E N e = .val v := by
  have bin : ∀ (a b : Expr) (f : ℝ → ℝ → Option Val) (g : ℝ → ℝ → NVal), (∀ v, seval P E S a = some v → neval P E N a = .val v) →
      (∀ v, seval P E S b = some v → neval P E N b = .val v) → (∀ x y u, f x y = some u → g x y = .val u) →
      ∀ v, (do let x ← sNum (seval P E S a); let y ← sNum (seval P E S b); f x y) = some v →
      ∃ x y, neval P E N a = .val (.num x) ∧ neval P E N b = .val (.num y) ∧ g x y = .val v := by
    intro a b f g iha ihb hfg v h1
    obtain ⟨x, e1, h1⟩ := obind h1
    obtain ⟨y, e2, h1⟩ := obind h1
    exact ⟨x, y, iha _ (sNum_some e1), ihb _ (sNum_some e2), hfg _ _ _ h1⟩
  have binB : ∀ (a b : Expr) (f : Prop → Prop → Prop), (∀ v, seval P E S a = some v → neval P E N a = .val v) →
      (∀ v, seval P E S b = some v → neval P E N b = .val v) →
      ∀ v, (do let x ← sBool (seval P E S a); let y ← sBool (seval P E S b); some (Val.bool (f x y))) = some v →
      nBool f (neval P E N a) (neval P E N b) = .val v := by
    intro a b f iha ihb v h1
    obtain ⟨x, e1, h1⟩ := obind h1
    obtain ⟨y, e2, h1⟩ := obind h1
    rw [iha _ (sBool_some e1), ihb _ (sBool_some e2), ← Option.some.inj h1]
    rfl
  have val : ∀ {u v : Val}, some u = some v → NVal.val u = .val v := fun h => congrArg _ (Option.some.inj h)
  induction e with
  | num n e => exact fun v h => val h
  | pi => exact fun v h => val h
  | inp i =>
    intro v h
    simp only [seval] at h
    simp only [neval]
    cases hi : E.inp i with
    | error => rw [hi] at h; cases h
    | ok x => rw [hi] at h; exact val h
  | fld f => exact fun v h => val h
  | param c => exact fun v h => val h
  | tmp n => exact fun v h => hT n v h
  | neg a ih =>
    intro v h
    obtain ⟨x, e1, h⟩ := obind h
    simp only [neval, ih _ (sNum_some e1)]
    exact val h
  | add a b iha ihb =>
    intro v h
    obtain ⟨x, y, h1, h2, h3⟩ := bin a b _ _ iha ihb (fun x y u => val) v h
    simp only [neval, h1, h2]; exact h3
  | sub a b iha ihb =>
    intro v h
    obtain ⟨x, y, h1, h2, h3⟩ := bin a b _ _ iha ihb (fun x y u => val) v h
    simp only [neval, h1, h2]; exact h3
  | mul a b iha ihb =>
    intro v h
    obtain ⟨x, y, h1, h2, h3⟩ := bin a b _ _ iha ihb (fun x y u => val) v h
    simp only [neval, h1, h2]; exact h3
  | div a b iha ihb =>
    intro v h
    obtain ⟨x, y, h1, h2, h3⟩ := bin a b _ (fun x y => if y = 0 then (if x = 0 then .nan else .inf) else .val (.num (x / y))) iha ihb
      (fun x y u h => by split_ifs at h with h0; simp only [if_neg h0]; exact val h) v h
    simp only [neval, h1, h2]; exact h3
  | pow a b iha ihb =>
    intro v h
    obtain ⟨x, y, h1, h2, h3⟩ := bin a b _ (fun x y => if domPow x y then .val (.num (x ^ y)) else .wild) iha ihb
      (fun x y u h => by split_ifs at h with h0; simp only [if_pos h0]; exact val h) v h
    simp only [neval, h1, h2]; exact h3
  | le a b iha ihb =>
    intro v h
    obtain ⟨x, y, h1, h2, h3⟩ := bin a b _ _ iha ihb (fun x y u => val) v h
    simp only [neval, h1, h2]; exact h3
  | lt a b iha ihb =>
    intro v h
    obtain ⟨x, y, h1, h2, h3⟩ := bin a b _ _ iha ihb (fun x y u => val) v h
    simp only [neval, h1, h2]; exact h3
  | eq a b iha ihb =>
    intro v h
    obtain ⟨x, y, h1, h2, h3⟩ := bin a b _ _ iha ihb (fun x y u => val) v h
    simp only [neval, h1, h2]; exact h3
  | lor a b iha ihb => exact binB a b _ iha ihb
  | land a b iha ihb => exact binB a b _ iha ihb
  | cond c a b ihc iha ihb =>
    intro v h
    obtain ⟨z, e0, h⟩ := obind h
    obtain ⟨x, e1, h⟩ := obind h
    simp only [neval, ihc _ (sBool_some e0)]
    rw [← Option.some.inj h]
    by_cases hz : z
    · rw [if_pos hz] at e1 ⊢
      rw [iha _ (sNum_some e1)]; rfl
    · rw [if_neg hz] at e1 ⊢
      rw [ihb _ (sNum_some e1)]; rfl
  | call1 f a ih =>
    intro v h
    obtain ⟨x, e1, h⟩ := obind h
    split_ifs at h with hd
    simp only [neval, ih _ (sNum_some e1)]
    rw [← Option.some.inj h]
    exact nFn1_dom hd
  | call2 f a b iha ihb =>
    intro v h
    obtain ⟨x, y, h1, h2, h3⟩ := bin a b _ _ iha ihb (fun x y u => val) v h
    simp only [neval, h1, h2]; exact h3
  | undef c => intro v h; cases h

/-- What is known of a value is so. -/
def NKOk : NK → NVal → Prop
  | .no, _ => True
  | .inf, v => v = .inf
  | .nan, v => v = .nan
  | .ff, v => v = .val (.bool False)

theorem NKOk.num {k : NK} {v : NVal} (h : NKOk k v) : NKOk k.num (nNum v) := by
  cases k <;> first | trivial | (obtain rfl : v = _ := h; rfl)

/-- The noted temporaries have been assigned and are as noted. -/
def NanOk (A : Trie AV) (D : Trie NK) (N : Nat → NVal) : Prop := ∀ n x, Trie.get 20 D n = some x → Trie.get 20 A n ≠ none ∧ NKOk x (N n)

theorem nAdd_right {f : ℝ → ℝ → ℝ} {a : NVal} : nAdd f a .nan = .nan := by
  rcases a with v | _ | _ | _
  · cases v <;> rfl
  all_goals rfl
theorem nMul_right {a : NVal} : nMul a .nan = .nan := by
  rcases a with v | _ | _ | _
  · cases v <;> rfl
  all_goals rfl
theorem nDiv_right {a : NVal} : nDiv a .nan = .nan := by
  rcases a with v | _ | _ | _
  · cases v <;> rfl
  all_goals rfl

/-- What an abstract value says of a value. -/
def AN (x : AV) (a : NVal) : Prop :=
  (isNum x = true → ∃ u, a = .val (.num u)) ∧ (isZero x = true → a = .val (.num 0)) ∧ (isNonzero x = true → ∃ u, a = .val (.num u) ∧ u ≠ 0) ∧
    (isNeg x = true → ∃ u, a = .val (.num u) ∧ u < 0)

theorem kAdd_ok {f : ℝ → ℝ → ℝ} {a b : NK} {x y : AV} {u v : NVal} (ha : NKOk a u) (hb : NKOk b v) (hx : AN x u) (hy : AN y v) : NKOk (kAdd a b x y) (nAdd f u v) := by
  cases a <;> cases b <;> first
    | trivial
    | (obtain rfl : u = _ := ha; rfl)
    | (obtain rfl : v = _ := hb; exact nAdd_right)
    | skip
  · show NKOk (kif isNum x then _ else _) _
    rw [kif_eq]
    split_ifs with h
    · obtain ⟨w, rfl⟩ := hx.1 h
      obtain rfl : v = _ := hb
      rfl
    · trivial
  · show NKOk (kif isNum y then _ else _) _
    rw [kif_eq]
    split_ifs with h
    · obtain ⟨w, rfl⟩ := hy.1 h
      obtain rfl : u = _ := ha
      rfl
    · trivial

open Classical in
theorem kMul_ok {a b : NK} {x y : AV} {u v : NVal} (ha : NKOk a u) (hb : NKOk b v) (hx : AN x u) (hy : AN y v) : NKOk (kMul a b x y) (nMul u v) := by
  cases a <;> cases b <;> first
    | trivial
    | (obtain rfl : u = _ := ha; obtain rfl : v = _ := hb; rfl)
    | (obtain rfl : u = _ := ha; rfl)
    | (obtain rfl : v = _ := hb; exact nMul_right)
    | skip
  · show NKOk (kif isZero x then _ else kif isNonzero x then _ else _) _
    rw [kif_eq, kif_eq]
    obtain rfl : v = _ := hb
    split_ifs with h h'
    · obtain rfl := hx.2.1 h
      exact if_pos rfl
    · obtain ⟨w, rfl, hw⟩ := hx.2.2.1 h'
      exact if_neg hw
    · trivial
  · show NKOk (kif isZero y then _ else kif isNonzero y then _ else _) _
    rw [kif_eq, kif_eq]
    obtain rfl : u = _ := ha
    split_ifs with h h'
    · obtain rfl := hy.2.1 h
      exact if_pos rfl
    · obtain ⟨w, rfl, hw⟩ := hy.2.2.1 h'
      exact if_neg hw
    · trivial

open Classical in
theorem kDiv_ok {a b : NK} {x y : AV} {u v : NVal} (ha : NKOk a u) (hb : NKOk b v) (hx : AN x u) (hy : AN y v) : NKOk (kDiv a b x y) (nDiv u v) := by
  cases a <;> cases b <;> first
    | trivial
    | (obtain rfl : u = _ := ha; obtain rfl : v = _ := hb; rfl)
    | (obtain rfl : u = _ := ha; rfl)
    | (obtain rfl : v = _ := hb; exact nDiv_right)
    | skip
  · show NKOk (kif isZero y then kif isZero x then _ else kif isNonzero x then _ else _ else _) _
    rw [kif_eq, kif_eq, kif_eq]
    split_ifs with h h1 h2
    · obtain rfl := hy.2.1 h
      obtain rfl := hx.2.1 h1
      show ite _ _ _ = NVal.nan
      rw [if_pos rfl, if_pos rfl]
    · obtain rfl := hy.2.1 h
      obtain ⟨w, rfl, hw⟩ := hx.2.2.1 h2
      show ite _ _ _ = NVal.inf
      rw [if_pos rfl, if_neg hw]
    · trivial
    · trivial
  · show NKOk (kif isNum y then _ else _) _
    rw [kif_eq]
    split_ifs with h
    · obtain ⟨w, rfl⟩ := hy.1 h
      obtain rfl : u = _ := ha
      rfl
    · trivial

open Classical in
theorem kPow_ok {a b : NK} {y : AV} {u v : NVal} (ha : NKOk a u) (hb : NKOk b v) (hy : AN y v) : NKOk (kPow a b y) (nPow u v) := by
  cases a <;> cases b <;> first
    | trivial
    | (obtain rfl : u = _ := ha; obtain rfl : v = _ := hb; rfl)
    | skip
  show NKOk (kif isNonzero y then _ else _) _
  rw [kif_eq]
  obtain rfl : u = _ := ha
  split_ifs with h
  · obtain ⟨w, rfl, hw⟩ := hy.2.2.1 h
    exact if_neg hw
  · trivial

theorem kCmp_ok {f : ℝ → ℝ → Prop} {a b : NK} {x y : AV} {u v : NVal} (ha : NKOk a u) (hb : NKOk b v) (hx : AN x u) (hy : AN y v) :
    NKOk (kCmp a b x y) (nCmp f u v) := by
  cases a <;> cases b <;> first
    | trivial
    | (obtain rfl : u = _ := ha; obtain rfl : v = _ := hb; rfl)
    | skip
  · show NKOk (kif isNum x then _ else _) _
    rw [kif_eq]
    obtain rfl : v = _ := hb
    split_ifs with h
    · obtain ⟨w, rfl⟩ := hx.1 h
      rfl
    · trivial
  · show NKOk (kif isNum y then _ else _) _
    rw [kif_eq]
    obtain rfl : u = _ := ha
    split_ifs with h
    · obtain ⟨w, rfl⟩ := hy.1 h
      rfl
    · trivial

section
variable {P : Prims} {E : Env} {V : Vars} {C : ACfg} (G : Good C E V) {A : Trie AV} {D : Trie NK} {S : Nat → Option Val} {N : Nat → NVal}
  (hT : TrieOk P E V A S) (hN : NExt S N)

include G hT hN
theorem an_ok (e : Expr) : AN (aev C A e) (neval P E N e) := by
  have ha := aev_ok (P := P) G hT e
  revert ha
  cases aev C A e with
  | undef => exact fun _ => ⟨fun h => (nomatch h), fun h => (nomatch h), fun h => (nomatch h), fun h => (nomatch h)⟩
  | bool _ _ => exact fun _ => ⟨fun h => (nomatch h), fun h => (nomatch h), fun h => (nomatch h), fun h => (nomatch h)⟩
  | num J t =>
    rintro ⟨y, h1, h2, -⟩
    have h3 := neval_agree hN e _ h1
    refine ⟨fun _ => ⟨y, h3⟩, fun h => ?_, fun h => ⟨y, h3, ?_⟩, fun h => ⟨y, h3, ?_⟩⟩
    · obtain ⟨h4, h5⟩ := band_t.mp (show band (bdNN J.lo) (bdNN J.hi) = true from h)
      have h6 := bdNN_ok h4 h2.lo
      have h7 := bdNN_ok h5 h2.hi
      rw [h3, show y = 0 by linarith]
    · rcases bor_t.mp (show bor (bdPos J.lo) (bdPos J.hi) = true from h) with h | h
      · exact (bdPos_ok h h2.lo).ne'
      · exact fun e => by have := bdPos_ok h h2.hi; linarith
    · have := bdPos_ok (show bdPos J.hi = true from h) h2.hi
      linarith

open Classical in
theorem nanE_ok (hD : NanOk A D N) (e : Expr) : NKOk (nanE C A D e) (neval P E N e) := by
  have an := an_ok G hT hN
  induction e with
  | num n e => trivial
  | pi => trivial
  | inp i => trivial
  | fld f => trivial
  | param c => trivial
  | tmp n =>
    show NKOk (Option.rec .no (fun k => k) (Trie.get 20 D n)) (N n)
    cases hg : Trie.get 20 D n with
    | none => trivial
    | some x => exact (hD n x hg).2
  | neg a ih =>
    have h : nanE C A D (.neg a) = (nanE C A D a).num := rfl
    rw [h]
    revert ih
    cases nanE C A D a <;> intro ih <;> first
      | trivial
      | (have ih : neval P E N a = _ := ih
         show neval P E N (.neg a) = _
         simp only [neval, ih])
  | add a b iha ihb => exact kAdd_ok iha ihb (an a) (an b)
  | sub a b iha ihb => exact kAdd_ok iha ihb (an a) (an b)
  | mul a b iha ihb => exact kMul_ok iha ihb (an a) (an b)
  | div a b iha ihb => exact kDiv_ok iha ihb (an a) (an b)
  | pow a b iha ihb => exact kPow_ok iha ihb (an b)
  | le a b iha ihb => exact kCmp_ok iha ihb (an a) (an b)
  | lt a b iha ihb => exact kCmp_ok iha ihb (an a) (an b)
  | eq a b iha ihb => exact kCmp_ok iha ihb (an a) (an b)
  | lor a b iha ihb => trivial
  | land a b iha ihb => trivial
  | cond c a b ihc iha ihb =>
    have hc := aev_ok (P := P) G hT c
    show NKOk (kCond (nanE C A D c) (nanE C A D a) (nanE C A D b) (aev C A c)) _
    have sel : ∀ z : Prop, neval P E N c = .val (.bool z) → neval P E N (.cond c a b) = nNum (if z then neval P E N a else neval P E N b) := by
      intro z h
      simp only [neval, h]
    revert hc
    cases aev C A c with
    | undef =>
      intro _
      show NKOk (NK.rec .no .no .no (nanE C A D b).num (nanE C A D c)) _
      revert ihc
      cases nanE C A D c <;> intro ihc <;> first | trivial | skip
      rw [sel False ihc, if_neg id]
      exact ihb.num
    | num _ _ => exact fun _ => trivial
    | bool t f =>
      rintro ⟨z, h1, h2, -⟩
      rw [sel z (neval_agree hN c _ h1)]
      cases t with
      | tt => have h2 : z := h2; rw [if_pos h2]; exact iha.num
      | ff => have h2 : ¬ z := h2; rw [if_neg h2]; exact ihb.num
      | unk =>
        show NKOk (NK.rec .no (NK.rec .no .inf .no .no (nanE C A D b)) (NK.rec .no .no .nan .no (nanE C A D b)) .no (nanE C A D a)) _
        revert iha ihb
        cases nanE C A D a <;> cases nanE C A D b <;> intro iha ihb <;> first
          | trivial
          | (have iha : neval P E N a = _ := iha
             have ihb : neval P E N b = _ := ihb
             rw [iha, ihb, ite_self]; rfl)
  | call1 f a ih =>
    show NKOk (kif (nanE C A D a).isNan then _ else _) (nFn1 P f (neval P E N a))
    rw [kif_eq]
    split_ifs with h
    · have e : neval P E N a = .nan := by
        revert h ih
        cases nanE C A D a <;> intro ih h <;> first | exact ih | exact absurd h Bool.false_ne_true
      rw [e]
      cases f <;> trivial
    · cases f <;> first | trivial | skip
      · show NKOk (kif isNeg (aev C A a) then _ else _) _
        rw [kif_eq]
        split_ifs with h
        · obtain ⟨x, h1, h2⟩ := (an a).2.2.2 h
          rw [h1]
          show ite _ _ _ = NVal.nan
          rw [if_neg (not_lt.mpr h2.le), if_pos h2]
        · trivial
      · show NKOk (kif isNeg (aev C A a) then _ else _) _
        rw [kif_eq]
        split_ifs with h
        · obtain ⟨x, h1, h2⟩ := (an a).2.2.2 h
          rw [h1]
          exact if_neg (not_le.mpr h2)
        · trivial
  | call2 f a b iha ihb => trivial
  | undef c => trivial

end

theorem NK.force_eq (k : NK) (f : NK → Bool) : k.force f = f k := by cases k <;> rfl

theorem nbody_ok {P : Prims} {E : Env} {V : Vars} {C : ACfg} (G : Good C E V) (b : List (Nat × Expr)) :
    ∀ (A : Trie AV) (D : Trie NK) (S : Nat → Option Val) (N : Nat → NVal) (k : Trie AV → Trie NK → Bool), TrieOk P E V A S → NExt S N → NanOk A D N →
      nbody C b A D k = true → ∃ A' D', TrieOk P E V A' (sexec P E b S) ∧ NExt (sexec P E b S) (nexec P E b N) ∧ NanOk A' D' (nexec P E b N) ∧ k A' D' = true := by
  induction b with
  | nil => exact fun A D S N k hT hN hD h => ⟨A, D, hT, hN, hD, h⟩
  | cons ne r ih =>
    obtain ⟨n, e⟩ := ne
    intro A D S N k hT hN hD h
    change Option.rec ((aev C A e).force fun v => (nanE C A D e).force fun w =>
        NK.rec (nbody C r (Trie.set v 20 A n) D k) (nbody C r (Trie.set v 20 A n) (Trie.set .inf 20 D n) k) (nbody C r (Trie.set v 20 A n) (Trie.set .nan 20 D n) k)
          (nbody C r (Trie.set v 20 A n) (Trie.set .ff 20 D n) k) w)
      (fun _ => false) (kif Nat.ble n 500000 then Trie.get 20 A n else some .undef) = true at h
    rw [kif_ble] at h
    split_ifs at h with hn
    cases hg : Trie.get 20 A n with
    | some a => rw [hg] at h; cases h
    | none =>
      rw [hg] at h
      change ((aev C A e).force fun v => (nanE C A D e).force fun w =>
        NK.rec (nbody C r (Trie.set v 20 A n) D k) (nbody C r (Trie.set v 20 A n) (Trie.set .inf 20 D n) k) (nbody C r (Trie.set v 20 A n) (Trie.set .nan 20 D n) k)
          (nbody C r (Trie.set v 20 A n) (Trie.set .ff 20 D n) k) w) = true at h
      rw [AV.force_eq, NK.force_eq] at h
      have hN' : NExt (Function.update S n (seval P E S e)) (Function.update N n (neval P E N e)) := by
        intro m v hm
        by_cases hmn : m = n
        · subst hmn
          rw [Function.update_self] at hm ⊢
          exact neval_agree hN e v hm
        · rw [Function.update_of_ne hmn] at hm ⊢
          exact hN m v hm
      have same : NanOk (Trie.set (aev C A e) 20 A n) D (Function.update N n (neval P E N e)) := by
        intro m x hm
        rw [Function.update_of_ne]
        · exact ⟨fun h => (hD m x hm).1 (Trie.get_set_none _ _ _ _ _ h), (hD m x hm).2⟩
        · rintro rfl; exact (hD m x hm).1 hg
      have more : ∀ w, NKOk w (neval P E N e) → NanOk (Trie.set (aev C A e) 20 A n) (Trie.set w 20 D n) (Function.update N n (neval P E N e)) := by
        intro w hw m x hm
        rcases Trie.get_set _ _ _ _ _ _ hm with ⟨e1, e2⟩ | ⟨e1, e2⟩
        · subst e1
          rw [Function.update_self, e2]
          exact ⟨by rw [Trie.get_set_self _ 19 _ _ (by omega)]; exact Option.some_ne_none _, hw⟩
        · rw [Function.update_of_ne e1]
          exact ⟨fun h => (hD m x e2).1 (Trie.get_set_none _ _ _ _ _ h), (hD m x e2).2⟩
      have key := nanE_ok G hT hN hD e
      have st := trie_step G hT hn hg e
      revert key h
      cases nanE C A D e <;> intro h key
      · exact ih _ _ _ _ k st hN' same h
      · exact ih _ _ _ _ k st hN' (more .inf key) h
      · exact ih _ _ _ _ k st hN' (more .nan key) h
      · exact ih _ _ _ _ k st hN' (more .ff key) h

theorem ncheck_ok {P : Prims} {E : Env} {V : Vars} {C : ACfg} (G : Good C E V) {p : Prog} (h : ncheck C p = true) : nrun P E p = .nan := by
  obtain ⟨body, res⟩ := p
  have h0 : TrieOk P E V .leaf fun _ => none := fun n => by rw [Trie.get_leaf]
  obtain ⟨A, D, hA, hN, hD, hr⟩ := nbody_ok (P := P) G body .leaf .leaf _ (fun _ => .wild) _ h0 (fun n v h => nomatch h)
    (fun n x h => by rw [Trie.get_leaf] at h; cases h) h
  have key := nanE_ok G hA hN hD res
  revert hr key
  cases nanE C A D res <;> intro hr key <;> first | exact key | exact absurd hr Bool.false_ne_true

/-! ## The strict value is the value -/

theorem toNum_ok {v : Val} {x : ℝ} (h : v.toNum = .ok x) : v = .num x := by
  cases v with
  | num y => rw [show y = x from Except.ok.inj h]
  | bool b => cases h
theorem toBool_ok {v : Val} {x : Prop} (h : v.toBool = .ok x) : v = .bool x := by
  cases v with
  | bool y => rw [show y = x from Except.ok.inj h]
  | num b => cases h

theorem ebind {α β : Type} {a : Except PyErr α} {f : α → Except PyErr β} {y : β} (h : a >>= f = .ok y) : ∃ x, a = .ok x ∧ f x = .ok y := by
  cases a with
  | error => cases h
  | ok x => exact ⟨x, rfl, h⟩

section
variable {P : Prims} {E : Env} {S T : Nat → Option Val}

open Classical in
theorem eval_agree (hT : Ext S T) (e : Expr) : ∀ u v, seval P E S e = some u → eval P E T e = .ok v → u = v := by
  have bin : ∀ (a b : Expr) (f : ℝ → ℝ → Option Val) (g : ℝ → ℝ → Val), (∀ u v, seval P E S a = some u → eval P E T a = .ok v → u = v) →
      (∀ u v, seval P E S b = some u → eval P E T b = .ok v → u = v) → (∀ x y u, f x y = some u → u = g x y) →
      ∀ u v, (do let x ← sNum (seval P E S a); let y ← sNum (seval P E S b); f x y) = some u →
      (do let x ← (← eval P E T a).toNum; let y ← (← eval P E T b).toNum; Except.ok (g x y)) = .ok v → u = v := by
    intro a b f g iha ihb hfg u v h1 h2
    obtain ⟨x, e1, h1⟩ := obind h1
    obtain ⟨y, e2, h1⟩ := obind h1
    obtain ⟨w, e3, h2⟩ := ebind h2
    obtain ⟨x', e4, h2⟩ := ebind h2
    obtain ⟨w', e5, h2⟩ := ebind h2
    obtain ⟨y', e6, h2⟩ := ebind h2
    have q1 := iha _ _ (sNum_some e1) e3
    have q2 := ihb _ _ (sNum_some e2) e5
    subst q1; subst q2
    have q1 := Val.num.inj (toNum_ok e4)
    have q2 := Val.num.inj (toNum_ok e6)
    subst q1; subst q2
    exact (hfg _ _ _ h1).trans (Except.ok.inj h2)
  have binB : ∀ (a b : Expr) (f : Prop → Prop → Prop), (∀ u v, seval P E S a = some u → eval P E T a = .ok v → u = v) →
      (∀ u v, seval P E S b = some u → eval P E T b = .ok v → u = v) →
      ∀ u v, (do let x ← sBool (seval P E S a); let y ← sBool (seval P E S b); some (Val.bool (f x y))) = some u →
      (do let x ← (← eval P E T a).toBool; let y ← (← eval P E T b).toBool; Except.ok (Val.bool (f x y))) = .ok v → u = v := by
    intro a b f iha ihb u v h1 h2
    obtain ⟨x, e1, h1⟩ := obind h1
    obtain ⟨y, e2, h1⟩ := obind h1
    obtain ⟨w, e3, h2⟩ := ebind h2
    obtain ⟨x', e4, h2⟩ := ebind h2
    obtain ⟨w', e5, h2⟩ := ebind h2
    obtain ⟨y', e6, h2⟩ := ebind h2
    have q1 := iha _ _ (sBool_some e1) e3
    have q2 := ihb _ _ (sBool_some e2) e5
    subst q1; subst q2
    have q1 := Val.bool.inj (toBool_ok e4)
    have q2 := Val.bool.inj (toBool_ok e6)
    subst q1; subst q2
    exact (Option.some.inj h1).symm.trans (Except.ok.inj h2)
  induction e with
  | num n e => intro u v h1 h2; exact (Option.some.inj h1).symm.trans (Except.ok.inj h2)
  | pi => intro u v h1 h2; exact (Option.some.inj h1).symm.trans (Except.ok.inj h2)
  | inp i =>
    intro u v h1 h2
    simp only [seval] at h1
    simp only [eval] at h2
    cases hi : E.inp i with
    | error => rw [hi] at h1; cases h1
    | ok x => rw [hi] at h1 h2; exact (Option.some.inj h1).symm.trans (Except.ok.inj h2)
  | fld f => intro u v h1 h2; exact (Option.some.inj h1).symm.trans (Except.ok.inj h2)
  | param c => intro u v h1 h2; exact (Option.some.inj h1).symm.trans (Except.ok.inj h2)
  | tmp n =>
    intro u v h1 h2
    simp only [eval, hT n u h1] at h2
    exact Except.ok.inj h2
  | neg a ih =>
    intro u v h1 h2
    obtain ⟨x, e1, h1⟩ := obind h1
    obtain ⟨w, e3, h2⟩ := ebind h2
    obtain ⟨x', e4, h2⟩ := ebind h2
    have q1 := ih _ _ (sNum_some e1) e3
    subst q1
    have q1 := Val.num.inj (toNum_ok e4)
    subst q1
    exact (Option.some.inj h1).symm.trans (Except.ok.inj h2)
  | add a b iha ihb => exact bin a b _ _ iha ihb fun x y u h => (Option.some.inj h).symm
  | sub a b iha ihb => exact bin a b _ _ iha ihb fun x y u h => (Option.some.inj h).symm
  | mul a b iha ihb => exact bin a b _ _ iha ihb fun x y u h => (Option.some.inj h).symm
  | div a b iha ihb =>
    refine bin a b _ _ iha ihb fun x y u h => ?_
    split_ifs at h
    exact (Option.some.inj h).symm
  | pow a b iha ihb =>
    refine bin a b _ _ iha ihb fun x y u h => ?_
    split_ifs at h
    exact (Option.some.inj h).symm
  | le a b iha ihb => exact bin a b _ _ iha ihb fun x y u h => (Option.some.inj h).symm
  | lt a b iha ihb => exact bin a b _ _ iha ihb fun x y u h => (Option.some.inj h).symm
  | eq a b iha ihb => exact bin a b _ _ iha ihb fun x y u h => (Option.some.inj h).symm
  | lor a b iha ihb => exact binB a b _ iha ihb
  | land a b iha ihb => exact binB a b _ iha ihb
  | cond c a b ihc iha ihb =>
    intro u v h1 h2
    obtain ⟨z, e0, h1⟩ := obind h1
    obtain ⟨x, e1, h1⟩ := obind h1
    obtain ⟨wz, e2, h2⟩ := ebind h2
    obtain ⟨z', e3, h2⟩ := ebind h2
    obtain ⟨wx, e4, h2⟩ := ebind h2
    obtain ⟨x', e5, h2⟩ := ebind h2
    obtain ⟨wy, e6, h2⟩ := ebind h2
    obtain ⟨y', e7, h2⟩ := ebind h2
    have q1 := ihc _ _ (sBool_some e0) e2
    subst q1
    have q1 := Val.bool.inj (toBool_ok e3)
    subst q1
    rw [← Option.some.inj h1, ← Except.ok.inj h2]
    by_cases hz : z
    · rw [if_pos hz] at e1 ⊢
      have q := iha _ _ (sNum_some e1) e4
      subst q
      rw [Val.num.inj (toNum_ok e5)]
    · rw [if_neg hz] at e1 ⊢
      have q := ihb _ _ (sNum_some e1) e6
      subst q
      rw [Val.num.inj (toNum_ok e7)]
  | call1 f a ih =>
    intro u v h1 h2
    obtain ⟨x, e1, h1⟩ := obind h1
    obtain ⟨w, e3, h2⟩ := ebind h2
    obtain ⟨x', e4, h2⟩ := ebind h2
    have q1 := ih _ _ (sNum_some e1) e3
    subst q1
    have q1 := Val.num.inj (toNum_ok e4)
    subst q1
    split_ifs at h1
    exact (Option.some.inj h1).symm.trans (Except.ok.inj h2)
  | call2 f a b iha ihb => exact bin a b _ _ iha ihb fun x y u h => (Option.some.inj h).symm
  | undef c => intro u v h1; cases h1

theorem exec_agree (b : List (Nat × Expr)) : ∀ S T T' : Nat → Option Val, Ext S T → exec P E b T = .ok T' → Ext (sexec P E b S) T' := by
  induction b with
  | nil => intro S T T' h h2; cases h2; exact h
  | cons ne r ih =>
    obtain ⟨n, e⟩ := ne
    intro S T T' h h2
    obtain ⟨v, e1, h2⟩ := ebind h2
    refine ih _ _ _ ?_ h2
    intro m w hm
    by_cases hmn : m = n
    · subst hmn
      rw [Function.update_self] at hm ⊢
      rw [eval_agree h e _ _ hm e1]
    · rw [Function.update_of_ne hmn] at hm ⊢
      exact h m w hm

end

/-- C49: a strict value is the value that the code returns, if it returns one. -/
theorem run_agree {P : Prims} {E : Env} {p : Prog} {x y : ℝ} (h1 : srun P E p = some x) (h2 : run P E p = .ok y) : x = y := by
  obtain ⟨T, e1, h2⟩ := ebind h2
  obtain ⟨w, e2, e3⟩ := ebind h2
  have h := exec_agree p.body (fun _ => none) _ _ (fun n v h => nomatch h) e1
  have q := eval_agree h p.res _ _ (sNum_some h1) e2
  subst q
  exact Val.num.inj (toNum_ok e3)

/-! ## From the check to the claim -/

theorem one_lem {x : ℝ} (h : x = 1) : oneI.Has x := by subst h; exact has_one

/-- The configuration of a claim. -/
def acfg (pol : Bool) (fam : Fam) (sp tp : Bool) (par npar flds : List Nat) : ACfg where
  pol := pol
  hasS := Fam.rec false true true fam
  hasM := Fam.rec false false true fam
  rI := pos
  r1I := pos
  zI := unitI
  zzI := unitNN
  sI := ⟨.fin (Int.ofNat 0) sp, .inf⟩
  s1I := top
  s2I := ⟨.fin (Int.ofNat 0) sp, .inf⟩
  stI := ⟨.fin (Int.ofNat 0) sp, .inf⟩
  tI := ⟨.fin (Int.ofNat 0) tp, .inf⟩
  t1I := ⟨.fin (Int.ofNat 0) tp, .inf⟩
  dI := pos
  above := false
  above1 := false
  par := par
  npar := npar
  flds := flds
  ztI := openI
  pI := pos
  oI := top
  lI := top

def fldNo (f : Fld) : Nat := Fld.rec 0 1 2 3 4 f

theorem mem_map {α : Type} {c : Nat} {l : List α} {f : α → Nat} (h : mem c (l.map f) = true) : ∃ a ∈ l, f a = c := by
  induction l with
  | nil => cases h
  | cons a l ih =>
    change (kif Nat.beq (f a) c then true else mem c (l.map f)) = true at h
    rw [kif_beq] at h
    split_ifs at h with h1
    · exact ⟨a, List.mem_cons_self, h1⟩
    · obtain ⟨b, hb, e⟩ := ih h
      exact ⟨b, List.mem_cons_of_mem _ hb, e⟩

theorem afld_ok {C : ACfg} {a : Assume} {p : Model.Rec} (h : a.Rec p) (hz : C.ztI = openI) (hd : C.dI = pos) (hp : C.pI = pos) (ho : C.oI = top) (hf : C.flds = a.flds.map fldNo) (f : Fld) : (afld C f).Has (p.fld f) := by
  have hS := rS_pos
  have key : ∀ g : Fld, (kif mem (fldNo g) C.flds then C.pI else C.oI).Has (p.fld g) := by
    intro g
    rw [kif_eq, hf, hp, ho]
    split_ifs with hm
    · obtain ⟨b, hb, e⟩ := mem_map hm
      have : b = g := by revert e; cases b <;> cases g <;> first | exact fun _ => rfl | exact fun h => absurd h (by decide)
      exact has_pos (h.flds g (this ▸ hb))
    · exact has_top _
  cases f with
  | zetaThreshold =>
    show C.ztI.Has _
    rw [hz]
    refine ⟨posB_ok h.zeta, .negOfNat ?_ fun _ => ?_⟩
    · have := mul_le_mul_of_nonneg_right h.zeta1.le hS.le
      rwa [one_mul] at this
    · have := mul_lt_mul_of_pos_right h.zeta1 hS
      rwa [one_mul] at this
  | densThreshold => show C.dI.Has _; rw [hd]; exact has_pos h.dens
  | camOmega => exact key .camOmega
  | camAlpha => exact key .camAlpha
  | camBeta => exact key .camBeta

theorem par_ok {a : Assume} {p : Model.Rec} (h : a.Rec p) (c : Nat) (hc : mem c (a.params.map nameCode) = true) : 0 < p.param c := by
  obtain ⟨n, hn, e⟩ := mem_map hc
  exact e ▸ h.params n hn

theorem npar_ok {a : Assume} {p : Model.Rec} (h : a.Rec p) (c : Nat) (hc : mem c (a.neg.map nameCode) = true) : p.param c < 0 := by
  obtain ⟨n, hn, e⟩ := mem_map hc
  exact e ▸ h.neg n hn

theorem bI_ok {b : Bool} {x : ℝ} (h : 0 ≤ x) (hs : b = true → 0 < x) : (⟨.fin (Int.ofNat 0) b, .inf⟩ : Itv).Has x :=
  ⟨.ofNat (by have := rS_pos; push_cast; positivity) fun e => by have := rS_pos; have := hs e; push_cast; positivity, trivial⟩

theorem ugood {a : Assume} {fam : Fam} {p : Model.Rec} {ρ σ l τ : ℝ} (hrec : a.Rec p) (hρ : 0 < ρ) (hσ : 0 ≤ σ) (hτ : 0 ≤ τ) (hs : a.sPos = true → 0 < σ)
    (ht : a.tPos = true → 0 < τ) : Good (acfg false fam a.sPos a.tPos (a.params.map nameCode) (a.neg.map nameCode) (a.flds.map fldNo))
      (unpolEnv p ρ (fam.grad σ) (fam.meta l) (fam.meta τ)) ⟨ρ, 1, σ, 0, 0⟩ := by
  refine ⟨hρ, zero_le_one, unit_lem hρ one_pos, unitNN_lem hρ one_pos, bI_ok (by simpa using hσ) (fun e => by simpa using hs e), fun i I t hi => ?_,
    fun f => afld_ok hrec rfl rfl rfl rfl rfl f, fun c hc => has_pos (par_ok hrec c hc), fun c hc => has_pos (neg_pos.mpr (npar_ok hrec c hc)), fun _ => has_top _, (fun h => nomatch h), (fun h => nomatch h)⟩
  cases fam <;> cases i <;> first
    | (cases hi; done)
    | (cases hi; exact ⟨_, rfl, has_pos hρ, rfl⟩)
    | (cases hi; exact ⟨_, rfl, bI_ok hσ hs, rfl⟩)
    | (cases hi; exact ⟨_, rfl, bI_ok hτ ht, trivial⟩)
    | (cases hi; exact ⟨_, rfl, has_top _, trivial⟩)

theorem pgood {a : Assume} {fam : Fam} {p : Model.Rec} {r0 r1 s0 s1 s2 l0 l1 t0 t1 : ℝ} (hrec : a.Rec p) (h0 : 0 < r0) (h1 : 0 < r1) (hs0 : 0 ≤ s0) (hs2 : 0 ≤ s2)
    (hst : 0 ≤ s0 + 2 * s1 + s2) (ht0 : 0 ≤ t0) (ht1 : 0 ≤ t1) (hs : a.sPos = true → 0 < s0 ∧ 0 < s2 ∧ 0 < s0 + 2 * s1 + s2)
    (ht : a.tPos = true → 0 < t0 ∧ 0 < t1) : Good (acfg true fam a.sPos a.tPos (a.params.map nameCode) (a.neg.map nameCode) (a.flds.map fldNo))
      (polEnv p (r0, r1) (fam.grad (s0, s1, s2)) (fam.meta (l0, l1)) (fam.meta (t0, t1))) ⟨r0, r1, s0, s1, s2⟩ := by
  refine ⟨h0, h1.le, unit_lem h0 h1, unitNN_lem h0 h1, bI_ok hst (fun e => (hs e).2.2), fun i I t hi => ?_, fun f => afld_ok hrec rfl rfl rfl rfl rfl f,
    fun c hc => has_pos (par_ok hrec c hc), fun c hc => has_pos (neg_pos.mpr (npar_ok hrec c hc)), fun _ => has_top _, (fun h => nomatch h), (fun h => nomatch h)⟩
  cases fam <;> cases i <;> first
    | (cases hi; done)
    | (cases hi; exact ⟨_, rfl, has_pos h0, rfl⟩)
    | (cases hi; exact ⟨_, rfl, has_pos h1, rfl⟩)
    | (cases hi; exact ⟨_, rfl, bI_ok hs0 fun e => (hs e).1, rfl⟩)
    | (cases hi; exact ⟨_, rfl, bI_ok hs2 fun e => (hs e).2.1, rfl⟩)
    | (cases hi; exact ⟨_, rfl, bI_ok ht0 fun e => (ht e).1, trivial⟩)
    | (cases hi; exact ⟨_, rfl, bI_ok ht1 fun e => (ht e).2, trivial⟩)
    | (cases hi; exact ⟨_, rfl, has_top _, rfl⟩)
    | (cases hi; exact ⟨_, rfl, has_top _, trivial⟩)

theorem definedUnpol_of (a : Assume) {fam : Fam} {f : Formula} (hr : NeverRaises fam f) {par npar flds : List Nat} (hp : a.params.map nameCode = par)
    (hn : a.neg.map nameCode = npar) (hf : a.flds.map fldNo = flds) (h : acheck (acfg false fam a.sPos a.tPos par npar flds) f.unpolBody = true) :
    DefinedUnpol a fam f := by
  intro P p ρ σ l τ hrec hρ hσ hτ hs ht _
  obtain ⟨e, he⟩ := hr.2 P p ρ σ l τ
  subst hp; subst hn; subst hf
  obtain ⟨x, hx⟩ := acheck_ok (P := P) (ugood hrec hρ hσ hτ hs ht) h
  exact ⟨x, hx, by rw [run_agree hx he]; exact he⟩

theorem definedPol_of (a : Assume) {fam : Fam} {f : Formula} (hr : NeverRaises fam f) {par npar flds : List Nat} (hp : a.params.map nameCode = par)
    (hn : a.neg.map nameCode = npar) (hf : a.flds.map fldNo = flds) (h : acheck (acfg true fam a.sPos a.tPos par npar flds) f.polBody = true) :
    DefinedPol a fam f := by
  intro P p r0 r1 s0 s1 s2 l0 l1 t0 t1 hrec h0 h1 hs0 hs2 hst ht0 ht1 hs ht _
  obtain ⟨e, he⟩ := hr.1 P p (r0, r1) (s0, s1, s2) (l0, l1) (t0, t1)
  subst hp; subst hn; subst hf
  obtain ⟨x, hx⟩ := acheck_ok (P := P) (pgood hrec h0 h1 hs0 hs2 hst ht0 ht1 hs ht) h
  exact ⟨x, hx, by rw [run_agree hx he]; exact he⟩

/-- The configuration of a claim about one spin channel only. -/
def fcfg (fam : Fam) (par npar flds : List Nat) : ACfg where
  pol := true
  hasS := Fam.rec false true true fam
  hasM := Fam.rec false false true fam
  rI := pos
  r1I := zeroI
  zI := oneI
  zzI := oneI
  sI := pos
  s1I := zeroI
  s2I := zeroI
  stI := pos
  tI := pos
  t1I := zeroI
  dI := pos
  above := true
  above1 := false
  par := par
  npar := npar
  flds := flds
  ztI := openI
  pI := pos
  oI := top
  lI := top

theorem fgood {a : Assume} {fam : Fam} {p : Model.Rec} {r s l t : ℝ} (hrec : a.Rec p) (hr : p.fld .densThreshold < r) (hs : 0 < s) (ht : 0 < t) :
    Good (fcfg fam (a.params.map nameCode) (a.neg.map nameCode) (a.flds.map fldNo))
      (polEnv p (r, 0) (fam.grad (s, 0, 0)) (fam.meta (l, 0)) (fam.meta (t, 0))) ⟨r, 0, s, 0, 0⟩ := by
  have h0 : 0 < r := hrec.dens.trans hr
  refine ⟨h0, le_rfl, one_lem ?_, one_lem ?_, ?_, fun i I t hi => ?_, fun f => afld_ok hrec rfl rfl rfl rfl rfl f,
    fun c hc => has_pos (par_ok hrec c hc), fun c hc => has_pos (neg_pos.mpr (npar_ok hrec c hc)), fun _ => has_top _, fun _ => ⟨hr, (fun h => nomatch h)⟩, (fun h => nomatch h)⟩
  · show (r - 0) / (r + 0) = 1
    rw [sub_zero, add_zero, div_self h0.ne']
  · show (r - 0) ^ 2 / (r + 0) ^ 2 = 1
    rw [sub_zero, add_zero, div_self (pow_pos h0 2).ne']
  · norm_num; exact has_pos hs
  · cases fam <;> cases i <;> first
      | (cases hi; done)
      | (cases hi; exact ⟨_, rfl, has_pos h0, rfl⟩)
      | (cases hi; exact ⟨_, rfl, has_pos hs, rfl⟩)
      | (cases hi; exact ⟨_, rfl, has_zero, rfl⟩)
      | (cases hi; exact ⟨_, rfl, has_pos ht, trivial⟩)
      | (cases hi; exact ⟨_, rfl, has_zero, trivial⟩)
      | (cases hi; exact ⟨_, rfl, has_top _, trivial⟩)

theorem definedFull_of (a : Assume) {fam : Fam} {f : Formula} (hr : NeverRaises fam f) {par npar flds : List Nat} (hp : a.params.map nameCode = par)
    (hn : a.neg.map nameCode = npar) (hf : a.flds.map fldNo = flds) (h : acheck (fcfg fam par npar flds) f.polBody = true) : DefinedFull a fam f := by
  intro P p r s l t hrec h1 h2 h3
  obtain ⟨e, he⟩ := hr.1 P p (r, 0) (s, 0, 0) (l, 0) (t, 0)
  subst hp; subst hn; subst hf
  obtain ⟨x, hx⟩ := acheck_ok (P := P) (fgood hrec h1 h2 h3) h
  exact ⟨x, hx, by rw [run_agree hx he]; exact he⟩

theorem nanFull_of {fam : Fam} {f : Formula} (h : ncheck (fcfg fam [] [] []) f.polBody = true) : NanFull fam f := by
  intro P p r s l t h1 h2 h3
  exact ncheck_ok (fgood (a := {}) h1 h2.1 h2.2 h3) h

/-- The configuration of a claim about vanishing gradients. -/
def zcfg (pol : Bool) (fam : Fam) (tau0 : Bool) : ACfg where
  pol := pol
  hasS := Fam.rec false true true fam
  hasM := Fam.rec false false true fam
  rI := pos
  r1I := pos
  zI := unitI
  zzI := unitNN
  sI := zeroI
  s1I := zeroI
  s2I := zeroI
  stI := zeroI
  tI := kif tau0 then zeroI else pos
  t1I := kif tau0 then zeroI else pos
  dI := pos
  above := true
  above1 := true
  par := []
  npar := []
  flds := []
  ztI := openI
  pI := pos
  oI := top
  lI := top

theorem tau_ok {tau0 : Bool} {t : ℝ} (h : if tau0 then t = 0 else 0 < t) : (kif tau0 then zeroI else pos : Itv).Has t := by
  cases tau0
  · exact has_pos (by simpa using h)
  · rw [show t = 0 by simpa using h]; exact has_zero

theorem nanUnpol_of {tau0 : Bool} {fam : Fam} {f : Formula} (h : ncheck (zcfg false fam tau0) f.unpolBody = true) : NanUnpol tau0 fam f := by
  intro P p ρ l τ hrec h4 ht
  have h3 := hrec.dens
  have hρ : 0 < ρ := by linarith
  refine ncheck_ok (C := zcfg false fam tau0) (V := ⟨ρ, ρ, 0, 0, 0⟩) ⟨hρ, hρ.le, unit_lem hρ hρ, unitNN_lem hρ hρ, ?_, fun i I t hi => ?_,
    fun f => afld_ok hrec rfl rfl rfl rfl rfl f, (fun c hc => absurd hc Bool.false_ne_true), (fun c hc => absurd hc Bool.false_ne_true), fun _ => has_top _, fun _ => ⟨?_, fun _ => h4⟩, fun _ => ?_⟩ h
  · norm_num; exact has_zero
  · cases fam <;> cases i <;> first
      | (cases hi; done)
      | (cases hi; exact ⟨_, rfl, has_pos hρ, rfl⟩)
      | (cases hi; exact ⟨_, rfl, has_zero, rfl⟩)
      | (cases hi; exact ⟨_, rfl, tau_ok ht, trivial⟩)
      | (cases hi; exact ⟨_, rfl, has_top _, trivial⟩)
  · show p.fld .densThreshold < ρ; linarith
  · show p.fld .densThreshold < ρ; linarith

theorem nanPol_of {tau0 : Bool} {fam : Fam} {f : Formula} (h : ncheck (zcfg true fam tau0) f.polBody = true) : NanPol tau0 fam f := by
  intro P p r0 r1 l0 l1 t0 t1 hrec h4 h5 ht
  have h3 := hrec.dens
  have hr0 : 0 < r0 := by linarith
  have hr1 : 0 < r1 := by linarith
  have ht0 : if tau0 then t0 = 0 else 0 < t0 := by cases tau0 <;> simp_all
  have ht1 : if tau0 then t1 = 0 else 0 < t1 := by cases tau0 <;> simp_all
  refine ncheck_ok (C := zcfg true fam tau0) (V := ⟨r0, r1, 0, 0, 0⟩) ⟨hr0, hr1.le, unit_lem hr0 hr1, unitNN_lem hr0 hr1, ?_, fun i I t hi => ?_,
    fun f => afld_ok hrec rfl rfl rfl rfl rfl f, (fun c hc => absurd hc Bool.false_ne_true), (fun c hc => absurd hc Bool.false_ne_true), fun _ => has_top _,
    fun _ => ⟨h4, fun h => absurd h.symm Bool.false_ne_true⟩, fun _ => h5⟩ h
  · norm_num; exact has_zero
  · cases fam <;> cases i <;> first
      | (cases hi; done)
      | (cases hi; exact ⟨_, rfl, has_pos hr0, rfl⟩)
      | (cases hi; exact ⟨_, rfl, has_pos hr1, rfl⟩)
      | (cases hi; exact ⟨_, rfl, has_zero, rfl⟩)
      | (cases hi; exact ⟨_, rfl, tau_ok ht0, trivial⟩)
      | (cases hi; exact ⟨_, rfl, tau_ok ht1, trivial⟩)
      | (cases hi; exact ⟨_, rfl, has_top _, trivial⟩)

end

end Verif.Norm
