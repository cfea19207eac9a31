import Verif.Spec.Tree
import Verif.Lib.Args
/-!
# Lemmas about record trees
-/
namespace Verif.Lib
open Verif.Py Verif.Model Verif.Spec

/-- Induction over record trees. -/
theorem PTree.ind {Q : PTree → Prop} (h : ∀ i aux, (∀ t ∈ aux, Q t) → Q (.node i aux)) (t : PTree) : Q t :=
  PTree.rec (motive_1 := Q) (motive_2 := fun l => ∀ t ∈ l, Q t) h (fun _ hm => absurd hm List.not_mem_nil)
    (fun _ _ h1 h2 _ hm => (List.mem_cons.1 hm).elim (fun e => e ▸ h1) (h2 _)) t

theorem soundAll_iff (I : Impls) : ∀ l, SoundAll I l ↔ ∀ t ∈ l, Sound I t
  | [] => by simp [SoundAll]
  | t :: ts => by simp [SoundAll, soundAll_iff I ts]

theorem coefsAll_iff : ∀ l, CoefsAll l ↔ ∀ t ∈ l, Coefs t
  | [] => by simp [CoefsAll]
  | t :: ts => by simp [CoefsAll, coefsAll_iff ts]

section
variable {P : Prims} {I : Impls} {n : ℕ} {rho : Callable n ℝ} {r : Coord n} {mo : Option (Callable n ℂ)}

theorem pySum_eq (l : List ℝ) : pySum l = l.sum := by
  unfold pySum
  rw [List.sum_eq_foldl]

theorem invokeMix_nil (cs : List ℝ) : invokeMix P I rho r mo [] cs = .ok [] := by
  unfold invokeMix; rfl

theorem invokeMix_cons (t : PTree) (ts : List PTree) (c : ℝ) (cs : List ℝ) :
    invokeMix P I rho r mo (t :: ts) (c :: cs) =
      (invoke P I rho r mo t).bind fun x => (invokeMix P I rho r mo ts cs).bind fun xs => .ok (c * x :: xs) := by
  rw [invokeMix.eq_def]; rfl

theorem invokeMix_short (t : PTree) (ts : List PTree) : invokeMix P I rho r mo (t :: ts) [] = .ok [] := by
  rw [invokeMix.eq_def]

theorem invoke_mix (i : PInfo) (aux : List PTree) (h : i.mapleName = "") (ha : aux ≠ []) :
    invoke P I rho r mo (.node i aux) = (invokeMix P I rho r mo aux i.mixCoef).bind fun l => .ok l.sum := by
  rw [invoke.eq_def]
  simp only [h]
  cases aux with
  | nil => exact absurd rfl ha
  | cons a as => simp only [pySum_eq]; rfl

theorem invoke_leaf (i : PInfo) (aux : List PTree) (h : i.mapleName ≠ "") (hd : i.mapleName ≠ "DEORBITALIZE") :
    invoke P I rho r mo (.node i aux) = leafCall P I rho r mo i := by
  rw [invoke.eq_def]
  simp only [if_neg h, if_neg hd]
  unfold leafCall
  cases I i.mapleName <;> rfl

end

end Verif.Lib
