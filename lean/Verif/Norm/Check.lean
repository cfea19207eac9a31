import Verif.Norm.Base
import Verif.Spec.Formula
/-!
# Checks that establish the claims about single formulas
-/
namespace Verif.Norm
open Verif.Py Verif.Model Verif.Spec

/-- Codes for the table of atoms. -/
def primes : List Nat := [47, 53, 59, 61, 67, 71, 73, 79, 83, 89, 97, 101, 103, 107, 109, 113, 127, 131, 137, 139, 149, 151, 157, 163, 167, 173, 179, 181, 191, 193, 197, 199, 211, 223, 227, 229, 233, 239, 241, 251, 257, 263, 269, 271, 277, 281, 283, 293, 307, 311, 313, 317, 331, 337, 347, 349, 353, 359, 367, 373, 379, 383, 389, 397, 401, 409, 419, 421, 431, 433, 439, 443, 449, 457, 461, 463, 467, 479, 487, 491, 499, 503, 509, 521, 523, 541, 547, 557, 563, 569, 571, 577, 587, 593, 599, 601, 607, 613, 617, 619, 631, 641, 643, 647, 653, 659, 661, 673, 677, 683, 691, 701, 709, 719, 727, 733, 739, 743, 751, 757, 761, 769, 773, 787, 797, 809, 811, 821, 823, 827, 829, 839, 853, 857, 859, 863, 877, 881, 883, 887, 907, 911, 919, 929, 937, 941, 947, 953, 967, 971, 977, 983, 991, 997, 1009, 1013, 1019, 1021, 1031, 1033, 1039, 1049, 1051, 1061, 1063, 1069, 1087, 1091, 1093, 1097, 1103, 1109, 1117, 1123, 1129, 1151, 1153, 1163, 1171, 1181, 1187, 1193, 1201, 1213, 1217, 1223, 1229, 1231, 1237, 1249, 1259, 1277, 1279, 1283, 1289, 1291, 1297, 1301, 1303, 1307, 1319, 1321, 1327, 1361, 1367, 1373, 1381, 1399, 1409, 1423, 1427, 1429, 1433, 1439, 1447, 1451, 1453, 1459, 1471, 1481, 1483, 1487, 1489, 1493, 1499, 1511, 1523, 1531, 1543, 1549, 1553, 1559, 1567, 1571, 1579, 1583, 1597, 1601, 1607, 1609, 1613, 1619, 1621, 1627, 1637, 1657, 1663, 1667, 1669, 1693, 1697, 1699, 1709, 1721, 1723, 1733, 1741, 1747, 1753, 1759, 1777, 1783, 1787, 1789, 1801, 1811, 1823, 1831, 1847, 1861, 1867, 1871, 1873, 1877, 1879, 1889, 1901, 1907, 1913, 1931, 1933, 1949, 1951, 1973, 1979, 1987, 1993, 1997, 1999, 2003, 2011, 2017, 2027, 2029, 2039, 2053, 2063, 2069, 2081, 2083, 2087, 2089, 2099, 2111, 2113, 2129, 2131, 2137, 2141, 2143, 2153, 2161, 2179, 2203, 2207, 2213, 2221, 2237, 2239, 2243, 2251, 2267, 2269, 2273, 2281, 2287, 2293, 2297, 2309, 2311, 2333, 2339, 2341, 2347, 2351, 2357, 2371, 2377, 2381, 2383, 2389, 2393, 2399, 2411, 2417, 2423, 2437, 2441, 2447, 2459, 2467, 2473, 2477, 2503, 2521, 2531, 2539, 2543, 2549, 2551, 2557, 2579, 2591, 2593, 2609, 2617, 2621, 2633, 2647, 2657, 2659, 2663, 2671, 2677, 2683, 2687, 2689, 2693, 2699, 2707, 2711, 2713, 2719, 2729, 2731, 2741, 2749, 2753, 2767, 2777, 2789, 2791, 2797, 2801, 2803, 2819, 2833, 2837, 2843, 2851, 2857, 2861, 2879, 2887, 2897, 2903, 2909, 2917, 2927, 2939, 2953, 2957, 2963, 2969, 2971, 2999]

theorem primes_prime : ∀ p ∈ primes, p.Prime := by
  have h : (primes.all fun p => decide (2 ≤ p) && (List.range 60).all fun k => decide (k < 2) || decide (p ≤ k) || decide (p % k ≠ 0)) = true := by decide +kernel
  intro p hp
  have := List.all_eq_true.mp h p hp
  simp only [Bool.and_eq_true, decide_eq_true_eq, List.all_eq_true, List.mem_range, Bool.or_eq_true] at this
  obtain ⟨h2, hk⟩ := this
  have hlt : p < 3000 := by
    have h : (primes.all fun p => decide (p < 3000)) = true := by decide +kernel
    simpa using List.all_eq_true.mp h p hp
  rw [Nat.prime_def_minFac]
  refine ⟨h2, ?_⟩
  by_contra hne
  have h1 : p.minFac < p := lt_of_le_of_ne (Nat.minFac_le (by omega)) hne
  have hsq := Nat.minFac_sq_le_self (n := p) (by omega) (fun hpr => hne ((Nat.prime_def_minFac.mp hpr).2))
  have h3 : p.minFac < 60 := by
    by_contra h3
    have : 60 * 60 ≤ p.minFac ^ 2 := by rw [pow_two]; exact Nat.mul_le_mul (by omega) (by omega)
    omega
  have h4 := hk p.minFac h3
  have h5 : 2 ≤ p.minFac := (Nat.minFac_prime (by omega : p ≠ 1)).two_le
  have h6 : p % p.minFac = 0 := Nat.mod_eq_zero_of_dvd (Nat.minFac_dvd p)
  omega

noncomputable section

theorem cs_sound {pr : List Nat} {U cap : Nat} (hU : U ≠ 0) {fam : Fam} {A B : Prog} (b : Base) (hb : b.Pos) (hpr : ∀ p ∈ pr, p.Prime)
    (h : chk pr ⟨U, cap, .nil⟩ (subUnpol U fam) A (subHalf U fam) B = true) :
    ∃ x, run b.P (unpolEnv b.p b.r0 (fam.grad b.s0) (fam.meta b.l0) (fam.meta b.t0)) A = .ok x ∧
      run b.P (polEnv b.p (b.r0 / 2, b.r0 / 2) (fam.grad (b.s0 / 4, b.s0 / 4, b.s0 / 4)) (fam.meta (b.l0 / 2, b.l0 / 2))
        (fam.meta (b.t0 / 2, b.t0 / 2))) B = .ok x :=
  chk_sound (K := b.ctx U .nil) hpr (ctx_pos hb hU) rfl (ctx_nn hb) (noFacts b U _)
    (subUnpol_ok hb hU fam) (subHalf_ok hb hU fam) h

/-- Check for `ClosedShell` (proof machinery). -/
def csChk (cap : Nat) (fam : Fam) (f : Formula) : Bool :=
  chk primes ⟨12, cap, .nil⟩ (subUnpol 12 fam) f.unpolBody (subHalf 12 fam) f.polBody

theorem closedShell_of {cap : Nat} {fam : Fam} {f : Formula} (h : csChk cap fam f = true) : ClosedShell fam f := by
  intro P p ρ σ l τ ht hρ hσ hτ
  exact cs_sound (U := 12) (by norm_num) ⟨P, ρ, 1, σ, 0, 0, l, 0, τ, 0, 1, p⟩ ⟨hρ, one_pos, hσ, le_rfl, hτ, le_rfl, one_pos, ht.zeta, ht.dens⟩ primes_prime h

theorem sf_sound {pr : List Nat} {U cap : Nat} (hU : U ≠ 0) {fam : Fam} {A B : Prog} (b : Base) (hb : b.Pos) (hpr : ∀ p ∈ pr, p.Prime)
    (h : chk pr ⟨U, cap, .nil⟩ (subPol U fam) A (subSwap U fam) B = true) :
    ∃ x, run b.P (polEnv b.p (b.r0, b.r1) (fam.grad (b.s0, b.s1, b.s2)) (fam.meta (b.l0, b.l1)) (fam.meta (b.t0, b.t1))) A = .ok x ∧
      run b.P (polEnv b.p (b.r1, b.r0) (fam.grad (b.s2, b.s1, b.s0)) (fam.meta (b.l1, b.l0)) (fam.meta (b.t1, b.t0))) B = .ok x :=
  chk_sound (K := b.ctx U .nil) hpr (ctx_pos hb hU) rfl (ctx_nn hb) (noFacts b U _)
    (subPol_ok hb hU fam) (subSwap_ok hb hU fam) h

/-- Check for `SpinFlip` (proof machinery). -/
def sfChk (cap : Nat) (fam : Fam) (f : Formula) : Bool :=
  chk primes ⟨12, cap, .nil⟩ (subPol 12 fam) f.polBody (subSwap 12 fam) f.polBody

theorem spinFlip_of {cap : Nat} {fam : Fam} {f : Formula} (h : sfChk cap fam f = true) : SpinFlip fam f := by
  intro P p r0 r1 s0 s1 s2 l0 l1 t0 t1 ht h0 h1 hs0 hs2 ht0 ht1
  exact sf_sound (U := 12) (by norm_num) ⟨P, r0, r1, s0, s1, s2, l0, l1, t0, t1, 1, p⟩ ⟨h0, h1, hs0, hs2, ht0, ht1, one_pos, ht.zeta, ht.dens⟩ primes_prime h

end

end Verif.Norm
