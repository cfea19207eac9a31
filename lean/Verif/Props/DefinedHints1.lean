import Verif.Norm.HintsMore
import Verif.Py.KernelRfl
import Verif.Props.Static1
import Verif.Props.Static2
import Verif.Props.Static3
import Verif.Props.Static4
/-!
# C49: formulas that are defined on their domain, by hints

Generated.  `X_polHintN` and `X_unpolHintN` bound a part of a formula where interval analysis alone is too weak.
-/
set_option Elab.async false
set_option maxRecDepth 100000
namespace Verif.Props
open Verif.Py Verif.Model Verif.Spec Verif.Norm Verif.Data Verif.Lib

/-- The constants of the Perdew–Wang interpolation, as in libxc (new). -/
theorem pw_new : 0 < N 621814 (-7) ∧ 0 < N 19751673498613801407 (-21) ∧ 0 < N 16081979498692535067 (-18) ∧ 0 < N 32163958997385070134 (-18) ∧ 0 < N 29608749977793437516 (-18) ∧
    N 29608749977793437516 (-18) * (13 / 10) ≤ 12 / 5 * N 16081979498692535067 (-18) ∧ N 16081979498692535067 (-18) * (21 / 10) ≤ 11 / 10 * N 32163958997385070134 (-18) ∧
    N 19751673498613801407 (-21) * (12 / 5) ≤ 17 / 20 * N 621814 (-7) ∧ N 621814 (-7) * (11 / 10) * 2 ≤ 10 * N 310907 (-7) := by norm_num
/-- The constants of the Perdew–Wang interpolation as published. -/
theorem pw_old : 0 < N 62182 (-6) ∧ 0 < N 19751789702565206229 (-21) ∧ 0 < N 16081824322151104822 (-18) ∧ 0 < N 32164683177870697974 (-18) ∧ 0 < N 29608574643216675549 (-18) ∧
    N 29608574643216675549 (-18) * (13 / 10) ≤ 12 / 5 * N 16081824322151104822 (-18) ∧ N 16081824322151104822 (-18) * (21 / 10) ≤ 11 / 10 * N 32164683177870697974 (-18) ∧
    N 19751789702565206229 (-21) * (12 / 5) ≤ 17 / 20 * N 62182 (-6) ∧ N 62182 (-6) * (11 / 10) * 2 ≤ 10 * N 3109 (-5) := by norm_num

prog gga_c_acgga_polHint0_e "res = -t33 + t89 + t91"
theorem gga_c_acgga_polHint0 : PolHint {zetaSmall := true} .gga gga_c_acgga.polBody ⟨57, gga_c_acgga_polHint0_e.res, pos.neg⟩ :=
  polHint_pw rfl (N 621814 (-7)) (N 310907 (-7)) (N 19751673498613801407 (-21)) (N 16081979498692535067 (-18)) (N 32163958997385070134 (-18)) (N 29608749977793437516 (-18))
    (fun P p r0 r1 s0 s1 s2 l0 l1 t0 t1 _ _ _ _ _ _ _ _ => by kernel_rfl) pw_new
theorem gga_c_acgga_definedPol : DefinedPol {zetaSmall := true} .gga gga_c_acgga :=
  definedPolH_of _ gga_c_acgga_neverRaises (hs := [⟨57, gga_c_acgga_polHint0_e.res, pos.neg⟩]) (fc gga_c_acgga_polHint0 fn) (par := []) (npar := []) (flds := []) rfl rfl rfl (by decide +kernel)

prog gga_c_acggap_polHint0_e "res = -t33 + t89 + t91"
prog gga_c_acggap_polHint0_q "t1 = 3 ** (0.1e1 / 0.3e1)
t3 = (0.1e1 / math.pi) ** (0.1e1 / 0.3e1)
t5 = 4 ** (0.1e1 / 0.3e1)
t6 = t5 ** 2
t7 = r0 + r1
t8 = t7 ** (0.1e1 / 0.3e1)
t11 = t1 * t3 * t6 / t8
t14 = math.sqrt(t11)
t17 = t11 ** 0.15e1
t19 = t1 ** 2
t20 = t3 ** 2
t22 = t8 ** 2
t25 = t19 * t20 * t5 / t22
t31 = math.log(0.1e1 + 0.16081979498692535067e2 / (0.37978500000000000000e1 * t14 + 0.89690000000000000000e0 * t11 + 0.20477500000000000000e0 * t17 + 0.12323500000000000000e0 * t25))
t33 = 0.621814e-1 * (0.1e1 + 0.53425000000000000000e-1 * t11) * t31
t34 = r0 - r1
t35 = t34 ** 2
t36 = t35 ** 2
t37 = t7 ** 2
t38 = t37 ** 2
t42 = t34 / t7
t43 = 0.1e1 + t42
t44 = t43 <= p_a_zeta_threshold
t45 = p_a_zeta_threshold ** (0.1e1 / 0.3e1)
t46 = t45 * p_a_zeta_threshold
t47 = t43 ** (0.1e1 / 0.3e1)
t49 = lax_cond(t44, t46, t47 * t43)
t50 = 0.1e1 - t42
t51 = t50 <= p_a_zeta_threshold
t52 = t50 ** (0.1e1 / 0.3e1)
t54 = lax_cond(t51, t46, t52 * t50)
t56 = 2 ** (0.1e1 / 0.3e1)
t60 = (t49 + t54 - 0.2e1) / (0.2e1 * t56 - 0.2e1)
t71 = math.log(0.1e1 + 0.32163958997385070134e2 / (0.70594500000000000000e1 * t14 + 0.15494250000000000000e1 * t11 + 0.42077500000000000000e0 * t17 + 0.15629250000000000000e0 * t25))
t84 = math.log(0.1e1 + 0.29608749977793437516e2 / (0.51785000000000000000e1 * t14 + 0.90577500000000000000e0 * t11 + 0.11003250000000000000e0 * t17 + 0.12417750000000000000e0 * t25))
t85 = (0.1e1 + 0.27812500000000000000e-1 * t11) * t84
t89 = t36 / t38 * t60 * (-0.3109070e-1 * (0.1e1 + 0.51370000000000000000e-1 * t11) * t71 + t33 - 0.19751673498613801407e-1 * t85)
t91 = 0.19751673498613801407e-1 * t60 * t85
res = -t33 + t89 + t91"
prog gga_c_acggap_polHint0_0_e "res = -t33 + t89 + t91"
theorem gga_c_acggap_polHint0_0 : PolHint {zetaSmall := true} .gga gga_c_acggap_polHint0_q ⟨38, gga_c_acggap_polHint0_0_e.res, pos.neg⟩ :=
  polHint_pw rfl (N 621814 (-7)) (N 310907 (-7)) (N 19751673498613801407 (-21)) (N 16081979498692535067 (-18)) (N 32163958997385070134 (-18)) (N 29608749977793437516 (-18))
    (fun P p r0 r1 s0 s1 s2 l0 l1 t0 t1 _ _ _ _ _ _ _ _ => by kernel_rfl) pw_new
theorem gga_c_acggap_polHint0 : PolHint {zetaSmall := true} .gga gga_c_acggap.polBody ⟨60, gga_c_acggap_polHint0_e.res, pos.neg⟩ :=
  polHint_rw 1000 gga_c_acggap_polHint0_q (hs := [⟨38, gga_c_acggap_polHint0_0_e.res, pos.neg⟩]) (fc gga_c_acggap_polHint0_0 fn) (par := []) (npar := []) (flds := []) rfl rfl rfl (by decide +kernel) (by decide +kernel)
theorem gga_c_acggap_definedPol : DefinedPol {zetaSmall := true} .gga gga_c_acggap :=
  definedPolH_of _ gga_c_acggap_neverRaises (hs := [⟨60, gga_c_acggap_polHint0_e.res, pos.neg⟩]) (fc gga_c_acggap_polHint0 fn) (par := []) (npar := []) (flds := []) rfl rfl rfl (by decide +kernel)

prog gga_c_pbe_polHint0_e "res = -t33 + t89 + t91"
theorem gga_c_pbe_polHint0 : PolHint {params := ["BB", "beta", "gamma"], zetaSmall := true} .gga gga_c_pbe.polBody ⟨48, gga_c_pbe_polHint0_e.res, pos.neg⟩ :=
  polHint_pw rfl (N 621814 (-7)) (N 310907 (-7)) (N 19751673498613801407 (-21)) (N 16081979498692535067 (-18)) (N 32163958997385070134 (-18)) (N 29608749977793437516 (-18))
    (fun P p r0 r1 s0 s1 s2 l0 l1 t0 t1 _ _ _ _ _ _ _ _ => by kernel_rfl) pw_new
theorem gga_c_pbe_definedPol : DefinedPol {params := ["BB", "beta", "gamma"], zetaSmall := true} .gga gga_c_pbe :=
  definedPolH_of _ gga_c_pbe_neverRaises (hs := [⟨48, gga_c_pbe_polHint0_e.res, pos.neg⟩]) (fc gga_c_pbe_polHint0 fn) (par := [16962, 1650816097, 444016192865]) (npar := []) (flds := []) (by simp [nameCode, nameCodeChars]) rfl rfl (by decide +kernel)

prog gga_c_pbeloc_polHint0_e "res = -t33 + t89 + t91"
theorem gga_c_pbeloc_polHint0 : PolHint {zetaSmall := true} .gga gga_c_pbeloc.polBody ⟨57, gga_c_pbeloc_polHint0_e.res, pos.neg⟩ :=
  polHint_pw rfl (N 621814 (-7)) (N 310907 (-7)) (N 19751673498613801407 (-21)) (N 16081979498692535067 (-18)) (N 32163958997385070134 (-18)) (N 29608749977793437516 (-18))
    (fun P p r0 r1 s0 s1 s2 l0 l1 t0 t1 _ _ _ _ _ _ _ _ => by kernel_rfl) pw_new
theorem gga_c_pbeloc_definedPol : DefinedPol {zetaSmall := true} .gga gga_c_pbeloc :=
  definedPolH_of _ gga_c_pbeloc_neverRaises (hs := [⟨57, gga_c_pbeloc_polHint0_e.res, pos.neg⟩]) (fc gga_c_pbeloc_polHint0 fn) (par := []) (npar := []) (flds := []) rfl rfl rfl (by decide +kernel)

prog gga_c_pw91_polHint0_e "res = -t33 + t89 + t91"
theorem gga_c_pw91_polHint0 : PolHint {zetaSmall := true} .gga gga_c_pw91.polBody ⟨57, gga_c_pw91_polHint0_e.res, pos.neg⟩ :=
  polHint_pw rfl (N 62182 (-6)) (N 3109 (-5)) (N 19751789702565206229 (-21)) (N 16081824322151104822 (-18)) (N 32164683177870697974 (-18)) (N 29608574643216675549 (-18))
    (fun P p r0 r1 s0 s1 s2 l0 l1 t0 t1 _ _ _ _ _ _ _ _ => by kernel_rfl) pw_old
theorem gga_c_pw91_definedPol : DefinedPol {zetaSmall := true} .gga gga_c_pw91 :=
  definedPolH_of _ gga_c_pw91_neverRaises (hs := [⟨57, gga_c_pw91_polHint0_e.res, pos.neg⟩]) (fc gga_c_pw91_polHint0 fn) (par := []) (npar := []) (flds := []) rfl rfl rfl (by decide +kernel)

prog gga_c_regtpss_polHint0_e "res = -t33 + t89 + t91"
theorem gga_c_regtpss_polHint0 : PolHint {zetaSmall := true} .gga gga_c_regtpss.polBody ⟨53, gga_c_regtpss_polHint0_e.res, pos.neg⟩ :=
  polHint_pw rfl (N 621814 (-7)) (N 310907 (-7)) (N 19751673498613801407 (-21)) (N 16081979498692535067 (-18)) (N 32163958997385070134 (-18)) (N 29608749977793437516 (-18))
    (fun P p r0 r1 s0 s1 s2 l0 l1 t0 t1 _ _ _ _ _ _ _ _ => by kernel_rfl) pw_new
theorem gga_c_regtpss_definedPol : DefinedPol {zetaSmall := true} .gga gga_c_regtpss :=
  definedPolH_of _ gga_c_regtpss_neverRaises (hs := [⟨53, gga_c_regtpss_polHint0_e.res, pos.neg⟩]) (fc gga_c_regtpss_polHint0 fn) (par := []) (npar := []) (flds := []) rfl rfl rfl (by decide +kernel)

prog gga_c_scan_e0_polHint0_e "res = -t33 + t89 + t91"
theorem gga_c_scan_e0_polHint0 : PolHint {zetaSmall := true} .gga gga_c_scan_e0.polBody ⟨50, gga_c_scan_e0_polHint0_e.res, pos.neg⟩ :=
  polHint_pw rfl (N 621814 (-7)) (N 310907 (-7)) (N 19751673498613801407 (-21)) (N 16081979498692535067 (-18)) (N 32163958997385070134 (-18)) (N 29608749977793437516 (-18))
    (fun P p r0 r1 s0 s1 s2 l0 l1 t0 t1 _ _ _ _ _ _ _ _ => by kernel_rfl) pw_new
theorem gga_c_scan_e0_definedPol : DefinedPol {zetaSmall := true} .gga gga_c_scan_e0 :=
  definedPolH_of _ gga_c_scan_e0_neverRaises (hs := [⟨50, gga_c_scan_e0_polHint0_e.res, pos.neg⟩]) (fc gga_c_scan_e0_polHint0 fn) (par := []) (npar := []) (flds := []) rfl rfl rfl (by decide +kernel)

prog gga_c_sg4_polHint0_e "res = -t33 + t89 + t91"
prog gga_c_sg4_polHint0_q "t1 = 3 ** (0.1e1 / 0.3e1)
t3 = (0.1e1 / math.pi) ** (0.1e1 / 0.3e1)
t5 = 4 ** (0.1e1 / 0.3e1)
t6 = t5 ** 2
t7 = r0 + r1
t8 = t7 ** (0.1e1 / 0.3e1)
t11 = t1 * t3 * t6 / t8
t14 = math.sqrt(t11)
t17 = t11 ** 0.15e1
t19 = t1 ** 2
t20 = t3 ** 2
t22 = t8 ** 2
t25 = t19 * t20 * t5 / t22
t31 = math.log(0.1e1 + 0.16081979498692535067e2 / (0.37978500000000000000e1 * t14 + 0.89690000000000000000e0 * t11 + 0.20477500000000000000e0 * t17 + 0.12323500000000000000e0 * t25))
t33 = 0.621814e-1 * (0.1e1 + 0.53425000000000000000e-1 * t11) * t31
t34 = r0 - r1
t35 = t34 ** 2
t36 = t35 ** 2
t37 = t7 ** 2
t38 = t37 ** 2
t42 = t34 / t7
t43 = 0.1e1 + t42
t44 = t43 <= p_a_zeta_threshold
t45 = p_a_zeta_threshold ** (0.1e1 / 0.3e1)
t46 = t45 * p_a_zeta_threshold
t47 = t43 ** (0.1e1 / 0.3e1)
t49 = lax_cond(t44, t46, t47 * t43)
t50 = 0.1e1 - t42
t51 = t50 <= p_a_zeta_threshold
t52 = t50 ** (0.1e1 / 0.3e1)
t54 = lax_cond(t51, t46, t52 * t50)
t56 = 2 ** (0.1e1 / 0.3e1)
t60 = (t49 + t54 - 0.2e1) / (0.2e1 * t56 - 0.2e1)
t71 = math.log(0.1e1 + 0.32163958997385070134e2 / (0.70594500000000000000e1 * t14 + 0.15494250000000000000e1 * t11 + 0.42077500000000000000e0 * t17 + 0.15629250000000000000e0 * t25))
t84 = math.log(0.1e1 + 0.29608749977793437516e2 / (0.51785000000000000000e1 * t14 + 0.90577500000000000000e0 * t11 + 0.11003250000000000000e0 * t17 + 0.12417750000000000000e0 * t25))
t85 = (0.1e1 + 0.27812500000000000000e-1 * t11) * t84
t89 = t36 / t38 * t60 * (-0.3109070e-1 * (0.1e1 + 0.51370000000000000000e-1 * t11) * t71 + t33 - 0.19751673498613801407e-1 * t85)
t91 = 0.19751673498613801407e-1 * t60 * t85
res = -t33 + t89 + t91"
prog gga_c_sg4_polHint0_0_e "res = -t33 + t89 + t91"
theorem gga_c_sg4_polHint0_0 : PolHint {zetaSmall := true} .gga gga_c_sg4_polHint0_q ⟨38, gga_c_sg4_polHint0_0_e.res, pos.neg⟩ :=
  polHint_pw rfl (N 621814 (-7)) (N 310907 (-7)) (N 19751673498613801407 (-21)) (N 16081979498692535067 (-18)) (N 32163958997385070134 (-18)) (N 29608749977793437516 (-18))
    (fun P p r0 r1 s0 s1 s2 l0 l1 t0 t1 _ _ _ _ _ _ _ _ => by kernel_rfl) pw_new
theorem gga_c_sg4_polHint0 : PolHint {zetaSmall := true} .gga gga_c_sg4.polBody ⟨60, gga_c_sg4_polHint0_e.res, pos.neg⟩ :=
  polHint_rw 1000 gga_c_sg4_polHint0_q (hs := [⟨38, gga_c_sg4_polHint0_0_e.res, pos.neg⟩]) (fc gga_c_sg4_polHint0_0 fn) (par := []) (npar := []) (flds := []) rfl rfl rfl (by decide +kernel) (by decide +kernel)
theorem gga_c_sg4_definedPol : DefinedPol {zetaSmall := true} .gga gga_c_sg4 :=
  definedPolH_of _ gga_c_sg4_neverRaises (hs := [⟨60, gga_c_sg4_polHint0_e.res, pos.neg⟩]) (fc gga_c_sg4_polHint0 fn) (par := []) (npar := []) (flds := []) rfl rfl rfl (by decide +kernel)

prog gga_c_sogga11_polHint0_e "res = -t33 + t36 / t38 * t60 * (-0.3109070e-1 * (0.1e1 + 0.51370000000000000000e-1 * t11) * t71 + t33 - 0.19751673498613801407e-1 * t85) + 0.19751673498613801407e-1 * t60 * t85"
theorem gga_c_sogga11_polHint0 : PolHint {zetaSmall := true} .gga gga_c_sogga11.polBody ⟨36, gga_c_sogga11_polHint0_e.res, pos.neg⟩ :=
  polHint_pw rfl (N 621814 (-7)) (N 310907 (-7)) (N 19751673498613801407 (-21)) (N 16081979498692535067 (-18)) (N 32163958997385070134 (-18)) (N 29608749977793437516 (-18))
    (fun P p r0 r1 s0 s1 s2 l0 l1 t0 t1 _ _ _ _ _ _ _ _ => by kernel_rfl) pw_new
theorem gga_c_sogga11_definedPol : DefinedPol {zetaSmall := true} .gga gga_c_sogga11 :=
  definedPolH_of _ gga_c_sogga11_neverRaises (hs := [⟨36, gga_c_sogga11_polHint0_e.res, pos.neg⟩]) (fc gga_c_sogga11_polHint0 fn) (par := []) (npar := []) (flds := []) rfl rfl rfl (by decide +kernel)

prog gga_c_zpbeint_polHint0_e "res = -t33 + t89 + t91"
prog gga_c_zpbeint_polHint0_q "t1 = 3 ** (0.1e1 / 0.3e1)
t3 = (0.1e1 / math.pi) ** (0.1e1 / 0.3e1)
t5 = 4 ** (0.1e1 / 0.3e1)
t6 = t5 ** 2
t7 = r0 + r1
t8 = t7 ** (0.1e1 / 0.3e1)
t11 = t1 * t3 * t6 / t8
t14 = math.sqrt(t11)
t17 = t11 ** 0.15e1
t19 = t1 ** 2
t20 = t3 ** 2
t22 = t8 ** 2
t25 = t19 * t20 * t5 / t22
t31 = math.log(0.1e1 + 0.16081979498692535067e2 / (0.37978500000000000000e1 * t14 + 0.89690000000000000000e0 * t11 + 0.20477500000000000000e0 * t17 + 0.12323500000000000000e0 * t25))
t33 = 0.621814e-1 * (0.1e1 + 0.53425000000000000000e-1 * t11) * t31
t34 = r0 - r1
t35 = t34 ** 2
t36 = t35 ** 2
t37 = t7 ** 2
t38 = t37 ** 2
t42 = t34 / t7
t43 = 0.1e1 + t42
t44 = t43 <= p_a_zeta_threshold
t45 = p_a_zeta_threshold ** (0.1e1 / 0.3e1)
t46 = t45 * p_a_zeta_threshold
t47 = t43 ** (0.1e1 / 0.3e1)
t49 = lax_cond(t44, t46, t47 * t43)
t50 = 0.1e1 - t42
t51 = t50 <= p_a_zeta_threshold
t52 = t50 ** (0.1e1 / 0.3e1)
t54 = lax_cond(t51, t46, t52 * t50)
t56 = 2 ** (0.1e1 / 0.3e1)
t60 = (t49 + t54 - 0.2e1) / (0.2e1 * t56 - 0.2e1)
t71 = math.log(0.1e1 + 0.32163958997385070134e2 / (0.70594500000000000000e1 * t14 + 0.15494250000000000000e1 * t11 + 0.42077500000000000000e0 * t17 + 0.15629250000000000000e0 * t25))
t84 = math.log(0.1e1 + 0.29608749977793437516e2 / (0.51785000000000000000e1 * t14 + 0.90577500000000000000e0 * t11 + 0.11003250000000000000e0 * t17 + 0.12417750000000000000e0 * t25))
t85 = (0.1e1 + 0.27812500000000000000e-1 * t11) * t84
t89 = t36 / t38 * t60 * (-0.3109070e-1 * (0.1e1 + 0.51370000000000000000e-1 * t11) * t71 + t33 - 0.19751673498613801407e-1 * t85)
t91 = 0.19751673498613801407e-1 * t60 * t85
res = -t33 + t89 + t91"
prog gga_c_zpbeint_polHint0_0_e "res = -t33 + t89 + t91"
theorem gga_c_zpbeint_polHint0_0 : PolHint {params := ["beta"], zetaSmall := true} .gga gga_c_zpbeint_polHint0_q ⟨38, gga_c_zpbeint_polHint0_0_e.res, pos.neg⟩ :=
  polHint_pw rfl (N 621814 (-7)) (N 310907 (-7)) (N 19751673498613801407 (-21)) (N 16081979498692535067 (-18)) (N 32163958997385070134 (-18)) (N 29608749977793437516 (-18))
    (fun P p r0 r1 s0 s1 s2 l0 l1 t0 t1 _ _ _ _ _ _ _ _ => by kernel_rfl) pw_new
theorem gga_c_zpbeint_polHint0 : PolHint {params := ["beta"], zetaSmall := true} .gga gga_c_zpbeint.polBody ⟨56, gga_c_zpbeint_polHint0_e.res, pos.neg⟩ :=
  polHint_rw 1000 gga_c_zpbeint_polHint0_q (hs := [⟨38, gga_c_zpbeint_polHint0_0_e.res, pos.neg⟩]) (fc gga_c_zpbeint_polHint0_0 fn) (par := [1650816097]) (npar := []) (flds := []) (by simp [nameCode, nameCodeChars]) rfl rfl (by decide +kernel) (by decide +kernel)
theorem gga_c_zpbeint_definedPol : DefinedPol {params := ["beta"], zetaSmall := true} .gga gga_c_zpbeint :=
  definedPolH_of _ gga_c_zpbeint_neverRaises (hs := [⟨56, gga_c_zpbeint_polHint0_e.res, pos.neg⟩]) (fc gga_c_zpbeint_polHint0 fn) (par := [1650816097]) (npar := []) (flds := []) (by simp [nameCode, nameCodeChars]) rfl rfl (by decide +kernel)

prog gga_c_zvpbeint_polHint0_e "res = -t33 + t89 + t91"
prog gga_c_zvpbeint_polHint0_q "t1 = 3 ** (0.1e1 / 0.3e1)
t3 = (0.1e1 / math.pi) ** (0.1e1 / 0.3e1)
t5 = 4 ** (0.1e1 / 0.3e1)
t6 = t5 ** 2
t7 = r0 + r1
t8 = t7 ** (0.1e1 / 0.3e1)
t11 = t1 * t3 * t6 / t8
t14 = math.sqrt(t11)
t17 = t11 ** 0.15e1
t19 = t1 ** 2
t20 = t3 ** 2
t22 = t8 ** 2
t25 = t19 * t20 * t5 / t22
t31 = math.log(0.1e1 + 0.16081979498692535067e2 / (0.37978500000000000000e1 * t14 + 0.89690000000000000000e0 * t11 + 0.20477500000000000000e0 * t17 + 0.12323500000000000000e0 * t25))
t33 = 0.621814e-1 * (0.1e1 + 0.53425000000000000000e-1 * t11) * t31
t34 = r0 - r1
t35 = t34 ** 2
t36 = t35 ** 2
t37 = t7 ** 2
t38 = t37 ** 2
t42 = t34 / t7
t43 = 0.1e1 + t42
t44 = t43 <= p_a_zeta_threshold
t45 = p_a_zeta_threshold ** (0.1e1 / 0.3e1)
t46 = t45 * p_a_zeta_threshold
t47 = t43 ** (0.1e1 / 0.3e1)
t49 = lax_cond(t44, t46, t47 * t43)
t50 = 0.1e1 - t42
t51 = t50 <= p_a_zeta_threshold
t52 = t50 ** (0.1e1 / 0.3e1)
t54 = lax_cond(t51, t46, t52 * t50)
t56 = 2 ** (0.1e1 / 0.3e1)
t60 = (t49 + t54 - 0.2e1) / (0.2e1 * t56 - 0.2e1)
t71 = math.log(0.1e1 + 0.32163958997385070134e2 / (0.70594500000000000000e1 * t14 + 0.15494250000000000000e1 * t11 + 0.42077500000000000000e0 * t17 + 0.15629250000000000000e0 * t25))
t84 = math.log(0.1e1 + 0.29608749977793437516e2 / (0.51785000000000000000e1 * t14 + 0.90577500000000000000e0 * t11 + 0.11003250000000000000e0 * t17 + 0.12417750000000000000e0 * t25))
t85 = (0.1e1 + 0.27812500000000000000e-1 * t11) * t84
t89 = t36 / t38 * t60 * (-0.3109070e-1 * (0.1e1 + 0.51370000000000000000e-1 * t11) * t71 + t33 - 0.19751673498613801407e-1 * t85)
t91 = 0.19751673498613801407e-1 * t60 * t85
res = -t33 + t89 + t91"
prog gga_c_zvpbeint_polHint0_0_e "res = -t33 + t89 + t91"
theorem gga_c_zvpbeint_polHint0_0 : PolHint {params := ["beta"], zetaSmall := true} .gga gga_c_zvpbeint_polHint0_q ⟨38, gga_c_zvpbeint_polHint0_0_e.res, pos.neg⟩ :=
  polHint_pw rfl (N 621814 (-7)) (N 310907 (-7)) (N 19751673498613801407 (-21)) (N 16081979498692535067 (-18)) (N 32163958997385070134 (-18)) (N 29608749977793437516 (-18))
    (fun P p r0 r1 s0 s1 s2 l0 l1 t0 t1 _ _ _ _ _ _ _ _ => by kernel_rfl) pw_new
theorem gga_c_zvpbeint_polHint0 : PolHint {params := ["beta"], zetaSmall := true} .gga gga_c_zvpbeint.polBody ⟨60, gga_c_zvpbeint_polHint0_e.res, pos.neg⟩ :=
  polHint_rw 1000 gga_c_zvpbeint_polHint0_q (hs := [⟨38, gga_c_zvpbeint_polHint0_0_e.res, pos.neg⟩]) (fc gga_c_zvpbeint_polHint0_0 fn) (par := [1650816097]) (npar := []) (flds := []) (by simp [nameCode, nameCodeChars]) rfl rfl (by decide +kernel) (by decide +kernel)
theorem gga_c_zvpbeint_definedPol : DefinedPol {params := ["beta"], zetaSmall := true} .gga gga_c_zvpbeint :=
  definedPolH_of _ gga_c_zvpbeint_neverRaises (hs := [⟨60, gga_c_zvpbeint_polHint0_e.res, pos.neg⟩]) (fc gga_c_zvpbeint_polHint0 fn) (par := [1650816097]) (npar := []) (flds := []) (by simp [nameCode, nameCodeChars]) rfl rfl (by decide +kernel)

prog gga_c_zvpbeloc_polHint0_e "res = -t55 + t108 + t110"
prog gga_c_zvpbeloc_polHint0_q "t1 = 3 ** (0.1e1 / 0.3e1)
t3 = (0.1e1 / math.pi) ** (0.1e1 / 0.3e1)
t5 = 4 ** (0.1e1 / 0.3e1)
t6 = t5 ** 2
t7 = r0 + r1
t8 = t7 ** (0.1e1 / 0.3e1)
t11 = t1 * t3 * t6 / t8
t14 = math.sqrt(t11)
t17 = t11 ** 0.15e1
t19 = t1 ** 2
t20 = t3 ** 2
t22 = t8 ** 2
t25 = t19 * t20 * t5 / t22
t31 = math.log(0.1e1 + 0.16081979498692535067e2 / (0.37978500000000000000e1 * t14 + 0.89690000000000000000e0 * t11 + 0.20477500000000000000e0 * t17 + 0.12323500000000000000e0 * t25))
t33 = 0.621814e-1 * (0.1e1 + 0.53425000000000000000e-1 * t11) * t31
t34 = r0 - r1
t35 = t34 ** 2
t36 = t35 ** 2
t37 = t7 ** 2
t38 = t37 ** 2
t42 = t34 / t7
t43 = 0.1e1 + t42
t44 = t43 <= p_a_zeta_threshold
t45 = p_a_zeta_threshold ** (0.1e1 / 0.3e1)
t46 = t45 * p_a_zeta_threshold
t47 = t43 ** (0.1e1 / 0.3e1)
t49 = lax_cond(t44, t46, t47 * t43)
t50 = 0.1e1 - t42
t51 = t50 <= p_a_zeta_threshold
t52 = t50 ** (0.1e1 / 0.3e1)
t54 = lax_cond(t51, t46, t52 * t50)
t56 = 2 ** (0.1e1 / 0.3e1)
t60 = (t49 + t54 - 0.2e1) / (0.2e1 * t56 - 0.2e1)
t71 = math.log(0.1e1 + 0.32163958997385070134e2 / (0.70594500000000000000e1 * t14 + 0.15494250000000000000e1 * t11 + 0.42077500000000000000e0 * t17 + 0.15629250000000000000e0 * t25))
t84 = math.log(0.1e1 + 0.29608749977793437516e2 / (0.51785000000000000000e1 * t14 + 0.90577500000000000000e0 * t11 + 0.11003250000000000000e0 * t17 + 0.12417750000000000000e0 * t25))
t85 = (0.1e1 + 0.27812500000000000000e-1 * t11) * t84
t89 = t36 / t38 * t60 * (-0.3109070e-1 * (0.1e1 + 0.51370000000000000000e-1 * t11) * t71 + t33 - 0.19751673498613801407e-1 * t85)
t91 = 0.19751673498613801407e-1 * t60 * t85
res = -t33 + t89 + t91"
prog gga_c_zvpbeloc_polHint0_0_e "res = -t33 + t89 + t91"
theorem gga_c_zvpbeloc_polHint0_0 : PolHint {zetaSmall := true} .gga gga_c_zvpbeloc_polHint0_q ⟨38, gga_c_zvpbeloc_polHint0_0_e.res, pos.neg⟩ :=
  polHint_pw rfl (N 621814 (-7)) (N 310907 (-7)) (N 19751673498613801407 (-21)) (N 16081979498692535067 (-18)) (N 32163958997385070134 (-18)) (N 29608749977793437516 (-18))
    (fun P p r0 r1 s0 s1 s2 l0 l1 t0 t1 _ _ _ _ _ _ _ _ => by kernel_rfl) pw_new
theorem gga_c_zvpbeloc_polHint0 : PolHint {zetaSmall := true} .gga gga_c_zvpbeloc.polBody ⟨67, gga_c_zvpbeloc_polHint0_e.res, pos.neg⟩ :=
  polHint_rw 1000 gga_c_zvpbeloc_polHint0_q (hs := [⟨38, gga_c_zvpbeloc_polHint0_0_e.res, pos.neg⟩]) (fc gga_c_zvpbeloc_polHint0_0 fn) (par := []) (npar := []) (flds := []) rfl rfl rfl (by decide +kernel) (by decide +kernel)
theorem gga_c_zvpbeloc_definedPol : DefinedPol {zetaSmall := true} .gga gga_c_zvpbeloc :=
  definedPolH_of _ gga_c_zvpbeloc_neverRaises (hs := [⟨67, gga_c_zvpbeloc_polHint0_e.res, pos.neg⟩]) (fc gga_c_zvpbeloc_polHint0 fn) (par := []) (npar := []) (flds := []) rfl rfl rfl (by decide +kernel)

prog mgga_c_m08_polHint0_e "res = -t137 + t139 / t141 * t158 * (-0.3109070e-1 * (0.1e1 + 0.51370000000000000000e-1 * t115) * t169 + t137 - 0.19751673498613801407e-1 * t183) + 0.19751673498613801407e-1 * t158 * t183"
theorem mgga_c_m08_polHint0 : PolHint {zetaSmall := true} .mgga mgga_c_m08.polBody ⟨82, mgga_c_m08_polHint0_e.res, pos.neg⟩ :=
  polHint_pw rfl (N 621814 (-7)) (N 310907 (-7)) (N 19751673498613801407 (-21)) (N 16081979498692535067 (-18)) (N 32163958997385070134 (-18)) (N 29608749977793437516 (-18))
    (fun P p r0 r1 s0 s1 s2 l0 l1 t0 t1 _ _ _ _ _ _ _ _ => by kernel_rfl) pw_new
theorem mgga_c_m08_definedPol : DefinedPol {zetaSmall := true} .mgga mgga_c_m08 :=
  definedPolH_of _ mgga_c_m08_neverRaises (hs := [⟨82, mgga_c_m08_polHint0_e.res, pos.neg⟩]) (fc mgga_c_m08_polHint0 fn) (par := []) (npar := []) (flds := []) rfl rfl rfl (by decide +kernel)

prog mgga_c_rppscan_polHint0_e "res = -t33 + t89 + t91"
prog mgga_c_rppscan_polHint0_q "t1 = 3 ** (0.1e1 / 0.3e1)
t3 = (0.1e1 / math.pi) ** (0.1e1 / 0.3e1)
t5 = 4 ** (0.1e1 / 0.3e1)
t6 = t5 ** 2
t7 = r0 + r1
t8 = t7 ** (0.1e1 / 0.3e1)
t11 = t1 * t3 * t6 / t8
t14 = math.sqrt(t11)
t17 = t11 ** 0.15e1
t19 = t1 ** 2
t20 = t3 ** 2
t22 = t8 ** 2
t25 = t19 * t20 * t5 / t22
t31 = math.log(0.1e1 + 0.16081979498692535067e2 / (0.37978500000000000000e1 * t14 + 0.89690000000000000000e0 * t11 + 0.20477500000000000000e0 * t17 + 0.12323500000000000000e0 * t25))
t33 = 0.621814e-1 * (0.1e1 + 0.53425000000000000000e-1 * t11) * t31
t34 = r0 - r1
t35 = t34 ** 2
t36 = t35 ** 2
t37 = t7 ** 2
t38 = t37 ** 2
t42 = t34 / t7
t43 = 0.1e1 + t42
t44 = t43 <= p_a_zeta_threshold
t45 = p_a_zeta_threshold ** (0.1e1 / 0.3e1)
t46 = t45 * p_a_zeta_threshold
t47 = t43 ** (0.1e1 / 0.3e1)
t49 = lax_cond(t44, t46, t47 * t43)
t50 = 0.1e1 - t42
t51 = t50 <= p_a_zeta_threshold
t52 = t50 ** (0.1e1 / 0.3e1)
t54 = lax_cond(t51, t46, t52 * t50)
t56 = 2 ** (0.1e1 / 0.3e1)
t60 = (t49 + t54 - 0.2e1) / (0.2e1 * t56 - 0.2e1)
t71 = math.log(0.1e1 + 0.32163958997385070134e2 / (0.70594500000000000000e1 * t14 + 0.15494250000000000000e1 * t11 + 0.42077500000000000000e0 * t17 + 0.15629250000000000000e0 * t25))
t84 = math.log(0.1e1 + 0.29608749977793437516e2 / (0.51785000000000000000e1 * t14 + 0.90577500000000000000e0 * t11 + 0.11003250000000000000e0 * t17 + 0.12417750000000000000e0 * t25))
t85 = (0.1e1 + 0.27812500000000000000e-1 * t11) * t84
t89 = t36 / t38 * t60 * (-0.3109070e-1 * (0.1e1 + 0.51370000000000000000e-1 * t11) * t71 + t33 - 0.19751673498613801407e-1 * t85)
t91 = 0.19751673498613801407e-1 * t60 * t85
res = -t33 + t89 + t91"
prog mgga_c_rppscan_polHint0_0_e "res = -t33 + t89 + t91"
theorem mgga_c_rppscan_polHint0_0 : PolHint {params := ["eta"], zetaSmall := true} .mgga mgga_c_rppscan_polHint0_q ⟨38, mgga_c_rppscan_polHint0_0_e.res, pos.neg⟩ :=
  polHint_pw rfl (N 621814 (-7)) (N 310907 (-7)) (N 19751673498613801407 (-21)) (N 16081979498692535067 (-18)) (N 32163958997385070134 (-18)) (N 29608749977793437516 (-18))
    (fun P p r0 r1 s0 s1 s2 l0 l1 t0 t1 _ _ _ _ _ _ _ _ => by kernel_rfl) pw_new
theorem mgga_c_rppscan_polHint0 : PolHint {params := ["eta"], zetaSmall := true} .mgga mgga_c_rppscan.polBody ⟨53, mgga_c_rppscan_polHint0_e.res, pos.neg⟩ :=
  polHint_rw 1000 mgga_c_rppscan_polHint0_q (hs := [⟨38, mgga_c_rppscan_polHint0_0_e.res, pos.neg⟩]) (fc mgga_c_rppscan_polHint0_0 fn) (par := [6648929]) (npar := []) (flds := []) (by simp [nameCode, nameCodeChars]) rfl rfl (by decide +kernel) (by decide +kernel)
theorem mgga_c_rppscan_definedPol : DefinedPol {params := ["eta"], zetaSmall := true} .mgga mgga_c_rppscan :=
  definedPolH_of _ mgga_c_rppscan_neverRaises (hs := [⟨53, mgga_c_rppscan_polHint0_e.res, pos.neg⟩]) (fc mgga_c_rppscan_polHint0 fn) (par := [6648929]) (npar := []) (flds := []) (by simp [nameCode, nameCodeChars]) rfl rfl (by decide +kernel)

prog mgga_c_rregtm_polHint0_e "res = -t33 + t89 + t91"
prog mgga_c_rregtm_polHint0_q "t1 = 3 ** (0.1e1 / 0.3e1)
t3 = (0.1e1 / math.pi) ** (0.1e1 / 0.3e1)
t5 = 4 ** (0.1e1 / 0.3e1)
t6 = t5 ** 2
t7 = r0 + r1
t8 = t7 ** (0.1e1 / 0.3e1)
t11 = t1 * t3 * t6 / t8
t14 = math.sqrt(t11)
t17 = t11 ** 0.15e1
t19 = t1 ** 2
t20 = t3 ** 2
t22 = t8 ** 2
t25 = t19 * t20 * t5 / t22
t31 = math.log(0.1e1 + 0.16081979498692535067e2 / (0.37978500000000000000e1 * t14 + 0.89690000000000000000e0 * t11 + 0.20477500000000000000e0 * t17 + 0.12323500000000000000e0 * t25))
t33 = 0.621814e-1 * (0.1e1 + 0.53425000000000000000e-1 * t11) * t31
t34 = r0 - r1
t35 = t34 ** 2
t36 = t35 ** 2
t37 = t7 ** 2
t38 = t37 ** 2
t42 = t34 / t7
t43 = 0.1e1 + t42
t44 = t43 <= p_a_zeta_threshold
t45 = p_a_zeta_threshold ** (0.1e1 / 0.3e1)
t46 = t45 * p_a_zeta_threshold
t47 = t43 ** (0.1e1 / 0.3e1)
t49 = lax_cond(t44, t46, t47 * t43)
t50 = 0.1e1 - t42
t51 = t50 <= p_a_zeta_threshold
t52 = t50 ** (0.1e1 / 0.3e1)
t54 = lax_cond(t51, t46, t52 * t50)
t56 = 2 ** (0.1e1 / 0.3e1)
t60 = (t49 + t54 - 0.2e1) / (0.2e1 * t56 - 0.2e1)
t71 = math.log(0.1e1 + 0.32163958997385070134e2 / (0.70594500000000000000e1 * t14 + 0.15494250000000000000e1 * t11 + 0.42077500000000000000e0 * t17 + 0.15629250000000000000e0 * t25))
t84 = math.log(0.1e1 + 0.29608749977793437516e2 / (0.51785000000000000000e1 * t14 + 0.90577500000000000000e0 * t11 + 0.11003250000000000000e0 * t17 + 0.12417750000000000000e0 * t25))
t85 = (0.1e1 + 0.27812500000000000000e-1 * t11) * t84
t89 = t36 / t38 * t60 * (-0.3109070e-1 * (0.1e1 + 0.51370000000000000000e-1 * t11) * t71 + t33 - 0.19751673498613801407e-1 * t85)
t91 = 0.19751673498613801407e-1 * t60 * t85
res = -t33 + t89 + t91"
prog mgga_c_rregtm_polHint0_0_e "res = -t33 + t89 + t91"
theorem mgga_c_rregtm_polHint0_0 : PolHint {zetaSmall := true} .mgga mgga_c_rregtm_polHint0_q ⟨38, mgga_c_rregtm_polHint0_0_e.res, pos.neg⟩ :=
  polHint_pw rfl (N 621814 (-7)) (N 310907 (-7)) (N 19751673498613801407 (-21)) (N 16081979498692535067 (-18)) (N 32163958997385070134 (-18)) (N 29608749977793437516 (-18))
    (fun P p r0 r1 s0 s1 s2 l0 l1 t0 t1 _ _ _ _ _ _ _ _ => by kernel_rfl) pw_new
theorem mgga_c_rregtm_polHint0 : PolHint {zetaSmall := true} .mgga mgga_c_rregtm.polBody ⟨53, mgga_c_rregtm_polHint0_e.res, pos.neg⟩ :=
  polHint_rw 1000 mgga_c_rregtm_polHint0_q (hs := [⟨38, mgga_c_rregtm_polHint0_0_e.res, pos.neg⟩]) (fc mgga_c_rregtm_polHint0_0 fn) (par := []) (npar := []) (flds := []) rfl rfl rfl (by decide +kernel) (by decide +kernel)
prog mgga_c_rregtm_polHint1_e "res = -t187"
prog mgga_c_rregtm_polHint1_q "t184 = math.log(DBL_EPSILON)
t100001 = 0.1e1 + t184 / (-t184 + 0.64e0)
res = 0.1e1 - t100001"
prog mgga_c_rregtm_polHint1_0d_e "res = -t184 + 0.64e0"
prog mgga_c_rregtm_polHint1_0d_q "t184 = math.log(DBL_EPSILON)
res = -t184 + 0.64e0"
theorem mgga_c_rregtm_polHint1_0d : PolHint {zetaSmall := true} .mgga mgga_c_rregtm_polHint1_q ⟨1, mgga_c_rregtm_polHint1_0d_e.res, pos⟩ :=
  polHint_rw 1000 mgga_c_rregtm_polHint1_0d_q (hs := []) fn (par := []) (npar := []) (flds := []) rfl rfl rfl (by decide +kernel) (by decide +kernel)
prog mgga_c_rregtm_polHint1_0n_e "res = (0.1e1) * (-t184 + 0.64e0) + (t184)"
prog mgga_c_rregtm_polHint1_0n_q "res = 0.64e0"
theorem mgga_c_rregtm_polHint1_0n : PolHint {zetaSmall := true} .mgga mgga_c_rregtm_polHint1_q ⟨1, mgga_c_rregtm_polHint1_0n_e.res, sgI true⟩ :=
  polHint_rw 1000 mgga_c_rregtm_polHint1_0n_q (hs := []) fn (par := []) (npar := []) (flds := []) rfl rfl rfl (by decide +kernel) (by decide +kernel)
prog mgga_c_rregtm_polHint1_0_e "res = (0.1e1) + (t184) / (-t184 + 0.64e0)"
theorem mgga_c_rregtm_polHint1_0 : PolHint {zetaSmall := true} .mgga mgga_c_rregtm_polHint1_q ⟨1, mgga_c_rregtm_polHint1_0_e.res, sgI true⟩ :=
  polHint_fadd true mgga_c_rregtm_polHint1_0d mgga_c_rregtm_polHint1_0n
theorem mgga_c_rregtm_polHint1 : PolHint {zetaSmall := true} .mgga mgga_c_rregtm.polBody ⟨79, mgga_c_rregtm_polHint1_e.res, ⟨.inf, .fin (Int.negOfNat 18446744073709551616) true⟩⟩ :=
  polHint_rw 1000 mgga_c_rregtm_polHint1_q (hs := [⟨1, mgga_c_rregtm_polHint1_0_e.res, sgI true⟩]) (fc mgga_c_rregtm_polHint1_0 fn) (par := []) (npar := []) (flds := []) rfl rfl rfl (by decide +kernel) (by decide +kernel)
prog mgga_c_rregtm_polHint2_e "res = lax_cond(t202, -t201, t182)"
prog mgga_c_rregtm_polHint2_q "t7 = r0 + r1
t8 = t7 ** (0.1e1 / 0.3e1)
t22 = t8 ** 2
t34 = r0 - r1
t37 = t7 ** 2
t42 = t34 / t7
t43 = 0.1e1 + t42
t50 = 0.1e1 - t42
t94 = math.pi ** 2
t124 = s0 + 0.2e1 * s1 + s2
t148 = r0 ** (0.1e1 / 0.3e1)
t149 = t148 ** 2
t153 = t43 / 0.2e1
t154 = t153 ** (0.1e1 / 0.3e1)
t155 = t154 ** 2
t156 = t155 * t153
t158 = r1 ** (0.1e1 / 0.3e1)
t159 = t158 ** 2
t163 = t50 / 0.2e1
t164 = t163 ** (0.1e1 / 0.3e1)
t165 = t164 ** 2
t166 = t165 * t163
t169 = 0.1e1 / t22 / t37
t173 = 6 ** (0.1e1 / 0.3e1)
t175 = t94 ** (0.1e1 / 0.3e1)
t176 = t175 ** 2
t177 = 0.1e1 / t176
t182 = 0.5e1 / 0.9e1 * (tau0 / t149 / r0 * t156 + tau1 / t159 / r1 * t166 - t124 * t169 / 0.8e1) * t173 * t177 / (t156 + t166)
t198 = math.log(0.14285714285714285714e1 * DBL_EPSILON)
t201 = (-t198 + 0.15e1) / t198
res = lax_cond(t182 < -t201, -t201, t182)"
prog mgga_c_rregtm_polHint2_0_e "res = -t201"
prog mgga_c_rregtm_polHint2_0_q "t198 = math.log(0.14285714285714285714e1 * DBL_EPSILON)
t100001 = -0.1e1 + (-t198 + 0.15e1) / (-t198)
res = 0.1e1 + t100001"
prog mgga_c_rregtm_polHint2_0_0d_e "res = -t198"
prog mgga_c_rregtm_polHint2_0_0d_q "t198 = math.log(0.14285714285714285714e1 * DBL_EPSILON)
res = -t198"
theorem mgga_c_rregtm_polHint2_0_0d : PolHint {zetaSmall := true} .mgga mgga_c_rregtm_polHint2_0_q ⟨1, mgga_c_rregtm_polHint2_0_0d_e.res, pos⟩ :=
  polHint_rw 1000 mgga_c_rregtm_polHint2_0_0d_q (hs := []) fn (par := []) (npar := []) (flds := []) rfl rfl rfl (by decide +kernel) (by decide +kernel)
prog mgga_c_rregtm_polHint2_0_0n_e "res = (-0.1e1) * (-t198) + (-t198 + 0.15e1)"
prog mgga_c_rregtm_polHint2_0_0n_q "res = 0.15e1"
theorem mgga_c_rregtm_polHint2_0_0n : PolHint {zetaSmall := true} .mgga mgga_c_rregtm_polHint2_0_q ⟨1, mgga_c_rregtm_polHint2_0_0n_e.res, sgI true⟩ :=
  polHint_rw 1000 mgga_c_rregtm_polHint2_0_0n_q (hs := []) fn (par := []) (npar := []) (flds := []) rfl rfl rfl (by decide +kernel) (by decide +kernel)
prog mgga_c_rregtm_polHint2_0_0_e "res = (-0.1e1) + (-t198 + 0.15e1) / (-t198)"
theorem mgga_c_rregtm_polHint2_0_0 : PolHint {zetaSmall := true} .mgga mgga_c_rregtm_polHint2_0_q ⟨1, mgga_c_rregtm_polHint2_0_0_e.res, sgI true⟩ :=
  polHint_fadd true mgga_c_rregtm_polHint2_0_0d mgga_c_rregtm_polHint2_0_0n
theorem mgga_c_rregtm_polHint2_0 : PolHint {zetaSmall := true} .mgga mgga_c_rregtm_polHint2_q ⟨30, mgga_c_rregtm_polHint2_0_e.res, ⟨.fin (Int.ofNat 18446744073709551616) true, .inf⟩⟩ :=
  polHint_rw 1000 mgga_c_rregtm_polHint2_0_q (hs := [⟨1, mgga_c_rregtm_polHint2_0_0_e.res, sgI true⟩]) (fc mgga_c_rregtm_polHint2_0_0 fn) (par := []) (npar := []) (flds := []) rfl rfl rfl (by decide +kernel) (by decide +kernel)
theorem mgga_c_rregtm_polHint2 : PolHint {zetaSmall := true} .mgga mgga_c_rregtm.polBody ⟨85, mgga_c_rregtm_polHint2_e.res, ⟨.fin (Int.ofNat 18446744073709551616) true, .inf⟩⟩ :=
  polHint_rw 1000 mgga_c_rregtm_polHint2_q (hs := [⟨30, mgga_c_rregtm_polHint2_0_e.res, ⟨.fin (Int.ofNat 18446744073709551616) true, .inf⟩⟩]) (fc mgga_c_rregtm_polHint2_0 fn) (par := []) (npar := []) (flds := []) rfl rfl rfl (by decide +kernel) (by decide +kernel)
theorem mgga_c_rregtm_definedPol : DefinedPol {zetaSmall := true} .mgga mgga_c_rregtm :=
  definedPolH_of _ mgga_c_rregtm_neverRaises (hs := [⟨53, mgga_c_rregtm_polHint0_e.res, pos.neg⟩, ⟨79, mgga_c_rregtm_polHint1_e.res, ⟨.inf, .fin (Int.negOfNat 18446744073709551616) true⟩⟩, ⟨85, mgga_c_rregtm_polHint2_e.res, ⟨.fin (Int.ofNat 18446744073709551616) true, .inf⟩⟩]) (fc mgga_c_rregtm_polHint0 (fc mgga_c_rregtm_polHint1 (fc mgga_c_rregtm_polHint2 fn))) (par := []) (npar := []) (flds := []) rfl rfl rfl (by decide +kernel)

prog mgga_c_rscan_polHint0_e "res = -t33 + t89 + t91"
prog mgga_c_rscan_polHint0_q "t1 = 3 ** (0.1e1 / 0.3e1)
t3 = (0.1e1 / math.pi) ** (0.1e1 / 0.3e1)
t5 = 4 ** (0.1e1 / 0.3e1)
t6 = t5 ** 2
t7 = r0 + r1
t8 = t7 ** (0.1e1 / 0.3e1)
t11 = t1 * t3 * t6 / t8
t14 = math.sqrt(t11)
t17 = t11 ** 0.15e1
t19 = t1 ** 2
t20 = t3 ** 2
t22 = t8 ** 2
t25 = t19 * t20 * t5 / t22
t31 = math.log(0.1e1 + 0.16081979498692535067e2 / (0.37978500000000000000e1 * t14 + 0.89690000000000000000e0 * t11 + 0.20477500000000000000e0 * t17 + 0.12323500000000000000e0 * t25))
t33 = 0.621814e-1 * (0.1e1 + 0.53425000000000000000e-1 * t11) * t31
t34 = r0 - r1
t35 = t34 ** 2
t36 = t35 ** 2
t37 = t7 ** 2
t38 = t37 ** 2
t42 = t34 / t7
t43 = 0.1e1 + t42
t44 = t43 <= p_a_zeta_threshold
t45 = p_a_zeta_threshold ** (0.1e1 / 0.3e1)
t46 = t45 * p_a_zeta_threshold
t47 = t43 ** (0.1e1 / 0.3e1)
t49 = lax_cond(t44, t46, t47 * t43)
t50 = 0.1e1 - t42
t51 = t50 <= p_a_zeta_threshold
t52 = t50 ** (0.1e1 / 0.3e1)
t54 = lax_cond(t51, t46, t52 * t50)
t56 = 2 ** (0.1e1 / 0.3e1)
t60 = (t49 + t54 - 0.2e1) / (0.2e1 * t56 - 0.2e1)
t71 = math.log(0.1e1 + 0.32163958997385070134e2 / (0.70594500000000000000e1 * t14 + 0.15494250000000000000e1 * t11 + 0.42077500000000000000e0 * t17 + 0.15629250000000000000e0 * t25))
t84 = math.log(0.1e1 + 0.29608749977793437516e2 / (0.51785000000000000000e1 * t14 + 0.90577500000000000000e0 * t11 + 0.11003250000000000000e0 * t17 + 0.12417750000000000000e0 * t25))
t85 = (0.1e1 + 0.27812500000000000000e-1 * t11) * t84
t89 = t36 / t38 * t60 * (-0.3109070e-1 * (0.1e1 + 0.51370000000000000000e-1 * t11) * t71 + t33 - 0.19751673498613801407e-1 * t85)
t91 = 0.19751673498613801407e-1 * t60 * t85
res = -t33 + t89 + t91"
prog mgga_c_rscan_polHint0_0_e "res = -t33 + t89 + t91"
theorem mgga_c_rscan_polHint0_0 : PolHint {zetaSmall := true} .mgga mgga_c_rscan_polHint0_q ⟨38, mgga_c_rscan_polHint0_0_e.res, pos.neg⟩ :=
  polHint_pw rfl (N 621814 (-7)) (N 310907 (-7)) (N 19751673498613801407 (-21)) (N 16081979498692535067 (-18)) (N 32163958997385070134 (-18)) (N 29608749977793437516 (-18))
    (fun P p r0 r1 s0 s1 s2 l0 l1 t0 t1 _ _ _ _ _ _ _ _ => by kernel_rfl) pw_new
theorem mgga_c_rscan_polHint0 : PolHint {zetaSmall := true} .mgga mgga_c_rscan.polBody ⟨53, mgga_c_rscan_polHint0_e.res, pos.neg⟩ :=
  polHint_rw 1000 mgga_c_rscan_polHint0_q (hs := [⟨38, mgga_c_rscan_polHint0_0_e.res, pos.neg⟩]) (fc mgga_c_rscan_polHint0_0 fn) (par := []) (npar := []) (flds := []) rfl rfl rfl (by decide +kernel) (by decide +kernel)
theorem mgga_c_rscan_definedPol : DefinedPol {zetaSmall := true} .mgga mgga_c_rscan :=
  definedPolH_of _ mgga_c_rscan_neverRaises (hs := [⟨53, mgga_c_rscan_polHint0_e.res, pos.neg⟩]) (fc mgga_c_rscan_polHint0 fn) (par := []) (npar := []) (flds := []) rfl rfl rfl (by decide +kernel)

prog mgga_c_scan_polHint0_e "res = -t33 + t89 + t91"
prog mgga_c_scan_polHint0_q "t1 = 3 ** (0.1e1 / 0.3e1)
t3 = (0.1e1 / math.pi) ** (0.1e1 / 0.3e1)
t5 = 4 ** (0.1e1 / 0.3e1)
t6 = t5 ** 2
t7 = r0 + r1
t8 = t7 ** (0.1e1 / 0.3e1)
t11 = t1 * t3 * t6 / t8
t14 = math.sqrt(t11)
t17 = t11 ** 0.15e1
t19 = t1 ** 2
t20 = t3 ** 2
t22 = t8 ** 2
t25 = t19 * t20 * t5 / t22
t31 = math.log(0.1e1 + 0.16081979498692535067e2 / (0.37978500000000000000e1 * t14 + 0.89690000000000000000e0 * t11 + 0.20477500000000000000e0 * t17 + 0.12323500000000000000e0 * t25))
t33 = 0.621814e-1 * (0.1e1 + 0.53425000000000000000e-1 * t11) * t31
t34 = r0 - r1
t35 = t34 ** 2
t36 = t35 ** 2
t37 = t7 ** 2
t38 = t37 ** 2
t42 = t34 / t7
t43 = 0.1e1 + t42
t44 = t43 <= p_a_zeta_threshold
t45 = p_a_zeta_threshold ** (0.1e1 / 0.3e1)
t46 = t45 * p_a_zeta_threshold
t47 = t43 ** (0.1e1 / 0.3e1)
t49 = lax_cond(t44, t46, t47 * t43)
t50 = 0.1e1 - t42
t51 = t50 <= p_a_zeta_threshold
t52 = t50 ** (0.1e1 / 0.3e1)
t54 = lax_cond(t51, t46, t52 * t50)
t56 = 2 ** (0.1e1 / 0.3e1)
t60 = (t49 + t54 - 0.2e1) / (0.2e1 * t56 - 0.2e1)
t71 = math.log(0.1e1 + 0.32163958997385070134e2 / (0.70594500000000000000e1 * t14 + 0.15494250000000000000e1 * t11 + 0.42077500000000000000e0 * t17 + 0.15629250000000000000e0 * t25))
t84 = math.log(0.1e1 + 0.29608749977793437516e2 / (0.51785000000000000000e1 * t14 + 0.90577500000000000000e0 * t11 + 0.11003250000000000000e0 * t17 + 0.12417750000000000000e0 * t25))
t85 = (0.1e1 + 0.27812500000000000000e-1 * t11) * t84
t89 = t36 / t38 * t60 * (-0.3109070e-1 * (0.1e1 + 0.51370000000000000000e-1 * t11) * t71 + t33 - 0.19751673498613801407e-1 * t85)
t91 = 0.19751673498613801407e-1 * t60 * t85
res = -t33 + t89 + t91"
prog mgga_c_scan_polHint0_0_e "res = -t33 + t89 + t91"
theorem mgga_c_scan_polHint0_0 : PolHint {zetaSmall := true} .mgga mgga_c_scan_polHint0_q ⟨38, mgga_c_scan_polHint0_0_e.res, pos.neg⟩ :=
  polHint_pw rfl (N 621814 (-7)) (N 310907 (-7)) (N 19751673498613801407 (-21)) (N 16081979498692535067 (-18)) (N 32163958997385070134 (-18)) (N 29608749977793437516 (-18))
    (fun P p r0 r1 s0 s1 s2 l0 l1 t0 t1 _ _ _ _ _ _ _ _ => by kernel_rfl) pw_new
theorem mgga_c_scan_polHint0 : PolHint {zetaSmall := true} .mgga mgga_c_scan.polBody ⟨53, mgga_c_scan_polHint0_e.res, pos.neg⟩ :=
  polHint_rw 1000 mgga_c_scan_polHint0_q (hs := [⟨38, mgga_c_scan_polHint0_0_e.res, pos.neg⟩]) (fc mgga_c_scan_polHint0_0 fn) (par := []) (npar := []) (flds := []) rfl rfl rfl (by decide +kernel) (by decide +kernel)
prog mgga_c_scan_polHint1_e "res = -t187"
prog mgga_c_scan_polHint1_q "t184 = math.log(DBL_EPSILON)
t100001 = 0.1e1 + t184 / (-t184 + 0.64e0)
res = 0.1e1 - t100001"
prog mgga_c_scan_polHint1_0d_e "res = -t184 + 0.64e0"
prog mgga_c_scan_polHint1_0d_q "t184 = math.log(DBL_EPSILON)
res = -t184 + 0.64e0"
theorem mgga_c_scan_polHint1_0d : PolHint {zetaSmall := true} .mgga mgga_c_scan_polHint1_q ⟨1, mgga_c_scan_polHint1_0d_e.res, pos⟩ :=
  polHint_rw 1000 mgga_c_scan_polHint1_0d_q (hs := []) fn (par := []) (npar := []) (flds := []) rfl rfl rfl (by decide +kernel) (by decide +kernel)
prog mgga_c_scan_polHint1_0n_e "res = (0.1e1) * (-t184 + 0.64e0) + (t184)"
prog mgga_c_scan_polHint1_0n_q "res = 0.64e0"
theorem mgga_c_scan_polHint1_0n : PolHint {zetaSmall := true} .mgga mgga_c_scan_polHint1_q ⟨1, mgga_c_scan_polHint1_0n_e.res, sgI true⟩ :=
  polHint_rw 1000 mgga_c_scan_polHint1_0n_q (hs := []) fn (par := []) (npar := []) (flds := []) rfl rfl rfl (by decide +kernel) (by decide +kernel)
prog mgga_c_scan_polHint1_0_e "res = (0.1e1) + (t184) / (-t184 + 0.64e0)"
theorem mgga_c_scan_polHint1_0 : PolHint {zetaSmall := true} .mgga mgga_c_scan_polHint1_q ⟨1, mgga_c_scan_polHint1_0_e.res, sgI true⟩ :=
  polHint_fadd true mgga_c_scan_polHint1_0d mgga_c_scan_polHint1_0n
theorem mgga_c_scan_polHint1 : PolHint {zetaSmall := true} .mgga mgga_c_scan.polBody ⟨79, mgga_c_scan_polHint1_e.res, ⟨.inf, .fin (Int.negOfNat 18446744073709551616) true⟩⟩ :=
  polHint_rw 1000 mgga_c_scan_polHint1_q (hs := [⟨1, mgga_c_scan_polHint1_0_e.res, sgI true⟩]) (fc mgga_c_scan_polHint1_0 fn) (par := []) (npar := []) (flds := []) rfl rfl rfl (by decide +kernel) (by decide +kernel)
prog mgga_c_scan_polHint2_e "res = lax_cond(t202, -t201, t182)"
prog mgga_c_scan_polHint2_q "t7 = r0 + r1
t8 = t7 ** (0.1e1 / 0.3e1)
t22 = t8 ** 2
t34 = r0 - r1
t37 = t7 ** 2
t42 = t34 / t7
t43 = 0.1e1 + t42
t50 = 0.1e1 - t42
t94 = math.pi ** 2
t124 = s0 + 0.2e1 * s1 + s2
t148 = r0 ** (0.1e1 / 0.3e1)
t149 = t148 ** 2
t153 = t43 / 0.2e1
t154 = t153 ** (0.1e1 / 0.3e1)
t155 = t154 ** 2
t156 = t155 * t153
t158 = r1 ** (0.1e1 / 0.3e1)
t159 = t158 ** 2
t163 = t50 / 0.2e1
t164 = t163 ** (0.1e1 / 0.3e1)
t165 = t164 ** 2
t166 = t165 * t163
t169 = 0.1e1 / t22 / t37
t173 = 6 ** (0.1e1 / 0.3e1)
t175 = t94 ** (0.1e1 / 0.3e1)
t176 = t175 ** 2
t177 = 0.1e1 / t176
t182 = 0.5e1 / 0.9e1 * (tau0 / t149 / r0 * t156 + tau1 / t159 / r1 * t166 - t124 * t169 / 0.8e1) * t173 * t177 / (t156 + t166)
t198 = math.log(0.14285714285714285714e1 * DBL_EPSILON)
t201 = (-t198 + 0.15e1) / t198
res = lax_cond(t182 < -t201, -t201, t182)"
prog mgga_c_scan_polHint2_0_e "res = -t201"
prog mgga_c_scan_polHint2_0_q "t198 = math.log(0.14285714285714285714e1 * DBL_EPSILON)
t100001 = -0.1e1 + (-t198 + 0.15e1) / (-t198)
res = 0.1e1 + t100001"
prog mgga_c_scan_polHint2_0_0d_e "res = -t198"
prog mgga_c_scan_polHint2_0_0d_q "t198 = math.log(0.14285714285714285714e1 * DBL_EPSILON)
res = -t198"
theorem mgga_c_scan_polHint2_0_0d : PolHint {zetaSmall := true} .mgga mgga_c_scan_polHint2_0_q ⟨1, mgga_c_scan_polHint2_0_0d_e.res, pos⟩ :=
  polHint_rw 1000 mgga_c_scan_polHint2_0_0d_q (hs := []) fn (par := []) (npar := []) (flds := []) rfl rfl rfl (by decide +kernel) (by decide +kernel)
prog mgga_c_scan_polHint2_0_0n_e "res = (-0.1e1) * (-t198) + (-t198 + 0.15e1)"
prog mgga_c_scan_polHint2_0_0n_q "res = 0.15e1"
theorem mgga_c_scan_polHint2_0_0n : PolHint {zetaSmall := true} .mgga mgga_c_scan_polHint2_0_q ⟨1, mgga_c_scan_polHint2_0_0n_e.res, sgI true⟩ :=
  polHint_rw 1000 mgga_c_scan_polHint2_0_0n_q (hs := []) fn (par := []) (npar := []) (flds := []) rfl rfl rfl (by decide +kernel) (by decide +kernel)
prog mgga_c_scan_polHint2_0_0_e "res = (-0.1e1) + (-t198 + 0.15e1) / (-t198)"
theorem mgga_c_scan_polHint2_0_0 : PolHint {zetaSmall := true} .mgga mgga_c_scan_polHint2_0_q ⟨1, mgga_c_scan_polHint2_0_0_e.res, sgI true⟩ :=
  polHint_fadd true mgga_c_scan_polHint2_0_0d mgga_c_scan_polHint2_0_0n
theorem mgga_c_scan_polHint2_0 : PolHint {zetaSmall := true} .mgga mgga_c_scan_polHint2_q ⟨30, mgga_c_scan_polHint2_0_e.res, ⟨.fin (Int.ofNat 18446744073709551616) true, .inf⟩⟩ :=
  polHint_rw 1000 mgga_c_scan_polHint2_0_q (hs := [⟨1, mgga_c_scan_polHint2_0_0_e.res, sgI true⟩]) (fc mgga_c_scan_polHint2_0_0 fn) (par := []) (npar := []) (flds := []) rfl rfl rfl (by decide +kernel) (by decide +kernel)
theorem mgga_c_scan_polHint2 : PolHint {zetaSmall := true} .mgga mgga_c_scan.polBody ⟨85, mgga_c_scan_polHint2_e.res, ⟨.fin (Int.ofNat 18446744073709551616) true, .inf⟩⟩ :=
  polHint_rw 1000 mgga_c_scan_polHint2_q (hs := [⟨30, mgga_c_scan_polHint2_0_e.res, ⟨.fin (Int.ofNat 18446744073709551616) true, .inf⟩⟩]) (fc mgga_c_scan_polHint2_0 fn) (par := []) (npar := []) (flds := []) rfl rfl rfl (by decide +kernel) (by decide +kernel)
theorem mgga_c_scan_definedPol : DefinedPol {zetaSmall := true} .mgga mgga_c_scan :=
  definedPolH_of _ mgga_c_scan_neverRaises (hs := [⟨53, mgga_c_scan_polHint0_e.res, pos.neg⟩, ⟨79, mgga_c_scan_polHint1_e.res, ⟨.inf, .fin (Int.negOfNat 18446744073709551616) true⟩⟩, ⟨85, mgga_c_scan_polHint2_e.res, ⟨.fin (Int.ofNat 18446744073709551616) true, .inf⟩⟩]) (fc mgga_c_scan_polHint0 (fc mgga_c_scan_polHint1 (fc mgga_c_scan_polHint2 fn))) (par := []) (npar := []) (flds := []) rfl rfl rfl (by decide +kernel)

end Verif.Props
