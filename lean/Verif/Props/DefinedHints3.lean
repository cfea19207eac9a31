import Verif.Norm.HintsMore
import Verif.Py.KernelRfl
import Verif.Props.Static1
import Verif.Props.Static2
import Verif.Props.Static3
import Verif.Props.Static4
/-!
# C49: formulas that are defined on their domain, by hints

Generated.  `X_polHintN` and `X_unpolHintN` bound a part of a formula where interval analysis alone is too weak.
-/
set_option Elab.async false
set_option maxRecDepth 100000
namespace Verif.Props
open Verif.Py Verif.Model Verif.Spec Verif.Norm Verif.Data Verif.Lib

prog mgga_c_scan_unpolHint0_e "res = -t129"
prog mgga_c_scan_unpolHint0_q "t126 = math.log(DBL_EPSILON)
t100001 = 0.1e1 + t126 / (-t126 + 0.64e0)
res = 0.1e1 - t100001"
prog mgga_c_scan_unpolHint0_0d_e "res = -t126 + 0.64e0"
prog mgga_c_scan_unpolHint0_0d_q "t126 = math.log(DBL_EPSILON)
res = -t126 + 0.64e0"
theorem mgga_c_scan_unpolHint0_0d : UnpolHint {} .mgga mgga_c_scan_unpolHint0_q ⟨1, mgga_c_scan_unpolHint0_0d_e.res, pos⟩ :=
  unpolHint_rw 1000 mgga_c_scan_unpolHint0_0d_q (hs := []) fn (par := []) (npar := []) (flds := []) rfl rfl rfl (by decide +kernel) (by decide +kernel)
prog mgga_c_scan_unpolHint0_0n_e "res = (0.1e1) * (-t126 + 0.64e0) + (t126)"
prog mgga_c_scan_unpolHint0_0n_q "res = 0.64e0"
theorem mgga_c_scan_unpolHint0_0n : UnpolHint {} .mgga mgga_c_scan_unpolHint0_q ⟨1, mgga_c_scan_unpolHint0_0n_e.res, sgI true⟩ :=
  unpolHint_rw 1000 mgga_c_scan_unpolHint0_0n_q (hs := []) fn (par := []) (npar := []) (flds := []) rfl rfl rfl (by decide +kernel) (by decide +kernel)
prog mgga_c_scan_unpolHint0_0_e "res = (0.1e1) + (t126) / (-t126 + 0.64e0)"
theorem mgga_c_scan_unpolHint0_0 : UnpolHint {} .mgga mgga_c_scan_unpolHint0_q ⟨1, mgga_c_scan_unpolHint0_0_e.res, sgI true⟩ :=
  unpolHint_fadd true mgga_c_scan_unpolHint0_0d mgga_c_scan_unpolHint0_0n
theorem mgga_c_scan_unpolHint0 : UnpolHint {} .mgga mgga_c_scan.unpolBody ⟨46, mgga_c_scan_unpolHint0_e.res, ⟨.inf, .fin (Int.negOfNat 18446744073709551616) true⟩⟩ :=
  unpolHint_rw 1000 mgga_c_scan_unpolHint0_q (hs := [⟨1, mgga_c_scan_unpolHint0_0_e.res, sgI true⟩]) (fc mgga_c_scan_unpolHint0_0 fn) (par := []) (npar := []) (flds := []) rfl rfl rfl (by decide +kernel) (by decide +kernel)
prog mgga_c_scan_unpolHint1_e "res = lax_cond(t144, -t143, t124)"
prog mgga_c_scan_unpolHint1_q "t7 = r0 ** (0.1e1 / 0.3e1)
t21 = t7 ** 2
t39 = 2 ** (0.1e1 / 0.3e1)
t60 = math.pi ** 2
t86 = r0 ** 2
t112 = 0.1e1 / t21 / t86
t116 = 6 ** (0.1e1 / 0.3e1)
t118 = t60 ** (0.1e1 / 0.3e1)
t119 = t118 ** 2
t120 = 0.1e1 / t119
t121 = t39 ** 2
t124 = 0.5e1 / 0.9e1 * (tau0 / t21 / r0 - s0 * t112 / 0.8e1) * t116 * t120 * t121
t140 = math.log(0.14285714285714285714e1 * DBL_EPSILON)
t143 = (-t140 + 0.15e1) / t140
res = lax_cond(t124 < -t143, -t143, t124)"
prog mgga_c_scan_unpolHint1_0_e "res = -t143"
prog mgga_c_scan_unpolHint1_0_q "t140 = math.log(0.14285714285714285714e1 * DBL_EPSILON)
t100001 = -0.1e1 + (-t140 + 0.15e1) / (-t140)
res = 0.1e1 + t100001"
prog mgga_c_scan_unpolHint1_0_0d_e "res = -t140"
prog mgga_c_scan_unpolHint1_0_0d_q "t140 = math.log(0.14285714285714285714e1 * DBL_EPSILON)
res = -t140"
theorem mgga_c_scan_unpolHint1_0_0d : UnpolHint {} .mgga mgga_c_scan_unpolHint1_0_q ⟨1, mgga_c_scan_unpolHint1_0_0d_e.res, pos⟩ :=
  unpolHint_rw 1000 mgga_c_scan_unpolHint1_0_0d_q (hs := []) fn (par := []) (npar := []) (flds := []) rfl rfl rfl (by decide +kernel) (by decide +kernel)
prog mgga_c_scan_unpolHint1_0_0n_e "res = (-0.1e1) * (-t140) + (-t140 + 0.15e1)"
prog mgga_c_scan_unpolHint1_0_0n_q "res = 0.15e1"
theorem mgga_c_scan_unpolHint1_0_0n : UnpolHint {} .mgga mgga_c_scan_unpolHint1_0_q ⟨1, mgga_c_scan_unpolHint1_0_0n_e.res, sgI true⟩ :=
  unpolHint_rw 1000 mgga_c_scan_unpolHint1_0_0n_q (hs := []) fn (par := []) (npar := []) (flds := []) rfl rfl rfl (by decide +kernel) (by decide +kernel)
prog mgga_c_scan_unpolHint1_0_0_e "res = (-0.1e1) + (-t140 + 0.15e1) / (-t140)"
theorem mgga_c_scan_unpolHint1_0_0 : UnpolHint {} .mgga mgga_c_scan_unpolHint1_0_q ⟨1, mgga_c_scan_unpolHint1_0_0_e.res, sgI true⟩ :=
  unpolHint_fadd true mgga_c_scan_unpolHint1_0_0d mgga_c_scan_unpolHint1_0_0n
theorem mgga_c_scan_unpolHint1_0 : UnpolHint {} .mgga mgga_c_scan_unpolHint1_q ⟨14, mgga_c_scan_unpolHint1_0_e.res, ⟨.fin (Int.ofNat 18446744073709551616) true, .inf⟩⟩ :=
  unpolHint_rw 1000 mgga_c_scan_unpolHint1_0_q (hs := [⟨1, mgga_c_scan_unpolHint1_0_0_e.res, sgI true⟩]) (fc mgga_c_scan_unpolHint1_0_0 fn) (par := []) (npar := []) (flds := []) rfl rfl rfl (by decide +kernel) (by decide +kernel)
theorem mgga_c_scan_unpolHint1 : UnpolHint {} .mgga mgga_c_scan.unpolBody ⟨52, mgga_c_scan_unpolHint1_e.res, ⟨.fin (Int.ofNat 18446744073709551616) true, .inf⟩⟩ :=
  unpolHint_rw 1000 mgga_c_scan_unpolHint1_q (hs := [⟨14, mgga_c_scan_unpolHint1_0_e.res, ⟨.fin (Int.ofNat 18446744073709551616) true, .inf⟩⟩]) (fc mgga_c_scan_unpolHint1_0 fn) (par := []) (npar := []) (flds := []) rfl rfl rfl (by decide +kernel) (by decide +kernel)
theorem mgga_c_scan_definedUnpol : DefinedUnpol {} .mgga mgga_c_scan :=
  definedUnpolH_of _ mgga_c_scan_neverRaises (hs := [⟨46, mgga_c_scan_unpolHint0_e.res, ⟨.inf, .fin (Int.negOfNat 18446744073709551616) true⟩⟩, ⟨52, mgga_c_scan_unpolHint1_e.res, ⟨.fin (Int.ofNat 18446744073709551616) true, .inf⟩⟩]) (fc mgga_c_scan_unpolHint0 (fc mgga_c_scan_unpolHint1 fn)) (par := []) (npar := []) (flds := []) rfl rfl rfl (by decide +kernel)

theorem mgga_x_r2scan_polHint0 : PolHint {sPos := true, params := ["dp2", "eta", "k1"], le := [("eta", 1/100)]} .mgga mgga_x_r2scan.polBody ⟨18, .param 6648929, ⟨.inf, .fin (Int.negOfNat 184467440737095517) false⟩⟩ :=
  polHint_par (s := "eta") (q := 1/100) (by simp) (by simp [nameCode, nameCodeChars]) (by norm_num [sc])
theorem mgga_x_r2scan_polHint1 : PolHint {sPos := true, params := ["dp2", "eta", "k1"], le := [("eta", 1/100)]} .mgga mgga_x_r2scan.polBody ⟨38, .param 6648929, ⟨.inf, .fin (Int.negOfNat 184467440737095517) false⟩⟩ :=
  polHint_par (s := "eta") (q := 1/100) (by simp) (by simp [nameCode, nameCodeChars]) (by norm_num [sc])
theorem mgga_x_r2scan_polHint2 : PolHint {sPos := true, params := ["dp2", "eta", "k1"], le := [("eta", 1/100)]} .mgga mgga_x_r2scan.polBody ⟨69, .param 6648929, ⟨.inf, .fin (Int.negOfNat 184467440737095517) false⟩⟩ :=
  polHint_par (s := "eta") (q := 1/100) (by simp) (by simp [nameCode, nameCodeChars]) (by norm_num [sc])
theorem mgga_x_r2scan_definedPol : DefinedPol {sPos := true, params := ["dp2", "eta", "k1"], le := [("eta", 1/100)]} .mgga mgga_x_r2scan :=
  definedPolH_of _ mgga_x_r2scan_neverRaises (hs := [⟨18, .param 6648929, ⟨.inf, .fin (Int.negOfNat 184467440737095517) false⟩⟩, ⟨38, .param 6648929, ⟨.inf, .fin (Int.negOfNat 184467440737095517) false⟩⟩, ⟨69, .param 6648929, ⟨.inf, .fin (Int.negOfNat 184467440737095517) false⟩⟩]) (fc mgga_x_r2scan_polHint0 (fc mgga_x_r2scan_polHint1 (fc mgga_x_r2scan_polHint2 fn))) (par := [6582322, 6648929, 27441]) (npar := []) (flds := []) (by simp [nameCode, nameCodeChars]) rfl rfl (by decide +kernel)

theorem mgga_x_r2scan_unpolHint0 : UnpolHint {sPos := true, params := ["dp2", "eta", "k1"], le := [("eta", 1/100)]} .mgga mgga_x_r2scan.unpolBody ⟨27, .param 6648929, ⟨.inf, .fin (Int.negOfNat 184467440737095517) false⟩⟩ :=
  unpolHint_par (s := "eta") (q := 1/100) (by simp) (by simp [nameCode, nameCodeChars]) (by norm_num [sc])
theorem mgga_x_r2scan_unpolHint1 : UnpolHint {sPos := true, params := ["dp2", "eta", "k1"], le := [("eta", 1/100)]} .mgga mgga_x_r2scan.unpolBody ⟨28, .param 6648929, ⟨.inf, .fin (Int.negOfNat 184467440737095517) false⟩⟩ :=
  unpolHint_par (s := "eta") (q := 1/100) (by simp) (by simp [nameCode, nameCodeChars]) (by norm_num [sc])
theorem mgga_x_r2scan_definedUnpol : DefinedUnpol {sPos := true, params := ["dp2", "eta", "k1"], le := [("eta", 1/100)]} .mgga mgga_x_r2scan :=
  definedUnpolH_of _ mgga_x_r2scan_neverRaises (hs := [⟨27, .param 6648929, ⟨.inf, .fin (Int.negOfNat 184467440737095517) false⟩⟩, ⟨28, .param 6648929, ⟨.inf, .fin (Int.negOfNat 184467440737095517) false⟩⟩]) (fc mgga_x_r2scan_unpolHint0 (fc mgga_x_r2scan_unpolHint1 fn)) (par := [6582322, 6648929, 27441]) (npar := []) (flds := []) (by simp [nameCode, nameCodeChars]) rfl rfl (by decide +kernel)

theorem mgga_x_r4scan_polHint0 : PolHint {sPos := true, params := ["da4", "dp2", "dp4", "eta", "k1"], le := [("eta", 1/100)]} .mgga mgga_x_r4scan.polBody ⟨18, .param 6648929, ⟨.inf, .fin (Int.negOfNat 184467440737095517) false⟩⟩ :=
  polHint_par (s := "eta") (q := 1/100) (by simp) (by simp [nameCode, nameCodeChars]) (by norm_num [sc])
theorem mgga_x_r4scan_polHint1 : PolHint {sPos := true, params := ["da4", "dp2", "dp4", "eta", "k1"], le := [("eta", 1/100)]} .mgga mgga_x_r4scan.polBody ⟨44, .param 6648929, ⟨.inf, .fin (Int.negOfNat 184467440737095517) false⟩⟩ :=
  polHint_par (s := "eta") (q := 1/100) (by simp) (by simp [nameCode, nameCodeChars]) (by norm_num [sc])
theorem mgga_x_r4scan_polHint2 : PolHint {sPos := true, params := ["da4", "dp2", "dp4", "eta", "k1"], le := [("eta", 1/100)]} .mgga mgga_x_r4scan.polBody ⟨60, .param 6648929, ⟨.inf, .fin (Int.negOfNat 184467440737095517) false⟩⟩ :=
  polHint_par (s := "eta") (q := 1/100) (by simp) (by simp [nameCode, nameCodeChars]) (by norm_num [sc])
theorem mgga_x_r4scan_polHint3 : PolHint {sPos := true, params := ["da4", "dp2", "dp4", "eta", "k1"], le := [("eta", 1/100)]} .mgga mgga_x_r4scan.polBody ⟨61, .param 6648929, ⟨.inf, .fin (Int.negOfNat 184467440737095517) false⟩⟩ :=
  polHint_par (s := "eta") (q := 1/100) (by simp) (by simp [nameCode, nameCodeChars]) (by norm_num [sc])
theorem mgga_x_r4scan_polHint4 : PolHint {sPos := true, params := ["da4", "dp2", "dp4", "eta", "k1"], le := [("eta", 1/100)]} .mgga mgga_x_r4scan.polBody ⟨62, .param 6648929, ⟨.inf, .fin (Int.negOfNat 184467440737095517) false⟩⟩ :=
  polHint_par (s := "eta") (q := 1/100) (by simp) (by simp [nameCode, nameCodeChars]) (by norm_num [sc])
theorem mgga_x_r4scan_polHint5 : PolHint {sPos := true, params := ["da4", "dp2", "dp4", "eta", "k1"], le := [("eta", 1/100)]} .mgga mgga_x_r4scan.polBody ⟨63, .param 6648929, ⟨.inf, .fin (Int.negOfNat 184467440737095517) false⟩⟩ :=
  polHint_par (s := "eta") (q := 1/100) (by simp) (by simp [nameCode, nameCodeChars]) (by norm_num [sc])
theorem mgga_x_r4scan_polHint6 : PolHint {sPos := true, params := ["da4", "dp2", "dp4", "eta", "k1"], le := [("eta", 1/100)]} .mgga mgga_x_r4scan.polBody ⟨98, .param 6648929, ⟨.inf, .fin (Int.negOfNat 184467440737095517) false⟩⟩ :=
  polHint_par (s := "eta") (q := 1/100) (by simp) (by simp [nameCode, nameCodeChars]) (by norm_num [sc])
theorem mgga_x_r4scan_definedPol : DefinedPol {sPos := true, params := ["da4", "dp2", "dp4", "eta", "k1"], le := [("eta", 1/100)]} .mgga mgga_x_r4scan :=
  definedPolH_of _ mgga_x_r4scan_neverRaises (hs := [⟨18, .param 6648929, ⟨.inf, .fin (Int.negOfNat 184467440737095517) false⟩⟩, ⟨44, .param 6648929, ⟨.inf, .fin (Int.negOfNat 184467440737095517) false⟩⟩, ⟨60, .param 6648929, ⟨.inf, .fin (Int.negOfNat 184467440737095517) false⟩⟩, ⟨61, .param 6648929, ⟨.inf, .fin (Int.negOfNat 184467440737095517) false⟩⟩, ⟨62, .param 6648929, ⟨.inf, .fin (Int.negOfNat 184467440737095517) false⟩⟩, ⟨63, .param 6648929, ⟨.inf, .fin (Int.negOfNat 184467440737095517) false⟩⟩, ⟨98, .param 6648929, ⟨.inf, .fin (Int.negOfNat 184467440737095517) false⟩⟩]) (fc mgga_x_r4scan_polHint0 (fc mgga_x_r4scan_polHint1 (fc mgga_x_r4scan_polHint2 (fc mgga_x_r4scan_polHint3 (fc mgga_x_r4scan_polHint4 (fc mgga_x_r4scan_polHint5 (fc mgga_x_r4scan_polHint6 fn))))))) (par := [6578484, 6582322, 6582324, 6648929, 27441]) (npar := []) (flds := []) (by simp [nameCode, nameCodeChars]) rfl rfl (by decide +kernel)

theorem mgga_x_r4scan_unpolHint0 : UnpolHint {sPos := true, params := ["da4", "dp2", "dp4", "eta", "k1"], le := [("eta", 1/100)]} .mgga mgga_x_r4scan.unpolBody ⟨11, .param 6648929, ⟨.inf, .fin (Int.negOfNat 184467440737095517) false⟩⟩ :=
  unpolHint_par (s := "eta") (q := 1/100) (by simp) (by simp [nameCode, nameCodeChars]) (by norm_num [sc])
theorem mgga_x_r4scan_unpolHint1 : UnpolHint {sPos := true, params := ["da4", "dp2", "dp4", "eta", "k1"], le := [("eta", 1/100)]} .mgga mgga_x_r4scan.unpolBody ⟨36, .param 6648929, ⟨.inf, .fin (Int.negOfNat 184467440737095517) false⟩⟩ :=
  unpolHint_par (s := "eta") (q := 1/100) (by simp) (by simp [nameCode, nameCodeChars]) (by norm_num [sc])
theorem mgga_x_r4scan_unpolHint2 : UnpolHint {sPos := true, params := ["da4", "dp2", "dp4", "eta", "k1"], le := [("eta", 1/100)]} .mgga mgga_x_r4scan.unpolBody ⟨51, .param 6648929, ⟨.inf, .fin (Int.negOfNat 184467440737095517) false⟩⟩ :=
  unpolHint_par (s := "eta") (q := 1/100) (by simp) (by simp [nameCode, nameCodeChars]) (by norm_num [sc])
theorem mgga_x_r4scan_unpolHint3 : UnpolHint {sPos := true, params := ["da4", "dp2", "dp4", "eta", "k1"], le := [("eta", 1/100)]} .mgga mgga_x_r4scan.unpolBody ⟨52, .param 6648929, ⟨.inf, .fin (Int.negOfNat 184467440737095517) false⟩⟩ :=
  unpolHint_par (s := "eta") (q := 1/100) (by simp) (by simp [nameCode, nameCodeChars]) (by norm_num [sc])
theorem mgga_x_r4scan_unpolHint4 : UnpolHint {sPos := true, params := ["da4", "dp2", "dp4", "eta", "k1"], le := [("eta", 1/100)]} .mgga mgga_x_r4scan.unpolBody ⟨65, .param 6648929, ⟨.inf, .fin (Int.negOfNat 184467440737095517) false⟩⟩ :=
  unpolHint_par (s := "eta") (q := 1/100) (by simp) (by simp [nameCode, nameCodeChars]) (by norm_num [sc])
theorem mgga_x_r4scan_definedUnpol : DefinedUnpol {sPos := true, params := ["da4", "dp2", "dp4", "eta", "k1"], le := [("eta", 1/100)]} .mgga mgga_x_r4scan :=
  definedUnpolH_of _ mgga_x_r4scan_neverRaises (hs := [⟨11, .param 6648929, ⟨.inf, .fin (Int.negOfNat 184467440737095517) false⟩⟩, ⟨36, .param 6648929, ⟨.inf, .fin (Int.negOfNat 184467440737095517) false⟩⟩, ⟨51, .param 6648929, ⟨.inf, .fin (Int.negOfNat 184467440737095517) false⟩⟩, ⟨52, .param 6648929, ⟨.inf, .fin (Int.negOfNat 184467440737095517) false⟩⟩, ⟨65, .param 6648929, ⟨.inf, .fin (Int.negOfNat 184467440737095517) false⟩⟩]) (fc mgga_x_r4scan_unpolHint0 (fc mgga_x_r4scan_unpolHint1 (fc mgga_x_r4scan_unpolHint2 (fc mgga_x_r4scan_unpolHint3 (fc mgga_x_r4scan_unpolHint4 fn))))) (par := [6578484, 6582322, 6582324, 6648929, 27441]) (npar := []) (flds := []) (by simp [nameCode, nameCodeChars]) rfl rfl (by decide +kernel)

theorem mgga_x_rppscan_polHint0 : PolHint {sPos := true, params := ["eta", "k1"], le := [("k1", 1/10)]} .mgga mgga_x_rppscan.polBody ⟨29, .param 27441, ⟨.inf, .fin (Int.negOfNat 1844674407370955162) false⟩⟩ :=
  polHint_par (s := "k1") (q := 1/10) (by simp) (by simp [nameCode, nameCodeChars]) (by norm_num [sc])
theorem mgga_x_rppscan_definedPol : DefinedPol {sPos := true, params := ["eta", "k1"], le := [("k1", 1/10)]} .mgga mgga_x_rppscan :=
  definedPolH_of _ mgga_x_rppscan_neverRaises (hs := [⟨29, .param 27441, ⟨.inf, .fin (Int.negOfNat 1844674407370955162) false⟩⟩]) (fc mgga_x_rppscan_polHint0 fn) (par := [6648929, 27441]) (npar := []) (flds := []) (by simp [nameCode, nameCodeChars]) rfl rfl (by decide +kernel)

theorem mgga_x_rppscan_unpolHint0 : UnpolHint {sPos := true, params := ["eta", "k1"], le := [("k1", 1/10)]} .mgga mgga_x_rppscan.unpolBody ⟨22, .param 27441, ⟨.inf, .fin (Int.negOfNat 1844674407370955162) false⟩⟩ :=
  unpolHint_par (s := "k1") (q := 1/10) (by simp) (by simp [nameCode, nameCodeChars]) (by norm_num [sc])
theorem mgga_x_rppscan_definedUnpol : DefinedUnpol {sPos := true, params := ["eta", "k1"], le := [("k1", 1/10)]} .mgga mgga_x_rppscan :=
  definedUnpolH_of _ mgga_x_rppscan_neverRaises (hs := [⟨22, .param 27441, ⟨.inf, .fin (Int.negOfNat 1844674407370955162) false⟩⟩]) (fc mgga_x_rppscan_unpolHint0 fn) (par := [6648929, 27441]) (npar := []) (flds := []) (by simp [nameCode, nameCodeChars]) rfl rfl (by decide +kernel)

theorem mgga_x_rscan_polHint0 : PolHint {sPos := true, params := ["alphar", "k1", "taur"], le := [("k1", 1/10)]} .mgga mgga_x_rscan.polBody ⟨29, .param 27441, ⟨.inf, .fin (Int.negOfNat 1844674407370955162) false⟩⟩ :=
  polHint_par (s := "k1") (q := 1/10) (by simp) (by simp [nameCode, nameCodeChars]) (by norm_num [sc])
theorem mgga_x_rscan_definedPol : DefinedPol {sPos := true, params := ["alphar", "k1", "taur"], le := [("k1", 1/10)]} .mgga mgga_x_rscan :=
  definedPolH_of _ mgga_x_rscan_neverRaises (hs := [⟨29, .param 27441, ⟨.inf, .fin (Int.negOfNat 1844674407370955162) false⟩⟩]) (fc mgga_x_rscan_polHint0 fn) (par := [107118370251122, 27441, 1952544114]) (npar := []) (flds := []) (by simp [nameCode, nameCodeChars]) rfl rfl (by decide +kernel)

theorem mgga_x_rscan_unpolHint0 : UnpolHint {sPos := true, params := ["alphar", "k1", "taur"], le := [("k1", 1/10)]} .mgga mgga_x_rscan.unpolBody ⟨21, .param 27441, ⟨.inf, .fin (Int.negOfNat 1844674407370955162) false⟩⟩ :=
  unpolHint_par (s := "k1") (q := 1/10) (by simp) (by simp [nameCode, nameCodeChars]) (by norm_num [sc])
theorem mgga_x_rscan_definedUnpol : DefinedUnpol {sPos := true, params := ["alphar", "k1", "taur"], le := [("k1", 1/10)]} .mgga mgga_x_rscan :=
  definedUnpolH_of _ mgga_x_rscan_neverRaises (hs := [⟨21, .param 27441, ⟨.inf, .fin (Int.negOfNat 1844674407370955162) false⟩⟩]) (fc mgga_x_rscan_unpolHint0 fn) (par := [107118370251122, 27441, 1952544114]) (npar := []) (flds := []) (by simp [nameCode, nameCodeChars]) rfl rfl (by decide +kernel)

prog mgga_x_scan_polHint0_e "res = -t97"
prog mgga_x_scan_polHint0_q "t94 = math.log(DBL_EPSILON)
t100001 = 0.1e1 + t94 / (-t94 + params_a_c1)
res = 0.1e1 - t100001"
prog mgga_x_scan_polHint0_0d_e "res = -t94 + params_a_c1"
prog mgga_x_scan_polHint0_0d_q "t94 = math.log(DBL_EPSILON)
res = -t94 + params_a_c1"
theorem mgga_x_scan_polHint0_0d : PolHint {sPos := true, params := ["c1", "c2", "k1"], le := [("k1", 1/10), ("d", 10)], ge := [("d", 1/10)]} .mgga mgga_x_scan_polHint0_q ⟨1, mgga_x_scan_polHint0_0d_e.res, pos⟩ :=
  polHint_rw 1000 mgga_x_scan_polHint0_0d_q (hs := []) fn (par := [25393, 25394, 27441]) (npar := []) (flds := []) (by simp [nameCode, nameCodeChars]) rfl rfl (by decide +kernel) (by decide +kernel)
prog mgga_x_scan_polHint0_0n_e "res = (0.1e1) * (-t94 + params_a_c1) + (t94)"
prog mgga_x_scan_polHint0_0n_q "res = params_a_c1"
theorem mgga_x_scan_polHint0_0n : PolHint {sPos := true, params := ["c1", "c2", "k1"], le := [("k1", 1/10), ("d", 10)], ge := [("d", 1/10)]} .mgga mgga_x_scan_polHint0_q ⟨1, mgga_x_scan_polHint0_0n_e.res, sgI true⟩ :=
  polHint_rw 1000 mgga_x_scan_polHint0_0n_q (hs := []) fn (par := [25393, 25394, 27441]) (npar := []) (flds := []) (by simp [nameCode, nameCodeChars]) rfl rfl (by decide +kernel) (by decide +kernel)
prog mgga_x_scan_polHint0_0_e "res = (0.1e1) + (t94) / (-t94 + params_a_c1)"
theorem mgga_x_scan_polHint0_0 : PolHint {sPos := true, params := ["c1", "c2", "k1"], le := [("k1", 1/10), ("d", 10)], ge := [("d", 1/10)]} .mgga mgga_x_scan_polHint0_q ⟨1, mgga_x_scan_polHint0_0_e.res, sgI true⟩ :=
  polHint_fadd true mgga_x_scan_polHint0_0d mgga_x_scan_polHint0_0n
theorem mgga_x_scan_polHint0 : PolHint {sPos := true, params := ["c1", "c2", "k1"], le := [("k1", 1/10), ("d", 10)], ge := [("d", 1/10)]} .mgga mgga_x_scan.polBody ⟨46, mgga_x_scan_polHint0_e.res, ⟨.inf, .fin (Int.negOfNat 18446744073709551616) true⟩⟩ :=
  polHint_rw 1000 mgga_x_scan_polHint0_q (hs := [⟨1, mgga_x_scan_polHint0_0_e.res, sgI true⟩]) (fc mgga_x_scan_polHint0_0 fn) (par := [25393, 25394, 27441]) (npar := []) (flds := []) (by simp [nameCode, nameCodeChars]) rfl rfl (by decide +kernel) (by decide +kernel)
prog mgga_x_scan_polHint1_e "res = -t97"
prog mgga_x_scan_polHint1_q "t94 = math.log(DBL_EPSILON)
t100001 = 0.1e1 + t94 / (-t94 + params_a_c1)
res = 0.1e1 - t100001"
prog mgga_x_scan_polHint1_0d_e "res = -t94 + params_a_c1"
prog mgga_x_scan_polHint1_0d_q "t94 = math.log(DBL_EPSILON)
res = -t94 + params_a_c1"
theorem mgga_x_scan_polHint1_0d : PolHint {sPos := true, params := ["c1", "c2", "k1"], le := [("k1", 1/10), ("d", 10)], ge := [("d", 1/10)]} .mgga mgga_x_scan_polHint1_q ⟨1, mgga_x_scan_polHint1_0d_e.res, pos⟩ :=
  polHint_rw 1000 mgga_x_scan_polHint1_0d_q (hs := []) fn (par := [25393, 25394, 27441]) (npar := []) (flds := []) (by simp [nameCode, nameCodeChars]) rfl rfl (by decide +kernel) (by decide +kernel)
prog mgga_x_scan_polHint1_0n_e "res = (0.1e1) * (-t94 + params_a_c1) + (t94)"
prog mgga_x_scan_polHint1_0n_q "res = params_a_c1"
theorem mgga_x_scan_polHint1_0n : PolHint {sPos := true, params := ["c1", "c2", "k1"], le := [("k1", 1/10), ("d", 10)], ge := [("d", 1/10)]} .mgga mgga_x_scan_polHint1_q ⟨1, mgga_x_scan_polHint1_0n_e.res, sgI true⟩ :=
  polHint_rw 1000 mgga_x_scan_polHint1_0n_q (hs := []) fn (par := [25393, 25394, 27441]) (npar := []) (flds := []) (by simp [nameCode, nameCodeChars]) rfl rfl (by decide +kernel) (by decide +kernel)
prog mgga_x_scan_polHint1_0_e "res = (0.1e1) + (t94) / (-t94 + params_a_c1)"
theorem mgga_x_scan_polHint1_0 : PolHint {sPos := true, params := ["c1", "c2", "k1"], le := [("k1", 1/10), ("d", 10)], ge := [("d", 1/10)]} .mgga mgga_x_scan_polHint1_q ⟨1, mgga_x_scan_polHint1_0_e.res, sgI true⟩ :=
  polHint_fadd true mgga_x_scan_polHint1_0d mgga_x_scan_polHint1_0n
theorem mgga_x_scan_polHint1 : PolHint {sPos := true, params := ["c1", "c2", "k1"], le := [("k1", 1/10), ("d", 10)], ge := [("d", 1/10)]} .mgga mgga_x_scan.polBody ⟨82, mgga_x_scan_polHint1_e.res, ⟨.inf, .fin (Int.negOfNat 18446744073709551616) true⟩⟩ :=
  polHint_rw 1000 mgga_x_scan_polHint1_q (hs := [⟨1, mgga_x_scan_polHint1_0_e.res, sgI true⟩]) (fc mgga_x_scan_polHint1_0 fn) (par := [25393, 25394, 27441]) (npar := []) (flds := []) (by simp [nameCode, nameCodeChars]) rfl rfl (by decide +kernel) (by decide +kernel)
prog mgga_x_scan_polHint2_e "res = lax_cond(t114, -t113, t77)"
prog mgga_x_scan_polHint2_q "t29 = 6 ** (0.1e1 / 0.3e1)
t30 = math.pi ** 2
t31 = t30 ** (0.1e1 / 0.3e1)
t32 = t31 ** 2
t33 = 0.1e1 / t32
t35 = r0 ** 2
t36 = r0 ** (0.1e1 / 0.3e1)
t37 = t36 ** 2
t39 = 0.1e1 / t37 / t35
t40 = s0 * t39
t77 = 0.5e1 / 0.9e1 * (tau0 / t37 / r0 - t40 / 0.8e1) * t29 * t33
t107 = abs(params_a_d)
t110 = math.log(DBL_EPSILON / t107)
t113 = (-t110 + params_a_c2) / t110
res = lax_cond(t77 < -t113, -t113, t77)"
theorem mgga_x_scan_polHint2_0 : PolHint {sPos := true, params := ["c1", "c2", "k1"], le := [("k1", 1/10), ("d", 10)], ge := [("d", 1/10)]} .mgga mgga_x_scan_polHint2_q ⟨11, .param 100, ⟨.fin (Int.ofNat 1844674407370955161) false, .fin (Int.negOfNat 184467440737095516160) false⟩⟩ :=
  polHint_between (s := "d") (q0 := 1/10) (q := 10) (by simp) (by simp) (by simp [nameCode, nameCodeChars]) (by norm_num [sc]) (by norm_num [sc])
prog mgga_x_scan_polHint2_1_e "res = -t113"
prog mgga_x_scan_polHint2_1_q "t107 = abs(params_a_d)
t110 = math.log(DBL_EPSILON / t107)
t100001 = -0.1e1 + (-t110 + params_a_c2) / (-t110)
res = 0.1e1 + t100001"
theorem mgga_x_scan_polHint2_1_0 : PolHint {sPos := true, params := ["c1", "c2", "k1"], le := [("k1", 1/10), ("d", 10)], ge := [("d", 1/10)]} .mgga mgga_x_scan_polHint2_1_q ⟨0, .param 100, ⟨.fin (Int.ofNat 1844674407370955161) false, .fin (Int.negOfNat 184467440737095516160) false⟩⟩ :=
  polHint_between (s := "d") (q0 := 1/10) (q := 10) (by simp) (by simp) (by simp [nameCode, nameCodeChars]) (by norm_num [sc]) (by norm_num [sc])
prog mgga_x_scan_polHint2_1_1d_e "res = -t110"
prog mgga_x_scan_polHint2_1_1d_q "t107 = abs(params_a_d)
t110 = math.log(DBL_EPSILON / t107)
res = -t110"
theorem mgga_x_scan_polHint2_1_1d_0 : PolHint {sPos := true, params := ["c1", "c2", "k1"], le := [("k1", 1/10), ("d", 10)], ge := [("d", 1/10)]} .mgga mgga_x_scan_polHint2_1_1d_q ⟨0, .param 100, ⟨.fin (Int.ofNat 1844674407370955161) false, .fin (Int.negOfNat 184467440737095516160) false⟩⟩ :=
  polHint_between (s := "d") (q0 := 1/10) (q := 10) (by simp) (by simp) (by simp [nameCode, nameCodeChars]) (by norm_num [sc]) (by norm_num [sc])
theorem mgga_x_scan_polHint2_1_1d : PolHint {sPos := true, params := ["c1", "c2", "k1"], le := [("k1", 1/10), ("d", 10)], ge := [("d", 1/10)]} .mgga mgga_x_scan_polHint2_1_q ⟨2, mgga_x_scan_polHint2_1_1d_e.res, pos⟩ :=
  polHint_rw 1000 mgga_x_scan_polHint2_1_1d_q (hs := [⟨0, .param 100, ⟨.fin (Int.ofNat 1844674407370955161) false, .fin (Int.negOfNat 184467440737095516160) false⟩⟩]) (fc mgga_x_scan_polHint2_1_1d_0 fn) (par := [25393, 25394, 27441]) (npar := []) (flds := []) (by simp [nameCode, nameCodeChars]) rfl rfl (by decide +kernel) (by decide +kernel)
prog mgga_x_scan_polHint2_1_1n_e "res = (-0.1e1) * (-t110) + (-t110 + params_a_c2)"
prog mgga_x_scan_polHint2_1_1n_q "res = params_a_c2"
theorem mgga_x_scan_polHint2_1_1n : PolHint {sPos := true, params := ["c1", "c2", "k1"], le := [("k1", 1/10), ("d", 10)], ge := [("d", 1/10)]} .mgga mgga_x_scan_polHint2_1_q ⟨2, mgga_x_scan_polHint2_1_1n_e.res, sgI true⟩ :=
  polHint_rw 1000 mgga_x_scan_polHint2_1_1n_q (hs := []) fn (par := [25393, 25394, 27441]) (npar := []) (flds := []) (by simp [nameCode, nameCodeChars]) rfl rfl (by decide +kernel) (by decide +kernel)
prog mgga_x_scan_polHint2_1_1_e "res = (-0.1e1) + (-t110 + params_a_c2) / (-t110)"
theorem mgga_x_scan_polHint2_1_1 : PolHint {sPos := true, params := ["c1", "c2", "k1"], le := [("k1", 1/10), ("d", 10)], ge := [("d", 1/10)]} .mgga mgga_x_scan_polHint2_1_q ⟨2, mgga_x_scan_polHint2_1_1_e.res, sgI true⟩ :=
  polHint_fadd true mgga_x_scan_polHint2_1_1d mgga_x_scan_polHint2_1_1n
theorem mgga_x_scan_polHint2_1 : PolHint {sPos := true, params := ["c1", "c2", "k1"], le := [("k1", 1/10), ("d", 10)], ge := [("d", 1/10)]} .mgga mgga_x_scan_polHint2_q ⟨14, mgga_x_scan_polHint2_1_e.res, ⟨.fin (Int.ofNat 18446744073709551616) true, .inf⟩⟩ :=
  polHint_rw 1000 mgga_x_scan_polHint2_1_q (hs := [⟨0, .param 100, ⟨.fin (Int.ofNat 1844674407370955161) false, .fin (Int.negOfNat 184467440737095516160) false⟩⟩, ⟨2, mgga_x_scan_polHint2_1_1_e.res, sgI true⟩]) (fc mgga_x_scan_polHint2_1_0 (fc mgga_x_scan_polHint2_1_1 fn)) (par := [25393, 25394, 27441]) (npar := []) (flds := []) (by simp [nameCode, nameCodeChars]) rfl rfl (by decide +kernel) (by decide +kernel)
theorem mgga_x_scan_polHint2 : PolHint {sPos := true, params := ["c1", "c2", "k1"], le := [("k1", 1/10), ("d", 10)], ge := [("d", 1/10)]} .mgga mgga_x_scan.polBody ⟨53, mgga_x_scan_polHint2_e.res, ⟨.fin (Int.ofNat 18446744073709551616) true, .inf⟩⟩ :=
  polHint_rw 1000 mgga_x_scan_polHint2_q (hs := [⟨11, .param 100, ⟨.fin (Int.ofNat 1844674407370955161) false, .fin (Int.negOfNat 184467440737095516160) false⟩⟩, ⟨14, mgga_x_scan_polHint2_1_e.res, ⟨.fin (Int.ofNat 18446744073709551616) true, .inf⟩⟩]) (fc mgga_x_scan_polHint2_0 (fc mgga_x_scan_polHint2_1 fn)) (par := [25393, 25394, 27441]) (npar := []) (flds := []) (by simp [nameCode, nameCodeChars]) rfl rfl (by decide +kernel) (by decide +kernel)
prog mgga_x_scan_polHint3_e "res = lax_cond(t212, -t113, t186)"
prog mgga_x_scan_polHint3_q "t29 = 6 ** (0.1e1 / 0.3e1)
t30 = math.pi ** 2
t31 = t30 ** (0.1e1 / 0.3e1)
t32 = t31 ** 2
t33 = 0.1e1 / t32
t107 = abs(params_a_d)
t110 = math.log(DBL_EPSILON / t107)
t113 = (-t110 + params_a_c2) / t110
t155 = r1 ** 2
t156 = r1 ** (0.1e1 / 0.3e1)
t157 = t156 ** 2
t159 = 0.1e1 / t157 / t155
t160 = s2 * t159
t186 = 0.5e1 / 0.9e1 * (tau1 / t157 / r1 - t160 / 0.8e1) * t29 * t33
res = lax_cond(t186 < -t113, -t113, t186)"
theorem mgga_x_scan_polHint3_0 : PolHint {sPos := true, params := ["c1", "c2", "k1"], le := [("k1", 1/10), ("d", 10)], ge := [("d", 1/10)]} .mgga mgga_x_scan_polHint3_q ⟨5, .param 100, ⟨.fin (Int.ofNat 1844674407370955161) false, .fin (Int.negOfNat 184467440737095516160) false⟩⟩ :=
  polHint_between (s := "d") (q0 := 1/10) (q := 10) (by simp) (by simp) (by simp [nameCode, nameCodeChars]) (by norm_num [sc]) (by norm_num [sc])
prog mgga_x_scan_polHint3_1_e "res = -t113"
prog mgga_x_scan_polHint3_1_q "t107 = abs(params_a_d)
t110 = math.log(DBL_EPSILON / t107)
t100001 = -0.1e1 + (-t110 + params_a_c2) / (-t110)
res = 0.1e1 + t100001"
theorem mgga_x_scan_polHint3_1_0 : PolHint {sPos := true, params := ["c1", "c2", "k1"], le := [("k1", 1/10), ("d", 10)], ge := [("d", 1/10)]} .mgga mgga_x_scan_polHint3_1_q ⟨0, .param 100, ⟨.fin (Int.ofNat 1844674407370955161) false, .fin (Int.negOfNat 184467440737095516160) false⟩⟩ :=
  polHint_between (s := "d") (q0 := 1/10) (q := 10) (by simp) (by simp) (by simp [nameCode, nameCodeChars]) (by norm_num [sc]) (by norm_num [sc])
prog mgga_x_scan_polHint3_1_1d_e "res = -t110"
prog mgga_x_scan_polHint3_1_1d_q "t107 = abs(params_a_d)
t110 = math.log(DBL_EPSILON / t107)
res = -t110"
theorem mgga_x_scan_polHint3_1_1d_0 : PolHint {sPos := true, params := ["c1", "c2", "k1"], le := [("k1", 1/10), ("d", 10)], ge := [("d", 1/10)]} .mgga mgga_x_scan_polHint3_1_1d_q ⟨0, .param 100, ⟨.fin (Int.ofNat 1844674407370955161) false, .fin (Int.negOfNat 184467440737095516160) false⟩⟩ :=
  polHint_between (s := "d") (q0 := 1/10) (q := 10) (by simp) (by simp) (by simp [nameCode, nameCodeChars]) (by norm_num [sc]) (by norm_num [sc])
theorem mgga_x_scan_polHint3_1_1d : PolHint {sPos := true, params := ["c1", "c2", "k1"], le := [("k1", 1/10), ("d", 10)], ge := [("d", 1/10)]} .mgga mgga_x_scan_polHint3_1_q ⟨2, mgga_x_scan_polHint3_1_1d_e.res, pos⟩ :=
  polHint_rw 1000 mgga_x_scan_polHint3_1_1d_q (hs := [⟨0, .param 100, ⟨.fin (Int.ofNat 1844674407370955161) false, .fin (Int.negOfNat 184467440737095516160) false⟩⟩]) (fc mgga_x_scan_polHint3_1_1d_0 fn) (par := [25393, 25394, 27441]) (npar := []) (flds := []) (by simp [nameCode, nameCodeChars]) rfl rfl (by decide +kernel) (by decide +kernel)
prog mgga_x_scan_polHint3_1_1n_e "res = (-0.1e1) * (-t110) + (-t110 + params_a_c2)"
prog mgga_x_scan_polHint3_1_1n_q "res = params_a_c2"
theorem mgga_x_scan_polHint3_1_1n : PolHint {sPos := true, params := ["c1", "c2", "k1"], le := [("k1", 1/10), ("d", 10)], ge := [("d", 1/10)]} .mgga mgga_x_scan_polHint3_1_q ⟨2, mgga_x_scan_polHint3_1_1n_e.res, sgI true⟩ :=
  polHint_rw 1000 mgga_x_scan_polHint3_1_1n_q (hs := []) fn (par := [25393, 25394, 27441]) (npar := []) (flds := []) (by simp [nameCode, nameCodeChars]) rfl rfl (by decide +kernel) (by decide +kernel)
prog mgga_x_scan_polHint3_1_1_e "res = (-0.1e1) + (-t110 + params_a_c2) / (-t110)"
theorem mgga_x_scan_polHint3_1_1 : PolHint {sPos := true, params := ["c1", "c2", "k1"], le := [("k1", 1/10), ("d", 10)], ge := [("d", 1/10)]} .mgga mgga_x_scan_polHint3_1_q ⟨2, mgga_x_scan_polHint3_1_1_e.res, sgI true⟩ :=
  polHint_fadd true mgga_x_scan_polHint3_1_1d mgga_x_scan_polHint3_1_1n
theorem mgga_x_scan_polHint3_1 : PolHint {sPos := true, params := ["c1", "c2", "k1"], le := [("k1", 1/10), ("d", 10)], ge := [("d", 1/10)]} .mgga mgga_x_scan_polHint3_q ⟨14, mgga_x_scan_polHint3_1_e.res, ⟨.fin (Int.ofNat 18446744073709551616) true, .inf⟩⟩ :=
  polHint_rw 1000 mgga_x_scan_polHint3_1_q (hs := [⟨0, .param 100, ⟨.fin (Int.ofNat 1844674407370955161) false, .fin (Int.negOfNat 184467440737095516160) false⟩⟩, ⟨2, mgga_x_scan_polHint3_1_1_e.res, sgI true⟩]) (fc mgga_x_scan_polHint3_1_0 (fc mgga_x_scan_polHint3_1_1 fn)) (par := [25393, 25394, 27441]) (npar := []) (flds := []) (by simp [nameCode, nameCodeChars]) rfl rfl (by decide +kernel) (by decide +kernel)
theorem mgga_x_scan_polHint3 : PolHint {sPos := true, params := ["c1", "c2", "k1"], le := [("k1", 1/10), ("d", 10)], ge := [("d", 1/10)]} .mgga mgga_x_scan.polBody ⟨86, mgga_x_scan_polHint3_e.res, ⟨.fin (Int.ofNat 18446744073709551616) true, .inf⟩⟩ :=
  polHint_rw 1000 mgga_x_scan_polHint3_q (hs := [⟨5, .param 100, ⟨.fin (Int.ofNat 1844674407370955161) false, .fin (Int.negOfNat 184467440737095516160) false⟩⟩, ⟨14, mgga_x_scan_polHint3_1_e.res, ⟨.fin (Int.ofNat 18446744073709551616) true, .inf⟩⟩]) (fc mgga_x_scan_polHint3_0 (fc mgga_x_scan_polHint3_1 fn)) (par := [25393, 25394, 27441]) (npar := []) (flds := []) (by simp [nameCode, nameCodeChars]) rfl rfl (by decide +kernel) (by decide +kernel)
theorem mgga_x_scan_polHint4 : PolHint {sPos := true, params := ["c1", "c2", "k1"], le := [("k1", 1/10), ("d", 10)], ge := [("d", 1/10)]} .mgga mgga_x_scan.polBody ⟨29, .param 27441, ⟨.inf, .fin (Int.negOfNat 1844674407370955162) false⟩⟩ :=
  polHint_par (s := "k1") (q := 1/10) (by simp) (by simp [nameCode, nameCodeChars]) (by norm_num [sc])
theorem mgga_x_scan_polHint5 : PolHint {sPos := true, params := ["c1", "c2", "k1"], le := [("k1", 1/10), ("d", 10)], ge := [("d", 1/10)]} .mgga mgga_x_scan.polBody ⟨49, .param 100, ⟨.fin (Int.ofNat 1844674407370955161) false, .fin (Int.negOfNat 184467440737095516160) false⟩⟩ :=
  polHint_between (s := "d") (q0 := 1/10) (q := 10) (by simp) (by simp) (by simp [nameCode, nameCodeChars]) (by norm_num [sc]) (by norm_num [sc])
theorem mgga_x_scan_definedPol : DefinedPol {sPos := true, params := ["c1", "c2", "k1"], le := [("k1", 1/10), ("d", 10)], ge := [("d", 1/10)]} .mgga mgga_x_scan :=
  definedPolH_of _ mgga_x_scan_neverRaises (hs := [⟨46, mgga_x_scan_polHint0_e.res, ⟨.inf, .fin (Int.negOfNat 18446744073709551616) true⟩⟩, ⟨82, mgga_x_scan_polHint1_e.res, ⟨.inf, .fin (Int.negOfNat 18446744073709551616) true⟩⟩, ⟨53, mgga_x_scan_polHint2_e.res, ⟨.fin (Int.ofNat 18446744073709551616) true, .inf⟩⟩, ⟨86, mgga_x_scan_polHint3_e.res, ⟨.fin (Int.ofNat 18446744073709551616) true, .inf⟩⟩, ⟨29, .param 27441, ⟨.inf, .fin (Int.negOfNat 1844674407370955162) false⟩⟩, ⟨49, .param 100, ⟨.fin (Int.ofNat 1844674407370955161) false, .fin (Int.negOfNat 184467440737095516160) false⟩⟩]) (fc mgga_x_scan_polHint0 (fc mgga_x_scan_polHint1 (fc mgga_x_scan_polHint2 (fc mgga_x_scan_polHint3 (fc mgga_x_scan_polHint4 (fc mgga_x_scan_polHint5 fn)))))) (par := [25393, 25394, 27441]) (npar := []) (flds := []) (by simp [nameCode, nameCodeChars]) rfl rfl (by decide +kernel)

prog mgga_x_scan_unpolHint0_e "res = -t93"
prog mgga_x_scan_unpolHint0_q "t90 = math.log(DBL_EPSILON)
t100001 = 0.1e1 + t90 / (-t90 + params_a_c1)
res = 0.1e1 - t100001"
prog mgga_x_scan_unpolHint0_0d_e "res = -t90 + params_a_c1"
prog mgga_x_scan_unpolHint0_0d_q "t90 = math.log(DBL_EPSILON)
res = -t90 + params_a_c1"
theorem mgga_x_scan_unpolHint0_0d : UnpolHint {sPos := true, params := ["c1", "c2", "k1"], le := [("k1", 1/10), ("d", 10)], ge := [("d", 1/10)]} .mgga mgga_x_scan_unpolHint0_q ⟨1, mgga_x_scan_unpolHint0_0d_e.res, pos⟩ :=
  unpolHint_rw 1000 mgga_x_scan_unpolHint0_0d_q (hs := []) fn (par := [25393, 25394, 27441]) (npar := []) (flds := []) (by simp [nameCode, nameCodeChars]) rfl rfl (by decide +kernel) (by decide +kernel)
prog mgga_x_scan_unpolHint0_0n_e "res = (0.1e1) * (-t90 + params_a_c1) + (t90)"
prog mgga_x_scan_unpolHint0_0n_q "res = params_a_c1"
theorem mgga_x_scan_unpolHint0_0n : UnpolHint {sPos := true, params := ["c1", "c2", "k1"], le := [("k1", 1/10), ("d", 10)], ge := [("d", 1/10)]} .mgga mgga_x_scan_unpolHint0_q ⟨1, mgga_x_scan_unpolHint0_0n_e.res, sgI true⟩ :=
  unpolHint_rw 1000 mgga_x_scan_unpolHint0_0n_q (hs := []) fn (par := [25393, 25394, 27441]) (npar := []) (flds := []) (by simp [nameCode, nameCodeChars]) rfl rfl (by decide +kernel) (by decide +kernel)
prog mgga_x_scan_unpolHint0_0_e "res = (0.1e1) + (t90) / (-t90 + params_a_c1)"
theorem mgga_x_scan_unpolHint0_0 : UnpolHint {sPos := true, params := ["c1", "c2", "k1"], le := [("k1", 1/10), ("d", 10)], ge := [("d", 1/10)]} .mgga mgga_x_scan_unpolHint0_q ⟨1, mgga_x_scan_unpolHint0_0_e.res, sgI true⟩ :=
  unpolHint_fadd true mgga_x_scan_unpolHint0_0d mgga_x_scan_unpolHint0_0n
theorem mgga_x_scan_unpolHint0 : UnpolHint {sPos := true, params := ["c1", "c2", "k1"], le := [("k1", 1/10), ("d", 10)], ge := [("d", 1/10)]} .mgga mgga_x_scan.unpolBody ⟨34, mgga_x_scan_unpolHint0_e.res, ⟨.inf, .fin (Int.negOfNat 18446744073709551616) true⟩⟩ :=
  unpolHint_rw 1000 mgga_x_scan_unpolHint0_q (hs := [⟨1, mgga_x_scan_unpolHint0_0_e.res, sgI true⟩]) (fc mgga_x_scan_unpolHint0_0 fn) (par := [25393, 25394, 27441]) (npar := []) (flds := []) (by simp [nameCode, nameCodeChars]) rfl rfl (by decide +kernel) (by decide +kernel)
prog mgga_x_scan_unpolHint1_e "res = lax_cond(t110, -t109, t73)"
prog mgga_x_scan_unpolHint1_q "t20 = r0 ** (0.1e1 / 0.3e1)
t21 = 6 ** (0.1e1 / 0.3e1)
t22 = math.pi ** 2
t23 = t22 ** (0.1e1 / 0.3e1)
t24 = t23 ** 2
t25 = 0.1e1 / t24
t27 = 2 ** (0.1e1 / 0.3e1)
t28 = t27 ** 2
t30 = r0 ** 2
t31 = t20 ** 2
t34 = s0 * t28 / t31 / t30
t73 = 0.5e1 / 0.9e1 * (tau0 * t28 / t31 / r0 - t34 / 0.8e1) * t21 * t25
t103 = abs(params_a_d)
t106 = math.log(DBL_EPSILON / t103)
t109 = (-t106 + params_a_c2) / t106
res = lax_cond(t73 < -t109, -t109, t73)"
theorem mgga_x_scan_unpolHint1_0 : UnpolHint {sPos := true, params := ["c1", "c2", "k1"], le := [("k1", 1/10), ("d", 10)], ge := [("d", 1/10)]} .mgga mgga_x_scan_unpolHint1_q ⟨12, .param 100, ⟨.fin (Int.ofNat 1844674407370955161) false, .fin (Int.negOfNat 184467440737095516160) false⟩⟩ :=
  unpolHint_between (s := "d") (q0 := 1/10) (q := 10) (by simp) (by simp) (by simp [nameCode, nameCodeChars]) (by norm_num [sc]) (by norm_num [sc])
prog mgga_x_scan_unpolHint1_1_e "res = -t109"
prog mgga_x_scan_unpolHint1_1_q "t103 = abs(params_a_d)
t106 = math.log(DBL_EPSILON / t103)
t100001 = -0.1e1 + (-t106 + params_a_c2) / (-t106)
res = 0.1e1 + t100001"
theorem mgga_x_scan_unpolHint1_1_0 : UnpolHint {sPos := true, params := ["c1", "c2", "k1"], le := [("k1", 1/10), ("d", 10)], ge := [("d", 1/10)]} .mgga mgga_x_scan_unpolHint1_1_q ⟨0, .param 100, ⟨.fin (Int.ofNat 1844674407370955161) false, .fin (Int.negOfNat 184467440737095516160) false⟩⟩ :=
  unpolHint_between (s := "d") (q0 := 1/10) (q := 10) (by simp) (by simp) (by simp [nameCode, nameCodeChars]) (by norm_num [sc]) (by norm_num [sc])
prog mgga_x_scan_unpolHint1_1_1d_e "res = -t106"
prog mgga_x_scan_unpolHint1_1_1d_q "t103 = abs(params_a_d)
t106 = math.log(DBL_EPSILON / t103)
res = -t106"
theorem mgga_x_scan_unpolHint1_1_1d_0 : UnpolHint {sPos := true, params := ["c1", "c2", "k1"], le := [("k1", 1/10), ("d", 10)], ge := [("d", 1/10)]} .mgga mgga_x_scan_unpolHint1_1_1d_q ⟨0, .param 100, ⟨.fin (Int.ofNat 1844674407370955161) false, .fin (Int.negOfNat 184467440737095516160) false⟩⟩ :=
  unpolHint_between (s := "d") (q0 := 1/10) (q := 10) (by simp) (by simp) (by simp [nameCode, nameCodeChars]) (by norm_num [sc]) (by norm_num [sc])
theorem mgga_x_scan_unpolHint1_1_1d : UnpolHint {sPos := true, params := ["c1", "c2", "k1"], le := [("k1", 1/10), ("d", 10)], ge := [("d", 1/10)]} .mgga mgga_x_scan_unpolHint1_1_q ⟨2, mgga_x_scan_unpolHint1_1_1d_e.res, pos⟩ :=
  unpolHint_rw 1000 mgga_x_scan_unpolHint1_1_1d_q (hs := [⟨0, .param 100, ⟨.fin (Int.ofNat 1844674407370955161) false, .fin (Int.negOfNat 184467440737095516160) false⟩⟩]) (fc mgga_x_scan_unpolHint1_1_1d_0 fn) (par := [25393, 25394, 27441]) (npar := []) (flds := []) (by simp [nameCode, nameCodeChars]) rfl rfl (by decide +kernel) (by decide +kernel)
prog mgga_x_scan_unpolHint1_1_1n_e "res = (-0.1e1) * (-t106) + (-t106 + params_a_c2)"
prog mgga_x_scan_unpolHint1_1_1n_q "res = params_a_c2"
theorem mgga_x_scan_unpolHint1_1_1n : UnpolHint {sPos := true, params := ["c1", "c2", "k1"], le := [("k1", 1/10), ("d", 10)], ge := [("d", 1/10)]} .mgga mgga_x_scan_unpolHint1_1_q ⟨2, mgga_x_scan_unpolHint1_1_1n_e.res, sgI true⟩ :=
  unpolHint_rw 1000 mgga_x_scan_unpolHint1_1_1n_q (hs := []) fn (par := [25393, 25394, 27441]) (npar := []) (flds := []) (by simp [nameCode, nameCodeChars]) rfl rfl (by decide +kernel) (by decide +kernel)
prog mgga_x_scan_unpolHint1_1_1_e "res = (-0.1e1) + (-t106 + params_a_c2) / (-t106)"
theorem mgga_x_scan_unpolHint1_1_1 : UnpolHint {sPos := true, params := ["c1", "c2", "k1"], le := [("k1", 1/10), ("d", 10)], ge := [("d", 1/10)]} .mgga mgga_x_scan_unpolHint1_1_q ⟨2, mgga_x_scan_unpolHint1_1_1_e.res, sgI true⟩ :=
  unpolHint_fadd true mgga_x_scan_unpolHint1_1_1d mgga_x_scan_unpolHint1_1_1n
theorem mgga_x_scan_unpolHint1_1 : UnpolHint {sPos := true, params := ["c1", "c2", "k1"], le := [("k1", 1/10), ("d", 10)], ge := [("d", 1/10)]} .mgga mgga_x_scan_unpolHint1_q ⟨15, mgga_x_scan_unpolHint1_1_e.res, ⟨.fin (Int.ofNat 18446744073709551616) true, .inf⟩⟩ :=
  unpolHint_rw 1000 mgga_x_scan_unpolHint1_1_q (hs := [⟨0, .param 100, ⟨.fin (Int.ofNat 1844674407370955161) false, .fin (Int.negOfNat 184467440737095516160) false⟩⟩, ⟨2, mgga_x_scan_unpolHint1_1_1_e.res, sgI true⟩]) (fc mgga_x_scan_unpolHint1_1_0 (fc mgga_x_scan_unpolHint1_1_1 fn)) (par := [25393, 25394, 27441]) (npar := []) (flds := []) (by simp [nameCode, nameCodeChars]) rfl rfl (by decide +kernel) (by decide +kernel)
theorem mgga_x_scan_unpolHint1 : UnpolHint {sPos := true, params := ["c1", "c2", "k1"], le := [("k1", 1/10), ("d", 10)], ge := [("d", 1/10)]} .mgga mgga_x_scan.unpolBody ⟨41, mgga_x_scan_unpolHint1_e.res, ⟨.fin (Int.ofNat 18446744073709551616) true, .inf⟩⟩ :=
  unpolHint_rw 1000 mgga_x_scan_unpolHint1_q (hs := [⟨12, .param 100, ⟨.fin (Int.ofNat 1844674407370955161) false, .fin (Int.negOfNat 184467440737095516160) false⟩⟩, ⟨15, mgga_x_scan_unpolHint1_1_e.res, ⟨.fin (Int.ofNat 18446744073709551616) true, .inf⟩⟩]) (fc mgga_x_scan_unpolHint1_0 (fc mgga_x_scan_unpolHint1_1 fn)) (par := [25393, 25394, 27441]) (npar := []) (flds := []) (by simp [nameCode, nameCodeChars]) rfl rfl (by decide +kernel) (by decide +kernel)
theorem mgga_x_scan_unpolHint2 : UnpolHint {sPos := true, params := ["c1", "c2", "k1"], le := [("k1", 1/10), ("d", 10)], ge := [("d", 1/10)]} .mgga mgga_x_scan.unpolBody ⟨21, .param 27441, ⟨.inf, .fin (Int.negOfNat 1844674407370955162) false⟩⟩ :=
  unpolHint_par (s := "k1") (q := 1/10) (by simp) (by simp [nameCode, nameCodeChars]) (by norm_num [sc])
theorem mgga_x_scan_unpolHint3 : UnpolHint {sPos := true, params := ["c1", "c2", "k1"], le := [("k1", 1/10), ("d", 10)], ge := [("d", 1/10)]} .mgga mgga_x_scan.unpolBody ⟨37, .param 100, ⟨.fin (Int.ofNat 1844674407370955161) false, .fin (Int.negOfNat 184467440737095516160) false⟩⟩ :=
  unpolHint_between (s := "d") (q0 := 1/10) (q := 10) (by simp) (by simp) (by simp [nameCode, nameCodeChars]) (by norm_num [sc]) (by norm_num [sc])
theorem mgga_x_scan_definedUnpol : DefinedUnpol {sPos := true, params := ["c1", "c2", "k1"], le := [("k1", 1/10), ("d", 10)], ge := [("d", 1/10)]} .mgga mgga_x_scan :=
  definedUnpolH_of _ mgga_x_scan_neverRaises (hs := [⟨34, mgga_x_scan_unpolHint0_e.res, ⟨.inf, .fin (Int.negOfNat 18446744073709551616) true⟩⟩, ⟨41, mgga_x_scan_unpolHint1_e.res, ⟨.fin (Int.ofNat 18446744073709551616) true, .inf⟩⟩, ⟨21, .param 27441, ⟨.inf, .fin (Int.negOfNat 1844674407370955162) false⟩⟩, ⟨37, .param 100, ⟨.fin (Int.ofNat 1844674407370955161) false, .fin (Int.negOfNat 184467440737095516160) false⟩⟩]) (fc mgga_x_scan_unpolHint0 (fc mgga_x_scan_unpolHint1 (fc mgga_x_scan_unpolHint2 (fc mgga_x_scan_unpolHint3 fn)))) (par := [25393, 25394, 27441]) (npar := []) (flds := []) (by simp [nameCode, nameCodeChars]) rfl rfl (by decide +kernel)

end Verif.Props
