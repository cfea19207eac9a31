import Verif.Norm.HintsFull
import Verif.Props.DefinedHints1
import Verif.Props.DefinedHints2
import Verif.Props.DefinedHints3
import Verif.Props.DefinedHints4
/-!
# C51: formulas where there are electrons of one spin only, with hints
-/
set_option Elab.async false
set_option maxRecDepth 100000
namespace Verif.Props
open Verif.Py Verif.Model Verif.Spec Verif.Norm Verif.Data Verif.Lib

theorem gga_c_acgga_fullHint0 : FullHint {zetaSmall := true} .gga gga_c_acgga.polBody ⟨57, gga_c_acgga_polHint0_e.res, pos.neg⟩ :=
  fullHint_pw rfl (N 621814 (-7)) (N 310907 (-7)) (N 19751673498613801407 (-21)) (N 16081979498692535067 (-18)) (N 32163958997385070134 (-18)) (N 29608749977793437516 (-18))
    (fun P p r0 r1 s0 s1 s2 l0 l1 t0 t1 => by kernel_rfl) pw_new
theorem gga_c_acgga_definedFull : DefinedFull {zetaSmall := true} .gga gga_c_acgga :=
  definedFullH_of _ gga_c_acgga_neverRaises (hs := [⟨57, gga_c_acgga_polHint0_e.res, pos.neg⟩]) (fc gga_c_acgga_fullHint0 fn) (par := []) (npar := []) (flds := []) rfl rfl rfl (by decide +kernel)

theorem gga_c_pbe_fullHint0 : FullHint {params := ["BB", "beta", "gamma"], zetaSmall := true} .gga gga_c_pbe.polBody ⟨48, gga_c_pbe_polHint0_e.res, pos.neg⟩ :=
  fullHint_pw rfl (N 621814 (-7)) (N 310907 (-7)) (N 19751673498613801407 (-21)) (N 16081979498692535067 (-18)) (N 32163958997385070134 (-18)) (N 29608749977793437516 (-18))
    (fun P p r0 r1 s0 s1 s2 l0 l1 t0 t1 => by kernel_rfl) pw_new
theorem gga_c_pbe_definedFull : DefinedFull {params := ["BB", "beta", "gamma"], zetaSmall := true} .gga gga_c_pbe :=
  definedFullH_of _ gga_c_pbe_neverRaises (hs := [⟨48, gga_c_pbe_polHint0_e.res, pos.neg⟩]) (fc gga_c_pbe_fullHint0 fn) (par := [16962, 1650816097, 444016192865]) (npar := []) (flds := []) (by simp [nameCode, nameCodeChars]) rfl rfl (by decide +kernel)

theorem gga_c_pbeloc_fullHint0 : FullHint {zetaSmall := true} .gga gga_c_pbeloc.polBody ⟨57, gga_c_pbeloc_polHint0_e.res, pos.neg⟩ :=
  fullHint_pw rfl (N 621814 (-7)) (N 310907 (-7)) (N 19751673498613801407 (-21)) (N 16081979498692535067 (-18)) (N 32163958997385070134 (-18)) (N 29608749977793437516 (-18))
    (fun P p r0 r1 s0 s1 s2 l0 l1 t0 t1 => by kernel_rfl) pw_new
theorem gga_c_pbeloc_definedFull : DefinedFull {zetaSmall := true} .gga gga_c_pbeloc :=
  definedFullH_of _ gga_c_pbeloc_neverRaises (hs := [⟨57, gga_c_pbeloc_polHint0_e.res, pos.neg⟩]) (fc gga_c_pbeloc_fullHint0 fn) (par := []) (npar := []) (flds := []) rfl rfl rfl (by decide +kernel)

theorem gga_c_pw91_fullHint0 : FullHint {zetaSmall := true} .gga gga_c_pw91.polBody ⟨57, gga_c_pw91_polHint0_e.res, pos.neg⟩ :=
  fullHint_pw rfl (N 62182 (-6)) (N 3109 (-5)) (N 19751789702565206229 (-21)) (N 16081824322151104822 (-18)) (N 32164683177870697974 (-18)) (N 29608574643216675549 (-18))
    (fun P p r0 r1 s0 s1 s2 l0 l1 t0 t1 => by kernel_rfl) pw_old
theorem gga_c_pw91_definedFull : DefinedFull {zetaSmall := true} .gga gga_c_pw91 :=
  definedFullH_of _ gga_c_pw91_neverRaises (hs := [⟨57, gga_c_pw91_polHint0_e.res, pos.neg⟩]) (fc gga_c_pw91_fullHint0 fn) (par := []) (npar := []) (flds := []) rfl rfl rfl (by decide +kernel)

theorem gga_c_regtpss_fullHint0 : FullHint {zetaSmall := true} .gga gga_c_regtpss.polBody ⟨53, gga_c_regtpss_polHint0_e.res, pos.neg⟩ :=
  fullHint_pw rfl (N 621814 (-7)) (N 310907 (-7)) (N 19751673498613801407 (-21)) (N 16081979498692535067 (-18)) (N 32163958997385070134 (-18)) (N 29608749977793437516 (-18))
    (fun P p r0 r1 s0 s1 s2 l0 l1 t0 t1 => by kernel_rfl) pw_new
theorem gga_c_regtpss_definedFull : DefinedFull {zetaSmall := true} .gga gga_c_regtpss :=
  definedFullH_of _ gga_c_regtpss_neverRaises (hs := [⟨53, gga_c_regtpss_polHint0_e.res, pos.neg⟩]) (fc gga_c_regtpss_fullHint0 fn) (par := []) (npar := []) (flds := []) rfl rfl rfl (by decide +kernel)

theorem gga_c_scan_e0_fullHint0 : FullHint {zetaSmall := true} .gga gga_c_scan_e0.polBody ⟨50, gga_c_scan_e0_polHint0_e.res, pos.neg⟩ :=
  fullHint_pw rfl (N 621814 (-7)) (N 310907 (-7)) (N 19751673498613801407 (-21)) (N 16081979498692535067 (-18)) (N 32163958997385070134 (-18)) (N 29608749977793437516 (-18))
    (fun P p r0 r1 s0 s1 s2 l0 l1 t0 t1 => by kernel_rfl) pw_new
theorem gga_c_scan_e0_definedFull : DefinedFull {zetaSmall := true} .gga gga_c_scan_e0 :=
  definedFullH_of _ gga_c_scan_e0_neverRaises (hs := [⟨50, gga_c_scan_e0_polHint0_e.res, pos.neg⟩]) (fc gga_c_scan_e0_fullHint0 fn) (par := []) (npar := []) (flds := []) rfl rfl rfl (by decide +kernel)

theorem gga_c_sogga11_fullHint0 : FullHint {zetaSmall := true} .gga gga_c_sogga11.polBody ⟨36, gga_c_sogga11_polHint0_e.res, pos.neg⟩ :=
  fullHint_pw rfl (N 621814 (-7)) (N 310907 (-7)) (N 19751673498613801407 (-21)) (N 16081979498692535067 (-18)) (N 32163958997385070134 (-18)) (N 29608749977793437516 (-18))
    (fun P p r0 r1 s0 s1 s2 l0 l1 t0 t1 => by kernel_rfl) pw_new
theorem gga_c_sogga11_definedFull : DefinedFull {zetaSmall := true} .gga gga_c_sogga11 :=
  definedFullH_of _ gga_c_sogga11_neverRaises (hs := [⟨36, gga_c_sogga11_polHint0_e.res, pos.neg⟩]) (fc gga_c_sogga11_fullHint0 fn) (par := []) (npar := []) (flds := []) rfl rfl rfl (by decide +kernel)

theorem hyb_mgga_x_js18_definedFull : DefinedFull {tPos := true, flds := [.camOmega]} .mgga hyb_mgga_x_js18 :=
  definedFullH_of _ hyb_mgga_x_js18_neverRaises (hs := [⟨135, hyb_mgga_x_js18_polHint0_e.res, pos⟩]) (fc (hyb_mgga_x_js18_polHint0.full rfl (by decide +kernel)) fn) (par := []) (npar := []) (flds := [2]) rfl rfl rfl (by decide +kernel)

theorem mgga_x_pkzb_definedFull : DefinedFull {} .mgga mgga_x_pkzb :=
  definedFullH_of _ mgga_x_pkzb_neverRaises (hs := [⟨35, mgga_x_pkzb_polHint0_e.res, pos⟩]) (fc (mgga_x_pkzb_polHint0.full rfl (by decide +kernel)) fn) (par := []) (npar := []) (flds := []) rfl rfl rfl (by decide +kernel)

theorem mgga_x_regtpss_definedFull : DefinedFull {tPos := true} .mgga mgga_x_regtpss :=
  definedFullH_of _ mgga_x_regtpss_neverRaises (hs := [⟨36, mgga_x_regtpss_polHint0_e.res, pos⟩, ⟨56, mgga_x_regtpss_polHint1_e.res, sgI true⟩, ⟨66, mgga_x_regtpss_polHint2_e.res, sgI true⟩]) (fc (mgga_x_regtpss_polHint0.full rfl (by decide +kernel)) (fc (mgga_x_regtpss_polHint1.full rfl (by decide +kernel)) (fc (mgga_x_regtpss_polHint2.full rfl (by decide +kernel)) fn))) (par := []) (npar := []) (flds := []) rfl rfl rfl (by decide +kernel)

theorem mgga_x_revtm_definedFull : DefinedFull {tPos := true} .mgga mgga_x_revtm :=
  definedFullH_of _ mgga_x_revtm_neverRaises (hs := [⟨46, mgga_x_revtm_polHint0_e.res, pos⟩, ⟨49, mgga_x_revtm_polHint1_e.res, pos⟩]) (fc (mgga_x_revtm_polHint0.full rfl (by decide +kernel)) (fc (mgga_x_revtm_polHint1.full rfl (by decide +kernel)) fn)) (par := []) (npar := []) (flds := []) rfl rfl rfl (by decide +kernel)

theorem mgga_x_rtpss_definedFull : DefinedFull {tPos := true, params := ["b", "e", "kappa"], le := [("b", 3)]} .mgga mgga_x_rtpss :=
  definedFullH_of _ mgga_x_rtpss_neverRaises (hs := [⟨39, mgga_x_rtpss_polHint0_e.res, pos⟩]) (fc (mgga_x_rtpss_polHint0.full rfl (by decide +kernel)) fn) (par := [98, 101, 461196259425]) (npar := []) (flds := []) (by simp [nameCode, nameCodeChars]) rfl rfl (by decide +kernel)

theorem mgga_x_tm_definedFull : DefinedFull {tPos := true} .mgga mgga_x_tm :=
  definedFullH_of _ mgga_x_tm_neverRaises (hs := [⟨46, mgga_x_tm_polHint0_e.res, pos⟩]) (fc (mgga_x_tm_polHint0.full rfl (by decide +kernel)) fn) (par := []) (npar := []) (flds := []) rfl rfl rfl (by decide +kernel)

theorem mgga_x_tpss_definedFull : DefinedFull {sPos := true, tPos := true, params := ["b", "c", "e", "kappa", "mu"], le := [("b", 3)], ge := [("e", 1), ("kappa", 1/10)]} .mgga mgga_x_tpss :=
  definedFullH_of _ mgga_x_tpss_neverRaises (hs := [⟨41, mgga_x_tpss_polHint0_e.res, pos⟩, ⟨51, .param 101, ⟨.fin (Int.ofNat 18446744073709551616) false, .inf⟩⟩, ⟨58, mgga_x_tpss_polHint2_e.res, sgI true⟩]) (fc (mgga_x_tpss_polHint0.full rfl (by decide +kernel)) (fc (mgga_x_tpss_polHint1.full rfl (by decide +kernel)) (fc (mgga_x_tpss_polHint2.full rfl (by decide +kernel)) fn))) (par := [98, 99, 101, 461196259425, 28021]) (npar := []) (flds := []) (by simp [nameCode, nameCodeChars]) rfl rfl (by decide +kernel)

theorem mgga_x_vt84_definedFull : DefinedFull {sPos := true, tPos := true} .mgga mgga_x_vt84 :=
  definedFullH_of _ mgga_x_vt84_neverRaises (hs := [⟨35, mgga_x_vt84_polHint0_e.res, pos⟩, ⟨48, mgga_x_vt84_polHint1_e.res, pos⟩]) (fc (mgga_x_vt84_polHint0.full rfl (by decide +kernel)) (fc (mgga_x_vt84_polHint1.full rfl (by decide +kernel)) fn)) (par := []) (npar := []) (flds := []) rfl rfl rfl (by decide +kernel)

theorem mgga_x_r2scan_definedFull : DefinedFull {sPos := true, params := ["dp2", "eta", "k1"], le := [("eta", 1/100)]} .mgga mgga_x_r2scan :=
  definedFullH_of _ mgga_x_r2scan_neverRaises (hs := [⟨18, .param 6648929, ⟨.inf, .fin (Int.negOfNat 184467440737095517) false⟩⟩, ⟨38, .param 6648929, ⟨.inf, .fin (Int.negOfNat 184467440737095517) false⟩⟩, ⟨69, .param 6648929, ⟨.inf, .fin (Int.negOfNat 184467440737095517) false⟩⟩]) (fc (mgga_x_r2scan_polHint0.full rfl (by decide +kernel)) (fc (mgga_x_r2scan_polHint1.full rfl (by decide +kernel)) (fc (mgga_x_r2scan_polHint2.full rfl (by decide +kernel)) fn))) (par := [6582322, 6648929, 27441]) (npar := []) (flds := []) (by simp [nameCode, nameCodeChars]) rfl rfl (by decide +kernel)

theorem mgga_x_r4scan_definedFull : DefinedFull {sPos := true, params := ["da4", "dp2", "dp4", "eta", "k1"], le := [("eta", 1/100)]} .mgga mgga_x_r4scan :=
  definedFullH_of _ mgga_x_r4scan_neverRaises (hs := [⟨18, .param 6648929, ⟨.inf, .fin (Int.negOfNat 184467440737095517) false⟩⟩, ⟨44, .param 6648929, ⟨.inf, .fin (Int.negOfNat 184467440737095517) false⟩⟩, ⟨60, .param 6648929, ⟨.inf, .fin (Int.negOfNat 184467440737095517) false⟩⟩, ⟨61, .param 6648929, ⟨.inf, .fin (Int.negOfNat 184467440737095517) false⟩⟩, ⟨62, .param 6648929, ⟨.inf, .fin (Int.negOfNat 184467440737095517) false⟩⟩, ⟨63, .param 6648929, ⟨.inf, .fin (Int.negOfNat 184467440737095517) false⟩⟩, ⟨98, .param 6648929, ⟨.inf, .fin (Int.negOfNat 184467440737095517) false⟩⟩]) (fc (mgga_x_r4scan_polHint0.full rfl (by decide +kernel)) (fc (mgga_x_r4scan_polHint1.full rfl (by decide +kernel)) (fc (mgga_x_r4scan_polHint2.full rfl (by decide +kernel)) (fc (mgga_x_r4scan_polHint3.full rfl (by decide +kernel)) (fc (mgga_x_r4scan_polHint4.full rfl (by decide +kernel)) (fc (mgga_x_r4scan_polHint5.full rfl (by decide +kernel)) (fc (mgga_x_r4scan_polHint6.full rfl (by decide +kernel)) fn))))))) (par := [6578484, 6582322, 6582324, 6648929, 27441]) (npar := []) (flds := []) (by simp [nameCode, nameCodeChars]) rfl rfl (by decide +kernel)

theorem mgga_x_rppscan_definedFull : DefinedFull {sPos := true, params := ["eta", "k1"], le := [("k1", 1/10)]} .mgga mgga_x_rppscan :=
  definedFullH_of _ mgga_x_rppscan_neverRaises (hs := [⟨29, .param 27441, ⟨.inf, .fin (Int.negOfNat 1844674407370955162) false⟩⟩]) (fc (mgga_x_rppscan_polHint0.full rfl (by decide +kernel)) fn) (par := [6648929, 27441]) (npar := []) (flds := []) (by simp [nameCode, nameCodeChars]) rfl rfl (by decide +kernel)

theorem mgga_x_rscan_definedFull : DefinedFull {sPos := true, params := ["alphar", "k1", "taur"], le := [("k1", 1/10)]} .mgga mgga_x_rscan :=
  definedFullH_of _ mgga_x_rscan_neverRaises (hs := [⟨29, .param 27441, ⟨.inf, .fin (Int.negOfNat 1844674407370955162) false⟩⟩]) (fc (mgga_x_rscan_polHint0.full rfl (by decide +kernel)) fn) (par := [107118370251122, 27441, 1952544114]) (npar := []) (flds := []) (by simp [nameCode, nameCodeChars]) rfl rfl (by decide +kernel)

theorem mgga_x_scan_definedFull : DefinedFull {sPos := true, params := ["c1", "c2", "k1"], le := [("k1", 1/10), ("d", 10)], ge := [("d", 1/10)]} .mgga mgga_x_scan :=
  definedFullH_of _ mgga_x_scan_neverRaises (hs := [⟨46, mgga_x_scan_polHint0_e.res, ⟨.inf, .fin (Int.negOfNat 18446744073709551616) true⟩⟩, ⟨82, mgga_x_scan_polHint1_e.res, ⟨.inf, .fin (Int.negOfNat 18446744073709551616) true⟩⟩, ⟨53, mgga_x_scan_polHint2_e.res, ⟨.fin (Int.ofNat 18446744073709551616) true, .inf⟩⟩, ⟨29, .param 27441, ⟨.inf, .fin (Int.negOfNat 1844674407370955162) false⟩⟩, ⟨49, .param 100, ⟨.fin (Int.ofNat 1844674407370955161) false, .fin (Int.negOfNat 184467440737095516160) false⟩⟩]) (fc (mgga_x_scan_polHint0.full rfl (by decide +kernel)) (fc (mgga_x_scan_polHint1.full rfl (by decide +kernel)) (fc (mgga_x_scan_polHint2.full rfl (by decide +kernel)) (fc (mgga_x_scan_polHint4.full rfl (by decide +kernel)) (fc (mgga_x_scan_polHint5.full rfl (by decide +kernel)) fn))))) (par := [25393, 25394, 27441]) (npar := []) (flds := []) (by simp [nameCode, nameCodeChars]) rfl rfl (by decide +kernel)

theorem gga_k_apbeint_definedFull : DefinedFull {params := ["alpha", "kappa", "muGE", "muPBE"]} .gga gga_k_apbeint :=
  definedFullH_of _ gga_k_apbeint_neverRaises (hs := [⟨35, gga_k_apbeint_polHint0_e.res, sgI true⟩]) (fc (gga_k_apbeint_polHint0.full rfl (by decide +kernel)) fn) (par := [418431133793, 461196259425, 1836402501, 470119629381]) (npar := []) (flds := []) (by simp [nameCode, nameCodeChars]) rfl rfl (by decide +kernel)

theorem gga_x_ityh_pbe_definedFull : DefinedFull {params := ["kappa", "mu"], flds := [.camOmega]} .gga gga_x_ityh_pbe :=
  definedFullH_of _ gga_x_ityh_pbe_neverRaises (hs := [⟨32, gga_x_ityh_pbe_polHint0_e.res, sgI false⟩]) (fc (gga_x_ityh_pbe_polHint0.full rfl (by decide +kernel)) fn) (par := [461196259425, 28021]) (npar := []) (flds := [2]) (by simp [nameCode, nameCodeChars]) rfl rfl (by decide +kernel)

theorem gga_x_pbeint_definedFull : DefinedFull {params := ["alpha", "kappa", "muGE", "muPBE"]} .gga gga_x_pbeint :=
  definedFullH_of _ gga_x_pbeint_neverRaises (hs := [⟨31, gga_x_pbeint_polHint0_e.res, sgI true⟩]) (fc (gga_x_pbeint_polHint0.full rfl (by decide +kernel)) fn) (par := [418431133793, 461196259425, 1836402501, 470119629381]) (npar := []) (flds := []) (by simp [nameCode, nameCodeChars]) rfl rfl (by decide +kernel)

theorem mgga_k_pc07_definedFull : DefinedFull {params := ["a"]} .mgga mgga_k_pc07 :=
  definedFullH_of _ mgga_k_pc07_neverRaises (hs := [⟨51, mgga_k_pc07_polHint0_e.res, pos⟩]) (fc (mgga_k_pc07_polHint0.full rfl (by decide +kernel)) fn) (par := [97]) (npar := []) (flds := []) (by simp [nameCode, nameCodeChars]) rfl rfl (by decide +kernel)

theorem mgga_x_mbeef_definedFull : DefinedFull {} .mgga mgga_x_mbeef :=
  definedFullH_of _ mgga_x_mbeef_neverRaises (hs := [⟨40, mgga_x_mbeef_polHint0_e.res, pos⟩]) (fc (mgga_x_mbeef_polHint0.full rfl (by decide +kernel)) fn) (par := []) (npar := []) (flds := []) rfl rfl rfl (by decide +kernel)

theorem mgga_x_mbeefvdw_definedFull : DefinedFull {} .mgga mgga_x_mbeefvdw :=
  definedFullH_of _ mgga_x_mbeefvdw_neverRaises (hs := [⟨37, mgga_x_mbeefvdw_polHint0_e.res, pos⟩]) (fc (mgga_x_mbeefvdw_polHint0.full rfl (by decide +kernel)) fn) (par := []) (npar := []) (flds := []) rfl rfl rfl (by decide +kernel)

theorem mgga_x_mcml_definedFull : DefinedFull {} .mgga mgga_x_mcml :=
  definedFullH_of _ mgga_x_mcml_neverRaises (hs := [⟨43, mgga_x_mcml_polHint0_e.res, pos⟩]) (fc (mgga_x_mcml_polHint0.full rfl (by decide +kernel)) fn) (par := []) (npar := []) (flds := []) rfl rfl rfl (by decide +kernel)

theorem mgga_x_ms_definedFull : DefinedFull {params := ["c", "kappa"], ge := [("b", 1/2)]} .mgga mgga_x_ms :=
  definedFullH_of _ mgga_x_ms_neverRaises (hs := [⟨40, mgga_x_ms_polHint0_e.res, pos⟩]) (fc (mgga_x_ms_polHint0.full rfl (by decide +kernel)) fn) (par := [99, 461196259425]) (npar := []) (flds := []) (by simp [nameCode, nameCodeChars]) rfl rfl (by decide +kernel)

theorem mgga_x_msb_definedFull : DefinedFull {params := ["c", "kappa"], ge := [("b", 1/2)]} .mgga mgga_x_msb :=
  definedFullH_of _ mgga_x_msb_neverRaises (hs := [⟨40, mgga_x_msb_polHint0_e.res, pos⟩]) (fc (mgga_x_msb_polHint0.full rfl (by decide +kernel)) fn) (par := [99, 461196259425]) (npar := []) (flds := []) (by simp [nameCode, nameCodeChars]) rfl rfl (by decide +kernel)

theorem mgga_x_task_definedFull : DefinedFull {sPos := true, tPos := true, params := ["task_c"]} .mgga mgga_x_task :=
  definedFullH_of _ mgga_x_task_neverRaises (hs := [⟨40, mgga_x_task_polHint0_e.res, pos⟩]) (fc (mgga_x_task_polHint0.full rfl (by decide +kernel)) fn) (par := [127961897066339]) (npar := []) (flds := []) (by simp [nameCode, nameCodeChars]) rfl rfl (by decide +kernel)

theorem mgga_x_vcml_definedFull : DefinedFull {} .mgga mgga_x_vcml :=
  definedFullH_of _ mgga_x_vcml_neverRaises (hs := [⟨43, mgga_x_vcml_polHint0_e.res, pos⟩]) (fc (mgga_x_vcml_polHint0.full rfl (by decide +kernel)) fn) (par := []) (npar := []) (flds := []) rfl rfl rfl (by decide +kernel)

end Verif.Props
