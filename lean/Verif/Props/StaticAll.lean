import Verif.Data.All
import Verif.Props.Static1
import Verif.Props.Static2
import Verif.Props.Static3
import Verif.Props.Static4
/-!
# C35, C36, C44 for the whole table of shipped formulas
-/
namespace Verif.Props
open Verif.Model Verif.Spec Verif.Data

/-- Formulas that call a helper which `gen_repo/impl/utils.py` does not define. -/
def undefinedHelper : List String := [
  "gga_x_fd_lb94",
  "gga_x_gg99",
  "hyb_gga_xc_case21",
  "lda_x_1d_exponential",
  "lda_x_1d_soft",
  "mgga_c_b94",
  "mgga_x_br89",
  "mgga_x_mbr",
  "mgga_x_mbrxc_bg",
  "mgga_x_mbrxh_bg",
  "mgga_x_mggac",
  "mgga_x_tb09"]

/-- Formulas whose code mentions the Laplacian. -/
def laplUsers : List String := [
  "mgga_c_b94",
  "mgga_c_cs",
  "mgga_k_csk",
  "mgga_k_csk_loc",
  "mgga_k_gea2",
  "mgga_k_gea4",
  "mgga_k_lk",
  "mgga_k_pc07",
  "mgga_k_pgslb",
  "mgga_k_rda",
  "mgga_x_2d_prhg07",
  "mgga_x_2d_prp10",
  "mgga_x_br89",
  "mgga_x_br89_explicit",
  "mgga_x_edmgga",
  "mgga_x_ft98",
  "mgga_x_gdme",
  "mgga_x_jk",
  "mgga_x_rlda",
  "mgga_x_tb09",
  "mgga_xc_b98",
  "mgga_xc_cc06",
  "mgga_xc_lp90",
  "mgga_xc_zlp"]

/-- mGGA formulas whose code does not mention the kinetic energy density. -/
def tauFree : List String := [
  "mgga_k_csk",
  "mgga_k_csk_loc",
  "mgga_k_gea2",
  "mgga_k_gea4",
  "mgga_k_lk",
  "mgga_k_pc07",
  "mgga_k_pgslb",
  "mgga_k_rda",
  "mgga_x_ft98",
  "mgga_x_jk",
  "mgga_xc_cc06",
  "mgga_xc_lp90",
  "mgga_xc_zlp"]

theorem closed_01 : ∀ x ∈ shipped01, (x.name ∉ undefinedHelper → NeverRaises x.fam x.code) ∧ (x.name ∈ undefinedHelper → AlwaysNameError x.fam x.code) := by
  unfold shipped01
  simp only [List.forall_mem_cons, List.not_mem_nil, false_implies, implies_true, and_true]
  exact ⟨⟨fun _ => gga_c_acgga_neverRaises, fun h => absurd h (by simp [undefinedHelper])⟩,
    ⟨fun _ => gga_c_acggap_neverRaises, fun h => absurd h (by simp [undefinedHelper])⟩,
    ⟨fun _ => gga_c_am05_neverRaises, fun h => absurd h (by simp [undefinedHelper])⟩,
    ⟨fun _ => gga_c_bmk_neverRaises, fun h => absurd h (by simp [undefinedHelper])⟩,
    ⟨fun _ => gga_c_ccdf_neverRaises, fun h => absurd h (by simp [undefinedHelper])⟩,
    ⟨fun _ => gga_c_chachiyo_neverRaises, fun h => absurd h (by simp [undefinedHelper])⟩,
    ⟨fun _ => gga_c_cs1_neverRaises, fun h => absurd h (by simp [undefinedHelper])⟩,
    ⟨fun _ => gga_c_ft97_neverRaises, fun h => absurd h (by simp [undefinedHelper])⟩,
    ⟨fun _ => gga_c_gapc_neverRaises, fun h => absurd h (by simp [undefinedHelper])⟩,
    ⟨fun _ => gga_c_gaploc_neverRaises, fun h => absurd h (by simp [undefinedHelper])⟩,
    ⟨fun _ => gga_c_hcth_a_neverRaises, fun h => absurd h (by simp [undefinedHelper])⟩,
    ⟨fun _ => gga_c_lm_neverRaises, fun h => absurd h (by simp [undefinedHelper])⟩,
    ⟨fun _ => gga_c_lyp_neverRaises, fun h => absurd h (by simp [undefinedHelper])⟩,
    ⟨fun _ => gga_c_lypr_neverRaises, fun h => absurd h (by simp [undefinedHelper])⟩,
    ⟨fun _ => gga_c_op_b88_neverRaises, fun h => absurd h (by simp [undefinedHelper])⟩⟩

theorem closed_02 : ∀ x ∈ shipped02, (x.name ∉ undefinedHelper → NeverRaises x.fam x.code) ∧ (x.name ∈ undefinedHelper → AlwaysNameError x.fam x.code) := by
  unfold shipped02
  simp only [List.forall_mem_cons, List.not_mem_nil, false_implies, implies_true, and_true]
  exact ⟨⟨fun _ => gga_c_op_g96_neverRaises, fun h => absurd h (by simp [undefinedHelper])⟩,
    ⟨fun _ => gga_c_op_pbe_neverRaises, fun h => absurd h (by simp [undefinedHelper])⟩,
    ⟨fun _ => gga_c_op_pw91_neverRaises, fun h => absurd h (by simp [undefinedHelper])⟩,
    ⟨fun _ => gga_c_op_xalpha_neverRaises, fun h => absurd h (by simp [undefinedHelper])⟩,
    ⟨fun _ => gga_c_optc_neverRaises, fun h => absurd h (by simp [undefinedHelper])⟩,
    ⟨fun _ => gga_c_p86_neverRaises, fun h => absurd h (by simp [undefinedHelper])⟩,
    ⟨fun _ => gga_c_p86vwn_neverRaises, fun h => absurd h (by simp [undefinedHelper])⟩,
    ⟨fun _ => gga_c_pbe_neverRaises, fun h => absurd h (by simp [undefinedHelper])⟩,
    ⟨fun _ => gga_c_pbe_vwn_neverRaises, fun h => absurd h (by simp [undefinedHelper])⟩,
    ⟨fun _ => gga_c_pbeloc_neverRaises, fun h => absurd h (by simp [undefinedHelper])⟩,
    ⟨fun _ => gga_c_pw91_neverRaises, fun h => absurd h (by simp [undefinedHelper])⟩,
    ⟨fun _ => gga_c_q2d_neverRaises, fun h => absurd h (by simp [undefinedHelper])⟩,
    ⟨fun _ => gga_c_regtpss_neverRaises, fun h => absurd h (by simp [undefinedHelper])⟩,
    ⟨fun _ => gga_c_revtca_neverRaises, fun h => absurd h (by simp [undefinedHelper])⟩,
    ⟨fun _ => gga_c_scan_e0_neverRaises, fun h => absurd h (by simp [undefinedHelper])⟩,
    ⟨fun _ => gga_c_sg4_neverRaises, fun h => absurd h (by simp [undefinedHelper])⟩⟩

theorem closed_03 : ∀ x ∈ shipped03, (x.name ∉ undefinedHelper → NeverRaises x.fam x.code) ∧ (x.name ∈ undefinedHelper → AlwaysNameError x.fam x.code) := by
  unfold shipped03
  simp only [List.forall_mem_cons, List.not_mem_nil, false_implies, implies_true, and_true]
  exact ⟨⟨fun _ => gga_c_sogga11_neverRaises, fun h => absurd h (by simp [undefinedHelper])⟩,
    ⟨fun _ => gga_c_tca_neverRaises, fun h => absurd h (by simp [undefinedHelper])⟩,
    ⟨fun _ => gga_c_w94_neverRaises, fun h => absurd h (by simp [undefinedHelper])⟩,
    ⟨fun _ => gga_c_wi_neverRaises, fun h => absurd h (by simp [undefinedHelper])⟩,
    ⟨fun _ => gga_c_wl_neverRaises, fun h => absurd h (by simp [undefinedHelper])⟩,
    ⟨fun _ => gga_c_zpbeint_neverRaises, fun h => absurd h (by simp [undefinedHelper])⟩,
    ⟨fun _ => gga_c_zvpbeint_neverRaises, fun h => absurd h (by simp [undefinedHelper])⟩,
    ⟨fun _ => gga_c_zvpbeloc_neverRaises, fun h => absurd h (by simp [undefinedHelper])⟩,
    ⟨fun _ => gga_k_apbe_neverRaises, fun h => absurd h (by simp [undefinedHelper])⟩,
    ⟨fun _ => gga_k_apbeint_neverRaises, fun h => absurd h (by simp [undefinedHelper])⟩,
    ⟨fun _ => gga_k_dk_neverRaises, fun h => absurd h (by simp [undefinedHelper])⟩,
    ⟨fun _ => gga_k_exp4_neverRaises, fun h => absurd h (by simp [undefinedHelper])⟩,
    ⟨fun _ => gga_k_lc94_neverRaises, fun h => absurd h (by simp [undefinedHelper])⟩,
    ⟨fun _ => gga_k_lgap_neverRaises, fun h => absurd h (by simp [undefinedHelper])⟩,
    ⟨fun _ => gga_k_lgap_ge_neverRaises, fun h => absurd h (by simp [undefinedHelper])⟩,
    ⟨fun _ => gga_k_lkt_neverRaises, fun h => absurd h (by simp [undefinedHelper])⟩,
    ⟨fun _ => gga_k_llp_neverRaises, fun h => absurd h (by simp [undefinedHelper])⟩,
    ⟨fun _ => gga_k_meyer_neverRaises, fun h => absurd h (by simp [undefinedHelper])⟩,
    ⟨fun _ => gga_k_mpbe_neverRaises, fun h => absurd h (by simp [undefinedHelper])⟩,
    ⟨fun _ => gga_k_ol1_neverRaises, fun h => absurd h (by simp [undefinedHelper])⟩,
    ⟨fun _ => gga_k_ol2_neverRaises, fun h => absurd h (by simp [undefinedHelper])⟩,
    ⟨fun _ => gga_k_pearson_neverRaises, fun h => absurd h (by simp [undefinedHelper])⟩,
    ⟨fun _ => gga_k_pg_neverRaises, fun h => absurd h (by simp [undefinedHelper])⟩,
    ⟨fun _ => gga_k_pw86_neverRaises, fun h => absurd h (by simp [undefinedHelper])⟩,
    ⟨fun _ => gga_k_rational_p_neverRaises, fun h => absurd h (by simp [undefinedHelper])⟩,
    ⟨fun _ => gga_k_tflw_neverRaises, fun h => absurd h (by simp [undefinedHelper])⟩,
    ⟨fun _ => gga_k_thakkar_neverRaises, fun h => absurd h (by simp [undefinedHelper])⟩⟩

theorem closed_04 : ∀ x ∈ shipped04, (x.name ∉ undefinedHelper → NeverRaises x.fam x.code) ∧ (x.name ∈ undefinedHelper → AlwaysNameError x.fam x.code) := by
  unfold shipped04
  simp only [List.forall_mem_cons, List.not_mem_nil, false_implies, implies_true, and_true]
  exact ⟨⟨fun _ => gga_k_vt84f_neverRaises, fun h => absurd h (by simp [undefinedHelper])⟩,
    ⟨fun _ => gga_x_2d_b86_neverRaises, fun h => absurd h (by simp [undefinedHelper])⟩,
    ⟨fun _ => gga_x_2d_b86_mgc_neverRaises, fun h => absurd h (by simp [undefinedHelper])⟩,
    ⟨fun _ => gga_x_2d_b88_neverRaises, fun h => absurd h (by simp [undefinedHelper])⟩,
    ⟨fun _ => gga_x_2d_pbe_neverRaises, fun h => absurd h (by simp [undefinedHelper])⟩,
    ⟨fun _ => gga_x_airy_neverRaises, fun h => absurd h (by simp [undefinedHelper])⟩,
    ⟨fun _ => gga_x_ak13_neverRaises, fun h => absurd h (by simp [undefinedHelper])⟩,
    ⟨fun _ => gga_x_am05_neverRaises, fun h => absurd h (by simp [undefinedHelper])⟩,
    ⟨fun _ => gga_x_b86_neverRaises, fun h => absurd h (by simp [undefinedHelper])⟩,
    ⟨fun _ => gga_x_b88_neverRaises, fun h => absurd h (by simp [undefinedHelper])⟩,
    ⟨fun _ => gga_x_bayesian_neverRaises, fun h => absurd h (by simp [undefinedHelper])⟩,
    ⟨fun _ => gga_x_beefvdw_neverRaises, fun h => absurd h (by simp [undefinedHelper])⟩,
    ⟨fun _ => gga_x_bpccac_neverRaises, fun h => absurd h (by simp [undefinedHelper])⟩,
    ⟨fun _ => gga_x_c09x_neverRaises, fun h => absurd h (by simp [undefinedHelper])⟩,
    ⟨fun _ => gga_x_cap_neverRaises, fun h => absurd h (by simp [undefinedHelper])⟩,
    ⟨fun _ => gga_x_chachiyo_neverRaises, fun h => absurd h (by simp [undefinedHelper])⟩,
    ⟨fun _ => gga_x_dk87_neverRaises, fun h => absurd h (by simp [undefinedHelper])⟩,
    ⟨fun _ => gga_x_ev93_neverRaises, fun h => absurd h (by simp [undefinedHelper])⟩,
    ⟨fun h => absurd (by simp [undefinedHelper]) h, fun _ => gga_x_fd_lb94_nameError⟩,
    ⟨fun _ => gga_x_ft97_neverRaises, fun h => absurd h (by simp [undefinedHelper])⟩,
    ⟨fun _ => gga_x_g96_neverRaises, fun h => absurd h (by simp [undefinedHelper])⟩,
    ⟨fun h => absurd (by simp [undefinedHelper]) h, fun _ => gga_x_gg99_nameError⟩,
    ⟨fun _ => gga_x_hcth_a_neverRaises, fun h => absurd h (by simp [undefinedHelper])⟩,
    ⟨fun _ => gga_x_herman_neverRaises, fun h => absurd h (by simp [undefinedHelper])⟩,
    ⟨fun _ => gga_x_hjs_neverRaises, fun h => absurd h (by simp [undefinedHelper])⟩⟩

theorem closed_05 : ∀ x ∈ shipped05, (x.name ∉ undefinedHelper → NeverRaises x.fam x.code) ∧ (x.name ∈ undefinedHelper → AlwaysNameError x.fam x.code) := by
  unfold shipped05
  simp only [List.forall_mem_cons, List.not_mem_nil, false_implies, implies_true, and_true]
  exact ⟨⟨fun _ => gga_x_hjs_b88_v2_neverRaises, fun h => absurd h (by simp [undefinedHelper])⟩,
    ⟨fun _ => gga_x_htbs_neverRaises, fun h => absurd h (by simp [undefinedHelper])⟩,
    ⟨fun _ => gga_x_ityh_neverRaises, fun h => absurd h (by simp [undefinedHelper])⟩,
    ⟨fun _ => gga_x_ityh_optx_neverRaises, fun h => absurd h (by simp [undefinedHelper])⟩,
    ⟨fun _ => gga_x_ityh_pbe_neverRaises, fun h => absurd h (by simp [undefinedHelper])⟩,
    ⟨fun _ => gga_x_kt_neverRaises, fun h => absurd h (by simp [undefinedHelper])⟩,
    ⟨fun _ => gga_x_lag_neverRaises, fun h => absurd h (by simp [undefinedHelper])⟩,
    ⟨fun _ => gga_x_lb_neverRaises, fun h => absurd h (by simp [undefinedHelper])⟩,
    ⟨fun _ => gga_x_lg93_neverRaises, fun h => absurd h (by simp [undefinedHelper])⟩,
    ⟨fun _ => gga_x_lspbe_neverRaises, fun h => absurd h (by simp [undefinedHelper])⟩,
    ⟨fun _ => gga_x_lsrpbe_neverRaises, fun h => absurd h (by simp [undefinedHelper])⟩,
    ⟨fun _ => gga_x_lv_rpw86_neverRaises, fun h => absurd h (by simp [undefinedHelper])⟩,
    ⟨fun _ => gga_x_mpbe_neverRaises, fun h => absurd h (by simp [undefinedHelper])⟩,
    ⟨fun _ => gga_x_n12_neverRaises, fun h => absurd h (by simp [undefinedHelper])⟩,
    ⟨fun _ => gga_x_ncap_neverRaises, fun h => absurd h (by simp [undefinedHelper])⟩,
    ⟨fun _ => gga_x_ol2_neverRaises, fun h => absurd h (by simp [undefinedHelper])⟩,
    ⟨fun _ => gga_x_optx_neverRaises, fun h => absurd h (by simp [undefinedHelper])⟩,
    ⟨fun _ => gga_x_pbe_neverRaises, fun h => absurd h (by simp [undefinedHelper])⟩,
    ⟨fun _ => gga_x_pbea_neverRaises, fun h => absurd h (by simp [undefinedHelper])⟩,
    ⟨fun _ => gga_x_pbeint_neverRaises, fun h => absurd h (by simp [undefinedHelper])⟩,
    ⟨fun _ => gga_x_pbepow_neverRaises, fun h => absurd h (by simp [undefinedHelper])⟩⟩

theorem closed_06 : ∀ x ∈ shipped06, (x.name ∉ undefinedHelper → NeverRaises x.fam x.code) ∧ (x.name ∈ undefinedHelper → AlwaysNameError x.fam x.code) := by
  unfold shipped06
  simp only [List.forall_mem_cons, List.not_mem_nil, false_implies, implies_true, and_true]
  exact ⟨⟨fun _ => gga_x_pbetrans_neverRaises, fun h => absurd h (by simp [undefinedHelper])⟩,
    ⟨fun _ => gga_x_pw86_neverRaises, fun h => absurd h (by simp [undefinedHelper])⟩,
    ⟨fun _ => gga_x_pw91_neverRaises, fun h => absurd h (by simp [undefinedHelper])⟩,
    ⟨fun _ => gga_x_q1d_neverRaises, fun h => absurd h (by simp [undefinedHelper])⟩,
    ⟨fun _ => gga_x_q2d_neverRaises, fun h => absurd h (by simp [undefinedHelper])⟩,
    ⟨fun _ => gga_x_rge2_neverRaises, fun h => absurd h (by simp [undefinedHelper])⟩,
    ⟨fun _ => gga_x_rpbe_neverRaises, fun h => absurd h (by simp [undefinedHelper])⟩,
    ⟨fun _ => gga_x_s12_neverRaises, fun h => absurd h (by simp [undefinedHelper])⟩,
    ⟨fun _ => gga_x_sfat_neverRaises, fun h => absurd h (by simp [undefinedHelper])⟩,
    ⟨fun _ => gga_x_sfat_pbe_neverRaises, fun h => absurd h (by simp [undefinedHelper])⟩,
    ⟨fun _ => gga_x_sg4_neverRaises, fun h => absurd h (by simp [undefinedHelper])⟩,
    ⟨fun _ => gga_x_sogga11_neverRaises, fun h => absurd h (by simp [undefinedHelper])⟩,
    ⟨fun _ => gga_x_ssb_sw_neverRaises, fun h => absurd h (by simp [undefinedHelper])⟩,
    ⟨fun _ => gga_x_vmt_neverRaises, fun h => absurd h (by simp [undefinedHelper])⟩,
    ⟨fun _ => gga_x_vmt84_neverRaises, fun h => absurd h (by simp [undefinedHelper])⟩,
    ⟨fun _ => gga_x_wc_neverRaises, fun h => absurd h (by simp [undefinedHelper])⟩,
    ⟨fun _ => gga_x_wpbeh_neverRaises, fun h => absurd h (by simp [undefinedHelper])⟩,
    ⟨fun _ => gga_xc_b97_neverRaises, fun h => absurd h (by simp [undefinedHelper])⟩⟩

theorem closed_07 : ∀ x ∈ shipped07, (x.name ∉ undefinedHelper → NeverRaises x.fam x.code) ∧ (x.name ∈ undefinedHelper → AlwaysNameError x.fam x.code) := by
  unfold shipped07
  simp only [List.forall_mem_cons, List.not_mem_nil, false_implies, implies_true, and_true]
  exact ⟨⟨fun _ => gga_xc_th1_neverRaises, fun h => absurd h (by simp [undefinedHelper])⟩,
    ⟨fun _ => gga_xc_th2_neverRaises, fun h => absurd h (by simp [undefinedHelper])⟩,
    ⟨fun _ => gga_xc_th3_neverRaises, fun h => absurd h (by simp [undefinedHelper])⟩,
    ⟨fun _ => hyb_gga_x_cam_s12_neverRaises, fun h => absurd h (by simp [undefinedHelper])⟩,
    ⟨fun h => absurd (by simp [undefinedHelper]) h, fun _ => hyb_gga_xc_case21_nameError⟩,
    ⟨fun _ => hyb_gga_xc_wb97_neverRaises, fun h => absurd h (by simp [undefinedHelper])⟩,
    ⟨fun _ => hyb_lda_xc_bn05_neverRaises, fun h => absurd h (by simp [undefinedHelper])⟩,
    ⟨fun _ => hyb_mgga_x_dldf_neverRaises, fun h => absurd h (by simp [undefinedHelper])⟩,
    ⟨fun _ => hyb_mgga_x_js18_neverRaises, fun h => absurd h (by simp [undefinedHelper])⟩,
    ⟨fun _ => hyb_mgga_x_m05_neverRaises, fun h => absurd h (by simp [undefinedHelper])⟩⟩

theorem closed_08 : ∀ x ∈ shipped08, (x.name ∉ undefinedHelper → NeverRaises x.fam x.code) ∧ (x.name ∈ undefinedHelper → AlwaysNameError x.fam x.code) := by
  unfold shipped08
  simp only [List.forall_mem_cons, List.not_mem_nil, false_implies, implies_true, and_true]
  exact ⟨⟨fun _ => hyb_mgga_x_pjs18_neverRaises, fun h => absurd h (by simp [undefinedHelper])⟩,
    ⟨fun _ => hyb_mgga_xc_wb97mv_neverRaises, fun h => absurd h (by simp [undefinedHelper])⟩,
    ⟨fun _ => lda_c_1d_csc_neverRaises, fun h => absurd h (by simp [undefinedHelper])⟩,
    ⟨fun _ => lda_c_1d_loos_neverRaises, fun h => absurd h (by simp [undefinedHelper])⟩,
    ⟨fun _ => lda_c_2d_amgb_neverRaises, fun h => absurd h (by simp [undefinedHelper])⟩,
    ⟨fun _ => lda_c_2d_prm_neverRaises, fun h => absurd h (by simp [undefinedHelper])⟩,
    ⟨fun _ => lda_c_chachiyo_neverRaises, fun h => absurd h (by simp [undefinedHelper])⟩,
    ⟨fun _ => lda_c_chachiyo_mod_neverRaises, fun h => absurd h (by simp [undefinedHelper])⟩,
    ⟨fun _ => lda_c_gk72_neverRaises, fun h => absurd h (by simp [undefinedHelper])⟩,
    ⟨fun _ => lda_c_gombas_neverRaises, fun h => absurd h (by simp [undefinedHelper])⟩,
    ⟨fun _ => lda_c_hl_neverRaises, fun h => absurd h (by simp [undefinedHelper])⟩,
    ⟨fun _ => lda_c_lp96_neverRaises, fun h => absurd h (by simp [undefinedHelper])⟩,
    ⟨fun _ => lda_c_ml1_neverRaises, fun h => absurd h (by simp [undefinedHelper])⟩,
    ⟨fun _ => lda_c_pk09_neverRaises, fun h => absurd h (by simp [undefinedHelper])⟩,
    ⟨fun _ => lda_c_pmgb06_neverRaises, fun h => absurd h (by simp [undefinedHelper])⟩,
    ⟨fun _ => lda_c_pw_neverRaises, fun h => absurd h (by simp [undefinedHelper])⟩⟩

theorem closed_09 : ∀ x ∈ shipped09, (x.name ∉ undefinedHelper → NeverRaises x.fam x.code) ∧ (x.name ∈ undefinedHelper → AlwaysNameError x.fam x.code) := by
  unfold shipped09
  simp only [List.forall_mem_cons, List.not_mem_nil, false_implies, implies_true, and_true]
  exact ⟨⟨fun _ => lda_c_pz_neverRaises, fun h => absurd h (by simp [undefinedHelper])⟩,
    ⟨fun _ => lda_c_rc04_neverRaises, fun h => absurd h (by simp [undefinedHelper])⟩,
    ⟨fun _ => lda_c_rpa_neverRaises, fun h => absurd h (by simp [undefinedHelper])⟩,
    ⟨fun _ => lda_c_vwn_neverRaises, fun h => absurd h (by simp [undefinedHelper])⟩,
    ⟨fun _ => lda_c_vwn_1_neverRaises, fun h => absurd h (by simp [undefinedHelper])⟩,
    ⟨fun _ => lda_c_vwn_2_neverRaises, fun h => absurd h (by simp [undefinedHelper])⟩,
    ⟨fun _ => lda_c_vwn_3_neverRaises, fun h => absurd h (by simp [undefinedHelper])⟩,
    ⟨fun _ => lda_c_vwn_4_neverRaises, fun h => absurd h (by simp [undefinedHelper])⟩,
    ⟨fun _ => lda_c_vwn_rpa_neverRaises, fun h => absurd h (by simp [undefinedHelper])⟩,
    ⟨fun _ => lda_c_w20_neverRaises, fun h => absurd h (by simp [undefinedHelper])⟩,
    ⟨fun _ => lda_c_wigner_neverRaises, fun h => absurd h (by simp [undefinedHelper])⟩,
    ⟨fun _ => lda_k_gds08_worker_neverRaises, fun h => absurd h (by simp [undefinedHelper])⟩,
    ⟨fun _ => lda_k_tf_neverRaises, fun h => absurd h (by simp [undefinedHelper])⟩,
    ⟨fun _ => lda_k_zlp_neverRaises, fun h => absurd h (by simp [undefinedHelper])⟩,
    ⟨fun _ => lda_x_neverRaises, fun h => absurd h (by simp [undefinedHelper])⟩,
    ⟨fun h => absurd (by simp [undefinedHelper]) h, fun _ => lda_x_1d_exponential_nameError⟩,
    ⟨fun h => absurd (by simp [undefinedHelper]) h, fun _ => lda_x_1d_soft_nameError⟩,
    ⟨fun _ => lda_x_2d_neverRaises, fun h => absurd h (by simp [undefinedHelper])⟩,
    ⟨fun _ => lda_x_erf_neverRaises, fun h => absurd h (by simp [undefinedHelper])⟩,
    ⟨fun _ => lda_x_rel_neverRaises, fun h => absurd h (by simp [undefinedHelper])⟩,
    ⟨fun _ => lda_x_sloc_neverRaises, fun h => absurd h (by simp [undefinedHelper])⟩,
    ⟨fun _ => lda_x_yukawa_neverRaises, fun h => absurd h (by simp [undefinedHelper])⟩,
    ⟨fun _ => lda_xc_1d_ehwlrg_neverRaises, fun h => absurd h (by simp [undefinedHelper])⟩,
    ⟨fun _ => lda_xc_ksdt_neverRaises, fun h => absurd h (by simp [undefinedHelper])⟩,
    ⟨fun _ => lda_xc_teter93_neverRaises, fun h => absurd h (by simp [undefinedHelper])⟩,
    ⟨fun _ => lda_xc_tih_neverRaises, fun h => absurd h (by simp [undefinedHelper])⟩,
    ⟨fun _ => lda_xc_zlp_neverRaises, fun h => absurd h (by simp [undefinedHelper])⟩,
    ⟨fun _ => mgga_c_b88_neverRaises, fun h => absurd h (by simp [undefinedHelper])⟩,
    ⟨fun h => absurd (by simp [undefinedHelper]) h, fun _ => mgga_c_b94_nameError⟩,
    ⟨fun _ => mgga_c_bc95_neverRaises, fun h => absurd h (by simp [undefinedHelper])⟩⟩

theorem closed_10 : ∀ x ∈ shipped10, (x.name ∉ undefinedHelper → NeverRaises x.fam x.code) ∧ (x.name ∈ undefinedHelper → AlwaysNameError x.fam x.code) := by
  unfold shipped10
  simp only [List.forall_mem_cons, List.not_mem_nil, false_implies, implies_true, and_true]
  exact ⟨⟨fun _ => mgga_c_cc_neverRaises, fun h => absurd h (by simp [undefinedHelper])⟩,
    ⟨fun _ => mgga_c_ccalda_neverRaises, fun h => absurd h (by simp [undefinedHelper])⟩,
    ⟨fun _ => mgga_c_cs_neverRaises, fun h => absurd h (by simp [undefinedHelper])⟩,
    ⟨fun _ => mgga_c_kcis_neverRaises, fun h => absurd h (by simp [undefinedHelper])⟩,
    ⟨fun _ => mgga_c_kcisk_neverRaises, fun h => absurd h (by simp [undefinedHelper])⟩,
    ⟨fun _ => mgga_c_ltapw_neverRaises, fun h => absurd h (by simp [undefinedHelper])⟩,
    ⟨fun _ => mgga_c_m05_neverRaises, fun h => absurd h (by simp [undefinedHelper])⟩,
    ⟨fun _ => mgga_c_m06l_neverRaises, fun h => absurd h (by simp [undefinedHelper])⟩,
    ⟨fun _ => mgga_c_m08_neverRaises, fun h => absurd h (by simp [undefinedHelper])⟩⟩

theorem closed_11 : ∀ x ∈ shipped11, (x.name ∉ undefinedHelper → NeverRaises x.fam x.code) ∧ (x.name ∈ undefinedHelper → AlwaysNameError x.fam x.code) := by
  unfold shipped11
  simp only [List.forall_mem_cons, List.not_mem_nil, false_implies, implies_true, and_true]
  exact ⟨⟨fun _ => mgga_c_pkzb_neverRaises, fun h => absurd h (by simp [undefinedHelper])⟩,
    ⟨fun _ => mgga_c_r2scan_neverRaises, fun h => absurd h (by simp [undefinedHelper])⟩,
    ⟨fun _ => mgga_c_revscan_neverRaises, fun h => absurd h (by simp [undefinedHelper])⟩,
    ⟨fun _ => mgga_c_revtpss_neverRaises, fun h => absurd h (by simp [undefinedHelper])⟩,
    ⟨fun _ => mgga_c_rmggac_neverRaises, fun h => absurd h (by simp [undefinedHelper])⟩,
    ⟨fun _ => mgga_c_rppscan_neverRaises, fun h => absurd h (by simp [undefinedHelper])⟩,
    ⟨fun _ => mgga_c_rregtm_neverRaises, fun h => absurd h (by simp [undefinedHelper])⟩,
    ⟨fun _ => mgga_c_rscan_neverRaises, fun h => absurd h (by simp [undefinedHelper])⟩⟩

theorem closed_12 : ∀ x ∈ shipped12, (x.name ∉ undefinedHelper → NeverRaises x.fam x.code) ∧ (x.name ∈ undefinedHelper → AlwaysNameError x.fam x.code) := by
  unfold shipped12
  simp only [List.forall_mem_cons, List.not_mem_nil, false_implies, implies_true, and_true]
  exact ⟨⟨fun _ => mgga_c_scan_neverRaises, fun h => absurd h (by simp [undefinedHelper])⟩,
    ⟨fun _ => mgga_c_tpss_neverRaises, fun h => absurd h (by simp [undefinedHelper])⟩,
    ⟨fun _ => mgga_c_tpssloc_neverRaises, fun h => absurd h (by simp [undefinedHelper])⟩,
    ⟨fun _ => mgga_c_vsxc_neverRaises, fun h => absurd h (by simp [undefinedHelper])⟩,
    ⟨fun _ => mgga_k_csk_neverRaises, fun h => absurd h (by simp [undefinedHelper])⟩,
    ⟨fun _ => mgga_k_csk_loc_neverRaises, fun h => absurd h (by simp [undefinedHelper])⟩,
    ⟨fun _ => mgga_k_gea2_neverRaises, fun h => absurd h (by simp [undefinedHelper])⟩,
    ⟨fun _ => mgga_k_gea4_neverRaises, fun h => absurd h (by simp [undefinedHelper])⟩,
    ⟨fun _ => mgga_k_lk_neverRaises, fun h => absurd h (by simp [undefinedHelper])⟩,
    ⟨fun _ => mgga_k_pc07_neverRaises, fun h => absurd h (by simp [undefinedHelper])⟩⟩

theorem closed_13 : ∀ x ∈ shipped13, (x.name ∉ undefinedHelper → NeverRaises x.fam x.code) ∧ (x.name ∈ undefinedHelper → AlwaysNameError x.fam x.code) := by
  unfold shipped13
  simp only [List.forall_mem_cons, List.not_mem_nil, false_implies, implies_true, and_true]
  exact ⟨⟨fun _ => mgga_k_pgslb_neverRaises, fun h => absurd h (by simp [undefinedHelper])⟩,
    ⟨fun _ => mgga_k_rda_neverRaises, fun h => absurd h (by simp [undefinedHelper])⟩,
    ⟨fun _ => mgga_x_2d_js17_neverRaises, fun h => absurd h (by simp [undefinedHelper])⟩,
    ⟨fun _ => mgga_x_2d_prhg07_neverRaises, fun h => absurd h (by simp [undefinedHelper])⟩,
    ⟨fun _ => mgga_x_2d_prp10_neverRaises, fun h => absurd h (by simp [undefinedHelper])⟩,
    ⟨fun h => absurd (by simp [undefinedHelper]) h, fun _ => mgga_x_br89_nameError⟩,
    ⟨fun _ => mgga_x_br89_explicit_neverRaises, fun h => absurd h (by simp [undefinedHelper])⟩,
    ⟨fun _ => mgga_x_edmgga_neverRaises, fun h => absurd h (by simp [undefinedHelper])⟩,
    ⟨fun _ => mgga_x_ft98_neverRaises, fun h => absurd h (by simp [undefinedHelper])⟩,
    ⟨fun _ => mgga_x_gdme_neverRaises, fun h => absurd h (by simp [undefinedHelper])⟩,
    ⟨fun _ => mgga_x_gvt4_neverRaises, fun h => absurd h (by simp [undefinedHelper])⟩,
    ⟨fun _ => mgga_x_gx_neverRaises, fun h => absurd h (by simp [undefinedHelper])⟩,
    ⟨fun _ => mgga_x_jk_neverRaises, fun h => absurd h (by simp [undefinedHelper])⟩,
    ⟨fun _ => mgga_x_lta_neverRaises, fun h => absurd h (by simp [undefinedHelper])⟩,
    ⟨fun _ => mgga_x_m06l_neverRaises, fun h => absurd h (by simp [undefinedHelper])⟩,
    ⟨fun _ => mgga_x_m08_neverRaises, fun h => absurd h (by simp [undefinedHelper])⟩,
    ⟨fun _ => mgga_x_m11_neverRaises, fun h => absurd h (by simp [undefinedHelper])⟩,
    ⟨fun _ => mgga_x_m11_l_neverRaises, fun h => absurd h (by simp [undefinedHelper])⟩⟩

theorem closed_14 : ∀ x ∈ shipped14, (x.name ∉ undefinedHelper → NeverRaises x.fam x.code) ∧ (x.name ∈ undefinedHelper → AlwaysNameError x.fam x.code) := by
  unfold shipped14
  simp only [List.forall_mem_cons, List.not_mem_nil, false_implies, implies_true, and_true]
  exact ⟨⟨fun _ => mgga_x_mbeef_neverRaises, fun h => absurd h (by simp [undefinedHelper])⟩,
    ⟨fun _ => mgga_x_mbeefvdw_neverRaises, fun h => absurd h (by simp [undefinedHelper])⟩,
    ⟨fun h => absurd (by simp [undefinedHelper]) h, fun _ => mgga_x_mbr_nameError⟩,
    ⟨fun h => absurd (by simp [undefinedHelper]) h, fun _ => mgga_x_mbrxc_bg_nameError⟩,
    ⟨fun h => absurd (by simp [undefinedHelper]) h, fun _ => mgga_x_mbrxh_bg_nameError⟩,
    ⟨fun _ => mgga_x_mcml_neverRaises, fun h => absurd h (by simp [undefinedHelper])⟩,
    ⟨fun h => absurd (by simp [undefinedHelper]) h, fun _ => mgga_x_mggac_nameError⟩,
    ⟨fun _ => mgga_x_mn12_neverRaises, fun h => absurd h (by simp [undefinedHelper])⟩,
    ⟨fun _ => mgga_x_ms_neverRaises, fun h => absurd h (by simp [undefinedHelper])⟩,
    ⟨fun _ => mgga_x_msb_neverRaises, fun h => absurd h (by simp [undefinedHelper])⟩,
    ⟨fun _ => mgga_x_mvs_neverRaises, fun h => absurd h (by simp [undefinedHelper])⟩⟩

theorem closed_15 : ∀ x ∈ shipped15, (x.name ∉ undefinedHelper → NeverRaises x.fam x.code) ∧ (x.name ∈ undefinedHelper → AlwaysNameError x.fam x.code) := by
  unfold shipped15
  simp only [List.forall_mem_cons, List.not_mem_nil, false_implies, implies_true, and_true]
  exact ⟨⟨fun _ => mgga_x_mvsb_neverRaises, fun h => absurd h (by simp [undefinedHelper])⟩,
    ⟨fun _ => mgga_x_pbe_gx_neverRaises, fun h => absurd h (by simp [undefinedHelper])⟩,
    ⟨fun _ => mgga_x_pkzb_neverRaises, fun h => absurd h (by simp [undefinedHelper])⟩,
    ⟨fun _ => mgga_x_r2scan_neverRaises, fun h => absurd h (by simp [undefinedHelper])⟩,
    ⟨fun _ => mgga_x_r4scan_neverRaises, fun h => absurd h (by simp [undefinedHelper])⟩,
    ⟨fun _ => mgga_x_regtm_neverRaises, fun h => absurd h (by simp [undefinedHelper])⟩,
    ⟨fun _ => mgga_x_regtpss_neverRaises, fun h => absurd h (by simp [undefinedHelper])⟩,
    ⟨fun _ => mgga_x_revtm_neverRaises, fun h => absurd h (by simp [undefinedHelper])⟩,
    ⟨fun _ => mgga_x_rlda_neverRaises, fun h => absurd h (by simp [undefinedHelper])⟩,
    ⟨fun _ => mgga_x_rppscan_neverRaises, fun h => absurd h (by simp [undefinedHelper])⟩,
    ⟨fun _ => mgga_x_rscan_neverRaises, fun h => absurd h (by simp [undefinedHelper])⟩,
    ⟨fun _ => mgga_x_rtpss_neverRaises, fun h => absurd h (by simp [undefinedHelper])⟩,
    ⟨fun _ => mgga_x_sa_tpss_neverRaises, fun h => absurd h (by simp [undefinedHelper])⟩,
    ⟨fun _ => mgga_x_scan_neverRaises, fun h => absurd h (by simp [undefinedHelper])⟩,
    ⟨fun _ => mgga_x_task_neverRaises, fun h => absurd h (by simp [undefinedHelper])⟩⟩

theorem closed_16 : ∀ x ∈ shipped16, (x.name ∉ undefinedHelper → NeverRaises x.fam x.code) ∧ (x.name ∈ undefinedHelper → AlwaysNameError x.fam x.code) := by
  unfold shipped16
  simp only [List.forall_mem_cons, List.not_mem_nil, false_implies, implies_true, and_true]
  exact ⟨⟨fun _ => mgga_x_tau_hcth_neverRaises, fun h => absurd h (by simp [undefinedHelper])⟩,
    ⟨fun h => absurd (by simp [undefinedHelper]) h, fun _ => mgga_x_tb09_nameError⟩,
    ⟨fun _ => mgga_x_th_neverRaises, fun h => absurd h (by simp [undefinedHelper])⟩,
    ⟨fun _ => mgga_x_tm_neverRaises, fun h => absurd h (by simp [undefinedHelper])⟩,
    ⟨fun _ => mgga_x_tpss_neverRaises, fun h => absurd h (by simp [undefinedHelper])⟩,
    ⟨fun _ => mgga_x_vcml_neverRaises, fun h => absurd h (by simp [undefinedHelper])⟩,
    ⟨fun _ => mgga_x_vt84_neverRaises, fun h => absurd h (by simp [undefinedHelper])⟩,
    ⟨fun _ => mgga_xc_b97mv_neverRaises, fun h => absurd h (by simp [undefinedHelper])⟩,
    ⟨fun _ => mgga_xc_b98_neverRaises, fun h => absurd h (by simp [undefinedHelper])⟩,
    ⟨fun _ => mgga_xc_cc06_neverRaises, fun h => absurd h (by simp [undefinedHelper])⟩,
    ⟨fun _ => mgga_xc_lp90_neverRaises, fun h => absurd h (by simp [undefinedHelper])⟩,
    ⟨fun _ => mgga_xc_zlp_neverRaises, fun h => absurd h (by simp [undefinedHelper])⟩⟩

/-- C35. Every shipped formula runs without raising, for all inputs of its family, except that those in `undefinedHelper` raise `NameError` for all inputs. -/
theorem closed_shipped : ∀ x ∈ shipped, (x.name ∉ undefinedHelper → NeverRaises x.fam x.code) ∧ (x.name ∈ undefinedHelper → AlwaysNameError x.fam x.code) := by
  intro x hx
  simp only [shipped, List.mem_append] at hx
  rcases hx with (((((((((((((((h | h) | h) | h) | h) | h) | h) | h) | h) | h) | h) | h) | h) | h) | h) | h)
  · exact closed_01 x h
  · exact closed_02 x h
  · exact closed_03 x h
  · exact closed_04 x h
  · exact closed_05 x h
  · exact closed_06 x h
  · exact closed_07 x h
  · exact closed_08 x h
  · exact closed_09 x h
  · exact closed_10 x h
  · exact closed_11 x h
  · exact closed_12 x h
  · exact closed_13 x h
  · exact closed_14 x h
  · exact closed_15 x h
  · exact closed_16 x h

theorem exchange_ignoresCross_01 : ∀ x ∈ shipped01, isExchange x.name = true → IgnoresCross x.fam x.code := by
  unfold shipped01
  simp only [List.forall_mem_cons, List.not_mem_nil, false_implies, implies_true, and_true]
  exact ⟨fun h => absurd h (by decide +kernel),
    fun h => absurd h (by decide +kernel),
    fun h => absurd h (by decide +kernel),
    fun h => absurd h (by decide +kernel),
    fun h => absurd h (by decide +kernel),
    fun h => absurd h (by decide +kernel),
    fun h => absurd h (by decide +kernel),
    fun h => absurd h (by decide +kernel),
    fun h => absurd h (by decide +kernel),
    fun h => absurd h (by decide +kernel),
    fun h => absurd h (by decide +kernel),
    fun h => absurd h (by decide +kernel),
    fun h => absurd h (by decide +kernel),
    fun h => absurd h (by decide +kernel),
    fun h => absurd h (by decide +kernel)⟩

theorem exchange_ignoresCross_02 : ∀ x ∈ shipped02, isExchange x.name = true → IgnoresCross x.fam x.code := by
  unfold shipped02
  simp only [List.forall_mem_cons, List.not_mem_nil, false_implies, implies_true, and_true]
  exact ⟨fun h => absurd h (by decide +kernel),
    fun h => absurd h (by decide +kernel),
    fun h => absurd h (by decide +kernel),
    fun h => absurd h (by decide +kernel),
    fun h => absurd h (by decide +kernel),
    fun h => absurd h (by decide +kernel),
    fun h => absurd h (by decide +kernel),
    fun h => absurd h (by decide +kernel),
    fun h => absurd h (by decide +kernel),
    fun h => absurd h (by decide +kernel),
    fun h => absurd h (by decide +kernel),
    fun h => absurd h (by decide +kernel),
    fun h => absurd h (by decide +kernel),
    fun h => absurd h (by decide +kernel),
    fun h => absurd h (by decide +kernel),
    fun h => absurd h (by decide +kernel)⟩

theorem exchange_ignoresCross_03 : ∀ x ∈ shipped03, isExchange x.name = true → IgnoresCross x.fam x.code := by
  unfold shipped03
  simp only [List.forall_mem_cons, List.not_mem_nil, false_implies, implies_true, and_true]
  exact ⟨fun h => absurd h (by decide +kernel),
    fun h => absurd h (by decide +kernel),
    fun h => absurd h (by decide +kernel),
    fun h => absurd h (by decide +kernel),
    fun h => absurd h (by decide +kernel),
    fun h => absurd h (by decide +kernel),
    fun h => absurd h (by decide +kernel),
    fun h => absurd h (by decide +kernel),
    fun _ => gga_k_apbe_ignoresCross,
    fun _ => gga_k_apbeint_ignoresCross,
    fun _ => gga_k_dk_ignoresCross,
    fun _ => gga_k_exp4_ignoresCross,
    fun _ => gga_k_lc94_ignoresCross,
    fun _ => gga_k_lgap_ignoresCross,
    fun _ => gga_k_lgap_ge_ignoresCross,
    fun _ => gga_k_lkt_ignoresCross,
    fun _ => gga_k_llp_ignoresCross,
    fun _ => gga_k_meyer_ignoresCross,
    fun _ => gga_k_mpbe_ignoresCross,
    fun _ => gga_k_ol1_ignoresCross,
    fun _ => gga_k_ol2_ignoresCross,
    fun _ => gga_k_pearson_ignoresCross,
    fun _ => gga_k_pg_ignoresCross,
    fun _ => gga_k_pw86_ignoresCross,
    fun _ => gga_k_rational_p_ignoresCross,
    fun _ => gga_k_tflw_ignoresCross,
    fun _ => gga_k_thakkar_ignoresCross⟩

theorem exchange_ignoresCross_04 : ∀ x ∈ shipped04, isExchange x.name = true → IgnoresCross x.fam x.code := by
  unfold shipped04
  simp only [List.forall_mem_cons, List.not_mem_nil, false_implies, implies_true, and_true]
  exact ⟨fun _ => gga_k_vt84f_ignoresCross,
    fun _ => gga_x_2d_b86_ignoresCross,
    fun _ => gga_x_2d_b86_mgc_ignoresCross,
    fun _ => gga_x_2d_b88_ignoresCross,
    fun _ => gga_x_2d_pbe_ignoresCross,
    fun _ => gga_x_airy_ignoresCross,
    fun _ => gga_x_ak13_ignoresCross,
    fun _ => gga_x_am05_ignoresCross,
    fun _ => gga_x_b86_ignoresCross,
    fun _ => gga_x_b88_ignoresCross,
    fun _ => gga_x_bayesian_ignoresCross,
    fun _ => gga_x_beefvdw_ignoresCross,
    fun _ => gga_x_bpccac_ignoresCross,
    fun _ => gga_x_c09x_ignoresCross,
    fun _ => gga_x_cap_ignoresCross,
    fun _ => gga_x_chachiyo_ignoresCross,
    fun _ => gga_x_dk87_ignoresCross,
    fun _ => gga_x_ev93_ignoresCross,
    fun _ => gga_x_fd_lb94_ignoresCross,
    fun _ => gga_x_ft97_ignoresCross,
    fun _ => gga_x_g96_ignoresCross,
    fun _ => gga_x_gg99_ignoresCross,
    fun _ => gga_x_hcth_a_ignoresCross,
    fun _ => gga_x_herman_ignoresCross,
    fun _ => gga_x_hjs_ignoresCross⟩

theorem exchange_ignoresCross_05 : ∀ x ∈ shipped05, isExchange x.name = true → IgnoresCross x.fam x.code := by
  unfold shipped05
  simp only [List.forall_mem_cons, List.not_mem_nil, false_implies, implies_true, and_true]
  exact ⟨fun _ => gga_x_hjs_b88_v2_ignoresCross,
    fun _ => gga_x_htbs_ignoresCross,
    fun _ => gga_x_ityh_ignoresCross,
    fun _ => gga_x_ityh_optx_ignoresCross,
    fun _ => gga_x_ityh_pbe_ignoresCross,
    fun _ => gga_x_kt_ignoresCross,
    fun _ => gga_x_lag_ignoresCross,
    fun _ => gga_x_lb_ignoresCross,
    fun _ => gga_x_lg93_ignoresCross,
    fun _ => gga_x_lspbe_ignoresCross,
    fun _ => gga_x_lsrpbe_ignoresCross,
    fun _ => gga_x_lv_rpw86_ignoresCross,
    fun _ => gga_x_mpbe_ignoresCross,
    fun _ => gga_x_n12_ignoresCross,
    fun _ => gga_x_ncap_ignoresCross,
    fun _ => gga_x_ol2_ignoresCross,
    fun _ => gga_x_optx_ignoresCross,
    fun _ => gga_x_pbe_ignoresCross,
    fun _ => gga_x_pbea_ignoresCross,
    fun _ => gga_x_pbeint_ignoresCross,
    fun _ => gga_x_pbepow_ignoresCross⟩

theorem exchange_ignoresCross_06 : ∀ x ∈ shipped06, isExchange x.name = true → IgnoresCross x.fam x.code := by
  unfold shipped06
  simp only [List.forall_mem_cons, List.not_mem_nil, false_implies, implies_true, and_true]
  exact ⟨fun _ => gga_x_pbetrans_ignoresCross,
    fun _ => gga_x_pw86_ignoresCross,
    fun _ => gga_x_pw91_ignoresCross,
    fun _ => gga_x_q1d_ignoresCross,
    fun _ => gga_x_q2d_ignoresCross,
    fun _ => gga_x_rge2_ignoresCross,
    fun _ => gga_x_rpbe_ignoresCross,
    fun _ => gga_x_s12_ignoresCross,
    fun _ => gga_x_sfat_ignoresCross,
    fun _ => gga_x_sfat_pbe_ignoresCross,
    fun _ => gga_x_sg4_ignoresCross,
    fun _ => gga_x_sogga11_ignoresCross,
    fun _ => gga_x_ssb_sw_ignoresCross,
    fun _ => gga_x_vmt_ignoresCross,
    fun _ => gga_x_vmt84_ignoresCross,
    fun _ => gga_x_wc_ignoresCross,
    fun _ => gga_x_wpbeh_ignoresCross,
    fun h => absurd h (by decide +kernel)⟩

theorem exchange_ignoresCross_07 : ∀ x ∈ shipped07, isExchange x.name = true → IgnoresCross x.fam x.code := by
  unfold shipped07
  simp only [List.forall_mem_cons, List.not_mem_nil, false_implies, implies_true, and_true]
  exact ⟨fun h => absurd h (by decide +kernel),
    fun h => absurd h (by decide +kernel),
    fun h => absurd h (by decide +kernel),
    fun _ => hyb_gga_x_cam_s12_ignoresCross,
    fun h => absurd h (by decide +kernel),
    fun h => absurd h (by decide +kernel),
    fun h => absurd h (by decide +kernel),
    fun _ => hyb_mgga_x_dldf_ignoresCross,
    fun _ => hyb_mgga_x_js18_ignoresCross,
    fun _ => hyb_mgga_x_m05_ignoresCross⟩

theorem exchange_ignoresCross_08 : ∀ x ∈ shipped08, isExchange x.name = true → IgnoresCross x.fam x.code := by
  unfold shipped08
  simp only [List.forall_mem_cons, List.not_mem_nil, false_implies, implies_true, and_true]
  exact ⟨fun _ => hyb_mgga_x_pjs18_ignoresCross,
    fun h => absurd h (by decide +kernel),
    fun h => absurd h (by decide +kernel),
    fun h => absurd h (by decide +kernel),
    fun h => absurd h (by decide +kernel),
    fun h => absurd h (by decide +kernel),
    fun h => absurd h (by decide +kernel),
    fun h => absurd h (by decide +kernel),
    fun h => absurd h (by decide +kernel),
    fun h => absurd h (by decide +kernel),
    fun h => absurd h (by decide +kernel),
    fun h => absurd h (by decide +kernel),
    fun h => absurd h (by decide +kernel),
    fun h => absurd h (by decide +kernel),
    fun h => absurd h (by decide +kernel),
    fun h => absurd h (by decide +kernel)⟩

theorem exchange_ignoresCross_09 : ∀ x ∈ shipped09, isExchange x.name = true → IgnoresCross x.fam x.code := by
  unfold shipped09
  simp only [List.forall_mem_cons, List.not_mem_nil, false_implies, implies_true, and_true]
  exact ⟨fun h => absurd h (by decide +kernel),
    fun h => absurd h (by decide +kernel),
    fun h => absurd h (by decide +kernel),
    fun h => absurd h (by decide +kernel),
    fun h => absurd h (by decide +kernel),
    fun h => absurd h (by decide +kernel),
    fun h => absurd h (by decide +kernel),
    fun h => absurd h (by decide +kernel),
    fun h => absurd h (by decide +kernel),
    fun h => absurd h (by decide +kernel),
    fun h => absurd h (by decide +kernel),
    fun _ => lda_k_gds08_worker_ignoresCross,
    fun _ => lda_k_tf_ignoresCross,
    fun _ => lda_k_zlp_ignoresCross,
    fun _ => lda_x_ignoresCross,
    fun _ => lda_x_1d_exponential_ignoresCross,
    fun _ => lda_x_1d_soft_ignoresCross,
    fun _ => lda_x_2d_ignoresCross,
    fun _ => lda_x_erf_ignoresCross,
    fun _ => lda_x_rel_ignoresCross,
    fun _ => lda_x_sloc_ignoresCross,
    fun _ => lda_x_yukawa_ignoresCross,
    fun h => absurd h (by decide +kernel),
    fun h => absurd h (by decide +kernel),
    fun h => absurd h (by decide +kernel),
    fun h => absurd h (by decide +kernel),
    fun h => absurd h (by decide +kernel),
    fun h => absurd h (by decide +kernel),
    fun h => absurd h (by decide +kernel),
    fun h => absurd h (by decide +kernel)⟩

theorem exchange_ignoresCross_10 : ∀ x ∈ shipped10, isExchange x.name = true → IgnoresCross x.fam x.code := by
  unfold shipped10
  simp only [List.forall_mem_cons, List.not_mem_nil, false_implies, implies_true, and_true]
  exact ⟨fun h => absurd h (by decide +kernel),
    fun h => absurd h (by decide +kernel),
    fun h => absurd h (by decide +kernel),
    fun h => absurd h (by decide +kernel),
    fun h => absurd h (by decide +kernel),
    fun h => absurd h (by decide +kernel),
    fun h => absurd h (by decide +kernel),
    fun h => absurd h (by decide +kernel),
    fun h => absurd h (by decide +kernel)⟩

theorem exchange_ignoresCross_11 : ∀ x ∈ shipped11, isExchange x.name = true → IgnoresCross x.fam x.code := by
  unfold shipped11
  simp only [List.forall_mem_cons, List.not_mem_nil, false_implies, implies_true, and_true]
  exact ⟨fun h => absurd h (by decide +kernel),
    fun h => absurd h (by decide +kernel),
    fun h => absurd h (by decide +kernel),
    fun h => absurd h (by decide +kernel),
    fun h => absurd h (by decide +kernel),
    fun h => absurd h (by decide +kernel),
    fun h => absurd h (by decide +kernel),
    fun h => absurd h (by decide +kernel)⟩

theorem exchange_ignoresCross_12 : ∀ x ∈ shipped12, isExchange x.name = true → IgnoresCross x.fam x.code := by
  unfold shipped12
  simp only [List.forall_mem_cons, List.not_mem_nil, false_implies, implies_true, and_true]
  exact ⟨fun h => absurd h (by decide +kernel),
    fun h => absurd h (by decide +kernel),
    fun h => absurd h (by decide +kernel),
    fun h => absurd h (by decide +kernel),
    fun _ => mgga_k_csk_ignoresCross,
    fun _ => mgga_k_csk_loc_ignoresCross,
    fun _ => mgga_k_gea2_ignoresCross,
    fun _ => mgga_k_gea4_ignoresCross,
    fun _ => mgga_k_lk_ignoresCross,
    fun _ => mgga_k_pc07_ignoresCross⟩

theorem exchange_ignoresCross_13 : ∀ x ∈ shipped13, isExchange x.name = true → IgnoresCross x.fam x.code := by
  unfold shipped13
  simp only [List.forall_mem_cons, List.not_mem_nil, false_implies, implies_true, and_true]
  exact ⟨fun _ => mgga_k_pgslb_ignoresCross,
    fun _ => mgga_k_rda_ignoresCross,
    fun _ => mgga_x_2d_js17_ignoresCross,
    fun _ => mgga_x_2d_prhg07_ignoresCross,
    fun _ => mgga_x_2d_prp10_ignoresCross,
    fun _ => mgga_x_br89_ignoresCross,
    fun _ => mgga_x_br89_explicit_ignoresCross,
    fun _ => mgga_x_edmgga_ignoresCross,
    fun _ => mgga_x_ft98_ignoresCross,
    fun _ => mgga_x_gdme_ignoresCross,
    fun _ => mgga_x_gvt4_ignoresCross,
    fun _ => mgga_x_gx_ignoresCross,
    fun _ => mgga_x_jk_ignoresCross,
    fun _ => mgga_x_lta_ignoresCross,
    fun _ => mgga_x_m06l_ignoresCross,
    fun _ => mgga_x_m08_ignoresCross,
    fun _ => mgga_x_m11_ignoresCross,
    fun _ => mgga_x_m11_l_ignoresCross⟩

theorem exchange_ignoresCross_14 : ∀ x ∈ shipped14, isExchange x.name = true → IgnoresCross x.fam x.code := by
  unfold shipped14
  simp only [List.forall_mem_cons, List.not_mem_nil, false_implies, implies_true, and_true]
  exact ⟨fun _ => mgga_x_mbeef_ignoresCross,
    fun _ => mgga_x_mbeefvdw_ignoresCross,
    fun _ => mgga_x_mbr_ignoresCross,
    fun _ => mgga_x_mbrxc_bg_ignoresCross,
    fun _ => mgga_x_mbrxh_bg_ignoresCross,
    fun _ => mgga_x_mcml_ignoresCross,
    fun _ => mgga_x_mggac_ignoresCross,
    fun _ => mgga_x_mn12_ignoresCross,
    fun _ => mgga_x_ms_ignoresCross,
    fun _ => mgga_x_msb_ignoresCross,
    fun _ => mgga_x_mvs_ignoresCross⟩

theorem exchange_ignoresCross_15 : ∀ x ∈ shipped15, isExchange x.name = true → IgnoresCross x.fam x.code := by
  unfold shipped15
  simp only [List.forall_mem_cons, List.not_mem_nil, false_implies, implies_true, and_true]
  exact ⟨fun _ => mgga_x_mvsb_ignoresCross,
    fun _ => mgga_x_pbe_gx_ignoresCross,
    fun _ => mgga_x_pkzb_ignoresCross,
    fun _ => mgga_x_r2scan_ignoresCross,
    fun _ => mgga_x_r4scan_ignoresCross,
    fun _ => mgga_x_regtm_ignoresCross,
    fun _ => mgga_x_regtpss_ignoresCross,
    fun _ => mgga_x_revtm_ignoresCross,
    fun _ => mgga_x_rlda_ignoresCross,
    fun _ => mgga_x_rppscan_ignoresCross,
    fun _ => mgga_x_rscan_ignoresCross,
    fun _ => mgga_x_rtpss_ignoresCross,
    fun _ => mgga_x_sa_tpss_ignoresCross,
    fun _ => mgga_x_scan_ignoresCross,
    fun _ => mgga_x_task_ignoresCross⟩

theorem exchange_ignoresCross_16 : ∀ x ∈ shipped16, isExchange x.name = true → IgnoresCross x.fam x.code := by
  unfold shipped16
  simp only [List.forall_mem_cons, List.not_mem_nil, false_implies, implies_true, and_true]
  exact ⟨fun _ => mgga_x_tau_hcth_ignoresCross,
    fun _ => mgga_x_tb09_ignoresCross,
    fun _ => mgga_x_th_ignoresCross,
    fun _ => mgga_x_tm_ignoresCross,
    fun _ => mgga_x_tpss_ignoresCross,
    fun _ => mgga_x_vcml_ignoresCross,
    fun _ => mgga_x_vt84_ignoresCross,
    fun h => absurd h (by decide +kernel),
    fun h => absurd h (by decide +kernel),
    fun h => absurd h (by decide +kernel),
    fun h => absurd h (by decide +kernel),
    fun h => absurd h (by decide +kernel)⟩

/-- C36. Exchange (and kinetic) formulas do not depend on the cross gradient. -/
theorem exchange_ignoresCross_shipped : ∀ x ∈ shipped, isExchange x.name = true → IgnoresCross x.fam x.code := by
  intro x hx
  simp only [shipped, List.mem_append] at hx
  rcases hx with (((((((((((((((h | h) | h) | h) | h) | h) | h) | h) | h) | h) | h) | h) | h) | h) | h) | h)
  · exact exchange_ignoresCross_01 x h
  · exact exchange_ignoresCross_02 x h
  · exact exchange_ignoresCross_03 x h
  · exact exchange_ignoresCross_04 x h
  · exact exchange_ignoresCross_05 x h
  · exact exchange_ignoresCross_06 x h
  · exact exchange_ignoresCross_07 x h
  · exact exchange_ignoresCross_08 x h
  · exact exchange_ignoresCross_09 x h
  · exact exchange_ignoresCross_10 x h
  · exact exchange_ignoresCross_11 x h
  · exact exchange_ignoresCross_12 x h
  · exact exchange_ignoresCross_13 x h
  · exact exchange_ignoresCross_14 x h
  · exact exchange_ignoresCross_15 x h
  · exact exchange_ignoresCross_16 x h

theorem ignoresLapl_01 : ∀ x ∈ shipped01, x.name ∉ laplUsers → IgnoresLapl x.fam x.code := by
  unfold shipped01
  simp only [List.forall_mem_cons, List.not_mem_nil, false_implies, implies_true, and_true]
  exact ⟨fun _ => gga_c_acgga_ignoresLapl,
    fun _ => gga_c_acggap_ignoresLapl,
    fun _ => gga_c_am05_ignoresLapl,
    fun _ => gga_c_bmk_ignoresLapl,
    fun _ => gga_c_ccdf_ignoresLapl,
    fun _ => gga_c_chachiyo_ignoresLapl,
    fun _ => gga_c_cs1_ignoresLapl,
    fun _ => gga_c_ft97_ignoresLapl,
    fun _ => gga_c_gapc_ignoresLapl,
    fun _ => gga_c_gaploc_ignoresLapl,
    fun _ => gga_c_hcth_a_ignoresLapl,
    fun _ => gga_c_lm_ignoresLapl,
    fun _ => gga_c_lyp_ignoresLapl,
    fun _ => gga_c_lypr_ignoresLapl,
    fun _ => gga_c_op_b88_ignoresLapl⟩

theorem ignoresLapl_02 : ∀ x ∈ shipped02, x.name ∉ laplUsers → IgnoresLapl x.fam x.code := by
  unfold shipped02
  simp only [List.forall_mem_cons, List.not_mem_nil, false_implies, implies_true, and_true]
  exact ⟨fun _ => gga_c_op_g96_ignoresLapl,
    fun _ => gga_c_op_pbe_ignoresLapl,
    fun _ => gga_c_op_pw91_ignoresLapl,
    fun _ => gga_c_op_xalpha_ignoresLapl,
    fun _ => gga_c_optc_ignoresLapl,
    fun _ => gga_c_p86_ignoresLapl,
    fun _ => gga_c_p86vwn_ignoresLapl,
    fun _ => gga_c_pbe_ignoresLapl,
    fun _ => gga_c_pbe_vwn_ignoresLapl,
    fun _ => gga_c_pbeloc_ignoresLapl,
    fun _ => gga_c_pw91_ignoresLapl,
    fun _ => gga_c_q2d_ignoresLapl,
    fun _ => gga_c_regtpss_ignoresLapl,
    fun _ => gga_c_revtca_ignoresLapl,
    fun _ => gga_c_scan_e0_ignoresLapl,
    fun _ => gga_c_sg4_ignoresLapl⟩

theorem ignoresLapl_03 : ∀ x ∈ shipped03, x.name ∉ laplUsers → IgnoresLapl x.fam x.code := by
  unfold shipped03
  simp only [List.forall_mem_cons, List.not_mem_nil, false_implies, implies_true, and_true]
  exact ⟨fun _ => gga_c_sogga11_ignoresLapl,
    fun _ => gga_c_tca_ignoresLapl,
    fun _ => gga_c_w94_ignoresLapl,
    fun _ => gga_c_wi_ignoresLapl,
    fun _ => gga_c_wl_ignoresLapl,
    fun _ => gga_c_zpbeint_ignoresLapl,
    fun _ => gga_c_zvpbeint_ignoresLapl,
    fun _ => gga_c_zvpbeloc_ignoresLapl,
    fun _ => gga_k_apbe_ignoresLapl,
    fun _ => gga_k_apbeint_ignoresLapl,
    fun _ => gga_k_dk_ignoresLapl,
    fun _ => gga_k_exp4_ignoresLapl,
    fun _ => gga_k_lc94_ignoresLapl,
    fun _ => gga_k_lgap_ignoresLapl,
    fun _ => gga_k_lgap_ge_ignoresLapl,
    fun _ => gga_k_lkt_ignoresLapl,
    fun _ => gga_k_llp_ignoresLapl,
    fun _ => gga_k_meyer_ignoresLapl,
    fun _ => gga_k_mpbe_ignoresLapl,
    fun _ => gga_k_ol1_ignoresLapl,
    fun _ => gga_k_ol2_ignoresLapl,
    fun _ => gga_k_pearson_ignoresLapl,
    fun _ => gga_k_pg_ignoresLapl,
    fun _ => gga_k_pw86_ignoresLapl,
    fun _ => gga_k_rational_p_ignoresLapl,
    fun _ => gga_k_tflw_ignoresLapl,
    fun _ => gga_k_thakkar_ignoresLapl⟩

theorem ignoresLapl_04 : ∀ x ∈ shipped04, x.name ∉ laplUsers → IgnoresLapl x.fam x.code := by
  unfold shipped04
  simp only [List.forall_mem_cons, List.not_mem_nil, false_implies, implies_true, and_true]
  exact ⟨fun _ => gga_k_vt84f_ignoresLapl,
    fun _ => gga_x_2d_b86_ignoresLapl,
    fun _ => gga_x_2d_b86_mgc_ignoresLapl,
    fun _ => gga_x_2d_b88_ignoresLapl,
    fun _ => gga_x_2d_pbe_ignoresLapl,
    fun _ => gga_x_airy_ignoresLapl,
    fun _ => gga_x_ak13_ignoresLapl,
    fun _ => gga_x_am05_ignoresLapl,
    fun _ => gga_x_b86_ignoresLapl,
    fun _ => gga_x_b88_ignoresLapl,
    fun _ => gga_x_bayesian_ignoresLapl,
    fun _ => gga_x_beefvdw_ignoresLapl,
    fun _ => gga_x_bpccac_ignoresLapl,
    fun _ => gga_x_c09x_ignoresLapl,
    fun _ => gga_x_cap_ignoresLapl,
    fun _ => gga_x_chachiyo_ignoresLapl,
    fun _ => gga_x_dk87_ignoresLapl,
    fun _ => gga_x_ev93_ignoresLapl,
    fun _ => gga_x_fd_lb94_ignoresLapl,
    fun _ => gga_x_ft97_ignoresLapl,
    fun _ => gga_x_g96_ignoresLapl,
    fun _ => gga_x_gg99_ignoresLapl,
    fun _ => gga_x_hcth_a_ignoresLapl,
    fun _ => gga_x_herman_ignoresLapl,
    fun _ => gga_x_hjs_ignoresLapl⟩

theorem ignoresLapl_05 : ∀ x ∈ shipped05, x.name ∉ laplUsers → IgnoresLapl x.fam x.code := by
  unfold shipped05
  simp only [List.forall_mem_cons, List.not_mem_nil, false_implies, implies_true, and_true]
  exact ⟨fun _ => gga_x_hjs_b88_v2_ignoresLapl,
    fun _ => gga_x_htbs_ignoresLapl,
    fun _ => gga_x_ityh_ignoresLapl,
    fun _ => gga_x_ityh_optx_ignoresLapl,
    fun _ => gga_x_ityh_pbe_ignoresLapl,
    fun _ => gga_x_kt_ignoresLapl,
    fun _ => gga_x_lag_ignoresLapl,
    fun _ => gga_x_lb_ignoresLapl,
    fun _ => gga_x_lg93_ignoresLapl,
    fun _ => gga_x_lspbe_ignoresLapl,
    fun _ => gga_x_lsrpbe_ignoresLapl,
    fun _ => gga_x_lv_rpw86_ignoresLapl,
    fun _ => gga_x_mpbe_ignoresLapl,
    fun _ => gga_x_n12_ignoresLapl,
    fun _ => gga_x_ncap_ignoresLapl,
    fun _ => gga_x_ol2_ignoresLapl,
    fun _ => gga_x_optx_ignoresLapl,
    fun _ => gga_x_pbe_ignoresLapl,
    fun _ => gga_x_pbea_ignoresLapl,
    fun _ => gga_x_pbeint_ignoresLapl,
    fun _ => gga_x_pbepow_ignoresLapl⟩

theorem ignoresLapl_06 : ∀ x ∈ shipped06, x.name ∉ laplUsers → IgnoresLapl x.fam x.code := by
  unfold shipped06
  simp only [List.forall_mem_cons, List.not_mem_nil, false_implies, implies_true, and_true]
  exact ⟨fun _ => gga_x_pbetrans_ignoresLapl,
    fun _ => gga_x_pw86_ignoresLapl,
    fun _ => gga_x_pw91_ignoresLapl,
    fun _ => gga_x_q1d_ignoresLapl,
    fun _ => gga_x_q2d_ignoresLapl,
    fun _ => gga_x_rge2_ignoresLapl,
    fun _ => gga_x_rpbe_ignoresLapl,
    fun _ => gga_x_s12_ignoresLapl,
    fun _ => gga_x_sfat_ignoresLapl,
    fun _ => gga_x_sfat_pbe_ignoresLapl,
    fun _ => gga_x_sg4_ignoresLapl,
    fun _ => gga_x_sogga11_ignoresLapl,
    fun _ => gga_x_ssb_sw_ignoresLapl,
    fun _ => gga_x_vmt_ignoresLapl,
    fun _ => gga_x_vmt84_ignoresLapl,
    fun _ => gga_x_wc_ignoresLapl,
    fun _ => gga_x_wpbeh_ignoresLapl,
    fun _ => gga_xc_b97_ignoresLapl⟩

theorem ignoresLapl_07 : ∀ x ∈ shipped07, x.name ∉ laplUsers → IgnoresLapl x.fam x.code := by
  unfold shipped07
  simp only [List.forall_mem_cons, List.not_mem_nil, false_implies, implies_true, and_true]
  exact ⟨fun _ => gga_xc_th1_ignoresLapl,
    fun _ => gga_xc_th2_ignoresLapl,
    fun _ => gga_xc_th3_ignoresLapl,
    fun _ => hyb_gga_x_cam_s12_ignoresLapl,
    fun _ => hyb_gga_xc_case21_ignoresLapl,
    fun _ => hyb_gga_xc_wb97_ignoresLapl,
    fun _ => hyb_lda_xc_bn05_ignoresLapl,
    fun _ => hyb_mgga_x_dldf_ignoresLapl,
    fun _ => hyb_mgga_x_js18_ignoresLapl,
    fun _ => hyb_mgga_x_m05_ignoresLapl⟩

theorem ignoresLapl_08 : ∀ x ∈ shipped08, x.name ∉ laplUsers → IgnoresLapl x.fam x.code := by
  unfold shipped08
  simp only [List.forall_mem_cons, List.not_mem_nil, false_implies, implies_true, and_true]
  exact ⟨fun _ => hyb_mgga_x_pjs18_ignoresLapl,
    fun _ => hyb_mgga_xc_wb97mv_ignoresLapl,
    fun _ => lda_c_1d_csc_ignoresLapl,
    fun _ => lda_c_1d_loos_ignoresLapl,
    fun _ => lda_c_2d_amgb_ignoresLapl,
    fun _ => lda_c_2d_prm_ignoresLapl,
    fun _ => lda_c_chachiyo_ignoresLapl,
    fun _ => lda_c_chachiyo_mod_ignoresLapl,
    fun _ => lda_c_gk72_ignoresLapl,
    fun _ => lda_c_gombas_ignoresLapl,
    fun _ => lda_c_hl_ignoresLapl,
    fun _ => lda_c_lp96_ignoresLapl,
    fun _ => lda_c_ml1_ignoresLapl,
    fun _ => lda_c_pk09_ignoresLapl,
    fun _ => lda_c_pmgb06_ignoresLapl,
    fun _ => lda_c_pw_ignoresLapl⟩

theorem ignoresLapl_09 : ∀ x ∈ shipped09, x.name ∉ laplUsers → IgnoresLapl x.fam x.code := by
  unfold shipped09
  simp only [List.forall_mem_cons, List.not_mem_nil, false_implies, implies_true, and_true]
  exact ⟨fun _ => lda_c_pz_ignoresLapl,
    fun _ => lda_c_rc04_ignoresLapl,
    fun _ => lda_c_rpa_ignoresLapl,
    fun _ => lda_c_vwn_ignoresLapl,
    fun _ => lda_c_vwn_1_ignoresLapl,
    fun _ => lda_c_vwn_2_ignoresLapl,
    fun _ => lda_c_vwn_3_ignoresLapl,
    fun _ => lda_c_vwn_4_ignoresLapl,
    fun _ => lda_c_vwn_rpa_ignoresLapl,
    fun _ => lda_c_w20_ignoresLapl,
    fun _ => lda_c_wigner_ignoresLapl,
    fun _ => lda_k_gds08_worker_ignoresLapl,
    fun _ => lda_k_tf_ignoresLapl,
    fun _ => lda_k_zlp_ignoresLapl,
    fun _ => lda_x_ignoresLapl,
    fun _ => lda_x_1d_exponential_ignoresLapl,
    fun _ => lda_x_1d_soft_ignoresLapl,
    fun _ => lda_x_2d_ignoresLapl,
    fun _ => lda_x_erf_ignoresLapl,
    fun _ => lda_x_rel_ignoresLapl,
    fun _ => lda_x_sloc_ignoresLapl,
    fun _ => lda_x_yukawa_ignoresLapl,
    fun _ => lda_xc_1d_ehwlrg_ignoresLapl,
    fun _ => lda_xc_ksdt_ignoresLapl,
    fun _ => lda_xc_teter93_ignoresLapl,
    fun _ => lda_xc_tih_ignoresLapl,
    fun _ => lda_xc_zlp_ignoresLapl,
    fun _ => mgga_c_b88_ignoresLapl,
    fun h => absurd (by simp [laplUsers]) h,
    fun _ => mgga_c_bc95_ignoresLapl⟩

theorem ignoresLapl_10 : ∀ x ∈ shipped10, x.name ∉ laplUsers → IgnoresLapl x.fam x.code := by
  unfold shipped10
  simp only [List.forall_mem_cons, List.not_mem_nil, false_implies, implies_true, and_true]
  exact ⟨fun _ => mgga_c_cc_ignoresLapl,
    fun _ => mgga_c_ccalda_ignoresLapl,
    fun h => absurd (by simp [laplUsers]) h,
    fun _ => mgga_c_kcis_ignoresLapl,
    fun _ => mgga_c_kcisk_ignoresLapl,
    fun _ => mgga_c_ltapw_ignoresLapl,
    fun _ => mgga_c_m05_ignoresLapl,
    fun _ => mgga_c_m06l_ignoresLapl,
    fun _ => mgga_c_m08_ignoresLapl⟩

theorem ignoresLapl_11 : ∀ x ∈ shipped11, x.name ∉ laplUsers → IgnoresLapl x.fam x.code := by
  unfold shipped11
  simp only [List.forall_mem_cons, List.not_mem_nil, false_implies, implies_true, and_true]
  exact ⟨fun _ => mgga_c_pkzb_ignoresLapl,
    fun _ => mgga_c_r2scan_ignoresLapl,
    fun _ => mgga_c_revscan_ignoresLapl,
    fun _ => mgga_c_revtpss_ignoresLapl,
    fun _ => mgga_c_rmggac_ignoresLapl,
    fun _ => mgga_c_rppscan_ignoresLapl,
    fun _ => mgga_c_rregtm_ignoresLapl,
    fun _ => mgga_c_rscan_ignoresLapl⟩

theorem ignoresLapl_12 : ∀ x ∈ shipped12, x.name ∉ laplUsers → IgnoresLapl x.fam x.code := by
  unfold shipped12
  simp only [List.forall_mem_cons, List.not_mem_nil, false_implies, implies_true, and_true]
  exact ⟨fun _ => mgga_c_scan_ignoresLapl,
    fun _ => mgga_c_tpss_ignoresLapl,
    fun _ => mgga_c_tpssloc_ignoresLapl,
    fun _ => mgga_c_vsxc_ignoresLapl,
    fun h => absurd (by simp [laplUsers]) h,
    fun h => absurd (by simp [laplUsers]) h,
    fun h => absurd (by simp [laplUsers]) h,
    fun h => absurd (by simp [laplUsers]) h,
    fun h => absurd (by simp [laplUsers]) h,
    fun h => absurd (by simp [laplUsers]) h⟩

theorem ignoresLapl_13 : ∀ x ∈ shipped13, x.name ∉ laplUsers → IgnoresLapl x.fam x.code := by
  unfold shipped13
  simp only [List.forall_mem_cons, List.not_mem_nil, false_implies, implies_true, and_true]
  exact ⟨fun h => absurd (by simp [laplUsers]) h,
    fun h => absurd (by simp [laplUsers]) h,
    fun _ => mgga_x_2d_js17_ignoresLapl,
    fun h => absurd (by simp [laplUsers]) h,
    fun h => absurd (by simp [laplUsers]) h,
    fun h => absurd (by simp [laplUsers]) h,
    fun h => absurd (by simp [laplUsers]) h,
    fun h => absurd (by simp [laplUsers]) h,
    fun h => absurd (by simp [laplUsers]) h,
    fun h => absurd (by simp [laplUsers]) h,
    fun _ => mgga_x_gvt4_ignoresLapl,
    fun _ => mgga_x_gx_ignoresLapl,
    fun h => absurd (by simp [laplUsers]) h,
    fun _ => mgga_x_lta_ignoresLapl,
    fun _ => mgga_x_m06l_ignoresLapl,
    fun _ => mgga_x_m08_ignoresLapl,
    fun _ => mgga_x_m11_ignoresLapl,
    fun _ => mgga_x_m11_l_ignoresLapl⟩

theorem ignoresLapl_14 : ∀ x ∈ shipped14, x.name ∉ laplUsers → IgnoresLapl x.fam x.code := by
  unfold shipped14
  simp only [List.forall_mem_cons, List.not_mem_nil, false_implies, implies_true, and_true]
  exact ⟨fun _ => mgga_x_mbeef_ignoresLapl,
    fun _ => mgga_x_mbeefvdw_ignoresLapl,
    fun _ => mgga_x_mbr_ignoresLapl,
    fun _ => mgga_x_mbrxc_bg_ignoresLapl,
    fun _ => mgga_x_mbrxh_bg_ignoresLapl,
    fun _ => mgga_x_mcml_ignoresLapl,
    fun _ => mgga_x_mggac_ignoresLapl,
    fun _ => mgga_x_mn12_ignoresLapl,
    fun _ => mgga_x_ms_ignoresLapl,
    fun _ => mgga_x_msb_ignoresLapl,
    fun _ => mgga_x_mvs_ignoresLapl⟩

theorem ignoresLapl_15 : ∀ x ∈ shipped15, x.name ∉ laplUsers → IgnoresLapl x.fam x.code := by
  unfold shipped15
  simp only [List.forall_mem_cons, List.not_mem_nil, false_implies, implies_true, and_true]
  exact ⟨fun _ => mgga_x_mvsb_ignoresLapl,
    fun _ => mgga_x_pbe_gx_ignoresLapl,
    fun _ => mgga_x_pkzb_ignoresLapl,
    fun _ => mgga_x_r2scan_ignoresLapl,
    fun _ => mgga_x_r4scan_ignoresLapl,
    fun _ => mgga_x_regtm_ignoresLapl,
    fun _ => mgga_x_regtpss_ignoresLapl,
    fun _ => mgga_x_revtm_ignoresLapl,
    fun h => absurd (by simp [laplUsers]) h,
    fun _ => mgga_x_rppscan_ignoresLapl,
    fun _ => mgga_x_rscan_ignoresLapl,
    fun _ => mgga_x_rtpss_ignoresLapl,
    fun _ => mgga_x_sa_tpss_ignoresLapl,
    fun _ => mgga_x_scan_ignoresLapl,
    fun _ => mgga_x_task_ignoresLapl⟩

theorem ignoresLapl_16 : ∀ x ∈ shipped16, x.name ∉ laplUsers → IgnoresLapl x.fam x.code := by
  unfold shipped16
  simp only [List.forall_mem_cons, List.not_mem_nil, false_implies, implies_true, and_true]
  exact ⟨fun _ => mgga_x_tau_hcth_ignoresLapl,
    fun h => absurd (by simp [laplUsers]) h,
    fun _ => mgga_x_th_ignoresLapl,
    fun _ => mgga_x_tm_ignoresLapl,
    fun _ => mgga_x_tpss_ignoresLapl,
    fun _ => mgga_x_vcml_ignoresLapl,
    fun _ => mgga_x_vt84_ignoresLapl,
    fun _ => mgga_xc_b97mv_ignoresLapl,
    fun h => absurd (by simp [laplUsers]) h,
    fun h => absurd (by simp [laplUsers]) h,
    fun h => absurd (by simp [laplUsers]) h,
    fun h => absurd (by simp [laplUsers]) h⟩

/-- C36. Formulas that are not in `laplUsers` do not depend on the Laplacian. -/
theorem ignoresLapl_shipped : ∀ x ∈ shipped, x.name ∉ laplUsers → IgnoresLapl x.fam x.code := by
  intro x hx
  simp only [shipped, List.mem_append] at hx
  rcases hx with (((((((((((((((h | h) | h) | h) | h) | h) | h) | h) | h) | h) | h) | h) | h) | h) | h) | h)
  · exact ignoresLapl_01 x h
  · exact ignoresLapl_02 x h
  · exact ignoresLapl_03 x h
  · exact ignoresLapl_04 x h
  · exact ignoresLapl_05 x h
  · exact ignoresLapl_06 x h
  · exact ignoresLapl_07 x h
  · exact ignoresLapl_08 x h
  · exact ignoresLapl_09 x h
  · exact ignoresLapl_10 x h
  · exact ignoresLapl_11 x h
  · exact ignoresLapl_12 x h
  · exact ignoresLapl_13 x h
  · exact ignoresLapl_14 x h
  · exact ignoresLapl_15 x h
  · exact ignoresLapl_16 x h

theorem ignoresTau_01 : ∀ x ∈ shipped01, x.name ∈ tauFree → IgnoresTau x.fam x.code := by
  unfold shipped01
  simp only [List.forall_mem_cons, List.not_mem_nil, false_implies, implies_true, and_true]
  exact ⟨fun h => absurd h (by simp [tauFree]),
    fun h => absurd h (by simp [tauFree]),
    fun h => absurd h (by simp [tauFree]),
    fun h => absurd h (by simp [tauFree]),
    fun h => absurd h (by simp [tauFree]),
    fun h => absurd h (by simp [tauFree]),
    fun h => absurd h (by simp [tauFree]),
    fun h => absurd h (by simp [tauFree]),
    fun h => absurd h (by simp [tauFree]),
    fun h => absurd h (by simp [tauFree]),
    fun h => absurd h (by simp [tauFree]),
    fun h => absurd h (by simp [tauFree]),
    fun h => absurd h (by simp [tauFree]),
    fun h => absurd h (by simp [tauFree]),
    fun h => absurd h (by simp [tauFree])⟩

theorem ignoresTau_02 : ∀ x ∈ shipped02, x.name ∈ tauFree → IgnoresTau x.fam x.code := by
  unfold shipped02
  simp only [List.forall_mem_cons, List.not_mem_nil, false_implies, implies_true, and_true]
  exact ⟨fun h => absurd h (by simp [tauFree]),
    fun h => absurd h (by simp [tauFree]),
    fun h => absurd h (by simp [tauFree]),
    fun h => absurd h (by simp [tauFree]),
    fun h => absurd h (by simp [tauFree]),
    fun h => absurd h (by simp [tauFree]),
    fun h => absurd h (by simp [tauFree]),
    fun h => absurd h (by simp [tauFree]),
    fun h => absurd h (by simp [tauFree]),
    fun h => absurd h (by simp [tauFree]),
    fun h => absurd h (by simp [tauFree]),
    fun h => absurd h (by simp [tauFree]),
    fun h => absurd h (by simp [tauFree]),
    fun h => absurd h (by simp [tauFree]),
    fun h => absurd h (by simp [tauFree]),
    fun h => absurd h (by simp [tauFree])⟩

theorem ignoresTau_03 : ∀ x ∈ shipped03, x.name ∈ tauFree → IgnoresTau x.fam x.code := by
  unfold shipped03
  simp only [List.forall_mem_cons, List.not_mem_nil, false_implies, implies_true, and_true]
  exact ⟨fun h => absurd h (by simp [tauFree]),
    fun h => absurd h (by simp [tauFree]),
    fun h => absurd h (by simp [tauFree]),
    fun h => absurd h (by simp [tauFree]),
    fun h => absurd h (by simp [tauFree]),
    fun h => absurd h (by simp [tauFree]),
    fun h => absurd h (by simp [tauFree]),
    fun h => absurd h (by simp [tauFree]),
    fun h => absurd h (by simp [tauFree]),
    fun h => absurd h (by simp [tauFree]),
    fun h => absurd h (by simp [tauFree]),
    fun h => absurd h (by simp [tauFree]),
    fun h => absurd h (by simp [tauFree]),
    fun h => absurd h (by simp [tauFree]),
    fun h => absurd h (by simp [tauFree]),
    fun h => absurd h (by simp [tauFree]),
    fun h => absurd h (by simp [tauFree]),
    fun h => absurd h (by simp [tauFree]),
    fun h => absurd h (by simp [tauFree]),
    fun h => absurd h (by simp [tauFree]),
    fun h => absurd h (by simp [tauFree]),
    fun h => absurd h (by simp [tauFree]),
    fun h => absurd h (by simp [tauFree]),
    fun h => absurd h (by simp [tauFree]),
    fun h => absurd h (by simp [tauFree]),
    fun h => absurd h (by simp [tauFree]),
    fun h => absurd h (by simp [tauFree])⟩

theorem ignoresTau_04 : ∀ x ∈ shipped04, x.name ∈ tauFree → IgnoresTau x.fam x.code := by
  unfold shipped04
  simp only [List.forall_mem_cons, List.not_mem_nil, false_implies, implies_true, and_true]
  exact ⟨fun h => absurd h (by simp [tauFree]),
    fun h => absurd h (by simp [tauFree]),
    fun h => absurd h (by simp [tauFree]),
    fun h => absurd h (by simp [tauFree]),
    fun h => absurd h (by simp [tauFree]),
    fun h => absurd h (by simp [tauFree]),
    fun h => absurd h (by simp [tauFree]),
    fun h => absurd h (by simp [tauFree]),
    fun h => absurd h (by simp [tauFree]),
    fun h => absurd h (by simp [tauFree]),
    fun h => absurd h (by simp [tauFree]),
    fun h => absurd h (by simp [tauFree]),
    fun h => absurd h (by simp [tauFree]),
    fun h => absurd h (by simp [tauFree]),
    fun h => absurd h (by simp [tauFree]),
    fun h => absurd h (by simp [tauFree]),
    fun h => absurd h (by simp [tauFree]),
    fun h => absurd h (by simp [tauFree]),
    fun h => absurd h (by simp [tauFree]),
    fun h => absurd h (by simp [tauFree]),
    fun h => absurd h (by simp [tauFree]),
    fun h => absurd h (by simp [tauFree]),
    fun h => absurd h (by simp [tauFree]),
    fun h => absurd h (by simp [tauFree]),
    fun h => absurd h (by simp [tauFree])⟩

theorem ignoresTau_05 : ∀ x ∈ shipped05, x.name ∈ tauFree → IgnoresTau x.fam x.code := by
  unfold shipped05
  simp only [List.forall_mem_cons, List.not_mem_nil, false_implies, implies_true, and_true]
  exact ⟨fun h => absurd h (by simp [tauFree]),
    fun h => absurd h (by simp [tauFree]),
    fun h => absurd h (by simp [tauFree]),
    fun h => absurd h (by simp [tauFree]),
    fun h => absurd h (by simp [tauFree]),
    fun h => absurd h (by simp [tauFree]),
    fun h => absurd h (by simp [tauFree]),
    fun h => absurd h (by simp [tauFree]),
    fun h => absurd h (by simp [tauFree]),
    fun h => absurd h (by simp [tauFree]),
    fun h => absurd h (by simp [tauFree]),
    fun h => absurd h (by simp [tauFree]),
    fun h => absurd h (by simp [tauFree]),
    fun h => absurd h (by simp [tauFree]),
    fun h => absurd h (by simp [tauFree]),
    fun h => absurd h (by simp [tauFree]),
    fun h => absurd h (by simp [tauFree]),
    fun h => absurd h (by simp [tauFree]),
    fun h => absurd h (by simp [tauFree]),
    fun h => absurd h (by simp [tauFree]),
    fun h => absurd h (by simp [tauFree])⟩

theorem ignoresTau_06 : ∀ x ∈ shipped06, x.name ∈ tauFree → IgnoresTau x.fam x.code := by
  unfold shipped06
  simp only [List.forall_mem_cons, List.not_mem_nil, false_implies, implies_true, and_true]
  exact ⟨fun h => absurd h (by simp [tauFree]),
    fun h => absurd h (by simp [tauFree]),
    fun h => absurd h (by simp [tauFree]),
    fun h => absurd h (by simp [tauFree]),
    fun h => absurd h (by simp [tauFree]),
    fun h => absurd h (by simp [tauFree]),
    fun h => absurd h (by simp [tauFree]),
    fun h => absurd h (by simp [tauFree]),
    fun h => absurd h (by simp [tauFree]),
    fun h => absurd h (by simp [tauFree]),
    fun h => absurd h (by simp [tauFree]),
    fun h => absurd h (by simp [tauFree]),
    fun h => absurd h (by simp [tauFree]),
    fun h => absurd h (by simp [tauFree]),
    fun h => absurd h (by simp [tauFree]),
    fun h => absurd h (by simp [tauFree]),
    fun h => absurd h (by simp [tauFree]),
    fun h => absurd h (by simp [tauFree])⟩

theorem ignoresTau_07 : ∀ x ∈ shipped07, x.name ∈ tauFree → IgnoresTau x.fam x.code := by
  unfold shipped07
  simp only [List.forall_mem_cons, List.not_mem_nil, false_implies, implies_true, and_true]
  exact ⟨fun h => absurd h (by simp [tauFree]),
    fun h => absurd h (by simp [tauFree]),
    fun h => absurd h (by simp [tauFree]),
    fun h => absurd h (by simp [tauFree]),
    fun h => absurd h (by simp [tauFree]),
    fun h => absurd h (by simp [tauFree]),
    fun h => absurd h (by simp [tauFree]),
    fun h => absurd h (by simp [tauFree]),
    fun h => absurd h (by simp [tauFree]),
    fun h => absurd h (by simp [tauFree])⟩

theorem ignoresTau_08 : ∀ x ∈ shipped08, x.name ∈ tauFree → IgnoresTau x.fam x.code := by
  unfold shipped08
  simp only [List.forall_mem_cons, List.not_mem_nil, false_implies, implies_true, and_true]
  exact ⟨fun h => absurd h (by simp [tauFree]),
    fun h => absurd h (by simp [tauFree]),
    fun h => absurd h (by simp [tauFree]),
    fun h => absurd h (by simp [tauFree]),
    fun h => absurd h (by simp [tauFree]),
    fun h => absurd h (by simp [tauFree]),
    fun h => absurd h (by simp [tauFree]),
    fun h => absurd h (by simp [tauFree]),
    fun h => absurd h (by simp [tauFree]),
    fun h => absurd h (by simp [tauFree]),
    fun h => absurd h (by simp [tauFree]),
    fun h => absurd h (by simp [tauFree]),
    fun h => absurd h (by simp [tauFree]),
    fun h => absurd h (by simp [tauFree]),
    fun h => absurd h (by simp [tauFree]),
    fun h => absurd h (by simp [tauFree])⟩

theorem ignoresTau_09 : ∀ x ∈ shipped09, x.name ∈ tauFree → IgnoresTau x.fam x.code := by
  unfold shipped09
  simp only [List.forall_mem_cons, List.not_mem_nil, false_implies, implies_true, and_true]
  exact ⟨fun h => absurd h (by simp [tauFree]),
    fun h => absurd h (by simp [tauFree]),
    fun h => absurd h (by simp [tauFree]),
    fun h => absurd h (by simp [tauFree]),
    fun h => absurd h (by simp [tauFree]),
    fun h => absurd h (by simp [tauFree]),
    fun h => absurd h (by simp [tauFree]),
    fun h => absurd h (by simp [tauFree]),
    fun h => absurd h (by simp [tauFree]),
    fun h => absurd h (by simp [tauFree]),
    fun h => absurd h (by simp [tauFree]),
    fun h => absurd h (by simp [tauFree]),
    fun h => absurd h (by simp [tauFree]),
    fun h => absurd h (by simp [tauFree]),
    fun h => absurd h (by simp [tauFree]),
    fun h => absurd h (by simp [tauFree]),
    fun h => absurd h (by simp [tauFree]),
    fun h => absurd h (by simp [tauFree]),
    fun h => absurd h (by simp [tauFree]),
    fun h => absurd h (by simp [tauFree]),
    fun h => absurd h (by simp [tauFree]),
    fun h => absurd h (by simp [tauFree]),
    fun h => absurd h (by simp [tauFree]),
    fun h => absurd h (by simp [tauFree]),
    fun h => absurd h (by simp [tauFree]),
    fun h => absurd h (by simp [tauFree]),
    fun h => absurd h (by simp [tauFree]),
    fun h => absurd h (by simp [tauFree]),
    fun h => absurd h (by simp [tauFree]),
    fun h => absurd h (by simp [tauFree])⟩

theorem ignoresTau_10 : ∀ x ∈ shipped10, x.name ∈ tauFree → IgnoresTau x.fam x.code := by
  unfold shipped10
  simp only [List.forall_mem_cons, List.not_mem_nil, false_implies, implies_true, and_true]
  exact ⟨fun h => absurd h (by simp [tauFree]),
    fun h => absurd h (by simp [tauFree]),
    fun h => absurd h (by simp [tauFree]),
    fun h => absurd h (by simp [tauFree]),
    fun h => absurd h (by simp [tauFree]),
    fun h => absurd h (by simp [tauFree]),
    fun h => absurd h (by simp [tauFree]),
    fun h => absurd h (by simp [tauFree]),
    fun h => absurd h (by simp [tauFree])⟩

theorem ignoresTau_11 : ∀ x ∈ shipped11, x.name ∈ tauFree → IgnoresTau x.fam x.code := by
  unfold shipped11
  simp only [List.forall_mem_cons, List.not_mem_nil, false_implies, implies_true, and_true]
  exact ⟨fun h => absurd h (by simp [tauFree]),
    fun h => absurd h (by simp [tauFree]),
    fun h => absurd h (by simp [tauFree]),
    fun h => absurd h (by simp [tauFree]),
    fun h => absurd h (by simp [tauFree]),
    fun h => absurd h (by simp [tauFree]),
    fun h => absurd h (by simp [tauFree]),
    fun h => absurd h (by simp [tauFree])⟩

theorem ignoresTau_12 : ∀ x ∈ shipped12, x.name ∈ tauFree → IgnoresTau x.fam x.code := by
  unfold shipped12
  simp only [List.forall_mem_cons, List.not_mem_nil, false_implies, implies_true, and_true]
  exact ⟨fun h => absurd h (by simp [tauFree]),
    fun h => absurd h (by simp [tauFree]),
    fun h => absurd h (by simp [tauFree]),
    fun h => absurd h (by simp [tauFree]),
    fun _ => mgga_k_csk_ignoresTau,
    fun _ => mgga_k_csk_loc_ignoresTau,
    fun _ => mgga_k_gea2_ignoresTau,
    fun _ => mgga_k_gea4_ignoresTau,
    fun _ => mgga_k_lk_ignoresTau,
    fun _ => mgga_k_pc07_ignoresTau⟩

theorem ignoresTau_13 : ∀ x ∈ shipped13, x.name ∈ tauFree → IgnoresTau x.fam x.code := by
  unfold shipped13
  simp only [List.forall_mem_cons, List.not_mem_nil, false_implies, implies_true, and_true]
  exact ⟨fun _ => mgga_k_pgslb_ignoresTau,
    fun _ => mgga_k_rda_ignoresTau,
    fun h => absurd h (by simp [tauFree]),
    fun h => absurd h (by simp [tauFree]),
    fun h => absurd h (by simp [tauFree]),
    fun h => absurd h (by simp [tauFree]),
    fun h => absurd h (by simp [tauFree]),
    fun h => absurd h (by simp [tauFree]),
    fun _ => mgga_x_ft98_ignoresTau,
    fun h => absurd h (by simp [tauFree]),
    fun h => absurd h (by simp [tauFree]),
    fun h => absurd h (by simp [tauFree]),
    fun _ => mgga_x_jk_ignoresTau,
    fun h => absurd h (by simp [tauFree]),
    fun h => absurd h (by simp [tauFree]),
    fun h => absurd h (by simp [tauFree]),
    fun h => absurd h (by simp [tauFree]),
    fun h => absurd h (by simp [tauFree])⟩

theorem ignoresTau_14 : ∀ x ∈ shipped14, x.name ∈ tauFree → IgnoresTau x.fam x.code := by
  unfold shipped14
  simp only [List.forall_mem_cons, List.not_mem_nil, false_implies, implies_true, and_true]
  exact ⟨fun h => absurd h (by simp [tauFree]),
    fun h => absurd h (by simp [tauFree]),
    fun h => absurd h (by simp [tauFree]),
    fun h => absurd h (by simp [tauFree]),
    fun h => absurd h (by simp [tauFree]),
    fun h => absurd h (by simp [tauFree]),
    fun h => absurd h (by simp [tauFree]),
    fun h => absurd h (by simp [tauFree]),
    fun h => absurd h (by simp [tauFree]),
    fun h => absurd h (by simp [tauFree]),
    fun h => absurd h (by simp [tauFree])⟩

theorem ignoresTau_15 : ∀ x ∈ shipped15, x.name ∈ tauFree → IgnoresTau x.fam x.code := by
  unfold shipped15
  simp only [List.forall_mem_cons, List.not_mem_nil, false_implies, implies_true, and_true]
  exact ⟨fun h => absurd h (by simp [tauFree]),
    fun h => absurd h (by simp [tauFree]),
    fun h => absurd h (by simp [tauFree]),
    fun h => absurd h (by simp [tauFree]),
    fun h => absurd h (by simp [tauFree]),
    fun h => absurd h (by simp [tauFree]),
    fun h => absurd h (by simp [tauFree]),
    fun h => absurd h (by simp [tauFree]),
    fun h => absurd h (by simp [tauFree]),
    fun h => absurd h (by simp [tauFree]),
    fun h => absurd h (by simp [tauFree]),
    fun h => absurd h (by simp [tauFree]),
    fun h => absurd h (by simp [tauFree]),
    fun h => absurd h (by simp [tauFree]),
    fun h => absurd h (by simp [tauFree])⟩

theorem ignoresTau_16 : ∀ x ∈ shipped16, x.name ∈ tauFree → IgnoresTau x.fam x.code := by
  unfold shipped16
  simp only [List.forall_mem_cons, List.not_mem_nil, false_implies, implies_true, and_true]
  exact ⟨fun h => absurd h (by simp [tauFree]),
    fun h => absurd h (by simp [tauFree]),
    fun h => absurd h (by simp [tauFree]),
    fun h => absurd h (by simp [tauFree]),
    fun h => absurd h (by simp [tauFree]),
    fun h => absurd h (by simp [tauFree]),
    fun h => absurd h (by simp [tauFree]),
    fun h => absurd h (by simp [tauFree]),
    fun h => absurd h (by simp [tauFree]),
    fun _ => mgga_xc_cc06_ignoresTau,
    fun _ => mgga_xc_lp90_ignoresTau,
    fun _ => mgga_xc_zlp_ignoresTau⟩

/-- C44. The mGGA formulas in `tauFree` do not depend on the kinetic energy density. -/
theorem ignoresTau_shipped : ∀ x ∈ shipped, x.name ∈ tauFree → IgnoresTau x.fam x.code := by
  intro x hx
  simp only [shipped, List.mem_append] at hx
  rcases hx with (((((((((((((((h | h) | h) | h) | h) | h) | h) | h) | h) | h) | h) | h) | h) | h) | h) | h)
  · exact ignoresTau_01 x h
  · exact ignoresTau_02 x h
  · exact ignoresTau_03 x h
  · exact ignoresTau_04 x h
  · exact ignoresTau_05 x h
  · exact ignoresTau_06 x h
  · exact ignoresTau_07 x h
  · exact ignoresTau_08 x h
  · exact ignoresTau_09 x h
  · exact ignoresTau_10 x h
  · exact ignoresTau_11 x h
  · exact ignoresTau_12 x h
  · exact ignoresTau_13 x h
  · exact ignoresTau_14 x h
  · exact ignoresTau_15 x h
  · exact ignoresTau_16 x h

end Verif.Props
