import Verif.Data.All
import Verif.Props.Exchange1
import Verif.Props.Exchange2
import Verif.Props.Exchange3
import Verif.Props.Exchange4
/-!
# C37, C38 and C42 for the whole table of shipped formulas
-/
namespace Verif.Props
open Verif.Model Verif.Spec Verif.Data

theorem mem01 {x : Shipped} (h : x ∈ shipped01) : x ∈ shipped := by
  unfold shipped
  exact List.mem_append_left _ (List.mem_append_left _ (List.mem_append_left _ (List.mem_append_left _ (List.mem_append_left _ (List.mem_append_left _ (List.mem_append_left _ (List.mem_append_left _ (List.mem_append_left _ (List.mem_append_left _ (List.mem_append_left _ (List.mem_append_left _ (List.mem_append_left _ (List.mem_append_left _ (List.mem_append_left _ (h)))))))))))))))
theorem mem02 {x : Shipped} (h : x ∈ shipped02) : x ∈ shipped := by
  unfold shipped
  exact List.mem_append_left _ (List.mem_append_left _ (List.mem_append_left _ (List.mem_append_left _ (List.mem_append_left _ (List.mem_append_left _ (List.mem_append_left _ (List.mem_append_left _ (List.mem_append_left _ (List.mem_append_left _ (List.mem_append_left _ (List.mem_append_left _ (List.mem_append_left _ (List.mem_append_left _ (List.mem_append_right _ h))))))))))))))
theorem mem03 {x : Shipped} (h : x ∈ shipped03) : x ∈ shipped := by
  unfold shipped
  exact List.mem_append_left _ (List.mem_append_left _ (List.mem_append_left _ (List.mem_append_left _ (List.mem_append_left _ (List.mem_append_left _ (List.mem_append_left _ (List.mem_append_left _ (List.mem_append_left _ (List.mem_append_left _ (List.mem_append_left _ (List.mem_append_left _ (List.mem_append_left _ (List.mem_append_right _ h)))))))))))))
theorem mem04 {x : Shipped} (h : x ∈ shipped04) : x ∈ shipped := by
  unfold shipped
  exact List.mem_append_left _ (List.mem_append_left _ (List.mem_append_left _ (List.mem_append_left _ (List.mem_append_left _ (List.mem_append_left _ (List.mem_append_left _ (List.mem_append_left _ (List.mem_append_left _ (List.mem_append_left _ (List.mem_append_left _ (List.mem_append_left _ (List.mem_append_right _ h))))))))))))
theorem mem05 {x : Shipped} (h : x ∈ shipped05) : x ∈ shipped := by
  unfold shipped
  exact List.mem_append_left _ (List.mem_append_left _ (List.mem_append_left _ (List.mem_append_left _ (List.mem_append_left _ (List.mem_append_left _ (List.mem_append_left _ (List.mem_append_left _ (List.mem_append_left _ (List.mem_append_left _ (List.mem_append_left _ (List.mem_append_right _ h)))))))))))
theorem mem06 {x : Shipped} (h : x ∈ shipped06) : x ∈ shipped := by
  unfold shipped
  exact List.mem_append_left _ (List.mem_append_left _ (List.mem_append_left _ (List.mem_append_left _ (List.mem_append_left _ (List.mem_append_left _ (List.mem_append_left _ (List.mem_append_left _ (List.mem_append_left _ (List.mem_append_left _ (List.mem_append_right _ h))))))))))
theorem mem07 {x : Shipped} (h : x ∈ shipped07) : x ∈ shipped := by
  unfold shipped
  exact List.mem_append_left _ (List.mem_append_left _ (List.mem_append_left _ (List.mem_append_left _ (List.mem_append_left _ (List.mem_append_left _ (List.mem_append_left _ (List.mem_append_left _ (List.mem_append_left _ (List.mem_append_right _ h)))))))))
theorem mem08 {x : Shipped} (h : x ∈ shipped08) : x ∈ shipped := by
  unfold shipped
  exact List.mem_append_left _ (List.mem_append_left _ (List.mem_append_left _ (List.mem_append_left _ (List.mem_append_left _ (List.mem_append_left _ (List.mem_append_left _ (List.mem_append_left _ (List.mem_append_right _ h))))))))
theorem mem09 {x : Shipped} (h : x ∈ shipped09) : x ∈ shipped := by
  unfold shipped
  exact List.mem_append_left _ (List.mem_append_left _ (List.mem_append_left _ (List.mem_append_left _ (List.mem_append_left _ (List.mem_append_left _ (List.mem_append_left _ (List.mem_append_right _ h)))))))
theorem mem10 {x : Shipped} (h : x ∈ shipped10) : x ∈ shipped := by
  unfold shipped
  exact List.mem_append_left _ (List.mem_append_left _ (List.mem_append_left _ (List.mem_append_left _ (List.mem_append_left _ (List.mem_append_left _ (List.mem_append_right _ h))))))
theorem mem11 {x : Shipped} (h : x ∈ shipped11) : x ∈ shipped := by
  unfold shipped
  exact List.mem_append_left _ (List.mem_append_left _ (List.mem_append_left _ (List.mem_append_left _ (List.mem_append_left _ (List.mem_append_right _ h)))))
theorem mem12 {x : Shipped} (h : x ∈ shipped12) : x ∈ shipped := by
  unfold shipped
  exact List.mem_append_left _ (List.mem_append_left _ (List.mem_append_left _ (List.mem_append_left _ (List.mem_append_right _ h))))
theorem mem13 {x : Shipped} (h : x ∈ shipped13) : x ∈ shipped := by
  unfold shipped
  exact List.mem_append_left _ (List.mem_append_left _ (List.mem_append_left _ (List.mem_append_right _ h)))
theorem mem14 {x : Shipped} (h : x ∈ shipped14) : x ∈ shipped := by
  unfold shipped
  exact List.mem_append_left _ (List.mem_append_left _ (List.mem_append_right _ h))
theorem mem15 {x : Shipped} (h : x ∈ shipped15) : x ∈ shipped := by
  unfold shipped
  exact List.mem_append_left _ (List.mem_append_right _ h)
theorem mem16 {x : Shipped} (h : x ∈ shipped16) : x ∈ shipped := by
  unfold shipped
  exact List.mem_append_right _ h

/-- Shipped exchange and kinetic-energy formulas for which `SpinScaling` is not proved. -/
def spinScalingOpen : List String := [
  "gga_k_exp4",
  "gga_x_bpccac",
  "gga_x_fd_lb94",
  "gga_x_gg99",
  "gga_x_htbs",
  "gga_x_lb",
  "gga_x_lg93",
  "gga_x_lv_rpw86",
  "gga_x_rge2",
  "gga_x_sg4",
  "lda_k_zlp",
  "lda_x_1d_exponential",
  "lda_x_1d_soft",
  "lda_x_rel",
  "lda_x_sloc",
  "mgga_x_2d_js17",
  "mgga_x_2d_prp10",
  "mgga_x_br89",
  "mgga_x_mbr",
  "mgga_x_mbrxc_bg",
  "mgga_x_mbrxh_bg",
  "mgga_x_mggac",
  "mgga_x_task",
  "mgga_x_tb09"]

theorem spinScaling_01 : ∀ x ∈ shipped01, isExchange x.name = true → x.name ∉ spinScalingOpen → SpinScaling x.fam x.code := by
  unfold shipped01
  simp only [List.forall_mem_cons, List.not_mem_nil, false_implies, implies_true, and_true]
  exact ⟨fun h => absurd h (by decide +kernel),
    fun h => absurd h (by decide +kernel),
    fun h => absurd h (by decide +kernel),
    fun h => absurd h (by decide +kernel),
    fun h => absurd h (by decide +kernel),
    fun h => absurd h (by decide +kernel),
    fun h => absurd h (by decide +kernel),
    fun h => absurd h (by decide +kernel),
    fun h => absurd h (by decide +kernel),
    fun h => absurd h (by decide +kernel),
    fun h => absurd h (by decide +kernel),
    fun h => absurd h (by decide +kernel),
    fun h => absurd h (by decide +kernel),
    fun h => absurd h (by decide +kernel),
    fun h => absurd h (by decide +kernel)⟩

theorem spinScaling_02 : ∀ x ∈ shipped02, isExchange x.name = true → x.name ∉ spinScalingOpen → SpinScaling x.fam x.code := by
  unfold shipped02
  simp only [List.forall_mem_cons, List.not_mem_nil, false_implies, implies_true, and_true]
  exact ⟨fun h => absurd h (by decide +kernel),
    fun h => absurd h (by decide +kernel),
    fun h => absurd h (by decide +kernel),
    fun h => absurd h (by decide +kernel),
    fun h => absurd h (by decide +kernel),
    fun h => absurd h (by decide +kernel),
    fun h => absurd h (by decide +kernel),
    fun h => absurd h (by decide +kernel),
    fun h => absurd h (by decide +kernel),
    fun h => absurd h (by decide +kernel),
    fun h => absurd h (by decide +kernel),
    fun h => absurd h (by decide +kernel),
    fun h => absurd h (by decide +kernel),
    fun h => absurd h (by decide +kernel),
    fun h => absurd h (by decide +kernel),
    fun h => absurd h (by decide +kernel)⟩

theorem spinScaling_03 : ∀ x ∈ shipped03, isExchange x.name = true → x.name ∉ spinScalingOpen → SpinScaling x.fam x.code := by
  unfold shipped03
  simp only [List.forall_mem_cons, List.not_mem_nil, false_implies, implies_true, and_true]
  exact ⟨fun h => absurd h (by decide +kernel),
    fun h => absurd h (by decide +kernel),
    fun h => absurd h (by decide +kernel),
    fun h => absurd h (by decide +kernel),
    fun h => absurd h (by decide +kernel),
    fun h => absurd h (by decide +kernel),
    fun h => absurd h (by decide +kernel),
    fun h => absurd h (by decide +kernel),
    fun _ _ => gga_k_apbe_spinScaling,
    fun _ _ => gga_k_apbeint_spinScaling,
    fun _ _ => gga_k_dk_spinScaling,
    fun _ h => absurd (by simp [spinScalingOpen]) h,
    fun _ _ => gga_k_lc94_spinScaling,
    fun _ _ => gga_k_lgap_spinScaling,
    fun _ _ => gga_k_lgap_ge_spinScaling,
    fun _ _ => gga_k_lkt_spinScaling,
    fun _ _ => gga_k_llp_spinScaling,
    fun _ _ => gga_k_meyer_spinScaling,
    fun _ _ => gga_k_mpbe_spinScaling,
    fun _ _ => gga_k_ol1_spinScaling,
    fun _ _ => gga_k_ol2_spinScaling,
    fun _ _ => gga_k_pearson_spinScaling,
    fun _ _ => gga_k_pg_spinScaling,
    fun _ _ => gga_k_pw86_spinScaling,
    fun _ _ => gga_k_rational_p_spinScaling,
    fun _ _ => gga_k_tflw_spinScaling,
    fun _ _ => gga_k_thakkar_spinScaling⟩

theorem spinScaling_04 : ∀ x ∈ shipped04, isExchange x.name = true → x.name ∉ spinScalingOpen → SpinScaling x.fam x.code := by
  unfold shipped04
  simp only [List.forall_mem_cons, List.not_mem_nil, false_implies, implies_true, and_true]
  exact ⟨fun _ _ => gga_k_vt84f_spinScaling,
    fun _ _ => gga_x_2d_b86_spinScaling,
    fun _ _ => gga_x_2d_b86_mgc_spinScaling,
    fun _ _ => gga_x_2d_b88_spinScaling,
    fun _ _ => gga_x_2d_pbe_spinScaling,
    fun _ _ => gga_x_airy_spinScaling,
    fun _ _ => gga_x_ak13_spinScaling,
    fun _ _ => gga_x_am05_spinScaling,
    fun _ _ => gga_x_b86_spinScaling,
    fun _ _ => gga_x_b88_spinScaling,
    fun _ _ => gga_x_bayesian_spinScaling,
    fun _ _ => gga_x_beefvdw_spinScaling,
    fun _ h => absurd (by simp [spinScalingOpen]) h,
    fun _ _ => gga_x_c09x_spinScaling,
    fun _ _ => gga_x_cap_spinScaling,
    fun _ _ => gga_x_chachiyo_spinScaling,
    fun _ _ => gga_x_dk87_spinScaling,
    fun _ _ => gga_x_ev93_spinScaling,
    fun _ h => absurd (by simp [spinScalingOpen]) h,
    fun _ _ => gga_x_ft97_spinScaling,
    fun _ _ => gga_x_g96_spinScaling,
    fun _ h => absurd (by simp [spinScalingOpen]) h,
    fun _ _ => gga_x_hcth_a_spinScaling,
    fun _ _ => gga_x_herman_spinScaling,
    fun _ _ => gga_x_hjs_spinScaling⟩

theorem spinScaling_05 : ∀ x ∈ shipped05, isExchange x.name = true → x.name ∉ spinScalingOpen → SpinScaling x.fam x.code := by
  unfold shipped05
  simp only [List.forall_mem_cons, List.not_mem_nil, false_implies, implies_true, and_true]
  exact ⟨fun _ _ => gga_x_hjs_b88_v2_spinScaling,
    fun _ h => absurd (by simp [spinScalingOpen]) h,
    fun _ _ => gga_x_ityh_spinScaling,
    fun _ _ => gga_x_ityh_optx_spinScaling,
    fun _ _ => gga_x_ityh_pbe_spinScaling,
    fun _ _ => gga_x_kt_spinScaling,
    fun _ _ => gga_x_lag_spinScaling,
    fun _ h => absurd (by simp [spinScalingOpen]) h,
    fun _ h => absurd (by simp [spinScalingOpen]) h,
    fun _ _ => gga_x_lspbe_spinScaling,
    fun _ _ => gga_x_lsrpbe_spinScaling,
    fun _ h => absurd (by simp [spinScalingOpen]) h,
    fun _ _ => gga_x_mpbe_spinScaling,
    fun _ _ => gga_x_n12_spinScaling,
    fun _ _ => gga_x_ncap_spinScaling,
    fun _ _ => gga_x_ol2_spinScaling,
    fun _ _ => gga_x_optx_spinScaling,
    fun _ _ => gga_x_pbe_spinScaling,
    fun _ _ => gga_x_pbea_spinScaling,
    fun _ _ => gga_x_pbeint_spinScaling,
    fun _ _ => gga_x_pbepow_spinScaling⟩

theorem spinScaling_06 : ∀ x ∈ shipped06, isExchange x.name = true → x.name ∉ spinScalingOpen → SpinScaling x.fam x.code := by
  unfold shipped06
  simp only [List.forall_mem_cons, List.not_mem_nil, false_implies, implies_true, and_true]
  exact ⟨fun _ _ => gga_x_pbetrans_spinScaling,
    fun _ _ => gga_x_pw86_spinScaling,
    fun _ _ => gga_x_pw91_spinScaling,
    fun _ _ => gga_x_q1d_spinScaling,
    fun _ _ => gga_x_q2d_spinScaling,
    fun _ h => absurd (by simp [spinScalingOpen]) h,
    fun _ _ => gga_x_rpbe_spinScaling,
    fun _ _ => gga_x_s12_spinScaling,
    fun _ _ => gga_x_sfat_spinScaling,
    fun _ _ => gga_x_sfat_pbe_spinScaling,
    fun _ h => absurd (by simp [spinScalingOpen]) h,
    fun _ _ => gga_x_sogga11_spinScaling,
    fun _ _ => gga_x_ssb_sw_spinScaling,
    fun _ _ => gga_x_vmt_spinScaling,
    fun _ _ => gga_x_vmt84_spinScaling,
    fun _ _ => gga_x_wc_spinScaling,
    fun _ _ => gga_x_wpbeh_spinScaling,
    fun h => absurd h (by decide +kernel)⟩

theorem spinScaling_07 : ∀ x ∈ shipped07, isExchange x.name = true → x.name ∉ spinScalingOpen → SpinScaling x.fam x.code := by
  unfold shipped07
  simp only [List.forall_mem_cons, List.not_mem_nil, false_implies, implies_true, and_true]
  exact ⟨fun h => absurd h (by decide +kernel),
    fun h => absurd h (by decide +kernel),
    fun h => absurd h (by decide +kernel),
    fun _ _ => hyb_gga_x_cam_s12_spinScaling,
    fun h => absurd h (by decide +kernel),
    fun h => absurd h (by decide +kernel),
    fun h => absurd h (by decide +kernel),
    fun _ _ => hyb_mgga_x_dldf_spinScaling,
    fun _ _ => hyb_mgga_x_js18_spinScaling,
    fun _ _ => hyb_mgga_x_m05_spinScaling⟩

theorem spinScaling_08 : ∀ x ∈ shipped08, isExchange x.name = true → x.name ∉ spinScalingOpen → SpinScaling x.fam x.code := by
  unfold shipped08
  simp only [List.forall_mem_cons, List.not_mem_nil, false_implies, implies_true, and_true]
  exact ⟨fun _ _ => hyb_mgga_x_pjs18_spinScaling,
    fun h => absurd h (by decide +kernel),
    fun h => absurd h (by decide +kernel),
    fun h => absurd h (by decide +kernel),
    fun h => absurd h (by decide +kernel),
    fun h => absurd h (by decide +kernel),
    fun h => absurd h (by decide +kernel),
    fun h => absurd h (by decide +kernel),
    fun h => absurd h (by decide +kernel),
    fun h => absurd h (by decide +kernel),
    fun h => absurd h (by decide +kernel),
    fun h => absurd h (by decide +kernel),
    fun h => absurd h (by decide +kernel),
    fun h => absurd h (by decide +kernel),
    fun h => absurd h (by decide +kernel),
    fun h => absurd h (by decide +kernel)⟩

theorem spinScaling_09 : ∀ x ∈ shipped09, isExchange x.name = true → x.name ∉ spinScalingOpen → SpinScaling x.fam x.code := by
  unfold shipped09
  simp only [List.forall_mem_cons, List.not_mem_nil, false_implies, implies_true, and_true]
  exact ⟨fun h => absurd h (by decide +kernel),
    fun h => absurd h (by decide +kernel),
    fun h => absurd h (by decide +kernel),
    fun h => absurd h (by decide +kernel),
    fun h => absurd h (by decide +kernel),
    fun h => absurd h (by decide +kernel),
    fun h => absurd h (by decide +kernel),
    fun h => absurd h (by decide +kernel),
    fun h => absurd h (by decide +kernel),
    fun h => absurd h (by decide +kernel),
    fun h => absurd h (by decide +kernel),
    fun _ _ => lda_k_gds08_worker_spinScaling,
    fun _ _ => lda_k_tf_spinScaling,
    fun _ h => absurd (by simp [spinScalingOpen]) h,
    fun _ _ => lda_x_spinScaling,
    fun _ h => absurd (by simp [spinScalingOpen]) h,
    fun _ h => absurd (by simp [spinScalingOpen]) h,
    fun _ _ => lda_x_2d_spinScaling,
    fun _ _ => lda_x_erf_spinScaling,
    fun _ h => absurd (by simp [spinScalingOpen]) h,
    fun _ h => absurd (by simp [spinScalingOpen]) h,
    fun _ _ => lda_x_yukawa_spinScaling,
    fun h => absurd h (by decide +kernel),
    fun h => absurd h (by decide +kernel),
    fun h => absurd h (by decide +kernel),
    fun h => absurd h (by decide +kernel),
    fun h => absurd h (by decide +kernel),
    fun h => absurd h (by decide +kernel),
    fun h => absurd h (by decide +kernel),
    fun h => absurd h (by decide +kernel)⟩

theorem spinScaling_10 : ∀ x ∈ shipped10, isExchange x.name = true → x.name ∉ spinScalingOpen → SpinScaling x.fam x.code := by
  unfold shipped10
  simp only [List.forall_mem_cons, List.not_mem_nil, false_implies, implies_true, and_true]
  exact ⟨fun h => absurd h (by decide +kernel),
    fun h => absurd h (by decide +kernel),
    fun h => absurd h (by decide +kernel),
    fun h => absurd h (by decide +kernel),
    fun h => absurd h (by decide +kernel),
    fun h => absurd h (by decide +kernel),
    fun h => absurd h (by decide +kernel),
    fun h => absurd h (by decide +kernel),
    fun h => absurd h (by decide +kernel)⟩

theorem spinScaling_11 : ∀ x ∈ shipped11, isExchange x.name = true → x.name ∉ spinScalingOpen → SpinScaling x.fam x.code := by
  unfold shipped11
  simp only [List.forall_mem_cons, List.not_mem_nil, false_implies, implies_true, and_true]
  exact ⟨fun h => absurd h (by decide +kernel),
    fun h => absurd h (by decide +kernel),
    fun h => absurd h (by decide +kernel),
    fun h => absurd h (by decide +kernel),
    fun h => absurd h (by decide +kernel),
    fun h => absurd h (by decide +kernel),
    fun h => absurd h (by decide +kernel),
    fun h => absurd h (by decide +kernel)⟩

theorem spinScaling_12 : ∀ x ∈ shipped12, isExchange x.name = true → x.name ∉ spinScalingOpen → SpinScaling x.fam x.code := by
  unfold shipped12
  simp only [List.forall_mem_cons, List.not_mem_nil, false_implies, implies_true, and_true]
  exact ⟨fun h => absurd h (by decide +kernel),
    fun h => absurd h (by decide +kernel),
    fun h => absurd h (by decide +kernel),
    fun h => absurd h (by decide +kernel),
    fun _ _ => mgga_k_csk_spinScaling,
    fun _ _ => mgga_k_csk_loc_spinScaling,
    fun _ _ => mgga_k_gea2_spinScaling,
    fun _ _ => mgga_k_gea4_spinScaling,
    fun _ _ => mgga_k_lk_spinScaling,
    fun _ _ => mgga_k_pc07_spinScaling⟩

theorem spinScaling_13 : ∀ x ∈ shipped13, isExchange x.name = true → x.name ∉ spinScalingOpen → SpinScaling x.fam x.code := by
  unfold shipped13
  simp only [List.forall_mem_cons, List.not_mem_nil, false_implies, implies_true, and_true]
  exact ⟨fun _ _ => mgga_k_pgslb_spinScaling,
    fun _ _ => mgga_k_rda_spinScaling,
    fun _ h => absurd (by simp [spinScalingOpen]) h,
    fun _ _ => mgga_x_2d_prhg07_spinScaling,
    fun _ h => absurd (by simp [spinScalingOpen]) h,
    fun _ h => absurd (by simp [spinScalingOpen]) h,
    fun _ _ => mgga_x_br89_explicit_spinScaling,
    fun _ _ => mgga_x_edmgga_spinScaling,
    fun _ _ => mgga_x_ft98_spinScaling,
    fun _ _ => mgga_x_gdme_spinScaling,
    fun _ _ => mgga_x_gvt4_spinScaling,
    fun _ _ => mgga_x_gx_spinScaling,
    fun _ _ => mgga_x_jk_spinScaling,
    fun _ _ => mgga_x_lta_spinScaling,
    fun _ _ => mgga_x_m06l_spinScaling,
    fun _ _ => mgga_x_m08_spinScaling,
    fun _ _ => mgga_x_m11_spinScaling,
    fun _ _ => mgga_x_m11_l_spinScaling⟩

theorem spinScaling_14 : ∀ x ∈ shipped14, isExchange x.name = true → x.name ∉ spinScalingOpen → SpinScaling x.fam x.code := by
  unfold shipped14
  simp only [List.forall_mem_cons, List.not_mem_nil, false_implies, implies_true, and_true]
  exact ⟨fun _ _ => mgga_x_mbeef_spinScaling,
    fun _ _ => mgga_x_mbeefvdw_spinScaling,
    fun _ h => absurd (by simp [spinScalingOpen]) h,
    fun _ h => absurd (by simp [spinScalingOpen]) h,
    fun _ h => absurd (by simp [spinScalingOpen]) h,
    fun _ _ => mgga_x_mcml_spinScaling,
    fun _ h => absurd (by simp [spinScalingOpen]) h,
    fun _ _ => mgga_x_mn12_spinScaling,
    fun _ _ => mgga_x_ms_spinScaling,
    fun _ _ => mgga_x_msb_spinScaling,
    fun _ _ => mgga_x_mvs_spinScaling⟩

theorem spinScaling_15 : ∀ x ∈ shipped15, isExchange x.name = true → x.name ∉ spinScalingOpen → SpinScaling x.fam x.code := by
  unfold shipped15
  simp only [List.forall_mem_cons, List.not_mem_nil, false_implies, implies_true, and_true]
  exact ⟨fun _ _ => mgga_x_mvsb_spinScaling,
    fun _ _ => mgga_x_pbe_gx_spinScaling,
    fun _ _ => mgga_x_pkzb_spinScaling,
    fun _ _ => mgga_x_r2scan_spinScaling,
    fun _ _ => mgga_x_r4scan_spinScaling,
    fun _ _ => mgga_x_regtm_spinScaling,
    fun _ _ => mgga_x_regtpss_spinScaling,
    fun _ _ => mgga_x_revtm_spinScaling,
    fun _ _ => mgga_x_rlda_spinScaling,
    fun _ _ => mgga_x_rppscan_spinScaling,
    fun _ _ => mgga_x_rscan_spinScaling,
    fun _ _ => mgga_x_rtpss_spinScaling,
    fun _ _ => mgga_x_sa_tpss_spinScaling,
    fun _ _ => mgga_x_scan_spinScaling,
    fun _ h => absurd (by simp [spinScalingOpen]) h⟩

theorem spinScaling_16 : ∀ x ∈ shipped16, isExchange x.name = true → x.name ∉ spinScalingOpen → SpinScaling x.fam x.code := by
  unfold shipped16
  simp only [List.forall_mem_cons, List.not_mem_nil, false_implies, implies_true, and_true]
  exact ⟨fun _ _ => mgga_x_tau_hcth_spinScaling,
    fun _ h => absurd (by simp [spinScalingOpen]) h,
    fun _ _ => mgga_x_th_spinScaling,
    fun _ _ => mgga_x_tm_spinScaling,
    fun _ _ => mgga_x_tpss_spinScaling,
    fun _ _ => mgga_x_vcml_spinScaling,
    fun _ _ => mgga_x_vt84_spinScaling,
    fun h => absurd h (by decide +kernel),
    fun h => absurd h (by decide +kernel),
    fun h => absurd h (by decide +kernel),
    fun h => absurd h (by decide +kernel),
    fun h => absurd h (by decide +kernel)⟩

/-- C37. Missing: the formulas in `spinScalingOpen`. -/
theorem spinScaling_shipped_partial : ∀ x ∈ shipped, isExchange x.name = true → x.name ∉ spinScalingOpen → SpinScaling x.fam x.code := by
  intro x hx
  simp only [shipped, List.mem_append] at hx
  rcases hx with (((((((((((((((h | h) | h) | h) | h) | h) | h) | h) | h) | h) | h) | h) | h) | h) | h) | h)
  · exact spinScaling_01 x h
  · exact spinScaling_02 x h
  · exact spinScaling_03 x h
  · exact spinScaling_04 x h
  · exact spinScaling_05 x h
  · exact spinScaling_06 x h
  · exact spinScaling_07 x h
  · exact spinScaling_08 x h
  · exact spinScaling_09 x h
  · exact spinScaling_10 x h
  · exact spinScaling_11 x h
  · exact spinScaling_12 x h
  · exact spinScaling_13 x h
  · exact spinScaling_14 x h
  · exact spinScaling_15 x h
  · exact spinScaling_16 x h

/-- Shipped exchange and kinetic-energy formulas for which `ScreenedBoth` is not proved. -/
def screenedBothOpen : List String := [
  "gga_x_fd_lb94",
  "gga_x_gg99",
  "gga_x_lb",
  "lda_k_tf",
  "lda_k_zlp",
  "lda_x_1d_exponential",
  "lda_x_1d_soft",
  "lda_x_2d",
  "lda_x_erf",
  "lda_x_sloc",
  "lda_x_yukawa",
  "mgga_x_2d_prp10",
  "mgga_x_br89",
  "mgga_x_mbr",
  "mgga_x_mbrxc_bg",
  "mgga_x_mbrxh_bg",
  "mgga_x_mggac",
  "mgga_x_tb09"]

theorem screenedBoth_01 : ∀ x ∈ shipped01, isExchange x.name = true → x.name ∉ screenedBothOpen → ScreenedBoth x.fam x.code := by
  unfold shipped01
  simp only [List.forall_mem_cons, List.not_mem_nil, false_implies, implies_true, and_true]
  exact ⟨fun h => absurd h (by decide +kernel),
    fun h => absurd h (by decide +kernel),
    fun h => absurd h (by decide +kernel),
    fun h => absurd h (by decide +kernel),
    fun h => absurd h (by decide +kernel),
    fun h => absurd h (by decide +kernel),
    fun h => absurd h (by decide +kernel),
    fun h => absurd h (by decide +kernel),
    fun h => absurd h (by decide +kernel),
    fun h => absurd h (by decide +kernel),
    fun h => absurd h (by decide +kernel),
    fun h => absurd h (by decide +kernel),
    fun h => absurd h (by decide +kernel),
    fun h => absurd h (by decide +kernel),
    fun h => absurd h (by decide +kernel)⟩

theorem screenedBoth_02 : ∀ x ∈ shipped02, isExchange x.name = true → x.name ∉ screenedBothOpen → ScreenedBoth x.fam x.code := by
  unfold shipped02
  simp only [List.forall_mem_cons, List.not_mem_nil, false_implies, implies_true, and_true]
  exact ⟨fun h => absurd h (by decide +kernel),
    fun h => absurd h (by decide +kernel),
    fun h => absurd h (by decide +kernel),
    fun h => absurd h (by decide +kernel),
    fun h => absurd h (by decide +kernel),
    fun h => absurd h (by decide +kernel),
    fun h => absurd h (by decide +kernel),
    fun h => absurd h (by decide +kernel),
    fun h => absurd h (by decide +kernel),
    fun h => absurd h (by decide +kernel),
    fun h => absurd h (by decide +kernel),
    fun h => absurd h (by decide +kernel),
    fun h => absurd h (by decide +kernel),
    fun h => absurd h (by decide +kernel),
    fun h => absurd h (by decide +kernel),
    fun h => absurd h (by decide +kernel)⟩

theorem screenedBoth_03 : ∀ x ∈ shipped03, isExchange x.name = true → x.name ∉ screenedBothOpen → ScreenedBoth x.fam x.code := by
  unfold shipped03
  simp only [List.forall_mem_cons, List.not_mem_nil, false_implies, implies_true, and_true]
  exact ⟨fun h => absurd h (by decide +kernel),
    fun h => absurd h (by decide +kernel),
    fun h => absurd h (by decide +kernel),
    fun h => absurd h (by decide +kernel),
    fun h => absurd h (by decide +kernel),
    fun h => absurd h (by decide +kernel),
    fun h => absurd h (by decide +kernel),
    fun h => absurd h (by decide +kernel),
    fun _ _ => gga_k_apbe_screenedBoth,
    fun _ _ => gga_k_apbeint_screenedBoth,
    fun _ _ => gga_k_dk_screenedBoth,
    fun _ _ => gga_k_exp4_screenedBoth,
    fun _ _ => gga_k_lc94_screenedBoth,
    fun _ _ => gga_k_lgap_screenedBoth,
    fun _ _ => gga_k_lgap_ge_screenedBoth,
    fun _ _ => gga_k_lkt_screenedBoth,
    fun _ _ => gga_k_llp_screenedBoth,
    fun _ _ => gga_k_meyer_screenedBoth,
    fun _ _ => gga_k_mpbe_screenedBoth,
    fun _ _ => gga_k_ol1_screenedBoth,
    fun _ _ => gga_k_ol2_screenedBoth,
    fun _ _ => gga_k_pearson_screenedBoth,
    fun _ _ => gga_k_pg_screenedBoth,
    fun _ _ => gga_k_pw86_screenedBoth,
    fun _ _ => gga_k_rational_p_screenedBoth,
    fun _ _ => gga_k_tflw_screenedBoth,
    fun _ _ => gga_k_thakkar_screenedBoth⟩

theorem screenedBoth_04 : ∀ x ∈ shipped04, isExchange x.name = true → x.name ∉ screenedBothOpen → ScreenedBoth x.fam x.code := by
  unfold shipped04
  simp only [List.forall_mem_cons, List.not_mem_nil, false_implies, implies_true, and_true]
  exact ⟨fun _ _ => gga_k_vt84f_screenedBoth,
    fun _ _ => gga_x_2d_b86_screenedBoth,
    fun _ _ => gga_x_2d_b86_mgc_screenedBoth,
    fun _ _ => gga_x_2d_b88_screenedBoth,
    fun _ _ => gga_x_2d_pbe_screenedBoth,
    fun _ _ => gga_x_airy_screenedBoth,
    fun _ _ => gga_x_ak13_screenedBoth,
    fun _ _ => gga_x_am05_screenedBoth,
    fun _ _ => gga_x_b86_screenedBoth,
    fun _ _ => gga_x_b88_screenedBoth,
    fun _ _ => gga_x_bayesian_screenedBoth,
    fun _ _ => gga_x_beefvdw_screenedBoth,
    fun _ _ => gga_x_bpccac_screenedBoth,
    fun _ _ => gga_x_c09x_screenedBoth,
    fun _ _ => gga_x_cap_screenedBoth,
    fun _ _ => gga_x_chachiyo_screenedBoth,
    fun _ _ => gga_x_dk87_screenedBoth,
    fun _ _ => gga_x_ev93_screenedBoth,
    fun _ h => absurd (by simp [screenedBothOpen]) h,
    fun _ _ => gga_x_ft97_screenedBoth,
    fun _ _ => gga_x_g96_screenedBoth,
    fun _ h => absurd (by simp [screenedBothOpen]) h,
    fun _ _ => gga_x_hcth_a_screenedBoth,
    fun _ _ => gga_x_herman_screenedBoth,
    fun _ _ => gga_x_hjs_screenedBoth⟩

theorem screenedBoth_05 : ∀ x ∈ shipped05, isExchange x.name = true → x.name ∉ screenedBothOpen → ScreenedBoth x.fam x.code := by
  unfold shipped05
  simp only [List.forall_mem_cons, List.not_mem_nil, false_implies, implies_true, and_true]
  exact ⟨fun _ _ => gga_x_hjs_b88_v2_screenedBoth,
    fun _ _ => gga_x_htbs_screenedBoth,
    fun _ _ => gga_x_ityh_screenedBoth,
    fun _ _ => gga_x_ityh_optx_screenedBoth,
    fun _ _ => gga_x_ityh_pbe_screenedBoth,
    fun _ _ => gga_x_kt_screenedBoth,
    fun _ _ => gga_x_lag_screenedBoth,
    fun _ h => absurd (by simp [screenedBothOpen]) h,
    fun _ _ => gga_x_lg93_screenedBoth,
    fun _ _ => gga_x_lspbe_screenedBoth,
    fun _ _ => gga_x_lsrpbe_screenedBoth,
    fun _ _ => gga_x_lv_rpw86_screenedBoth,
    fun _ _ => gga_x_mpbe_screenedBoth,
    fun _ _ => gga_x_n12_screenedBoth,
    fun _ _ => gga_x_ncap_screenedBoth,
    fun _ _ => gga_x_ol2_screenedBoth,
    fun _ _ => gga_x_optx_screenedBoth,
    fun _ _ => gga_x_pbe_screenedBoth,
    fun _ _ => gga_x_pbea_screenedBoth,
    fun _ _ => gga_x_pbeint_screenedBoth,
    fun _ _ => gga_x_pbepow_screenedBoth⟩

theorem screenedBoth_06 : ∀ x ∈ shipped06, isExchange x.name = true → x.name ∉ screenedBothOpen → ScreenedBoth x.fam x.code := by
  unfold shipped06
  simp only [List.forall_mem_cons, List.not_mem_nil, false_implies, implies_true, and_true]
  exact ⟨fun _ _ => gga_x_pbetrans_screenedBoth,
    fun _ _ => gga_x_pw86_screenedBoth,
    fun _ _ => gga_x_pw91_screenedBoth,
    fun _ _ => gga_x_q1d_screenedBoth,
    fun _ _ => gga_x_q2d_screenedBoth,
    fun _ _ => gga_x_rge2_screenedBoth,
    fun _ _ => gga_x_rpbe_screenedBoth,
    fun _ _ => gga_x_s12_screenedBoth,
    fun _ _ => gga_x_sfat_screenedBoth,
    fun _ _ => gga_x_sfat_pbe_screenedBoth,
    fun _ _ => gga_x_sg4_screenedBoth,
    fun _ _ => gga_x_sogga11_screenedBoth,
    fun _ _ => gga_x_ssb_sw_screenedBoth,
    fun _ _ => gga_x_vmt_screenedBoth,
    fun _ _ => gga_x_vmt84_screenedBoth,
    fun _ _ => gga_x_wc_screenedBoth,
    fun _ _ => gga_x_wpbeh_screenedBoth,
    fun h => absurd h (by decide +kernel)⟩

theorem screenedBoth_07 : ∀ x ∈ shipped07, isExchange x.name = true → x.name ∉ screenedBothOpen → ScreenedBoth x.fam x.code := by
  unfold shipped07
  simp only [List.forall_mem_cons, List.not_mem_nil, false_implies, implies_true, and_true]
  exact ⟨fun h => absurd h (by decide +kernel),
    fun h => absurd h (by decide +kernel),
    fun h => absurd h (by decide +kernel),
    fun _ _ => hyb_gga_x_cam_s12_screenedBoth,
    fun h => absurd h (by decide +kernel),
    fun h => absurd h (by decide +kernel),
    fun h => absurd h (by decide +kernel),
    fun _ _ => hyb_mgga_x_dldf_screenedBoth,
    fun _ _ => hyb_mgga_x_js18_screenedBoth,
    fun _ _ => hyb_mgga_x_m05_screenedBoth⟩

theorem screenedBoth_08 : ∀ x ∈ shipped08, isExchange x.name = true → x.name ∉ screenedBothOpen → ScreenedBoth x.fam x.code := by
  unfold shipped08
  simp only [List.forall_mem_cons, List.not_mem_nil, false_implies, implies_true, and_true]
  exact ⟨fun _ _ => hyb_mgga_x_pjs18_screenedBoth,
    fun h => absurd h (by decide +kernel),
    fun h => absurd h (by decide +kernel),
    fun h => absurd h (by decide +kernel),
    fun h => absurd h (by decide +kernel),
    fun h => absurd h (by decide +kernel),
    fun h => absurd h (by decide +kernel),
    fun h => absurd h (by decide +kernel),
    fun h => absurd h (by decide +kernel),
    fun h => absurd h (by decide +kernel),
    fun h => absurd h (by decide +kernel),
    fun h => absurd h (by decide +kernel),
    fun h => absurd h (by decide +kernel),
    fun h => absurd h (by decide +kernel),
    fun h => absurd h (by decide +kernel),
    fun h => absurd h (by decide +kernel)⟩

theorem screenedBoth_09 : ∀ x ∈ shipped09, isExchange x.name = true → x.name ∉ screenedBothOpen → ScreenedBoth x.fam x.code := by
  unfold shipped09
  simp only [List.forall_mem_cons, List.not_mem_nil, false_implies, implies_true, and_true]
  exact ⟨fun h => absurd h (by decide +kernel),
    fun h => absurd h (by decide +kernel),
    fun h => absurd h (by decide +kernel),
    fun h => absurd h (by decide +kernel),
    fun h => absurd h (by decide +kernel),
    fun h => absurd h (by decide +kernel),
    fun h => absurd h (by decide +kernel),
    fun h => absurd h (by decide +kernel),
    fun h => absurd h (by decide +kernel),
    fun h => absurd h (by decide +kernel),
    fun h => absurd h (by decide +kernel),
    fun _ _ => lda_k_gds08_worker_screenedBoth,
    fun _ h => absurd (by simp [screenedBothOpen]) h,
    fun _ h => absurd (by simp [screenedBothOpen]) h,
    fun _ _ => lda_x_screenedBoth,
    fun _ h => absurd (by simp [screenedBothOpen]) h,
    fun _ h => absurd (by simp [screenedBothOpen]) h,
    fun _ h => absurd (by simp [screenedBothOpen]) h,
    fun _ h => absurd (by simp [screenedBothOpen]) h,
    fun _ _ => lda_x_rel_screenedBoth,
    fun _ h => absurd (by simp [screenedBothOpen]) h,
    fun _ h => absurd (by simp [screenedBothOpen]) h,
    fun h => absurd h (by decide +kernel),
    fun h => absurd h (by decide +kernel),
    fun h => absurd h (by decide +kernel),
    fun h => absurd h (by decide +kernel),
    fun h => absurd h (by decide +kernel),
    fun h => absurd h (by decide +kernel),
    fun h => absurd h (by decide +kernel),
    fun h => absurd h (by decide +kernel)⟩

theorem screenedBoth_10 : ∀ x ∈ shipped10, isExchange x.name = true → x.name ∉ screenedBothOpen → ScreenedBoth x.fam x.code := by
  unfold shipped10
  simp only [List.forall_mem_cons, List.not_mem_nil, false_implies, implies_true, and_true]
  exact ⟨fun h => absurd h (by decide +kernel),
    fun h => absurd h (by decide +kernel),
    fun h => absurd h (by decide +kernel),
    fun h => absurd h (by decide +kernel),
    fun h => absurd h (by decide +kernel),
    fun h => absurd h (by decide +kernel),
    fun h => absurd h (by decide +kernel),
    fun h => absurd h (by decide +kernel),
    fun h => absurd h (by decide +kernel)⟩

theorem screenedBoth_11 : ∀ x ∈ shipped11, isExchange x.name = true → x.name ∉ screenedBothOpen → ScreenedBoth x.fam x.code := by
  unfold shipped11
  simp only [List.forall_mem_cons, List.not_mem_nil, false_implies, implies_true, and_true]
  exact ⟨fun h => absurd h (by decide +kernel),
    fun h => absurd h (by decide +kernel),
    fun h => absurd h (by decide +kernel),
    fun h => absurd h (by decide +kernel),
    fun h => absurd h (by decide +kernel),
    fun h => absurd h (by decide +kernel),
    fun h => absurd h (by decide +kernel),
    fun h => absurd h (by decide +kernel)⟩

theorem screenedBoth_12 : ∀ x ∈ shipped12, isExchange x.name = true → x.name ∉ screenedBothOpen → ScreenedBoth x.fam x.code := by
  unfold shipped12
  simp only [List.forall_mem_cons, List.not_mem_nil, false_implies, implies_true, and_true]
  exact ⟨fun h => absurd h (by decide +kernel),
    fun h => absurd h (by decide +kernel),
    fun h => absurd h (by decide +kernel),
    fun h => absurd h (by decide +kernel),
    fun _ _ => mgga_k_csk_screenedBoth,
    fun _ _ => mgga_k_csk_loc_screenedBoth,
    fun _ _ => mgga_k_gea2_screenedBoth,
    fun _ _ => mgga_k_gea4_screenedBoth,
    fun _ _ => mgga_k_lk_screenedBoth,
    fun _ _ => mgga_k_pc07_screenedBoth⟩

theorem screenedBoth_13 : ∀ x ∈ shipped13, isExchange x.name = true → x.name ∉ screenedBothOpen → ScreenedBoth x.fam x.code := by
  unfold shipped13
  simp only [List.forall_mem_cons, List.not_mem_nil, false_implies, implies_true, and_true]
  exact ⟨fun _ _ => mgga_k_pgslb_screenedBoth,
    fun _ _ => mgga_k_rda_screenedBoth,
    fun _ _ => mgga_x_2d_js17_screenedBoth,
    fun _ _ => mgga_x_2d_prhg07_screenedBoth,
    fun _ h => absurd (by simp [screenedBothOpen]) h,
    fun _ h => absurd (by simp [screenedBothOpen]) h,
    fun _ _ => mgga_x_br89_explicit_screenedBoth,
    fun _ _ => mgga_x_edmgga_screenedBoth,
    fun _ _ => mgga_x_ft98_screenedBoth,
    fun _ _ => mgga_x_gdme_screenedBoth,
    fun _ _ => mgga_x_gvt4_screenedBoth,
    fun _ _ => mgga_x_gx_screenedBoth,
    fun _ _ => mgga_x_jk_screenedBoth,
    fun _ _ => mgga_x_lta_screenedBoth,
    fun _ _ => mgga_x_m06l_screenedBoth,
    fun _ _ => mgga_x_m08_screenedBoth,
    fun _ _ => mgga_x_m11_screenedBoth,
    fun _ _ => mgga_x_m11_l_screenedBoth⟩

theorem screenedBoth_14 : ∀ x ∈ shipped14, isExchange x.name = true → x.name ∉ screenedBothOpen → ScreenedBoth x.fam x.code := by
  unfold shipped14
  simp only [List.forall_mem_cons, List.not_mem_nil, false_implies, implies_true, and_true]
  exact ⟨fun _ _ => mgga_x_mbeef_screenedBoth,
    fun _ _ => mgga_x_mbeefvdw_screenedBoth,
    fun _ h => absurd (by simp [screenedBothOpen]) h,
    fun _ h => absurd (by simp [screenedBothOpen]) h,
    fun _ h => absurd (by simp [screenedBothOpen]) h,
    fun _ _ => mgga_x_mcml_screenedBoth,
    fun _ h => absurd (by simp [screenedBothOpen]) h,
    fun _ _ => mgga_x_mn12_screenedBoth,
    fun _ _ => mgga_x_ms_screenedBoth,
    fun _ _ => mgga_x_msb_screenedBoth,
    fun _ _ => mgga_x_mvs_screenedBoth⟩

theorem screenedBoth_15 : ∀ x ∈ shipped15, isExchange x.name = true → x.name ∉ screenedBothOpen → ScreenedBoth x.fam x.code := by
  unfold shipped15
  simp only [List.forall_mem_cons, List.not_mem_nil, false_implies, implies_true, and_true]
  exact ⟨fun _ _ => mgga_x_mvsb_screenedBoth,
    fun _ _ => mgga_x_pbe_gx_screenedBoth,
    fun _ _ => mgga_x_pkzb_screenedBoth,
    fun _ _ => mgga_x_r2scan_screenedBoth,
    fun _ _ => mgga_x_r4scan_screenedBoth,
    fun _ _ => mgga_x_regtm_screenedBoth,
    fun _ _ => mgga_x_regtpss_screenedBoth,
    fun _ _ => mgga_x_revtm_screenedBoth,
    fun _ _ => mgga_x_rlda_screenedBoth,
    fun _ _ => mgga_x_rppscan_screenedBoth,
    fun _ _ => mgga_x_rscan_screenedBoth,
    fun _ _ => mgga_x_rtpss_screenedBoth,
    fun _ _ => mgga_x_sa_tpss_screenedBoth,
    fun _ _ => mgga_x_scan_screenedBoth,
    fun _ _ => mgga_x_task_screenedBoth⟩

theorem screenedBoth_16 : ∀ x ∈ shipped16, isExchange x.name = true → x.name ∉ screenedBothOpen → ScreenedBoth x.fam x.code := by
  unfold shipped16
  simp only [List.forall_mem_cons, List.not_mem_nil, false_implies, implies_true, and_true]
  exact ⟨fun _ _ => mgga_x_tau_hcth_screenedBoth,
    fun _ h => absurd (by simp [screenedBothOpen]) h,
    fun _ _ => mgga_x_th_screenedBoth,
    fun _ _ => mgga_x_tm_screenedBoth,
    fun _ _ => mgga_x_tpss_screenedBoth,
    fun _ _ => mgga_x_vcml_screenedBoth,
    fun _ _ => mgga_x_vt84_screenedBoth,
    fun h => absurd h (by decide +kernel),
    fun h => absurd h (by decide +kernel),
    fun h => absurd h (by decide +kernel),
    fun h => absurd h (by decide +kernel),
    fun h => absurd h (by decide +kernel)⟩

/-- C42. Missing: the formulas in `screenedBothOpen`. -/
theorem screenedBoth_shipped_partial : ∀ x ∈ shipped, isExchange x.name = true → x.name ∉ screenedBothOpen → ScreenedBoth x.fam x.code := by
  intro x hx
  simp only [shipped, List.mem_append] at hx
  rcases hx with (((((((((((((((h | h) | h) | h) | h) | h) | h) | h) | h) | h) | h) | h) | h) | h) | h) | h)
  · exact screenedBoth_01 x h
  · exact screenedBoth_02 x h
  · exact screenedBoth_03 x h
  · exact screenedBoth_04 x h
  · exact screenedBoth_05 x h
  · exact screenedBoth_06 x h
  · exact screenedBoth_07 x h
  · exact screenedBoth_08 x h
  · exact screenedBoth_09 x h
  · exact screenedBoth_10 x h
  · exact screenedBoth_11 x h
  · exact screenedBoth_12 x h
  · exact screenedBoth_13 x h
  · exact screenedBoth_14 x h
  · exact screenedBoth_15 x h
  · exact screenedBoth_16 x h

/-- Shipped exchange and kinetic-energy formulas for which `ScreenedOne` is not proved. -/
def screenedOneOpen : List String := [
  "gga_x_fd_lb94",
  "gga_x_gg99",
  "gga_x_lb",
  "gga_x_wpbeh",
  "lda_x_1d_exponential",
  "lda_x_1d_soft",
  "mgga_x_2d_prp10",
  "mgga_x_br89",
  "mgga_x_mbr",
  "mgga_x_mbrxc_bg",
  "mgga_x_mbrxh_bg",
  "mgga_x_mggac",
  "mgga_x_tb09"]

theorem screenedOne_01 : ∀ x ∈ shipped01, isExchange x.name = true → x.name ∉ screenedOneOpen → ScreenedOne x.fam x.code := by
  unfold shipped01
  simp only [List.forall_mem_cons, List.not_mem_nil, false_implies, implies_true, and_true]
  exact ⟨fun h => absurd h (by decide +kernel),
    fun h => absurd h (by decide +kernel),
    fun h => absurd h (by decide +kernel),
    fun h => absurd h (by decide +kernel),
    fun h => absurd h (by decide +kernel),
    fun h => absurd h (by decide +kernel),
    fun h => absurd h (by decide +kernel),
    fun h => absurd h (by decide +kernel),
    fun h => absurd h (by decide +kernel),
    fun h => absurd h (by decide +kernel),
    fun h => absurd h (by decide +kernel),
    fun h => absurd h (by decide +kernel),
    fun h => absurd h (by decide +kernel),
    fun h => absurd h (by decide +kernel),
    fun h => absurd h (by decide +kernel)⟩

theorem screenedOne_02 : ∀ x ∈ shipped02, isExchange x.name = true → x.name ∉ screenedOneOpen → ScreenedOne x.fam x.code := by
  unfold shipped02
  simp only [List.forall_mem_cons, List.not_mem_nil, false_implies, implies_true, and_true]
  exact ⟨fun h => absurd h (by decide +kernel),
    fun h => absurd h (by decide +kernel),
    fun h => absurd h (by decide +kernel),
    fun h => absurd h (by decide +kernel),
    fun h => absurd h (by decide +kernel),
    fun h => absurd h (by decide +kernel),
    fun h => absurd h (by decide +kernel),
    fun h => absurd h (by decide +kernel),
    fun h => absurd h (by decide +kernel),
    fun h => absurd h (by decide +kernel),
    fun h => absurd h (by decide +kernel),
    fun h => absurd h (by decide +kernel),
    fun h => absurd h (by decide +kernel),
    fun h => absurd h (by decide +kernel),
    fun h => absurd h (by decide +kernel),
    fun h => absurd h (by decide +kernel)⟩

theorem screenedOne_03 : ∀ x ∈ shipped03, isExchange x.name = true → x.name ∉ screenedOneOpen → ScreenedOne x.fam x.code := by
  unfold shipped03
  simp only [List.forall_mem_cons, List.not_mem_nil, false_implies, implies_true, and_true]
  exact ⟨fun h => absurd h (by decide +kernel),
    fun h => absurd h (by decide +kernel),
    fun h => absurd h (by decide +kernel),
    fun h => absurd h (by decide +kernel),
    fun h => absurd h (by decide +kernel),
    fun h => absurd h (by decide +kernel),
    fun h => absurd h (by decide +kernel),
    fun h => absurd h (by decide +kernel),
    fun _ _ => gga_k_apbe_screenedOne,
    fun _ _ => gga_k_apbeint_screenedOne,
    fun _ _ => gga_k_dk_screenedOne,
    fun _ _ => gga_k_exp4_screenedOne,
    fun _ _ => gga_k_lc94_screenedOne,
    fun _ _ => gga_k_lgap_screenedOne,
    fun _ _ => gga_k_lgap_ge_screenedOne,
    fun _ _ => gga_k_lkt_screenedOne,
    fun _ _ => gga_k_llp_screenedOne,
    fun _ _ => gga_k_meyer_screenedOne,
    fun _ _ => gga_k_mpbe_screenedOne,
    fun _ _ => gga_k_ol1_screenedOne,
    fun _ _ => gga_k_ol2_screenedOne,
    fun _ _ => gga_k_pearson_screenedOne,
    fun _ _ => gga_k_pg_screenedOne,
    fun _ _ => gga_k_pw86_screenedOne,
    fun _ _ => gga_k_rational_p_screenedOne,
    fun _ _ => gga_k_tflw_screenedOne,
    fun _ _ => gga_k_thakkar_screenedOne⟩

theorem screenedOne_04 : ∀ x ∈ shipped04, isExchange x.name = true → x.name ∉ screenedOneOpen → ScreenedOne x.fam x.code := by
  unfold shipped04
  simp only [List.forall_mem_cons, List.not_mem_nil, false_implies, implies_true, and_true]
  exact ⟨fun _ _ => gga_k_vt84f_screenedOne,
    fun _ _ => gga_x_2d_b86_screenedOne,
    fun _ _ => gga_x_2d_b86_mgc_screenedOne,
    fun _ _ => gga_x_2d_b88_screenedOne,
    fun _ _ => gga_x_2d_pbe_screenedOne,
    fun _ _ => gga_x_airy_screenedOne,
    fun _ _ => gga_x_ak13_screenedOne,
    fun _ _ => gga_x_am05_screenedOne,
    fun _ _ => gga_x_b86_screenedOne,
    fun _ _ => gga_x_b88_screenedOne,
    fun _ _ => gga_x_bayesian_screenedOne,
    fun _ _ => gga_x_beefvdw_screenedOne,
    fun _ _ => gga_x_bpccac_screenedOne,
    fun _ _ => gga_x_c09x_screenedOne,
    fun _ _ => gga_x_cap_screenedOne,
    fun _ _ => gga_x_chachiyo_screenedOne,
    fun _ _ => gga_x_dk87_screenedOne,
    fun _ _ => gga_x_ev93_screenedOne,
    fun _ h => absurd (by simp [screenedOneOpen]) h,
    fun _ _ => gga_x_ft97_screenedOne,
    fun _ _ => gga_x_g96_screenedOne,
    fun _ h => absurd (by simp [screenedOneOpen]) h,
    fun _ _ => gga_x_hcth_a_screenedOne,
    fun _ _ => gga_x_herman_screenedOne,
    fun _ _ => gga_x_hjs_screenedOne⟩

theorem screenedOne_05 : ∀ x ∈ shipped05, isExchange x.name = true → x.name ∉ screenedOneOpen → ScreenedOne x.fam x.code := by
  unfold shipped05
  simp only [List.forall_mem_cons, List.not_mem_nil, false_implies, implies_true, and_true]
  exact ⟨fun _ _ => gga_x_hjs_b88_v2_screenedOne,
    fun _ _ => gga_x_htbs_screenedOne,
    fun _ _ => gga_x_ityh_screenedOne,
    fun _ _ => gga_x_ityh_optx_screenedOne,
    fun _ _ => gga_x_ityh_pbe_screenedOne,
    fun _ _ => gga_x_kt_screenedOne,
    fun _ _ => gga_x_lag_screenedOne,
    fun _ h => absurd (by simp [screenedOneOpen]) h,
    fun _ _ => gga_x_lg93_screenedOne,
    fun _ _ => gga_x_lspbe_screenedOne,
    fun _ _ => gga_x_lsrpbe_screenedOne,
    fun _ _ => gga_x_lv_rpw86_screenedOne,
    fun _ _ => gga_x_mpbe_screenedOne,
    fun _ _ => gga_x_n12_screenedOne,
    fun _ _ => gga_x_ncap_screenedOne,
    fun _ _ => gga_x_ol2_screenedOne,
    fun _ _ => gga_x_optx_screenedOne,
    fun _ _ => gga_x_pbe_screenedOne,
    fun _ _ => gga_x_pbea_screenedOne,
    fun _ _ => gga_x_pbeint_screenedOne,
    fun _ _ => gga_x_pbepow_screenedOne⟩

theorem screenedOne_06 : ∀ x ∈ shipped06, isExchange x.name = true → x.name ∉ screenedOneOpen → ScreenedOne x.fam x.code := by
  unfold shipped06
  simp only [List.forall_mem_cons, List.not_mem_nil, false_implies, implies_true, and_true]
  exact ⟨fun _ _ => gga_x_pbetrans_screenedOne,
    fun _ _ => gga_x_pw86_screenedOne,
    fun _ _ => gga_x_pw91_screenedOne,
    fun _ _ => gga_x_q1d_screenedOne,
    fun _ _ => gga_x_q2d_screenedOne,
    fun _ _ => gga_x_rge2_screenedOne,
    fun _ _ => gga_x_rpbe_screenedOne,
    fun _ _ => gga_x_s12_screenedOne,
    fun _ _ => gga_x_sfat_screenedOne,
    fun _ _ => gga_x_sfat_pbe_screenedOne,
    fun _ _ => gga_x_sg4_screenedOne,
    fun _ _ => gga_x_sogga11_screenedOne,
    fun _ _ => gga_x_ssb_sw_screenedOne,
    fun _ _ => gga_x_vmt_screenedOne,
    fun _ _ => gga_x_vmt84_screenedOne,
    fun _ _ => gga_x_wc_screenedOne,
    fun _ h => absurd (by simp [screenedOneOpen]) h,
    fun h => absurd h (by decide +kernel)⟩

theorem screenedOne_07 : ∀ x ∈ shipped07, isExchange x.name = true → x.name ∉ screenedOneOpen → ScreenedOne x.fam x.code := by
  unfold shipped07
  simp only [List.forall_mem_cons, List.not_mem_nil, false_implies, implies_true, and_true]
  exact ⟨fun h => absurd h (by decide +kernel),
    fun h => absurd h (by decide +kernel),
    fun h => absurd h (by decide +kernel),
    fun _ _ => hyb_gga_x_cam_s12_screenedOne,
    fun h => absurd h (by decide +kernel),
    fun h => absurd h (by decide +kernel),
    fun h => absurd h (by decide +kernel),
    fun _ _ => hyb_mgga_x_dldf_screenedOne,
    fun _ _ => hyb_mgga_x_js18_screenedOne,
    fun _ _ => hyb_mgga_x_m05_screenedOne⟩

theorem screenedOne_08 : ∀ x ∈ shipped08, isExchange x.name = true → x.name ∉ screenedOneOpen → ScreenedOne x.fam x.code := by
  unfold shipped08
  simp only [List.forall_mem_cons, List.not_mem_nil, false_implies, implies_true, and_true]
  exact ⟨fun _ _ => hyb_mgga_x_pjs18_screenedOne,
    fun h => absurd h (by decide +kernel),
    fun h => absurd h (by decide +kernel),
    fun h => absurd h (by decide +kernel),
    fun h => absurd h (by decide +kernel),
    fun h => absurd h (by decide +kernel),
    fun h => absurd h (by decide +kernel),
    fun h => absurd h (by decide +kernel),
    fun h => absurd h (by decide +kernel),
    fun h => absurd h (by decide +kernel),
    fun h => absurd h (by decide +kernel),
    fun h => absurd h (by decide +kernel),
    fun h => absurd h (by decide +kernel),
    fun h => absurd h (by decide +kernel),
    fun h => absurd h (by decide +kernel),
    fun h => absurd h (by decide +kernel)⟩

theorem screenedOne_09 : ∀ x ∈ shipped09, isExchange x.name = true → x.name ∉ screenedOneOpen → ScreenedOne x.fam x.code := by
  unfold shipped09
  simp only [List.forall_mem_cons, List.not_mem_nil, false_implies, implies_true, and_true]
  exact ⟨fun h => absurd h (by decide +kernel),
    fun h => absurd h (by decide +kernel),
    fun h => absurd h (by decide +kernel),
    fun h => absurd h (by decide +kernel),
    fun h => absurd h (by decide +kernel),
    fun h => absurd h (by decide +kernel),
    fun h => absurd h (by decide +kernel),
    fun h => absurd h (by decide +kernel),
    fun h => absurd h (by decide +kernel),
    fun h => absurd h (by decide +kernel),
    fun h => absurd h (by decide +kernel),
    fun _ _ => lda_k_gds08_worker_screenedOne,
    fun _ _ => lda_k_tf_screenedOne,
    fun _ _ => lda_k_zlp_screenedOne,
    fun _ _ => lda_x_screenedOne,
    fun _ h => absurd (by simp [screenedOneOpen]) h,
    fun _ h => absurd (by simp [screenedOneOpen]) h,
    fun _ _ => lda_x_2d_screenedOne,
    fun _ _ => lda_x_erf_screenedOne,
    fun _ _ => lda_x_rel_screenedOne,
    fun _ _ => lda_x_sloc_screenedOne,
    fun _ _ => lda_x_yukawa_screenedOne,
    fun h => absurd h (by decide +kernel),
    fun h => absurd h (by decide +kernel),
    fun h => absurd h (by decide +kernel),
    fun h => absurd h (by decide +kernel),
    fun h => absurd h (by decide +kernel),
    fun h => absurd h (by decide +kernel),
    fun h => absurd h (by decide +kernel),
    fun h => absurd h (by decide +kernel)⟩

theorem screenedOne_10 : ∀ x ∈ shipped10, isExchange x.name = true → x.name ∉ screenedOneOpen → ScreenedOne x.fam x.code := by
  unfold shipped10
  simp only [List.forall_mem_cons, List.not_mem_nil, false_implies, implies_true, and_true]
  exact ⟨fun h => absurd h (by decide +kernel),
    fun h => absurd h (by decide +kernel),
    fun h => absurd h (by decide +kernel),
    fun h => absurd h (by decide +kernel),
    fun h => absurd h (by decide +kernel),
    fun h => absurd h (by decide +kernel),
    fun h => absurd h (by decide +kernel),
    fun h => absurd h (by decide +kernel),
    fun h => absurd h (by decide +kernel)⟩

theorem screenedOne_11 : ∀ x ∈ shipped11, isExchange x.name = true → x.name ∉ screenedOneOpen → ScreenedOne x.fam x.code := by
  unfold shipped11
  simp only [List.forall_mem_cons, List.not_mem_nil, false_implies, implies_true, and_true]
  exact ⟨fun h => absurd h (by decide +kernel),
    fun h => absurd h (by decide +kernel),
    fun h => absurd h (by decide +kernel),
    fun h => absurd h (by decide +kernel),
    fun h => absurd h (by decide +kernel),
    fun h => absurd h (by decide +kernel),
    fun h => absurd h (by decide +kernel),
    fun h => absurd h (by decide +kernel)⟩

theorem screenedOne_12 : ∀ x ∈ shipped12, isExchange x.name = true → x.name ∉ screenedOneOpen → ScreenedOne x.fam x.code := by
  unfold shipped12
  simp only [List.forall_mem_cons, List.not_mem_nil, false_implies, implies_true, and_true]
  exact ⟨fun h => absurd h (by decide +kernel),
    fun h => absurd h (by decide +kernel),
    fun h => absurd h (by decide +kernel),
    fun h => absurd h (by decide +kernel),
    fun _ _ => mgga_k_csk_screenedOne,
    fun _ _ => mgga_k_csk_loc_screenedOne,
    fun _ _ => mgga_k_gea2_screenedOne,
    fun _ _ => mgga_k_gea4_screenedOne,
    fun _ _ => mgga_k_lk_screenedOne,
    fun _ _ => mgga_k_pc07_screenedOne⟩

theorem screenedOne_13 : ∀ x ∈ shipped13, isExchange x.name = true → x.name ∉ screenedOneOpen → ScreenedOne x.fam x.code := by
  unfold shipped13
  simp only [List.forall_mem_cons, List.not_mem_nil, false_implies, implies_true, and_true]
  exact ⟨fun _ _ => mgga_k_pgslb_screenedOne,
    fun _ _ => mgga_k_rda_screenedOne,
    fun _ _ => mgga_x_2d_js17_screenedOne,
    fun _ _ => mgga_x_2d_prhg07_screenedOne,
    fun _ h => absurd (by simp [screenedOneOpen]) h,
    fun _ h => absurd (by simp [screenedOneOpen]) h,
    fun _ _ => mgga_x_br89_explicit_screenedOne,
    fun _ _ => mgga_x_edmgga_screenedOne,
    fun _ _ => mgga_x_ft98_screenedOne,
    fun _ _ => mgga_x_gdme_screenedOne,
    fun _ _ => mgga_x_gvt4_screenedOne,
    fun _ _ => mgga_x_gx_screenedOne,
    fun _ _ => mgga_x_jk_screenedOne,
    fun _ _ => mgga_x_lta_screenedOne,
    fun _ _ => mgga_x_m06l_screenedOne,
    fun _ _ => mgga_x_m08_screenedOne,
    fun _ _ => mgga_x_m11_screenedOne,
    fun _ _ => mgga_x_m11_l_screenedOne⟩

theorem screenedOne_14 : ∀ x ∈ shipped14, isExchange x.name = true → x.name ∉ screenedOneOpen → ScreenedOne x.fam x.code := by
  unfold shipped14
  simp only [List.forall_mem_cons, List.not_mem_nil, false_implies, implies_true, and_true]
  exact ⟨fun _ _ => mgga_x_mbeef_screenedOne,
    fun _ _ => mgga_x_mbeefvdw_screenedOne,
    fun _ h => absurd (by simp [screenedOneOpen]) h,
    fun _ h => absurd (by simp [screenedOneOpen]) h,
    fun _ h => absurd (by simp [screenedOneOpen]) h,
    fun _ _ => mgga_x_mcml_screenedOne,
    fun _ h => absurd (by simp [screenedOneOpen]) h,
    fun _ _ => mgga_x_mn12_screenedOne,
    fun _ _ => mgga_x_ms_screenedOne,
    fun _ _ => mgga_x_msb_screenedOne,
    fun _ _ => mgga_x_mvs_screenedOne⟩

theorem screenedOne_15 : ∀ x ∈ shipped15, isExchange x.name = true → x.name ∉ screenedOneOpen → ScreenedOne x.fam x.code := by
  unfold shipped15
  simp only [List.forall_mem_cons, List.not_mem_nil, false_implies, implies_true, and_true]
  exact ⟨fun _ _ => mgga_x_mvsb_screenedOne,
    fun _ _ => mgga_x_pbe_gx_screenedOne,
    fun _ _ => mgga_x_pkzb_screenedOne,
    fun _ _ => mgga_x_r2scan_screenedOne,
    fun _ _ => mgga_x_r4scan_screenedOne,
    fun _ _ => mgga_x_regtm_screenedOne,
    fun _ _ => mgga_x_regtpss_screenedOne,
    fun _ _ => mgga_x_revtm_screenedOne,
    fun _ _ => mgga_x_rlda_screenedOne,
    fun _ _ => mgga_x_rppscan_screenedOne,
    fun _ _ => mgga_x_rscan_screenedOne,
    fun _ _ => mgga_x_rtpss_screenedOne,
    fun _ _ => mgga_x_sa_tpss_screenedOne,
    fun _ _ => mgga_x_scan_screenedOne,
    fun _ _ => mgga_x_task_screenedOne⟩

theorem screenedOne_16 : ∀ x ∈ shipped16, isExchange x.name = true → x.name ∉ screenedOneOpen → ScreenedOne x.fam x.code := by
  unfold shipped16
  simp only [List.forall_mem_cons, List.not_mem_nil, false_implies, implies_true, and_true]
  exact ⟨fun _ _ => mgga_x_tau_hcth_screenedOne,
    fun _ h => absurd (by simp [screenedOneOpen]) h,
    fun _ _ => mgga_x_th_screenedOne,
    fun _ _ => mgga_x_tm_screenedOne,
    fun _ _ => mgga_x_tpss_screenedOne,
    fun _ _ => mgga_x_vcml_screenedOne,
    fun _ _ => mgga_x_vt84_screenedOne,
    fun h => absurd h (by decide +kernel),
    fun h => absurd h (by decide +kernel),
    fun h => absurd h (by decide +kernel),
    fun h => absurd h (by decide +kernel),
    fun h => absurd h (by decide +kernel)⟩

/-- C42. Missing: the formulas in `screenedOneOpen`. -/
theorem screenedOne_shipped_partial : ∀ x ∈ shipped, isExchange x.name = true → x.name ∉ screenedOneOpen → ScreenedOne x.fam x.code := by
  intro x hx
  simp only [shipped, List.mem_append] at hx
  rcases hx with (((((((((((((((h | h) | h) | h) | h) | h) | h) | h) | h) | h) | h) | h) | h) | h) | h) | h)
  · exact screenedOne_01 x h
  · exact screenedOne_02 x h
  · exact screenedOne_03 x h
  · exact screenedOne_04 x h
  · exact screenedOne_05 x h
  · exact screenedOne_06 x h
  · exact screenedOne_07 x h
  · exact screenedOne_08 x h
  · exact screenedOne_09 x h
  · exact screenedOne_10 x h
  · exact screenedOne_11 x h
  · exact screenedOne_12 x h
  · exact screenedOne_13 x h
  · exact screenedOne_14 x h
  · exact screenedOne_15 x h
  · exact screenedOne_16 x h

/-- Shipped exchange and kinetic-energy formulas for which `ScreenedRest` is not proved. -/
def screenedRestOpen : List String := [
  "gga_k_exp4",
  "gga_x_bpccac",
  "gga_x_fd_lb94",
  "gga_x_gg99",
  "gga_x_htbs",
  "gga_x_lb",
  "gga_x_lg93",
  "gga_x_lv_rpw86",
  "gga_x_rge2",
  "gga_x_sg4",
  "lda_k_tf",
  "lda_k_zlp",
  "lda_x_1d_exponential",
  "lda_x_1d_soft",
  "lda_x_2d",
  "lda_x_erf",
  "lda_x_rel",
  "lda_x_sloc",
  "lda_x_yukawa",
  "mgga_x_2d_js17",
  "mgga_x_2d_prp10",
  "mgga_x_br89",
  "mgga_x_mbr",
  "mgga_x_mbrxc_bg",
  "mgga_x_mbrxh_bg",
  "mgga_x_mggac",
  "mgga_x_task",
  "mgga_x_tb09"]

theorem screenedRest_01 : ∀ x ∈ shipped01, isExchange x.name = true → x.name ∉ screenedRestOpen → ScreenedRest x.fam x.code := by
  unfold shipped01
  simp only [List.forall_mem_cons, List.not_mem_nil, false_implies, implies_true, and_true]
  exact ⟨fun h => absurd h (by decide +kernel),
    fun h => absurd h (by decide +kernel),
    fun h => absurd h (by decide +kernel),
    fun h => absurd h (by decide +kernel),
    fun h => absurd h (by decide +kernel),
    fun h => absurd h (by decide +kernel),
    fun h => absurd h (by decide +kernel),
    fun h => absurd h (by decide +kernel),
    fun h => absurd h (by decide +kernel),
    fun h => absurd h (by decide +kernel),
    fun h => absurd h (by decide +kernel),
    fun h => absurd h (by decide +kernel),
    fun h => absurd h (by decide +kernel),
    fun h => absurd h (by decide +kernel),
    fun h => absurd h (by decide +kernel)⟩

theorem screenedRest_02 : ∀ x ∈ shipped02, isExchange x.name = true → x.name ∉ screenedRestOpen → ScreenedRest x.fam x.code := by
  unfold shipped02
  simp only [List.forall_mem_cons, List.not_mem_nil, false_implies, implies_true, and_true]
  exact ⟨fun h => absurd h (by decide +kernel),
    fun h => absurd h (by decide +kernel),
    fun h => absurd h (by decide +kernel),
    fun h => absurd h (by decide +kernel),
    fun h => absurd h (by decide +kernel),
    fun h => absurd h (by decide +kernel),
    fun h => absurd h (by decide +kernel),
    fun h => absurd h (by decide +kernel),
    fun h => absurd h (by decide +kernel),
    fun h => absurd h (by decide +kernel),
    fun h => absurd h (by decide +kernel),
    fun h => absurd h (by decide +kernel),
    fun h => absurd h (by decide +kernel),
    fun h => absurd h (by decide +kernel),
    fun h => absurd h (by decide +kernel),
    fun h => absurd h (by decide +kernel)⟩

theorem screenedRest_03 : ∀ x ∈ shipped03, isExchange x.name = true → x.name ∉ screenedRestOpen → ScreenedRest x.fam x.code := by
  unfold shipped03
  simp only [List.forall_mem_cons, List.not_mem_nil, false_implies, implies_true, and_true]
  exact ⟨fun h => absurd h (by decide +kernel),
    fun h => absurd h (by decide +kernel),
    fun h => absurd h (by decide +kernel),
    fun h => absurd h (by decide +kernel),
    fun h => absurd h (by decide +kernel),
    fun h => absurd h (by decide +kernel),
    fun h => absurd h (by decide +kernel),
    fun h => absurd h (by decide +kernel),
    fun _ _ => gga_k_apbe_screenedRest,
    fun _ _ => gga_k_apbeint_screenedRest,
    fun _ _ => gga_k_dk_screenedRest,
    fun _ h => absurd (by simp [screenedRestOpen]) h,
    fun _ _ => gga_k_lc94_screenedRest,
    fun _ _ => gga_k_lgap_screenedRest,
    fun _ _ => gga_k_lgap_ge_screenedRest,
    fun _ _ => gga_k_lkt_screenedRest,
    fun _ _ => gga_k_llp_screenedRest,
    fun _ _ => gga_k_meyer_screenedRest,
    fun _ _ => gga_k_mpbe_screenedRest,
    fun _ _ => gga_k_ol1_screenedRest,
    fun _ _ => gga_k_ol2_screenedRest,
    fun _ _ => gga_k_pearson_screenedRest,
    fun _ _ => gga_k_pg_screenedRest,
    fun _ _ => gga_k_pw86_screenedRest,
    fun _ _ => gga_k_rational_p_screenedRest,
    fun _ _ => gga_k_tflw_screenedRest,
    fun _ _ => gga_k_thakkar_screenedRest⟩

theorem screenedRest_04 : ∀ x ∈ shipped04, isExchange x.name = true → x.name ∉ screenedRestOpen → ScreenedRest x.fam x.code := by
  unfold shipped04
  simp only [List.forall_mem_cons, List.not_mem_nil, false_implies, implies_true, and_true]
  exact ⟨fun _ _ => gga_k_vt84f_screenedRest,
    fun _ _ => gga_x_2d_b86_screenedRest,
    fun _ _ => gga_x_2d_b86_mgc_screenedRest,
    fun _ _ => gga_x_2d_b88_screenedRest,
    fun _ _ => gga_x_2d_pbe_screenedRest,
    fun _ _ => gga_x_airy_screenedRest,
    fun _ _ => gga_x_ak13_screenedRest,
    fun _ _ => gga_x_am05_screenedRest,
    fun _ _ => gga_x_b86_screenedRest,
    fun _ _ => gga_x_b88_screenedRest,
    fun _ _ => gga_x_bayesian_screenedRest,
    fun _ _ => gga_x_beefvdw_screenedRest,
    fun _ h => absurd (by simp [screenedRestOpen]) h,
    fun _ _ => gga_x_c09x_screenedRest,
    fun _ _ => gga_x_cap_screenedRest,
    fun _ _ => gga_x_chachiyo_screenedRest,
    fun _ _ => gga_x_dk87_screenedRest,
    fun _ _ => gga_x_ev93_screenedRest,
    fun _ h => absurd (by simp [screenedRestOpen]) h,
    fun _ _ => gga_x_ft97_screenedRest,
    fun _ _ => gga_x_g96_screenedRest,
    fun _ h => absurd (by simp [screenedRestOpen]) h,
    fun _ _ => gga_x_hcth_a_screenedRest,
    fun _ _ => gga_x_herman_screenedRest,
    fun _ _ => gga_x_hjs_screenedRest⟩

theorem screenedRest_05 : ∀ x ∈ shipped05, isExchange x.name = true → x.name ∉ screenedRestOpen → ScreenedRest x.fam x.code := by
  unfold shipped05
  simp only [List.forall_mem_cons, List.not_mem_nil, false_implies, implies_true, and_true]
  exact ⟨fun _ _ => gga_x_hjs_b88_v2_screenedRest,
    fun _ h => absurd (by simp [screenedRestOpen]) h,
    fun _ _ => gga_x_ityh_screenedRest,
    fun _ _ => gga_x_ityh_optx_screenedRest,
    fun _ _ => gga_x_ityh_pbe_screenedRest,
    fun _ _ => gga_x_kt_screenedRest,
    fun _ _ => gga_x_lag_screenedRest,
    fun _ h => absurd (by simp [screenedRestOpen]) h,
    fun _ h => absurd (by simp [screenedRestOpen]) h,
    fun _ _ => gga_x_lspbe_screenedRest,
    fun _ _ => gga_x_lsrpbe_screenedRest,
    fun _ h => absurd (by simp [screenedRestOpen]) h,
    fun _ _ => gga_x_mpbe_screenedRest,
    fun _ _ => gga_x_n12_screenedRest,
    fun _ _ => gga_x_ncap_screenedRest,
    fun _ _ => gga_x_ol2_screenedRest,
    fun _ _ => gga_x_optx_screenedRest,
    fun _ _ => gga_x_pbe_screenedRest,
    fun _ _ => gga_x_pbea_screenedRest,
    fun _ _ => gga_x_pbeint_screenedRest,
    fun _ _ => gga_x_pbepow_screenedRest⟩

theorem screenedRest_06 : ∀ x ∈ shipped06, isExchange x.name = true → x.name ∉ screenedRestOpen → ScreenedRest x.fam x.code := by
  unfold shipped06
  simp only [List.forall_mem_cons, List.not_mem_nil, false_implies, implies_true, and_true]
  exact ⟨fun _ _ => gga_x_pbetrans_screenedRest,
    fun _ _ => gga_x_pw86_screenedRest,
    fun _ _ => gga_x_pw91_screenedRest,
    fun _ _ => gga_x_q1d_screenedRest,
    fun _ _ => gga_x_q2d_screenedRest,
    fun _ h => absurd (by simp [screenedRestOpen]) h,
    fun _ _ => gga_x_rpbe_screenedRest,
    fun _ _ => gga_x_s12_screenedRest,
    fun _ _ => gga_x_sfat_screenedRest,
    fun _ _ => gga_x_sfat_pbe_screenedRest,
    fun _ h => absurd (by simp [screenedRestOpen]) h,
    fun _ _ => gga_x_sogga11_screenedRest,
    fun _ _ => gga_x_ssb_sw_screenedRest,
    fun _ _ => gga_x_vmt_screenedRest,
    fun _ _ => gga_x_vmt84_screenedRest,
    fun _ _ => gga_x_wc_screenedRest,
    fun _ _ => gga_x_wpbeh_screenedRest,
    fun h => absurd h (by decide +kernel)⟩

theorem screenedRest_07 : ∀ x ∈ shipped07, isExchange x.name = true → x.name ∉ screenedRestOpen → ScreenedRest x.fam x.code := by
  unfold shipped07
  simp only [List.forall_mem_cons, List.not_mem_nil, false_implies, implies_true, and_true]
  exact ⟨fun h => absurd h (by decide +kernel),
    fun h => absurd h (by decide +kernel),
    fun h => absurd h (by decide +kernel),
    fun _ _ => hyb_gga_x_cam_s12_screenedRest,
    fun h => absurd h (by decide +kernel),
    fun h => absurd h (by decide +kernel),
    fun h => absurd h (by decide +kernel),
    fun _ _ => hyb_mgga_x_dldf_screenedRest,
    fun _ _ => hyb_mgga_x_js18_screenedRest,
    fun _ _ => hyb_mgga_x_m05_screenedRest⟩

theorem screenedRest_08 : ∀ x ∈ shipped08, isExchange x.name = true → x.name ∉ screenedRestOpen → ScreenedRest x.fam x.code := by
  unfold shipped08
  simp only [List.forall_mem_cons, List.not_mem_nil, false_implies, implies_true, and_true]
  exact ⟨fun _ _ => hyb_mgga_x_pjs18_screenedRest,
    fun h => absurd h (by decide +kernel),
    fun h => absurd h (by decide +kernel),
    fun h => absurd h (by decide +kernel),
    fun h => absurd h (by decide +kernel),
    fun h => absurd h (by decide +kernel),
    fun h => absurd h (by decide +kernel),
    fun h => absurd h (by decide +kernel),
    fun h => absurd h (by decide +kernel),
    fun h => absurd h (by decide +kernel),
    fun h => absurd h (by decide +kernel),
    fun h => absurd h (by decide +kernel),
    fun h => absurd h (by decide +kernel),
    fun h => absurd h (by decide +kernel),
    fun h => absurd h (by decide +kernel),
    fun h => absurd h (by decide +kernel)⟩

theorem screenedRest_09 : ∀ x ∈ shipped09, isExchange x.name = true → x.name ∉ screenedRestOpen → ScreenedRest x.fam x.code := by
  unfold shipped09
  simp only [List.forall_mem_cons, List.not_mem_nil, false_implies, implies_true, and_true]
  exact ⟨fun h => absurd h (by decide +kernel),
    fun h => absurd h (by decide +kernel),
    fun h => absurd h (by decide +kernel),
    fun h => absurd h (by decide +kernel),
    fun h => absurd h (by decide +kernel),
    fun h => absurd h (by decide +kernel),
    fun h => absurd h (by decide +kernel),
    fun h => absurd h (by decide +kernel),
    fun h => absurd h (by decide +kernel),
    fun h => absurd h (by decide +kernel),
    fun h => absurd h (by decide +kernel),
    fun _ _ => lda_k_gds08_worker_screenedRest,
    fun _ h => absurd (by simp [screenedRestOpen]) h,
    fun _ h => absurd (by simp [screenedRestOpen]) h,
    fun _ _ => lda_x_screenedRest,
    fun _ h => absurd (by simp [screenedRestOpen]) h,
    fun _ h => absurd (by simp [screenedRestOpen]) h,
    fun _ h => absurd (by simp [screenedRestOpen]) h,
    fun _ h => absurd (by simp [screenedRestOpen]) h,
    fun _ h => absurd (by simp [screenedRestOpen]) h,
    fun _ h => absurd (by simp [screenedRestOpen]) h,
    fun _ h => absurd (by simp [screenedRestOpen]) h,
    fun h => absurd h (by decide +kernel),
    fun h => absurd h (by decide +kernel),
    fun h => absurd h (by decide +kernel),
    fun h => absurd h (by decide +kernel),
    fun h => absurd h (by decide +kernel),
    fun h => absurd h (by decide +kernel),
    fun h => absurd h (by decide +kernel),
    fun h => absurd h (by decide +kernel)⟩

theorem screenedRest_10 : ∀ x ∈ shipped10, isExchange x.name = true → x.name ∉ screenedRestOpen → ScreenedRest x.fam x.code := by
  unfold shipped10
  simp only [List.forall_mem_cons, List.not_mem_nil, false_implies, implies_true, and_true]
  exact ⟨fun h => absurd h (by decide +kernel),
    fun h => absurd h (by decide +kernel),
    fun h => absurd h (by decide +kernel),
    fun h => absurd h (by decide +kernel),
    fun h => absurd h (by decide +kernel),
    fun h => absurd h (by decide +kernel),
    fun h => absurd h (by decide +kernel),
    fun h => absurd h (by decide +kernel),
    fun h => absurd h (by decide +kernel)⟩

theorem screenedRest_11 : ∀ x ∈ shipped11, isExchange x.name = true → x.name ∉ screenedRestOpen → ScreenedRest x.fam x.code := by
  unfold shipped11
  simp only [List.forall_mem_cons, List.not_mem_nil, false_implies, implies_true, and_true]
  exact ⟨fun h => absurd h (by decide +kernel),
    fun h => absurd h (by decide +kernel),
    fun h => absurd h (by decide +kernel),
    fun h => absurd h (by decide +kernel),
    fun h => absurd h (by decide +kernel),
    fun h => absurd h (by decide +kernel),
    fun h => absurd h (by decide +kernel),
    fun h => absurd h (by decide +kernel)⟩

theorem screenedRest_12 : ∀ x ∈ shipped12, isExchange x.name = true → x.name ∉ screenedRestOpen → ScreenedRest x.fam x.code := by
  unfold shipped12
  simp only [List.forall_mem_cons, List.not_mem_nil, false_implies, implies_true, and_true]
  exact ⟨fun h => absurd h (by decide +kernel),
    fun h => absurd h (by decide +kernel),
    fun h => absurd h (by decide +kernel),
    fun h => absurd h (by decide +kernel),
    fun _ _ => mgga_k_csk_screenedRest,
    fun _ _ => mgga_k_csk_loc_screenedRest,
    fun _ _ => mgga_k_gea2_screenedRest,
    fun _ _ => mgga_k_gea4_screenedRest,
    fun _ _ => mgga_k_lk_screenedRest,
    fun _ _ => mgga_k_pc07_screenedRest⟩

theorem screenedRest_13 : ∀ x ∈ shipped13, isExchange x.name = true → x.name ∉ screenedRestOpen → ScreenedRest x.fam x.code := by
  unfold shipped13
  simp only [List.forall_mem_cons, List.not_mem_nil, false_implies, implies_true, and_true]
  exact ⟨fun _ _ => mgga_k_pgslb_screenedRest,
    fun _ _ => mgga_k_rda_screenedRest,
    fun _ h => absurd (by simp [screenedRestOpen]) h,
    fun _ _ => mgga_x_2d_prhg07_screenedRest,
    fun _ h => absurd (by simp [screenedRestOpen]) h,
    fun _ h => absurd (by simp [screenedRestOpen]) h,
    fun _ _ => mgga_x_br89_explicit_screenedRest,
    fun _ _ => mgga_x_edmgga_screenedRest,
    fun _ _ => mgga_x_ft98_screenedRest,
    fun _ _ => mgga_x_gdme_screenedRest,
    fun _ _ => mgga_x_gvt4_screenedRest,
    fun _ _ => mgga_x_gx_screenedRest,
    fun _ _ => mgga_x_jk_screenedRest,
    fun _ _ => mgga_x_lta_screenedRest,
    fun _ _ => mgga_x_m06l_screenedRest,
    fun _ _ => mgga_x_m08_screenedRest,
    fun _ _ => mgga_x_m11_screenedRest,
    fun _ _ => mgga_x_m11_l_screenedRest⟩

theorem screenedRest_14 : ∀ x ∈ shipped14, isExchange x.name = true → x.name ∉ screenedRestOpen → ScreenedRest x.fam x.code := by
  unfold shipped14
  simp only [List.forall_mem_cons, List.not_mem_nil, false_implies, implies_true, and_true]
  exact ⟨fun _ _ => mgga_x_mbeef_screenedRest,
    fun _ _ => mgga_x_mbeefvdw_screenedRest,
    fun _ h => absurd (by simp [screenedRestOpen]) h,
    fun _ h => absurd (by simp [screenedRestOpen]) h,
    fun _ h => absurd (by simp [screenedRestOpen]) h,
    fun _ _ => mgga_x_mcml_screenedRest,
    fun _ h => absurd (by simp [screenedRestOpen]) h,
    fun _ _ => mgga_x_mn12_screenedRest,
    fun _ _ => mgga_x_ms_screenedRest,
    fun _ _ => mgga_x_msb_screenedRest,
    fun _ _ => mgga_x_mvs_screenedRest⟩

theorem screenedRest_15 : ∀ x ∈ shipped15, isExchange x.name = true → x.name ∉ screenedRestOpen → ScreenedRest x.fam x.code := by
  unfold shipped15
  simp only [List.forall_mem_cons, List.not_mem_nil, false_implies, implies_true, and_true]
  exact ⟨fun _ _ => mgga_x_mvsb_screenedRest,
    fun _ _ => mgga_x_pbe_gx_screenedRest,
    fun _ _ => mgga_x_pkzb_screenedRest,
    fun _ _ => mgga_x_r2scan_screenedRest,
    fun _ _ => mgga_x_r4scan_screenedRest,
    fun _ _ => mgga_x_regtm_screenedRest,
    fun _ _ => mgga_x_regtpss_screenedRest,
    fun _ _ => mgga_x_revtm_screenedRest,
    fun _ _ => mgga_x_rlda_screenedRest,
    fun _ _ => mgga_x_rppscan_screenedRest,
    fun _ _ => mgga_x_rscan_screenedRest,
    fun _ _ => mgga_x_rtpss_screenedRest,
    fun _ _ => mgga_x_sa_tpss_screenedRest,
    fun _ _ => mgga_x_scan_screenedRest,
    fun _ h => absurd (by simp [screenedRestOpen]) h⟩

theorem screenedRest_16 : ∀ x ∈ shipped16, isExchange x.name = true → x.name ∉ screenedRestOpen → ScreenedRest x.fam x.code := by
  unfold shipped16
  simp only [List.forall_mem_cons, List.not_mem_nil, false_implies, implies_true, and_true]
  exact ⟨fun _ _ => mgga_x_tau_hcth_screenedRest,
    fun _ h => absurd (by simp [screenedRestOpen]) h,
    fun _ _ => mgga_x_th_screenedRest,
    fun _ _ => mgga_x_tm_screenedRest,
    fun _ _ => mgga_x_tpss_screenedRest,
    fun _ _ => mgga_x_vcml_screenedRest,
    fun _ _ => mgga_x_vt84_screenedRest,
    fun h => absurd h (by decide +kernel),
    fun h => absurd h (by decide +kernel),
    fun h => absurd h (by decide +kernel),
    fun h => absurd h (by decide +kernel),
    fun h => absurd h (by decide +kernel)⟩

/-- C42. Missing: the formulas in `screenedRestOpen`. -/
theorem screenedRest_shipped_partial : ∀ x ∈ shipped, isExchange x.name = true → x.name ∉ screenedRestOpen → ScreenedRest x.fam x.code := by
  intro x hx
  simp only [shipped, List.mem_append] at hx
  rcases hx with (((((((((((((((h | h) | h) | h) | h) | h) | h) | h) | h) | h) | h) | h) | h) | h) | h) | h)
  · exact screenedRest_01 x h
  · exact screenedRest_02 x h
  · exact screenedRest_03 x h
  · exact screenedRest_04 x h
  · exact screenedRest_05 x h
  · exact screenedRest_06 x h
  · exact screenedRest_07 x h
  · exact screenedRest_08 x h
  · exact screenedRest_09 x h
  · exact screenedRest_10 x h
  · exact screenedRest_11 x h
  · exact screenedRest_12 x h
  · exact screenedRest_13 x h
  · exact screenedRest_14 x h
  · exact screenedRest_15 x h
  · exact screenedRest_16 x h

/-- Exchange formulas in three dimensions that scale like the exact exchange energy. -/
noncomputable def scaling3List : List Shipped := [
  ⟨"gga_x_airy", .gga, gga_x_airy⟩,
  ⟨"gga_x_ak13", .gga, gga_x_ak13⟩,
  ⟨"gga_x_am05", .gga, gga_x_am05⟩,
  ⟨"gga_x_b86", .gga, gga_x_b86⟩,
  ⟨"gga_x_b88", .gga, gga_x_b88⟩,
  ⟨"gga_x_bayesian", .gga, gga_x_bayesian⟩,
  ⟨"gga_x_beefvdw", .gga, gga_x_beefvdw⟩,
  ⟨"gga_x_bpccac", .gga, gga_x_bpccac⟩,
  ⟨"gga_x_c09x", .gga, gga_x_c09x⟩,
  ⟨"gga_x_cap", .gga, gga_x_cap⟩,
  ⟨"gga_x_chachiyo", .gga, gga_x_chachiyo⟩,
  ⟨"gga_x_dk87", .gga, gga_x_dk87⟩,
  ⟨"gga_x_ev93", .gga, gga_x_ev93⟩,
  ⟨"gga_x_g96", .gga, gga_x_g96⟩,
  ⟨"gga_x_hcth_a", .gga, gga_x_hcth_a⟩,
  ⟨"gga_x_herman", .gga, gga_x_herman⟩,
  ⟨"gga_x_htbs", .gga, gga_x_htbs⟩,
  ⟨"gga_x_lag", .gga, gga_x_lag⟩,
  ⟨"gga_x_lb", .gga, gga_x_lb⟩,
  ⟨"gga_x_lg93", .gga, gga_x_lg93⟩,
  ⟨"gga_x_lspbe", .gga, gga_x_lspbe⟩,
  ⟨"gga_x_lsrpbe", .gga, gga_x_lsrpbe⟩,
  ⟨"gga_x_lv_rpw86", .gga, gga_x_lv_rpw86⟩,
  ⟨"gga_x_mpbe", .gga, gga_x_mpbe⟩,
  ⟨"gga_x_ncap", .gga, gga_x_ncap⟩,
  ⟨"gga_x_ol2", .gga, gga_x_ol2⟩,
  ⟨"gga_x_optx", .gga, gga_x_optx⟩,
  ⟨"gga_x_pbe", .gga, gga_x_pbe⟩,
  ⟨"gga_x_pbea", .gga, gga_x_pbea⟩,
  ⟨"gga_x_pbeint", .gga, gga_x_pbeint⟩,
  ⟨"gga_x_pbepow", .gga, gga_x_pbepow⟩,
  ⟨"gga_x_pbetrans", .gga, gga_x_pbetrans⟩,
  ⟨"gga_x_pw86", .gga, gga_x_pw86⟩,
  ⟨"gga_x_pw91", .gga, gga_x_pw91⟩,
  ⟨"gga_x_q1d", .gga, gga_x_q1d⟩,
  ⟨"gga_x_q2d", .gga, gga_x_q2d⟩,
  ⟨"gga_x_rge2", .gga, gga_x_rge2⟩,
  ⟨"gga_x_rpbe", .gga, gga_x_rpbe⟩,
  ⟨"gga_x_s12", .gga, gga_x_s12⟩,
  ⟨"gga_x_sg4", .gga, gga_x_sg4⟩,
  ⟨"gga_x_sogga11", .gga, gga_x_sogga11⟩,
  ⟨"gga_x_ssb_sw", .gga, gga_x_ssb_sw⟩,
  ⟨"gga_x_vmt", .gga, gga_x_vmt⟩,
  ⟨"gga_x_vmt84", .gga, gga_x_vmt84⟩,
  ⟨"gga_x_wc", .gga, gga_x_wc⟩,
  ⟨"hyb_mgga_x_dldf", .mgga, hyb_mgga_x_dldf⟩,
  ⟨"hyb_mgga_x_m05", .mgga, hyb_mgga_x_m05⟩,
  ⟨"lda_x", .lda, lda_x⟩,
  ⟨"mgga_x_br89_explicit", .mgga, mgga_x_br89_explicit⟩,
  ⟨"mgga_x_edmgga", .mgga, mgga_x_edmgga⟩,
  ⟨"mgga_x_ft98", .mgga, mgga_x_ft98⟩,
  ⟨"mgga_x_gdme", .mgga, mgga_x_gdme⟩,
  ⟨"mgga_x_gvt4", .mgga, mgga_x_gvt4⟩,
  ⟨"mgga_x_gx", .mgga, mgga_x_gx⟩,
  ⟨"mgga_x_jk", .mgga, mgga_x_jk⟩,
  ⟨"mgga_x_lta", .mgga, mgga_x_lta⟩,
  ⟨"mgga_x_m06l", .mgga, mgga_x_m06l⟩,
  ⟨"mgga_x_m08", .mgga, mgga_x_m08⟩,
  ⟨"mgga_x_mbeef", .mgga, mgga_x_mbeef⟩,
  ⟨"mgga_x_mbeefvdw", .mgga, mgga_x_mbeefvdw⟩,
  ⟨"mgga_x_mcml", .mgga, mgga_x_mcml⟩,
  ⟨"mgga_x_ms", .mgga, mgga_x_ms⟩,
  ⟨"mgga_x_msb", .mgga, mgga_x_msb⟩,
  ⟨"mgga_x_mvs", .mgga, mgga_x_mvs⟩,
  ⟨"mgga_x_mvsb", .mgga, mgga_x_mvsb⟩,
  ⟨"mgga_x_pbe_gx", .mgga, mgga_x_pbe_gx⟩,
  ⟨"mgga_x_pkzb", .mgga, mgga_x_pkzb⟩,
  ⟨"mgga_x_r2scan", .mgga, mgga_x_r2scan⟩,
  ⟨"mgga_x_r4scan", .mgga, mgga_x_r4scan⟩,
  ⟨"mgga_x_regtm", .mgga, mgga_x_regtm⟩,
  ⟨"mgga_x_regtpss", .mgga, mgga_x_regtpss⟩,
  ⟨"mgga_x_revtm", .mgga, mgga_x_revtm⟩,
  ⟨"mgga_x_rlda", .mgga, mgga_x_rlda⟩,
  ⟨"mgga_x_rppscan", .mgga, mgga_x_rppscan⟩,
  ⟨"mgga_x_rtpss", .mgga, mgga_x_rtpss⟩,
  ⟨"mgga_x_sa_tpss", .mgga, mgga_x_sa_tpss⟩,
  ⟨"mgga_x_scan", .mgga, mgga_x_scan⟩,
  ⟨"mgga_x_task", .mgga, mgga_x_task⟩,
  ⟨"mgga_x_tau_hcth", .mgga, mgga_x_tau_hcth⟩,
  ⟨"mgga_x_th", .mgga, mgga_x_th⟩,
  ⟨"mgga_x_tm", .mgga, mgga_x_tm⟩,
  ⟨"mgga_x_tpss", .mgga, mgga_x_tpss⟩,
  ⟨"mgga_x_vcml", .mgga, mgga_x_vcml⟩,
  ⟨"mgga_x_vt84", .mgga, mgga_x_vt84⟩]

theorem scaling3_shipped : ∀ x ∈ scaling3List, x ∈ shipped ∧ UniformScaling 3 1 x.fam x.code ∧ UniformScalingUnpol 3 1 x.fam x.code := by
  unfold scaling3List
  simp only [List.forall_mem_cons, List.not_mem_nil, false_implies, implies_true, and_true]
  exact ⟨⟨mem04 (by unfold shipped04; exact .tail _ (.tail _ (.tail _ (.tail _ (.tail _ (.head _)))))), gga_x_airy_scaling, gga_x_airy_scalingUnpol⟩,
    ⟨mem04 (by unfold shipped04; exact .tail _ (.tail _ (.tail _ (.tail _ (.tail _ (.tail _ (.head _))))))), gga_x_ak13_scaling, gga_x_ak13_scalingUnpol⟩,
    ⟨mem04 (by unfold shipped04; exact .tail _ (.tail _ (.tail _ (.tail _ (.tail _ (.tail _ (.tail _ (.head _)))))))), gga_x_am05_scaling, gga_x_am05_scalingUnpol⟩,
    ⟨mem04 (by unfold shipped04; exact .tail _ (.tail _ (.tail _ (.tail _ (.tail _ (.tail _ (.tail _ (.tail _ (.head _))))))))), gga_x_b86_scaling, gga_x_b86_scalingUnpol⟩,
    ⟨mem04 (by unfold shipped04; exact .tail _ (.tail _ (.tail _ (.tail _ (.tail _ (.tail _ (.tail _ (.tail _ (.tail _ (.head _)))))))))), gga_x_b88_scaling, gga_x_b88_scalingUnpol⟩,
    ⟨mem04 (by unfold shipped04; exact .tail _ (.tail _ (.tail _ (.tail _ (.tail _ (.tail _ (.tail _ (.tail _ (.tail _ (.tail _ (.head _))))))))))), gga_x_bayesian_scaling, gga_x_bayesian_scalingUnpol⟩,
    ⟨mem04 (by unfold shipped04; exact .tail _ (.tail _ (.tail _ (.tail _ (.tail _ (.tail _ (.tail _ (.tail _ (.tail _ (.tail _ (.tail _ (.head _)))))))))))), gga_x_beefvdw_scaling, gga_x_beefvdw_scalingUnpol⟩,
    ⟨mem04 (by unfold shipped04; exact .tail _ (.tail _ (.tail _ (.tail _ (.tail _ (.tail _ (.tail _ (.tail _ (.tail _ (.tail _ (.tail _ (.tail _ (.head _))))))))))))), gga_x_bpccac_scaling, gga_x_bpccac_scalingUnpol⟩,
    ⟨mem04 (by unfold shipped04; exact .tail _ (.tail _ (.tail _ (.tail _ (.tail _ (.tail _ (.tail _ (.tail _ (.tail _ (.tail _ (.tail _ (.tail _ (.tail _ (.head _)))))))))))))), gga_x_c09x_scaling, gga_x_c09x_scalingUnpol⟩,
    ⟨mem04 (by unfold shipped04; exact .tail _ (.tail _ (.tail _ (.tail _ (.tail _ (.tail _ (.tail _ (.tail _ (.tail _ (.tail _ (.tail _ (.tail _ (.tail _ (.tail _ (.head _))))))))))))))), gga_x_cap_scaling, gga_x_cap_scalingUnpol⟩,
    ⟨mem04 (by unfold shipped04; exact .tail _ (.tail _ (.tail _ (.tail _ (.tail _ (.tail _ (.tail _ (.tail _ (.tail _ (.tail _ (.tail _ (.tail _ (.tail _ (.tail _ (.tail _ (.head _)))))))))))))))), gga_x_chachiyo_scaling, gga_x_chachiyo_scalingUnpol⟩,
    ⟨mem04 (by unfold shipped04; exact .tail _ (.tail _ (.tail _ (.tail _ (.tail _ (.tail _ (.tail _ (.tail _ (.tail _ (.tail _ (.tail _ (.tail _ (.tail _ (.tail _ (.tail _ (.tail _ (.head _))))))))))))))))), gga_x_dk87_scaling, gga_x_dk87_scalingUnpol⟩,
    ⟨mem04 (by unfold shipped04; exact .tail _ (.tail _ (.tail _ (.tail _ (.tail _ (.tail _ (.tail _ (.tail _ (.tail _ (.tail _ (.tail _ (.tail _ (.tail _ (.tail _ (.tail _ (.tail _ (.tail _ (.head _)))))))))))))))))), gga_x_ev93_scaling, gga_x_ev93_scalingUnpol⟩,
    ⟨mem04 (by unfold shipped04; exact .tail _ (.tail _ (.tail _ (.tail _ (.tail _ (.tail _ (.tail _ (.tail _ (.tail _ (.tail _ (.tail _ (.tail _ (.tail _ (.tail _ (.tail _ (.tail _ (.tail _ (.tail _ (.tail _ (.tail _ (.head _))))))))))))))))))))), gga_x_g96_scaling, gga_x_g96_scalingUnpol⟩,
    ⟨mem04 (by unfold shipped04; exact .tail _ (.tail _ (.tail _ (.tail _ (.tail _ (.tail _ (.tail _ (.tail _ (.tail _ (.tail _ (.tail _ (.tail _ (.tail _ (.tail _ (.tail _ (.tail _ (.tail _ (.tail _ (.tail _ (.tail _ (.tail _ (.tail _ (.head _))))))))))))))))))))))), gga_x_hcth_a_scaling, gga_x_hcth_a_scalingUnpol⟩,
    ⟨mem04 (by unfold shipped04; exact .tail _ (.tail _ (.tail _ (.tail _ (.tail _ (.tail _ (.tail _ (.tail _ (.tail _ (.tail _ (.tail _ (.tail _ (.tail _ (.tail _ (.tail _ (.tail _ (.tail _ (.tail _ (.tail _ (.tail _ (.tail _ (.tail _ (.tail _ (.head _)))))))))))))))))))))))), gga_x_herman_scaling, gga_x_herman_scalingUnpol⟩,
    ⟨mem05 (by unfold shipped05; exact .tail _ (.head _)), gga_x_htbs_scaling, gga_x_htbs_scalingUnpol⟩,
    ⟨mem05 (by unfold shipped05; exact .tail _ (.tail _ (.tail _ (.tail _ (.tail _ (.tail _ (.head _))))))), gga_x_lag_scaling, gga_x_lag_scalingUnpol⟩,
    ⟨mem05 (by unfold shipped05; exact .tail _ (.tail _ (.tail _ (.tail _ (.tail _ (.tail _ (.tail _ (.head _)))))))), gga_x_lb_scaling, gga_x_lb_scalingUnpol⟩,
    ⟨mem05 (by unfold shipped05; exact .tail _ (.tail _ (.tail _ (.tail _ (.tail _ (.tail _ (.tail _ (.tail _ (.head _))))))))), gga_x_lg93_scaling, gga_x_lg93_scalingUnpol⟩,
    ⟨mem05 (by unfold shipped05; exact .tail _ (.tail _ (.tail _ (.tail _ (.tail _ (.tail _ (.tail _ (.tail _ (.tail _ (.head _)))))))))), gga_x_lspbe_scaling, gga_x_lspbe_scalingUnpol⟩,
    ⟨mem05 (by unfold shipped05; exact .tail _ (.tail _ (.tail _ (.tail _ (.tail _ (.tail _ (.tail _ (.tail _ (.tail _ (.tail _ (.head _))))))))))), gga_x_lsrpbe_scaling, gga_x_lsrpbe_scalingUnpol⟩,
    ⟨mem05 (by unfold shipped05; exact .tail _ (.tail _ (.tail _ (.tail _ (.tail _ (.tail _ (.tail _ (.tail _ (.tail _ (.tail _ (.tail _ (.head _)))))))))))), gga_x_lv_rpw86_scaling, gga_x_lv_rpw86_scalingUnpol⟩,
    ⟨mem05 (by unfold shipped05; exact .tail _ (.tail _ (.tail _ (.tail _ (.tail _ (.tail _ (.tail _ (.tail _ (.tail _ (.tail _ (.tail _ (.tail _ (.head _))))))))))))), gga_x_mpbe_scaling, gga_x_mpbe_scalingUnpol⟩,
    ⟨mem05 (by unfold shipped05; exact .tail _ (.tail _ (.tail _ (.tail _ (.tail _ (.tail _ (.tail _ (.tail _ (.tail _ (.tail _ (.tail _ (.tail _ (.tail _ (.tail _ (.head _))))))))))))))), gga_x_ncap_scaling, gga_x_ncap_scalingUnpol⟩,
    ⟨mem05 (by unfold shipped05; exact .tail _ (.tail _ (.tail _ (.tail _ (.tail _ (.tail _ (.tail _ (.tail _ (.tail _ (.tail _ (.tail _ (.tail _ (.tail _ (.tail _ (.tail _ (.head _)))))))))))))))), gga_x_ol2_scaling, gga_x_ol2_scalingUnpol⟩,
    ⟨mem05 (by unfold shipped05; exact .tail _ (.tail _ (.tail _ (.tail _ (.tail _ (.tail _ (.tail _ (.tail _ (.tail _ (.tail _ (.tail _ (.tail _ (.tail _ (.tail _ (.tail _ (.tail _ (.head _))))))))))))))))), gga_x_optx_scaling, gga_x_optx_scalingUnpol⟩,
    ⟨mem05 (by unfold shipped05; exact .tail _ (.tail _ (.tail _ (.tail _ (.tail _ (.tail _ (.tail _ (.tail _ (.tail _ (.tail _ (.tail _ (.tail _ (.tail _ (.tail _ (.tail _ (.tail _ (.tail _ (.head _)))))))))))))))))), gga_x_pbe_scaling, gga_x_pbe_scalingUnpol⟩,
    ⟨mem05 (by unfold shipped05; exact .tail _ (.tail _ (.tail _ (.tail _ (.tail _ (.tail _ (.tail _ (.tail _ (.tail _ (.tail _ (.tail _ (.tail _ (.tail _ (.tail _ (.tail _ (.tail _ (.tail _ (.tail _ (.head _))))))))))))))))))), gga_x_pbea_scaling, gga_x_pbea_scalingUnpol⟩,
    ⟨mem05 (by unfold shipped05; exact .tail _ (.tail _ (.tail _ (.tail _ (.tail _ (.tail _ (.tail _ (.tail _ (.tail _ (.tail _ (.tail _ (.tail _ (.tail _ (.tail _ (.tail _ (.tail _ (.tail _ (.tail _ (.tail _ (.head _)))))))))))))))))))), gga_x_pbeint_scaling, gga_x_pbeint_scalingUnpol⟩,
    ⟨mem05 (by unfold shipped05; exact .tail _ (.tail _ (.tail _ (.tail _ (.tail _ (.tail _ (.tail _ (.tail _ (.tail _ (.tail _ (.tail _ (.tail _ (.tail _ (.tail _ (.tail _ (.tail _ (.tail _ (.tail _ (.tail _ (.tail _ (.head _))))))))))))))))))))), gga_x_pbepow_scaling, gga_x_pbepow_scalingUnpol⟩,
    ⟨mem06 (by unfold shipped06; exact .head _), gga_x_pbetrans_scaling, gga_x_pbetrans_scalingUnpol⟩,
    ⟨mem06 (by unfold shipped06; exact .tail _ (.head _)), gga_x_pw86_scaling, gga_x_pw86_scalingUnpol⟩,
    ⟨mem06 (by unfold shipped06; exact .tail _ (.tail _ (.head _))), gga_x_pw91_scaling, gga_x_pw91_scalingUnpol⟩,
    ⟨mem06 (by unfold shipped06; exact .tail _ (.tail _ (.tail _ (.head _)))), gga_x_q1d_scaling, gga_x_q1d_scalingUnpol⟩,
    ⟨mem06 (by unfold shipped06; exact .tail _ (.tail _ (.tail _ (.tail _ (.head _))))), gga_x_q2d_scaling, gga_x_q2d_scalingUnpol⟩,
    ⟨mem06 (by unfold shipped06; exact .tail _ (.tail _ (.tail _ (.tail _ (.tail _ (.head _)))))), gga_x_rge2_scaling, gga_x_rge2_scalingUnpol⟩,
    ⟨mem06 (by unfold shipped06; exact .tail _ (.tail _ (.tail _ (.tail _ (.tail _ (.tail _ (.head _))))))), gga_x_rpbe_scaling, gga_x_rpbe_scalingUnpol⟩,
    ⟨mem06 (by unfold shipped06; exact .tail _ (.tail _ (.tail _ (.tail _ (.tail _ (.tail _ (.tail _ (.head _)))))))), gga_x_s12_scaling, gga_x_s12_scalingUnpol⟩,
    ⟨mem06 (by unfold shipped06; exact .tail _ (.tail _ (.tail _ (.tail _ (.tail _ (.tail _ (.tail _ (.tail _ (.tail _ (.tail _ (.head _))))))))))), gga_x_sg4_scaling, gga_x_sg4_scalingUnpol⟩,
    ⟨mem06 (by unfold shipped06; exact .tail _ (.tail _ (.tail _ (.tail _ (.tail _ (.tail _ (.tail _ (.tail _ (.tail _ (.tail _ (.tail _ (.head _)))))))))))), gga_x_sogga11_scaling, gga_x_sogga11_scalingUnpol⟩,
    ⟨mem06 (by unfold shipped06; exact .tail _ (.tail _ (.tail _ (.tail _ (.tail _ (.tail _ (.tail _ (.tail _ (.tail _ (.tail _ (.tail _ (.tail _ (.head _))))))))))))), gga_x_ssb_sw_scaling, gga_x_ssb_sw_scalingUnpol⟩,
    ⟨mem06 (by unfold shipped06; exact .tail _ (.tail _ (.tail _ (.tail _ (.tail _ (.tail _ (.tail _ (.tail _ (.tail _ (.tail _ (.tail _ (.tail _ (.tail _ (.head _)))))))))))))), gga_x_vmt_scaling, gga_x_vmt_scalingUnpol⟩,
    ⟨mem06 (by unfold shipped06; exact .tail _ (.tail _ (.tail _ (.tail _ (.tail _ (.tail _ (.tail _ (.tail _ (.tail _ (.tail _ (.tail _ (.tail _ (.tail _ (.tail _ (.head _))))))))))))))), gga_x_vmt84_scaling, gga_x_vmt84_scalingUnpol⟩,
    ⟨mem06 (by unfold shipped06; exact .tail _ (.tail _ (.tail _ (.tail _ (.tail _ (.tail _ (.tail _ (.tail _ (.tail _ (.tail _ (.tail _ (.tail _ (.tail _ (.tail _ (.tail _ (.head _)))))))))))))))), gga_x_wc_scaling, gga_x_wc_scalingUnpol⟩,
    ⟨mem07 (by unfold shipped07; exact .tail _ (.tail _ (.tail _ (.tail _ (.tail _ (.tail _ (.tail _ (.head _)))))))), hyb_mgga_x_dldf_scaling, hyb_mgga_x_dldf_scalingUnpol⟩,
    ⟨mem07 (by unfold shipped07; exact .tail _ (.tail _ (.tail _ (.tail _ (.tail _ (.tail _ (.tail _ (.tail _ (.tail _ (.head _)))))))))), hyb_mgga_x_m05_scaling, hyb_mgga_x_m05_scalingUnpol⟩,
    ⟨mem09 (by unfold shipped09; exact .tail _ (.tail _ (.tail _ (.tail _ (.tail _ (.tail _ (.tail _ (.tail _ (.tail _ (.tail _ (.tail _ (.tail _ (.tail _ (.tail _ (.head _))))))))))))))), lda_x_scaling, lda_x_scalingUnpol⟩,
    ⟨mem13 (by unfold shipped13; exact .tail _ (.tail _ (.tail _ (.tail _ (.tail _ (.tail _ (.head _))))))), mgga_x_br89_explicit_scaling, mgga_x_br89_explicit_scalingUnpol⟩,
    ⟨mem13 (by unfold shipped13; exact .tail _ (.tail _ (.tail _ (.tail _ (.tail _ (.tail _ (.tail _ (.head _)))))))), mgga_x_edmgga_scaling, mgga_x_edmgga_scalingUnpol⟩,
    ⟨mem13 (by unfold shipped13; exact .tail _ (.tail _ (.tail _ (.tail _ (.tail _ (.tail _ (.tail _ (.tail _ (.head _))))))))), mgga_x_ft98_scaling, mgga_x_ft98_scalingUnpol⟩,
    ⟨mem13 (by unfold shipped13; exact .tail _ (.tail _ (.tail _ (.tail _ (.tail _ (.tail _ (.tail _ (.tail _ (.tail _ (.head _)))))))))), mgga_x_gdme_scaling, mgga_x_gdme_scalingUnpol⟩,
    ⟨mem13 (by unfold shipped13; exact .tail _ (.tail _ (.tail _ (.tail _ (.tail _ (.tail _ (.tail _ (.tail _ (.tail _ (.tail _ (.head _))))))))))), mgga_x_gvt4_scaling, mgga_x_gvt4_scalingUnpol⟩,
    ⟨mem13 (by unfold shipped13; exact .tail _ (.tail _ (.tail _ (.tail _ (.tail _ (.tail _ (.tail _ (.tail _ (.tail _ (.tail _ (.tail _ (.head _)))))))))))), mgga_x_gx_scaling, mgga_x_gx_scalingUnpol⟩,
    ⟨mem13 (by unfold shipped13; exact .tail _ (.tail _ (.tail _ (.tail _ (.tail _ (.tail _ (.tail _ (.tail _ (.tail _ (.tail _ (.tail _ (.tail _ (.head _))))))))))))), mgga_x_jk_scaling, mgga_x_jk_scalingUnpol⟩,
    ⟨mem13 (by unfold shipped13; exact .tail _ (.tail _ (.tail _ (.tail _ (.tail _ (.tail _ (.tail _ (.tail _ (.tail _ (.tail _ (.tail _ (.tail _ (.tail _ (.head _)))))))))))))), mgga_x_lta_scaling, mgga_x_lta_scalingUnpol⟩,
    ⟨mem13 (by unfold shipped13; exact .tail _ (.tail _ (.tail _ (.tail _ (.tail _ (.tail _ (.tail _ (.tail _ (.tail _ (.tail _ (.tail _ (.tail _ (.tail _ (.tail _ (.head _))))))))))))))), mgga_x_m06l_scaling, mgga_x_m06l_scalingUnpol⟩,
    ⟨mem13 (by unfold shipped13; exact .tail _ (.tail _ (.tail _ (.tail _ (.tail _ (.tail _ (.tail _ (.tail _ (.tail _ (.tail _ (.tail _ (.tail _ (.tail _ (.tail _ (.tail _ (.head _)))))))))))))))), mgga_x_m08_scaling, mgga_x_m08_scalingUnpol⟩,
    ⟨mem14 (by unfold shipped14; exact .head _), mgga_x_mbeef_scaling, mgga_x_mbeef_scalingUnpol⟩,
    ⟨mem14 (by unfold shipped14; exact .tail _ (.head _)), mgga_x_mbeefvdw_scaling, mgga_x_mbeefvdw_scalingUnpol⟩,
    ⟨mem14 (by unfold shipped14; exact .tail _ (.tail _ (.tail _ (.tail _ (.tail _ (.head _)))))), mgga_x_mcml_scaling, mgga_x_mcml_scalingUnpol⟩,
    ⟨mem14 (by unfold shipped14; exact .tail _ (.tail _ (.tail _ (.tail _ (.tail _ (.tail _ (.tail _ (.tail _ (.head _))))))))), mgga_x_ms_scaling, mgga_x_ms_scalingUnpol⟩,
    ⟨mem14 (by unfold shipped14; exact .tail _ (.tail _ (.tail _ (.tail _ (.tail _ (.tail _ (.tail _ (.tail _ (.tail _ (.head _)))))))))), mgga_x_msb_scaling, mgga_x_msb_scalingUnpol⟩,
    ⟨mem14 (by unfold shipped14; exact .tail _ (.tail _ (.tail _ (.tail _ (.tail _ (.tail _ (.tail _ (.tail _ (.tail _ (.tail _ (.head _))))))))))), mgga_x_mvs_scaling, mgga_x_mvs_scalingUnpol⟩,
    ⟨mem15 (by unfold shipped15; exact .head _), mgga_x_mvsb_scaling, mgga_x_mvsb_scalingUnpol⟩,
    ⟨mem15 (by unfold shipped15; exact .tail _ (.head _)), mgga_x_pbe_gx_scaling, mgga_x_pbe_gx_scalingUnpol⟩,
    ⟨mem15 (by unfold shipped15; exact .tail _ (.tail _ (.head _))), mgga_x_pkzb_scaling, mgga_x_pkzb_scalingUnpol⟩,
    ⟨mem15 (by unfold shipped15; exact .tail _ (.tail _ (.tail _ (.head _)))), mgga_x_r2scan_scaling, mgga_x_r2scan_scalingUnpol⟩,
    ⟨mem15 (by unfold shipped15; exact .tail _ (.tail _ (.tail _ (.tail _ (.head _))))), mgga_x_r4scan_scaling, mgga_x_r4scan_scalingUnpol⟩,
    ⟨mem15 (by unfold shipped15; exact .tail _ (.tail _ (.tail _ (.tail _ (.tail _ (.head _)))))), mgga_x_regtm_scaling, mgga_x_regtm_scalingUnpol⟩,
    ⟨mem15 (by unfold shipped15; exact .tail _ (.tail _ (.tail _ (.tail _ (.tail _ (.tail _ (.head _))))))), mgga_x_regtpss_scaling, mgga_x_regtpss_scalingUnpol⟩,
    ⟨mem15 (by unfold shipped15; exact .tail _ (.tail _ (.tail _ (.tail _ (.tail _ (.tail _ (.tail _ (.head _)))))))), mgga_x_revtm_scaling, mgga_x_revtm_scalingUnpol⟩,
    ⟨mem15 (by unfold shipped15; exact .tail _ (.tail _ (.tail _ (.tail _ (.tail _ (.tail _ (.tail _ (.tail _ (.head _))))))))), mgga_x_rlda_scaling, mgga_x_rlda_scalingUnpol⟩,
    ⟨mem15 (by unfold shipped15; exact .tail _ (.tail _ (.tail _ (.tail _ (.tail _ (.tail _ (.tail _ (.tail _ (.tail _ (.head _)))))))))), mgga_x_rppscan_scaling, mgga_x_rppscan_scalingUnpol⟩,
    ⟨mem15 (by unfold shipped15; exact .tail _ (.tail _ (.tail _ (.tail _ (.tail _ (.tail _ (.tail _ (.tail _ (.tail _ (.tail _ (.tail _ (.head _)))))))))))), mgga_x_rtpss_scaling, mgga_x_rtpss_scalingUnpol⟩,
    ⟨mem15 (by unfold shipped15; exact .tail _ (.tail _ (.tail _ (.tail _ (.tail _ (.tail _ (.tail _ (.tail _ (.tail _ (.tail _ (.tail _ (.tail _ (.head _))))))))))))), mgga_x_sa_tpss_scaling, mgga_x_sa_tpss_scalingUnpol⟩,
    ⟨mem15 (by unfold shipped15; exact .tail _ (.tail _ (.tail _ (.tail _ (.tail _ (.tail _ (.tail _ (.tail _ (.tail _ (.tail _ (.tail _ (.tail _ (.tail _ (.head _)))))))))))))), mgga_x_scan_scaling, mgga_x_scan_scalingUnpol⟩,
    ⟨mem15 (by unfold shipped15; exact .tail _ (.tail _ (.tail _ (.tail _ (.tail _ (.tail _ (.tail _ (.tail _ (.tail _ (.tail _ (.tail _ (.tail _ (.tail _ (.tail _ (.head _))))))))))))))), mgga_x_task_scaling, mgga_x_task_scalingUnpol⟩,
    ⟨mem16 (by unfold shipped16; exact .head _), mgga_x_tau_hcth_scaling, mgga_x_tau_hcth_scalingUnpol⟩,
    ⟨mem16 (by unfold shipped16; exact .tail _ (.tail _ (.head _))), mgga_x_th_scaling, mgga_x_th_scalingUnpol⟩,
    ⟨mem16 (by unfold shipped16; exact .tail _ (.tail _ (.tail _ (.head _)))), mgga_x_tm_scaling, mgga_x_tm_scalingUnpol⟩,
    ⟨mem16 (by unfold shipped16; exact .tail _ (.tail _ (.tail _ (.tail _ (.head _))))), mgga_x_tpss_scaling, mgga_x_tpss_scalingUnpol⟩,
    ⟨mem16 (by unfold shipped16; exact .tail _ (.tail _ (.tail _ (.tail _ (.tail _ (.head _)))))), mgga_x_vcml_scaling, mgga_x_vcml_scalingUnpol⟩,
    ⟨mem16 (by unfold shipped16; exact .tail _ (.tail _ (.tail _ (.tail _ (.tail _ (.tail _ (.head _))))))), mgga_x_vt84_scaling, mgga_x_vt84_scalingUnpol⟩⟩

/-- Kinetic-energy formulas that scale like the exact kinetic energy. -/
noncomputable def scalingKinList : List Shipped := [
  ⟨"gga_k_apbe", .gga, gga_k_apbe⟩,
  ⟨"gga_k_apbeint", .gga, gga_k_apbeint⟩,
  ⟨"gga_k_dk", .gga, gga_k_dk⟩,
  ⟨"gga_k_exp4", .gga, gga_k_exp4⟩,
  ⟨"gga_k_lc94", .gga, gga_k_lc94⟩,
  ⟨"gga_k_lgap", .gga, gga_k_lgap⟩,
  ⟨"gga_k_lgap_ge", .gga, gga_k_lgap_ge⟩,
  ⟨"gga_k_lkt", .gga, gga_k_lkt⟩,
  ⟨"gga_k_llp", .gga, gga_k_llp⟩,
  ⟨"gga_k_meyer", .gga, gga_k_meyer⟩,
  ⟨"gga_k_mpbe", .gga, gga_k_mpbe⟩,
  ⟨"gga_k_ol1", .gga, gga_k_ol1⟩,
  ⟨"gga_k_ol2", .gga, gga_k_ol2⟩,
  ⟨"gga_k_pearson", .gga, gga_k_pearson⟩,
  ⟨"gga_k_pg", .gga, gga_k_pg⟩,
  ⟨"gga_k_pw86", .gga, gga_k_pw86⟩,
  ⟨"gga_k_rational_p", .gga, gga_k_rational_p⟩,
  ⟨"gga_k_tflw", .gga, gga_k_tflw⟩,
  ⟨"gga_k_thakkar", .gga, gga_k_thakkar⟩,
  ⟨"gga_k_vt84f", .gga, gga_k_vt84f⟩,
  ⟨"lda_k_tf", .lda, lda_k_tf⟩,
  ⟨"mgga_k_csk", .mgga, mgga_k_csk⟩,
  ⟨"mgga_k_csk_loc", .mgga, mgga_k_csk_loc⟩,
  ⟨"mgga_k_gea2", .mgga, mgga_k_gea2⟩,
  ⟨"mgga_k_gea4", .mgga, mgga_k_gea4⟩,
  ⟨"mgga_k_lk", .mgga, mgga_k_lk⟩,
  ⟨"mgga_k_pc07", .mgga, mgga_k_pc07⟩,
  ⟨"mgga_k_pgslb", .mgga, mgga_k_pgslb⟩,
  ⟨"mgga_k_rda", .mgga, mgga_k_rda⟩]

theorem scalingKin_shipped : ∀ x ∈ scalingKinList, x ∈ shipped ∧ UniformScaling 3 2 x.fam x.code ∧ UniformScalingUnpol 3 2 x.fam x.code := by
  unfold scalingKinList
  simp only [List.forall_mem_cons, List.not_mem_nil, false_implies, implies_true, and_true]
  exact ⟨⟨mem03 (by unfold shipped03; exact .tail _ (.tail _ (.tail _ (.tail _ (.tail _ (.tail _ (.tail _ (.tail _ (.head _))))))))), gga_k_apbe_scaling, gga_k_apbe_scalingUnpol⟩,
    ⟨mem03 (by unfold shipped03; exact .tail _ (.tail _ (.tail _ (.tail _ (.tail _ (.tail _ (.tail _ (.tail _ (.tail _ (.head _)))))))))), gga_k_apbeint_scaling, gga_k_apbeint_scalingUnpol⟩,
    ⟨mem03 (by unfold shipped03; exact .tail _ (.tail _ (.tail _ (.tail _ (.tail _ (.tail _ (.tail _ (.tail _ (.tail _ (.tail _ (.head _))))))))))), gga_k_dk_scaling, gga_k_dk_scalingUnpol⟩,
    ⟨mem03 (by unfold shipped03; exact .tail _ (.tail _ (.tail _ (.tail _ (.tail _ (.tail _ (.tail _ (.tail _ (.tail _ (.tail _ (.tail _ (.head _)))))))))))), gga_k_exp4_scaling, gga_k_exp4_scalingUnpol⟩,
    ⟨mem03 (by unfold shipped03; exact .tail _ (.tail _ (.tail _ (.tail _ (.tail _ (.tail _ (.tail _ (.tail _ (.tail _ (.tail _ (.tail _ (.tail _ (.head _))))))))))))), gga_k_lc94_scaling, gga_k_lc94_scalingUnpol⟩,
    ⟨mem03 (by unfold shipped03; exact .tail _ (.tail _ (.tail _ (.tail _ (.tail _ (.tail _ (.tail _ (.tail _ (.tail _ (.tail _ (.tail _ (.tail _ (.tail _ (.head _)))))))))))))), gga_k_lgap_scaling, gga_k_lgap_scalingUnpol⟩,
    ⟨mem03 (by unfold shipped03; exact .tail _ (.tail _ (.tail _ (.tail _ (.tail _ (.tail _ (.tail _ (.tail _ (.tail _ (.tail _ (.tail _ (.tail _ (.tail _ (.tail _ (.head _))))))))))))))), gga_k_lgap_ge_scaling, gga_k_lgap_ge_scalingUnpol⟩,
    ⟨mem03 (by unfold shipped03; exact .tail _ (.tail _ (.tail _ (.tail _ (.tail _ (.tail _ (.tail _ (.tail _ (.tail _ (.tail _ (.tail _ (.tail _ (.tail _ (.tail _ (.tail _ (.head _)))))))))))))))), gga_k_lkt_scaling, gga_k_lkt_scalingUnpol⟩,
    ⟨mem03 (by unfold shipped03; exact .tail _ (.tail _ (.tail _ (.tail _ (.tail _ (.tail _ (.tail _ (.tail _ (.tail _ (.tail _ (.tail _ (.tail _ (.tail _ (.tail _ (.tail _ (.tail _ (.head _))))))))))))))))), gga_k_llp_scaling, gga_k_llp_scalingUnpol⟩,
    ⟨mem03 (by unfold shipped03; exact .tail _ (.tail _ (.tail _ (.tail _ (.tail _ (.tail _ (.tail _ (.tail _ (.tail _ (.tail _ (.tail _ (.tail _ (.tail _ (.tail _ (.tail _ (.tail _ (.tail _ (.head _)))))))))))))))))), gga_k_meyer_scaling, gga_k_meyer_scalingUnpol⟩,
    ⟨mem03 (by unfold shipped03; exact .tail _ (.tail _ (.tail _ (.tail _ (.tail _ (.tail _ (.tail _ (.tail _ (.tail _ (.tail _ (.tail _ (.tail _ (.tail _ (.tail _ (.tail _ (.tail _ (.tail _ (.tail _ (.head _))))))))))))))))))), gga_k_mpbe_scaling, gga_k_mpbe_scalingUnpol⟩,
    ⟨mem03 (by unfold shipped03; exact .tail _ (.tail _ (.tail _ (.tail _ (.tail _ (.tail _ (.tail _ (.tail _ (.tail _ (.tail _ (.tail _ (.tail _ (.tail _ (.tail _ (.tail _ (.tail _ (.tail _ (.tail _ (.tail _ (.head _)))))))))))))))))))), gga_k_ol1_scaling, gga_k_ol1_scalingUnpol⟩,
    ⟨mem03 (by unfold shipped03; exact .tail _ (.tail _ (.tail _ (.tail _ (.tail _ (.tail _ (.tail _ (.tail _ (.tail _ (.tail _ (.tail _ (.tail _ (.tail _ (.tail _ (.tail _ (.tail _ (.tail _ (.tail _ (.tail _ (.tail _ (.head _))))))))))))))))))))), gga_k_ol2_scaling, gga_k_ol2_scalingUnpol⟩,
    ⟨mem03 (by unfold shipped03; exact .tail _ (.tail _ (.tail _ (.tail _ (.tail _ (.tail _ (.tail _ (.tail _ (.tail _ (.tail _ (.tail _ (.tail _ (.tail _ (.tail _ (.tail _ (.tail _ (.tail _ (.tail _ (.tail _ (.tail _ (.tail _ (.head _)))))))))))))))))))))), gga_k_pearson_scaling, gga_k_pearson_scalingUnpol⟩,
    ⟨mem03 (by unfold shipped03; exact .tail _ (.tail _ (.tail _ (.tail _ (.tail _ (.tail _ (.tail _ (.tail _ (.tail _ (.tail _ (.tail _ (.tail _ (.tail _ (.tail _ (.tail _ (.tail _ (.tail _ (.tail _ (.tail _ (.tail _ (.tail _ (.tail _ (.head _))))))))))))))))))))))), gga_k_pg_scaling, gga_k_pg_scalingUnpol⟩,
    ⟨mem03 (by unfold shipped03; exact .tail _ (.tail _ (.tail _ (.tail _ (.tail _ (.tail _ (.tail _ (.tail _ (.tail _ (.tail _ (.tail _ (.tail _ (.tail _ (.tail _ (.tail _ (.tail _ (.tail _ (.tail _ (.tail _ (.tail _ (.tail _ (.tail _ (.tail _ (.head _)))))))))))))))))))))))), gga_k_pw86_scaling, gga_k_pw86_scalingUnpol⟩,
    ⟨mem03 (by unfold shipped03; exact .tail _ (.tail _ (.tail _ (.tail _ (.tail _ (.tail _ (.tail _ (.tail _ (.tail _ (.tail _ (.tail _ (.tail _ (.tail _ (.tail _ (.tail _ (.tail _ (.tail _ (.tail _ (.tail _ (.tail _ (.tail _ (.tail _ (.tail _ (.tail _ (.head _))))))))))))))))))))))))), gga_k_rational_p_scaling, gga_k_rational_p_scalingUnpol⟩,
    ⟨mem03 (by unfold shipped03; exact .tail _ (.tail _ (.tail _ (.tail _ (.tail _ (.tail _ (.tail _ (.tail _ (.tail _ (.tail _ (.tail _ (.tail _ (.tail _ (.tail _ (.tail _ (.tail _ (.tail _ (.tail _ (.tail _ (.tail _ (.tail _ (.tail _ (.tail _ (.tail _ (.tail _ (.head _)))))))))))))))))))))))))), gga_k_tflw_scaling, gga_k_tflw_scalingUnpol⟩,
    ⟨mem03 (by unfold shipped03; exact .tail _ (.tail _ (.tail _ (.tail _ (.tail _ (.tail _ (.tail _ (.tail _ (.tail _ (.tail _ (.tail _ (.tail _ (.tail _ (.tail _ (.tail _ (.tail _ (.tail _ (.tail _ (.tail _ (.tail _ (.tail _ (.tail _ (.tail _ (.tail _ (.tail _ (.tail _ (.head _))))))))))))))))))))))))))), gga_k_thakkar_scaling, gga_k_thakkar_scalingUnpol⟩,
    ⟨mem04 (by unfold shipped04; exact .head _), gga_k_vt84f_scaling, gga_k_vt84f_scalingUnpol⟩,
    ⟨mem09 (by unfold shipped09; exact .tail _ (.tail _ (.tail _ (.tail _ (.tail _ (.tail _ (.tail _ (.tail _ (.tail _ (.tail _ (.tail _ (.tail _ (.head _))))))))))))), lda_k_tf_scaling, lda_k_tf_scalingUnpol⟩,
    ⟨mem12 (by unfold shipped12; exact .tail _ (.tail _ (.tail _ (.tail _ (.head _))))), mgga_k_csk_scaling, mgga_k_csk_scalingUnpol⟩,
    ⟨mem12 (by unfold shipped12; exact .tail _ (.tail _ (.tail _ (.tail _ (.tail _ (.head _)))))), mgga_k_csk_loc_scaling, mgga_k_csk_loc_scalingUnpol⟩,
    ⟨mem12 (by unfold shipped12; exact .tail _ (.tail _ (.tail _ (.tail _ (.tail _ (.tail _ (.head _))))))), mgga_k_gea2_scaling, mgga_k_gea2_scalingUnpol⟩,
    ⟨mem12 (by unfold shipped12; exact .tail _ (.tail _ (.tail _ (.tail _ (.tail _ (.tail _ (.tail _ (.head _)))))))), mgga_k_gea4_scaling, mgga_k_gea4_scalingUnpol⟩,
    ⟨mem12 (by unfold shipped12; exact .tail _ (.tail _ (.tail _ (.tail _ (.tail _ (.tail _ (.tail _ (.tail _ (.head _))))))))), mgga_k_lk_scaling, mgga_k_lk_scalingUnpol⟩,
    ⟨mem12 (by unfold shipped12; exact .tail _ (.tail _ (.tail _ (.tail _ (.tail _ (.tail _ (.tail _ (.tail _ (.tail _ (.head _)))))))))), mgga_k_pc07_scaling, mgga_k_pc07_scalingUnpol⟩,
    ⟨mem13 (by unfold shipped13; exact .head _), mgga_k_pgslb_scaling, mgga_k_pgslb_scalingUnpol⟩,
    ⟨mem13 (by unfold shipped13; exact .tail _ (.head _)), mgga_k_rda_scaling, mgga_k_rda_scalingUnpol⟩⟩

/-- Exchange formulas in two dimensions that scale like the exact exchange energy. -/
noncomputable def scaling2List : List Shipped := [
  ⟨"gga_x_2d_b86", .gga, gga_x_2d_b86⟩,
  ⟨"gga_x_2d_b86_mgc", .gga, gga_x_2d_b86_mgc⟩,
  ⟨"gga_x_2d_b88", .gga, gga_x_2d_b88⟩,
  ⟨"gga_x_2d_pbe", .gga, gga_x_2d_pbe⟩,
  ⟨"lda_x_2d", .lda, lda_x_2d⟩,
  ⟨"mgga_x_2d_js17", .mgga, mgga_x_2d_js17⟩,
  ⟨"mgga_x_2d_prhg07", .mgga, mgga_x_2d_prhg07⟩,
  ⟨"mgga_x_2d_prp10", .mgga, mgga_x_2d_prp10⟩]

theorem scaling2_shipped : ∀ x ∈ scaling2List, x ∈ shipped ∧ UniformScaling 2 1 x.fam x.code ∧ UniformScalingUnpol 2 1 x.fam x.code := by
  unfold scaling2List
  simp only [List.forall_mem_cons, List.not_mem_nil, false_implies, implies_true, and_true]
  exact ⟨⟨mem04 (by unfold shipped04; exact .tail _ (.head _)), gga_x_2d_b86_scaling, gga_x_2d_b86_scalingUnpol⟩,
    ⟨mem04 (by unfold shipped04; exact .tail _ (.tail _ (.head _))), gga_x_2d_b86_mgc_scaling, gga_x_2d_b86_mgc_scalingUnpol⟩,
    ⟨mem04 (by unfold shipped04; exact .tail _ (.tail _ (.tail _ (.head _)))), gga_x_2d_b88_scaling, gga_x_2d_b88_scalingUnpol⟩,
    ⟨mem04 (by unfold shipped04; exact .tail _ (.tail _ (.tail _ (.tail _ (.head _))))), gga_x_2d_pbe_scaling, gga_x_2d_pbe_scalingUnpol⟩,
    ⟨mem09 (by unfold shipped09; exact .tail _ (.tail _ (.tail _ (.tail _ (.tail _ (.tail _ (.tail _ (.tail _ (.tail _ (.tail _ (.tail _ (.tail _ (.tail _ (.tail _ (.tail _ (.tail _ (.tail _ (.head _)))))))))))))))))), lda_x_2d_scaling, lda_x_2d_scalingUnpol⟩,
    ⟨mem13 (by unfold shipped13; exact .tail _ (.tail _ (.head _))), mgga_x_2d_js17_scaling, mgga_x_2d_js17_scalingUnpol⟩,
    ⟨mem13 (by unfold shipped13; exact .tail _ (.tail _ (.tail _ (.head _)))), mgga_x_2d_prhg07_scaling, mgga_x_2d_prhg07_scalingUnpol⟩,
    ⟨mem13 (by unfold shipped13; exact .tail _ (.tail _ (.tail _ (.tail _ (.head _))))), mgga_x_2d_prp10_scaling, mgga_x_2d_prp10_scalingUnpol⟩⟩

end Verif.Props
