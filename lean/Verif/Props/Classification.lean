import Verif.Props.SpinFlipAll
import Verif.Props.ClosedShellAll
import Verif.Props.StaticAll
import Verif.Props.ZetaBelowOne
import Verif.Props.Asymmetric
/-!
# C21, C22 decided for the table of shipped formulas
-/
namespace Verif.Props
open Verif.Py Verif.Model Verif.Spec Verif.Data

/-- Formulas that treat the two spins differently, and those that never return (`undefinedHelper`). -/
def spinAsymmetric : List String := ["gga_x_lb", "lda_xc_ksdt", "mgga_x_2d_prp10", "gga_x_fd_lb94", "gga_x_gg99", "hyb_gga_xc_case21", "lda_x_1d_exponential", "lda_x_1d_soft", "mgga_c_b94", "mgga_x_br89", "mgga_x_mbr", "mgga_x_mbrxc_bg", "mgga_x_mbrxh_bg", "mgga_x_mggac", "mgga_x_tb09"]

/-- Formulas for which C21 is not settled: the two files differ in the last digits of constants. -/
def closedShellUnsettled : List String := ["gga_c_ft97", "gga_c_op_pw91", "gga_c_optc", "gga_k_exp4", "gga_x_bpccac", "gga_x_htbs", "gga_x_lg93", "gga_x_lv_rpw86", "gga_x_rge2", "gga_x_sg4", "gga_xc_th3", "lda_c_ml1", "lda_c_pk09", "mgga_c_kcisk", "mgga_c_tpssloc", "mgga_x_2d_js17", "mgga_x_task"]

theorem spinFlip_z {fam f} (h : SpinFlip fam f) : SpinFlipZ fam f :=
  fun P p r0 r1 s0 s1 s2 l0 l1 t0 t1 hp _ h0 h1 a b c d => h P p r0 r1 s0 s1 s2 l0 l1 t0 t1 hp h0 h1 a b c d

theorem closedShell_z {fam f} (h : ClosedShell fam f) : ClosedShellZ fam f :=
  fun P p r s l t hp _ h0 h1 h2 => h P p r s l t hp h0 h1 h2

/-- Thresholds as in a record of libxc. -/
noncomputable def tenthRec : Rec := { fld := fun _ => 1 / 10, param := fun _ => 0 }

theorem nameError_not_spinFlipZ {fam f} (h : AlwaysNameError fam f) : ¬ SpinFlipZ fam f := by
  intro k
  obtain ⟨e, h1, _⟩ := k ⟨id, id, id, id, id, fun _ => id⟩ tenthRec 1 1 0 0 0 0 0 0 0 ⟨by norm_num [tenthRec], by norm_num [tenthRec]⟩ (by norm_num [tenthRec])
    one_pos one_pos le_rfl le_rfl le_rfl le_rfl
  rw [h.1] at h1
  exact nomatch h1

theorem nameError_not_closedShellZ {fam f} (h : AlwaysNameError fam f) : ¬ ClosedShellZ fam f := by
  intro k
  obtain ⟨e, h1, _⟩ := k ⟨id, id, id, id, id, fun _ => id⟩ tenthRec 1 0 0 0 ⟨by norm_num [tenthRec], by norm_num [tenthRec]⟩ (by norm_num [tenthRec])
    one_pos le_rfl le_rfl
  rw [h.2] at h1
  exact nomatch h1

theorem spinFlipZ_01 : ∀ x ∈ shipped01, (x.name ∉ spinAsymmetric → SpinFlipZ x.fam x.code) ∧ (x.name ∈ spinAsymmetric → ¬ SpinFlipZ x.fam x.code) := by
  unfold shipped01
  simp only [List.forall_mem_cons, List.not_mem_nil, false_implies, implies_true, and_true]
  exact ⟨⟨fun _ => spinFlip_z gga_c_acgga_spinFlip, fun h => absurd h (by simp [spinAsymmetric])⟩,
    ⟨fun _ => spinFlip_z gga_c_acggap_spinFlip, fun h => absurd h (by simp [spinAsymmetric])⟩,
    ⟨fun _ => spinFlip_z gga_c_am05_spinFlip, fun h => absurd h (by simp [spinAsymmetric])⟩,
    ⟨fun _ => spinFlip_z gga_c_bmk_spinFlip, fun h => absurd h (by simp [spinAsymmetric])⟩,
    ⟨fun _ => spinFlip_z gga_c_ccdf_spinFlip, fun h => absurd h (by simp [spinAsymmetric])⟩,
    ⟨fun _ => spinFlip_z gga_c_chachiyo_spinFlip, fun h => absurd h (by simp [spinAsymmetric])⟩,
    ⟨fun _ => spinFlip_z gga_c_cs1_spinFlip, fun h => absurd h (by simp [spinAsymmetric])⟩,
    ⟨fun _ => spinFlip_z gga_c_ft97_spinFlip, fun h => absurd h (by simp [spinAsymmetric])⟩,
    ⟨fun _ => spinFlip_z gga_c_gapc_spinFlip, fun h => absurd h (by simp [spinAsymmetric])⟩,
    ⟨fun _ => spinFlip_z gga_c_gaploc_spinFlip, fun h => absurd h (by simp [spinAsymmetric])⟩,
    ⟨fun _ => spinFlip_z gga_c_hcth_a_spinFlip, fun h => absurd h (by simp [spinAsymmetric])⟩,
    ⟨fun _ => spinFlip_z gga_c_lm_spinFlip, fun h => absurd h (by simp [spinAsymmetric])⟩,
    ⟨fun _ => spinFlip_z gga_c_lyp_spinFlip, fun h => absurd h (by simp [spinAsymmetric])⟩,
    ⟨fun _ => spinFlip_z gga_c_lypr_spinFlip, fun h => absurd h (by simp [spinAsymmetric])⟩,
    ⟨fun _ => gga_c_op_b88_spinFlipZ, fun h => absurd h (by simp [spinAsymmetric])⟩⟩

theorem spinFlipZ_02 : ∀ x ∈ shipped02, (x.name ∉ spinAsymmetric → SpinFlipZ x.fam x.code) ∧ (x.name ∈ spinAsymmetric → ¬ SpinFlipZ x.fam x.code) := by
  unfold shipped02
  simp only [List.forall_mem_cons, List.not_mem_nil, false_implies, implies_true, and_true]
  exact ⟨⟨fun _ => gga_c_op_g96_spinFlipZ, fun h => absurd h (by simp [spinAsymmetric])⟩,
    ⟨fun _ => gga_c_op_pbe_spinFlipZ, fun h => absurd h (by simp [spinAsymmetric])⟩,
    ⟨fun _ => gga_c_op_pw91_spinFlipZ, fun h => absurd h (by simp [spinAsymmetric])⟩,
    ⟨fun _ => gga_c_op_xalpha_spinFlipZ, fun h => absurd h (by simp [spinAsymmetric])⟩,
    ⟨fun _ => spinFlip_z gga_c_optc_spinFlip, fun h => absurd h (by simp [spinAsymmetric])⟩,
    ⟨fun _ => spinFlip_z gga_c_p86_spinFlip, fun h => absurd h (by simp [spinAsymmetric])⟩,
    ⟨fun _ => spinFlip_z gga_c_p86vwn_spinFlip, fun h => absurd h (by simp [spinAsymmetric])⟩,
    ⟨fun _ => spinFlip_z gga_c_pbe_spinFlip, fun h => absurd h (by simp [spinAsymmetric])⟩,
    ⟨fun _ => spinFlip_z gga_c_pbe_vwn_spinFlip, fun h => absurd h (by simp [spinAsymmetric])⟩,
    ⟨fun _ => spinFlip_z gga_c_pbeloc_spinFlip, fun h => absurd h (by simp [spinAsymmetric])⟩,
    ⟨fun _ => spinFlip_z gga_c_pw91_spinFlip, fun h => absurd h (by simp [spinAsymmetric])⟩,
    ⟨fun _ => spinFlip_z gga_c_q2d_spinFlip, fun h => absurd h (by simp [spinAsymmetric])⟩,
    ⟨fun _ => spinFlip_z gga_c_regtpss_spinFlip, fun h => absurd h (by simp [spinAsymmetric])⟩,
    ⟨fun _ => spinFlip_z gga_c_revtca_spinFlip, fun h => absurd h (by simp [spinAsymmetric])⟩,
    ⟨fun _ => spinFlip_z gga_c_scan_e0_spinFlip, fun h => absurd h (by simp [spinAsymmetric])⟩,
    ⟨fun _ => spinFlip_z gga_c_sg4_spinFlip, fun h => absurd h (by simp [spinAsymmetric])⟩⟩

theorem spinFlipZ_03 : ∀ x ∈ shipped03, (x.name ∉ spinAsymmetric → SpinFlipZ x.fam x.code) ∧ (x.name ∈ spinAsymmetric → ¬ SpinFlipZ x.fam x.code) := by
  unfold shipped03
  simp only [List.forall_mem_cons, List.not_mem_nil, false_implies, implies_true, and_true]
  exact ⟨⟨fun _ => spinFlip_z gga_c_sogga11_spinFlip, fun h => absurd h (by simp [spinAsymmetric])⟩,
    ⟨fun _ => spinFlip_z gga_c_tca_spinFlip, fun h => absurd h (by simp [spinAsymmetric])⟩,
    ⟨fun _ => gga_c_w94_spinFlipZ, fun h => absurd h (by simp [spinAsymmetric])⟩,
    ⟨fun _ => spinFlip_z gga_c_wi_spinFlip, fun h => absurd h (by simp [spinAsymmetric])⟩,
    ⟨fun _ => spinFlip_z gga_c_wl_spinFlip, fun h => absurd h (by simp [spinAsymmetric])⟩,
    ⟨fun _ => spinFlip_z gga_c_zpbeint_spinFlip, fun h => absurd h (by simp [spinAsymmetric])⟩,
    ⟨fun _ => spinFlip_z gga_c_zvpbeint_spinFlip, fun h => absurd h (by simp [spinAsymmetric])⟩,
    ⟨fun _ => spinFlip_z gga_c_zvpbeloc_spinFlip, fun h => absurd h (by simp [spinAsymmetric])⟩,
    ⟨fun _ => spinFlip_z gga_k_apbe_spinFlip, fun h => absurd h (by simp [spinAsymmetric])⟩,
    ⟨fun _ => spinFlip_z gga_k_apbeint_spinFlip, fun h => absurd h (by simp [spinAsymmetric])⟩,
    ⟨fun _ => spinFlip_z gga_k_dk_spinFlip, fun h => absurd h (by simp [spinAsymmetric])⟩,
    ⟨fun _ => spinFlip_z gga_k_exp4_spinFlip, fun h => absurd h (by simp [spinAsymmetric])⟩,
    ⟨fun _ => spinFlip_z gga_k_lc94_spinFlip, fun h => absurd h (by simp [spinAsymmetric])⟩,
    ⟨fun _ => spinFlip_z gga_k_lgap_spinFlip, fun h => absurd h (by simp [spinAsymmetric])⟩,
    ⟨fun _ => spinFlip_z gga_k_lgap_ge_spinFlip, fun h => absurd h (by simp [spinAsymmetric])⟩,
    ⟨fun _ => spinFlip_z gga_k_lkt_spinFlip, fun h => absurd h (by simp [spinAsymmetric])⟩,
    ⟨fun _ => spinFlip_z gga_k_llp_spinFlip, fun h => absurd h (by simp [spinAsymmetric])⟩,
    ⟨fun _ => spinFlip_z gga_k_meyer_spinFlip, fun h => absurd h (by simp [spinAsymmetric])⟩,
    ⟨fun _ => spinFlip_z gga_k_mpbe_spinFlip, fun h => absurd h (by simp [spinAsymmetric])⟩,
    ⟨fun _ => spinFlip_z gga_k_ol1_spinFlip, fun h => absurd h (by simp [spinAsymmetric])⟩,
    ⟨fun _ => spinFlip_z gga_k_ol2_spinFlip, fun h => absurd h (by simp [spinAsymmetric])⟩,
    ⟨fun _ => spinFlip_z gga_k_pearson_spinFlip, fun h => absurd h (by simp [spinAsymmetric])⟩,
    ⟨fun _ => spinFlip_z gga_k_pg_spinFlip, fun h => absurd h (by simp [spinAsymmetric])⟩,
    ⟨fun _ => spinFlip_z gga_k_pw86_spinFlip, fun h => absurd h (by simp [spinAsymmetric])⟩,
    ⟨fun _ => spinFlip_z gga_k_rational_p_spinFlip, fun h => absurd h (by simp [spinAsymmetric])⟩,
    ⟨fun _ => spinFlip_z gga_k_tflw_spinFlip, fun h => absurd h (by simp [spinAsymmetric])⟩,
    ⟨fun _ => spinFlip_z gga_k_thakkar_spinFlip, fun h => absurd h (by simp [spinAsymmetric])⟩⟩

theorem spinFlipZ_04 : ∀ x ∈ shipped04, (x.name ∉ spinAsymmetric → SpinFlipZ x.fam x.code) ∧ (x.name ∈ spinAsymmetric → ¬ SpinFlipZ x.fam x.code) := by
  unfold shipped04
  simp only [List.forall_mem_cons, List.not_mem_nil, false_implies, implies_true, and_true]
  exact ⟨⟨fun _ => spinFlip_z gga_k_vt84f_spinFlip, fun h => absurd h (by simp [spinAsymmetric])⟩,
    ⟨fun _ => spinFlip_z gga_x_2d_b86_spinFlip, fun h => absurd h (by simp [spinAsymmetric])⟩,
    ⟨fun _ => spinFlip_z gga_x_2d_b86_mgc_spinFlip, fun h => absurd h (by simp [spinAsymmetric])⟩,
    ⟨fun _ => spinFlip_z gga_x_2d_b88_spinFlip, fun h => absurd h (by simp [spinAsymmetric])⟩,
    ⟨fun _ => spinFlip_z gga_x_2d_pbe_spinFlip, fun h => absurd h (by simp [spinAsymmetric])⟩,
    ⟨fun _ => spinFlip_z gga_x_airy_spinFlip, fun h => absurd h (by simp [spinAsymmetric])⟩,
    ⟨fun _ => spinFlip_z gga_x_ak13_spinFlip, fun h => absurd h (by simp [spinAsymmetric])⟩,
    ⟨fun _ => spinFlip_z gga_x_am05_spinFlip, fun h => absurd h (by simp [spinAsymmetric])⟩,
    ⟨fun _ => spinFlip_z gga_x_b86_spinFlip, fun h => absurd h (by simp [spinAsymmetric])⟩,
    ⟨fun _ => spinFlip_z gga_x_b88_spinFlip, fun h => absurd h (by simp [spinAsymmetric])⟩,
    ⟨fun _ => spinFlip_z gga_x_bayesian_spinFlip, fun h => absurd h (by simp [spinAsymmetric])⟩,
    ⟨fun _ => spinFlip_z gga_x_beefvdw_spinFlip, fun h => absurd h (by simp [spinAsymmetric])⟩,
    ⟨fun _ => spinFlip_z gga_x_bpccac_spinFlip, fun h => absurd h (by simp [spinAsymmetric])⟩,
    ⟨fun _ => spinFlip_z gga_x_c09x_spinFlip, fun h => absurd h (by simp [spinAsymmetric])⟩,
    ⟨fun _ => spinFlip_z gga_x_cap_spinFlip, fun h => absurd h (by simp [spinAsymmetric])⟩,
    ⟨fun _ => spinFlip_z gga_x_chachiyo_spinFlip, fun h => absurd h (by simp [spinAsymmetric])⟩,
    ⟨fun _ => spinFlip_z gga_x_dk87_spinFlip, fun h => absurd h (by simp [spinAsymmetric])⟩,
    ⟨fun _ => spinFlip_z gga_x_ev93_spinFlip, fun h => absurd h (by simp [spinAsymmetric])⟩,
    ⟨fun h => absurd (by simp [spinAsymmetric]) h, fun _ => nameError_not_spinFlipZ gga_x_fd_lb94_nameError⟩,
    ⟨fun _ => spinFlip_z gga_x_ft97_spinFlip, fun h => absurd h (by simp [spinAsymmetric])⟩,
    ⟨fun _ => spinFlip_z gga_x_g96_spinFlip, fun h => absurd h (by simp [spinAsymmetric])⟩,
    ⟨fun h => absurd (by simp [spinAsymmetric]) h, fun _ => nameError_not_spinFlipZ gga_x_gg99_nameError⟩,
    ⟨fun _ => spinFlip_z gga_x_hcth_a_spinFlip, fun h => absurd h (by simp [spinAsymmetric])⟩,
    ⟨fun _ => spinFlip_z gga_x_herman_spinFlip, fun h => absurd h (by simp [spinAsymmetric])⟩,
    ⟨fun _ => spinFlip_z gga_x_hjs_spinFlip, fun h => absurd h (by simp [spinAsymmetric])⟩⟩

theorem spinFlipZ_05 : ∀ x ∈ shipped05, (x.name ∉ spinAsymmetric → SpinFlipZ x.fam x.code) ∧ (x.name ∈ spinAsymmetric → ¬ SpinFlipZ x.fam x.code) := by
  unfold shipped05
  simp only [List.forall_mem_cons, List.not_mem_nil, false_implies, implies_true, and_true]
  exact ⟨⟨fun _ => spinFlip_z gga_x_hjs_b88_v2_spinFlip, fun h => absurd h (by simp [spinAsymmetric])⟩,
    ⟨fun _ => spinFlip_z gga_x_htbs_spinFlip, fun h => absurd h (by simp [spinAsymmetric])⟩,
    ⟨fun _ => spinFlip_z gga_x_ityh_spinFlip, fun h => absurd h (by simp [spinAsymmetric])⟩,
    ⟨fun _ => spinFlip_z gga_x_ityh_optx_spinFlip, fun h => absurd h (by simp [spinAsymmetric])⟩,
    ⟨fun _ => spinFlip_z gga_x_ityh_pbe_spinFlip, fun h => absurd h (by simp [spinAsymmetric])⟩,
    ⟨fun _ => spinFlip_z gga_x_kt_spinFlip, fun h => absurd h (by simp [spinAsymmetric])⟩,
    ⟨fun _ => spinFlip_z gga_x_lag_spinFlip, fun h => absurd h (by simp [spinAsymmetric])⟩,
    ⟨fun h => absurd (by simp [spinAsymmetric]) h, fun _ => gga_x_lb_not_spinFlipZ⟩,
    ⟨fun _ => spinFlip_z gga_x_lg93_spinFlip, fun h => absurd h (by simp [spinAsymmetric])⟩,
    ⟨fun _ => spinFlip_z gga_x_lspbe_spinFlip, fun h => absurd h (by simp [spinAsymmetric])⟩,
    ⟨fun _ => spinFlip_z gga_x_lsrpbe_spinFlip, fun h => absurd h (by simp [spinAsymmetric])⟩,
    ⟨fun _ => spinFlip_z gga_x_lv_rpw86_spinFlip, fun h => absurd h (by simp [spinAsymmetric])⟩,
    ⟨fun _ => spinFlip_z gga_x_mpbe_spinFlip, fun h => absurd h (by simp [spinAsymmetric])⟩,
    ⟨fun _ => spinFlip_z gga_x_n12_spinFlip, fun h => absurd h (by simp [spinAsymmetric])⟩,
    ⟨fun _ => spinFlip_z gga_x_ncap_spinFlip, fun h => absurd h (by simp [spinAsymmetric])⟩,
    ⟨fun _ => spinFlip_z gga_x_ol2_spinFlip, fun h => absurd h (by simp [spinAsymmetric])⟩,
    ⟨fun _ => spinFlip_z gga_x_optx_spinFlip, fun h => absurd h (by simp [spinAsymmetric])⟩,
    ⟨fun _ => spinFlip_z gga_x_pbe_spinFlip, fun h => absurd h (by simp [spinAsymmetric])⟩,
    ⟨fun _ => spinFlip_z gga_x_pbea_spinFlip, fun h => absurd h (by simp [spinAsymmetric])⟩,
    ⟨fun _ => spinFlip_z gga_x_pbeint_spinFlip, fun h => absurd h (by simp [spinAsymmetric])⟩,
    ⟨fun _ => spinFlip_z gga_x_pbepow_spinFlip, fun h => absurd h (by simp [spinAsymmetric])⟩⟩

theorem spinFlipZ_06 : ∀ x ∈ shipped06, (x.name ∉ spinAsymmetric → SpinFlipZ x.fam x.code) ∧ (x.name ∈ spinAsymmetric → ¬ SpinFlipZ x.fam x.code) := by
  unfold shipped06
  simp only [List.forall_mem_cons, List.not_mem_nil, false_implies, implies_true, and_true]
  exact ⟨⟨fun _ => spinFlip_z gga_x_pbetrans_spinFlip, fun h => absurd h (by simp [spinAsymmetric])⟩,
    ⟨fun _ => spinFlip_z gga_x_pw86_spinFlip, fun h => absurd h (by simp [spinAsymmetric])⟩,
    ⟨fun _ => spinFlip_z gga_x_pw91_spinFlip, fun h => absurd h (by simp [spinAsymmetric])⟩,
    ⟨fun _ => spinFlip_z gga_x_q1d_spinFlip, fun h => absurd h (by simp [spinAsymmetric])⟩,
    ⟨fun _ => spinFlip_z gga_x_q2d_spinFlip, fun h => absurd h (by simp [spinAsymmetric])⟩,
    ⟨fun _ => spinFlip_z gga_x_rge2_spinFlip, fun h => absurd h (by simp [spinAsymmetric])⟩,
    ⟨fun _ => spinFlip_z gga_x_rpbe_spinFlip, fun h => absurd h (by simp [spinAsymmetric])⟩,
    ⟨fun _ => spinFlip_z gga_x_s12_spinFlip, fun h => absurd h (by simp [spinAsymmetric])⟩,
    ⟨fun _ => spinFlip_z gga_x_sfat_spinFlip, fun h => absurd h (by simp [spinAsymmetric])⟩,
    ⟨fun _ => spinFlip_z gga_x_sfat_pbe_spinFlip, fun h => absurd h (by simp [spinAsymmetric])⟩,
    ⟨fun _ => spinFlip_z gga_x_sg4_spinFlip, fun h => absurd h (by simp [spinAsymmetric])⟩,
    ⟨fun _ => spinFlip_z gga_x_sogga11_spinFlip, fun h => absurd h (by simp [spinAsymmetric])⟩,
    ⟨fun _ => spinFlip_z gga_x_ssb_sw_spinFlip, fun h => absurd h (by simp [spinAsymmetric])⟩,
    ⟨fun _ => spinFlip_z gga_x_vmt_spinFlip, fun h => absurd h (by simp [spinAsymmetric])⟩,
    ⟨fun _ => spinFlip_z gga_x_vmt84_spinFlip, fun h => absurd h (by simp [spinAsymmetric])⟩,
    ⟨fun _ => spinFlip_z gga_x_wc_spinFlip, fun h => absurd h (by simp [spinAsymmetric])⟩,
    ⟨fun _ => spinFlip_z gga_x_wpbeh_spinFlip, fun h => absurd h (by simp [spinAsymmetric])⟩,
    ⟨fun _ => spinFlip_z gga_xc_b97_spinFlip, fun h => absurd h (by simp [spinAsymmetric])⟩⟩

theorem spinFlipZ_07 : ∀ x ∈ shipped07, (x.name ∉ spinAsymmetric → SpinFlipZ x.fam x.code) ∧ (x.name ∈ spinAsymmetric → ¬ SpinFlipZ x.fam x.code) := by
  unfold shipped07
  simp only [List.forall_mem_cons, List.not_mem_nil, false_implies, implies_true, and_true]
  exact ⟨⟨fun _ => spinFlip_z gga_xc_th1_spinFlip, fun h => absurd h (by simp [spinAsymmetric])⟩,
    ⟨fun _ => spinFlip_z gga_xc_th2_spinFlip, fun h => absurd h (by simp [spinAsymmetric])⟩,
    ⟨fun _ => spinFlip_z gga_xc_th3_spinFlip, fun h => absurd h (by simp [spinAsymmetric])⟩,
    ⟨fun _ => spinFlip_z hyb_gga_x_cam_s12_spinFlip, fun h => absurd h (by simp [spinAsymmetric])⟩,
    ⟨fun h => absurd (by simp [spinAsymmetric]) h, fun _ => nameError_not_spinFlipZ hyb_gga_xc_case21_nameError⟩,
    ⟨fun _ => spinFlip_z hyb_gga_xc_wb97_spinFlip, fun h => absurd h (by simp [spinAsymmetric])⟩,
    ⟨fun _ => spinFlip_z hyb_lda_xc_bn05_spinFlip, fun h => absurd h (by simp [spinAsymmetric])⟩,
    ⟨fun _ => spinFlip_z hyb_mgga_x_dldf_spinFlip, fun h => absurd h (by simp [spinAsymmetric])⟩,
    ⟨fun _ => spinFlip_z hyb_mgga_x_js18_spinFlip, fun h => absurd h (by simp [spinAsymmetric])⟩,
    ⟨fun _ => spinFlip_z hyb_mgga_x_m05_spinFlip, fun h => absurd h (by simp [spinAsymmetric])⟩⟩

theorem spinFlipZ_08 : ∀ x ∈ shipped08, (x.name ∉ spinAsymmetric → SpinFlipZ x.fam x.code) ∧ (x.name ∈ spinAsymmetric → ¬ SpinFlipZ x.fam x.code) := by
  unfold shipped08
  simp only [List.forall_mem_cons, List.not_mem_nil, false_implies, implies_true, and_true]
  exact ⟨⟨fun _ => spinFlip_z hyb_mgga_x_pjs18_spinFlip, fun h => absurd h (by simp [spinAsymmetric])⟩,
    ⟨fun _ => spinFlip_z hyb_mgga_xc_wb97mv_spinFlip, fun h => absurd h (by simp [spinAsymmetric])⟩,
    ⟨fun _ => spinFlip_z lda_c_1d_csc_spinFlip, fun h => absurd h (by simp [spinAsymmetric])⟩,
    ⟨fun _ => spinFlip_z lda_c_1d_loos_spinFlip, fun h => absurd h (by simp [spinAsymmetric])⟩,
    ⟨fun _ => spinFlip_z lda_c_2d_amgb_spinFlip, fun h => absurd h (by simp [spinAsymmetric])⟩,
    ⟨fun _ => spinFlip_z lda_c_2d_prm_spinFlip, fun h => absurd h (by simp [spinAsymmetric])⟩,
    ⟨fun _ => spinFlip_z lda_c_chachiyo_spinFlip, fun h => absurd h (by simp [spinAsymmetric])⟩,
    ⟨fun _ => spinFlip_z lda_c_chachiyo_mod_spinFlip, fun h => absurd h (by simp [spinAsymmetric])⟩,
    ⟨fun _ => spinFlip_z lda_c_gk72_spinFlip, fun h => absurd h (by simp [spinAsymmetric])⟩,
    ⟨fun _ => spinFlip_z lda_c_gombas_spinFlip, fun h => absurd h (by simp [spinAsymmetric])⟩,
    ⟨fun _ => spinFlip_z lda_c_hl_spinFlip, fun h => absurd h (by simp [spinAsymmetric])⟩,
    ⟨fun _ => spinFlip_z lda_c_lp96_spinFlip, fun h => absurd h (by simp [spinAsymmetric])⟩,
    ⟨fun _ => lda_c_ml1_spinFlipZ, fun h => absurd h (by simp [spinAsymmetric])⟩,
    ⟨fun _ => spinFlip_z lda_c_pk09_spinFlip, fun h => absurd h (by simp [spinAsymmetric])⟩,
    ⟨fun _ => spinFlip_z lda_c_pmgb06_spinFlip, fun h => absurd h (by simp [spinAsymmetric])⟩,
    ⟨fun _ => spinFlip_z lda_c_pw_spinFlip, fun h => absurd h (by simp [spinAsymmetric])⟩⟩

theorem spinFlipZ_09 : ∀ x ∈ shipped09, (x.name ∉ spinAsymmetric → SpinFlipZ x.fam x.code) ∧ (x.name ∈ spinAsymmetric → ¬ SpinFlipZ x.fam x.code) := by
  unfold shipped09
  simp only [List.forall_mem_cons, List.not_mem_nil, false_implies, implies_true, and_true]
  exact ⟨⟨fun _ => spinFlip_z lda_c_pz_spinFlip, fun h => absurd h (by simp [spinAsymmetric])⟩,
    ⟨fun _ => spinFlip_z lda_c_rc04_spinFlip, fun h => absurd h (by simp [spinAsymmetric])⟩,
    ⟨fun _ => spinFlip_z lda_c_rpa_spinFlip, fun h => absurd h (by simp [spinAsymmetric])⟩,
    ⟨fun _ => spinFlip_z lda_c_vwn_spinFlip, fun h => absurd h (by simp [spinAsymmetric])⟩,
    ⟨fun _ => spinFlip_z lda_c_vwn_1_spinFlip, fun h => absurd h (by simp [spinAsymmetric])⟩,
    ⟨fun _ => spinFlip_z lda_c_vwn_2_spinFlip, fun h => absurd h (by simp [spinAsymmetric])⟩,
    ⟨fun _ => spinFlip_z lda_c_vwn_3_spinFlip, fun h => absurd h (by simp [spinAsymmetric])⟩,
    ⟨fun _ => spinFlip_z lda_c_vwn_4_spinFlip, fun h => absurd h (by simp [spinAsymmetric])⟩,
    ⟨fun _ => spinFlip_z lda_c_vwn_rpa_spinFlip, fun h => absurd h (by simp [spinAsymmetric])⟩,
    ⟨fun _ => spinFlip_z lda_c_w20_spinFlip, fun h => absurd h (by simp [spinAsymmetric])⟩,
    ⟨fun _ => spinFlip_z lda_c_wigner_spinFlip, fun h => absurd h (by simp [spinAsymmetric])⟩,
    ⟨fun _ => spinFlip_z lda_k_gds08_worker_spinFlip, fun h => absurd h (by simp [spinAsymmetric])⟩,
    ⟨fun _ => spinFlip_z lda_k_tf_spinFlip, fun h => absurd h (by simp [spinAsymmetric])⟩,
    ⟨fun _ => spinFlip_z lda_k_zlp_spinFlip, fun h => absurd h (by simp [spinAsymmetric])⟩,
    ⟨fun _ => spinFlip_z lda_x_spinFlip, fun h => absurd h (by simp [spinAsymmetric])⟩,
    ⟨fun h => absurd (by simp [spinAsymmetric]) h, fun _ => nameError_not_spinFlipZ lda_x_1d_exponential_nameError⟩,
    ⟨fun h => absurd (by simp [spinAsymmetric]) h, fun _ => nameError_not_spinFlipZ lda_x_1d_soft_nameError⟩,
    ⟨fun _ => spinFlip_z lda_x_2d_spinFlip, fun h => absurd h (by simp [spinAsymmetric])⟩,
    ⟨fun _ => spinFlip_z lda_x_erf_spinFlip, fun h => absurd h (by simp [spinAsymmetric])⟩,
    ⟨fun _ => spinFlip_z lda_x_rel_spinFlip, fun h => absurd h (by simp [spinAsymmetric])⟩,
    ⟨fun _ => spinFlip_z lda_x_sloc_spinFlip, fun h => absurd h (by simp [spinAsymmetric])⟩,
    ⟨fun _ => spinFlip_z lda_x_yukawa_spinFlip, fun h => absurd h (by simp [spinAsymmetric])⟩,
    ⟨fun _ => spinFlip_z lda_xc_1d_ehwlrg_spinFlip, fun h => absurd h (by simp [spinAsymmetric])⟩,
    ⟨fun h => absurd (by simp [spinAsymmetric]) h, fun _ => lda_xc_ksdt_not_spinFlipZ⟩,
    ⟨fun _ => spinFlip_z lda_xc_teter93_spinFlip, fun h => absurd h (by simp [spinAsymmetric])⟩,
    ⟨fun _ => spinFlip_z lda_xc_tih_spinFlip, fun h => absurd h (by simp [spinAsymmetric])⟩,
    ⟨fun _ => spinFlip_z lda_xc_zlp_spinFlip, fun h => absurd h (by simp [spinAsymmetric])⟩,
    ⟨fun _ => spinFlip_z mgga_c_b88_spinFlip, fun h => absurd h (by simp [spinAsymmetric])⟩,
    ⟨fun h => absurd (by simp [spinAsymmetric]) h, fun _ => nameError_not_spinFlipZ mgga_c_b94_nameError⟩,
    ⟨fun _ => spinFlip_z mgga_c_bc95_spinFlip, fun h => absurd h (by simp [spinAsymmetric])⟩⟩

theorem spinFlipZ_10 : ∀ x ∈ shipped10, (x.name ∉ spinAsymmetric → SpinFlipZ x.fam x.code) ∧ (x.name ∈ spinAsymmetric → ¬ SpinFlipZ x.fam x.code) := by
  unfold shipped10
  simp only [List.forall_mem_cons, List.not_mem_nil, false_implies, implies_true, and_true]
  exact ⟨⟨fun _ => spinFlip_z mgga_c_cc_spinFlip, fun h => absurd h (by simp [spinAsymmetric])⟩,
    ⟨fun _ => spinFlip_z mgga_c_ccalda_spinFlip, fun h => absurd h (by simp [spinAsymmetric])⟩,
    ⟨fun _ => spinFlip_z mgga_c_cs_spinFlip, fun h => absurd h (by simp [spinAsymmetric])⟩,
    ⟨fun _ => spinFlip_z mgga_c_kcis_spinFlip, fun h => absurd h (by simp [spinAsymmetric])⟩,
    ⟨fun _ => spinFlip_z mgga_c_kcisk_spinFlip, fun h => absurd h (by simp [spinAsymmetric])⟩,
    ⟨fun _ => spinFlip_z mgga_c_ltapw_spinFlip, fun h => absurd h (by simp [spinAsymmetric])⟩,
    ⟨fun _ => spinFlip_z mgga_c_m05_spinFlip, fun h => absurd h (by simp [spinAsymmetric])⟩,
    ⟨fun _ => spinFlip_z mgga_c_m06l_spinFlip, fun h => absurd h (by simp [spinAsymmetric])⟩,
    ⟨fun _ => spinFlip_z mgga_c_m08_spinFlip, fun h => absurd h (by simp [spinAsymmetric])⟩⟩

theorem spinFlipZ_11 : ∀ x ∈ shipped11, (x.name ∉ spinAsymmetric → SpinFlipZ x.fam x.code) ∧ (x.name ∈ spinAsymmetric → ¬ SpinFlipZ x.fam x.code) := by
  unfold shipped11
  simp only [List.forall_mem_cons, List.not_mem_nil, false_implies, implies_true, and_true]
  exact ⟨⟨fun _ => spinFlip_z mgga_c_pkzb_spinFlip, fun h => absurd h (by simp [spinAsymmetric])⟩,
    ⟨fun _ => spinFlip_z mgga_c_r2scan_spinFlip, fun h => absurd h (by simp [spinAsymmetric])⟩,
    ⟨fun _ => spinFlip_z mgga_c_revscan_spinFlip, fun h => absurd h (by simp [spinAsymmetric])⟩,
    ⟨fun _ => mgga_c_revtpss_spinFlipZ, fun h => absurd h (by simp [spinAsymmetric])⟩,
    ⟨fun _ => spinFlip_z mgga_c_rmggac_spinFlip, fun h => absurd h (by simp [spinAsymmetric])⟩,
    ⟨fun _ => spinFlip_z mgga_c_rppscan_spinFlip, fun h => absurd h (by simp [spinAsymmetric])⟩,
    ⟨fun _ => spinFlip_z mgga_c_rregtm_spinFlip, fun h => absurd h (by simp [spinAsymmetric])⟩,
    ⟨fun _ => spinFlip_z mgga_c_rscan_spinFlip, fun h => absurd h (by simp [spinAsymmetric])⟩⟩

theorem spinFlipZ_12 : ∀ x ∈ shipped12, (x.name ∉ spinAsymmetric → SpinFlipZ x.fam x.code) ∧ (x.name ∈ spinAsymmetric → ¬ SpinFlipZ x.fam x.code) := by
  unfold shipped12
  simp only [List.forall_mem_cons, List.not_mem_nil, false_implies, implies_true, and_true]
  exact ⟨⟨fun _ => spinFlip_z mgga_c_scan_spinFlip, fun h => absurd h (by simp [spinAsymmetric])⟩,
    ⟨fun _ => mgga_c_tpss_spinFlipZ, fun h => absurd h (by simp [spinAsymmetric])⟩,
    ⟨fun _ => mgga_c_tpssloc_spinFlipZ, fun h => absurd h (by simp [spinAsymmetric])⟩,
    ⟨fun _ => spinFlip_z mgga_c_vsxc_spinFlip, fun h => absurd h (by simp [spinAsymmetric])⟩,
    ⟨fun _ => spinFlip_z mgga_k_csk_spinFlip, fun h => absurd h (by simp [spinAsymmetric])⟩,
    ⟨fun _ => spinFlip_z mgga_k_csk_loc_spinFlip, fun h => absurd h (by simp [spinAsymmetric])⟩,
    ⟨fun _ => spinFlip_z mgga_k_gea2_spinFlip, fun h => absurd h (by simp [spinAsymmetric])⟩,
    ⟨fun _ => spinFlip_z mgga_k_gea4_spinFlip, fun h => absurd h (by simp [spinAsymmetric])⟩,
    ⟨fun _ => spinFlip_z mgga_k_lk_spinFlip, fun h => absurd h (by simp [spinAsymmetric])⟩,
    ⟨fun _ => spinFlip_z mgga_k_pc07_spinFlip, fun h => absurd h (by simp [spinAsymmetric])⟩⟩

theorem spinFlipZ_13 : ∀ x ∈ shipped13, (x.name ∉ spinAsymmetric → SpinFlipZ x.fam x.code) ∧ (x.name ∈ spinAsymmetric → ¬ SpinFlipZ x.fam x.code) := by
  unfold shipped13
  simp only [List.forall_mem_cons, List.not_mem_nil, false_implies, implies_true, and_true]
  exact ⟨⟨fun _ => spinFlip_z mgga_k_pgslb_spinFlip, fun h => absurd h (by simp [spinAsymmetric])⟩,
    ⟨fun _ => spinFlip_z mgga_k_rda_spinFlip, fun h => absurd h (by simp [spinAsymmetric])⟩,
    ⟨fun _ => spinFlip_z mgga_x_2d_js17_spinFlip, fun h => absurd h (by simp [spinAsymmetric])⟩,
    ⟨fun _ => spinFlip_z mgga_x_2d_prhg07_spinFlip, fun h => absurd h (by simp [spinAsymmetric])⟩,
    ⟨fun h => absurd (by simp [spinAsymmetric]) h, fun _ => mgga_x_2d_prp10_not_spinFlipZ⟩,
    ⟨fun h => absurd (by simp [spinAsymmetric]) h, fun _ => nameError_not_spinFlipZ mgga_x_br89_nameError⟩,
    ⟨fun _ => spinFlip_z mgga_x_br89_explicit_spinFlip, fun h => absurd h (by simp [spinAsymmetric])⟩,
    ⟨fun _ => spinFlip_z mgga_x_edmgga_spinFlip, fun h => absurd h (by simp [spinAsymmetric])⟩,
    ⟨fun _ => spinFlip_z mgga_x_ft98_spinFlip, fun h => absurd h (by simp [spinAsymmetric])⟩,
    ⟨fun _ => spinFlip_z mgga_x_gdme_spinFlip, fun h => absurd h (by simp [spinAsymmetric])⟩,
    ⟨fun _ => spinFlip_z mgga_x_gvt4_spinFlip, fun h => absurd h (by simp [spinAsymmetric])⟩,
    ⟨fun _ => spinFlip_z mgga_x_gx_spinFlip, fun h => absurd h (by simp [spinAsymmetric])⟩,
    ⟨fun _ => spinFlip_z mgga_x_jk_spinFlip, fun h => absurd h (by simp [spinAsymmetric])⟩,
    ⟨fun _ => spinFlip_z mgga_x_lta_spinFlip, fun h => absurd h (by simp [spinAsymmetric])⟩,
    ⟨fun _ => spinFlip_z mgga_x_m06l_spinFlip, fun h => absurd h (by simp [spinAsymmetric])⟩,
    ⟨fun _ => spinFlip_z mgga_x_m08_spinFlip, fun h => absurd h (by simp [spinAsymmetric])⟩,
    ⟨fun _ => spinFlip_z mgga_x_m11_spinFlip, fun h => absurd h (by simp [spinAsymmetric])⟩,
    ⟨fun _ => spinFlip_z mgga_x_m11_l_spinFlip, fun h => absurd h (by simp [spinAsymmetric])⟩⟩

theorem spinFlipZ_14 : ∀ x ∈ shipped14, (x.name ∉ spinAsymmetric → SpinFlipZ x.fam x.code) ∧ (x.name ∈ spinAsymmetric → ¬ SpinFlipZ x.fam x.code) := by
  unfold shipped14
  simp only [List.forall_mem_cons, List.not_mem_nil, false_implies, implies_true, and_true]
  exact ⟨⟨fun _ => spinFlip_z mgga_x_mbeef_spinFlip, fun h => absurd h (by simp [spinAsymmetric])⟩,
    ⟨fun _ => spinFlip_z mgga_x_mbeefvdw_spinFlip, fun h => absurd h (by simp [spinAsymmetric])⟩,
    ⟨fun h => absurd (by simp [spinAsymmetric]) h, fun _ => nameError_not_spinFlipZ mgga_x_mbr_nameError⟩,
    ⟨fun h => absurd (by simp [spinAsymmetric]) h, fun _ => nameError_not_spinFlipZ mgga_x_mbrxc_bg_nameError⟩,
    ⟨fun h => absurd (by simp [spinAsymmetric]) h, fun _ => nameError_not_spinFlipZ mgga_x_mbrxh_bg_nameError⟩,
    ⟨fun _ => spinFlip_z mgga_x_mcml_spinFlip, fun h => absurd h (by simp [spinAsymmetric])⟩,
    ⟨fun h => absurd (by simp [spinAsymmetric]) h, fun _ => nameError_not_spinFlipZ mgga_x_mggac_nameError⟩,
    ⟨fun _ => spinFlip_z mgga_x_mn12_spinFlip, fun h => absurd h (by simp [spinAsymmetric])⟩,
    ⟨fun _ => spinFlip_z mgga_x_ms_spinFlip, fun h => absurd h (by simp [spinAsymmetric])⟩,
    ⟨fun _ => spinFlip_z mgga_x_msb_spinFlip, fun h => absurd h (by simp [spinAsymmetric])⟩,
    ⟨fun _ => spinFlip_z mgga_x_mvs_spinFlip, fun h => absurd h (by simp [spinAsymmetric])⟩⟩

theorem spinFlipZ_15 : ∀ x ∈ shipped15, (x.name ∉ spinAsymmetric → SpinFlipZ x.fam x.code) ∧ (x.name ∈ spinAsymmetric → ¬ SpinFlipZ x.fam x.code) := by
  unfold shipped15
  simp only [List.forall_mem_cons, List.not_mem_nil, false_implies, implies_true, and_true]
  exact ⟨⟨fun _ => spinFlip_z mgga_x_mvsb_spinFlip, fun h => absurd h (by simp [spinAsymmetric])⟩,
    ⟨fun _ => spinFlip_z mgga_x_pbe_gx_spinFlip, fun h => absurd h (by simp [spinAsymmetric])⟩,
    ⟨fun _ => spinFlip_z mgga_x_pkzb_spinFlip, fun h => absurd h (by simp [spinAsymmetric])⟩,
    ⟨fun _ => spinFlip_z mgga_x_r2scan_spinFlip, fun h => absurd h (by simp [spinAsymmetric])⟩,
    ⟨fun _ => spinFlip_z mgga_x_r4scan_spinFlip, fun h => absurd h (by simp [spinAsymmetric])⟩,
    ⟨fun _ => spinFlip_z mgga_x_regtm_spinFlip, fun h => absurd h (by simp [spinAsymmetric])⟩,
    ⟨fun _ => spinFlip_z mgga_x_regtpss_spinFlip, fun h => absurd h (by simp [spinAsymmetric])⟩,
    ⟨fun _ => spinFlip_z mgga_x_revtm_spinFlip, fun h => absurd h (by simp [spinAsymmetric])⟩,
    ⟨fun _ => spinFlip_z mgga_x_rlda_spinFlip, fun h => absurd h (by simp [spinAsymmetric])⟩,
    ⟨fun _ => spinFlip_z mgga_x_rppscan_spinFlip, fun h => absurd h (by simp [spinAsymmetric])⟩,
    ⟨fun _ => spinFlip_z mgga_x_rscan_spinFlip, fun h => absurd h (by simp [spinAsymmetric])⟩,
    ⟨fun _ => spinFlip_z mgga_x_rtpss_spinFlip, fun h => absurd h (by simp [spinAsymmetric])⟩,
    ⟨fun _ => spinFlip_z mgga_x_sa_tpss_spinFlip, fun h => absurd h (by simp [spinAsymmetric])⟩,
    ⟨fun _ => spinFlip_z mgga_x_scan_spinFlip, fun h => absurd h (by simp [spinAsymmetric])⟩,
    ⟨fun _ => spinFlip_z mgga_x_task_spinFlip, fun h => absurd h (by simp [spinAsymmetric])⟩⟩

theorem spinFlipZ_16 : ∀ x ∈ shipped16, (x.name ∉ spinAsymmetric → SpinFlipZ x.fam x.code) ∧ (x.name ∈ spinAsymmetric → ¬ SpinFlipZ x.fam x.code) := by
  unfold shipped16
  simp only [List.forall_mem_cons, List.not_mem_nil, false_implies, implies_true, and_true]
  exact ⟨⟨fun _ => spinFlip_z mgga_x_tau_hcth_spinFlip, fun h => absurd h (by simp [spinAsymmetric])⟩,
    ⟨fun h => absurd (by simp [spinAsymmetric]) h, fun _ => nameError_not_spinFlipZ mgga_x_tb09_nameError⟩,
    ⟨fun _ => spinFlip_z mgga_x_th_spinFlip, fun h => absurd h (by simp [spinAsymmetric])⟩,
    ⟨fun _ => spinFlip_z mgga_x_tm_spinFlip, fun h => absurd h (by simp [spinAsymmetric])⟩,
    ⟨fun _ => spinFlip_z mgga_x_tpss_spinFlip, fun h => absurd h (by simp [spinAsymmetric])⟩,
    ⟨fun _ => spinFlip_z mgga_x_vcml_spinFlip, fun h => absurd h (by simp [spinAsymmetric])⟩,
    ⟨fun _ => spinFlip_z mgga_x_vt84_spinFlip, fun h => absurd h (by simp [spinAsymmetric])⟩,
    ⟨fun _ => spinFlip_z mgga_xc_b97mv_spinFlip, fun h => absurd h (by simp [spinAsymmetric])⟩,
    ⟨fun _ => spinFlip_z mgga_xc_b98_spinFlip, fun h => absurd h (by simp [spinAsymmetric])⟩,
    ⟨fun _ => spinFlip_z mgga_xc_cc06_spinFlip, fun h => absurd h (by simp [spinAsymmetric])⟩,
    ⟨fun _ => spinFlip_z mgga_xc_lp90_spinFlip, fun h => absurd h (by simp [spinAsymmetric])⟩,
    ⟨fun _ => spinFlip_z mgga_xc_zlp_spinFlip, fun h => absurd h (by simp [spinAsymmetric])⟩⟩

/-- C22, decided for every shipped formula, for `zeta_threshold < 1`. -/
theorem spinFlipZ_shipped : ∀ x ∈ shipped, (x.name ∉ spinAsymmetric → SpinFlipZ x.fam x.code) ∧ (x.name ∈ spinAsymmetric → ¬ SpinFlipZ x.fam x.code) := by
  intro x hx
  simp only [shipped, List.mem_append] at hx
  rcases hx with (((((((((((((((h | h) | h) | h) | h) | h) | h) | h) | h) | h) | h) | h) | h) | h) | h) | h)
  · exact spinFlipZ_01 x h
  · exact spinFlipZ_02 x h
  · exact spinFlipZ_03 x h
  · exact spinFlipZ_04 x h
  · exact spinFlipZ_05 x h
  · exact spinFlipZ_06 x h
  · exact spinFlipZ_07 x h
  · exact spinFlipZ_08 x h
  · exact spinFlipZ_09 x h
  · exact spinFlipZ_10 x h
  · exact spinFlipZ_11 x h
  · exact spinFlipZ_12 x h
  · exact spinFlipZ_13 x h
  · exact spinFlipZ_14 x h
  · exact spinFlipZ_15 x h
  · exact spinFlipZ_16 x h

theorem closedShellZ_01 : ∀ x ∈ shipped01, (x.name ∉ undefinedHelper → x.name ∉ closedShellUnsettled → ClosedShellZ x.fam x.code) ∧ (x.name ∈ undefinedHelper → ¬ ClosedShellZ x.fam x.code) := by
  unfold shipped01
  simp only [List.forall_mem_cons, List.not_mem_nil, false_implies, implies_true, and_true]
  exact ⟨⟨fun _ _ => closedShell_z gga_c_acgga_closedShell, fun h => absurd h (by simp [undefinedHelper])⟩,
    ⟨fun _ _ => closedShell_z gga_c_acggap_closedShell, fun h => absurd h (by simp [undefinedHelper])⟩,
    ⟨fun _ _ => closedShell_z gga_c_am05_closedShell, fun h => absurd h (by simp [undefinedHelper])⟩,
    ⟨fun _ _ => closedShell_z gga_c_bmk_closedShell, fun h => absurd h (by simp [undefinedHelper])⟩,
    ⟨fun _ _ => closedShell_z gga_c_ccdf_closedShell, fun h => absurd h (by simp [undefinedHelper])⟩,
    ⟨fun _ _ => closedShell_z gga_c_chachiyo_closedShell, fun h => absurd h (by simp [undefinedHelper])⟩,
    ⟨fun _ _ => closedShell_z gga_c_cs1_closedShell, fun h => absurd h (by simp [undefinedHelper])⟩,
    ⟨fun _ h => absurd (by simp [closedShellUnsettled]) h, fun h => absurd h (by simp [undefinedHelper])⟩,
    ⟨fun _ _ => closedShell_z gga_c_gapc_closedShell, fun h => absurd h (by simp [undefinedHelper])⟩,
    ⟨fun _ _ => closedShell_z gga_c_gaploc_closedShell, fun h => absurd h (by simp [undefinedHelper])⟩,
    ⟨fun _ _ => closedShell_z gga_c_hcth_a_closedShell, fun h => absurd h (by simp [undefinedHelper])⟩,
    ⟨fun _ _ => closedShell_z gga_c_lm_closedShell, fun h => absurd h (by simp [undefinedHelper])⟩,
    ⟨fun _ _ => closedShell_z gga_c_lyp_closedShell, fun h => absurd h (by simp [undefinedHelper])⟩,
    ⟨fun _ _ => closedShell_z gga_c_lypr_closedShell, fun h => absurd h (by simp [undefinedHelper])⟩,
    ⟨fun _ _ => closedShell_z gga_c_op_b88_closedShell, fun h => absurd h (by simp [undefinedHelper])⟩⟩

theorem closedShellZ_02 : ∀ x ∈ shipped02, (x.name ∉ undefinedHelper → x.name ∉ closedShellUnsettled → ClosedShellZ x.fam x.code) ∧ (x.name ∈ undefinedHelper → ¬ ClosedShellZ x.fam x.code) := by
  unfold shipped02
  simp only [List.forall_mem_cons, List.not_mem_nil, false_implies, implies_true, and_true]
  exact ⟨⟨fun _ _ => closedShell_z gga_c_op_g96_closedShell, fun h => absurd h (by simp [undefinedHelper])⟩,
    ⟨fun _ _ => closedShell_z gga_c_op_pbe_closedShell, fun h => absurd h (by simp [undefinedHelper])⟩,
    ⟨fun _ h => absurd (by simp [closedShellUnsettled]) h, fun h => absurd h (by simp [undefinedHelper])⟩,
    ⟨fun _ _ => closedShell_z gga_c_op_xalpha_closedShell, fun h => absurd h (by simp [undefinedHelper])⟩,
    ⟨fun _ h => absurd (by simp [closedShellUnsettled]) h, fun h => absurd h (by simp [undefinedHelper])⟩,
    ⟨fun _ _ => closedShell_z gga_c_p86_closedShell, fun h => absurd h (by simp [undefinedHelper])⟩,
    ⟨fun _ _ => gga_c_p86vwn_closedShellZ, fun h => absurd h (by simp [undefinedHelper])⟩,
    ⟨fun _ _ => closedShell_z gga_c_pbe_closedShell, fun h => absurd h (by simp [undefinedHelper])⟩,
    ⟨fun _ _ => gga_c_pbe_vwn_closedShellZ, fun h => absurd h (by simp [undefinedHelper])⟩,
    ⟨fun _ _ => closedShell_z gga_c_pbeloc_closedShell, fun h => absurd h (by simp [undefinedHelper])⟩,
    ⟨fun _ _ => closedShell_z gga_c_pw91_closedShell, fun h => absurd h (by simp [undefinedHelper])⟩,
    ⟨fun _ _ => closedShell_z gga_c_q2d_closedShell, fun h => absurd h (by simp [undefinedHelper])⟩,
    ⟨fun _ _ => closedShell_z gga_c_regtpss_closedShell, fun h => absurd h (by simp [undefinedHelper])⟩,
    ⟨fun _ _ => closedShell_z gga_c_revtca_closedShell, fun h => absurd h (by simp [undefinedHelper])⟩,
    ⟨fun _ _ => closedShell_z gga_c_scan_e0_closedShell, fun h => absurd h (by simp [undefinedHelper])⟩,
    ⟨fun _ _ => closedShell_z gga_c_sg4_closedShell, fun h => absurd h (by simp [undefinedHelper])⟩⟩

theorem closedShellZ_03 : ∀ x ∈ shipped03, (x.name ∉ undefinedHelper → x.name ∉ closedShellUnsettled → ClosedShellZ x.fam x.code) ∧ (x.name ∈ undefinedHelper → ¬ ClosedShellZ x.fam x.code) := by
  unfold shipped03
  simp only [List.forall_mem_cons, List.not_mem_nil, false_implies, implies_true, and_true]
  exact ⟨⟨fun _ _ => closedShell_z gga_c_sogga11_closedShell, fun h => absurd h (by simp [undefinedHelper])⟩,
    ⟨fun _ _ => closedShell_z gga_c_tca_closedShell, fun h => absurd h (by simp [undefinedHelper])⟩,
    ⟨fun _ _ => closedShell_z gga_c_w94_closedShell, fun h => absurd h (by simp [undefinedHelper])⟩,
    ⟨fun _ _ => closedShell_z gga_c_wi_closedShell, fun h => absurd h (by simp [undefinedHelper])⟩,
    ⟨fun _ _ => closedShell_z gga_c_wl_closedShell, fun h => absurd h (by simp [undefinedHelper])⟩,
    ⟨fun _ _ => closedShell_z gga_c_zpbeint_closedShell, fun h => absurd h (by simp [undefinedHelper])⟩,
    ⟨fun _ _ => closedShell_z gga_c_zvpbeint_closedShell, fun h => absurd h (by simp [undefinedHelper])⟩,
    ⟨fun _ _ => closedShell_z gga_c_zvpbeloc_closedShell, fun h => absurd h (by simp [undefinedHelper])⟩,
    ⟨fun _ _ => closedShell_z gga_k_apbe_closedShell, fun h => absurd h (by simp [undefinedHelper])⟩,
    ⟨fun _ _ => closedShell_z gga_k_apbeint_closedShell, fun h => absurd h (by simp [undefinedHelper])⟩,
    ⟨fun _ _ => closedShell_z gga_k_dk_closedShell, fun h => absurd h (by simp [undefinedHelper])⟩,
    ⟨fun _ h => absurd (by simp [closedShellUnsettled]) h, fun h => absurd h (by simp [undefinedHelper])⟩,
    ⟨fun _ _ => closedShell_z gga_k_lc94_closedShell, fun h => absurd h (by simp [undefinedHelper])⟩,
    ⟨fun _ _ => closedShell_z gga_k_lgap_closedShell, fun h => absurd h (by simp [undefinedHelper])⟩,
    ⟨fun _ _ => closedShell_z gga_k_lgap_ge_closedShell, fun h => absurd h (by simp [undefinedHelper])⟩,
    ⟨fun _ _ => closedShell_z gga_k_lkt_closedShell, fun h => absurd h (by simp [undefinedHelper])⟩,
    ⟨fun _ _ => closedShell_z gga_k_llp_closedShell, fun h => absurd h (by simp [undefinedHelper])⟩,
    ⟨fun _ _ => closedShell_z gga_k_meyer_closedShell, fun h => absurd h (by simp [undefinedHelper])⟩,
    ⟨fun _ _ => closedShell_z gga_k_mpbe_closedShell, fun h => absurd h (by simp [undefinedHelper])⟩,
    ⟨fun _ _ => closedShell_z gga_k_ol1_closedShell, fun h => absurd h (by simp [undefinedHelper])⟩,
    ⟨fun _ _ => closedShell_z gga_k_ol2_closedShell, fun h => absurd h (by simp [undefinedHelper])⟩,
    ⟨fun _ _ => closedShell_z gga_k_pearson_closedShell, fun h => absurd h (by simp [undefinedHelper])⟩,
    ⟨fun _ _ => closedShell_z gga_k_pg_closedShell, fun h => absurd h (by simp [undefinedHelper])⟩,
    ⟨fun _ _ => closedShell_z gga_k_pw86_closedShell, fun h => absurd h (by simp [undefinedHelper])⟩,
    ⟨fun _ _ => closedShell_z gga_k_rational_p_closedShell, fun h => absurd h (by simp [undefinedHelper])⟩,
    ⟨fun _ _ => closedShell_z gga_k_tflw_closedShell, fun h => absurd h (by simp [undefinedHelper])⟩,
    ⟨fun _ _ => closedShell_z gga_k_thakkar_closedShell, fun h => absurd h (by simp [undefinedHelper])⟩⟩

theorem closedShellZ_04 : ∀ x ∈ shipped04, (x.name ∉ undefinedHelper → x.name ∉ closedShellUnsettled → ClosedShellZ x.fam x.code) ∧ (x.name ∈ undefinedHelper → ¬ ClosedShellZ x.fam x.code) := by
  unfold shipped04
  simp only [List.forall_mem_cons, List.not_mem_nil, false_implies, implies_true, and_true]
  exact ⟨⟨fun _ _ => closedShell_z gga_k_vt84f_closedShell, fun h => absurd h (by simp [undefinedHelper])⟩,
    ⟨fun _ _ => closedShell_z gga_x_2d_b86_closedShell, fun h => absurd h (by simp [undefinedHelper])⟩,
    ⟨fun _ _ => closedShell_z gga_x_2d_b86_mgc_closedShell, fun h => absurd h (by simp [undefinedHelper])⟩,
    ⟨fun _ _ => closedShell_z gga_x_2d_b88_closedShell, fun h => absurd h (by simp [undefinedHelper])⟩,
    ⟨fun _ _ => closedShell_z gga_x_2d_pbe_closedShell, fun h => absurd h (by simp [undefinedHelper])⟩,
    ⟨fun _ _ => closedShell_z gga_x_airy_closedShell, fun h => absurd h (by simp [undefinedHelper])⟩,
    ⟨fun _ _ => closedShell_z gga_x_ak13_closedShell, fun h => absurd h (by simp [undefinedHelper])⟩,
    ⟨fun _ _ => closedShell_z gga_x_am05_closedShell, fun h => absurd h (by simp [undefinedHelper])⟩,
    ⟨fun _ _ => closedShell_z gga_x_b86_closedShell, fun h => absurd h (by simp [undefinedHelper])⟩,
    ⟨fun _ _ => closedShell_z gga_x_b88_closedShell, fun h => absurd h (by simp [undefinedHelper])⟩,
    ⟨fun _ _ => closedShell_z gga_x_bayesian_closedShell, fun h => absurd h (by simp [undefinedHelper])⟩,
    ⟨fun _ _ => closedShell_z gga_x_beefvdw_closedShell, fun h => absurd h (by simp [undefinedHelper])⟩,
    ⟨fun _ h => absurd (by simp [closedShellUnsettled]) h, fun h => absurd h (by simp [undefinedHelper])⟩,
    ⟨fun _ _ => closedShell_z gga_x_c09x_closedShell, fun h => absurd h (by simp [undefinedHelper])⟩,
    ⟨fun _ _ => closedShell_z gga_x_cap_closedShell, fun h => absurd h (by simp [undefinedHelper])⟩,
    ⟨fun _ _ => closedShell_z gga_x_chachiyo_closedShell, fun h => absurd h (by simp [undefinedHelper])⟩,
    ⟨fun _ _ => closedShell_z gga_x_dk87_closedShell, fun h => absurd h (by simp [undefinedHelper])⟩,
    ⟨fun _ _ => closedShell_z gga_x_ev93_closedShell, fun h => absurd h (by simp [undefinedHelper])⟩,
    ⟨fun h => absurd (by simp [undefinedHelper]) h, fun _ => nameError_not_closedShellZ gga_x_fd_lb94_nameError⟩,
    ⟨fun _ _ => closedShell_z gga_x_ft97_closedShell, fun h => absurd h (by simp [undefinedHelper])⟩,
    ⟨fun _ _ => closedShell_z gga_x_g96_closedShell, fun h => absurd h (by simp [undefinedHelper])⟩,
    ⟨fun h => absurd (by simp [undefinedHelper]) h, fun _ => nameError_not_closedShellZ gga_x_gg99_nameError⟩,
    ⟨fun _ _ => closedShell_z gga_x_hcth_a_closedShell, fun h => absurd h (by simp [undefinedHelper])⟩,
    ⟨fun _ _ => closedShell_z gga_x_herman_closedShell, fun h => absurd h (by simp [undefinedHelper])⟩,
    ⟨fun _ _ => closedShell_z gga_x_hjs_closedShell, fun h => absurd h (by simp [undefinedHelper])⟩⟩

theorem closedShellZ_05 : ∀ x ∈ shipped05, (x.name ∉ undefinedHelper → x.name ∉ closedShellUnsettled → ClosedShellZ x.fam x.code) ∧ (x.name ∈ undefinedHelper → ¬ ClosedShellZ x.fam x.code) := by
  unfold shipped05
  simp only [List.forall_mem_cons, List.not_mem_nil, false_implies, implies_true, and_true]
  exact ⟨⟨fun _ _ => closedShell_z gga_x_hjs_b88_v2_closedShell, fun h => absurd h (by simp [undefinedHelper])⟩,
    ⟨fun _ h => absurd (by simp [closedShellUnsettled]) h, fun h => absurd h (by simp [undefinedHelper])⟩,
    ⟨fun _ _ => closedShell_z gga_x_ityh_closedShell, fun h => absurd h (by simp [undefinedHelper])⟩,
    ⟨fun _ _ => closedShell_z gga_x_ityh_optx_closedShell, fun h => absurd h (by simp [undefinedHelper])⟩,
    ⟨fun _ _ => closedShell_z gga_x_ityh_pbe_closedShell, fun h => absurd h (by simp [undefinedHelper])⟩,
    ⟨fun _ _ => closedShell_z gga_x_kt_closedShell, fun h => absurd h (by simp [undefinedHelper])⟩,
    ⟨fun _ _ => closedShell_z gga_x_lag_closedShell, fun h => absurd h (by simp [undefinedHelper])⟩,
    ⟨fun _ _ => closedShell_z gga_x_lb_closedShell, fun h => absurd h (by simp [undefinedHelper])⟩,
    ⟨fun _ h => absurd (by simp [closedShellUnsettled]) h, fun h => absurd h (by simp [undefinedHelper])⟩,
    ⟨fun _ _ => closedShell_z gga_x_lspbe_closedShell, fun h => absurd h (by simp [undefinedHelper])⟩,
    ⟨fun _ _ => closedShell_z gga_x_lsrpbe_closedShell, fun h => absurd h (by simp [undefinedHelper])⟩,
    ⟨fun _ h => absurd (by simp [closedShellUnsettled]) h, fun h => absurd h (by simp [undefinedHelper])⟩,
    ⟨fun _ _ => closedShell_z gga_x_mpbe_closedShell, fun h => absurd h (by simp [undefinedHelper])⟩,
    ⟨fun _ _ => closedShell_z gga_x_n12_closedShell, fun h => absurd h (by simp [undefinedHelper])⟩,
    ⟨fun _ _ => closedShell_z gga_x_ncap_closedShell, fun h => absurd h (by simp [undefinedHelper])⟩,
    ⟨fun _ _ => closedShell_z gga_x_ol2_closedShell, fun h => absurd h (by simp [undefinedHelper])⟩,
    ⟨fun _ _ => closedShell_z gga_x_optx_closedShell, fun h => absurd h (by simp [undefinedHelper])⟩,
    ⟨fun _ _ => closedShell_z gga_x_pbe_closedShell, fun h => absurd h (by simp [undefinedHelper])⟩,
    ⟨fun _ _ => closedShell_z gga_x_pbea_closedShell, fun h => absurd h (by simp [undefinedHelper])⟩,
    ⟨fun _ _ => closedShell_z gga_x_pbeint_closedShell, fun h => absurd h (by simp [undefinedHelper])⟩,
    ⟨fun _ _ => closedShell_z gga_x_pbepow_closedShell, fun h => absurd h (by simp [undefinedHelper])⟩⟩

theorem closedShellZ_06 : ∀ x ∈ shipped06, (x.name ∉ undefinedHelper → x.name ∉ closedShellUnsettled → ClosedShellZ x.fam x.code) ∧ (x.name ∈ undefinedHelper → ¬ ClosedShellZ x.fam x.code) := by
  unfold shipped06
  simp only [List.forall_mem_cons, List.not_mem_nil, false_implies, implies_true, and_true]
  exact ⟨⟨fun _ _ => closedShell_z gga_x_pbetrans_closedShell, fun h => absurd h (by simp [undefinedHelper])⟩,
    ⟨fun _ _ => closedShell_z gga_x_pw86_closedShell, fun h => absurd h (by simp [undefinedHelper])⟩,
    ⟨fun _ _ => closedShell_z gga_x_pw91_closedShell, fun h => absurd h (by simp [undefinedHelper])⟩,
    ⟨fun _ _ => closedShell_z gga_x_q1d_closedShell, fun h => absurd h (by simp [undefinedHelper])⟩,
    ⟨fun _ _ => closedShell_z gga_x_q2d_closedShell, fun h => absurd h (by simp [undefinedHelper])⟩,
    ⟨fun _ h => absurd (by simp [closedShellUnsettled]) h, fun h => absurd h (by simp [undefinedHelper])⟩,
    ⟨fun _ _ => closedShell_z gga_x_rpbe_closedShell, fun h => absurd h (by simp [undefinedHelper])⟩,
    ⟨fun _ _ => closedShell_z gga_x_s12_closedShell, fun h => absurd h (by simp [undefinedHelper])⟩,
    ⟨fun _ _ => closedShell_z gga_x_sfat_closedShell, fun h => absurd h (by simp [undefinedHelper])⟩,
    ⟨fun _ _ => closedShell_z gga_x_sfat_pbe_closedShell, fun h => absurd h (by simp [undefinedHelper])⟩,
    ⟨fun _ h => absurd (by simp [closedShellUnsettled]) h, fun h => absurd h (by simp [undefinedHelper])⟩,
    ⟨fun _ _ => closedShell_z gga_x_sogga11_closedShell, fun h => absurd h (by simp [undefinedHelper])⟩,
    ⟨fun _ _ => closedShell_z gga_x_ssb_sw_closedShell, fun h => absurd h (by simp [undefinedHelper])⟩,
    ⟨fun _ _ => closedShell_z gga_x_vmt_closedShell, fun h => absurd h (by simp [undefinedHelper])⟩,
    ⟨fun _ _ => closedShell_z gga_x_vmt84_closedShell, fun h => absurd h (by simp [undefinedHelper])⟩,
    ⟨fun _ _ => closedShell_z gga_x_wc_closedShell, fun h => absurd h (by simp [undefinedHelper])⟩,
    ⟨fun _ _ => closedShell_z gga_x_wpbeh_closedShell, fun h => absurd h (by simp [undefinedHelper])⟩,
    ⟨fun _ _ => closedShell_z gga_xc_b97_closedShell, fun h => absurd h (by simp [undefinedHelper])⟩⟩

theorem closedShellZ_07 : ∀ x ∈ shipped07, (x.name ∉ undefinedHelper → x.name ∉ closedShellUnsettled → ClosedShellZ x.fam x.code) ∧ (x.name ∈ undefinedHelper → ¬ ClosedShellZ x.fam x.code) := by
  unfold shipped07
  simp only [List.forall_mem_cons, List.not_mem_nil, false_implies, implies_true, and_true]
  exact ⟨⟨fun _ _ => closedShell_z gga_xc_th1_closedShell, fun h => absurd h (by simp [undefinedHelper])⟩,
    ⟨fun _ _ => closedShell_z gga_xc_th2_closedShell, fun h => absurd h (by simp [undefinedHelper])⟩,
    ⟨fun _ h => absurd (by simp [closedShellUnsettled]) h, fun h => absurd h (by simp [undefinedHelper])⟩,
    ⟨fun _ _ => closedShell_z hyb_gga_x_cam_s12_closedShell, fun h => absurd h (by simp [undefinedHelper])⟩,
    ⟨fun h => absurd (by simp [undefinedHelper]) h, fun _ => nameError_not_closedShellZ hyb_gga_xc_case21_nameError⟩,
    ⟨fun _ _ => closedShell_z hyb_gga_xc_wb97_closedShell, fun h => absurd h (by simp [undefinedHelper])⟩,
    ⟨fun _ _ => closedShell_z hyb_lda_xc_bn05_closedShell, fun h => absurd h (by simp [undefinedHelper])⟩,
    ⟨fun _ _ => closedShell_z hyb_mgga_x_dldf_closedShell, fun h => absurd h (by simp [undefinedHelper])⟩,
    ⟨fun _ _ => closedShell_z hyb_mgga_x_js18_closedShell, fun h => absurd h (by simp [undefinedHelper])⟩,
    ⟨fun _ _ => closedShell_z hyb_mgga_x_m05_closedShell, fun h => absurd h (by simp [undefinedHelper])⟩⟩

theorem closedShellZ_08 : ∀ x ∈ shipped08, (x.name ∉ undefinedHelper → x.name ∉ closedShellUnsettled → ClosedShellZ x.fam x.code) ∧ (x.name ∈ undefinedHelper → ¬ ClosedShellZ x.fam x.code) := by
  unfold shipped08
  simp only [List.forall_mem_cons, List.not_mem_nil, false_implies, implies_true, and_true]
  exact ⟨⟨fun _ _ => closedShell_z hyb_mgga_x_pjs18_closedShell, fun h => absurd h (by simp [undefinedHelper])⟩,
    ⟨fun _ _ => closedShell_z hyb_mgga_xc_wb97mv_closedShell, fun h => absurd h (by simp [undefinedHelper])⟩,
    ⟨fun _ _ => closedShell_z lda_c_1d_csc_closedShell, fun h => absurd h (by simp [undefinedHelper])⟩,
    ⟨fun _ _ => closedShell_z lda_c_1d_loos_closedShell, fun h => absurd h (by simp [undefinedHelper])⟩,
    ⟨fun _ _ => closedShell_z lda_c_2d_amgb_closedShell, fun h => absurd h (by simp [undefinedHelper])⟩,
    ⟨fun _ _ => closedShell_z lda_c_2d_prm_closedShell, fun h => absurd h (by simp [undefinedHelper])⟩,
    ⟨fun _ _ => closedShell_z lda_c_chachiyo_closedShell, fun h => absurd h (by simp [undefinedHelper])⟩,
    ⟨fun _ _ => closedShell_z lda_c_chachiyo_mod_closedShell, fun h => absurd h (by simp [undefinedHelper])⟩,
    ⟨fun _ _ => closedShell_z lda_c_gk72_closedShell, fun h => absurd h (by simp [undefinedHelper])⟩,
    ⟨fun _ _ => closedShell_z lda_c_gombas_closedShell, fun h => absurd h (by simp [undefinedHelper])⟩,
    ⟨fun _ _ => closedShell_z lda_c_hl_closedShell, fun h => absurd h (by simp [undefinedHelper])⟩,
    ⟨fun _ _ => closedShell_z lda_c_lp96_closedShell, fun h => absurd h (by simp [undefinedHelper])⟩,
    ⟨fun _ h => absurd (by simp [closedShellUnsettled]) h, fun h => absurd h (by simp [undefinedHelper])⟩,
    ⟨fun _ h => absurd (by simp [closedShellUnsettled]) h, fun h => absurd h (by simp [undefinedHelper])⟩,
    ⟨fun _ _ => closedShell_z lda_c_pmgb06_closedShell, fun h => absurd h (by simp [undefinedHelper])⟩,
    ⟨fun _ _ => closedShell_z lda_c_pw_closedShell, fun h => absurd h (by simp [undefinedHelper])⟩⟩

theorem closedShellZ_09 : ∀ x ∈ shipped09, (x.name ∉ undefinedHelper → x.name ∉ closedShellUnsettled → ClosedShellZ x.fam x.code) ∧ (x.name ∈ undefinedHelper → ¬ ClosedShellZ x.fam x.code) := by
  unfold shipped09
  simp only [List.forall_mem_cons, List.not_mem_nil, false_implies, implies_true, and_true]
  exact ⟨⟨fun _ _ => closedShell_z lda_c_pz_closedShell, fun h => absurd h (by simp [undefinedHelper])⟩,
    ⟨fun _ _ => closedShell_z lda_c_rc04_closedShell, fun h => absurd h (by simp [undefinedHelper])⟩,
    ⟨fun _ _ => closedShell_z lda_c_rpa_closedShell, fun h => absurd h (by simp [undefinedHelper])⟩,
    ⟨fun _ _ => lda_c_vwn_closedShellZ, fun h => absurd h (by simp [undefinedHelper])⟩,
    ⟨fun _ _ => closedShell_z lda_c_vwn_1_closedShell, fun h => absurd h (by simp [undefinedHelper])⟩,
    ⟨fun _ _ => closedShell_z lda_c_vwn_2_closedShell, fun h => absurd h (by simp [undefinedHelper])⟩,
    ⟨fun _ _ => lda_c_vwn_3_closedShellZ, fun h => absurd h (by simp [undefinedHelper])⟩,
    ⟨fun _ _ => lda_c_vwn_4_closedShellZ, fun h => absurd h (by simp [undefinedHelper])⟩,
    ⟨fun _ _ => closedShell_z lda_c_vwn_rpa_closedShell, fun h => absurd h (by simp [undefinedHelper])⟩,
    ⟨fun _ _ => closedShell_z lda_c_w20_closedShell, fun h => absurd h (by simp [undefinedHelper])⟩,
    ⟨fun _ _ => closedShell_z lda_c_wigner_closedShell, fun h => absurd h (by simp [undefinedHelper])⟩,
    ⟨fun _ _ => closedShell_z lda_k_gds08_worker_closedShell, fun h => absurd h (by simp [undefinedHelper])⟩,
    ⟨fun _ _ => closedShell_z lda_k_tf_closedShell, fun h => absurd h (by simp [undefinedHelper])⟩,
    ⟨fun _ _ => closedShell_z lda_k_zlp_closedShell, fun h => absurd h (by simp [undefinedHelper])⟩,
    ⟨fun _ _ => closedShell_z lda_x_closedShell, fun h => absurd h (by simp [undefinedHelper])⟩,
    ⟨fun h => absurd (by simp [undefinedHelper]) h, fun _ => nameError_not_closedShellZ lda_x_1d_exponential_nameError⟩,
    ⟨fun h => absurd (by simp [undefinedHelper]) h, fun _ => nameError_not_closedShellZ lda_x_1d_soft_nameError⟩,
    ⟨fun _ _ => closedShell_z lda_x_2d_closedShell, fun h => absurd h (by simp [undefinedHelper])⟩,
    ⟨fun _ _ => closedShell_z lda_x_erf_closedShell, fun h => absurd h (by simp [undefinedHelper])⟩,
    ⟨fun _ _ => closedShell_z lda_x_rel_closedShell, fun h => absurd h (by simp [undefinedHelper])⟩,
    ⟨fun _ _ => closedShell_z lda_x_sloc_closedShell, fun h => absurd h (by simp [undefinedHelper])⟩,
    ⟨fun _ _ => closedShell_z lda_x_yukawa_closedShell, fun h => absurd h (by simp [undefinedHelper])⟩,
    ⟨fun _ _ => closedShell_z lda_xc_1d_ehwlrg_closedShell, fun h => absurd h (by simp [undefinedHelper])⟩,
    ⟨fun _ _ => closedShell_z lda_xc_ksdt_closedShell, fun h => absurd h (by simp [undefinedHelper])⟩,
    ⟨fun _ _ => closedShell_z lda_xc_teter93_closedShell, fun h => absurd h (by simp [undefinedHelper])⟩,
    ⟨fun _ _ => closedShell_z lda_xc_tih_closedShell, fun h => absurd h (by simp [undefinedHelper])⟩,
    ⟨fun _ _ => closedShell_z lda_xc_zlp_closedShell, fun h => absurd h (by simp [undefinedHelper])⟩,
    ⟨fun _ _ => closedShell_z mgga_c_b88_closedShell, fun h => absurd h (by simp [undefinedHelper])⟩,
    ⟨fun h => absurd (by simp [undefinedHelper]) h, fun _ => nameError_not_closedShellZ mgga_c_b94_nameError⟩,
    ⟨fun _ _ => closedShell_z mgga_c_bc95_closedShell, fun h => absurd h (by simp [undefinedHelper])⟩⟩

theorem closedShellZ_10 : ∀ x ∈ shipped10, (x.name ∉ undefinedHelper → x.name ∉ closedShellUnsettled → ClosedShellZ x.fam x.code) ∧ (x.name ∈ undefinedHelper → ¬ ClosedShellZ x.fam x.code) := by
  unfold shipped10
  simp only [List.forall_mem_cons, List.not_mem_nil, false_implies, implies_true, and_true]
  exact ⟨⟨fun _ _ => closedShell_z mgga_c_cc_closedShell, fun h => absurd h (by simp [undefinedHelper])⟩,
    ⟨fun _ _ => closedShell_z mgga_c_ccalda_closedShell, fun h => absurd h (by simp [undefinedHelper])⟩,
    ⟨fun _ _ => closedShell_z mgga_c_cs_closedShell, fun h => absurd h (by simp [undefinedHelper])⟩,
    ⟨fun _ _ => closedShell_z mgga_c_kcis_closedShell, fun h => absurd h (by simp [undefinedHelper])⟩,
    ⟨fun _ h => absurd (by simp [closedShellUnsettled]) h, fun h => absurd h (by simp [undefinedHelper])⟩,
    ⟨fun _ _ => closedShell_z mgga_c_ltapw_closedShell, fun h => absurd h (by simp [undefinedHelper])⟩,
    ⟨fun _ _ => closedShell_z mgga_c_m05_closedShell, fun h => absurd h (by simp [undefinedHelper])⟩,
    ⟨fun _ _ => closedShell_z mgga_c_m06l_closedShell, fun h => absurd h (by simp [undefinedHelper])⟩,
    ⟨fun _ _ => closedShell_z mgga_c_m08_closedShell, fun h => absurd h (by simp [undefinedHelper])⟩⟩

theorem closedShellZ_11 : ∀ x ∈ shipped11, (x.name ∉ undefinedHelper → x.name ∉ closedShellUnsettled → ClosedShellZ x.fam x.code) ∧ (x.name ∈ undefinedHelper → ¬ ClosedShellZ x.fam x.code) := by
  unfold shipped11
  simp only [List.forall_mem_cons, List.not_mem_nil, false_implies, implies_true, and_true]
  exact ⟨⟨fun _ _ => closedShell_z mgga_c_pkzb_closedShell, fun h => absurd h (by simp [undefinedHelper])⟩,
    ⟨fun _ _ => closedShell_z mgga_c_r2scan_closedShell, fun h => absurd h (by simp [undefinedHelper])⟩,
    ⟨fun _ _ => closedShell_z mgga_c_revscan_closedShell, fun h => absurd h (by simp [undefinedHelper])⟩,
    ⟨fun _ _ => closedShell_z mgga_c_revtpss_closedShell, fun h => absurd h (by simp [undefinedHelper])⟩,
    ⟨fun _ _ => closedShell_z mgga_c_rmggac_closedShell, fun h => absurd h (by simp [undefinedHelper])⟩,
    ⟨fun _ _ => closedShell_z mgga_c_rppscan_closedShell, fun h => absurd h (by simp [undefinedHelper])⟩,
    ⟨fun _ _ => closedShell_z mgga_c_rregtm_closedShell, fun h => absurd h (by simp [undefinedHelper])⟩,
    ⟨fun _ _ => closedShell_z mgga_c_rscan_closedShell, fun h => absurd h (by simp [undefinedHelper])⟩⟩

theorem closedShellZ_12 : ∀ x ∈ shipped12, (x.name ∉ undefinedHelper → x.name ∉ closedShellUnsettled → ClosedShellZ x.fam x.code) ∧ (x.name ∈ undefinedHelper → ¬ ClosedShellZ x.fam x.code) := by
  unfold shipped12
  simp only [List.forall_mem_cons, List.not_mem_nil, false_implies, implies_true, and_true]
  exact ⟨⟨fun _ _ => closedShell_z mgga_c_scan_closedShell, fun h => absurd h (by simp [undefinedHelper])⟩,
    ⟨fun _ _ => closedShell_z mgga_c_tpss_closedShell, fun h => absurd h (by simp [undefinedHelper])⟩,
    ⟨fun _ h => absurd (by simp [closedShellUnsettled]) h, fun h => absurd h (by simp [undefinedHelper])⟩,
    ⟨fun _ _ => closedShell_z mgga_c_vsxc_closedShell, fun h => absurd h (by simp [undefinedHelper])⟩,
    ⟨fun _ _ => closedShell_z mgga_k_csk_closedShell, fun h => absurd h (by simp [undefinedHelper])⟩,
    ⟨fun _ _ => closedShell_z mgga_k_csk_loc_closedShell, fun h => absurd h (by simp [undefinedHelper])⟩,
    ⟨fun _ _ => closedShell_z mgga_k_gea2_closedShell, fun h => absurd h (by simp [undefinedHelper])⟩,
    ⟨fun _ _ => closedShell_z mgga_k_gea4_closedShell, fun h => absurd h (by simp [undefinedHelper])⟩,
    ⟨fun _ _ => closedShell_z mgga_k_lk_closedShell, fun h => absurd h (by simp [undefinedHelper])⟩,
    ⟨fun _ _ => closedShell_z mgga_k_pc07_closedShell, fun h => absurd h (by simp [undefinedHelper])⟩⟩

theorem closedShellZ_13 : ∀ x ∈ shipped13, (x.name ∉ undefinedHelper → x.name ∉ closedShellUnsettled → ClosedShellZ x.fam x.code) ∧ (x.name ∈ undefinedHelper → ¬ ClosedShellZ x.fam x.code) := by
  unfold shipped13
  simp only [List.forall_mem_cons, List.not_mem_nil, false_implies, implies_true, and_true]
  exact ⟨⟨fun _ _ => closedShell_z mgga_k_pgslb_closedShell, fun h => absurd h (by simp [undefinedHelper])⟩,
    ⟨fun _ _ => closedShell_z mgga_k_rda_closedShell, fun h => absurd h (by simp [undefinedHelper])⟩,
    ⟨fun _ h => absurd (by simp [closedShellUnsettled]) h, fun h => absurd h (by simp [undefinedHelper])⟩,
    ⟨fun _ _ => closedShell_z mgga_x_2d_prhg07_closedShell, fun h => absurd h (by simp [undefinedHelper])⟩,
    ⟨fun _ _ => closedShell_z mgga_x_2d_prp10_closedShell, fun h => absurd h (by simp [undefinedHelper])⟩,
    ⟨fun h => absurd (by simp [undefinedHelper]) h, fun _ => nameError_not_closedShellZ mgga_x_br89_nameError⟩,
    ⟨fun _ _ => closedShell_z mgga_x_br89_explicit_closedShell, fun h => absurd h (by simp [undefinedHelper])⟩,
    ⟨fun _ _ => closedShell_z mgga_x_edmgga_closedShell, fun h => absurd h (by simp [undefinedHelper])⟩,
    ⟨fun _ _ => closedShell_z mgga_x_ft98_closedShell, fun h => absurd h (by simp [undefinedHelper])⟩,
    ⟨fun _ _ => closedShell_z mgga_x_gdme_closedShell, fun h => absurd h (by simp [undefinedHelper])⟩,
    ⟨fun _ _ => closedShell_z mgga_x_gvt4_closedShell, fun h => absurd h (by simp [undefinedHelper])⟩,
    ⟨fun _ _ => closedShell_z mgga_x_gx_closedShell, fun h => absurd h (by simp [undefinedHelper])⟩,
    ⟨fun _ _ => closedShell_z mgga_x_jk_closedShell, fun h => absurd h (by simp [undefinedHelper])⟩,
    ⟨fun _ _ => closedShell_z mgga_x_lta_closedShell, fun h => absurd h (by simp [undefinedHelper])⟩,
    ⟨fun _ _ => closedShell_z mgga_x_m06l_closedShell, fun h => absurd h (by simp [undefinedHelper])⟩,
    ⟨fun _ _ => closedShell_z mgga_x_m08_closedShell, fun h => absurd h (by simp [undefinedHelper])⟩,
    ⟨fun _ _ => closedShell_z mgga_x_m11_closedShell, fun h => absurd h (by simp [undefinedHelper])⟩,
    ⟨fun _ _ => closedShell_z mgga_x_m11_l_closedShell, fun h => absurd h (by simp [undefinedHelper])⟩⟩

theorem closedShellZ_14 : ∀ x ∈ shipped14, (x.name ∉ undefinedHelper → x.name ∉ closedShellUnsettled → ClosedShellZ x.fam x.code) ∧ (x.name ∈ undefinedHelper → ¬ ClosedShellZ x.fam x.code) := by
  unfold shipped14
  simp only [List.forall_mem_cons, List.not_mem_nil, false_implies, implies_true, and_true]
  exact ⟨⟨fun _ _ => closedShell_z mgga_x_mbeef_closedShell, fun h => absurd h (by simp [undefinedHelper])⟩,
    ⟨fun _ _ => closedShell_z mgga_x_mbeefvdw_closedShell, fun h => absurd h (by simp [undefinedHelper])⟩,
    ⟨fun h => absurd (by simp [undefinedHelper]) h, fun _ => nameError_not_closedShellZ mgga_x_mbr_nameError⟩,
    ⟨fun h => absurd (by simp [undefinedHelper]) h, fun _ => nameError_not_closedShellZ mgga_x_mbrxc_bg_nameError⟩,
    ⟨fun h => absurd (by simp [undefinedHelper]) h, fun _ => nameError_not_closedShellZ mgga_x_mbrxh_bg_nameError⟩,
    ⟨fun _ _ => closedShell_z mgga_x_mcml_closedShell, fun h => absurd h (by simp [undefinedHelper])⟩,
    ⟨fun h => absurd (by simp [undefinedHelper]) h, fun _ => nameError_not_closedShellZ mgga_x_mggac_nameError⟩,
    ⟨fun _ _ => closedShell_z mgga_x_mn12_closedShell, fun h => absurd h (by simp [undefinedHelper])⟩,
    ⟨fun _ _ => closedShell_z mgga_x_ms_closedShell, fun h => absurd h (by simp [undefinedHelper])⟩,
    ⟨fun _ _ => closedShell_z mgga_x_msb_closedShell, fun h => absurd h (by simp [undefinedHelper])⟩,
    ⟨fun _ _ => closedShell_z mgga_x_mvs_closedShell, fun h => absurd h (by simp [undefinedHelper])⟩⟩

theorem closedShellZ_15 : ∀ x ∈ shipped15, (x.name ∉ undefinedHelper → x.name ∉ closedShellUnsettled → ClosedShellZ x.fam x.code) ∧ (x.name ∈ undefinedHelper → ¬ ClosedShellZ x.fam x.code) := by
  unfold shipped15
  simp only [List.forall_mem_cons, List.not_mem_nil, false_implies, implies_true, and_true]
  exact ⟨⟨fun _ _ => closedShell_z mgga_x_mvsb_closedShell, fun h => absurd h (by simp [undefinedHelper])⟩,
    ⟨fun _ _ => closedShell_z mgga_x_pbe_gx_closedShell, fun h => absurd h (by simp [undefinedHelper])⟩,
    ⟨fun _ _ => closedShell_z mgga_x_pkzb_closedShell, fun h => absurd h (by simp [undefinedHelper])⟩,
    ⟨fun _ _ => closedShell_z mgga_x_r2scan_closedShell, fun h => absurd h (by simp [undefinedHelper])⟩,
    ⟨fun _ _ => closedShell_z mgga_x_r4scan_closedShell, fun h => absurd h (by simp [undefinedHelper])⟩,
    ⟨fun _ _ => closedShell_z mgga_x_regtm_closedShell, fun h => absurd h (by simp [undefinedHelper])⟩,
    ⟨fun _ _ => closedShell_z mgga_x_regtpss_closedShell, fun h => absurd h (by simp [undefinedHelper])⟩,
    ⟨fun _ _ => closedShell_z mgga_x_revtm_closedShell, fun h => absurd h (by simp [undefinedHelper])⟩,
    ⟨fun _ _ => closedShell_z mgga_x_rlda_closedShell, fun h => absurd h (by simp [undefinedHelper])⟩,
    ⟨fun _ _ => closedShell_z mgga_x_rppscan_closedShell, fun h => absurd h (by simp [undefinedHelper])⟩,
    ⟨fun _ _ => closedShell_z mgga_x_rscan_closedShell, fun h => absurd h (by simp [undefinedHelper])⟩,
    ⟨fun _ _ => closedShell_z mgga_x_rtpss_closedShell, fun h => absurd h (by simp [undefinedHelper])⟩,
    ⟨fun _ _ => closedShell_z mgga_x_sa_tpss_closedShell, fun h => absurd h (by simp [undefinedHelper])⟩,
    ⟨fun _ _ => closedShell_z mgga_x_scan_closedShell, fun h => absurd h (by simp [undefinedHelper])⟩,
    ⟨fun _ h => absurd (by simp [closedShellUnsettled]) h, fun h => absurd h (by simp [undefinedHelper])⟩⟩

theorem closedShellZ_16 : ∀ x ∈ shipped16, (x.name ∉ undefinedHelper → x.name ∉ closedShellUnsettled → ClosedShellZ x.fam x.code) ∧ (x.name ∈ undefinedHelper → ¬ ClosedShellZ x.fam x.code) := by
  unfold shipped16
  simp only [List.forall_mem_cons, List.not_mem_nil, false_implies, implies_true, and_true]
  exact ⟨⟨fun _ _ => closedShell_z mgga_x_tau_hcth_closedShell, fun h => absurd h (by simp [undefinedHelper])⟩,
    ⟨fun h => absurd (by simp [undefinedHelper]) h, fun _ => nameError_not_closedShellZ mgga_x_tb09_nameError⟩,
    ⟨fun _ _ => closedShell_z mgga_x_th_closedShell, fun h => absurd h (by simp [undefinedHelper])⟩,
    ⟨fun _ _ => closedShell_z mgga_x_tm_closedShell, fun h => absurd h (by simp [undefinedHelper])⟩,
    ⟨fun _ _ => closedShell_z mgga_x_tpss_closedShell, fun h => absurd h (by simp [undefinedHelper])⟩,
    ⟨fun _ _ => closedShell_z mgga_x_vcml_closedShell, fun h => absurd h (by simp [undefinedHelper])⟩,
    ⟨fun _ _ => closedShell_z mgga_x_vt84_closedShell, fun h => absurd h (by simp [undefinedHelper])⟩,
    ⟨fun _ _ => closedShell_z mgga_xc_b97mv_closedShell, fun h => absurd h (by simp [undefinedHelper])⟩,
    ⟨fun _ _ => closedShell_z mgga_xc_b98_closedShell, fun h => absurd h (by simp [undefinedHelper])⟩,
    ⟨fun _ _ => closedShell_z mgga_xc_cc06_closedShell, fun h => absurd h (by simp [undefinedHelper])⟩,
    ⟨fun _ _ => closedShell_z mgga_xc_lp90_closedShell, fun h => absurd h (by simp [undefinedHelper])⟩,
    ⟨fun _ _ => closedShell_z mgga_xc_zlp_closedShell, fun h => absurd h (by simp [undefinedHelper])⟩⟩

/-- C21 for `zeta_threshold < 1`. Missing: the formulas in `closedShellUnsettled`. -/
theorem closedShellZ_shipped_partial : ∀ x ∈ shipped, (x.name ∉ undefinedHelper → x.name ∉ closedShellUnsettled → ClosedShellZ x.fam x.code) ∧ (x.name ∈ undefinedHelper → ¬ ClosedShellZ x.fam x.code) := by
  intro x hx
  simp only [shipped, List.mem_append] at hx
  rcases hx with (((((((((((((((h | h) | h) | h) | h) | h) | h) | h) | h) | h) | h) | h) | h) | h) | h) | h)
  · exact closedShellZ_01 x h
  · exact closedShellZ_02 x h
  · exact closedShellZ_03 x h
  · exact closedShellZ_04 x h
  · exact closedShellZ_05 x h
  · exact closedShellZ_06 x h
  · exact closedShellZ_07 x h
  · exact closedShellZ_08 x h
  · exact closedShellZ_09 x h
  · exact closedShellZ_10 x h
  · exact closedShellZ_11 x h
  · exact closedShellZ_12 x h
  · exact closedShellZ_13 x h
  · exact closedShellZ_14 x h
  · exact closedShellZ_15 x h
  · exact closedShellZ_16 x h

end Verif.Props
