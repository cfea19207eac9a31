import Verif.Norm.Rounding
import Verif.Data.F01
import Verif.Data.F05
import Verif.Data.F09
import Verif.Data.F13
/-!
# C21, C37 and C42 up to the rounding of literals

Formulas whose `pol` and `unpol` texts carry differently rounded copies of the same number.
-/
namespace Verif.Props
open Verif.Model Verif.Spec Verif.Norm Verif.Data

set_option maxRecDepth 100000
set_option Elab.async false

/-- Corrections of last digits in `gga_c_ft97`. -/
def gga_c_ft97_fix : List Fix := [⟨11113838714704711852, 22, 1, 111138387147047118516⟩,
  ⟨11326712603257180837, 20, 1, 113267126032571808372⟩,
  ⟨10001700163888888889, 20, 1, 100017001638888888894⟩]

theorem gga_c_ft97_closedShellUpTo : UpToLiterals (ClosedShellZ .gga) gga_c_ft97 :=
  upTo_of gga_c_ft97_fix (by decide +kernel) (closedShellZ_of (cap := 1) (by decide +kernel))

/-- Corrections of last digits in `gga_c_op_pw91`. -/
def gga_c_op_pw91_fix : List Fix := [⟨13888888888888888889, 24, 1, 138888888888888888888⟩]

theorem gga_c_op_pw91_closedShellUpTo : UpToLiterals (ClosedShellZ .gga) gga_c_op_pw91 :=
  upTo_of gga_c_op_pw91_fix (by decide +kernel) (closedShellZ_of (cap := 1) (by decide +kernel))

/-- Corrections of last digits in `gga_c_optc`. -/
def gga_c_optc_fix : List Fix := [⟨88547815820543093274, 20, 3, 88547815820543093274624⟩,
  ⟨27671192443919716648, 21, 2, 2767119244391971664832⟩,
  ⟨76569489126843962094, 23, 6, 76569489126843962091796875⟩,
  ⟨17294495277449822906, 22, 1, 172944952774498229052⟩,
  ⟨27671192443919716647, 21, 2, 2767119244391971664832⟩,
  ⟨15313897825368792419, 22, 6, 15313897825368792418359375⟩]

theorem gga_c_optc_closedShellUpTo : UpToLiterals (ClosedShellZ .gga) gga_c_optc :=
  upTo_of gga_c_optc_fix (by decide +kernel) (closedShellZ_of (cap := 1) (by decide +kernel))

/-- Corrections of last digits in `gga_k_exp4`. -/
def gga_k_exp4_fix : List Fix := [⟨15095833333333333333, 21, 1, 150958333333333333332⟩]

theorem gga_k_exp4_closedShellUpTo : UpToLiterals (ClosedShellZ .gga) gga_k_exp4 :=
  upTo_of gga_k_exp4_fix (by decide +kernel) (closedShellZ_of (cap := 1) (by decide +kernel))

theorem gga_k_exp4_spinScalingUpTo : UpToLiterals (SpinScaling .gga) gga_k_exp4 :=
  upTo_of gga_k_exp4_fix (by decide +kernel) (spinScaling_of (cap := 4) (by decide +kernel))

theorem gga_k_exp4_screenedRestUpTo : UpToLiterals (ScreenedRest .gga) gga_k_exp4 :=
  upTo_of gga_k_exp4_fix (by decide +kernel) (screenedRest_of (cap := 4) (by decide +kernel))

/-- Corrections of last digits in `gga_x_bpccac`. -/
def gga_x_bpccac_fix : List Fix := [⟨13888888888888888889, 24, 1, 138888888888888888888⟩]

theorem gga_x_bpccac_closedShellUpTo : UpToLiterals (ClosedShellZ .gga) gga_x_bpccac :=
  upTo_of gga_x_bpccac_fix (by decide +kernel) (closedShellZ_of (cap := 1) (by decide +kernel))

theorem gga_x_bpccac_spinScalingUpTo : UpToLiterals (SpinScaling .gga) gga_x_bpccac :=
  upTo_of gga_x_bpccac_fix (by decide +kernel) (spinScaling_of (cap := 4) (by decide +kernel))

theorem gga_x_bpccac_screenedRestUpTo : UpToLiterals (ScreenedRest .gga) gga_x_bpccac :=
  upTo_of gga_x_bpccac_fix (by decide +kernel) (screenedRest_of (cap := 4) (by decide +kernel))

/-- Corrections of last digits in `gga_x_htbs`. -/
def gga_x_htbs_fix : List Fix := [⟨26041666666666666667, 22, 1, 260416666666666666672⟩,
  ⟨17395833333333333334, 20, 1, 173958333333333333336⟩,
  ⟨52083333333333333334, 22, 1, 520833333333333333344⟩]

theorem gga_x_htbs_closedShellUpTo : UpToLiterals (ClosedShellZ .gga) gga_x_htbs :=
  upTo_of gga_x_htbs_fix (by decide +kernel) (closedShellZ_of (cap := 1) (by decide +kernel))

theorem gga_x_htbs_spinScalingUpTo : UpToLiterals (SpinScaling .gga) gga_x_htbs :=
  upTo_of gga_x_htbs_fix (by decide +kernel) (spinScaling_of (cap := 4) (by decide +kernel))

theorem gga_x_htbs_screenedRestUpTo : UpToLiterals (ScreenedRest .gga) gga_x_htbs :=
  upTo_of gga_x_htbs_fix (by decide +kernel) (screenedRest_of (cap := 4) (by decide +kernel))

/-- Corrections of last digits in `gga_x_lg93`. -/
def gga_x_lg93_fix : List Fix := [⟨51718749999999999998, 21, 0, 51718750000000000000⟩,
  ⟨38918402777777777778, 21, 1, 389184027777777777776⟩,
  ⟨16861979166666666667, 23, 1, 168619791666666666672⟩]

theorem gga_x_lg93_closedShellUpTo : UpToLiterals (ClosedShellZ .gga) gga_x_lg93 :=
  upTo_of gga_x_lg93_fix (by decide +kernel) (closedShellZ_of (cap := 1) (by decide +kernel))

theorem gga_x_lg93_spinScalingUpTo : UpToLiterals (SpinScaling .gga) gga_x_lg93 :=
  upTo_of gga_x_lg93_fix (by decide +kernel) (spinScaling_of (cap := 4) (by decide +kernel))

theorem gga_x_lg93_screenedRestUpTo : UpToLiterals (ScreenedRest .gga) gga_x_lg93 :=
  upTo_of gga_x_lg93_fix (by decide +kernel) (screenedRest_of (cap := 4) (by decide +kernel))

/-- Corrections of last digits in `gga_x_lv_rpw86`. -/
def gga_x_lv_rpw86_fix : List Fix := [⟨28298611111111111111, 23, 1, 282986111111111111112⟩]

theorem gga_x_lv_rpw86_closedShellUpTo : UpToLiterals (ClosedShellZ .gga) gga_x_lv_rpw86 :=
  upTo_of gga_x_lv_rpw86_fix (by decide +kernel) (closedShellZ_of (cap := 1) (by decide +kernel))

theorem gga_x_lv_rpw86_spinScalingUpTo : UpToLiterals (SpinScaling .gga) gga_x_lv_rpw86 :=
  upTo_of gga_x_lv_rpw86_fix (by decide +kernel) (spinScaling_of (cap := 4) (by decide +kernel))

theorem gga_x_lv_rpw86_screenedRestUpTo : UpToLiterals (ScreenedRest .gga) gga_x_lv_rpw86 :=
  upTo_of gga_x_lv_rpw86_fix (by decide +kernel) (screenedRest_of (cap := 4) (by decide +kernel))

/-- Corrections of last digits in `gga_x_rge2`. -/
def gga_x_rge2_fix : List Fix := [⟨65823568907145082055, 24, 0, 65823568907145082054⟩]

theorem gga_x_rge2_closedShellUpTo : UpToLiterals (ClosedShellZ .gga) gga_x_rge2 :=
  upTo_of gga_x_rge2_fix (by decide +kernel) (closedShellZ_of (cap := 1) (by decide +kernel))

theorem gga_x_rge2_spinScalingUpTo : UpToLiterals (SpinScaling .gga) gga_x_rge2 :=
  upTo_of gga_x_rge2_fix (by decide +kernel) (spinScaling_of (cap := 4) (by decide +kernel))

theorem gga_x_rge2_screenedRestUpTo : UpToLiterals (ScreenedRest .gga) gga_x_rge2 :=
  upTo_of gga_x_rge2_fix (by decide +kernel) (screenedRest_of (cap := 4) (by decide +kernel))

/-- Corrections of last digits in `gga_x_sg4`. -/
def gga_x_sg4_fix : List Fix := [⟨14268491327672029207, 30, 1, 142684913276720292072⟩]

theorem gga_x_sg4_closedShellUpTo : UpToLiterals (ClosedShellZ .gga) gga_x_sg4 :=
  upTo_of gga_x_sg4_fix (by decide +kernel) (closedShellZ_of (cap := 1) (by decide +kernel))

theorem gga_x_sg4_spinScalingUpTo : UpToLiterals (SpinScaling .gga) gga_x_sg4 :=
  upTo_of gga_x_sg4_fix (by decide +kernel) (spinScaling_of (cap := 4) (by decide +kernel))

theorem gga_x_sg4_screenedRestUpTo : UpToLiterals (ScreenedRest .gga) gga_x_sg4 :=
  upTo_of gga_x_sg4_fix (by decide +kernel) (screenedRest_of (cap := 4) (by decide +kernel))

/-- Corrections of last digits in `lda_c_ml1`. -/
def lda_c_ml1_fix : List Fix := [⟨49248579417833934399, 21, 0, 49248579417833934400⟩]

theorem lda_c_ml1_closedShellUpTo : UpToLiterals (ClosedShellZ .lda) lda_c_ml1 :=
  upTo_of lda_c_ml1_fix (by decide +kernel) (closedShellZ_of (cap := 1) (by decide +kernel))

/-- Corrections of last digits in `lda_c_pk09`. -/
def lda_c_pk09_fix : List Fix := [⟨531736155271654809, 20, 3, 531736155271654809375⟩,
  ⟨751988482389300153, 19, 2, 75198848238930015375⟩,
  ⟨821419393556370918, 18, 1, 8214193935563709184⟩,
  ⟨22079848381299059167, 18, 0, 22079848381299059166⟩,
  ⟨37610742193750634333, 19, 1, 376107421937506343328⟩,
  ⟨18805371096875317167, 19, 1, 188053710968753171664⟩,
  ⟨19489173774580151667, 18, 1, 194891737745801516664⟩,
  ⟨49373337174483548167, 19, 0, 49373337174483548166⟩,
  ⟨41150663529849592833, 21, 0, 41150663529849592834⟩,
  ⟨18635258017632964667, 18, 1, 186352580176329646664⟩,
  ⟨22140749178833072667, 19, 0, 22140749178833072666⟩,
  ⟨24275161951943278333, 19, 0, 24275161951943278334⟩,
  ⟨1850144612301298325, 20, 2, 185014461230129832501⟩,
  ⟨27001225709730947333, 19, 1, 270012257097309473334⟩,
  ⟨35540878740919256083, 19, 0, 35540878740919256082⟩,
  ⟨410709696778185459, 18, 1, 4107096967781854592⟩,
  ⟨29951248675449113667, 20, 0, 29951248675449113666⟩,
  ⟨74005784492051933, 18, 4, 740057844920519330004⟩,
  ⟨44159696762598118333, 18, 0, 44159696762598118332⟩,
  ⟨10800490283892378933, 18, 2, 1080049028389237893336⟩,
  ⟨75221484387501268667, 19, 1, 752214843875012686656⟩,
  ⟨38978347549160303333, 18, 1, 389783475491603033328⟩,
  ⟨98746674348967096333, 19, 0, 98746674348967096332⟩,
  ⟨82301327059699185667, 21, 0, 82301327059699185668⟩,
  ⟨37270516035265929333, 18, 1, 372705160352659293328⟩,
  ⟨44281498357666145333, 19, 0, 44281498357666145332⟩,
  ⟨48550323903886556667, 19, 0, 48550323903886556668⟩,
  ⟨14216351496367702433, 18, 1, 142163514963677024328⟩,
  ⟨27001225709730947332, 19, 1, 270012257097309473334⟩]

theorem lda_c_pk09_closedShellUpTo : UpToLiterals (ClosedShellZ .lda) lda_c_pk09 :=
  upTo_of lda_c_pk09_fix (by decide +kernel) (closedShellZ_of (cap := 16) (by decide +kernel))

/-- Corrections of last digits in `mgga_c_kcisk`. -/
def mgga_c_kcisk_fix : List Fix := [⟨53972366148531951642, 21, 0, 53972366148531951640⟩,
  ⟨79593333333333333331, 21, 1, 795933333333333333312⟩,
  ⟨39796666666666666666, 21, 1, 397966666666666666656⟩,
  ⟨69644166666666666665, 22, 0, 69644166666666666664⟩,
  ⟨39796666666666666667, 21, 1, 397966666666666666656⟩,
  ⟨49745833333333333334, 22, 0, 49745833333333333332⟩,
  ⟨34822083333333333334, 22, 0, 34822083333333333332⟩]

theorem mgga_c_kcisk_closedShellUpTo : UpToLiterals (ClosedShellZ .mgga) mgga_c_kcisk :=
  upTo_of mgga_c_kcisk_fix (by decide +kernel) (closedShellZ_of (cap := 1) (by decide +kernel))

/-- Corrections of last digits in `mgga_c_tpssloc`. -/
def mgga_c_tpssloc_fix : List Fix := [⟨83333333333333333335, 23, 0, 83333333333333333332⟩]

theorem mgga_c_tpssloc_closedShellUpTo : UpToLiterals (ClosedShellZ .mgga) mgga_c_tpssloc :=
  upTo_of mgga_c_tpssloc_fix (by decide +kernel) (closedShellZ_of (cap := 4) (by decide +kernel))

/-- Corrections of last digits in `mgga_x_2d_js17`. -/
def mgga_x_2d_js17_fix : List Fix := [⟨17554285714285714286, 20, 1, 175542857142857142858⟩]

theorem mgga_x_2d_js17_closedShellUpTo : UpToLiterals (ClosedShellZ .mgga) mgga_x_2d_js17 :=
  upTo_of mgga_x_2d_js17_fix (by decide +kernel) (closedShellZ_of (cap := 1) (by decide +kernel))

theorem mgga_x_2d_js17_spinScalingUpTo : UpToLiterals (SpinScaling .mgga) mgga_x_2d_js17 :=
  upTo_of mgga_x_2d_js17_fix (by decide +kernel) (spinScaling_of (cap := 4) (by decide +kernel))

theorem mgga_x_2d_js17_screenedRestUpTo : UpToLiterals (ScreenedRest .mgga) mgga_x_2d_js17 :=
  upTo_of mgga_x_2d_js17_fix (by decide +kernel) (screenedRest_of (cap := 4) (by decide +kernel))

end Verif.Props
