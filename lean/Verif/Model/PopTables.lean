import Verif.Model.PopFields

/-!
The ten shipped DiffstarPop calibrations, `diffstar/diffstarpop/kernels/params/`. Each table is the key/value
sequence of the file's `SFH_PDF_QUENCH_PDICT` (its five dictionaries in merge order).
-/

namespace Diffstar.Pop

/-- `params/params_diffstarfits_mgash_galacticus_in_plus_ex_situ.py`, L83-102, L10-47, L49-68, L70-81, L103-111, merged in that order. -/
def diffstarfitsGalacticusInPlusExSitu : List (QF × ℚ) :=
  [(.frac_quench_cen_x0_tpeak, 7.000), (.frac_quench_cen_k_tpeak, 2.000),
   (.frac_quench_cen_x0_ylotpeak, 11.750), (.frac_quench_cen_x0_yhitpeak, 12.965),
   (.frac_quench_cen_ylo_ylotpeak, 0.990), (.frac_quench_cen_ylo_yhitpeak, 0.625),
   (.frac_quench_cen_k, 3.848), (.frac_quench_cen_yhi, 0.971), (.frac_quench_sat_x0_tpeak, 7.000),
   (.frac_quench_sat_k_tpeak, 2.000), (.frac_quench_sat_x0_ylotpeak, 11.750),
   (.frac_quench_sat_x0_yhitpeak, 12.965), (.frac_quench_sat_ylo_ylotpeak, 0.990),
   (.frac_quench_sat_ylo_yhitpeak, 0.625), (.frac_quench_sat_k, 3.848),
   (.frac_quench_sat_yhi, 0.971), (.mean_ulgm_mseq_xtp, 12.029), (.mean_ulgm_mseq_ytp, 11.300),
   (.mean_ulgm_mseq_lo, 2.812), (.mean_ulgm_mseq_hi, 0.400), (.mean_ulgy_mseq_xtp, 12.344),
   (.mean_ulgy_mseq_ytp, -9.296), (.mean_ulgy_mseq_lo, 0.902), (.mean_ulgy_mseq_hi, 0.303),
   (.mean_ul_mseq_int, -0.639), (.mean_ul_mseq_slp, 0.988), (.mean_uh_mseq_int, -0.391),
   (.mean_uh_mseq_slp, 0.161), (.mean_ulgm_qseq_xtp, 13.078), (.mean_ulgm_qseq_ytp, 11.903),
   (.mean_ulgm_qseq_lo, 0.794), (.mean_ulgm_qseq_hi, 0.230), (.mean_ulgy_qseq_xtp, 12.112),
   (.mean_ulgy_qseq_ytp, -9.421), (.mean_ulgy_qseq_lo, 0.725), (.mean_ulgy_qseq_hi, 0.356),
   (.mean_ul_qseq_int, -0.714), (.mean_ul_qseq_slp, 0.616), (.mean_uh_qseq_int, -0.582),
   (.mean_uh_qseq_slp, -0.115), (.mean_uqt_xtp, 12.922), (.mean_uqt_ytp, 1.047),
   (.mean_uqt_lo, -0.100), (.mean_uqt_hi, -0.100), (.mean_uqs_int, -0.298),
   (.mean_uqs_slp, -0.411), (.mean_udrop_int, -1.953), (.mean_udrop_slp, 0.586),
   (.mean_urej_int, -0.853), (.mean_urej_slp, 0.329), (.std_ulgm_mseq_int, 0.552),
   (.std_ulgm_mseq_slp, -0.433), (.std_ulgy_mseq_int, 0.298), (.std_ulgy_mseq_slp, 0.046),
   (.std_ul_mseq_int, 2.469), (.std_ul_mseq_slp, 0.677), (.std_uh_mseq_int, 0.705),
   (.std_uh_mseq_slp, -0.287), (.std_ulgm_qseq_int, 0.492), (.std_ulgm_qseq_slp, -0.293),
   (.std_ulgy_qseq_int, 0.264), (.std_ulgy_qseq_slp, 0.063), (.std_ul_qseq_int, 2.263),
   (.std_ul_qseq_slp, -0.165), (.std_uh_qseq_int, 0.528), (.std_uh_qseq_slp, -0.067),
   (.std_uqt_int, 0.075), (.std_uqt_slp, -0.008), (.std_uqs_int, 0.900), (.std_uqs_slp, 0.900),
   (.std_udrop_int, 0.600), (.std_udrop_slp, 0.020), (.std_urej_int, 0.979),
   (.std_urej_slp, -0.205), (.delta_uqt_x0, 1.001), (.delta_uqt_k, 0.714),
   (.delta_uqt_ylo, -0.611), (.delta_uqt_yhi, 0.002), (.delta_uqt_slope, -0.024)]

/-- `params/params_diffstarfits_mgash_galacticus_in_situ.py`, L83-102, L10-47, L49-68, L70-81, L103-111, merged in that order. -/
def diffstarfitsGalacticusInSitu : List (QF × ℚ) :=
  [(.frac_quench_cen_x0_tpeak, 7.000), (.frac_quench_cen_k_tpeak, 2.000),
   (.frac_quench_cen_x0_ylotpeak, 11.692), (.frac_quench_cen_x0_yhitpeak, 12.963),
   (.frac_quench_cen_ylo_ylotpeak, 0.990), (.frac_quench_cen_ylo_yhitpeak, 0.525),
   (.frac_quench_cen_k, 3.848), (.frac_quench_cen_yhi, 0.971), (.frac_quench_sat_x0_tpeak, 7.000),
   (.frac_quench_sat_k_tpeak, 2.000), (.frac_quench_sat_x0_ylotpeak, 11.692),
   (.frac_quench_sat_x0_yhitpeak, 12.963), (.frac_quench_sat_ylo_ylotpeak, 0.990),
   (.frac_quench_sat_ylo_yhitpeak, 0.525), (.frac_quench_sat_k, 3.848),
   (.frac_quench_sat_yhi, 0.971), (.mean_ulgm_mseq_xtp, 13.189), (.mean_ulgm_mseq_ytp, 12.079),
   (.mean_ulgm_mseq_lo, 0.783), (.mean_ulgm_mseq_hi, -0.001), (.mean_ulgy_mseq_xtp, 11.995),
   (.mean_ulgy_mseq_ytp, -9.781), (.mean_ulgy_mseq_lo, 0.927), (.mean_ulgy_mseq_hi, 0.091),
   (.mean_ul_mseq_int, -0.715), (.mean_ul_mseq_slp, 1.717), (.mean_uh_mseq_int, -0.253),
   (.mean_uh_mseq_slp, 0.364), (.mean_ulgm_qseq_xtp, 13.473), (.mean_ulgm_qseq_ytp, 12.089),
   (.mean_ulgm_qseq_lo, 0.404), (.mean_ulgm_qseq_hi, -0.228), (.mean_ulgy_qseq_xtp, 12.303),
   (.mean_ulgy_qseq_ytp, -9.608), (.mean_ulgy_qseq_lo, 0.446), (.mean_ulgy_qseq_hi, 0.017),
   (.mean_ul_qseq_int, -0.388), (.mean_ul_qseq_slp, 0.954), (.mean_uh_qseq_int, -0.153),
   (.mean_uh_qseq_slp, 0.284), (.mean_uqt_xtp, 12.746), (.mean_uqt_ytp, 1.035),
   (.mean_uqt_lo, -0.100), (.mean_uqt_hi, -0.150), (.mean_uqs_int, 0.057), (.mean_uqs_slp, -0.196),
   (.mean_udrop_int, -1.917), (.mean_udrop_slp, 0.684), (.mean_urej_int, -0.749),
   (.mean_urej_slp, 0.472), (.std_ulgm_mseq_int, 0.527), (.std_ulgm_mseq_slp, -0.248),
   (.std_ulgy_mseq_int, 0.247), (.std_ulgy_mseq_slp, -0.031), (.std_ul_mseq_int, 2.156),
   (.std_ul_mseq_slp, 0.260), (.std_uh_mseq_int, 1.112), (.std_uh_mseq_slp, -0.113),
   (.std_ulgm_qseq_int, 0.434), (.std_ulgm_qseq_slp, -0.097), (.std_ulgy_qseq_int, 0.229),
   (.std_ulgy_qseq_slp, -0.018), (.std_ul_qseq_int, 2.179), (.std_ul_qseq_slp, -0.124),
   (.std_uh_qseq_int, 0.770), (.std_uh_qseq_slp, -0.177), (.std_uqt_int, 0.110),
   (.std_uqt_slp, 0.032), (.std_uqs_int, 0.900), (.std_uqs_slp, 0.120), (.std_udrop_int, 0.639),
   (.std_udrop_slp, 0.053), (.std_urej_int, 1.118), (.std_urej_slp, -0.044),
   (.delta_uqt_x0, 1.659), (.delta_uqt_k, 0.939), (.delta_uqt_ylo, -0.466),
   (.delta_uqt_yhi, 0.000), (.delta_uqt_slope, -0.022)]

/-- `params/params_diffstarfits_mgash_smdpl_dr1.py`, L83-102, L10-47, L49-68, L70-81, L103-111, merged in that order. -/
def diffstarfitsSmdplDr1 : List (QF × ℚ) :=
  [(.frac_quench_cen_x0_tpeak, 7.000), (.frac_quench_cen_k_tpeak, 2.000),
   (.frac_quench_cen_x0_ylotpeak, 11.280), (.frac_quench_cen_x0_yhitpeak, 11.658),
   (.frac_quench_cen_ylo_ylotpeak, 0.010), (.frac_quench_cen_ylo_yhitpeak, 0.040),
   (.frac_quench_cen_k, 3.848), (.frac_quench_cen_yhi, 0.971), (.frac_quench_sat_x0_tpeak, 7.000),
   (.frac_quench_sat_k_tpeak, 2.000), (.frac_quench_sat_x0_ylotpeak, 11.280),
   (.frac_quench_sat_x0_yhitpeak, 11.658), (.frac_quench_sat_ylo_ylotpeak, 0.010),
   (.frac_quench_sat_ylo_yhitpeak, 0.040), (.frac_quench_sat_k, 3.848),
   (.frac_quench_sat_yhi, 0.971), (.mean_ulgm_mseq_xtp, 12.097), (.mean_ulgm_mseq_ytp, 12.082),
   (.mean_ulgm_mseq_lo, 0.812), (.mean_ulgm_mseq_hi, 0.185), (.mean_ulgy_mseq_xtp, 12.131),
   (.mean_ulgy_mseq_ytp, -10.094), (.mean_ulgy_mseq_lo, 0.929), (.mean_ulgy_mseq_hi, 0.400),
   (.mean_ul_mseq_int, -1.815), (.mean_ul_mseq_slp, 1.089), (.mean_uh_mseq_int, 0.820),
   (.mean_uh_mseq_slp, -0.458), (.mean_ulgm_qseq_xtp, 12.168), (.mean_ulgm_qseq_ytp, 12.153),
   (.mean_ulgm_qseq_lo, 0.882), (.mean_ulgm_qseq_hi, 0.040), (.mean_ulgy_qseq_xtp, 12.803),
   (.mean_ulgy_qseq_ytp, -9.594), (.mean_ulgy_qseq_lo, 0.714), (.mean_ulgy_qseq_hi, 0.400),
   (.mean_ul_qseq_int, -2.700), (.mean_ul_qseq_slp, -0.220), (.mean_uh_qseq_int, 1.910),
   (.mean_uh_qseq_slp, 1.035), (.mean_uqt_xtp, 12.005), (.mean_uqt_ytp, 1.036),
   (.mean_uqt_lo, -0.190), (.mean_uqt_hi, -0.100), (.mean_uqs_int, -0.230), (.mean_uqs_slp, 0.104),
   (.mean_udrop_int, -1.814), (.mean_udrop_slp, 0.054), (.mean_urej_int, -0.739),
   (.mean_urej_slp, -0.261), (.std_ulgm_mseq_int, 0.254), (.std_ulgm_mseq_slp, 0.153),
   (.std_ulgy_mseq_int, 0.273), (.std_ulgy_mseq_slp, 0.027), (.std_ul_mseq_int, 1.941),
   (.std_ul_mseq_slp, 0.516), (.std_uh_mseq_int, 1.458), (.std_uh_mseq_slp, 0.020),
   (.std_ulgm_qseq_int, 0.194), (.std_ulgm_qseq_slp, 0.096), (.std_ulgy_qseq_int, 0.291),
   (.std_ulgy_qseq_slp, -0.223), (.std_ul_qseq_int, 2.091), (.std_ul_qseq_slp, -0.183),
   (.std_uh_qseq_int, 1.017), (.std_uh_qseq_slp, 0.066), (.std_uqt_int, 0.079),
   (.std_uqt_slp, 0.001), (.std_uqs_int, 0.615), (.std_uqs_slp, 0.217), (.std_udrop_int, 0.798),
   (.std_udrop_slp, -0.124), (.std_urej_int, 1.168), (.std_urej_slp, -0.025),
   (.delta_uqt_x0, 3.260), (.delta_uqt_k, 0.536), (.delta_uqt_ylo, -0.372),
   (.delta_uqt_yhi, 0.015), (.delta_uqt_slope, -0.065)]

/-- `params/params_diffstarfits_mgash_smdpl_dr1_nomerging.py`, L83-102, L10-47, L49-68, L70-81, L103-111, merged in that order. -/
def diffstarfitsSmdplDr1Nomerging : List (QF × ℚ) :=
  [(.frac_quench_cen_x0_tpeak, 7.000), (.frac_quench_cen_k_tpeak, 2.000),
   (.frac_quench_cen_x0_ylotpeak, 11.349), (.frac_quench_cen_x0_yhitpeak, 11.862),
   (.frac_quench_cen_ylo_ylotpeak, 0.038), (.frac_quench_cen_ylo_yhitpeak, 0.010),
   (.frac_quench_cen_k, 3.848), (.frac_quench_cen_yhi, 0.971), (.frac_quench_sat_x0_tpeak, 7.000),
   (.frac_quench_sat_k_tpeak, 2.000), (.frac_quench_sat_x0_ylotpeak, 11.349),
   (.frac_quench_sat_x0_yhitpeak, 11.862), (.frac_quench_sat_ylo_ylotpeak, 0.038),
   (.frac_quench_sat_ylo_yhitpeak, 0.010), (.frac_quench_sat_k, 3.848),
   (.frac_quench_sat_yhi, 0.971), (.mean_ulgm_mseq_xtp, 12.133), (.mean_ulgm_mseq_ytp, 12.097),
   (.mean_ulgm_mseq_lo, 0.793), (.mean_ulgm_mseq_hi, 0.104), (.mean_ulgy_mseq_xtp, 13.085),
   (.mean_ulgy_mseq_ytp, -9.718), (.mean_ulgy_mseq_lo, 0.638), (.mean_ulgy_mseq_hi, 0.144),
   (.mean_ul_mseq_int, -0.804), (.mean_ul_mseq_slp, 0.743), (.mean_uh_mseq_int, -1.504),
   (.mean_uh_mseq_slp, -2.294), (.mean_ulgm_qseq_xtp, 12.264), (.mean_ulgm_qseq_ytp, 12.232),
   (.mean_ulgm_qseq_lo, 0.816), (.mean_ulgm_qseq_hi, 0.075), (.mean_ulgy_qseq_xtp, 12.567),
   (.mean_ulgy_qseq_ytp, -9.840), (.mean_ulgy_qseq_lo, 0.579), (.mean_ulgy_qseq_hi, 0.329),
   (.mean_ul_qseq_int, -0.847), (.mean_ul_qseq_slp, 0.753), (.mean_uh_qseq_int, 1.142),
   (.mean_uh_qseq_slp, 0.581), (.mean_uqt_xtp, 12.862), (.mean_uqt_ytp, 0.902),
   (.mean_uqt_lo, -0.124), (.mean_uqt_hi, -0.267), (.mean_uqs_int, -0.109), (.mean_uqs_slp, 0.391),
   (.mean_udrop_int, -2.140), (.mean_udrop_slp, 0.229), (.mean_urej_int, -1.217),
   (.mean_urej_slp, -0.024), (.std_ulgm_mseq_int, 0.288), (.std_ulgm_mseq_slp, 0.145),
   (.std_ulgy_mseq_int, 0.289), (.std_ulgy_mseq_slp, 0.034), (.std_ul_mseq_int, 1.284),
   (.std_ul_mseq_slp, 0.415), (.std_uh_mseq_int, 2.477), (.std_uh_mseq_slp, -0.900),
   (.std_ulgm_qseq_int, 0.238), (.std_ulgm_qseq_slp, 0.125), (.std_ulgy_qseq_int, 0.257),
   (.std_ulgy_qseq_slp, -0.220), (.std_ul_qseq_int, 1.661), (.std_ul_qseq_slp, -0.455),
   (.std_uh_qseq_int, 1.484), (.std_uh_qseq_slp, 0.218), (.std_uqt_int, 0.121),
   (.std_uqt_slp, 0.053), (.std_uqs_int, 0.565), (.std_uqs_slp, -0.027), (.std_udrop_int, 0.745),
   (.std_udrop_slp, 0.168), (.std_urej_int, 1.359), (.std_urej_slp, 0.066), (.delta_uqt_x0, 1.548),
   (.delta_uqt_k, 0.493), (.delta_uqt_ylo, -0.494), (.delta_uqt_yhi, 0.023),
   (.delta_uqt_slope, -0.049)]

/-- `params/params_diffstarfits_mgash_tng.py`, L83-102, L10-47, L49-68, L70-81, L103-111, merged in that order. -/
def diffstarfitsTng : List (QF × ℚ) :=
  [(.frac_quench_cen_x0_tpeak, 7.000), (.frac_quench_cen_k_tpeak, 2.000),
   (.frac_quench_cen_x0_ylotpeak, 11.100), (.frac_quench_cen_x0_yhitpeak, 12.914),
   (.frac_quench_cen_ylo_ylotpeak, 0.990), (.frac_quench_cen_ylo_yhitpeak, 0.185),
   (.frac_quench_cen_k, 3.848), (.frac_quench_cen_yhi, 0.971), (.frac_quench_sat_x0_tpeak, 7.000),
   (.frac_quench_sat_k_tpeak, 2.000), (.frac_quench_sat_x0_ylotpeak, 11.100),
   (.frac_quench_sat_x0_yhitpeak, 12.914), (.frac_quench_sat_ylo_ylotpeak, 0.990),
   (.frac_quench_sat_ylo_yhitpeak, 0.185), (.frac_quench_sat_k, 3.848),
   (.frac_quench_sat_yhi, 0.971), (.mean_ulgm_mseq_xtp, 11.738), (.mean_ulgm_mseq_ytp, 11.530),
   (.mean_ulgm_mseq_lo, 1.144), (.mean_ulgm_mseq_hi, 0.321), (.mean_ulgy_mseq_xtp, 13.700),
   (.mean_ulgy_mseq_ytp, -9.450), (.mean_ulgy_mseq_lo, 0.514), (.mean_ulgy_mseq_hi, -0.689),
   (.mean_ul_mseq_int, -0.413), (.mean_ul_mseq_slp, 0.872), (.mean_uh_mseq_int, -1.221),
   (.mean_uh_mseq_slp, -0.443), (.mean_ulgm_qseq_xtp, 11.300), (.mean_ulgm_qseq_ytp, 11.362),
   (.mean_ulgm_qseq_lo, 1.505), (.mean_ulgm_qseq_hi, 0.340), (.mean_ulgy_qseq_xtp, 12.335),
   (.mean_ulgy_qseq_ytp, -9.903), (.mean_ulgy_qseq_lo, 0.533), (.mean_ulgy_qseq_hi, 0.400),
   (.mean_ul_qseq_int, -0.629), (.mean_ul_qseq_slp, 1.597), (.mean_uh_qseq_int, -0.877),
   (.mean_uh_qseq_slp, -1.015), (.mean_uqt_xtp, 12.141), (.mean_uqt_ytp, 1.035),
   (.mean_uqt_lo, -0.100), (.mean_uqt_hi, -0.100), (.mean_uqs_int, 0.136), (.mean_uqs_slp, -0.008),
   (.mean_udrop_int, -2.077), (.mean_udrop_slp, 0.489), (.mean_urej_int, -1.012),
   (.mean_urej_slp, 0.420), (.std_ulgm_mseq_int, 0.383), (.std_ulgm_mseq_slp, 0.053),
   (.std_ulgy_mseq_int, 0.276), (.std_ulgy_mseq_slp, -0.005), (.std_ul_mseq_int, 1.677),
   (.std_ul_mseq_slp, 0.017), (.std_uh_mseq_int, 1.673), (.std_uh_mseq_slp, -0.196),
   (.std_ulgm_qseq_int, 0.378), (.std_ulgm_qseq_slp, -0.091), (.std_ulgy_qseq_int, 0.281),
   (.std_ulgy_qseq_slp, -0.024), (.std_ul_qseq_int, 1.832), (.std_ul_qseq_slp, -0.537),
   (.std_uh_qseq_int, 1.448), (.std_uh_qseq_slp, -0.102), (.std_uqt_int, 0.129),
   (.std_uqt_slp, 0.069), (.std_uqs_int, 0.560), (.std_uqs_slp, 0.175), (.std_udrop_int, 0.765),
   (.std_udrop_slp, 0.018), (.std_urej_int, 1.222), (.std_urej_slp, -0.118),
   (.delta_uqt_x0, 3.364), (.delta_uqt_k, 4.982), (.delta_uqt_ylo, -0.295),
   (.delta_uqt_yhi, 0.026), (.delta_uqt_slope, -0.003)]

/-- `params/params_diffstarpopfits_mgash_galacticus_in_plus_ex_situ.py`, L83-102, L10-47, L49-68, L70-81, L104-112, merged in that order. -/
def diffstarpopfitsGalacticusInPlusExSitu : List (QF × ℚ) :=
  [(.frac_quench_cen_x0_tpeak, 6.475), (.frac_quench_cen_k_tpeak, 2.287),
   (.frac_quench_cen_x0_ylotpeak, 11.742), (.frac_quench_cen_x0_yhitpeak, 12.605),
   (.frac_quench_cen_ylo_ylotpeak, 0.990), (.frac_quench_cen_ylo_yhitpeak, 0.007),
   (.frac_quench_cen_k, 4.995), (.frac_quench_cen_yhi, 0.997), (.frac_quench_sat_x0_tpeak, 7.617),
   (.frac_quench_sat_k_tpeak, 9.998), (.frac_quench_sat_x0_ylotpeak, 13.994),
   (.frac_quench_sat_x0_yhitpeak, 12.583), (.frac_quench_sat_ylo_ylotpeak, 0.999),
   (.frac_quench_sat_ylo_yhitpeak, 0.665), (.frac_quench_sat_k, 4.995),
   (.frac_quench_sat_yhi, 0.999), (.mean_ulgm_mseq_xtp, 11.986), (.mean_ulgm_mseq_ytp, 11.189),
   (.mean_ulgm_mseq_lo, 0.370), (.mean_ulgm_mseq_hi, 0.147), (.mean_ulgy_mseq_xtp, 12.677),
   (.mean_ulgy_mseq_ytp, -9.236), (.mean_ulgy_mseq_lo, 0.934), (.mean_ulgy_mseq_hi, -2.625),
   (.mean_ul_mseq_int, -2.997), (.mean_ul_mseq_slp, 0.001), (.mean_uh_mseq_int, -0.596),
   (.mean_uh_mseq_slp, 0.708), (.mean_ulgm_qseq_xtp, 13.105), (.mean_ulgm_qseq_ytp, 11.937),
   (.mean_ulgm_qseq_lo, 0.504), (.mean_ulgm_qseq_hi, 0.616), (.mean_ulgy_qseq_xtp, 11.979),
   (.mean_ulgy_qseq_ytp, -9.432), (.mean_ulgy_qseq_lo, 0.995), (.mean_ulgy_qseq_hi, 0.310),
   (.mean_ul_qseq_int, -2.997), (.mean_ul_qseq_slp, -1.731), (.mean_uh_qseq_int, -1.134),
   (.mean_uh_qseq_slp, -0.500), (.mean_uqt_xtp, 12.400), (.mean_uqt_ytp, 1.104),
   (.mean_uqt_lo, -0.053), (.mean_uqt_hi, -0.209), (.mean_uqs_int, 1.676), (.mean_uqs_slp, 0.509),
   (.mean_udrop_int, -2.189), (.mean_udrop_slp, 1.064), (.mean_urej_int, -3.147),
   (.mean_urej_slp, 0.202), (.std_ulgm_mseq_int, 0.011), (.std_ulgm_mseq_slp, -0.081),
   (.std_ulgy_mseq_int, 0.011), (.std_ulgy_mseq_slp, 0.234), (.std_ul_mseq_int, 0.013),
   (.std_ul_mseq_slp, 0.006), (.std_uh_mseq_int, 0.012), (.std_uh_mseq_slp, 0.005),
   (.std_ulgm_qseq_int, 0.037), (.std_ulgm_qseq_slp, 0.030), (.std_ulgy_qseq_int, 0.025),
   (.std_ulgy_qseq_slp, 0.146), (.std_ul_qseq_int, 0.011), (.std_ul_qseq_slp, -0.999),
   (.std_uh_qseq_int, 0.301), (.std_uh_qseq_slp, -0.083), (.std_uqt_int, 0.114),
   (.std_uqt_slp, 0.057), (.std_uqs_int, 0.999), (.std_uqs_slp, 0.930), (.std_udrop_int, 0.512),
   (.std_udrop_slp, 0.280), (.std_urej_int, 0.025), (.std_urej_slp, 0.008), (.delta_uqt_x0, 2.423),
   (.delta_uqt_k, 0.285), (.delta_uqt_ylo, -0.758), (.delta_uqt_yhi, 0.227),
   (.delta_uqt_slope, 0.049)]

/-- `params/params_diffstarpopfits_mgash_galacticus_in_situ.py`, L83-102, L10-47, L49-68, L70-81, L104-112, merged in that order. -/
def diffstarpopfitsGalacticusInSitu : List (QF × ℚ) :=
  [(.frac_quench_cen_x0_tpeak, 6.475), (.frac_quench_cen_k_tpeak, 2.293),
   (.frac_quench_cen_x0_ylotpeak, 11.675), (.frac_quench_cen_x0_yhitpeak, 12.484),
   (.frac_quench_cen_ylo_ylotpeak, 0.990), (.frac_quench_cen_ylo_yhitpeak, 0.001),
   (.frac_quench_cen_k, 4.995), (.frac_quench_cen_yhi, 0.995), (.frac_quench_sat_x0_tpeak, 8.624),
   (.frac_quench_sat_k_tpeak, 2.214), (.frac_quench_sat_x0_ylotpeak, 12.859),
   (.frac_quench_sat_x0_yhitpeak, 12.191), (.frac_quench_sat_ylo_ylotpeak, 0.999),
   (.frac_quench_sat_ylo_yhitpeak, 0.563), (.frac_quench_sat_k, 4.995),
   (.frac_quench_sat_yhi, 0.999), (.mean_ulgm_mseq_xtp, 12.077), (.mean_ulgm_mseq_ytp, 11.198),
   (.mean_ulgm_mseq_lo, 0.324), (.mean_ulgm_mseq_hi, -0.612), (.mean_ulgy_mseq_xtp, 12.708),
   (.mean_ulgy_mseq_ytp, -9.579), (.mean_ulgy_mseq_lo, 0.753), (.mean_ulgy_mseq_hi, -3.358),
   (.mean_ul_mseq_int, -2.739), (.mean_ul_mseq_slp, 8.577), (.mean_uh_mseq_int, 0.164),
   (.mean_uh_mseq_slp, 1.255), (.mean_ulgm_qseq_xtp, 13.525), (.mean_ulgm_qseq_ytp, 12.100),
   (.mean_ulgm_qseq_lo, 0.420), (.mean_ulgm_qseq_hi, 0.423), (.mean_ulgy_qseq_xtp, 12.166),
   (.mean_ulgy_qseq_ytp, -9.571), (.mean_ulgy_qseq_lo, 0.702), (.mean_ulgy_qseq_hi, 0.005),
   (.mean_ul_qseq_int, -2.400), (.mean_ul_qseq_slp, 0.968), (.mean_uh_qseq_int, -0.915),
   (.mean_uh_qseq_slp, -0.459), (.mean_uqt_xtp, 12.555), (.mean_uqt_ytp, 1.035),
   (.mean_uqt_lo, -0.031), (.mean_uqt_hi, -0.589), (.mean_uqs_int, 1.451), (.mean_uqs_slp, 0.307),
   (.mean_udrop_int, -2.247), (.mean_udrop_slp, 1.486), (.mean_urej_int, -1.420),
   (.mean_urej_slp, 1.622), (.std_ulgm_mseq_int, 0.011), (.std_ulgm_mseq_slp, 0.011),
   (.std_ulgy_mseq_int, 0.011), (.std_ulgy_mseq_slp, 0.009), (.std_ul_mseq_int, 1.725),
   (.std_ul_mseq_slp, -0.999), (.std_uh_mseq_int, 0.011), (.std_uh_mseq_slp, -0.981),
   (.std_ulgm_qseq_int, 0.095), (.std_ulgm_qseq_slp, 0.004), (.std_ulgy_qseq_int, 0.011),
   (.std_ulgy_qseq_slp, -0.122), (.std_ul_qseq_int, 2.224), (.std_ul_qseq_slp, -0.412),
   (.std_uh_qseq_int, 0.149), (.std_uh_qseq_slp, -0.996), (.std_uqt_int, 0.077),
   (.std_uqt_slp, 0.045), (.std_uqs_int, 0.857), (.std_uqs_slp, 0.999), (.std_udrop_int, 0.510),
   (.std_udrop_slp, 0.334), (.std_urej_int, 0.020), (.std_urej_slp, 0.010), (.delta_uqt_x0, 1.273),
   (.delta_uqt_k, 0.203), (.delta_uqt_ylo, -0.983), (.delta_uqt_yhi, 0.384),
   (.delta_uqt_slope, 0.025)]

/-- `params/params_diffstarpopfits_mgash_smdpl_dr1.py`, L83-102, L10-47, L49-68, L70-81, L104-112, merged in that order. -/
def diffstarpopfitsSmdplDr1 : List (QF × ℚ) :=
  [(.frac_quench_cen_x0_tpeak, 11.207), (.frac_quench_cen_k_tpeak, 9.998),
   (.frac_quench_cen_x0_ylotpeak, 11.001), (.frac_quench_cen_x0_yhitpeak, 12.606),
   (.frac_quench_cen_ylo_ylotpeak, 0.999), (.frac_quench_cen_ylo_yhitpeak, 0.001),
   (.frac_quench_cen_k, 1.954), (.frac_quench_cen_yhi, 0.999), (.frac_quench_sat_x0_tpeak, 9.372),
   (.frac_quench_sat_k_tpeak, 9.995), (.frac_quench_sat_x0_ylotpeak, 11.810),
   (.frac_quench_sat_x0_yhitpeak, 11.547), (.frac_quench_sat_ylo_ylotpeak, 0.524),
   (.frac_quench_sat_ylo_yhitpeak, 0.001), (.frac_quench_sat_k, 4.995),
   (.frac_quench_sat_yhi, 0.797), (.mean_ulgm_mseq_xtp, 12.842), (.mean_ulgm_mseq_ytp, 12.447),
   (.mean_ulgm_mseq_lo, 0.812), (.mean_ulgm_mseq_hi, 0.285), (.mean_ulgy_mseq_xtp, 11.674),
   (.mean_ulgy_mseq_ytp, -10.608), (.mean_ulgy_mseq_lo, 1.895), (.mean_ulgy_mseq_hi, 0.781),
   (.mean_ul_mseq_int, -2.997), (.mean_ul_mseq_slp, 0.001), (.mean_uh_mseq_int, -4.995),
   (.mean_uh_mseq_slp, -2.820), (.mean_ulgm_qseq_xtp, 11.011), (.mean_ulgm_qseq_ytp, 12.142),
   (.mean_ulgm_qseq_lo, 4.995), (.mean_ulgm_qseq_hi, 0.010), (.mean_ulgy_qseq_xtp, 12.836),
   (.mean_ulgy_qseq_ytp, -9.690), (.mean_ulgy_qseq_lo, 0.602), (.mean_ulgy_qseq_hi, 0.842),
   (.mean_ul_qseq_int, -2.997), (.mean_ul_qseq_slp, 0.001), (.mean_uh_qseq_int, -2.241),
   (.mean_uh_qseq_slp, 0.606), (.mean_uqt_xtp, 13.533), (.mean_uqt_ytp, 1.127),
   (.mean_uqt_lo, -0.011), (.mean_uqt_hi, -0.238), (.mean_uqs_int, 1.028), (.mean_uqs_slp, 2.132),
   (.mean_udrop_int, -2.177), (.mean_udrop_slp, 0.308), (.mean_urej_int, -4.516),
   (.mean_urej_slp, -2.300), (.std_ulgm_mseq_int, 0.074), (.std_ulgm_mseq_slp, -0.106),
   (.std_ulgy_mseq_int, 0.011), (.std_ulgy_mseq_slp, 0.001), (.std_ul_mseq_int, 0.014),
   (.std_ul_mseq_slp, 0.009), (.std_uh_mseq_int, 0.011), (.std_uh_mseq_slp, -0.999),
   (.std_ulgm_qseq_int, 0.243), (.std_ulgm_qseq_slp, -0.162), (.std_ulgy_qseq_int, 0.091),
   (.std_ulgy_qseq_slp, -0.229), (.std_ul_qseq_int, 0.013), (.std_ul_qseq_slp, 0.007),
   (.std_uh_qseq_int, 0.702), (.std_uh_qseq_slp, -0.274), (.std_uqt_int, 0.029),
   (.std_uqt_slp, 0.041), (.std_uqs_int, 0.011), (.std_uqs_slp, 0.001), (.std_udrop_int, 0.599),
   (.std_udrop_slp, -0.868), (.std_urej_int, 0.974), (.std_urej_slp, -0.050),
   (.delta_uqt_x0, 2.173), (.delta_uqt_k, 0.110), (.delta_uqt_ylo, -0.713),
   (.delta_uqt_yhi, 0.217), (.delta_uqt_slope, -0.023)]

/-- `params/params_diffstarpopfits_mgash_smdpl_dr1_nomerging.py`, L83-102, L10-47, L49-68, L70-81, L104-112, merged in that order. -/
def diffstarpopfitsSmdplDr1Nomerging : List (QF × ℚ) :=
  [(.frac_quench_cen_x0_tpeak, 9.731), (.frac_quench_cen_k_tpeak, 9.989),
   (.frac_quench_cen_x0_ylotpeak, 13.998), (.frac_quench_cen_x0_yhitpeak, 13.654),
   (.frac_quench_cen_ylo_ylotpeak, 0.999), (.frac_quench_cen_ylo_yhitpeak, 0.302),
   (.frac_quench_cen_k, 2.169), (.frac_quench_cen_yhi, 0.999), (.frac_quench_sat_x0_tpeak, 9.464),
   (.frac_quench_sat_k_tpeak, 0.587), (.frac_quench_sat_x0_ylotpeak, 11.097),
   (.frac_quench_sat_x0_yhitpeak, 13.986), (.frac_quench_sat_ylo_ylotpeak, 0.501),
   (.frac_quench_sat_ylo_yhitpeak, 0.001), (.frac_quench_sat_k, 4.995),
   (.frac_quench_sat_yhi, 0.999), (.mean_ulgm_mseq_xtp, 12.900), (.mean_ulgm_mseq_ytp, 12.526),
   (.mean_ulgm_mseq_lo, 0.745), (.mean_ulgm_mseq_hi, -0.061), (.mean_ulgy_mseq_xtp, 11.885),
   (.mean_ulgy_mseq_ytp, -10.536), (.mean_ulgy_mseq_lo, 1.644), (.mean_ulgy_mseq_hi, 0.461),
   (.mean_ul_mseq_int, -2.806), (.mean_ul_mseq_slp, -0.321), (.mean_uh_mseq_int, -4.995),
   (.mean_uh_mseq_slp, 1.479), (.mean_ulgm_qseq_xtp, 13.349), (.mean_ulgm_qseq_ytp, 12.240),
   (.mean_ulgm_qseq_lo, 0.345), (.mean_ulgm_qseq_hi, -0.122), (.mean_ulgy_qseq_xtp, 11.938),
   (.mean_ulgy_qseq_ytp, -9.896), (.mean_ulgy_qseq_lo, 0.922), (.mean_ulgy_qseq_hi, 0.450),
   (.mean_ul_qseq_int, -0.597), (.mean_ul_qseq_slp, 0.255), (.mean_uh_qseq_int, -1.440),
   (.mean_uh_qseq_slp, -0.799), (.mean_uqt_xtp, 11.305), (.mean_uqt_ytp, 1.181),
   (.mean_uqt_lo, -0.001), (.mean_uqt_hi, -0.445), (.mean_uqs_int, 0.665), (.mean_uqs_slp, 0.073),
   (.mean_udrop_int, -2.997), (.mean_udrop_slp, 0.960), (.mean_urej_int, -4.668),
   (.mean_urej_slp, 2.971), (.std_ulgm_mseq_int, 0.063), (.std_ulgm_mseq_slp, -0.058),
   (.std_ulgy_mseq_int, 0.057), (.std_ulgy_mseq_slp, 0.246), (.std_ul_mseq_int, 0.871),
   (.std_ul_mseq_slp, -0.999), (.std_uh_mseq_int, 0.011), (.std_uh_mseq_slp, 0.014),
   (.std_ulgm_qseq_int, 0.440), (.std_ulgm_qseq_slp, -0.309), (.std_ulgy_qseq_int, 0.045),
   (.std_ulgy_qseq_slp, 0.119), (.std_ul_qseq_int, 0.762), (.std_ul_qseq_slp, 0.636),
   (.std_uh_qseq_int, 0.011), (.std_uh_qseq_slp, 0.001), (.std_uqt_int, 0.054),
   (.std_uqt_slp, 0.021), (.std_uqs_int, 0.077), (.std_uqs_slp, 0.074), (.std_udrop_int, 0.288),
   (.std_udrop_slp, -0.999), (.std_urej_int, 0.965), (.std_urej_slp, -0.998),
   (.delta_uqt_x0, 1.001), (.delta_uqt_k, 0.578), (.delta_uqt_ylo, -0.569),
   (.delta_uqt_yhi, 0.309), (.delta_uqt_slope, 0.098)]

/-- `params/params_diffstarpopfits_mgash_tng.py`, L80-99, L7-44, L46-65, L67-78, L101-109, merged in that order. -/
def diffstarpopfitsTng : List (QF × ℚ) :=
  [(.frac_quench_cen_x0_tpeak, 13.080), (.frac_quench_cen_k_tpeak, 9.936),
   (.frac_quench_cen_x0_ylotpeak, 12.066), (.frac_quench_cen_x0_yhitpeak, 12.401),
   (.frac_quench_cen_ylo_ylotpeak, 0.999), (.frac_quench_cen_ylo_yhitpeak, 0.001),
   (.frac_quench_cen_k, 4.999), (.frac_quench_cen_yhi, 0.999), (.frac_quench_sat_x0_tpeak, 9.388),
   (.frac_quench_sat_k_tpeak, 9.848), (.frac_quench_sat_x0_ylotpeak, 13.025),
   (.frac_quench_sat_x0_yhitpeak, 12.397), (.frac_quench_sat_ylo_ylotpeak, 0.999),
   (.frac_quench_sat_ylo_yhitpeak, 0.001), (.frac_quench_sat_k, 4.999),
   (.frac_quench_sat_yhi, 0.848), (.mean_ulgm_mseq_xtp, 12.449), (.mean_ulgm_mseq_ytp, 11.897),
   (.mean_ulgm_mseq_lo, 0.992), (.mean_ulgm_mseq_hi, 0.039), (.mean_ulgy_mseq_xtp, 13.459),
   (.mean_ulgy_mseq_ytp, -8.471), (.mean_ulgy_mseq_lo, 1.249), (.mean_ulgy_mseq_hi, 0.465),
   (.mean_ul_mseq_int, -0.714), (.mean_ul_mseq_slp, 3.270), (.mean_uh_mseq_int, -4.088),
   (.mean_uh_mseq_slp, -4.347), (.mean_ulgm_qseq_xtp, 11.073), (.mean_ulgm_qseq_ytp, 11.002),
   (.mean_ulgm_qseq_lo, 3.635), (.mean_ulgm_qseq_hi, 0.551), (.mean_ulgy_qseq_xtp, 12.971),
   (.mean_ulgy_qseq_ytp, -9.536), (.mean_ulgy_qseq_lo, 0.638), (.mean_ulgy_qseq_hi, 0.266),
   (.mean_ul_qseq_int, -2.147), (.mean_ul_qseq_slp, -1.249), (.mean_uh_qseq_int, -1.392),
   (.mean_uh_qseq_slp, -0.790), (.mean_uqt_xtp, 12.107), (.mean_uqt_ytp, 1.084),
   (.mean_uqt_lo, -0.057), (.mean_uqt_hi, -0.519), (.mean_uqs_int, -0.019),
   (.mean_uqs_slp, -0.231), (.mean_udrop_int, -2.999), (.mean_udrop_slp, 2.113),
   (.mean_urej_int, -8.730), (.mean_urej_slp, -0.280), (.std_ulgm_mseq_int, 0.011),
   (.std_ulgm_mseq_slp, 0.049), (.std_ulgy_mseq_int, 0.011), (.std_ulgy_mseq_slp, -0.123),
   (.std_ul_mseq_int, 0.768), (.std_ul_mseq_slp, 0.997), (.std_uh_mseq_int, 0.457),
   (.std_uh_mseq_slp, -0.999), (.std_ulgm_qseq_int, 0.108), (.std_ulgm_qseq_slp, -0.149),
   (.std_ulgy_qseq_int, 0.071), (.std_ulgy_qseq_slp, -0.077), (.std_ul_qseq_int, 0.392),
   (.std_ul_qseq_slp, -0.681), (.std_uh_qseq_int, 0.013), (.std_uh_qseq_slp, 0.432),
   (.std_uqt_int, 0.028), (.std_uqt_slp, -0.013), (.std_uqs_int, 0.075), (.std_uqs_slp, -0.038),
   (.std_udrop_int, 0.463), (.std_udrop_slp, -0.824), (.std_urej_int, 0.131),
   (.std_urej_slp, 0.013), (.delta_uqt_x0, 4.191), (.delta_uqt_k, 0.577), (.delta_uqt_ylo, -0.496),
   (.delta_uqt_yhi, 0.094), (.delta_uqt_slope, -0.048)]

/-- All shipped tables (`params_diffstarfits_mgash.py`, `params_diffstarpopfits_mgash.py`), with the
module name. -/
def shippedTables : List (String × List (QF × ℚ)) :=
  [("params_diffstarfits_mgash_galacticus_in_plus_ex_situ", diffstarfitsGalacticusInPlusExSitu),
   ("params_diffstarfits_mgash_galacticus_in_situ", diffstarfitsGalacticusInSitu),
   ("params_diffstarfits_mgash_smdpl_dr1", diffstarfitsSmdplDr1),
   ("params_diffstarfits_mgash_smdpl_dr1_nomerging", diffstarfitsSmdplDr1Nomerging),
   ("params_diffstarfits_mgash_tng", diffstarfitsTng),
   ("params_diffstarpopfits_mgash_galacticus_in_plus_ex_situ", diffstarpopfitsGalacticusInPlusExSitu),
   ("params_diffstarpopfits_mgash_galacticus_in_situ", diffstarpopfitsGalacticusInSitu),
   ("params_diffstarpopfits_mgash_smdpl_dr1", diffstarpopfitsSmdplDr1),
   ("params_diffstarpopfits_mgash_smdpl_dr1_nomerging", diffstarpopfitsSmdplDr1Nomerging),
   ("params_diffstarpopfits_mgash_tng", diffstarpopfitsTng)]

end Diffstar.Pop
