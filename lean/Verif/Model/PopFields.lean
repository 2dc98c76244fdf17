import Mathlib.Data.Rat.Defs
import Mathlib.Data.Rat.Cast.Defs
import Mathlib.Data.Real.Basic

/-!
Field names, bounds and default values of the DiffstarPop parameter tuples
(`diffstar/diffstarpop/kernels/sfh_pdf_mgash.py`, `satquenchpop_model.py`, `defaults_mgash.py`).

A namedtuple with fields `F` is a function `F → ℝ`; `fields` is the positional order. Numbers are the
decimal literals of the source, kept as exact rationals.
-/

namespace Diffstar.Pop

/-- Fields of `QseqParams`, `sfh_pdf_mgash.py` L240-245, L256 (also `QseqUParams` up to the `u_` prefix,
L260-261). -/
inductive QF where
  | frac_quench_cen_x0_tpeak
  | frac_quench_cen_k_tpeak
  | frac_quench_cen_x0_ylotpeak
  | frac_quench_cen_x0_yhitpeak
  | frac_quench_cen_ylo_ylotpeak
  | frac_quench_cen_ylo_yhitpeak
  | frac_quench_cen_k
  | frac_quench_cen_yhi
  | frac_quench_sat_x0_tpeak
  | frac_quench_sat_k_tpeak
  | frac_quench_sat_x0_ylotpeak
  | frac_quench_sat_x0_yhitpeak
  | frac_quench_sat_ylo_ylotpeak
  | frac_quench_sat_ylo_yhitpeak
  | frac_quench_sat_k
  | frac_quench_sat_yhi
  | mean_ulgm_mseq_xtp
  | mean_ulgm_mseq_ytp
  | mean_ulgm_mseq_lo
  | mean_ulgm_mseq_hi
  | mean_ulgy_mseq_xtp
  | mean_ulgy_mseq_ytp
  | mean_ulgy_mseq_lo
  | mean_ulgy_mseq_hi
  | mean_ul_mseq_int
  | mean_ul_mseq_slp
  | mean_uh_mseq_int
  | mean_uh_mseq_slp
  | mean_ulgm_qseq_xtp
  | mean_ulgm_qseq_ytp
  | mean_ulgm_qseq_lo
  | mean_ulgm_qseq_hi
  | mean_ulgy_qseq_xtp
  | mean_ulgy_qseq_ytp
  | mean_ulgy_qseq_lo
  | mean_ulgy_qseq_hi
  | mean_ul_qseq_int
  | mean_ul_qseq_slp
  | mean_uh_qseq_int
  | mean_uh_qseq_slp
  | mean_uqt_xtp
  | mean_uqt_ytp
  | mean_uqt_lo
  | mean_uqt_hi
  | mean_uqs_int
  | mean_uqs_slp
  | mean_udrop_int
  | mean_udrop_slp
  | mean_urej_int
  | mean_urej_slp
  | std_ulgm_mseq_int
  | std_ulgm_mseq_slp
  | std_ulgy_mseq_int
  | std_ulgy_mseq_slp
  | std_ul_mseq_int
  | std_ul_mseq_slp
  | std_uh_mseq_int
  | std_uh_mseq_slp
  | std_ulgm_qseq_int
  | std_ulgm_qseq_slp
  | std_ulgy_qseq_int
  | std_ulgy_qseq_slp
  | std_ul_qseq_int
  | std_ul_qseq_slp
  | std_uh_qseq_int
  | std_uh_qseq_slp
  | std_uqt_int
  | std_uqt_slp
  | std_uqs_int
  | std_uqs_slp
  | std_udrop_int
  | std_udrop_slp
  | std_urej_int
  | std_urej_slp
  | delta_uqt_x0
  | delta_uqt_k
  | delta_uqt_ylo
  | delta_uqt_yhi
  | delta_uqt_slope
  deriving DecidableEq, Repr

/-- `QseqParams._fields`: key order of `SFH_PDF_QUENCH_PDICT`, `sfh_pdf_mgash.py` L240-245 (the five
dictionaries merged in that order). -/
def QF.fields : List QF :=
  [.frac_quench_cen_x0_tpeak, .frac_quench_cen_k_tpeak, .frac_quench_cen_x0_ylotpeak,
   .frac_quench_cen_x0_yhitpeak, .frac_quench_cen_ylo_ylotpeak, .frac_quench_cen_ylo_yhitpeak,
   .frac_quench_cen_k, .frac_quench_cen_yhi, .frac_quench_sat_x0_tpeak, .frac_quench_sat_k_tpeak,
   .frac_quench_sat_x0_ylotpeak, .frac_quench_sat_x0_yhitpeak, .frac_quench_sat_ylo_ylotpeak,
   .frac_quench_sat_ylo_yhitpeak, .frac_quench_sat_k, .frac_quench_sat_yhi, .mean_ulgm_mseq_xtp,
   .mean_ulgm_mseq_ytp, .mean_ulgm_mseq_lo, .mean_ulgm_mseq_hi, .mean_ulgy_mseq_xtp,
   .mean_ulgy_mseq_ytp, .mean_ulgy_mseq_lo, .mean_ulgy_mseq_hi, .mean_ul_mseq_int,
   .mean_ul_mseq_slp, .mean_uh_mseq_int, .mean_uh_mseq_slp, .mean_ulgm_qseq_xtp,
   .mean_ulgm_qseq_ytp, .mean_ulgm_qseq_lo, .mean_ulgm_qseq_hi, .mean_ulgy_qseq_xtp,
   .mean_ulgy_qseq_ytp, .mean_ulgy_qseq_lo, .mean_ulgy_qseq_hi, .mean_ul_qseq_int,
   .mean_ul_qseq_slp, .mean_uh_qseq_int, .mean_uh_qseq_slp, .mean_uqt_xtp, .mean_uqt_ytp,
   .mean_uqt_lo, .mean_uqt_hi, .mean_uqs_int, .mean_uqs_slp, .mean_udrop_int, .mean_udrop_slp,
   .mean_urej_int, .mean_urej_slp, .std_ulgm_mseq_int, .std_ulgm_mseq_slp, .std_ulgy_mseq_int,
   .std_ulgy_mseq_slp, .std_ul_mseq_int, .std_ul_mseq_slp, .std_uh_mseq_int, .std_uh_mseq_slp,
   .std_ulgm_qseq_int, .std_ulgm_qseq_slp, .std_ulgy_qseq_int, .std_ulgy_qseq_slp,
   .std_ul_qseq_int, .std_ul_qseq_slp, .std_uh_qseq_int, .std_uh_qseq_slp, .std_uqt_int,
   .std_uqt_slp, .std_uqs_int, .std_uqs_slp, .std_udrop_int, .std_udrop_slp, .std_urej_int,
   .std_urej_slp, .delta_uqt_x0, .delta_uqt_k, .delta_uqt_ylo, .delta_uqt_yhi, .delta_uqt_slope]

/-- `SFH_PDF_QUENCH_PBOUNDS`, `sfh_pdf_mgash.py` L247-252, L258; entries L183-200, L64-99, L121-138, L152-161, L232-238. -/
def QF.boundsQ : QF → ℚ × ℚ
  | .frac_quench_cen_x0_tpeak => (1, 14)
  | .frac_quench_cen_k_tpeak => (0.01, 10)
  | .frac_quench_cen_x0_ylotpeak => (11, 14)
  | .frac_quench_cen_x0_yhitpeak => (11, 14)
  | .frac_quench_cen_ylo_ylotpeak => (0, 1)
  | .frac_quench_cen_ylo_yhitpeak => (0, 1)
  | .frac_quench_cen_k => (0.01, 5)
  | .frac_quench_cen_yhi => (0, 1)
  | .frac_quench_sat_x0_tpeak => (1, 14)
  | .frac_quench_sat_k_tpeak => (0.01, 10)
  | .frac_quench_sat_x0_ylotpeak => (11, 14)
  | .frac_quench_sat_x0_yhitpeak => (11, 14)
  | .frac_quench_sat_ylo_ylotpeak => (0, 1)
  | .frac_quench_sat_ylo_yhitpeak => (0, 1)
  | .frac_quench_sat_k => (0.01, 5)
  | .frac_quench_sat_yhi => (0, 1)
  | .mean_ulgm_mseq_xtp => (11, 14)
  | .mean_ulgm_mseq_ytp => (11, 14)
  | .mean_ulgm_mseq_lo => (-1, 5)
  | .mean_ulgm_mseq_hi => (-5, 1)
  | .mean_ulgy_mseq_xtp => (11, 14)
  | .mean_ulgy_mseq_ytp => (-13, -8)
  | .mean_ulgy_mseq_lo => (-1, 5)
  | .mean_ulgy_mseq_hi => (-5, 1)
  | .mean_ul_mseq_int => (-3, 5)
  | .mean_ul_mseq_slp => (-20, 20)
  | .mean_uh_mseq_int => (-5, 3)
  | .mean_uh_mseq_slp => (-20, 20)
  | .mean_ulgm_qseq_xtp => (11, 14)
  | .mean_ulgm_qseq_ytp => (11, 14)
  | .mean_ulgm_qseq_lo => (-1, 5)
  | .mean_ulgm_qseq_hi => (-5, 1)
  | .mean_ulgy_qseq_xtp => (11, 14)
  | .mean_ulgy_qseq_ytp => (-13, -8)
  | .mean_ulgy_qseq_lo => (-1, 5)
  | .mean_ulgy_qseq_hi => (-5, 1)
  | .mean_ul_qseq_int => (-3, 5)
  | .mean_ul_qseq_slp => (-20, 20)
  | .mean_uh_qseq_int => (-5, 3)
  | .mean_uh_qseq_slp => (-20, 20)
  | .mean_uqt_xtp => (11, 14)
  | .mean_uqt_ytp => (0, 2)
  | .mean_uqt_lo => (-1, 0)
  | .mean_uqt_hi => (-1, 0)
  | .mean_uqs_int => (-5, 2)
  | .mean_uqs_slp => (-20, 20)
  | .mean_udrop_int => (-3, 2)
  | .mean_udrop_slp => (-20, 20)
  | .mean_urej_int => (-10, 2)
  | .mean_urej_slp => (-20, 20)
  | .std_ulgm_mseq_int => (0.01, 1)
  | .std_ulgm_mseq_slp => (-1.00, 1)
  | .std_ulgy_mseq_int => (0.01, 1)
  | .std_ulgy_mseq_slp => (-1.00, 1)
  | .std_ul_mseq_int => (0.01, 3)
  | .std_ul_mseq_slp => (-1.00, 1)
  | .std_uh_mseq_int => (0.01, 3)
  | .std_uh_mseq_slp => (-1.00, 1)
  | .std_ulgm_qseq_int => (0.01, 1)
  | .std_ulgm_qseq_slp => (-1.00, 1)
  | .std_ulgy_qseq_int => (0.01, 1)
  | .std_ulgy_qseq_slp => (-1.00, 1)
  | .std_ul_qseq_int => (0.01, 3)
  | .std_ul_qseq_slp => (-1.00, 1)
  | .std_uh_qseq_int => (0.01, 3)
  | .std_uh_qseq_slp => (-1.00, 1)
  | .std_uqt_int => (0.01, 0.5)
  | .std_uqt_slp => (-1.00, 1)
  | .std_uqs_int => (0.01, 1)
  | .std_uqs_slp => (-1.00, 1)
  | .std_udrop_int => (0.01, 2)
  | .std_udrop_slp => (-1.00, 1)
  | .std_urej_int => (0.01, 2)
  | .std_urej_slp => (-1.00, 1)
  | .delta_uqt_x0 => (1, 14)
  | .delta_uqt_k => (0.01, 5)
  | .delta_uqt_ylo => (-1, 1)
  | .delta_uqt_yhi => (-1, 1)
  | .delta_uqt_slope => (-0.1, 0.1)

/-- `SFH_PDF_QUENCH_PDICT`, `sfh_pdf_mgash.py` L240-245; entries L163-182, L26-63, L101-120, L140-151, L223-231. -/
def QF.defaultPdict : List (QF × ℚ) :=
  [(.frac_quench_cen_x0_tpeak, 9.731), (.frac_quench_cen_k_tpeak, 9.989),
   (.frac_quench_cen_x0_ylotpeak, 13.998), (.frac_quench_cen_x0_yhitpeak, 13.654),
   (.frac_quench_cen_ylo_ylotpeak, 0.999), (.frac_quench_cen_ylo_yhitpeak, 0.302),
   (.frac_quench_cen_k, 2.169), (.frac_quench_cen_yhi, 0.999), (.frac_quench_sat_x0_tpeak, 9.464),
   (.frac_quench_sat_k_tpeak, 0.587), (.frac_quench_sat_x0_ylotpeak, 11.097),
   (.frac_quench_sat_x0_yhitpeak, 13.986), (.frac_quench_sat_ylo_ylotpeak, 0.501),
   (.frac_quench_sat_ylo_yhitpeak, 0.001), (.frac_quench_sat_k, 4.995),
   (.frac_quench_sat_yhi, 0.999), (.mean_ulgm_mseq_xtp, 12.900), (.mean_ulgm_mseq_ytp, 12.526),
   (.mean_ulgm_mseq_lo, 0.745), (.mean_ulgm_mseq_hi, -0.061), (.mean_ulgy_mseq_xtp, 11.885),
   (.mean_ulgy_mseq_ytp, -10.536), (.mean_ulgy_mseq_lo, 1.644), (.mean_ulgy_mseq_hi, 0.461),
   (.mean_ul_mseq_int, -2.806), (.mean_ul_mseq_slp, -0.321), (.mean_uh_mseq_int, -4.995),
   (.mean_uh_mseq_slp, 1.479), (.mean_ulgm_qseq_xtp, 13.349), (.mean_ulgm_qseq_ytp, 12.240),
   (.mean_ulgm_qseq_lo, 0.345), (.mean_ulgm_qseq_hi, -0.122), (.mean_ulgy_qseq_xtp, 11.938),
   (.mean_ulgy_qseq_ytp, -9.896), (.mean_ulgy_qseq_lo, 0.922), (.mean_ulgy_qseq_hi, 0.450),
   (.mean_ul_qseq_int, -0.597), (.mean_ul_qseq_slp, 0.255), (.mean_uh_qseq_int, -1.440),
   (.mean_uh_qseq_slp, -0.799), (.mean_uqt_xtp, 11.305), (.mean_uqt_ytp, 1.181),
   (.mean_uqt_lo, -0.001), (.mean_uqt_hi, -0.445), (.mean_uqs_int, 0.665), (.mean_uqs_slp, 0.073),
   (.mean_udrop_int, -2.997), (.mean_udrop_slp, 0.960), (.mean_urej_int, -4.668),
   (.mean_urej_slp, 2.971), (.std_ulgm_mseq_int, 0.063), (.std_ulgm_mseq_slp, -0.058),
   (.std_ulgy_mseq_int, 0.057), (.std_ulgy_mseq_slp, 0.246), (.std_ul_mseq_int, 0.871),
   (.std_ul_mseq_slp, -0.999), (.std_uh_mseq_int, 0.011), (.std_uh_mseq_slp, 0.014),
   (.std_ulgm_qseq_int, 0.440), (.std_ulgm_qseq_slp, -0.309), (.std_ulgy_qseq_int, 0.045),
   (.std_ulgy_qseq_slp, 0.119), (.std_ul_qseq_int, 0.762), (.std_ul_qseq_slp, 0.636),
   (.std_uh_qseq_int, 0.011), (.std_uh_qseq_slp, 0.001), (.std_uqt_int, 0.054),
   (.std_uqt_slp, 0.021), (.std_uqs_int, 0.077), (.std_uqs_slp, 0.074), (.std_udrop_int, 0.288),
   (.std_udrop_slp, -0.999), (.std_urej_int, 0.965), (.std_urej_slp, -0.998),
   (.delta_uqt_x0, 1.001), (.delta_uqt_k, 0.578), (.delta_uqt_ylo, -0.569),
   (.delta_uqt_yhi, 0.309), (.delta_uqt_slope, 0.098)]

/-- Fields of `SatQuenchPopParams`, `satquenchpop_model.py` L20-30. -/
inductive SF where
  | qp_lgmh_crit
  | td_lgmhc
  | td_mlo
  | td_mhi
  | qphi_lgmu_crit
  | lgmu_lo_mh_lo
  | lgmu_hi_mh_lo
  | lgmu_lo_mh_hi
  | lgmu_hi_mh_hi
  deriving DecidableEq, Repr

/-- `SatQuenchPopParams._fields`, `satquenchpop_model.py` L31. -/
def SF.fields : List SF :=
  [.qp_lgmh_crit, .td_lgmhc, .td_mlo, .td_mhi, .qphi_lgmu_crit, .lgmu_lo_mh_lo, .lgmu_hi_mh_lo,
   .lgmu_lo_mh_hi, .lgmu_hi_mh_hi]

/-- `SATQUENCHPOP_PBOUNDS`, `satquenchpop_model.py` L39-49, L50. -/
def SF.boundsQ : SF → ℚ × ℚ
  | .qp_lgmh_crit => (11, 15)
  | .td_lgmhc => (11, 15)
  | .td_mlo => (-5, 10)
  | .td_mhi => (-5, 10)
  | .qphi_lgmu_crit => (-4, -0.1)
  | .lgmu_lo_mh_lo => (0, 1)
  | .lgmu_hi_mh_lo => (0, 1)
  | .lgmu_lo_mh_hi => (0, 1)
  | .lgmu_hi_mh_hi => (0, 1)

/-- `DEFAULT_SATQUENCHPOP_PDICT`, `satquenchpop_model.py` L20-30. -/
def SF.defaultPdict : List (SF × ℚ) :=
  [(.qp_lgmh_crit, 13), (.td_lgmhc, 13), (.td_mlo, 2), (.td_mhi, -0.5), (.qphi_lgmu_crit, -1.5),
   (.lgmu_lo_mh_lo, 0.1), (.lgmu_hi_mh_lo, 0.5), (.lgmu_lo_mh_hi, 0.5), (.lgmu_hi_mh_hi, 0.9)]

/-- Field names of `QseqParams` as strings. -/
def QF.name : QF → String
  | .frac_quench_cen_x0_tpeak => "frac_quench_cen_x0_tpeak"
  | .frac_quench_cen_k_tpeak => "frac_quench_cen_k_tpeak"
  | .frac_quench_cen_x0_ylotpeak => "frac_quench_cen_x0_ylotpeak"
  | .frac_quench_cen_x0_yhitpeak => "frac_quench_cen_x0_yhitpeak"
  | .frac_quench_cen_ylo_ylotpeak => "frac_quench_cen_ylo_ylotpeak"
  | .frac_quench_cen_ylo_yhitpeak => "frac_quench_cen_ylo_yhitpeak"
  | .frac_quench_cen_k => "frac_quench_cen_k"
  | .frac_quench_cen_yhi => "frac_quench_cen_yhi"
  | .frac_quench_sat_x0_tpeak => "frac_quench_sat_x0_tpeak"
  | .frac_quench_sat_k_tpeak => "frac_quench_sat_k_tpeak"
  | .frac_quench_sat_x0_ylotpeak => "frac_quench_sat_x0_ylotpeak"
  | .frac_quench_sat_x0_yhitpeak => "frac_quench_sat_x0_yhitpeak"
  | .frac_quench_sat_ylo_ylotpeak => "frac_quench_sat_ylo_ylotpeak"
  | .frac_quench_sat_ylo_yhitpeak => "frac_quench_sat_ylo_yhitpeak"
  | .frac_quench_sat_k => "frac_quench_sat_k"
  | .frac_quench_sat_yhi => "frac_quench_sat_yhi"
  | .mean_ulgm_mseq_xtp => "mean_ulgm_mseq_xtp"
  | .mean_ulgm_mseq_ytp => "mean_ulgm_mseq_ytp"
  | .mean_ulgm_mseq_lo => "mean_ulgm_mseq_lo"
  | .mean_ulgm_mseq_hi => "mean_ulgm_mseq_hi"
  | .mean_ulgy_mseq_xtp => "mean_ulgy_mseq_xtp"
  | .mean_ulgy_mseq_ytp => "mean_ulgy_mseq_ytp"
  | .mean_ulgy_mseq_lo => "mean_ulgy_mseq_lo"
  | .mean_ulgy_mseq_hi => "mean_ulgy_mseq_hi"
  | .mean_ul_mseq_int => "mean_ul_mseq_int"
  | .mean_ul_mseq_slp => "mean_ul_mseq_slp"
  | .mean_uh_mseq_int => "mean_uh_mseq_int"
  | .mean_uh_mseq_slp => "mean_uh_mseq_slp"
  | .mean_ulgm_qseq_xtp => "mean_ulgm_qseq_xtp"
  | .mean_ulgm_qseq_ytp => "mean_ulgm_qseq_ytp"
  | .mean_ulgm_qseq_lo => "mean_ulgm_qseq_lo"
  | .mean_ulgm_qseq_hi => "mean_ulgm_qseq_hi"
  | .mean_ulgy_qseq_xtp => "mean_ulgy_qseq_xtp"
  | .mean_ulgy_qseq_ytp => "mean_ulgy_qseq_ytp"
  | .mean_ulgy_qseq_lo => "mean_ulgy_qseq_lo"
  | .mean_ulgy_qseq_hi => "mean_ulgy_qseq_hi"
  | .mean_ul_qseq_int => "mean_ul_qseq_int"
  | .mean_ul_qseq_slp => "mean_ul_qseq_slp"
  | .mean_uh_qseq_int => "mean_uh_qseq_int"
  | .mean_uh_qseq_slp => "mean_uh_qseq_slp"
  | .mean_uqt_xtp => "mean_uqt_xtp"
  | .mean_uqt_ytp => "mean_uqt_ytp"
  | .mean_uqt_lo => "mean_uqt_lo"
  | .mean_uqt_hi => "mean_uqt_hi"
  | .mean_uqs_int => "mean_uqs_int"
  | .mean_uqs_slp => "mean_uqs_slp"
  | .mean_udrop_int => "mean_udrop_int"
  | .mean_udrop_slp => "mean_udrop_slp"
  | .mean_urej_int => "mean_urej_int"
  | .mean_urej_slp => "mean_urej_slp"
  | .std_ulgm_mseq_int => "std_ulgm_mseq_int"
  | .std_ulgm_mseq_slp => "std_ulgm_mseq_slp"
  | .std_ulgy_mseq_int => "std_ulgy_mseq_int"
  | .std_ulgy_mseq_slp => "std_ulgy_mseq_slp"
  | .std_ul_mseq_int => "std_ul_mseq_int"
  | .std_ul_mseq_slp => "std_ul_mseq_slp"
  | .std_uh_mseq_int => "std_uh_mseq_int"
  | .std_uh_mseq_slp => "std_uh_mseq_slp"
  | .std_ulgm_qseq_int => "std_ulgm_qseq_int"
  | .std_ulgm_qseq_slp => "std_ulgm_qseq_slp"
  | .std_ulgy_qseq_int => "std_ulgy_qseq_int"
  | .std_ulgy_qseq_slp => "std_ulgy_qseq_slp"
  | .std_ul_qseq_int => "std_ul_qseq_int"
  | .std_ul_qseq_slp => "std_ul_qseq_slp"
  | .std_uh_qseq_int => "std_uh_qseq_int"
  | .std_uh_qseq_slp => "std_uh_qseq_slp"
  | .std_uqt_int => "std_uqt_int"
  | .std_uqt_slp => "std_uqt_slp"
  | .std_uqs_int => "std_uqs_int"
  | .std_uqs_slp => "std_uqs_slp"
  | .std_udrop_int => "std_udrop_int"
  | .std_udrop_slp => "std_udrop_slp"
  | .std_urej_int => "std_urej_int"
  | .std_urej_slp => "std_urej_slp"
  | .delta_uqt_x0 => "delta_uqt_x0"
  | .delta_uqt_k => "delta_uqt_k"
  | .delta_uqt_ylo => "delta_uqt_ylo"
  | .delta_uqt_yhi => "delta_uqt_yhi"
  | .delta_uqt_slope => "delta_uqt_slope"

/-- Field names of `SatQuenchPopParams` as strings. -/
def SF.name : SF → String
  | .qp_lgmh_crit => "qp_lgmh_crit"
  | .td_lgmhc => "td_lgmhc"
  | .td_mlo => "td_mlo"
  | .td_mhi => "td_mhi"
  | .qphi_lgmu_crit => "qphi_lgmu_crit"
  | .lgmu_lo_mh_lo => "lgmu_lo_mh_lo"
  | .lgmu_hi_mh_lo => "lgmu_hi_mh_lo"
  | .lgmu_lo_mh_hi => "lgmu_lo_mh_hi"
  | .lgmu_hi_mh_hi => "lgmu_hi_mh_hi"

end Diffstar.Pop
