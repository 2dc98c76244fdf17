{
 "claims": [
  {
   "property": "C01",
   "status": "proved",
   "theorems": [
    "Diffstar.Props.C01_bounded_params_in_bounds"
   ],
   "note": "C01: the bounded parameters lie strictly inside the documented box, whatever the unbounded vector."
  },
  {
   "property": "C02",
   "status": "proved",
   "theorems": [
    "Diffstar.Props.C02_unbounded_of_bounded",
    "Diffstar.Props.C02_bounded_of_unbounded",
    "Diffstar.Props.C02_bounded_bijective_onto_box"
   ],
   "note": "C02 (first half): unbounding undoes bounding for every real 8-vector. | C02 (second half): bounding undoes unbounding for every in-bounds vector. | Consequence of C01 and C02: bounding is a bijection from all real 8-vectors onto the open box."
  },
  {
   "property": "C03",
   "status": "proved",
   "theorems": [
    "Diffstar.Props.C03_bounding_strictly_monotone"
   ],
   "note": "C03: seven bounded parameters are strictly increasing functions of their own unbounded counterpart alone; `lg_rejuv` is strictly increasing in `u_lg_rejuv` at fixed `u_lg_drop` and in `u_lg_drop` at fixed `u_lg_rejuv`. (`\u2194` with `<` in both orders also gives equality when the coordinate is equal, i.e. independence from the other coordinates.)"
  },
  {
   "property": "C04",
   "status": "proved",
   "theorems": [
    "Diffstar.Props.C04_sfr_floor"
   ],
   "note": "C04: the SFR floor, for all four public functions, for every input with positive times (at `t \u2264 0` the code takes `log10` of a non-positive number and returns NaN)."
  },
  {
   "property": "C05",
   "status": "proved",
   "theorems": [
    "Diffstar.Props.C05_quenching_range",
    "Diffstar.Props.C05_u_params_version",
    "Diffstar.Props.C05_u_params_of_bounded"
   ],
   "note": "C05: plateaus and range of the quenching factor. | C05 for `_quenching_kern_u_params`: the event has the bounded parameters, its full duration is `10  qlglgdt`, and the factor lies in `(10  -3, 1]` for all unbounded parameters. | C05 for `_quenching_kern_u_params` with the unbounded version of an allowed event."
  },
  {
   "property": "C06",
   "status": "proved",
   "theorems": [
    "Diffstar.Props.C06_quenching_shape"
   ],
   "note": "C06: the quenching factor falls until the quenching time and rises afterwards (strictly inside the event), and is differentiable in time everywhere, in particular continuous."
  },
  {
   "property": "C07",
   "status": "proved",
   "theorems": [
    "Diffstar.Props.C07_quenching_only_reduces"
   ],
   "note": "C07: with parameters obtained from any unbounded vector, at every time of the table the returned SFR is at most `max(1e-14, main-sequence SFR)`, is at least `10  lg_drop` times the main sequence, and equals `max(1e-14, main-sequence SFR)` until the quenching event starts."
  },
  {
   "property": "C08",
   "status": "proved",
   "theorems": [
    "Diffstar.Props.C08_unquenched_within_one_percent",
    "Diffstar.Props.C08_unquenched_sfh"
   ],
   "note": "C08: the quenching parameters of the main-sequence branch change the SFR by less than 1% at every time. | C08 at the level of the SFH: a galaxy with the unquenched quenching parameters has, at every time, an SFR within 1% of (and not above) the main sequence, up to the floor."
  },
  {
   "property": "C09",
   "status": "proved",
   "theorems": [
    "Diffstar.Props.C09_efficiency_bound",
    "Diffstar.Props.C09_sfr_upper_bound"
   ],
   "note": "C09: pivot value and sharp global bound of the main-sequence efficiency. | C09, consequence for users: with bounded parameters no galaxy at any time forms stars faster than `max(1e-14, fb  Mh  10  (lgy_at_mcrit + 5/27))`."
  },
  {
   "property": "C10",
   "status": "proved",
   "theorems": [
    "Diffstar.Props.C10_fb_scaling",
    "Diffstar.Props.C10_fb_monotone_and_linear"
   ],
   "note": "C10: for each galaxy and time there is a positive number `S`, independent of `fb`, such that the SFR is `max(1e-14, fb  S)` for every `fb`. | C10, consequences: monotone in `fb`; above the floor scaling `fb` by `c` scales the SFR by `c`."
  },
  {
   "property": "C11",
   "status": "proved",
   "theorems": [
    "Diffstar.Props.C11_smh_is_integral"
   ],
   "note": "C11: the stellar mass formed at table time `t[i]` is `1e9` times the integral, from `T_BIRTH_MIN = 0.001` to `t[i]`, of the linear interpolant of the SFH table extended by the point `(0.001, 1e-14)`."
  },
  {
   "property": "C12",
   "status": "proved",
   "theorems": [
    "Diffstar.Props.C12_smh_increasing",
    "Diffstar.Props.C12_galaxy_smh_increasing"
   ],
   "note": "C12 for tables: positive SFH gives a positive, strictly increasing mass history; non-negative SFH a non-negative, non-decreasing one. | C12 for the public functions: the returned stellar mass history is positive and strictly increasing for every halo, every parameter vector and every increasing table after `T_BIRTH_MIN`."
  },
  {
   "property": "C13",
   "status": "proved",
   "theorems": [
    "Diffstar.Props.C13_causal_prefix",
    "Diffstar.Props.C13_increment_local"
   ],
   "note": "C13 (prefix form): cutting both tables at any `k` cuts the mass history at `k`. | C13 (locality form): the mass formed between consecutive table times only depends on the two times and the two rates: `1e9 (t[i+1]-t[i]) (sfh[i+1]+sfh[i]) / 2`."
  },
  {
   "property": "C14",
   "status": "partial",
   "theorems": [
    "Diffstar.Props.C14_first_mass_partial",
    "Diffstar.Props.C14_documented_first_mass_violated"
   ],
   "note": "The documented constant SFR_MIN before the table is false: the code integrates a linear ramp from SFR_MIN to the first SFR; the value the code does give is proved."
  },
  {
   "property": "C15",
   "status": "proved",
   "theorems": [
    "Diffstar.Props.C15_galpop_rows",
    "Diffstar.Props.C15_no_interference"
   ],
   "note": "C15: population calls are galaxy-by-galaxy calls (SFH, SMH and all four gas outputs). | C15, non-interference: galaxies with equal inputs in two populations get equal outputs, whatever the other galaxies are."
  },
  {
   "property": "C16",
   "status": "proved",
   "theorems": [
    "Diffstar.Props.C16_return_smh"
   ],
   "note": "C16: `return_smh=True` returns the same SFH, and its SMH is `cumulative_mstar_formed` of it; lengths match the time table; for single galaxies and populations."
  },
  {
   "property": "C17",
   "status": "proved",
   "theorems": [
    "Diffstar.Props.C17_gas_budget",
    "Diffstar.Props.C17_gas_is_integral"
   ],
   "note": "C17 (budget): gas plus stars equals the accreted baryons `cumulative(fb dMh/dt)` at every time. | C17 (integral form): the gas mass at `t[i]` is `1e9` times the integral from `0.001` to `t[i]` of the linear interpolant of `fb dMh/dt - SFR`, which starts from zero at `0.001` (the SFR floor used to pad both tables cancels)."
  },
  {
   "property": "C18",
   "status": "partial",
   "theorems": [
    "Diffstar.Props.C18_gas_nonneg_partial",
    "Diffstar.Props.C18_gas_nonneg_violated"
   ],
   "note": "False in general (witness proved); holds whenever the SFR never exceeds the accretion rate."
  },
  {
   "property": "C19",
   "status": "proved",
   "theorems": [
    "Diffstar.Props.C19_net_gas_rate"
   ],
   "note": "C19: the net gas rate is the centred difference of the gas mass at interior times and the forward difference at the first; if the gas mass is affine in time with slope `c` Msun/yr then the rate is `c` at every entry, including the last."
  },
  {
   "property": "C20",
   "status": "proved",
   "theorems": [
    "Diffstar.Props.C20_dt_implementations_agree",
    "Diffstar.Props.C20_dt_tiles",
    "Diffstar.Props.C20_dt_short_table_raises"
   ],
   "note": "C20 (agreement): the loop and the vectorised time-step functions agree for every table with at least three entries. | C20 (tiling): for tables with at least two entries the loop version returns one width per entry; the first `k+1` bins reach exactly the midpoint of `t[k]` and `t[k+1]` starting from `t[0] - (t[1]-t[0])/2`; all widths are positive for increasing tables, and the last bin ends at `t[-1] + dt[-2]/2`. | C20 (error branch): with fewer than two entries the loop version raises."
  },
  {
   "property": "C21",
   "status": "proved",
   "theorems": [
    "Diffstar.Props.C21_fstar_between_zero_and_max",
    "Diffstar.Props.C21_fstar_of_constant",
    "Diffstar.Props.C21_fstar_is_window_average"
   ],
   "note": "C21 (bounds): for an SFH with values in `[0, S]`, every time-averaged SFR lies in `[0, S]`, and it is the mass gained over the window divided by the window, i.e. the clip at zero never acts. | C21 (constant SFH): if the SFR is constantly `c`, every average whose window starts inside the table is exactly `c`. | C21 (meaning): when the window starts at a table time, the reported value is the true time average `(1/\u03c4) \u222b SFR` of the linearly interpolated SFH."
  },
  {
   "property": "C22",
   "status": "partial",
   "theorems": [
    "Diffstar.Props.C22_fstar_positive_violated",
    "Diffstar.Props.C22_fstar_positive_partial"
   ],
   "note": "False at table entry 0, where the averaged SFR is exactly 0 for every input (violation); positive at every later entry for positive SFH."
  },
  {
   "property": "C23",
   "status": "proved",
   "theorems": [
    "Diffstar.Props.C23_triweight_is_cdf",
    "Diffstar.Props.C23_triweight_density",
    "Diffstar.Props.C23_triweight_implementations_agree"
   ],
   "note": "C23 (shape): for width `h > 0` the triweight cumulative kernel is `0` up to three widths below the centre, `1` from three widths above, strictly increasing in between, monotone everywhere, within `[0, 1]` and symmetric about the centre. | C23 (smoothness): everywhere differentiable in `x`, with derivative the triweight density `(35/96)(1 - z\u00b2/9)\u00b3 / h` for `|z| \u2264 3`, zero outside; hence continuous. | C23 (agreement): the kernels in `diffstar/utils.py`, `diffstarpop/utils.py`, `sumstats/diffndhist.py` and `kernels/quenching_kernels.py` are the same function."
  },
  {
   "property": "C24",
   "status": "proved",
   "theorems": [
    "Diffstar.Props.C24_bin_weights_agree",
    "Diffstar.Props.C24_bin_weight_is_probability",
    "Diffstar.Props.C24_bin_weights_sum"
   ],
   "note": "C24 (implementations): integrating the kernel centred on the point over the bin (`tw_bin_jax_kern`) gives the same weight as the point-versus-edges form used by the histograms. | C24 (a probability): non-negative for `lo \u2264 hi`, at most one, additive over adjacent bins, and positive exactly when the bin overlaps the open support `(x - 3h, x + 3h)` of the point. | C24 (completeness): the weights over contiguous bins with edges `e 0, \u2026, e n` sum to at most one, and to exactly one when the edges cover `[x - 3h, x + 3h]`."
  },
  {
   "property": "C25",
   "status": "proved",
   "theorems": [
    "Diffstar.Props.C25_ndhist_linear_nonneg",
    "Diffstar.Props.C25_ndhist_additive",
    "Diffstar.Props.C25_ndhist_conserves_weight"
   ],
   "note": "C25 (weights): `tw_ndhist` is `tw_ndhist_weighted` with unit weights; the weighted histogram is linear in the weights, and non-negative for non-negative weights and properly ordered bins. | C25 (catalogs): the histogram of two concatenated catalogs is the sum of their histograms, and reordering the rows of a catalog (data, scatter and weights together) changes nothing. | C25 (conservation): over a full product grid with `nb k` contiguous bins along dimension `k`, the total histogram never exceeds the total (non-negative) weight, and equals it when every point is at least three widths inside the grid in every dimension."
  },
  {
   "property": "C26",
   "status": "proved",
   "theorems": [
    "Diffstar.Props.C26_smhm_between_min_max",
    "Diffstar.Props.C26_smhm_affine",
    "Diffstar.Props.C26_smhm_undefined_iff"
   ],
   "note": "C26 (mean): in every bin with a defined value, `compute_smhm` lies between any lower and upper bound of the catalog's `logsm` (in particular between its minimum and maximum). | C26 (affine): shifting and scaling all `logsm` shifts and scales the relation, and does not change which bins are defined. | C26 (definedness): the value is undefined exactly when no halo overlaps the bin within three scatters."
  },
  {
   "property": "C27",
   "status": "proved",
   "theorems": [
    "Diffstar.Props.C27_weights_sum",
    "Diffstar.Props.C27_mstar_pdf",
    "Diffstar.Props.C27_joint_pdf",
    "Diffstar.Props.C27_conditional_pdf",
    "Diffstar.Props.C27_observables_positive"
   ],
   "note": "galaxy `i` enters twice, in the main-sequence half with weight `1 - frac_q` and in the quenched half with weight `frac_q`; the weights of `n` halos sum to `n`. | the predicted `P(M)` of every target bin is non-negative and sums to one, and is the mixture in which each galaxy has weight `1 - frac_q` on its main-sequence mass and `frac_q` on its quenched mass; it is NaN exactly when some draw is NaN or no galaxy mass is within three bin widths of the mass range. | the joint `P(M, sSFR)` of a target bin is non-negative, sums to one over the flat bins, and is the mixture of both branches with weights `1 - frac_q` and `frac_q`, for every choice of bins with `lo \u2264 hi`. | each row of the predicted `P(sSFR | M)` (one redshift, one target stellar mass) either is entirely NaN or is non-negative, sums to one, and is proportional to the mean of the joint PDFs of the halo bins of that redshift, weigh"
  },
  {
   "property": "C28",
   "status": "proved",
   "theorems": [
    "Diffstar.Props.C28_mse",
    "Diffstar.Props.C28_loss_mstar",
    "Diffstar.Props.C28_loss_ssfr",
    "Diffstar.Props.C28_combined_losses"
   ],
   "note": "the mean squared error over a non-empty NaN-free prediction is non-negative and is zero exactly if the prediction equals the target everywhere; its value is the mean of the squared differences; it is NaN exactly if the arrays are empty or the prediction has a NaN. | the stellar-mass loss is non-negative and zero exactly if the predicted PDFs equal the targets in every halo bin and mass bin. It is 1000 times the mean squared error. | the same for the sSFR losses (centrals and satellites). | the combined losses are the sums of their parts; they are defined exactly if all parts are, non-negative, and zero exactly if all parts are zero."
  },
  {
   "property": "C29",
   "status": "proved",
   "theorems": [
    "Diffstar.Props.C29_frac_quench_in_unit_interval"
   ],
   "note": "C29: the quenched fraction used by the Monte Carlo generator is a probability strictly between 0 and 1, for centrals and satellites."
  },
  {
   "property": "C30",
   "status": "proved",
   "theorems": [
    "Diffstar.Props.C30_qprob_sat_between",
    "Diffstar.Props.C30_qprob_sat_mono_time",
    "Diffstar.Props.C30_qprob_sat_mono_qcen",
    "Diffstar.Props.C30_qprob_sat_central_value"
   ],
   "note": "C30: satellite quenching only adds. | C30: the satellite quenched fraction never decreases with time since infall (strictly increases when the central fraction is below one). | C30: the satellite quenched fraction increases with the central one. | C30: the conventional central value `gyr_since_infall = -100` leaves the fraction unchanged to 1e-100."
  },
  {
   "property": "C31",
   "status": "proved",
   "theorems": [
    "Diffstar.Props.C31_central_equals_cen_kernel",
    "Diffstar.Props.C31_centrals_ignore_infall",
    "Diffstar.Props.C31_centrals_ignore_infall_galpop"
   ],
   "note": "C31: for centrals (`upid = -1`) the kernel equals the central-only kernel with the same key. | C31: infall arguments of centrals are irrelevant, for parameters and for star formation histories. | C31 for populations: changing the infall arguments of the centrals only changes nothing for the whole population."
  },
  {
   "property": "C32",
   "status": "proved",
   "theorems": [
    "Diffstar.Props.C32_flag_iff_draw_below",
    "Diffstar.Props.C32_flag_monotone",
    "Diffstar.Props.C32_mc_params_in_bounds"
   ],
   "note": "C32: the flag is set exactly when the uniform draw (from the fourth sub-key) is below the returned quenched fraction. | C32: with the same key, a larger quenched fraction never turns a quenched galaxy into an unquenched one, however the fraction was raised (parameters, mass, infall, ...). | C32: every parameter set returned (NaN-free) is strictly inside the Diffstar bounds, whatever the sampler drew."
  },
  {
   "property": "C33",
   "status": "proved",
   "theorems": [
    "Diffstar.Props.C33_galpop_params_eq_single",
    "Diffstar.Props.C33_galpop_sfh_eq_single",
    "Diffstar.Props.C33_draws_use_separate_keys"
   ],
   "note": "C33: galaxy `i` of a Monte Carlo population is the single-galaxy result with galaxy `i`'s inputs and the `i`-th split key. | C33 for star formation histories. | C33: the draws of one galaxy use separate sub-keys. Two random generators that split keys alike give (1) the same main-sequence set if they agree on sub-key 0, (2) the same first four quenched-sequence parameters if they agree on sub-key 1, (3) the same last four if they agree on sub-key 2, (4) the same flag if they agree on sub-key 3 -- regardless of what they draw from the other keys."
  },
  {
   "property": "C34",
   "status": "proved",
   "theorems": [
    "Diffstar.Props.C34_select_whole_sets",
    "Diffstar.Props.C34_select_preserves_bounds",
    "Diffstar.Props.C34_select_commutes_with_sfh"
   ],
   "note": "C34: each galaxy gets a whole parameter set: all eight values from `p1` or all eight from `p0`. | C34: selection preserves bounds. | C34: selecting before computing star formation histories equals selecting the histories."
  },
  {
   "property": "C35",
   "status": "partial",
   "theorems": [
    "Diffstar.Props.C35_covariances_valid_partial",
    "Diffstar.Props.C35_zero_slope_violated",
    "Diffstar.Props.C35_covariance_entries"
   ],
   "note": "Holds whenever the std slopes are non-zero; an exactly zero slope gives 0/0 (violation proved)."
  },
  {
   "property": "C36",
   "status": "partial",
   "theorems": [
    "Diffstar.Props.C36_clipped_line_above_lower_partial",
    "Diffstar.Props.C36_clipped_line_in_bounds_partial",
    "Diffstar.Props.C36_clipped_line_upper_violated",
    "Diffstar.Props.C36_clipped_line_flat_violated"
   ],
   "note": "Lower bound for every non-zero slope; both bounds when y0 is less than 71 times closer to y_hi than to y_lo. From a ratio of 72 on the line exceeds y_hi for every non-zero slope, and a zero slope is 0/0."
  },
  {
   "property": "C37",
   "status": "proved",
   "theorems": [
    "Diffstar.Props.C37_bounded_pop_params_in_bounds",
    "Diffstar.Props.C37_unbounded_of_bounded",
    "Diffstar.Props.C37_bounded_of_unbounded",
    "Diffstar.Props.C37_fields_not_permuted"
   ],
   "note": "C37: every unbounded vector is mapped strictly inside the published bounds. | C37: bounding followed by unbounding is the identity on all 88 fields. | C37: unbounding followed by bounding is the identity on in-bounds vectors. | C37: no permutation of names: the bounded value of a field is a strictly increasing function of the unbounded value of that field alone."
  },
  {
   "property": "C38",
   "status": "proved",
   "theorems": [
    "Diffstar.Props.C38_shipped_calibrations_usable",
    "Diffstar.Props.C38_default_calibration_usable",
    "Diffstar.Props.C38_wrong_length_raises"
   ],
   "note": "C38: each of the ten shipped calibrations builds without error, gives every field the literal listed under its own name, is strictly inside the bounds, has no zero slope and round-trips. | C38 for the default calibration. | C38: a table with a number of values other than 79 (79 + 9 satellite values = 88 fields) is refused."
  },
  {
   "property": "C39",
   "status": "proved",
   "theorems": [
    "Diffstar.Props.C39_correlation_round_trip",
    "Diffstar.Props.C39_covariance_round_trip",
    "Diffstar.Props.C39_covariance_valid",
    "Diffstar.Props.C39_correlations_in_range"
   ],
   "note": "C39 (round trip from correlations): with a unit-diagonal matrix and positive standard deviations, converting to a covariance and back returns the matrix; the covariance has diagonal `s  2`. | C39 (round trip from covariances): for a matrix with positive diagonal, converting to correlations and back with the square roots of the diagonal recovers it; the correlation matrix has unit diagonal. | C39 (validity): symmetry, positive semi-definiteness and (for positive deviations) positive definiteness of the correlation matrix carry over to the covariance. | C39 (range): the correlations of a positive semi-definite covariance with positive diagonal lie in `[-1, 1]`."
  },
  {
   "property": "C40",
   "status": "proved",
   "theorems": [
    "Diffstar.Props.C40_override_exact",
    "Diffstar.Props.C40_unknown_field_raises",
    "Diffstar.Props.C40_override_idempotent"
   ],
   "note": "C40: if the call succeeds, the result has the default field names in the default order, the varied value for varied fields and the default value for all other fields. | C40: the call raises exactly when some varied field is unknown. | C40: applying the same override twice changes nothing."
  },
  {
   "property": "C41",
   "status": "partial",
   "theorems": [
    "Diffstar.Props.C41_jax_interp_violated_right",
    "Diffstar.Props.C41_jax_interp_violated_left",
    "Diffstar.Props.C41_jax_interp_partial"
   ],
   "note": "Equal inside the table; outside JAX index clamping/wrap-around extrapolates (both violations proved)."
  },
  {
   "property": "C42",
   "status": "proved",
   "theorems": [
    "Diffstar.Props.C42_returns_best_attempt",
    "Diffstar.Props.C42_loss_never_nan",
    "Diffstar.Props.C42_best_of_complete_run"
   ],
   "note": "C42: the driver makes at most `max_iter` attempts (each a genuine attempt, see `AttemptsFrom`), and returns one and the same attempt (parameters, loss and flag together) whose loss is the smallest non-NaN one, the first such; if no attempt has a non-NaN loss it returns the initial guess with loss 999.99 and flag -1. | The driver's loss is never NaN. | C42, with the number of attempts pinned down: the returned parameters, loss and flag are those of the best attempt of a complete run (`CompleteRun`): the driver does not stop early, does not go on needlessly, and does not leave out any attempt when it picks the best."
  },
  {
   "property": "C43",
   "status": "partial",
   "theorems": [
    "Diffstar.Props.C43_keeps_trying_partial",
    "Diffstar.Props.C43_stops_promptly_partial",
    "Diffstar.Props.C43_gives_up_after_nan_violated"
   ],
   "note": "Proved for runs without a NaN loss; after a NaN the driver stops early (violation)."
  },
  {
   "property": "C44",
   "status": "proved",
   "theorems": [
    "Diffstar.Props.C44_random_start",
    "Diffstar.Props.C44_flag_certifies"
   ],
   "note": "C44: the `j+1` draws made are numbers `k, ..., k+j` of the stream with `j \u2264 1000`; the start vector is the last one; the flag says whether its gradient has a NaN; all earlier draws had NaN gradients; and a NaN start is returned only after all 1001 draws had NaN gradients. | C44 read as two implications: `isnan = False` certifies the returned start; `isnan = True` means all 1001 draws failed."
  },
  {
   "property": "C45",
   "status": "proved",
   "theorems": [
    "Diffstar.Props.C45_reports_best_step",
    "Diffstar.Props.C45_first_step_fails",
    "Diffstar.Props.C45_raises_iff_no_steps",
    "Diffstar.Props.C45_fit_terminates_flag"
   ],
   "note": "C45: `k` is the number of steps before the first NaN/inf in the parameters, loss or gradient (`k = n_step` if there is none). If `k \u2265 1`, the driver returns (no exception) the history of exactly those `k` steps together with the best of them. | C45: if the very first step fails, the start itself is returned with loss 999.99 and empty histories. | C45: with at least one step the driver never raises; with `n_step = 0` it always does. | C45 (two-stage driver): with at least one main and one warm-up step it returns; its main stage starts at the warm-up result if that is finite and at the given start otherwise; and the flag is 1 exactly if none of the `n_step` main steps met a NaN or inf."
  },
  {
   "property": "C46",
   "status": "proved",
   "theorems": [
    "Diffstar.Props.C46_weights",
    "Diffstar.Props.C46_weight_values"
   ],
   "note": "C46: the call succeeds exactly for non-empty arrays of one length, and then the weights are, snapshot by snapshot: 0.5 within 0.1 dex of the final mass, else 1 if the snapshot passes all three cuts, else 1e10; and for the averaged SFR: 1e10 before `fstar_tdelay + 0.01`, else 0.5 within 0.1 dex of the maximum, else 1 or 1e10 by the same cuts. The lower mass cut is lowered to half a dex below the final mass if necessary. | C46 consequences: only the values 0.5, 1 and 1e10 occur (so all weights are positive), the last snapshot always has stellar-mass weight 0.5, and times before `fstar_tdelay + 0.01` always have averaged-SFR weight 1e10."
  },
  {
   "property": "C47",
   "status": "partial",
   "theorems": [
    "Diffstar.Props.C47_quenching_guess_ignores_mass_violated",
    "Diffstar.Props.C47_guess_violated",
    "Diffstar.Props.C47_ms_guess_follows_mass_partial"
   ],
   "note": "The mass-dependent quenching guess is computed but discarded (violation); the main-sequence part follows the code."
  },
  {
   "property": "C48",
   "status": "proved",
   "theorems": [
    "Diffstar.Props.C48_guess_in_bounds"
   ],
   "note": "C48: for every halo mass (and everything else) the start vector is the unbounded image of a guess that lies strictly inside the bounds, so bounding it gives the guess back; the main-sequence guess is the documented clipped linear function of the final halo mass; all eight perturbation widths are positive."
  },
  {
   "property": "C49",
   "status": "proved",
   "theorems": [
    "Diffstar.Props.C49_loss_formula",
    "Diffstar.Props.C49_logs_defined",
    "Diffstar.Props.C49_loss_positive",
    "Diffstar.Props.C49_early_quenching_penalised",
    "Diffstar.Props.C49_sfr_term_bounded",
    "Diffstar.Props.C49_loss_is_ridge_iff"
   ],
   "note": "C49, the value of the loss in full: `m`, `s` are the stellar mass and SFR histories of the parameters under test, `f` the averaged SFR of `m`; `n` is the number of snapshots. | C49: no logarithm in the loss is taken of a non-positive number: the stellar mass history and the floored averaged SFR are positive. | C49: the loss is at least the ridge penalty, which lies in (0, 100), so it is positive; it exceeds the ridge by at least the individual mismatch of every snapshot. | C49: quenching at or before the peak of the target costs at least 50, and the penalty decreases strictly as the quenching time moves later. | C49: if the log stellar masses and log averaged SFRs match at every snapshot, the remaining SFR term adds at most 4. | C49: the loss equals the ridge penalty exactly if the (floored) model reproduces the target at every snapshot: log mass, log averaged SFR and SFR."
  },
  {
   "property": "C50",
   "status": "proved",
   "theorems": [
    "Diffstar.Props.C50_rows_match_header",
    "Diffstar.Props.C50_nofit_row"
   ],
   "note": "the header names 11 columns; the line of every halo is a single line without comment sign which splits on whitespace into 11 tokens, and pairing tokens with the header names puts every value under its own name. | the row of a halo that was not fitted reads back as -99 for all eight parameters, loss -1 and flag -1."
  },
  {
   "property": "C51",
   "status": "proved",
   "theorems": [
    "Diffstar.Props.C51_refuses_mismatch",
    "Diffstar.Props.C51_columns_by_name"
   ],
   "note": "a table with another number of columns than names, or a 1-d array, is refused. | for a rectangular table with as many columns as (distinct) names, the write succeeds exactly if every cell can be read as a number of its column's type, and then the file has exactly the given names in order and, under each name, the cells of that column read in row order: integers for `halo_id` and `success`, floats otherwise."
  },
  {
   "property": "C52",
   "status": "proved",
   "theorems": [
    "Diffstar.Props.C52_split_partition",
    "Diffstar.Props.C52_exactly_one_rank"
   ],
   "note": "r` parts; concatenated in rank order they restore the list; the first `n % r` ranks get `n / r + 1` entries and the others `n / r`, so sizes differ by at most one. | every halo index is handled by exactly one rank."
  },
  {
   "property": "C53",
   "status": "partial",
   "theorems": [
    "Diffstar.Props.C53_collation_partial",
    "Diffstar.Props.C53_few_halos_violated"
   ],
   "note": "Collation succeeds exactly if every rank has at least two halos (2*ranks <= halos); otherwise the 1-d genfromtxt result breaks concatenation."
  },
  {
   "property": "C54",
   "status": "partial",
   "theorems": [
    "Diffstar.Props.C54_failed_fits_skipped_partial",
    "Diffstar.Props.C54_short_history_violated",
    "Diffstar.Props.C54_tng_violated"
   ],
   "note": "Negative-loss halos are skipped by the SMDPL/Galacticus scripts; halos with too few points are fitted with all parameters -1, and the TNG script fits every halo (violations)."
  },
  {
   "property": "C55",
   "status": "proved",
   "theorems": [
    "Diffstar.Props.C55_nofit_fill"
   ],
   "note": "row `i` of the block `[istart, iend)` of the fits is computed from row `istart + i` of the file; if that row has negative loss or too few points its parameters are all -1 (and `logmp0` is that of the default parameters), otherwise its parameters are untouched and `logmp0` is its own mass history at `t0`; loss and number of points are passed through."
  },
  {
   "property": "C56",
   "status": "proved",
   "theorems": [
    "Diffstar.Props.C56_running_maximum",
    "Diffstar.Props.C56_monotone_history_kept",
    "Diffstar.Props.C56_tng_running_maximum"
   ],
   "note": "for every mass history the loaded log masses have the same length; entry `i` is the greatest of the clipped log masses up to `i`; hence they never decrease along time and are non-negative; and for a history of positive length `logmp0` is the greatest of all. | a history that never decreases and stays above `10^7` is passed through (as log10). | TNG loader): entry `i` is the greatest of the h-corrected log masses up to `i`."
  },
  {
   "property": "C57",
   "status": "proved",
   "theorems": [
    "Diffstar.Props.C57_mass_conserved"
   ],
   "note": "for strictly increasing positive times, star-formation rate times bin width (in yr) is the mass formed in the bin (bulge plus disk), so the sum over bins is the total mass formed; a non-negative mass gives a non-negative rate."
  },
  {
   "property": "C58",
   "status": "proved",
   "theorems": [
    "Diffstar.Props.C58_block_rows",
    "Diffstar.Props.C58_blocks_concatenate",
    "Diffstar.Props.C58_load_flat",
    "Diffstar.Props.C58_galacticus_block"
   ],
   "note": "row `i` of block `[istart, iend)` is row `istart + i` of the array, and the block ends at `iend`; without `iend` the block runs to the end. | concatenating consecutive blocks with boundaries `e 0 \u2264 e 1 \u2264 \u2026 \u2264 e k` gives the block from `e 0` to `e k`; in particular a partition of the whole file gives the whole array. | load_flat_hdf5` returns the requested keys in order, each sliced; it fails exactly if a key is missing. With `keys = None` it returns all columns of the file. | Galacticus block): the time array is always complete while the other three columns are cut to the block."
  },
  {
   "property": "C59",
   "status": "partial",
   "theorems": [
    "Diffstar.Props.C59_from_zero_partial",
    "Diffstar.Props.C59_later_block_violated",
    "Diffstar.Props.C59_misplaced_violated"
   ],
   "note": "Correct for istart=0 only; for istart>0 the row index in the file is used for the output table (IndexError or misplaced rows)."
  },
  {
   "property": "C60",
   "status": "proved",
   "theorems": [
    "Diffstar.Props.C60_broadcast",
    "Diffstar.Props.C60_broadcast_raises"
   ],
   "note": "C60 (success): if every argument is a scalar (one entry) or has the common length `n \u2265 1`, with at least one argument of length `n`, all outputs have length `n`: scalars are repeated, full arrays are returned unchanged, in argument order. | C60 (failure): the helper raises exactly when called without arguments, or when some argument is neither a scalar nor as long as the longest one."
  },
  {
   "property": "C61",
   "status": "partial",
   "theorems": [
    "Diffstar.Props.C61_with_tau_dep_partial",
    "Diffstar.Props.C61_load_fit_sfh_violated"
   ],
   "note": "load_fit_sfh asks for a column tau_dep that the fitter never writes; with that column added it works."
  },
  {
   "property": "C62",
   "status": "proved",
   "theorems": [
    "Diffstar.Props.C62_sigmoid_poly"
   ],
   "note": "C62: for `ymin < ymax` the algebraic sigmoid is strictly between its limits, equal to the midpoint at `x0`, antisymmetric about it, and strictly increasing for `k > 0`."
  },
  {
   "property": "C63",
   "status": "partial",
   "theorems": [
    "Diffstar.Props.C63_padding_harmless_partial",
    "Diffstar.Props.C63_empty_redshift_violated",
    "Diffstar.Props.C63_made_iff",
    "Diffstar.Props.C63_nan_bin_violated"
   ],
   "note": "Exact for finite predictions; a NaN prediction in halo bin 0 contaminates every padded redshift, and a redshift with no populated bin makes prepare_ragged raise."
  },
  {
   "property": "C64",
   "status": "proved",
   "theorems": [
    "Diffstar.Props.C64_fitter_output_in_bounds"
   ],
   "note": "C64: whatever the random draws and the optimiser do, the parameters reported by the fitter are either NaN (the optimiser returned non-finite values) or strictly inside the bounds; with flag -1 they are finite and are the initial guess; the reported loss is never NaN; the flag is 1 or -1."
  },
  {
   "property": "C65",
   "status": "partial",
   "theorems": [
    "Diffstar.Props.C65_documented_nested_form_violated",
    "Diffstar.Props.C65_flat_form_partial"
   ],
   "note": "The documented nested form raises; the flat form works."
  },
  {
   "property": "C66",
   "status": "partial",
   "theorems": [
    "Diffstar.Props.C66_success_codes_partial",
    "Diffstar.Props.C66_extra_args_violated"
   ],
   "note": "Success codes proved; extra positional arguments are not forwarded correctly to the Adam backup (violation)."
  },
  {
   "property": "C67",
   "status": "proved",
   "theorems": [
    "Diffstar.Props.C67_loss_data_well_formed"
   ],
   "note": "C67: for every non-negative SFH on an increasing time table starting after 1 Myr, whatever the cuts, `get_loss_data_default` succeeds and its output is well formed; the clipped target SFR is at least 1e-14; the targets are logarithms of positive numbers; the averaged-SFR target spans at most 3 dex; and `lgt_fstar_max` is the log of the first tabulated time at which the target is maximal."
  },
  {
   "property": "C68",
   "status": "partial",
   "theorems": [
    "Diffstar.Props.C68_success_not_nan_partial",
    "Diffstar.Props.C68_infinite_loss_violated"
   ],
   "note": "Success implies a non-NaN loss, but an infinite loss can be reported as success (violation)."
  },
  {
   "property": "C69",
   "status": "proved",
   "theorems": [
    "Diffstar.Props.C69_text_round_trip",
    "Diffstar.Props.C69_six_digits_exact"
   ],
   "note": "a float formatted with `\"{:.5e}\"` and read back is the same NaN or infinity, or agrees to relative accuracy `5e-6`; an integer (halo id, flag) is read back exactly. | a number with at most six significant decimal digits is read back exactly."
  },
  {
   "property": "C70",
   "status": "partial",
   "theorems": [
    "Diffstar.Props.C70_rank_block_contiguous",
    "Diffstar.Props.C70_more_ranks_than_halos_violated"
   ],
   "note": "Contiguity proved; with more ranks than halos the empty rank raises IndexError (violation)."
  },
  {
   "property": "C71",
   "status": "proved",
   "theorems": [
    "Diffstar.Props.C71_centrals_plus_satellites",
    "Diffstar.Props.C71_counts_total",
    "Diffstar.Props.C71_hist_total",
    "Diffstar.Props.C71_smooth_counts"
   ],
   "note": "in every halo mass bin the centrals and the satellites add up to all halos. | every halo with a mass in the closed range of the bins is counted in exactly one bin, other halos in none. | the summed log stellar masses of the bins are the sum over all halos in the range. | the smooth counts are non-negative, and each halo adds at most one in total."
  },
  {
   "property": "C72",
   "status": "partial",
   "theorems": [
    "Diffstar.Props.C72_same_halos_partial",
    "Diffstar.Props.C72_sample_size_partial",
    "Diffstar.Props.C72_lower_edge_violated",
    "Diffstar.Props.C72_upper_edge_violated"
   ],
   "note": "Proved if no halo mass equals a bin edge; at the lower edge a halo is counted and sampled but missing in the stellar mass targets, at the top edge it is counted but never sampled (violations)."
  },
  {
   "property": "C73",
   "status": "partial",
   "theorems": [
    "Diffstar.Props.C73_pooled_partial",
    "Diffstar.Props.C73_mean_relation_partial",
    "Diffstar.Props.C73_missing_subvolume_violated"
   ],
   "note": "Proved if every listed subvolume has its input files; otherwise the worker skips it but the collection fails on its missing temporary file (violation)."
  },
  {
   "property": "C74",
   "status": "proved",
   "theorems": [
    "Diffstar.Props.C74_samples_are_halos",
    "Diffstar.Props.C74_sample_size",
    "Diffstar.Props.C74_total_at_most_20000"
   ],
   "note": "the rows of the sample file of one redshift belong to different halos; all columns of a row are those of one halo, which lies in the halo mass bin of its label. | of each bin the file has all halos, or as many as the maximum per subvolume. | over all subvolumes a redshift and bin get at most 20000 halos."
  },
  {
   "property": "C75",
   "status": "proved",
   "theorems": [
    "Diffstar.Props.C75_age_of_target",
    "Diffstar.Props.C75_out_of_range"
   ],
   "note": "let `tz` be the first age at which the redshift is at most the target. If `tz` is between the first and the last time of the table, the target is measured at the first table time at or after `tz`: at most one step of `(10lgt0 - 0.01) / 199` Gyr late, and never early. | a target epoch after the last table time has no time index: indexing the tables raises."
  },
  {
   "property": "C76",
   "status": "partial",
   "theorems": [
    "Diffstar.Props.C76_missing_fb_violated",
    "Diffstar.Props.C76_rows_partial",
    "Diffstar.Props.C76_selection_partial",
    "Diffstar.Props.C76_any_lgt0_partial",
    "Diffstar.Props.C76_histories_partial",
    "Diffstar.Props.C76_lgt0_violated"
   ],
   "note": "SMDPL and Galacticus loaders call calc_sfh_galpop without the required fb: TypeError for every catalogue. For TNG proved, for the default lgt0 (another lgt0 changes only the time table: violation)."
  },
  {
   "property": "C77",
   "status": "partial",
   "theorems": [
    "Diffstar.Props.C77_marginal_partial",
    "Diffstar.Props.C77_marginal_le",
    "Diffstar.Props.C77_high_ssfr_violated"
   ],
   "note": "Proved if no galaxy is above log10 sSFR = -8.52, and <= in general; fails for more strongly star-forming galaxies (witness)."
  },
  {
   "property": "C78",
   "status": "proved",
   "theorems": [
    "Diffstar.Props.C78_selected_bins",
    "Diffstar.Props.C78_smhm_entry"
   ],
   "note": "the loss data has, in the order (redshift, halo mass bin), one entry for every bin with at least 50 sampled halos of the wanted kind; an entry has `nhalos` rows of the sample file, all of this redshift, bin and kind, and no row twice if there are enough; the index arrays number the entries consecutively and name their bins. | get_loss_data_smhm`): there an entry needs `nhalos` sampled halos, which are then distinct."
  },
  {
   "property": "C79",
   "status": "proved",
   "theorems": [
    "Diffstar.Props.C79_halo_distribution",
    "Diffstar.Props.C79_mstar_target",
    "Diffstar.Props.C79_joint_distribution",
    "Diffstar.Props.C79_ssfr_target_rows"
   ],
   "note": "the halo mass distribution of one redshift is non-negative, sums to one and is proportional to the counts; it is undefined exactly if there is no halo. | a stellar mass target is non-negative, sums to one and is proportional to the (non-negative) weights. | within one halo bin the joint distribution sums to one, or is zero if no cell has a positive weight. | every row of the sSFR targets is non-negative and sums to one, or is zero; it is zero exactly if no halo bin with halos has a positive weight in this stellar mass bin."
  },
  {
   "property": "C80",
   "status": "partial",
   "theorems": [
    "Diffstar.Props.C80_perfect_model_partial",
    "Diffstar.Props.C80_sparse_bin_violated"
   ],
   "note": "Proved if bins without a prediction do not contribute to the target; a populated bin with fewer than 50 samples breaks it (witness)."
  },
  {
   "property": "C81",
   "status": "partial",
   "theorems": [
    "Diffstar.Props.C81_satellite_parameters_unconstrained_violated"
   ],
   "note": "False: the loss data gives every satellite gyr_since_infall = -99, so predictions do not depend on the satellite parameters (to 1e-100, and not at all for the drawn parameters)."
  },
  {
   "property": "C82",
   "status": "partial",
   "theorems": [
    "Diffstar.Props.C82_saved_no_worse_than_start_partial",
    "Diffstar.Props.C82_saved_is_best_iterate_partial",
    "Diffstar.Props.C82_nan_loss_at_start_violated",
    "Diffstar.Props.C82_nan_gradient_at_start_violated",
    "Diffstar.Props.C82_extra_step_violated"
   ],
   "note": "Proved for a finite starting point; non-finite loss at the start raises UnboundLocalError, non-finite gradient saves zeros, and an accepted extra step is not the point the optimiser continues from (violations)."
  },
  {
   "property": "C83",
   "status": "partial",
   "theorems": [
    "Diffstar.Props.C83_padded_partial",
    "Diffstar.Props.C83_unpadded_partial",
    "Diffstar.Props.C83_mixed_lengths_violated"
   ],
   "note": "Proved for zero-padded names and for unpadded names with a one-digit one; unpadded [10,100] raises UnboundLocalError (violation)."
  },
  {
   "property": "C84",
   "status": "partial",
   "theorems": [
    "Diffstar.Props.C84_round_trip_partial",
    "Diffstar.Props.C84_wrong_length",
    "Diffstar.Props.C84_long_sequence_violated"
   ],
   "note": "Proved for at most 10000 elements per sequence; longer ones are read back in another order (violation)."
  },
  {
   "property": "C85",
   "status": "partial",
   "theorems": [
    "Diffstar.Props.C85_means_partial",
    "Diffstar.Props.C85_unit_sfr_violated",
    "Diffstar.Props.C85_zero_sfr_violated",
    "Diffstar.Props.C85_empty_bin"
   ],
   "note": "Proved if no SFR is exactly 0 or 1 and no logarithm exactly 0; such values are dropped from the sums (violations)."
  },
  {
   "property": "C86",
   "status": "proved",
   "theorems": [
    "Diffstar.Props.C86_common_last_time",
    "Diffstar.Props.C86_prepared_history"
   ],
   "note": "no halo of any rank has a time after `T0`, the common last time. | for a halo with increasing times up to at most `T0` and one mass per time, the fitter gets increasing times that end exactly at `T0`, a history of the same length that never decreases, whose entry `i` is the greatest mass up to time `i` (and the greatest mass of all at an added time `T0`); the fit is skipped exactly if the halo lives less than the minimum."
  },
  {
   "property": "C87",
   "status": "proved",
   "theorems": [
    "Diffstar.Props.C87_sfr_smooth",
    "Diffstar.Props.C87_smh_smooth"
   ],
   "note": "the star formation rate at any time of the table, as a function of the eight parameters or of the eight unbounded parameters, is continuous, and three times continuously differentiable wherever it is not at its floor. | the stellar mass at any time of the table is three times continuously differentiable in the eight unbounded parameters wherever no star formation rate of the table is at its floor."
  },
  {
   "property": "C88",
   "status": "proved",
   "theorems": [
    "Diffstar.Props.C88_single_peak",
    "Diffstar.Props.C88_power_laws",
    "Diffstar.Props.C88_normalisation"
   ],
   "note": "for a rising low-mass and a falling high-mass index the efficiency has exactly one peak, within 2/9 dex of the critical mass: it strictly increases with halo mass below the peak and strictly decreases above. | far from the critical mass the efficiency is a power law, with index `indx_lo` below and `indx_hi` above; the difference in the logarithm at distance `d` dex is at most `|indx_hi - indx_lo| d exp(-9 d)`. | the normalisation enters the star formation rate as the factor `10  lgy_at_mcrit`, up to the floor."
  },
  {
   "property": "C89",
   "status": "proved",
   "theorems": [
    "Diffstar.Props.C89_histories_monotone"
   ],
   "note": "a higher normalisation, a shallower drop, a higher rejuvenation level or a larger baryon fraction never lowers the star formation rate nor the stellar mass, at any time of the table."
  },
  {
   "property": "C90",
   "status": "proved",
   "theorems": [
    "Diffstar.Props.C90_block_masses",
    "Diffstar.Props.C90_mah_tables"
   ],
   "note": "for a file with regular columns, read rows `[istart, iend)`: the time array is complete and the centrals flag of row `i` is that of galaxy `istart + i`; its rates have one entry per time, and rate times width of the time bin is, for the total and for the in situ histories, the mass formed in this bin by galaxy `istart + i`, summed over metallicities, disk plus bulge. | the four tables of the halo histories are cut to the same galaxies, and the number of halos is that of the full tables."
  },
  {
   "property": "C91",
   "status": "proved",
   "theorems": [
    "Diffstar.Props.C91_rows",
    "Diffstar.Props.C91_round_trip",
    "Diffstar.Props.C91_wrong_columns",
    "Diffstar.Props.C91_single_parameters"
   ],
   "note": "for every population, transforming the arrays of main-sequence and quenching parameters gives row by row the parameters of each galaxy transformed on its own, in both directions. | every array with four columns is bounded, all its entries are then in their bounds, and unbounding the result gives the array back. | an array that is not of four columns is rejected. | the transforms of single parameters agree with those of the whole tuple."
  },
  {
   "property": "C92",
   "status": "proved",
   "theorems": [
    "Diffstar.Props.C92_flags_bernoulli",
    "Diffstar.Props.C92_expected_statistic",
    "Diffstar.Props.C92_mstar_pdf_expected_counts",
    "Diffstar.Props.C92_joint_pdf_expected_counts"
   ],
   "note": "with independent uniform draws the flags of a population are independent Bernoulli variables whose success probabilities are the returned quenched fractions: every pattern of flags has the product probability, and each single flag is set with probability `frac_q`. The other outputs do not depend on the draws. | for every statistic `h` of a single galaxy's star formation history, the sum over galaxies with weight `1 - frac_q` on the main-sequence history and `frac_q` on the quenched history is the expectation over the uniform draws of the sum over the Monte Carlo catalogue. | the predicted stellar mass function of a target bin is the expected count of Monte Carlo galaxies in each (triweight-smoothed) mass bin, divided by the expected count in all bins. | the same for the joint distribution of stellar mass and specific star formation rate."
  },
  {
   "property": "C93",
   "status": "proved",
   "theorems": [
    "Diffstar.Props.C93_loss_mstar_smooth",
    "Diffstar.Props.C93_loss_mstar_ssfr_smooth",
    "Diffstar.Props.C93_combined_losses_smooth"
   ],
   "note": "wherever the stellar-mass loss is not NaN it is not NaN nearby, and, as a function of the 88 unbounded parameters, it is continuous (`n = 0`) and `n \u2264 3` times continuously differentiable if no star formation rate is on the point of reaching its floor; for samplers with the same smoothness and observation times after 0.1 Gyr. | for the sSFR losses of centrals and of satellites; for differentiability also no log sSFR may be exactly at its clipping value -12. | for the two combined losses that the fitting scripts minimise."
  },
  {
   "property": "C94",
   "status": "proved",
   "theorems": [
    "Diffstar.Props.C94_nan_iff_zero_slope",
    "Diffstar.Props.C94_zero_slope_removable",
    "Diffstar.Props.C94_sample_nan_iff",
    "Diffstar.Props.C94_loss_mstar_nan_iff",
    "Diffstar.Props.C94_loss_ssfr_nan_iff"
   ],
   "note": "there is a NaN among the main-sequence parameters of a Monte Carlo galaxy exactly if one of the 6 main-sequence slopes of the unbounded vector is zero, and the quenched ones exactly if one of the 13 quenched-sequence slopes is: whatever the halo, the random key and the generator. | the NaN at a zero slope is an artefact of the formula: the clipped line has a continuous extension through zero slope, so that the value for a small slope is close to the missing one. | for the galaxies of a target bin: when the histories have parameters without NaN. | for the stellar-mass loss away from the zero slope of the rejuvenation mean (see C136): it is a number exactly if there is a target bin, no slope is zero, and in every target bin some galaxy branch has a mass within three bin widths of the mass range. | when the sSFR losses are numbers, away from the zero slope of the rejuvenation mean (see C136"
  },
  {
   "property": "C95",
   "status": "proved",
   "theorems": [
    "Diffstar.Props.C95_flat_vectors",
    "Diffstar.Props.C95_gradient_mstar",
    "Diffstar.Props.C95_gradient_ssfr",
    "Diffstar.Props.C95_gradient_combined",
    "Diffstar.Props.C95_predictions_consistent"
   ],
   "note": "a flat vector becomes the namedtuple with the values in field order, and a vector of another length is an error for all wrappers. | gradient of the stellar mass loss. | gradient of the sSFR losses. | gradients of the two combined losses, and that they are the sums of the gradients of their parts. | the prediction wrappers belong to the loss wrappers: the loss is 1000 times the mean squared difference between the prediction at the same vector and the target."
  },
  {
   "property": "C96",
   "status": "partial",
   "theorems": [
    "Diffstar.Props.C96_start_default",
    "Diffstar.Props.C96_start_shipped",
    "Diffstar.Props.C96_start_other",
    "Diffstar.Props.C96_saved_arrays",
    "Diffstar.Props.C96_fit_no_worse_than_start_partial"
   ],
   "note": "The start must be a point where loss and gradient are finite; otherwise the run fails or saves zeros (C82 violations)."
  },
  {
   "property": "C97",
   "status": "proved",
   "theorems": [
    "Diffstar.Props.C97_universemachine_histories",
    "Diffstar.Props.C97_tng_histories",
    "Diffstar.Props.C97_tng_galaxy_type_ignored",
    "Diffstar.Props.C97_smdpl_histories"
   ],
   "note": "Bolshoi and MDPL2): the galaxy type selects the file; rows keep the order, the identifiers and the rates of the file; the masses are the logarithms of the integrated rates, finite and never decreasing, whenever the times increase from above `0.001` and the rates are not negative. | TNG): rows keep the order and the rates of the file, masses as for the other loaders, the mass histories are the running maxima of the file's logarithms divided by `h = 0.6774`, and `logmp0` is the last of them. The \"halo ids\" are row numbers. | the galaxy type given to `load_tng_small_data` has no effect, although it is documented to name the file. | SMDPL): the \"no merging\" loader reads the main-progenitor rates, the DR1 loader those of all progenitors; ids, rates, masses and mass histories of a row all come from the same row of the mock."
  },
  {
   "property": "C98",
   "status": "proved",
   "theorems": [
    "Diffstar.Props.C98_file_is_sampled_rows",
    "Diffstar.Props.C98_file_columns_aligned",
    "Diffstar.Props.C98_read_back",
    "Diffstar.Props.C98_galacticus_no_halo"
   ],
   "note": "the file of sampled halos holds exactly the sampled rows, in order, in all nine arrays: the parameters as arrays of shape (5, n), (4, n), (4, n), the others of length n. | entry `k` along the halo axis of all nine arrays belongs to one halo of one subvolume, sampled at one target time, whose mass at that time lies in the recorded bin. | reading the rows `sel` back gives the MAH parameters and host ids of those sampled rows. | Galacticus): where no halo lies in any bin, `sample_halos` raises."
  },
  {
   "property": "C99",
   "status": "partial",
   "theorems": [
    "Diffstar.Props.C99_twenty_ranks_partial",
    "Diffstar.Props.C99_rank_count_violated",
    "Diffstar.Props.C99_length_mismatch_raises"
   ],
   "note": "Holds for exactly 20 ranks and catalogues of equal length; any other rank count makes the run fail (violation proved): -nchunks is parsed but ignored."
  },
  {
   "property": "C100",
   "status": "proved",
   "theorems": [
    "Diffstar.Props.C100_central_quenched_fraction",
    "Diffstar.Props.C100_satellite_quenched_fraction",
    "Diffstar.Props.C100_main_sequence_draw",
    "Diffstar.Props.C100_quenched_sequence_draw"
   ],
   "note": "the quenched fraction of centrals rises or falls with halo mass from a floor to a plateau `yhi` around a mass scale; the floor and the mass scale change with the time of peak mass. | a satellite starts from a fraction `G` of the same form as that of centrals, with its own parameters. After infall the fraction switches, around a delay set by the host mass, to `G + Q (1 - G)`; the efficiency `Q` switches with the host mass between two functions of the mass ratio, each of which switches between two parameters. | a main-sequence galaxy has four drawn parameters, normally distributed about a mean and with a standard deviation that follow the lines of the main-sequence parameters with halo mass, and is never quenched by more than one percent. | a galaxy of the quenched sequence has eight drawn parameters about means and with standard deviations that follow the lines of the quenched-sequence pa"
  },
  {
   "property": "C101",
   "status": "partial",
   "theorems": [
    "Diffstar.Props.C101_dr1_files_partial",
    "Diffstar.Props.C101_nomerging_files_partial",
    "Diffstar.Props.C101_other_simulation_violated",
    "Diffstar.Props.C101_mixed_padding_violated",
    "Diffstar.Props.C101_available_subvolumes",
    "Diffstar.Props.C101_subvol_used",
    "Diffstar.Props.C101_subvol_used_raises"
   ],
   "note": "Proved when the digits of the file names of each directory have one width, or are unpadded with a one-digit name among them; mixed padding and -sim_name other fail (violations proved)."
  },
  {
   "property": "C102",
   "status": "partial",
   "theorems": [
    "Diffstar.Props.C102_mass_weights",
    "Diffstar.Props.C102_excluded_partial",
    "Diffstar.Props.C102_early_snapshot_fitted_violated",
    "Diffstar.Props.C102_excluded_negligible"
   ],
   "note": "Mass cuts and the negligibility bound hold; the time cut fails for snapshots that already have 10^-0.1 of the final mass (weight 0.5, violation)."
  },
  {
   "property": "C103",
   "status": "partial",
   "theorems": [
    "Diffstar.Props.C103_truth_partial",
    "Diffstar.Props.C103_quenched_galaxy_violated",
    "Diffstar.Props.C103_early_quenching_violated"
   ],
   "note": "Holds (loss = ridge penalty) if no snapshot is at a floor; false for strongly quenched galaxies and for quenching before the peak (violations)."
  },
  {
   "property": "C104",
   "status": "proved",
   "theorems": [
    "Diffstar.Props.C104_error_bound",
    "Diffstar.Props.C104_two_tables",
    "Diffstar.Props.C104_mass_converges",
    "Diffstar.Props.C104_gas_converges"
   ],
   "note": "C104 (error bound): if the star formation rate of a galaxy changes by at most `L` per Gyr between the first table time and `T`, then on any increasing table inside `[t[0], T]` with steps of at most `h` Gyr the stellar mass formed between the first and the `i`-th table time differs from `1e9` times the integral of the SFR by at most `1e9 L h (t[i] - t[0]) / 2`. | C104 (independence of the table): with such a rate, two tables that share the first time and the time `t[i] = t'[j]` give masses formed between those two times that differ by at most `1e9 L (h + h') (t[i] - t[0]) / 2`. | C104 (convergence): for a halo history that is continuous in time on `[a, T]`, `0 < a`, the stellar mass formed since the first table time `a` comes within any `\u03b5` of `1e9` times the integral of the SFR, at every time of every increasing table inside `[a, T]` whose steps are short enough. | C104 (gas closure): le"
  },
  {
   "property": "C105",
   "status": "partial",
   "theorems": [
    "Diffstar.Props.C105_targets_partial",
    "Diffstar.Props.C105_galaxies_off_grid_violated"
   ],
   "note": "Pairing, sign, normalisation and weights proved; a target is NaN iff no galaxy of the cell is within three bin widths of the stellar mass grid, and then the fit raises (violation)."
  },
  {
   "property": "C106",
   "status": "partial",
   "theorems": [
    "Diffstar.Props.C106_galacticus_partial",
    "Diffstar.Props.C106_measure_partial",
    "Diffstar.Props.C106_counts_partial",
    "Diffstar.Props.C106_sample_labels_partial",
    "Diffstar.Props.C106_earlier_flags_unused_partial",
    "Diffstar.Props.C106_partition_iff_flags",
    "Diffstar.Props.C106_status_at_redshift_violated"
   ],
   "note": "Proved with the status at the last snapshot in place of the status at the target redshift; the per-redshift claim is false (violation). The partition is proved as an equivalence for arbitrary flags."
  },
  {
   "property": "C107",
   "status": "partial",
   "theorems": [
    "Diffstar.Props.C107_success_partial",
    "Diffstar.Props.C107_failure_violated",
    "Diffstar.Props.C107_minimizers_disagree_violated"
   ],
   "note": "Proved for runs of L-BFGS-B that succeed with a finite loss; all other runs also get success = 1 (violation)."
  },
  {
   "property": "C108",
   "status": "partial",
   "theorems": [
    "Diffstar.Props.C108_target_rows",
    "Diffstar.Props.C108_pooled_partial",
    "Diffstar.Props.C108_off_grid_violated",
    "Diffstar.Props.C108_prediction_rows"
   ],
   "note": "The five bins, the normalisation and the exact weighting are proved for all populations, for targets and predictions. That each galaxy counts with its kernel weight is proved if no halo mass is on a bin edge and all galaxies of the kind are well inside the grid; it is false otherwise (violation)."
  },
  {
   "property": "C109",
   "status": "proved",
   "theorems": [
    "Diffstar.Props.C109_loss_continuous",
    "Diffstar.Props.C109_loss_bounded",
    "Diffstar.Props.C109_loss_smooth"
   ],
   "note": "C109: the loss which the fitter minimises is a continuous function of the eight unbounded parameters. | C109: the loss is bounded: however far the optimiser wanders, in whatever direction, the loss stays below one number, which depends on the data only. | C109: the loss has derivatives (to third order, continuous) in the unbounded parameters at every point where no clip of the model is exactly at its edge: at no snapshot is the SFR at `1e-14`, the averaged SFR or the SFR at a tenth of the specific floor, or the SFR mismatch at `\u00b11`. There the gradient used by the optimiser is the derivative of the loss."
  },
  {
   "property": "C110",
   "status": "partial",
   "theorems": [
    "Diffstar.Props.C110_galacticus_catalogue_partial",
    "Diffstar.Props.C110_smdpl_catalogue_partial",
    "Diffstar.Props.C110_tng_catalogue_partial",
    "Diffstar.Props.C110_options_ignored_violated",
    "Diffstar.Props.C110_smdpl_subvolumes"
   ],
   "note": "Rows, ids, histories and halo parameters are proved for all three scripts if every rank has at least two galaxies (see C53). The command line options for the fit are ignored (violation), and the TNG script also fits galaxies whose diffmah fit failed, with placeholder halo parameters."
  },
  {
   "property": "C111",
   "status": "partial",
   "theorems": [
    "Diffstar.Props.C111_rows_read",
    "Diffstar.Props.C111_galacticus_end_to_end_partial",
    "Diffstar.Props.C111_tng_end_to_end_partial",
    "Diffstar.Props.C111_smdpl_end_to_end_partial",
    "Diffstar.Props.C111_tng_baryon_fraction_violated"
   ],
   "note": "The reader is proved for every catalogue; the composition with the writer needs two galaxies per rank (C53) and diffmah fits with at least five points. The TNG tables use a baryon fraction different from the one of the fits (violation); the SMDPL and Galacticus tables raise before they evaluate the histories (C76)."
  },
  {
   "property": "C112",
   "status": "proved",
   "theorems": [
    "Diffstar.Props.C112_default_galaxy"
   ],
   "note": "C112. A galaxy with the default parameters forms stars with an efficiency that depends on halo mass only through the distance from `1012` Msun: at most `1e-10` per year, reached exactly there, and falling at most linearly on both sides. It is unquenched until 6.9 Gyr, suppressed by `10-1.01773` at 10 Gyr and, from 14.5 Gyr on, by `10-0.212307`; the suppression is never stronger than at 10 Gyr."
  },
  {
   "property": "C113",
   "status": "partial",
   "theorems": [
    "Diffstar.Props.C113_sfr_stability",
    "Diffstar.Props.C113_rounded_parameters_partial",
    "Diffstar.Props.C113_catalogue_partial",
    "Diffstar.Props.C113_short_events_violated"
   ],
   "note": "The stability bound holds for all parameters. One per cent is proved for quenching events longer than 0.1 dex and 0.0017+0.00015/duration dex in general; for events of 10**-2.9 dex the rounding of lg_qt changes the SFR by more than five per cent (violation)."
  },
  {
   "property": "C114",
   "status": "proved",
   "theorems": [
    "Diffstar.Props.C114_local",
    "Diffstar.Props.C114_mass_scaling",
    "Diffstar.Props.C114_time_scaling"
   ],
   "note": "C114, locality: the star formation rate at a time depends on the halo only through its mass at that time, and on the table not at all: two tables and two halos (with different accretion models) that agree there have the same rate. | C114, mass scaling: a halo `10c` times more massive at every time, with `lgmcrit` larger by `c`, forms stars `10c` times faster (the floor excepted); and `lgy_at_mcrit` larger by `c` does the same for the same halo. | C114, time scaling: a halo that reaches the same masses at `c` times the cosmic times, with `lg_qt` larger by `log10 c`, has the same star formation rates at the scaled times."
  },
  {
   "property": "C115",
   "status": "proved",
   "theorems": [
    "Diffstar.Props.C115_identifiable",
    "Diffstar.Props.C115_distinguishable",
    "Diffstar.Props.C115_before_quenching"
   ],
   "note": "C115. Two parameter sets within the bounds that give the same star formation rate for all halos, times and baryon fractions are equal; halos of constant mass suffice. | C115: different parameters within the bounds are told apart by some halo of constant mass. | C115, limit of a single history: a table that ends before the quenching event tells nothing about the event. Any two parameter sets with the same main sequence whose events start after the last time give the same history."
  },
  {
   "property": "C116",
   "status": "proved",
   "theorems": [
    "Diffstar.Props.C116_gradient",
    "Diffstar.Props.C116_nonfinite_starts_redrawn",
    "Diffstar.Props.C116_fitter"
   ],
   "note": "C116: off the edges the gradient handed to the optimiser has eight entries without NaN, and is the gradient of the loss: its product with any direction is the derivative of the loss in that direction, and unless it vanishes a small step against it lowers the loss. | C116: start vectors with entries that are not finite are drawn again; the first draw off the edges is the start of the minimisation. | C116: for a history the fitter accepts, with an optimiser that descends and start vectors off the edges, the fitter succeeds: the reported loss is the loss of the reported parameters, it is not larger than at the first start vector, and it is at most 0.1 or not larger than at any of ten start vectors."
  },
  {
   "property": "C117",
   "status": "partial",
   "theorems": [
    "Diffstar.Props.C117_tng_partial",
    "Diffstar.Props.C117_length_mismatch_raises",
    "Diffstar.Props.C117_smdpl_galacticus_violated"
   ],
   "note": "Proved for TNG if no SFR of the data is exactly 0 or 1 and no logarithm exactly 0 (see C85); for SMDPL and Galacticus the script always raises in the loader of the tables (violation, see C76)."
  },
  {
   "property": "C118",
   "status": "proved",
   "theorems": [
    "Diffstar.Props.C118_chunks"
   ],
   "note": "the sums over the 20 chunks of the weighted counts and of the weighted stellar masses are those of all galaxies with usable fits, at redshift zero, and their quotient is `compute_smhm` of these galaxies with the mean bin width as scatter."
  },
  {
   "property": "C119",
   "status": "proved",
   "theorems": [
    "Diffstar.Props.C119_variance",
    "Diffstar.Props.C119_concentration",
    "Diffstar.Props.C119_mass_function",
    "Diffstar.Props.C119_joint_histogram"
   ],
   "note": "the sum of a statistic over the Monte Carlo catalogue scatters around the weighted prediction with the variance of independent choices, `frac_q (1 - frac_q)` times the squared difference of the two branches, per galaxy. | for a statistic with values in `[0, 1]` (such as the weight of a galaxy in a bin) the Monte Carlo mean differs from the weighted prediction by `\u03b5` or more with probability at most `2 exp(-2 n \u03b5\u00b2)`. | the histogram of the stellar masses of a Monte Carlo catalogue of `n` galaxies agrees with the predicted mass function `f` times a common number `N` to better than `\u03b5 n` in all bins at once, except with probability `2 nb exp(-2 n \u03b5\u00b2)`. | the same for the joint histogram of stellar mass and specific star formation rate."
  },
  {
   "property": "C120",
   "status": "proved",
   "theorems": [
    "Diffstar.Props.C120_faces_reachable",
    "Diffstar.Props.C120_best_fit_exists",
    "Diffstar.Props.C120_near_optimal_near_best"
   ],
   "note": "C120: every parameter vector of the closed box, those on its faces included, is approached by unbounded parameters of the optimiser: parameters, histories and loss. | C120: a best fit exists; its loss is the infimum of the losses which the optimiser can reach, and the parameters, histories and loss of the best fit are approached by unbounded parameters. | C120: near-optimal fits are near best fits: for each accuracy there is a margin such that unbounded parameters whose loss no other parameters beat by the margin have bounded parameters and histories within the accuracy of those of a best fit."
  },
  {
   "property": "C121",
   "status": "proved",
   "theorems": [
    "Diffstar.Props.C121_noise_budget",
    "Diffstar.Props.C121_weighted_less_noisy"
   ],
   "note": "C121: the mean square deviation from any number `c` (the truth, or a target count) of the sum of a statistic over a Monte Carlo catalogue, over all its random draws, is that of the weighted sum plus the noise of the independent flags. The sampled normal variables are any random variable with values in the possible generators. | C121: so the weighted sum has the same mean, and is on average at least as close to any number."
  },
  {
   "property": "C122",
   "status": "proved",
   "theorems": [
    "Diffstar.Props.C122_catalogue_law",
    "Diffstar.Props.C122_quantiles"
   ],
   "note": "C122: the joint distribution of the parameters of a Monte Carlo catalogue. The galaxies are independent; galaxy `i` is, with probability `frac_q`, a galaxy of the quenched sequence with eight independent normal unbounded parameters, and otherwise a main-sequence galaxy with four; means and standard deviations follow the lines of the population parameters. | C122: quantiles. The probability that a parameter of a drawn galaxy lies below the bounded image of some unbounded value is the normal probability of that value; in particular the bounded means are the medians."
  },
  {
   "property": "C123",
   "status": "proved",
   "theorems": [
    "Diffstar.Props.C123_population_limit",
    "Diffstar.Props.C123_mass_function"
   ],
   "note": "C123: as the population grows, both the mean of a statistic over the Monte Carlo catalogue and the weighted mean of the losses approach the expectation of the statistic over the distribution of the parameters. | C123: the predicted stellar mass function approaches that of the distribution of the parameters."
  },
  {
   "property": "C124",
   "status": "proved",
   "theorems": [
    "Diffstar.Props.C124_masses_never_decrease",
    "Diffstar.Props.C124_relative_error",
    "Diffstar.Props.C124_single_precision",
    "Diffstar.Props.C124_growth_can_stall"
   ],
   "note": "C124: with rounding to any precision computed masses are positive and never decrease. | C124: computed masses have a relative error of a few unit roundoffs, and one more for each time of the table. | C124: in single precision masses are correct to one part in 10\u2074 for tables of up to 1000 times. | C124: in single precision masses need not grow, though every rate is above the floor of `1e-14`: what is formed is lost in rounding."
  },
  {
   "property": "C125",
   "status": "partial",
   "theorems": [
    "Diffstar.Props.C125_bounds_single_precision_partial",
    "Diffstar.Props.C125_duration_bound_violated",
    "Diffstar.Props.C125_round_trip_violated"
   ],
   "note": "Proved: closed bounds hold, with an excess below 1e-8 for qlglgdt, and lg_drop <= lg_rejuv. Violated: with u_qlglgdt = 40 the duration exceeds -0.01; with u_lgmcrit = 60 lgmcrit is 13.5 and has no finite unbounded value."
  },
  {
   "property": "C126",
   "status": "partial",
   "theorems": [
    "Diffstar.Props.C126_bin_weight_error",
    "Diffstar.Props.C126_weight_nonneg_violated",
    "Diffstar.Props.C126_quenching_error",
    "Diffstar.Props.C126_quenching_le_one_violated"
   ],
   "note": "Error bounds proved. Violated in binary32 with operations in source order and powers by repeated squaring: the triweight CDF at -381/128 is -2^-23, so a bin weight can be negative and the quenching function can exceed one."
  },
  {
   "property": "C127",
   "status": "proved",
   "theorems": [
    "Diffstar.Props.C127_sfr_error",
    "Diffstar.Props.C127_mass_error"
   ],
   "note": "C127: with library functions and halo masses of the accuracy of single precision, star formation rates in single precision (or better) have a relative error below `0.002 + 1e-5 / dt`, `dt` being the duration of the quenching event in dex. | C127: stellar masses in single precision, for tables of up to 1000 times."
  },
  {
   "property": "C128",
   "status": "partial",
   "theorems": [
    "Diffstar.Props.C128_tng_file_partial",
    "Diffstar.Props.C128_bins_partial",
    "Diffstar.Props.C128_edge_violated",
    "Diffstar.Props.C128_length_mismatch_raises",
    "Diffstar.Props.C128_other_simulations_violated",
    "Diffstar.Props.C128_default_violated"
   ],
   "note": "Proved for TNG, averages if no SFR is exactly 0 or 1 and no logarithm exactly 0 (C85). Violated: every other option, the default included, raises before it writes a file (C76); a galaxy whose halo mass is exactly on an edge, or at or above 14.25, is in no bin."
  },
  {
   "property": "C129",
   "status": "partial",
   "theorems": [
    "Diffstar.Props.C129_galacticus_partial",
    "Diffstar.Props.C129_sfh_types_independent",
    "Diffstar.Props.C129_smdpl_partial",
    "Diffstar.Props.C129_smdpl_jobs_independent",
    "Diffstar.Props.C129_smdpl_other_files_violated",
    "Diffstar.Props.C129_tng_partial",
    "Diffstar.Props.C129_tng_other_jobs_violated",
    "Diffstar.Props.C129_blank_violated"
   ],
   "note": "Proved for output directories of letters, digits, _ - . / and for collations that succeed (C53, C110). Violated: the SMDPL script removes every file subvol_NNN*.dat, the TNG script every tmp_sfh_fits_rank_*.dat, so also the text files of a Galacticus job in the same directory; with a blank in the directory name the text files stay and a file named like the first part is removed."
  },
  {
   "property": "C130",
   "status": "partial",
   "theorems": [
    "Diffstar.Props.C130_galacticus_partial",
    "Diffstar.Props.C130_one_fit_violated",
    "Diffstar.Props.C130_tng",
    "Diffstar.Props.C130_same_file",
    "Diffstar.Props.C130_smdpl_partial",
    "Diffstar.Props.C130_mixed_digits_violated"
   ],
   "note": "Proved for plain output directories, after both Galacticus fits have run, and for SMDPL subvolume numbers with equally many digits or one digit. Violated: with only one of the two Galacticus fits nothing loads; if subvolumes of two and of three digits are fitted none is found, because the names are written without leading zeros."
  },
  {
   "property": "C131",
   "status": "partial",
   "theorems": [
    "Diffstar.Props.C131_schedule_independent",
    "Diffstar.Props.C131_crash_points_partial",
    "Diffstar.Props.C131_rerun",
    "Diffstar.Props.C131_runs_exist",
    "Diffstar.Props.C131_catalogue_kept_violated",
    "Diffstar.Props.C131_fewer_ranks_violated"
   ],
   "note": "Proved for plain output directories: independence of the schedule, the states at all crash points, and the repetition of a run. Violated: the catalogue is written under its final name, so every run passes through a state where the old catalogue is lost and the new one is incomplete; repeating with fewer ranks leaves text files behind."
  },
  {
   "property": "C132",
   "status": "partial",
   "theorems": [
    "Diffstar.Props.C132_no_option",
    "Diffstar.Props.C132_false_is_true_violated",
    "Diffstar.Props.C132_smdpl_partial",
    "Diffstar.Props.C132_tng_partial",
    "Diffstar.Props.C132_small_samples_violated",
    "Diffstar.Props.C132_galacticus_partial",
    "Diffstar.Props.C132_overwrites_violated"
   ],
   "note": "Proved: without the option the scripts are those of C110 and C129; with at least 5 (SMDPL, TNG) or 30 (Galacticus) galaxies per rank a test run gives the rows of a normal run. Violated: every non-empty text, also False, switches the test on; with fewer than five galaxies per rank the SMDPL and TNG scripts raise; the test catalogue replaces that of a normal run."
  },
  {
   "property": "C133",
   "status": "proved",
   "theorems": [
    "Diffstar.Props.C133_mass_loss",
    "Diffstar.Props.C133_ranking",
    "Diffstar.Props.C133_ssfr_loss",
    "Diffstar.Props.C133_combined"
   ],
   "note": "C133: the loss of the stellar mass functions approaches the loss of the exact distribution, exponentially fast in the number of halos. `a` is a lower bound on the mean weight that a galaxy has in the bins. | with large populations the losses rank two sets of population parameters like the losses of the exact distributions. | the loss of the distributions of specific star formation rates (centrals or satellites). `a` bounds the mean weight of a galaxy in the bins and `c` the share of a target stellar mass from below. | the combined loss is close to the sum of the limits as soon as the three losses are close to theirs."
  },
  {
   "property": "C134",
   "status": "proved",
   "theorems": [
    "Diffstar.Props.C134_unbounded_round_trip",
    "Diffstar.Props.C134_bounded_round_trip"
   ],
   "note": "C134: in single precision unbounded parameters within two ranges of the middle of their range come back. | C134: in single precision bounded parameters that keep a small distance to their bounds come back from their unbounded values."
  },
  {
   "property": "C135",
   "status": "proved",
   "theorems": [
    "Diffstar.Props.C135_never_nan",
    "Diffstar.Props.C135_gradient",
    "Diffstar.Props.C135_random_start",
    "Diffstar.Props.C135_fitter"
   ],
   "note": "C135: the gradient handed to the optimiser is never NaN: for every well-formed fit data and every vector of finite unbounded parameters, on the edges of the clips too, reverse-mode differentiation of the loss gives eight finite numbers. | C135: the traced program computes the loss; off the edges its reverse-mode gradient is the gradient of the loss: its product with any direction is the derivative of the loss in that direction, and unless it vanishes a small step against it lowers the loss. | C135: the random start of a minimisation is the first draw with finite entries, whatever its value. | C135: for a history the fitter accepts, with an optimiser that descends and finite start vectors, the fitter succeeds with the gradient of the traced loss: the reported loss is the loss of the reported parameters, it is not larger than at the first start vector, and it is at most 0.1 or not larger t"
  },
  {
   "property": "C136",
   "status": "partial",
   "theorems": [
    "Diffstar.Props.C136_mstar_partial",
    "Diffstar.Props.C136_ssfr_partial",
    "Diffstar.Props.C136_combined_partial",
    "Diffstar.Props.C136_combined3_partial",
    "Diffstar.Props.C136_rows_used",
    "Diffstar.Props.C136_value_partial",
    "Diffstar.Props.C136_nan_gradient",
    "Diffstar.Props.C136_zero_slope_value",
    "Diffstar.Props.C136_finite_gradient_violated",
    "Diffstar.Props.C136_fit_partial",
    "Diffstar.Props.C136_fit_zero_slope_violated",
    "Diffstar.Props.C136_best_iterate_partial"
   ],
   "note": "Violated where the unbounded slope mean_urej_slp is exactly zero: the mean rejuvenation level is NaN, but the star formation rates before the quenching time do not use it, so that the loss can be a number while entry 49 of the gradient is NaN (C136_finite_gradient_violated, C136_nan_gradient, C136_zero_slope_value); a run started there stops at once and saves 88 zeros (C136_fit_zero_slope_violated). Proved for all other parameter vectors at which the loss is a number."
  },
  {
   "property": "C137",
   "status": "proved",
   "theorems": [
    "Diffstar.Props.C137_step_bound",
    "Diffstar.Props.C137_constant_gradient",
    "Diffstar.Props.C137_zero_gradient",
    "Diffstar.Props.C137_larger_step",
    "Diffstar.Props.C137_population_fit_range",
    "Diffstar.Props.C137_script_fit",
    "Diffstar.Props.C137_backup_range"
   ],
   "note": "C137: whatever the gradients, no Adam step changes a parameter by more than 7.28 step sizes, and after `n` steps it is within `7.28  n` step sizes of the start. | C137: while the gradient of a parameter is constant, the parameter moves against its sign with constant speed, `|g| / (|g| + 1e-8)` step sizes per step. In particular this is the first step of every run. | C137: a parameter on which the loss does not depend is not moved. | C137: a step can be larger than the step size. If the gradient of a parameter is zero for 999 steps and one in the last, this step moves the parameter by more than 2.5 step sizes. | C137: a population fit of `n` steps that starts where loss and gradient are finite saves finite parameters, none of which is further than `0.0728  n` from its start. A parameter whose gradient is zero throughout is saved as it was. | C137 for the fitting script with its own losses"
  },
  {
   "property": "C138",
   "status": "proved",
   "theorems": [
    "Diffstar.Props.C138_mass_range",
    "Diffstar.Props.C138_ssfr_range",
    "Diffstar.Props.C138_combined_range",
    "Diffstar.Props.C138_mass_shares",
    "Diffstar.Props.C138_ssfr_shares",
    "Diffstar.Props.C138_parts",
    "Diffstar.Props.C138_targets"
   ],
   "note": "a loss of stellar mass functions that is a number lies between 0 and 2000 divided by the number of bins. | a loss of distributions of specific star formation rates that is a number lies between 0 and 2000 divided by the number of bins in specific star formation rate. | the loss minimised by the fitting script of the population lies between 0 and 2000 times the sum of the inverse numbers of bins. | if the loss of stellar mass functions is `v`, then the predicted share of the galaxies in any set of `m` bins of any halo sample (a single bin, or all bins above a mass) differs from the target by at most `sqrt(m  v  nk  nb / 1000)`. | the same for the predicted distributions of specific star formation rates: the share of a set of bins, such as the quenched galaxies, is within `sqrt(m  v  nz  nt  nsf / 1000)` of the target. | each loss is at most the combined loss, so that the shares are as clo"
  },
  {
   "property": "C139",
   "status": "partial",
   "theorems": [
    "Diffstar.Props.C139_mass_function_partial",
    "Diffstar.Props.C139_nonneg_violated",
    "Diffstar.Props.C139_loss_rounding"
   ],
   "note": "C139_nonneg_violated: a bin far from all galaxies can get a negative value, because the polynomial of the kernel, evaluated in single precision, is slightly negative just above its lower cut at z = -3. The error bounds are proved when at least half of the galaxies by weight are inside the bins and the numbers of bins and galaxies are not too large."
  },
  {
   "property": "C140",
   "status": "proved",
   "theorems": [
    "Diffstar.Props.C140_gradient",
    "Diffstar.Props.C140_fit"
   ],
   "note": "C140: where the loss of the fitting script is a number, and the three fractions that bound the quenched fraction of satellites from below are not extremely small, each of the derivatives with respect to the nine satellite quenching parameters (the last nine of the 88) is at most `1e-88`. | C140: from a start at which the loss of the fitting script is a number, and whose three lower fractions of quenched satellites are further than `0.0728  n` above `-1000`, a fit of `n` steps saves numbers, and none of the nine satellite quenching parameters differs from its start by more than `n  1e-80`."
  },
  {
   "property": "C141",
   "status": "proved",
   "theorems": [
    "Diffstar.Props.C141_average_error",
    "Diffstar.Props.C141_fitted_average",
    "Diffstar.Props.C141_log_average",
    "Diffstar.Props.C141_average_can_vanish",
    "Diffstar.Props.C141_rates_of_steps"
   ],
   "note": "C141: the averaged rate `compute_fstar` at the `i`-th time in floating-point arithmetic, from rates `s'` with relative error `\u03b4`. The error is a relative one, plus one in proportion to the stellar mass `m` (cancellation), plus one in proportion to the largest rate `S` so far (rounding of the time `t - \u03c4`). | C141: the averaged rates in the fitting loss (over 1 Gyr, not below `1e-13` times the mass) for a table of up to 120 times, in single precision: within 34 per cent, and within `0.006 + 1e-5 / dt` as long as the averaged rate is above `1e-11` times the mass. `dt` is the duration of the quenching event in dex. The largest rate so far is at most 200 times the mean rate so far. | C141: the logarithms of the averaged rates that enter the fitting loss, with a single precision logarithm that is off by at most `\u03b5`. | C141: single precision can lose an averaged rate altogether. All the number"
  },
  {
   "property": "C142",
   "status": "proved",
   "theorems": [
    "Diffstar.Props.C142_gas_nonneg",
    "Diffstar.Props.C142_budget",
    "Diffstar.Props.C142_gas_error",
    "Diffstar.Props.C142_net_rate"
   ],
   "note": "C142: with rounding to any precision the gas mass is not negative as long as the (rounded) star formation rates do not exceed the (rounded) accretion rates. | C142: the gas budget in floating point: gas plus stars add up to the accreted baryons (of the accretion rates that the code has) up to a few roundings. | C142: the gas mass in single precision, for accretion rates and halo masses that are only approximately those of the exact model. `dt` is the duration of the quenching event in dex. | C142: the net gas rate in floating point is the difference quotient of C19 of the returned gas masses (all at most `G`), up to a thousandth and `2e-6` of the largest gas mass per step, if no time is beyond 500 steps."
  },
  {
   "property": "C143",
   "status": "proved",
   "theorems": [
    "Diffstar.Props.C143_masses_increase_iff",
    "Diffstar.Props.C143_step_sign",
    "Diffstar.Props.C143_galaxy_masses_iff",
    "Diffstar.Props.C143_early_start_negative"
   ],
   "note": "C143 (`cumulative_mstar_formed`): for positive star formation rates the masses are positive and strictly increasing exactly if the times are strictly increasing and start after `T_BIRTH_MIN = 0.001`. | C143 (`cumulative_mstar_formed`): between two neighbouring entries of the table the mass goes down exactly if the time does, and stays the same exactly if the time is repeated, for positive rates. | C143 for the public functions: for every halo, every parameter vector and every table of positive times, the stellar masses of `calc_sfh_singlegal`, `calc_sfh_galpop`, `calc_mgas_singlegal` and `calc_mgas_galpop` are positive and strictly increasing exactly if the times are strictly increasing and start after 0.001 Gyr. | C143, the part of C12 that fails (`calc_sfh_singlegal` with `return_smh=True`): a table of positive increasing times that starts before `T_BIRTH_MIN` gives a negative first st"
  },
  {
   "property": "C144",
   "status": "proved",
   "theorems": [
    "Diffstar.Props.C144_loss_error",
    "Diffstar.Props.C144_loss_error_forming",
    "Diffstar.Props.C144_tolerance"
   ],
   "note": "C144 (`loss_default_clipssfrh`): for all parameters and loss data as in `FloatLossData` the square root of the loss computed in single precision, with any order of the additions in the means, is within 0.45 (plus 1e-5 of itself) of the exact one. `p` are the bounded parameters of `u`; the single precision logarithms may be off by 1e-5. | C144: the same with a bound of 0.045 plus 1e-4 over the duration of quenching, if at the snapshots with weight in the fit of the averaged rates, and at the last one, the galaxy forms stars at more than 1e-11 of its mass per year. | C144, the success criterion of the fits (`loss_tol = 0.1`): for a galaxy as in `C144_loss_error_forming` whose quenching takes at least 0.01 dex, a computed loss up to 0.1 means an exact loss up to 0.14, and an exact loss up to 0.065 is computed as at most 0.1."
  },
  {
   "property": "C145",
   "status": "partial",
   "theorems": [
    "Diffstar.Props.C145_params_closed_bounds_partial",
    "Diffstar.Props.C145_lgmu_crit_violated",
    "Diffstar.Props.C145_frac_quench_probability",
    "Diffstar.Props.C145_satellites_only_add",
    "Diffstar.Props.C145_params_error",
    "Diffstar.Props.C145_frac_quench_error",
    "Diffstar.Props.C145_flag_agrees",
    "Diffstar.Props.C145_population_flags",
    "Diffstar.Props.C145_strict_violated"
   ],
   "note": "Not proved because false in single precision: qphi_lgmu_crit can end 1e-7 above its upper bound (C145_lgmu_crit_violated; it is at most -0.0999999), and quenched fractions can be exactly 1 (C145_strict_violated). Everything else of the statement is proved."
  },
  {
   "property": "C146",
   "status": "proved",
   "theorems": [
    "Diffstar.Props.C146_sfr",
    "Diffstar.Props.C146_histories",
    "Diffstar.Props.C146_frac_quench",
    "Diffstar.Props.C146_population_flags",
    "Diffstar.Props.C146_histories_bounded"
   ],
   "note": "C146, star formation rate at one time: halo masses that differ by `\u03b4` dex give star formation rates that differ by at most `(1 + 1.2 A) \u03b4` dex, for indices up to `A` in size. | C146, histories: halo masses that differ by at most `\u03b4` dex at the tabulated times give star formation rates, stellar masses and averaged star formation rates that differ by at most the factor `10^((1 + 1.2 A) \u03b4)`. | C146: the quenched fraction of a halo, for any population parameters produced by the bounding transform, changes by at most 1.25 per dex of peak mass, 12 per Gyr of peak time and, for satellites, 0.5 per dex of mass ratio at infall, 25 per dex of host mass at infall and 1.25 per Gyr since infall. | C146: two halo catalogues of the same galaxies, run with the same key and the same uniform draws: the flag of galaxy `i` differs with probability at most the change of its quenched fraction as bounded above"
  },
  {
   "property": "C147",
   "status": "proved",
   "theorems": [
    "Diffstar.Props.C147_params_ms",
    "Diffstar.Props.C147_params_q",
    "Diffstar.Props.C147_sfr_ms",
    "Diffstar.Props.C147_sfr_q"
   ],
   "note": "C147, main sequence: two halos of peak masses `m` and `m'`, drawn with the same key. | C147, quenched sequence. | C147, star formation rates on the main sequence: two halos drawn with the same key. | C147, star formation rates on the quenched sequence: two halos drawn with the same key."
  },
  {
   "property": "C148",
   "status": "partial",
   "theorems": [
    "Diffstar.Props.C148_line_error_partial",
    "Diffstar.Props.C148_params_ms_partial",
    "Diffstar.Props.C148_params_q_partial",
    "Diffstar.Props.C148_reversed_violated",
    "Diffstar.Props.C148_nan_violated"
   ],
   "note": "Proved for population lines whose slope is not 0 and whose intercept exceeds its lower bound by (2 |slope| + 1) 1e-4. False without the margin: with intercept and slope at their lower bounds (unbounded parameters -300) the single precision line ends at its upper bound instead of the lower one (C148_reversed_violated), and a halo of peak mass exactly 10^12.5 gets NaN parameters (C148_nan_violated)."
  },
  {
   "property": "C149",
   "status": "partial",
   "theorems": [
    "Diffstar.Props.C149_sfr_ms_partial",
    "Diffstar.Props.C149_sfr_q_partial"
   ],
   "note": "Proved for population lines whose slope is not 0 and whose intercept exceeds its lower bound by (2 |slope| + 1) 1e-4 (UsableLines), as for C148: without the margin the drawn parameters themselves are wrong (C148_reversed_violated)."
  },
  {
   "property": "C150",
   "status": "proved",
   "theorems": [
    "Diffstar.Props.C150_histogram",
    "Diffstar.Props.C150_mass_function",
    "Diffstar.Props.C150_joint",
    "Diffstar.Props.C150_conditional",
    "Diffstar.Props.C150_loss",
    "Diffstar.Props.C150_halo_histories",
    "Diffstar.Props.C150_single_precision"
   ],
   "note": "C150, histogram: masses off by `\u03b4` dex and weights off by a share `\u03b5`. | C150, predicted stellar mass function of a population. | C150, joint histogram of stellar mass and specific star formation rate on a grid of bins. | C150, conditional distributions of the specific star formation rate. | C150, loss: square roots of mean squared differences to the same target. | C150, halo histories: the same draws for halos whose histories differ by at most `\u03b4` dex at the 20 times. | C150, single precision: the histogram of C139 with masses off by `\u03b4` dex and weights off by a share `\u03b5`."
  },
  {
   "property": "C151",
   "status": "proved",
   "theorems": [
    "Diffstar.Props.C151_rates",
    "Diffstar.Props.C151_no_jumps",
    "Diffstar.Props.C151_histories",
    "Diffstar.Props.C151_rounded_times"
   ],
   "note": "C151, rates: star formation rates of one galaxy at two times (of the same or of two tables) differ by at most `1 + 1.2 A` times the difference of the halo masses plus `4.375 D / 10^qlglgdt` times the difference of the logarithmic times (all in dex), for indices up to `A` and drops up to `D` in size. | C151, rates of a galaxy with parameters returned by the bounding transform, at two times of one table. | C151, histories: if at every row of two tables the rates agree within `\u03ba` dex (see `C151_rates`) and the time steps agree within a factor `10^\u03c1`, the stellar masses agree within `\u03ba + \u03c1` dex. | C151, rounded tables: storing the times with seven digits changes rates and stellar masses by at most a thousandth dex, beyond what the change of the halo masses implies, when consecutive times differ by a part in a thousand."
  },
  {
   "property": "C152",
   "status": "proved",
   "theorems": [
    "Diffstar.Props.C152_mass_function",
    "Diffstar.Props.C152_joint",
    "Diffstar.Props.C152_loss_mstar",
    "Diffstar.Props.C152_loss_mstar_ssfr"
   ],
   "note": "C152, stellar mass function: if it is predicted (not NaN) for a halo sample, it is predicted for all samples that are close enough, and the values converge as the samples approach it. | C152, joint distribution of stellar mass and specific star formation rate. | C152, loss of the stellar mass function. | C152, loss of the specific star formation rates (centrals or satellites)."
  },
  {
   "property": "C153",
   "status": "partial",
   "theorems": [
    "Diffstar.Props.C153_joint_partial",
    "Diffstar.Props.C153_nonneg_violated",
    "Diffstar.Props.C153_conditional_partial"
   ],
   "note": "Accuracy is proved for rounded arithmetic with an unbounded exponent range, given that at least half of the weight lies inside the grid; it is false that the rounded values are non-negative (C153_nonneg_violated)."
  },
  {
   "property": "C154",
   "status": "partial",
   "theorems": [
    "Diffstar.Props.C154_mass_function_partial",
    "Diffstar.Props.C154_loss"
   ],
   "note": "Rounded arithmetic has an unbounded exponent range; the comparison is with the exact function of the same (rounded) bounded parameters. Without usable lines the computed parameters may be NaN (C148_nan_violated). The bound on the loss (C154_loss) is proved for whatever bound holds on the predictions."
  },
  {
   "property": "C155",
   "status": "partial",
   "theorems": [
    "Diffstar.Props.C155_joint_partial",
    "Diffstar.Props.C155_loss"
   ],
   "note": "Rounded arithmetic has an unbounded exponent range; the comparison is with the exact distribution of the same (rounded) bounded parameters. Without usable lines the computed parameters may be NaN (C148_nan_violated). Distributions at given stellar mass follow from C153_conditional_partial. The bound on the loss (C155_loss) is proved for whatever bound holds on the predictions."
  },
  {
   "property": "C156",
   "status": "proved",
   "theorems": [
    "Diffstar.Props.C156_no_effect",
    "Diffstar.Props.C156_mass_error",
    "Diffstar.Props.C156_underflow"
   ],
   "note": "Single galaxies; diffmah and the logarithm of the time are inputs."
  },
  {
   "property": "C157",
   "status": "proved",
   "theorems": [
    "Diffstar.Props.C157_history"
   ],
   "note": "Single galaxies; diffmah and the logarithm of the time are inputs."
  },
  {
   "property": "C158",
   "status": "proved",
   "theorems": [
    "Diffstar.Props.C158_end_to_end",
    "Diffstar.Props.C158_uniform",
    "Diffstar.Props.C158_galpop"
   ],
   "note": "diffmah and the logarithm of the time are inputs."
  },
  {
   "property": "C159",
   "status": "partial",
   "theorems": [
    "Diffstar.Props.C159_closed_round_trip_partial",
    "Diffstar.Props.C159_stable_partial",
    "Diffstar.Props.C159_drop_violated"
   ],
   "note": "Violated for lg_drop = 0, which get_bounded_diffstar_params returns for large unbounded drops: u_lg_rejuv is then 0/0, NaN, and stays NaN on the way back (C159_drop_violated). Proved for all other parameters. Exponents are unlimited here."
  },
  {
   "property": "C160",
   "status": "proved",
   "theorems": [
    "Diffstar.Props.C160_finite",
    "Diffstar.Props.C160_infinite",
    "Diffstar.Props.C160_limit",
    "Diffstar.Props.C160_nan"
   ],
   "note": "Limits of the exponent are taken into account in the histories, for the bounded parameters in C157."
  },
  {
   "property": "C161",
   "status": "proved",
   "theorems": [
    "Diffstar.Props.C161_mass_prefix",
    "Diffstar.Props.C161_prefix",
    "Diffstar.Props.C161_rates",
    "Diffstar.Props.C161_rows",
    "Diffstar.Props.C161_masses_grow"
   ],
   "note": "For operations in the order of the source; a compiler that orders or fuses them differently for different table lengths is not covered."
  },
  {
   "property": "C162",
   "status": "proved",
   "theorems": [
    "Diffstar.Props.C162_monotone",
    "Diffstar.Props.C162_doubling"
   ],
   "note": "diffmah and the logarithm of the time are inputs; operations in the order of the source."
  },
  {
   "property": "C163",
   "status": "proved",
   "theorems": [
    "Diffstar.Props.C163_before",
    "Diffstar.Props.C163_after"
   ],
   "note": "diffmah is an input; 10**x is assumed to be 1 for |x| up to 1e-17. The nominal half duration is 0.5 * 10**qlglgdt, 0.51 leaves room for rounding."
  }
 ]
}