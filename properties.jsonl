{"id": "C01", "title": "Bounded Diffstar parameters always lie inside their documented bounds", "statement": "Whatever eight unbounded numbers a caller passes to get_bounded_diffstar_params, the returned parameters satisfy 9<lgmcrit<13.5, -12<lgy_at_mcrit<-8, 0<indx_lo<5, -5<indx_hi<0, 0.1<lg_qt<2, -3<qlglgdt<-0.01, -3<lg_drop<0 and lg_drop<lg_rejuv<0.", "quantifier": "for every vector of eight real unbounded parameters", "why_tests_cant": "Tests sample a few Gaussian draws; the claim is about the whole of R^8, including the tails an optimiser wanders into, and about the coupled bound of lg_rejuv by lg_drop.", "anchors": ["diffstar/defaults.py:get_bounded_diffstar_params", "diffstar/kernels/main_sequence_kernels.py:_get_bounded_sfr_params", "diffstar/kernels/quenching_kernels.py:_get_bounded_q_params"]}
{"id": "C02", "title": "Bounding and unbounding Diffstar parameters are mutually inverse", "statement": "get_unbounded_diffstar_params(get_bounded_diffstar_params(u)) returns u for every u, and get_bounded_diffstar_params(get_unbounded_diffstar_params(p)) returns p for every p strictly inside the bounds (with lg_drop<lg_rejuv<0).", "quantifier": "for every real 8-vector u; for every in-bounds 8-vector p", "why_tests_cant": "A finite set of round trips cannot show that the two maps are inverse on the whole open box and that no in-bounds point is unreachable.", "anchors": ["diffstar/defaults.py:get_bounded_diffstar_params", "diffstar/defaults.py:get_unbounded_diffstar_params", "diffstar/utils.py:_sigmoid", "diffstar/utils.py:_inverse_sigmoid"]}
{"id": "C03", "title": "Bounding is strictly order preserving in each unbounded coordinate", "statement": "Increasing one unbounded parameter while holding the others fixed strictly increases the corresponding bounded parameter and leaves the others unchanged, except that increasing u_lg_drop also strictly increases lg_rejuv.", "quantifier": "for every pair of real 8-vectors that differ in one coordinate", "why_tests_cant": "Monotonicity is a statement about all pairs of inputs; tests only compare a few.", "anchors": ["diffstar/defaults.py:get_bounded_diffstar_params", "diffstar/utils.py:_sigmoid"]}
{"id": "C04", "title": "Star formation rates never fall below the floor", "statement": "Every entry of the SFH returned by calc_sfh_singlegal, calc_sfh_galpop, calc_mgas_singlegal and calc_mgas_galpop is at least SFR_MIN=1e-14 and therefore positive, so log10(SFR) is always defined.", "quantifier": "for every parameter vector (in or out of bounds), every halo history, every table of positive times and every fb", "why_tests_cant": "The floor must hold for inputs far outside the calibrated range; a test can only try some of them.", "anchors": ["diffstar/kernels/history_kernel_builders.py:_sfh_singlegal_scalar", "diffstar/sfh_model.py:calc_sfh_singlegal", "diffstar/sfh_model.py:calc_sfh_galpop", "diffstar/mgas_model.py:calc_mgas_singlegal"]}
{"id": "C05", "title": "Quenching factor: plateaus and range", "statement": "The multiplicative quenching factor equals 1 for lgt<=lg_qt-dt/2, equals 10**drop at lgt=lg_qt, equals 10**rejuv for lgt>=lg_qt+dt/2, and always lies in [10**drop, 1] when drop<=rejuv<=0 and dt>0.", "quantifier": "for every time and every quenching parameter vector with dt>0 and drop<=rejuv<=0", "why_tests_cant": "The piecewise polynomial has four regimes joined at exact breakpoints; grid tests miss the joins and arbitrary parameter combinations.", "anchors": ["diffstar/kernels/quenching_kernels.py:_quenching_kern", "diffstar/kernels/quenching_kernels.py:_jax_partial_u_tw_kern", "diffstar/kernels/quenching_kernels.py:_jax_tw"]}
{"id": "C06", "title": "Quenching factor falls then rises, continuously", "statement": "The quenching factor is non-increasing in time up to the quenching time and non-decreasing after it, strictly so inside the event, and is a continuous function of time (no jump where the branches meet).", "quantifier": "for every pair of times and every quenching parameter vector with dt>0, drop<=rejuv<=0", "why_tests_cant": "Monotonicity and continuity quantify over all pairs of times.", "anchors": ["diffstar/kernels/quenching_kernels.py:_quenching_kern", "diffstar/kernels/quenching_kernels.py:_jax_partial_u_tw_kern"]}
{"id": "C07", "title": "Quenching can only reduce star formation, and only after it starts", "statement": "At every time the returned SFR is at most max(SFR_MIN, main-sequence SFR); it equals max(SFR_MIN, main-sequence SFR) before the quenching event begins, and is at least 10**lg_drop times the main-sequence SFR.", "quantifier": "for every halo history, every bounded parameter vector obtained from any unbounded vector, every positive time and fb>=0", "why_tests_cant": "Needs to hold for all halo histories and all parameter values at once.", "anchors": ["diffstar/kernels/history_kernel_builders.py:_sfh_singlegal_scalar", "diffstar/kernels/main_sequence_kernels.py:sfh_ms_kernel", "diffstar/kernels/quenching_kernels.py:_quenching_kern"]}
{"id": "C08", "title": "The main-sequence population is unquenched to better than one per cent at all times", "statement": "The quenching parameters assigned to the main-sequence branch (all unbounded values equal 5) give a quenching factor between 0.99 and 1 at every cosmic time, so sfh_ms from the Monte Carlo generators is within 1% of the main-sequence SFR.", "quantifier": "for every positive cosmic time", "why_tests_cant": "The unit test checks a grid of times up to today; the population code relies on it for every time.", "anchors": ["diffstar/kernels/quenching_kernels.py:DEFAULT_Q_U_PARAMS_UNQUENCHED", "diffstar/diffstarpop/kernels/diffstarpop_mgash.py:mc_diffstar_u_params_singlegal_kernel"]}
{"id": "C09", "title": "Main-sequence efficiency: pivot value and global upper bound", "statement": "At halo mass lgmcrit the log-efficiency is exactly lgy_at_mcrit, and for indx_lo>=0>=indx_hi the log-efficiency never exceeds lgy_at_mcrit + max(indx_lo,-indx_hi)/27 at any halo mass, so for bounded parameters the main-sequence SFR is at most fb*Mh*10**(lgy_at_mcrit+5/27).", "quantifier": "for every halo mass and every main-sequence parameter vector with indx_lo>=0>=indx_hi", "why_tests_cant": "The peak of the efficiency curve is not at the pivot in general, so sampling cannot give the sharp global bound.", "anchors": ["diffstar/kernels/main_sequence_kernels.py:_sfr_eff_plaw", "diffstar/kernels/main_sequence_kernels.py:sfh_ms_kernel"]}
{"id": "C10", "title": "SFR is proportional to the baryon fraction above the floor and monotone in it", "statement": "For fixed halo and parameters, SFR(fb) = max(SFR_MIN, fb*SFR-per-unit-fb): scaling fb by c>=0 scales every above-floor SFR by c, and the SFR is non-decreasing in fb.", "quantifier": "for every fb, scale factor, halo history, parameter vector and time", "why_tests_cant": "A linear scaling law over all inputs cannot be settled by examples; the floor makes it piecewise.", "anchors": ["diffstar/kernels/history_kernel_builders.py:_sfh_singlegal_scalar", "diffstar/kernels/main_sequence_kernels.py:sfh_ms_kernel"]}
{"id": "C11", "title": "Stellar mass formed is the exact integral of the linearly interpolated SFH", "statement": "cumulative_mstar_formed(t,sfh)[i] equals 1e9 times the integral from T_BIRTH_MIN to t[i] of the piecewise linear function through (T_BIRTH_MIN,SFR_MIN),(t[0],sfh[0]),...,(t[i],sfh[i]).", "quantifier": "for every table length, every strictly increasing time table starting after T_BIRTH_MIN, and every SFH table", "why_tests_cant": "The identity has to hold for tables of any length and spacing; a comparison with np.trapz covers some.", "anchors": ["diffstar/utils.py:cumulative_mstar_formed", "diffstar/utils.py:cumtrapz", "diffstar/utils.py:_cumtrapz_scan_func"]}
{"id": "C12", "title": "Stellar mass histories are positive and strictly increasing", "statement": "The stellar mass history returned with return_smh=True (and by the gas functions) is positive at every time and strictly increasing along the table; more generally cumulative_mstar_formed is strictly increasing for positive SFH and non-decreasing for non-negative SFH.", "quantifier": "for every strictly increasing time table starting after T_BIRTH_MIN, every halo and every parameter vector", "why_tests_cant": "Downstream logs and inversions of M*(t) need this for every halo, not for sampled halos.", "anchors": ["diffstar/utils.py:cumulative_mstar_formed", "diffstar/sfh_model.py:calc_sfh_singlegal", "diffstar/sfh_model.py:calc_sfh_galpop"]}
{"id": "C13", "title": "Causality of the stellar mass history", "statement": "Appending later times (or changing later SFR values) does not change earlier stellar masses: cumulative_mstar_formed of a prefix of the tables is the prefix of cumulative_mstar_formed of the full tables, and continuing from the last point gives the same later masses.", "quantifier": "for every table and every cut point", "why_tests_cant": "Quantifies over all cut points of tables of every length.", "anchors": ["diffstar/utils.py:cumulative_mstar_formed", "diffstar/utils.py:cumtrapz"]}
{"id": "C14", "title": "Mass formed before the first table entry", "statement": "Documented: during (T_BIRTH_MIN, t_table[0]) the SFH is constant and equal to SFR_MIN, so mstar_formed[0] = SFR_MIN*(t_table[0]-T_BIRTH_MIN)*1e9.", "quantifier": "for every first time t[0]>T_BIRTH_MIN and every first SFR", "why_tests_cant": "A statement about every first entry; no test in the suite checks it against the documentation.", "anchors": ["diffstar/utils.py:cumulative_mstar_formed"]}
{"id": "C15", "title": "Population calls equal galaxy-by-galaxy calls", "statement": "Row i of calc_sfh_galpop (sfh and smh) equals calc_sfh_singlegal for galaxy i, and the four outputs of calc_mgas_galpop for galaxy i equal those of calc_mgas_singlegal, for every i; no galaxy influences another.", "quantifier": "for every number of galaxies, every galaxy index and every parameter array", "why_tests_cant": "Independence between rows has to hold for all population sizes and contents.", "anchors": ["diffstar/sfh_model.py:calc_sfh_galpop", "diffstar/mgas_model.py:calc_mgas_galpop", "diffstar/kernels/history_kernel_builders.py:_sfh_galpop_kern"]}
{"id": "C16", "title": "return_smh only adds the stellar mass", "statement": "With return_smh=True the sfh field equals the array returned with return_smh=False and smh equals cumulative_mstar_formed(tarr, sfh); the output lengths equal the number of input times.", "quantifier": "for every input", "why_tests_cant": "Quantifies over all inputs; a test fixes a few.", "anchors": ["diffstar/sfh_model.py:calc_sfh_singlegal", "diffstar/sfh_model.py:calc_sfh_galpop"]}
{"id": "C17", "title": "Gas budget closes exactly", "statement": "In calc_mgas_*: mgas + smh equals the integral of fb*dMh/dt over the same table, so mgas at t[i] equals the trapezoid integral of (fb*dMh/dt - SFR) from the first padded time with zero contribution from the floor pad; gas plus stars never disagrees with accreted baryons.", "quantifier": "for every halo history, parameter vector, fb and time table", "why_tests_cant": "Conservation must hold to every table entry for every halo.", "anchors": ["diffstar/mgas_model.py:calc_mgas_singlegal", "diffstar/mgas_model.py:calc_mgas_galpop", "diffstar/utils.py:cumulative_mstar_formed"]}
{"id": "C18", "title": "Gas mass is non-negative", "statement": "The remaining gas mass returned by calc_mgas_singlegal is never negative.", "quantifier": "for every halo history, parameter vector and time table", "why_tests_cant": "A sign claim over the whole parameter space.", "anchors": ["diffstar/mgas_model.py:calc_mgas_singlegal"]}
{"id": "C19", "title": "Net gas rate is the centred difference of the gas mass", "statement": "dmgash[i]*(t[i+1]-t[i-1])*1e9 = mgas[i+1]-mgas[i-1] at interior times, dmgash[0]*(t[1]-t[0])*1e9=mgas[1]-mgas[0] at the first, and if the gas mass is an affine function of time then dmgash is its slope at every entry including the last.", "quantifier": "for every strictly increasing time table with at least three entries and every halo", "why_tests_cant": "Edge handling of the first and last entries for arbitrary irregular tables.", "anchors": ["diffstar/mgas_model.py:calc_mgas_singlegal", "diffstar/utils.py:_jax_get_dt_array"]}
{"id": "C20", "title": "Time-step arrays: both implementations agree and tile the time axis", "statement": "_get_dt_array and _jax_get_dt_array return identical arrays for every table of length >= 3; the widths are positive for increasing tables and their sum is t_hi-t_lo, i.e. the bins tile [t[0]-(t[1]-t[0])/2, t_hi] without gaps; for tables with fewer than two entries the numpy version raises instead of returning values.", "quantifier": "for every table length and every table", "why_tests_cant": "Two loops written in different styles must agree for every length; tests use one table.", "anchors": ["diffstar/utils.py:_get_dt_array", "diffstar/utils.py:_jax_get_dt_array"]}
{"id": "C21", "title": "Time-averaged SFR is bounded by the SFR", "statement": "compute_fstar applied to the stellar mass of an SFH gives values between 0 and the maximum SFR for every averaging time >0; for a constant SFH c and t-tau>=t[0] it returns c exactly.", "quantifier": "for every strictly increasing table, non-negative SFH, and delay tau>0", "why_tests_cant": "Involves interpolation at arbitrary off-grid times; needs a proof over all grids.", "anchors": ["diffstar/utils.py:compute_fstar", "diffstar/utils.py:cumulative_mstar_formed"]}
{"id": "C22", "title": "Time-averaged SFR is always positive", "statement": "Documented in compute_fstar: fstar will always be positive.", "quantifier": "for every strictly increasing table and positive SFH", "why_tests_cant": "An always-claim over all tables; the shipped test silently skips the first entry.", "anchors": ["diffstar/utils.py:compute_fstar"]}
{"id": "C23", "title": "Triweight CDF is a genuine smooth CDF", "statement": "The triweight cumulative kernel is 0 below -3 sigma, 1 above +3 sigma, non-decreasing, within [0,1], symmetric (F(m+d)+F(m-d)=1), continuous, and its derivative is the non-negative triweight density (35/96)(1-z^2/9)^3/h inside; the three implementations in the package agree.", "quantifier": "for every x, centre and width h>0", "why_tests_cant": "Polynomial pieces with 5-digit denominators: a single wrong coefficient passes coarse tests.", "anchors": ["diffstar/utils.py:tw_cuml_jax_kern", "diffstar/diffstarpop/utils.py:_tw_cuml_lax_kern", "diffstar/diffstarpop/sumstats/diffndhist.py:_tw_cuml_lax_kern", "diffstar/kernels/quenching_kernels.py:_jax_tw"]}
{"id": "C24", "title": "Bin weights are probabilities that add up", "statement": "The weight of a point in a bin is non-negative for lo<=hi, additive over adjacent bins, at most 1, and the weights over contiguous bins covering [x-3sigma,x+3sigma] sum to exactly 1; the two bin-weight implementations agree.", "quantifier": "for every point, width h>0 and every sorted list of bin edges", "why_tests_cant": "Telescoping over any number of bins.", "anchors": ["diffstar/utils.py:tw_bin_jax_kern", "diffstar/diffstarpop/utils.py:_tw_bin_weight_lax_kern", "diffstar/diffstarpop/sumstats/diffndhist.py:_tw_bin_weight_lax_kern"]}
{"id": "C25", "title": "N-dimensional histograms conserve weight", "statement": "tw_ndhist / tw_ndhist_weighted are non-negative for non-negative weights, additive in the data (histogram of two concatenated catalogs is the sum), independent of row order, linear in the weights, and summed over a full product grid give at most the total weight, with equality when every point is 3 sigma inside the grid in every dimension.", "quantifier": "for every number of points, dimensions, bins and weights", "why_tests_cant": "Sums and products over arbitrary sizes and dimensions.", "anchors": ["diffstar/diffstarpop/sumstats/diffndhist.py:tw_ndhist", "diffstar/diffstarpop/sumstats/diffndhist.py:tw_ndhist_weighted"]}
{"id": "C26", "title": "Stellar-to-halo-mass relation is a weighted mean", "statement": "In every bin that receives positive weight compute_smhm returns a value between the smallest and largest logsm of the catalog; shifting or scaling all logsm shifts or scales the result; a bin with no weight is the only case with an undefined (0/0) value.", "quantifier": "for every catalog, scatter and bin edges", "why_tests_cant": "A convexity statement about all catalogs.", "anchors": ["diffstar/diffstarpop/sumstats/smhm.py:compute_smhm"]}
{"id": "C27", "title": "Predicted PDFs are normalised", "statement": "The predicted P(M*) and P(M*,sSFR) are non-negative and sum to 1, and each row of P(sSFR|M*) sums to 1, whenever their normalisation is non-zero; the combined weights of the main-sequence and quenched branches of n halos sum to n.", "quantifier": "for every population, weights, bins and parameter vector", "why_tests_cant": "Normalisation must hold for all populations, including weighted and re-indexed ones.", "anchors": ["diffstar/diffstarpop/loss_kernels/mstar_ssfr_loss_mgash_anyz.py:compute_diff_histograms_mstar_atmobs_z", "diffstar/diffstarpop/loss_kernels/mstar_ssfr_loss_mgash_anyz.py:mstar_kern_tobs", "diffstar/diffstarpop/loss_kernels/mstar_ssfr_loss_mgash_anyz.py:mstar_ssfr_kern_tobs"]}
{"id": "C28", "title": "Population losses are non-negative and vanish exactly at the target", "statement": "Each population loss is >=0 and equals 0 if and only if the prediction equals the target everywhere; the combined losses are the sums of their parts and vanish only if all parts do.", "quantifier": "for every prediction and target arrays of equal positive size", "why_tests_cant": "An if-and-only-if over all arrays.", "anchors": ["diffstar/diffstarpop/loss_kernels/mstar_ssfr_loss_mgash_anyz.py:_mse", "diffstar/diffstarpop/loss_kernels/mstar_ssfr_loss_mgash_anyz.py:loss_combined_3loss_kern"]}
{"id": "C29", "title": "Quenched fractions are probabilities", "statement": "For every unbounded DiffstarPop vector, every halo mass, peak time, upid and infall arguments, the quenched fraction used by the Monte Carlo generators lies strictly between 0 and 1.", "quantifier": "for every unbounded parameter vector and all halo inputs", "why_tests_cant": "Nested sigmoids over an 88-dimensional space cannot be sampled exhaustively.", "anchors": ["diffstar/diffstarpop/kernels/sfh_pdf_mgash.py:_frac_quench_cen", "diffstar/diffstarpop/kernels/sfh_pdf_mgash.py:_frac_quench_sat", "diffstar/diffstarpop/kernels/satquenchpop_model.py:get_qprob_sat", "diffstar/diffstarpop/kernels/diffstarpop_mgash.py:mc_diffstar_u_params_singlegal_kernel"]}
{"id": "C30", "title": "Satellite quenching only adds, and grows with time since infall", "statement": "get_qprob_sat returns a value in [qprob_cen, 1] for qprob_cen in [0,1], is non-decreasing in time since infall and in qprob_cen, and for the conventional central value gyr_since_infall=-100 exceeds qprob_cen by at most 1e-100.", "quantifier": "for every bounded satellite parameter vector and all infall arguments", "why_tests_cant": "Monotonicity over all pairs of infall times and all parameters.", "anchors": ["diffstar/diffstarpop/kernels/satquenchpop_model.py:get_qprob_sat", "diffstar/diffstarpop/kernels/satquenchpop_model.py:predict_sat_frac_delta_qprob"]}
{"id": "C31", "title": "Centrals ignore infall arguments", "statement": "For upid=-1 the Monte Carlo parameters, quenched fraction and quenched flag do not depend on lgmu_infall, logmhost_infall or gyr_since_infall and equal those of the central-only kernel with the same key.", "quantifier": "for every random key, halo and infall arguments", "why_tests_cant": "Non-interference over all argument values.", "anchors": ["diffstar/diffstarpop/kernels/diffstarpop_mgash.py:mc_diffstar_u_params_singlegal_kernel", "diffstar/diffstarpop/kernels/diffstarpop_mgash.py:mc_diffstar_u_params_singlegal_kernel_cen"]}
{"id": "C32", "title": "Monte Carlo quenched flag follows the quenched fraction", "statement": "mc_is_q is True exactly when the uniform draw is below frac_q; with the same key, raising the quenched fraction can only turn galaxies from unquenched to quenched; every returned diffstar parameter set is inside its bounds.", "quantifier": "for every key, halo and parameter vector, for every sampler", "why_tests_cant": "Holds for every draw of the random number generator.", "anchors": ["diffstar/diffstarpop/kernels/diffstarpop_mgash.py:mc_diffstar_u_params_singlegal_kernel", "diffstar/diffstarpop/mc_diffstarpop_mgash.py:mc_diffstar_params_singlegal"]}
{"id": "C33", "title": "Galaxy i of a Monte Carlo population depends only on its own inputs and key", "statement": "mc_diffstar_params_galpop and mc_diffstar_sfh_galpop give, for galaxy i, the same result as the single-galaxy function called with galaxy i inputs and the i-th split key; the four draws of one galaxy use four different sub-keys.", "quantifier": "for every population, index and root key", "why_tests_cant": "A per-row functional dependence over all populations.", "anchors": ["diffstar/diffstarpop/mc_diffstarpop_mgash.py:mc_diffstar_sfh_galpop", "diffstar/diffstarpop/mc_diffstarpop_mgash.py:mc_diffstar_u_params_galpop", "diffstar/diffstarpop/mc_diffstarpop_mgash.py:mc_diffstar_sfh_singlegal"]}
{"id": "C34", "title": "Selecting a Monte Carlo realisation picks whole parameter sets", "statement": "mc_select_diffstar_params(p1,p0,flag) returns for each galaxy all eight parameters from p1 if the flag is set and all eight from p0 otherwise; it preserves bounds, and selecting before or after computing the SFH gives the same SFH.", "quantifier": "for every pair of parameter tables and every flag array", "why_tests_cant": "Field-wise selection must never mix the two sets for any flag pattern.", "anchors": ["diffstar/diffstarpop/param_utils.py:mc_select_diffstar_params"]}
{"id": "C35", "title": "Population covariance matrices are valid", "statement": "For every unbounded DiffstarPop vector and every halo mass the three covariance blocks handed to the Gaussian sampler are symmetric positive definite, diagonal, with every standard deviation above its documented minimum 0.01.", "quantifier": "for every unbounded parameter vector and every halo mass", "why_tests_cant": "Positive definiteness over an 88-dimensional parameter space; sampling misses the singular slope values.", "anchors": ["diffstar/diffstarpop/kernels/sfh_pdf_mgash.py:_get_covariance_mseq_ms_block", "diffstar/diffstarpop/kernels/sfh_pdf_mgash.py:_get_covariance_qseq_ms_block", "diffstar/diffstarpop/kernels/sfh_pdf_mgash.py:_get_covariance_qseq_q_block"]}
{"id": "C36", "title": "Clipped line stays within its bounds", "statement": "smoothly_clipped_line(x,x0,y0,m,y_lo,y_hi) lies strictly between y_lo and y_hi for every x whenever y_lo<y0<y_hi.", "quantifier": "for every x, reference point, slope m and bounds with y_lo<y0<y_hi", "why_tests_cant": "The shipped test tries one geometry; the claim is about all slopes and all positions of y0 between the bounds.", "anchors": ["diffstar/diffstarpop/utils.py:smoothly_clipped_line", "diffstar/diffstarpop/kernels/sfh_pdf_mgash.py:line_model"]}
{"id": "C37", "title": "DiffstarPop parameter transforms are inverse and in bounds", "statement": "get_bounded_diffstarpop_params maps every unbounded vector strictly inside DIFFSTARPOP_PBOUNDS and is inverse to get_unbounded_diffstarpop_params in both directions; field values never get permuted between names.", "quantifier": "for every unbounded vector and every in-bounds vector (88 fields)", "why_tests_cant": "Positional construction of 88-field tuples: a swapped pair passes most tests.", "anchors": ["diffstar/diffstarpop/kernels/defaults_mgash.py:get_bounded_diffstarpop_params", "diffstar/diffstarpop/kernels/defaults_mgash.py:get_unbounded_diffstarpop_params", "diffstar/diffstarpop/kernels/sfh_pdf_mgash.py:get_bounded_sfh_pdf_params", "diffstar/diffstarpop/kernels/satquenchpop_model.py:get_bounded_satquenchpop_params"]}
{"id": "C38", "title": "Every shipped calibration is strictly inside its bounds and usable", "statement": "Each of the ten shipped DiffstarPop calibrations and the default one lists its parameters in the same field order as the model, has every value strictly inside the bounds and every slope non-zero, so it round-trips through the unbounded parameters.", "quantifier": "for every shipped calibration and every one of its 79 (+9) fields", "why_tests_cant": "Shipped tests check finiteness of predictions, not order and strictness for all fields.", "anchors": ["diffstar/diffstarpop/kernels/params/params_diffstarpopfits_mgash.py", "diffstar/diffstarpop/kernels/params/params_diffstarfits_mgash.py", "diffstar/diffstarpop/kernels/sfh_pdf_mgash.py:SFH_PDF_QUENCH_BOUNDS_PDICT"]}
{"id": "C39", "title": "Covariance and correlation conversions are inverse", "statement": "correlation_from_covariance(covariance_from_correlation(corr, s)) = corr for unit-diagonal corr and positive s, the covariance has diagonal s**2 and is symmetric/positive (semi)definite whenever corr is; converting back with s=sqrt(diag) recovers the covariance.", "quantifier": "for every dimension n, correlation matrix and positive standard deviations", "why_tests_cant": "For all matrices of all sizes.", "anchors": ["diffstar/diffstarpop/utils.py:correlation_from_covariance", "diffstar/diffstarpop/utils.py:covariance_from_correlation"]}
{"id": "C40", "title": "Overriding a subset of parameters changes exactly that subset", "statement": "get_all_params_from_varied returns the varied value for every varied field and the default value for every other field, in the default field order; a varied field unknown to the defaults raises an error instead of being dropped; applying the same override twice changes nothing.", "quantifier": "for every defaults tuple and every varied tuple", "why_tests_cant": "Quantifies over all subsets of fields.", "anchors": ["diffstar/diffstarpop/param_utils.py:get_all_params_from_varied", "diffstar/diffstarpop/param_utils.py:get_all_diffstarpop_u_params"]}
{"id": "C41", "title": "jax_np_interp is np.interp", "statement": "With indx_hi computed by np.searchsorted, jax_np_interp(x,xt,yt,indx_hi) equals np.interp(x,xt,yt).", "quantifier": "for every strictly increasing table and every x", "why_tests_cant": "Boundary and out-of-range behaviour for all tables.", "anchors": ["diffstar/utils.py:jax_np_interp"]}
{"id": "C42", "title": "The fit driver returns the best attempt it made", "statement": "minimizer_wrapper makes max_iter attempts, fewer only if one reached the tolerance or if a start failed after a NaN loss, and returns the parameters, loss and success flag of one and the same attempt, whose loss is the smallest non-NaN loss over all attempts (first such); if every loss is NaN or no attempt was made it returns the initial guess with loss 999.99 and success -1.", "quantifier": "for every sequence of optimiser outcomes (including NaNs) and every max_iter and tolerance", "why_tests_cant": "The outcome sequence is adversarial; tests see a few benign ones.", "anchors": ["diffstar/fitting_helpers/utils.py:minimizer_wrapper"]}
{"id": "C43", "title": "The fit driver keeps trying until it succeeds or runs out of attempts", "statement": "minimizer_wrapper stops before max_iter attempts only if the best loss so far is at or below loss_tol.", "quantifier": "for every sequence of optimiser outcomes", "why_tests_cant": "Depends on interleavings of NaN losses and failed initialisations that tests do not produce.", "anchors": ["diffstar/fitting_helpers/utils.py:minimizer_wrapper"]}
{"id": "C44", "title": "Random initialisation never returns a bad start silently", "statement": "return_random_pinit evaluates at most 1001 draws and returns isnan=False only with a start point whose gradient has no NaN; isnan=True is returned only if all 1001 draws had NaN gradients.", "quantifier": "for every stream of random draws and every gradient function", "why_tests_cant": "Over all infinite random streams.", "anchors": ["diffstar/fitting_helpers/utils.py:return_random_pinit"]}
{"id": "C45", "title": "Adam driver reports the best step and terminates cleanly", "statement": "_jax_adam_wrapper returns the recorded parameters with the smallest recorded loss; if a NaN/inf appears at step k the returned history has exactly k entries, and the parameters are still the best of those k (or the initial parameters with loss 999.99 when k=0); jax_adam_wrapper_v2 reports fit_terminates=1 exactly when all n_step steps completed.", "quantifier": "for every loss function, optimiser update rule, number of steps and failure step", "why_tests_cant": "Failure may occur at any step of any run.", "anchors": ["diffstar/fitting_helpers/utils.py:_jax_adam_wrapper", "diffstar/fitting_helpers/utils.py:jax_adam_wrapper_v2", "diffstar/fitting_helpers/utils.py:minimizer"]}
{"id": "C46", "title": "Fit weights are positive and always use the final snapshot", "statement": "get_weights returns weights in {0.5, 1, 1e10} for every snapshot; the last snapshot always has stellar-mass weight 0.5; snapshots failing the mass or time cuts and more than 0.1 dex below the final mass get 1e10; every snapshot earlier than fstar_tdelay+0.01 has fstar weight 1e10.", "quantifier": "for every mass history and every choice of cuts", "why_tests_cant": "Interplay of overlapping masks for all histories.", "anchors": ["diffstar/fitting_helpers/diffstar_fitting_helpers.py:get_weights"]}
{"id": "C47", "title": "Initial guess of the fitter adapts to halo mass", "statement": "get_loss_data_default sets the initial quenching time guess to clip(1.5-0.5(logmp0-11),0.7,1.5) and the initial drop to -2, as the code computes before building the guess.", "quantifier": "for every halo mass", "why_tests_cant": "A discarded assignment produces no exception and no test looks at the initial quenching guess.", "anchors": ["diffstar/fitting_helpers/diffstar_fitting_helpers.py:get_loss_data_default"]}
{"id": "C48", "title": "Initial guess of the fitter is always inside the bounds", "statement": "For every halo mass the initial main-sequence and quenching guesses lie strictly inside the parameter bounds, so the unbounded start vector is finite and its bounded image is the guess itself.", "quantifier": "for every real halo mass logmp0", "why_tests_cant": "For every halo mass, including extreme ones.", "anchors": ["diffstar/fitting_helpers/diffstar_fitting_helpers.py:get_loss_data_default", "diffstar/kernels/main_sequence_kernels.py:_get_unbounded_sfr_params"]}
{"id": "C49", "title": "Fit loss is non-negative and penalises quenching before the SFR peak", "statement": "loss_default_clipssfrh is positive for every input, its ridge term lies in (0,100) and is decreasing in lg_qt - lgt_fstar_max, the SFR residual term is at most 4 for weights >= 0.5, and the loss reduces to the ridge term when the model reproduces the target.", "quantifier": "for every parameter vector and target", "why_tests_cant": "For every parameter vector an optimiser may visit.", "anchors": ["diffstar/fitting_helpers/diffstar_fitting_helpers.py:loss_default_clipssfrh"]}
{"id": "C50", "title": "Output rows always match the header", "statement": "Every line produced by get_outline or get_outline_nofit splits on whitespace into exactly as many tokens as there are column names in get_header, halo_id first and success last.", "quantifier": "for every halo id, parameter vector, loss and flag", "why_tests_cant": "For every value formatted.", "anchors": ["diffstar/fitting_helpers/diffstar_fitting_helpers.py:get_header", "diffstar/fitting_helpers/diffstar_fitting_helpers.py:get_outline", "diffstar/fitting_helpers/diffstar_fitting_helpers.py:get_outline_nofit"]}
{"id": "C51", "title": "Collated file stores each column under its name", "statement": "write_collated_data writes, for each column name, exactly that column of the table in row order (integers for halo_id and success), and refuses a table whose number of columns differs from the header.", "quantifier": "for every table and header", "why_tests_cant": "For all tables.", "anchors": ["diffstar/fitting_helpers/diffstar_fitting_helpers.py:write_collated_data"]}
{"id": "C52", "title": "Work is divided among ranks without loss, duplication or imbalance", "statement": "Splitting n halos over r ranks assigns every halo to exactly one rank, in order, with rank sizes differing by at most one; concatenating the rank results in rank order restores the original order.", "quantifier": "for every number of halos and every number of ranks >= 1", "why_tests_cant": "For all n and r.", "anchors": ["scripts/diffstar_fitting_script_umachine.py", "scripts/history_fitting_script_TNG_mgash.py", "scripts/galacticus_diffstar_fitter_script_mgash.py"]}
{"id": "C53", "title": "Parallel fitting writes one row per halo for any number of ranks", "statement": "For every number of halos and ranks the collation step of the fitting scripts succeeds and yields one row per halo in halo order.", "quantifier": "for every n and r >= 1", "why_tests_cant": "Small-per-rank corner cases (0 or 1 halos on a rank) are not exercised.", "anchors": ["scripts/diffstar_fitting_script_umachine.py", "diffstar/fitting_helpers/diffstar_fitting_helpers.py:write_collated_data"]}
{"id": "C54", "title": "Halos without a usable halo-assembly fit are never fitted", "statement": "The fitting scripts run the SFH fitter only on halos whose assembly-history fit is usable according to the loader (loss>=0 and enough points); all other halos get the no-fit output row.", "quantifier": "for every catalog row", "why_tests_cant": "Depends on combinations of loss and point counts in the catalog.", "anchors": ["diffstar/data_loaders/load_smah_data.py:load_smdpl_diffmah_fits", "scripts/diffstar_fitting_script_umachine.py", "scripts/galacticus_diffstar_fitter_script_mgash.py"]}
{"id": "C55", "title": "No-fit filling in the halo loader", "statement": "load_smdpl_diffmah_fits returns all-(-1) parameters exactly for rows with loss<0 or too few points, leaves every other row untouched, and computes logmp0 of a usable row from its own parameters.", "quantifier": "for every catalog and every threshold", "why_tests_cant": "For all catalogs.", "anchors": ["diffstar/data_loaders/load_smah_data.py:load_smdpl_diffmah_fits"]}
{"id": "C56", "title": "Loaded halo mass histories never decrease", "statement": "log_mahs returned by the SMDPL loaders are non-decreasing along time, at least 0, dominated by nothing but the running maximum of the clipped input, and logmp0 is their maximum.", "quantifier": "for every halo history of positive length", "why_tests_cant": "For all histories.", "anchors": ["diffstar/data_loaders/load_smah_data.py:load_SMDPL_nomerging_data", "diffstar/data_loaders/load_smah_data.py:load_SMDPL_DR1_data"]}
{"id": "C57", "title": "Galacticus SFH conserves formed mass", "statement": "sum over snapshots of sfh*dt*1e9 equals the total mass formed in the tabulated bins (disk plus bulge), for strictly increasing positive times, and negative SFR never appears for non-negative mass increments.", "quantifier": "for every table", "why_tests_cant": "For all tables.", "anchors": ["diffstar/data_loaders/load_galacticus_sfh.py:load_galacticus_sfh_target_data"]}
{"id": "C58", "title": "Reading a file in blocks equals reading it whole", "statement": "Concatenating load_flat_hdf5 (or load_galacticus_sfh_data_block) over consecutive index blocks gives the whole-file arrays; row i of block [istart,iend) is row istart+i of the file.", "quantifier": "for every file and every partition into blocks", "why_tests_cant": "For all partitions.", "anchors": ["diffstar/data_loaders/utils.py:load_flat_hdf5", "diffstar/data_loaders/load_galacticus_sfh.py:load_galacticus_sfh_data_block"]}
{"id": "C59", "title": "Extracting a block of Galacticus histories equals slicing the full extraction", "statement": "extract_galacticus_sfh_tables(fn,col,istart,iend) returns rows istart..iend-1 of the full extraction.", "quantifier": "for every file and every 0<=istart<=iend<=n", "why_tests_cant": "The default istart=0 hides indexing mistakes.", "anchors": ["diffstar/data_loaders/extract_galacticus_sfh_data.py:extract_galacticus_sfh_tables"]}
{"id": "C60", "title": "Broadcasting helper", "statement": "get_1d_arrays returns arrays of one common length, expanding scalars by repetition and leaving full arrays unchanged, and raises for any other combination of sizes.", "quantifier": "for every list of arguments", "why_tests_cant": "For all shapes.", "anchors": ["diffstar/utils.py:get_1d_arrays"]}
{"id": "C61", "title": "Files written by the fitter can be read back", "statement": "A file written by write_collated_data with the standard header can be loaded with load_fit_sfh.", "quantifier": "for every table of fits", "why_tests_cant": "No test writes and then reads a file with the loader.", "anchors": ["diffstar/data_loaders/load_smah_data.py:load_fit_sfh", "diffstar/fitting_helpers/diffstar_fitting_helpers.py:write_collated_data", "diffstar/fitting_helpers/diffstar_fitting_helpers.py:get_header"]}
{"id": "C62", "title": "Algebraic sigmoid is a bounded monotone transition", "statement": "sigmoid_poly lies strictly between ymin and ymax, is strictly increasing for k>0 and ymin<ymax, equals the midpoint at x0 and is antisymmetric about it.", "quantifier": "for every x, x0, k>0, ymin<ymax", "why_tests_cant": "For all reals.", "anchors": ["diffstar/utils.py:sigmoid_poly"]}
{"id": "C63", "title": "Padding ragged halo bins does not change the prediction", "statement": "Contracting the padded dense arrays from prepare_ragged gives exactly the weighted sum over the real (unpadded) halo bins of each redshift.", "quantifier": "for every ragged index list, weights and per-bin prediction (including undefined ones)", "why_tests_cant": "For all ragged shapes.", "anchors": ["scripts/diffstarpop_scripts/fit_get_loss_helpers_mgash.py:prepare_ragged", "diffstar/diffstarpop/loss_kernels/mstar_ssfr_loss_mgash_anyz.py:mstar_ssfr_kern_tobs"]}
{"id": "C64", "title": "Best-fit parameters reported by the fitter are always in bounds", "statement": "Whenever the parameters returned by diffstar_fitter are numbers they are strictly inside the Diffstar bounds, whatever the optimiser did; success is 1 or -1 and the loss is not NaN; a fit with success -1 reports the loss 999.99 and the start guess, which is inside the bounds.", "quantifier": "for every input SFH and every optimiser behaviour", "why_tests_cant": "For all optimiser outcomes.", "anchors": ["diffstar/fitting_helpers/diffstar_fitting_helpers.py:diffstar_fitter", "diffstar/fitting_helpers/utils.py:minimizer_wrapper"]}
{"id": "C65", "title": "Documented way of overriding population parameters works", "statement": "get_all_diffstarpop_u_params accepts, as documented, a namedtuple with the entries u_sfh_pdf_cens_params and u_satquench_params and returns the full parameter tuple with the varied values.", "quantifier": "for every choice of values", "why_tests_cant": "Whether the documented convention can ever succeed is a statement about all inputs.", "anchors": ["diffstar/diffstarpop/param_utils.py:get_all_diffstarpop_u_params", "diffstar/diffstarpop/kernels/defaults_mgash.py:DiffstarPopUParams"]}
{"id": "C66", "title": "minimizer reports how the fit ended", "statement": "minimizer returns success 1 exactly when L-BFGS-B reports success (with its parameters and loss), 0 when the Adam backup completes all steps without NaN/inf, and -1 otherwise; extra positional arguments are forwarded to the Adam backup as documented by the signature.", "quantifier": "for every optimiser outcome, number of steps and extra arguments", "why_tests_cant": "The backup path runs only when L-BFGS-B fails, which tests do not trigger.", "anchors": ["diffstar/fitting_helpers/utils.py:minimizer", "diffstar/fitting_helpers/utils.py:jax_adam_wrapper_v2"]}
{"id": "C67", "title": "Loss data are finite for every physical SFH", "statement": "For every non-negative SFH (including identically zero) on an increasing time table after 1 Myr, get_loss_data_default succeeds, every target logarithm is taken of a positive number, the target averaged SFR spans at most three decades, and lgt_fstar_max is the log time of the first maximum of the target.", "quantifier": "for every SFH, time table, cut and positive floor", "why_tests_cant": "For all histories, including zeros that would give log(0).", "anchors": ["diffstar/fitting_helpers/diffstar_fitting_helpers.py:get_loss_data_default"]}
{"id": "C68", "title": "Success flag of the fit driver means a usable loss", "statement": "minimizer_wrapper reports success 1 only if no NaN or inf was met, as documented: the reported loss is then a finite number produced by an optimiser run from a start with NaN-free gradient.", "quantifier": "for every sequence of optimiser outcomes", "why_tests_cant": "Requires optimiser runs ending in inf.", "anchors": ["diffstar/fitting_helpers/utils.py:minimizer_wrapper"]}
{"id": "C69", "title": "Numbers survive the text output", "statement": "Every number written by get_outline and read back by write_collated_data is recovered: NaN and infinities are kept, finite numbers to a relative precision of 5e-6 of their decade (0.000005 times the power of ten of their leading digit), numbers with at most six significant digits exactly, halo ids and success flags exactly.", "quantifier": "for every real number and every integer", "why_tests_cant": "Formatting has to be right for all magnitudes and roundings (carry into the next decade, negative exponents).", "anchors": ["diffstar/fitting_helpers/diffstar_fitting_helpers.py:get_outline", "diffstar/fitting_helpers/diffstar_fitting_helpers.py:write_collated_data"]}
{"id": "C70", "title": "Block reads of a rank match its halos", "statement": "The halo indices of each MPI rank are a contiguous block, so that reading rows [first index, last index + 1) of the input files gives exactly the halos assigned to the rank, in order; this works for every number of ranks.", "quantifier": "for every number of halos and ranks", "why_tests_cant": "For all splits, including more ranks than halos.", "anchors": ["scripts/history_fitting_script_TNG_mgash.py", "scripts/galacticus_diffstar_fitter_script_mgash.py"]}
{"id": "C71", "title": "Target histograms count every halo once", "statement": "In the target measurement, per redshift and halo mass bin, the counts of centrals and satellites add up to the count of all halos; every halo whose mass is in the closed range of the bins is counted in exactly one bin; the summed log stellar masses add up to the sum over these halos; the smooth (kernel) counts are non-negative and each halo adds at most one.", "quantifier": "for every population, strictly increasing bin edges and redshift index", "why_tests_cant": "A statement about every catalogue, including halos exactly on an edge and values outside the grid.", "anchors": ["scripts/diffstarpop_scripts/smhm_utils_smdpl_mgash.py:create_target_data", "scripts/diffstarpop_scripts/smhm_utils_smdpl_mgash.py:compute_histograms_atz", "scripts/diffstarpop_scripts/smhm_utils_smdpl_mgash.py:compute_diff_histograms_atz"]}
{"id": "C72", "title": "All targets of a halo mass bin describe the same halos", "statement": "The halos behind the stellar mass targets and behind the halo samples of a halo mass bin are exactly those behind the halo count of that bin.", "quantifier": "for every population and bin edges", "why_tests_cant": "The selections differ only for halos exactly on a bin edge, which random test catalogues never contain.", "anchors": ["scripts/diffstarpop_scripts/smhm_utils_smdpl_mgash.py:create_target_data", "scripts/diffstarpop_scripts/smhm_utils_smdpl_mgash.py:create_pdf_target_data", "scripts/diffstarpop_scripts/smhm_utils_smdpl_mgash.py:sample_halos"]}
{"id": "C73", "title": "Targets do not depend on the split in subvolumes", "statement": "Collecting the temporary files of all subvolumes gives the measurement of the pooled population, so the tabulated stellar-to-halo mass relation is the mean over all halos of the bin; a subvolume without input files is left out.", "quantifier": "for every number of subvolumes and every split of the population", "why_tests_cant": "For all splits; tests use at most one or two subvolumes.", "anchors": ["scripts/diffstarpop_scripts/measure_smhm_smdpl_script_mpi_mgash.py", "scripts/diffstarpop_scripts/smhm_utils_smdpl_mgash.py:create_target_data"]}
{"id": "C74", "title": "Halo samples are real, distinct and bounded", "statement": "The rows of the sample file of one redshift belong to different halos, all columns of a row belong to the same halo, which lies in the labelled mass bin; each bin has all its halos or the maximum per subvolume; over all subvolumes a bin gets at most 20000 halos.", "quantifier": "for every population, bin edges and every behaviour of the random choice allowed by numpy", "why_tests_cant": "For every outcome of the random generator.", "anchors": ["scripts/diffstarpop_scripts/smhm_utils_smdpl_mgash.py:sample_halos"]}
{"id": "C75", "title": "Targets are measured at the requested redshift", "statement": "The time index used for a target redshift is that of the first table time at or after the age at that redshift: never early and at most one table step late; a redshift reached after the last table time is rejected.", "quantifier": "for every decreasing age-redshift relation, target redshift and table end", "why_tests_cant": "For all cosmologies and redshifts.", "anchors": ["scripts/diffstarpop_scripts/smhm_utils_smdpl_mgash.py:return_target_redshfit_index"]}
{"id": "C76", "title": "Tabulated histories belong to the galaxies of the catalogue", "statement": "The rows of the history tables are the catalogue rows with usable fits, in order, and each row is the direct evaluation of that galaxy at the table times, for the SMDPL, Galacticus and TNG catalogues and for any lgt0.", "quantifier": "for every catalogue, number of times and lgt0", "why_tests_cant": "The code paths need the simulation catalogues, which the tests do not have.", "anchors": ["scripts/diffstarpop_scripts/smhm_utils_smdpl_mgash.py:load_diffstar_sfh_tables", "scripts/diffstarpop_scripts/smhm_utils_tng_mgash.py:load_diffstar_sfh_tables", "scripts/diffstarpop_scripts/smhm_utils_galacticus_mgash.py:load_diffstar_sfh_tables"]}
{"id": "C77", "title": "Joint and stellar mass targets are consistent", "statement": "Summed over the bins of specific star formation rate, the joint (stellar mass, sSFR) targets of centrals and satellites add up to the stellar mass target of the same halo mass bin.", "quantifier": "for every population and halo mass bin", "why_tests_cant": "Kernel leakage at the end of the grid only appears for galaxies above log10 sSFR = -8.52.", "anchors": ["scripts/diffstarpop_scripts/smhm_utils_smdpl_mgash.py:create_pdf_target_data", "scripts/diffstarpop_scripts/smhm_utils_smdpl_mgash.py:compute_diff_histograms_mstar_ssfr_atz"]}
{"id": "C78", "title": "Loss data keep exactly the populated bins", "statement": "The loss data have, in the order (redshift, halo mass bin), one entry for every bin with at least 50 sampled halos of the wanted kind; an entry has the requested number of halos, all of this redshift, bin and kind, without repetition if there are enough; the index arrays number the entries consecutively and name their bins. get_loss_data_smhm needs the requested number of halos, which are then distinct.", "quantifier": "for every sample file, number of halos and outcome of the random choice", "why_tests_cant": "For all occupation patterns, including empty bins and redshifts.", "anchors": ["scripts/diffstarpop_scripts/fit_get_loss_helpers_mgash.py:get_loss_data_pdfs_ssfr_central", "scripts/diffstarpop_scripts/fit_get_loss_helpers_mgash.py:get_loss_data_smhm"]}
{"id": "C79", "title": "Loss targets are distributions", "statement": "The halo mass distribution, the stellar mass targets, the joint distribution within a halo bin and every row of the sSFR targets are non-negative and sum to one, or are zero / undefined exactly when there is nothing to normalise.", "quantifier": "for every measured target table", "why_tests_cant": "For all tables, including empty rows.", "anchors": ["scripts/diffstarpop_scripts/fit_get_loss_helpers_mgash.py:get_loss_data_pdfs_mstar", "scripts/diffstarpop_scripts/fit_get_loss_helpers_mgash.py:get_loss_data_pdfs_ssfr_central"]}
{"id": "C80", "title": "A perfect model reproduces the sSFR target", "statement": "If the predicted joint distribution of every halo bin is exactly the measured one, the predicted conditional sSFR distribution equals the target, so that the loss is zero at the truth.", "quantifier": "for every measured joint distribution and halo counts", "why_tests_cant": "Self-consistency of target and prediction over all halo mass functions.", "anchors": ["scripts/diffstarpop_scripts/fit_get_loss_helpers_mgash.py:get_loss_data_pdfs_ssfr_central", "diffstar/diffstarpop/loss_kernels/mstar_ssfr_loss_mgash_anyz.py"]}
{"id": "C81", "title": "The satellite loss constrains the satellite parameters", "statement": "The predicted satellite distributions used in the loss depend on the satellite quenching parameters.", "quantifier": "for every pair of satellite parameter sets and every halo sample made by the loss data functions", "why_tests_cant": "A loss that is flat in some parameters still decreases in every test of the fit.", "anchors": ["scripts/diffstarpop_scripts/fit_get_loss_helpers_mgash.py:get_loss_data_pdfs_ssfr_satellite", "diffstar/diffstarpop/kernels/satquenchpop_model.py"]}
{"id": "C82", "title": "The population fit saves its best parameters", "statement": "The population fit saves parameters with finite loss and gradient whose loss is at most that of the starting point, namely the first optimiser iterate with the least loss; it recovers from non-finite values by an extra step from the last good point.", "quantifier": "for every loss function, optimiser, starting point and number of steps", "why_tests_cant": "NaN losses at chosen iterations and all optimiser behaviours.", "anchors": ["scripts/diffstarpop_scripts/fit_mstar_ssfr_pdfs_mgash.py"]}
{"id": "C83", "title": "A subvolume is found under its listed name", "statement": "return_subvol_str gives, for a subvolume of the listing, its name in the listing, whether or not the names are zero-padded.", "quantifier": "for every listing and every subvolume in it", "why_tests_cant": "Directory listings with mixed digit counts depend on which subvolumes exist.", "anchors": ["scripts/diffstarpop_scripts/smhm_utils_smdpl_mgash.py:return_subvol_str"]}
{"id": "C84", "title": "Saved loss data are read back unchanged", "statement": "Writing the three tuples of loss data to a file and reading it back gives the same values in the same order; tuples of the wrong length are rejected.", "quantifier": "for all tuples of arrays, numbers and sequences of arrays", "why_tests_cant": "Ordering by name of the stored elements only goes wrong beyond the length of every test file.", "anchors": ["scripts/diffstarpop_scripts/save_loss_data.py:save_loss_data_h5", "scripts/diffstarpop_scripts/save_loss_data.py:load_loss_data_h5", "scripts/diffstarpop_scripts/save_loss_data.py:_save_value"]}
{"id": "C85", "title": "Fit quality compares averages over the same galaxies", "statement": "For every halo mass bin the saved stellar mass and SFR are the averages over all galaxies of the bin in all subvolumes, with specific rates raised to at least 1e-12 per year, for data and fits.", "quantifier": "for every catalogue, list of subvolumes and mass bin", "why_tests_cant": "Special values (SFR exactly 0 or 1) that mark missing data only occur in real catalogues.", "anchors": ["scripts/diffstarpop_scripts/calculate_quality_diffstar_fits_mgash.py:calculate_plot_tng"]}
{"id": "C86", "title": "Galacticus mass histories are prepared for the fit", "statement": "No time of any rank is after the common last time; the fitter gets increasing times that end there and the running maximum of the masses, and a halo is skipped exactly if it lives less than the minimum.", "quantifier": "for every set of merger tree histories and number of ranks", "why_tests_cant": "For all histories and splits over ranks.", "anchors": ["scripts/galacticus_analysis/galacticus_diffmah_fitter_script.py"]}
{"id": "C87", "title": "Histories are smooth functions of the parameters", "statement": "The star formation rate at any time is continuous in the eight (bounded or unbounded) Diffstar parameters and three times continuously differentiable wherever it is above its floor of 1e-14, including at the break points of the quenching function; so is the stellar mass where no rate is at the floor.", "quantifier": "for every halo history, time table, parameter vector and entry of the table", "why_tests_cant": "Finite differences at sample points cannot show continuity of derivatives at the break points.", "anchors": ["diffstar/sfh_model.py:calc_sfh_singlegal", "diffstar/kernels/quenching_kernels.py:_quenching_kern", "diffstar/defaults.py:get_bounded_diffstar_params"]}
{"id": "C88", "title": "The main-sequence efficiency has a single peak and power-law wings", "statement": "For indx_lo > 0 > indx_hi the efficiency strictly rises with halo mass up to exactly one peak, within 2/9 dex of lgmcrit, and strictly falls above; far away it is a power law of index indx_lo resp. indx_hi up to an exponentially small difference; 10**lgy_at_mcrit is a factor of the star formation rate (up to the floor).", "quantifier": "for every halo mass and parameter values", "why_tests_cant": "Uniqueness of the peak for all slopes.", "anchors": ["diffstar/kernels/main_sequence_kernels.py:_sfr_eff_plaw", "diffstar/sfh_model.py:calc_sfh_singlegal"]}
{"id": "C89", "title": "Histories are monotone in normalisation, drop, rejuvenation and baryon fraction", "statement": "Raising lgy_at_mcrit, lg_drop, lg_rejuv or fb, all else equal, lowers neither the star formation rate nor the stellar mass at any time.", "quantifier": "for every halo history, increasing time table and ordered pair of parameters", "why_tests_cant": "For all times and parameters.", "anchors": ["diffstar/sfh_model.py:calc_sfh_singlegal", "diffstar/kernels/history_kernel_builders.py:_sfh_singlegal_scalar"]}
{"id": "C90", "title": "Galacticus blocks contain the masses of the file", "statement": "From the Galacticus file through extraction, target data and block file to a block of rows: rate times bin width is the mass formed in that bin by that galaxy, summed over metallicities, disk plus bulge, for total and in situ histories; time array complete, flags and halo history tables of the same galaxies.", "quantifier": "for every file with regular columns and every block", "why_tests_cant": "Wrong halves, wrong rows or swapped columns only show on asymmetric data.", "anchors": ["diffstar/data_loaders/extract_galacticus_sfh_data.py:extract_galacticus_sfh_tables", "diffstar/data_loaders/load_galacticus_sfh.py:write_galacticus_sfh_data_block", "diffstar/data_loaders/load_galacticus_sfh.py:load_galacticus_sfh_target_data", "diffstar/data_loaders/extract_galacticus_sfh_data.py:extract_galacticus_mah_tables"]}
{"id": "C91", "title": "Array versions of the parameter transforms act galaxy by galaxy", "statement": "Bounding and unbounding arrays of shape (n, 4) gives row by row what the transforms of the full parameter tuple give, entries are in bounds, the round trip is the identity, and other numbers of columns are rejected.", "quantifier": "for every array", "why_tests_cant": "For all population sizes and values.", "anchors": ["diffstar/kernels/main_sequence_kernels.py:_get_bounded_sfr_params_galpop_kern", "diffstar/kernels/quenching_kernels.py:_get_bounded_q_params_galpop_kern", "diffstar/kernels/quenching_kernels.py:_get_bounded_lg_drop"]}
{"id": "C92", "title": "Weighted predictions are expected counts of the Monte Carlo catalogue", "statement": "If the uniform draws of the galaxies are independent and uniform on [0,1), the quenched flags of a population are independent with probabilities equal to the returned quenched fractions, nothing else in the output depends on these draws, and the predicted stellar mass distribution and joint distribution of mass and specific star formation rate are the expected counts of the Monte Carlo catalogue in each bin divided by the expected total.", "quantifier": "for every population, parameter vector, key, bins and pattern of flags", "why_tests_cant": "A probability statement over all draws; sampling only estimates it.", "anchors": ["diffstar/diffstarpop/kernels/diffstarpop_mgash.py:mc_diffstar_u_params_singlegal_kernel", "diffstar/diffstarpop/mc_diffstarpop_mgash.py:mc_diffstar_sfh_galpop", "diffstar/diffstarpop/loss_kernels/mstar_ssfr_loss_mgash_anyz.py:mstar_kern_tobs", "diffstar/diffstarpop/loss_kernels/mstar_ssfr_loss_mgash_anyz.py:mstar_ssfr_kern_tobs"]}
{"id": "C93", "title": "Population losses are smooth in the 88 parameters wherever they are not NaN", "statement": "At every parameter vector where the stellar mass loss, the sSFR losses or their sums are numbers, they are numbers in a neighbourhood and continuous there; and up to three times continuously differentiable unless some history touches the star formation floor 1e-14 or some log sSFR is exactly the clipping value -12. So the gradients used by the fitters exist and are themselves continuous.", "quantifier": "for every parameter vector with mean_urej_slp not zero (see C136), halo samples observed after 0.1 Gyr, bins and targets, given that the normal sampler is a smooth function of mean and covariance", "why_tests_cant": "Differentiability at all points of an 88-dimensional space with triweight bins, two branches and a Cholesky-based sampler.", "anchors": ["diffstar/diffstarpop/loss_kernels/mstar_ssfr_loss_mgash_anyz.py:loss_mstar_kern_tobs", "diffstar/diffstarpop/loss_kernels/mstar_ssfr_loss_mgash_anyz.py:loss_mstar_ssfr_kern_tobs", "diffstar/diffstarpop/loss_kernels/mstar_ssfr_loss_mgash_anyz.py:loss_combined_3loss_kern"]}
{"id": "C94", "title": "Exactly which population parameters give NaN", "statement": "The draws of the star-forming branch contain a NaN exactly when one of its 6 slope parameters is zero and those of the quenched branch exactly when one of its 13 slopes is zero; this is a removable singularity of the smoothly clipped line. The stellar mass loss is a number exactly when no slope is zero and every target has a galaxy within reach of its bins; the sSFR losses exactly when no slope is zero, every halo bin used has a galaxy within reach of the joint bins and every target row is reached by a halo bin with positive weight.", "quantifier": "for every parameter vector, galaxy, halo sample, bins and targets; for the losses mean_urej_slp is not zero (there the rates before the quenching time stay numbers, see C136)", "why_tests_cant": "The NaN set is a union of hyperplanes of measure zero which random sampling never hits.", "anchors": ["diffstar/diffstarpop/kernels/diffstarpop_mgash.py:mc_diffstar_u_params_singlegal_kernel", "diffstar/diffstarpop/loss_kernels/mstar_ssfr_loss_mgash_anyz.py:loss_mstar_kern_tobs", "diffstar/diffstarpop/loss_kernels/mstar_ssfr_loss_mgash_anyz.py:loss_mstar_ssfr_kern_tobs"]}
{"id": "C95", "title": "The flat-array loss wrappers return the loss and its true gradient", "statement": "A flat vector of 88 numbers is read in field order; any other length is an error. Wherever the loss is differentiable (C93) the wrappers return the loss and 88 numbers whose product with any direction is the derivative of the returned loss in that direction; a sufficiently small step against a non-zero gradient lowers the loss; the gradients of the combined losses are the sums of the gradients of their parts; the prediction wrappers give the predictions the loss is computed from.", "quantifier": "for every flat vector, direction, halo sample, bins and targets, given that automatic differentiation returns the partial derivatives of differentiable functions", "why_tests_cant": "Finite differences only check single directions at single points and cannot show the order of 88 entries or the sum rule.", "anchors": ["diffstar/diffstarpop/loss_kernels/mstar_ssfr_loss_mgash_anyz.py:loss_mstar_kern_tobs_grad_wrapper", "diffstar/diffstarpop/loss_kernels/mstar_ssfr_loss_mgash_anyz.py:loss_mstar_ssfr_kern_tobs_grad_wrapper", "diffstar/diffstarpop/loss_kernels/mstar_ssfr_loss_mgash_anyz.py:loss_mstar_ssfr_sat_kern_tobs_grad_wrapper", "diffstar/diffstarpop/loss_kernels/mstar_ssfr_loss_mgash_anyz.py:loss_combined_wrapper", "diffstar/diffstarpop/loss_kernels/mstar_ssfr_loss_mgash_anyz.py:loss_combined_3loss_wrapper", "diffstar/diffstarpop/loss_kernels/mstar_ssfr_loss_mgash_anyz.py:get_pred_mstar_data_wrapper", "diffstar/diffstarpop/loss_kernels/mstar_ssfr_loss_mgash_anyz.py:get_pred_mstar_ssfr_data_wrapper"]}
{"id": "C96", "title": "Start, result and file of the population fit script", "statement": "Without a path the fit starts at the default calibration; the path diffstarfits_NAME starts at the calibration shipped in params_diffstarfits_mgash_NAME; other paths are read as files. Whatever the optimiser does, the run ends without exception and saves a vector whose loss is not above the loss at the start, together with its bounded version in field order, strictly inside the bounds, from which the vector can be recovered.", "quantifier": "for every path, loss type, data, number of steps, optimiser and differentiable starting point", "why_tests_cant": "Every calibration, string and optimiser trajectory; the end-to-end run takes hours on real data.", "anchors": ["scripts/diffstarpop_scripts/fit_mstar_ssfr_pdfs_mgash.py", "diffstar/diffstarpop/kernels/params/params_diffstarfits_mgash.py:DiffstarPop_UParams_Diffstarfits_mgash"]}
{"id": "C97", "title": "The simulation loaders return the histories of the file, row by row", "statement": "Each loader opens the file its arguments name and returns, in file order, the identifiers and star formation rates of the file, stellar masses that are the logarithms of the rates integrated over the cosmic times and never decrease, and (TNG, SMDPL) halo mass histories that are running maxima. Identifiers, rates and masses of one row belong to the same galaxy. The galaxy type passed to load_tng_small_data has no effect and the TNG identifiers are row numbers.", "quantifier": "for every file content with increasing times and non-negative rates, every directory and galaxy type", "why_tests_cant": "The data files are large and not shipped; tests can at most use one invented file per loader.", "anchors": ["diffstar/data_loaders/load_smah_data.py:load_bolshoi_data", "diffstar/data_loaders/load_smah_data.py:load_bolshoi_small_data", "diffstar/data_loaders/load_smah_data.py:load_mdpl_data", "diffstar/data_loaders/load_smah_data.py:load_mdpl_small_data", "diffstar/data_loaders/load_smah_data.py:load_tng_data", "diffstar/data_loaders/load_smah_data.py:load_tng_small_data", "diffstar/data_loaders/load_smah_data.py:load_SMDPL_nomerging_data", "diffstar/data_loaders/load_smah_data.py:load_SMDPL_DR1_data"]}
{"id": "C98", "title": "The file of sampled halos is aligned", "statement": "The nine arrays of sampled halos written at the end of a measurement hold exactly the sampled halos in order: entry k of every array belongs to the same halo, at the same target time, and its mass then lies in the recorded mass bin. Reading rows back gives the parameters and host ids of those halos. In the Galacticus version a target time without any halo in the bins raises.", "quantifier": "for every set of subvolumes, target times, bins and every random draw without replacement", "why_tests_cant": "A misaligned concatenation of transposed arrays gives well-shaped files; only tracing every entry shows it.", "anchors": ["scripts/diffstarpop_scripts/smhm_utils_smdpl_mgash.py:sample_halos", "scripts/diffstarpop_scripts/smhm_utils_smdpl_mgash.py:concatenate_samples_haloes", "scripts/diffstarpop_scripts/smhm_utils_galacticus_mgash.py:sample_halos", "scripts/diffstarpop_scripts/smhm_utils_tng_mgash.py:sample_halos"]}
{"id": "C99", "title": "The TNG measurement covers the catalogue, whatever the number of MPI ranks", "statement": "Every fitted galaxy of the TNG catalogue is measured exactly once with its own central flag, so the collected counts are those of the whole catalogue. This holds for 20 ranks when the simulation catalogue and the catalogue of fits have the same number of rows. For any other number of ranks, and whatever -nchunks is, the run fails; catalogues of different lengths also make it fail.", "quantifier": "for every catalogue, bins, target time and number of ranks, in an output directory without temporary files of an earlier run", "why_tests_cant": "MPI runs need the cluster and the data; tests cannot go through all rank counts and catalogue lengths.", "anchors": ["scripts/diffstarpop_scripts/smhm_utils_tng_mgash.py:load_tng_chunk_data", "scripts/diffstarpop_scripts/smhm_utils_tng_mgash.py:load_diffstar_sfh_tables", "scripts/diffstarpop_scripts/smhm_utils_tng_mgash.py:create_target_data", "scripts/diffstarpop_scripts/measure_smhm_tng_script_mpi_mgash.py"]}
{"id": "C100", "title": "Each population parameter does what its name says", "statement": "The quenched fraction of centrals goes from a floor to a plateau around a mass scale, floor and scale switching with the time of peak mass; that of satellites switches, after a delay set by the host mass, from G to G + Q (1 - G), with Q set by host mass and mass ratio. Drawn parameters are mean + standard deviation times the normal deviates of their own key; every mean and standard deviation follows, to 1/6000 of its range, the line through its own intercept parameter at halo mass 10^12.5 with its own slope, cut off just inside its bounds, or (three means) a broken line through its own vertex with its own two slopes, to a ninth of the change of slope. Main-sequence galaxies are never quenched by more than one percent.", "quantifier": "for every unbounded parameter vector, halo, key and sampler of the form mean + cholesky(cov) z", "why_tests_cant": "There are 88 parameters and a swap of two of them changes predictions smoothly; tests compare outputs of the same code.", "anchors": ["diffstar/diffstarpop/kernels/sfh_pdf_mgash.py:_get_mean_u_params_mseq", "diffstar/diffstarpop/kernels/sfh_pdf_mgash.py:_get_mean_u_params_qseq", "diffstar/diffstarpop/kernels/sfh_pdf_mgash.py:_frac_quench_cen", "diffstar/diffstarpop/kernels/sfh_pdf_mgash.py:_frac_quench_sat", "diffstar/diffstarpop/kernels/sfh_pdf_mgash.py:_delta_uqt", "diffstar/diffstarpop/kernels/sfh_pdf_mgash.py:line_model", "diffstar/diffstarpop/kernels/sfh_pdf_mgash.py:Mcrit_model", "diffstar/diffstarpop/kernels/satquenchpop_model.py:get_qprob_sat", "diffstar/diffstarpop/kernels/satquenchpop_model.py:_qprob_hi_vs_sub_host_mass", "diffstar/diffstarpop/kernels/diffstarpop_mgash.py:mc_diffstar_u_params_singlegal_kernel"]}
{"id": "C101", "title": "The measurement opens the files of the subvolumes it lists", "statement": "The script measures, in increasing order, each subvolume as often as the directory has a diffstar file of its number; for every accepted -sim_name, load_diffstar_subvolume opens for a subvolume its diffstar file in that directory and the diffmah file of the same number, and the saved subvol_used marks exactly these subvolumes (an IndexError if a number reaches n_subvol_max).", "quantifier": "for every directory listing, subvolume number, simulation name and n_subvol_max", "why_tests_cant": "Depends on which files exist on a cluster and on how their names are padded; needs terabytes of data to run.", "anchors": ["scripts/diffstarpop_scripts/smhm_utils_smdpl_mgash.py:load_diffstar_subvolume", "scripts/diffstarpop_scripts/smhm_utils_smdpl_mgash.py:return_subvol_str", "scripts/diffstarpop_scripts/smhm_utils_smdpl_mgash.py:return_subvol_str_diffmah", "scripts/diffstarpop_scripts/measure_smhm_smdpl_script_mpi_mgash.py"]}
{"id": "C102", "title": "Only snapshots inside the fit window are fitted", "statement": "With the default cuts, get_loss_data_default gives snapshots before 1 Gyr, below 10^-3.5 of the final stellar mass, or below both 1e7 Msun and 10^-0.5 of the final mass a weight of 1e10 in the stellar mass term; replacing all targets of a snapshot whose two weights are 1e10 changes the loss of any parameter vector by at most (31 D^2 + 1) / (1e20 n) (D: its mismatch in dex, n: number of snapshots).", "quantifier": "for every time table after 1 Myr, non-negative SFH, halo, parameter vector and replacement target", "why_tests_cant": "The weights depend on where a galaxy formed its mass; tests use smooth rising histories for which the early snapshots are never close to the final mass.", "anchors": ["diffstar/fitting_helpers/diffstar_fitting_helpers.py:T_FIT_MIN", "diffstar/fitting_helpers/diffstar_fitting_helpers.py:get_loss_data_default", "diffstar/fitting_helpers/diffstar_fitting_helpers.py:get_weights", "diffstar/fitting_helpers/diffstar_fitting_helpers.py:loss_default_clipssfrh"]}
{"id": "C103", "title": "The true parameters of a model galaxy minimise the fit loss", "statement": "If the SFH passed to get_loss_data_default is itself computed by calc_sfh_singlegal from bounded parameters p, the loss at p is negligible, i.e. below the tolerance 0.1 of the fitter.", "quantifier": "for every parameter vector, halo and time table", "why_tests_cant": "Needs the exact value of the loss at the truth for all galaxies, including quenched ones near the clipping thresholds; a recovery test samples a few star-forming galaxies.", "anchors": ["diffstar/fitting_helpers/diffstar_fitting_helpers.py:get_loss_data_default", "diffstar/fitting_helpers/diffstar_fitting_helpers.py:loss_default_clipssfrh", "diffstar/sfh_model.py:calc_sfh_singlegal"]}
{"id": "C104", "title": "Masses converge as the time table is refined", "statement": "The stellar mass that calc_sfh_singlegal reports as formed since the first table time converges to 1e9 times the integral of the SFR when the steps of the table shrink, with error at most 1e9 L h (t - t_first) / 2 for an L-Lipschitz SFR and steps at most h; hence two tables agree on common times up to that error; and the gas mass of calc_mgas_singlegal converges to fb times the halo growth minus that stellar mass.", "quantifier": "for every parameter vector, continuous halo history, and increasing time table starting at a positive time", "why_tests_cant": "A limit statement about all tables; tests compare at most two resolutions with a loose tolerance.", "anchors": ["diffstar/sfh_model.py:calc_sfh_singlegal", "diffstar/mgas_model.py:calc_mgas_singlegal", "diffstar/utils.py:cumulative_mstar_formed"]}
{"id": "C105", "title": "Each stellar mass target belongs to the halos it is compared with", "statement": "get_loss_data_pdfs_mstar (and the _cen and _sat versions) return one target per set of halos, made of the galaxies of the very redshift, halo mass bin and kind the halos are drawn from; each target is finite, non-negative, sums to one and is proportional to the summed kernel weights of these galaxies on the grid of stellar masses.", "quantifier": "for every set of SMDPL subvolume samples and measured histograms, kind of galaxies, number of halos and list of redshifts", "why_tests_cant": "The halos and targets come from two files and are paired by position in a double loop that skips sparsely populated bins; a shape test passes for any pairing.", "anchors": ["scripts/diffstarpop_scripts/fit_get_loss_helpers_mgash.py:get_loss_data_pdfs_mstar", "scripts/diffstarpop_scripts/fit_get_loss_helpers_mgash.py:get_loss_data_pdfs_mstar_cen", "scripts/diffstarpop_scripts/fit_get_loss_helpers_mgash.py:get_loss_data_pdfs_mstar_sat", "scripts/diffstarpop_scripts/smhm_utils_smdpl_mgash.py:compute_diff_histograms_mstar_atmobs_z"]}
{"id": "C106", "title": "TNG and Galacticus: centrals and satellites at a target redshift", "statement": "create_target_data counts as centrals (satellites) of a halo mass bin at a target redshift the galaxies that are centrals (satellites) at that redshift; the two counts add up to all galaxies of the bin exactly if every flag is 0 or 1; a row of the sample file has upid -1 exactly if its galaxy is counted as a central.", "quantifier": "for every table of flags over snapshots, population, bin edges, target redshift and random sample", "why_tests_cant": "The flag table of the simulation is not available to tests, and a wrong snapshot column changes counts only for galaxies whose status changes.", "anchors": ["scripts/diffstarpop_scripts/smhm_utils_tng_mgash.py:create_target_data", "scripts/diffstarpop_scripts/smhm_utils_tng_mgash.py:create_pdf_target_data", "scripts/diffstarpop_scripts/smhm_utils_tng_mgash.py:load_tng_chunk_data", "scripts/diffstarpop_scripts/smhm_utils_galacticus_mgash.py:create_target_data", "scripts/diffstarpop_scripts/smhm_utils_galacticus_mgash.py:create_pdf_target_data"]}
{"id": "C107", "title": "The success flag of the population minimizer", "statement": "diffstarpop.utils.minimizer returns the parameters and loss of L-BFGS-B, and success is 1 exactly if L-BFGS-B terminated without problems and with a finite loss, else 0 or -1.", "quantifier": "for every outcome of L-BFGS-B", "why_tests_cant": "The failing outcomes depend on the optimiser and are not reached by test problems that converge.", "anchors": ["diffstar/diffstarpop/utils.py:minimizer", "diffstar/fitting_helpers/utils.py:minimizer"]}
{"id": "C108", "title": "Rows of the sSFR targets and predictions", "statement": "get_loss_data_pdfs_ssfr_central and get_loss_data_pdfs_ssfr_satellite return, for every redshift, five target rows: the distributions of sSFR of the galaxies of the kind (central, satellite) with log stellar mass in [8.92, 9.16], [9.4, 9.64], [10.12, 10.36], [10.84, 11.08] and [11.56, 11.8]; each galaxy of the redshift in the range of halo masses counts with its kernel weight in the stellar mass bin. mstar_ssfr_kern_tobs predicts the rows for the same five bins from the sampled galaxies of the same redshift.", "quantifier": "for every population of measured galaxies, halo mass bins, number of redshifts, parameter point and random key", "why_tests_cant": "The target file needs the simulation catalogue; a wrong stellar mass index or a wrong halo weighting gives rows that look like any other distribution.", "anchors": ["scripts/diffstarpop_scripts/fit_get_loss_helpers_mgash.py:get_loss_data_pdfs_ssfr_central", "scripts/diffstarpop_scripts/fit_get_loss_helpers_mgash.py:get_loss_data_pdfs_ssfr_satellite", "scripts/diffstarpop_scripts/smhm_utils_smdpl_mgash.py:create_pdf_target_data", "diffstar/diffstarpop/loss_kernels/mstar_ssfr_loss_mgash_anyz.py:mstar_ssfr_kern_tobs"]}
{"id": "C109", "title": "The fit loss is continuous, bounded and smooth off its kinks", "statement": "loss_default_clipssfrh is a continuous function of the eight unbounded parameters; over all parameter values it is positive and bounded by a number that depends on the loss data only; it is three times continuously differentiable at every point where no clip (SFR floor, specific SFR floor, SFR mismatch) is exactly at its edge.", "quantifier": "for every well-formed loss data (every output of get_loss_data_default for a non-negative SFH), every halo history and every unbounded parameter vector", "why_tests_cant": "Continuity and a bound over an unbounded eight-dimensional domain cannot be sampled; a jump or a divergence may sit between any test points.", "anchors": ["diffstar/fitting_helpers/diffstar_fitting_helpers.py:loss_default_clipssfrh", "diffstar/fitting_helpers/diffstar_fitting_helpers.py:loss_grad_default_clipssfrh", "diffstar/utils.py:compute_fstar", "diffstar/utils.py:cumulative_mstar_formed"]}
{"id": "C110", "title": "Catalogues written by the fitting scripts", "statement": "The Galacticus, SMDPL and TNG fitting scripts write one row per galaxy, in the order of the input histories and independent of the number of MPI ranks; row k has the id of galaxy k and the result of diffstar_fitter for the history of galaxy k (of the requested sfh_type) with the diffmah parameters of row k, with the cuts requested on the command line; galaxies without usable diffmah fit or below the mass limits get the no-fit values.", "quantifier": "for every set of histories and diffmah fits, number of ranks and options", "why_tests_cant": "The scripts need MPI and the simulation data and are not run by the test suite; rows paired with the wrong galaxy or ignored options give a well-formed file.", "anchors": ["scripts/galacticus_diffstar_fitter_script_mgash.py", "scripts/diffstar_fitting_script_umachine_mgash.py", "scripts/history_fitting_script_TNG_mgash.py", "diffstar/fitting_helpers/diffstar_fitting_helpers.py:diffstar_fitter", "diffstar/fitting_helpers/diffstar_fitting_helpers.py:write_collated_data", "diffstar/data_loaders/load_smah_data.py:load_precomputed_diffmah_fits"]}
{"id": "C111", "title": "Fit parameters tabulated for the population fits belong to the right galaxies", "statement": "load_diffstar_sfh_tables, applied to the catalogue that the fitting script of the same simulation wrote, returns one entry per galaxy whose halo fit and SFH fit succeeded, in catalogue order; entry j of every halo and SFH parameter column (and of is_cen) belongs to one and the same galaxy, with the halo parameters its SFH was fitted with and the fitted parameters up to the rounding in the file; the SFHs tabulated from these parameters are the fitted SFHs.", "quantifier": "for every set of histories and diffmah fits, number of ranks and options, for Galacticus, TNG (every chunk) and SMDPL", "why_tests_cant": "Writer and reader are scripts that share only a file; they need the simulation data. A mask applied to one column and not to another, or a different cosmology in the reader, gives well-formed arrays.", "anchors": ["scripts/diffstarpop_scripts/smhm_utils_galacticus_mgash.py:load_diffstar_sfh_tables", "scripts/diffstarpop_scripts/smhm_utils_tng_mgash.py:load_diffstar_sfh_tables", "scripts/diffstarpop_scripts/smhm_utils_smdpl_mgash.py:load_diffstar_sfh_tables", "scripts/galacticus_diffstar_fitter_script_mgash.py", "scripts/history_fitting_script_TNG_mgash.py", "scripts/diffstar_fitting_script_umachine_mgash.py"]}
{"id": "C112", "title": "Star formation history of the default galaxy", "statement": "With DEFAULT_DIFFSTAR_PARAMS, calc_sfh_singlegal converts baryons to stars with an efficiency that depends on halo mass only through the distance from 1e12 Msun, is at most 1e-10 per year, reaches that value exactly at 1e12 Msun and falls at most as the first power of mass on either side; the galaxy is unquenched up to 6.9 Gyr, suppressed by the factor 10**-1.01773 at 10 Gyr, never by more, and by the factor 10**-0.212307 from 14.5 Gyr on.", "quantifier": "for every halo history, baryon fraction and time", "why_tests_cant": "Tests use the default parameters only to check shapes and finiteness; a wrong default value changes no shape.", "anchors": ["diffstar/defaults.py:DEFAULT_DIFFSTAR_PARAMS", "diffstar/kernels/main_sequence_kernels.py:DEFAULT_MS_PARAMS", "diffstar/kernels/quenching_kernels.py:DEFAULT_Q_PARAMS", "diffstar/sfh_model.py:calc_sfh_singlegal"]}
{"id": "C113", "title": "Stored fit parameters reproduce the fitted SFH", "statement": "Small errors of the parameters give small errors of the SFR: at every time log10(SFR) changes by at most the error of lgy_at_mcrit, 8.5 times that of lgmcrit, the distance from lgmcrit times that of the indices, the errors of lg_drop and lg_rejuv, 14 times that of lg_qt divided by the duration 10**qlglgdt, and 7*(10**error-1) for qlglgdt. Hence the parameters read back from a fit catalogue (single precision, five decimals) give the SFH of the fit to better than one per cent.", "quantifier": "for every halo, time, baryon fraction and pair of parameter sets with one of them in (or near) bounds", "why_tests_cant": "The worst case is a narrow time interval inside a short quenching event; tests compare histories on coarse tables for a few parameter values.", "anchors": ["diffstar/fitting_helpers/diffstar_fitting_helpers.py:get_outline", "diffstar/sfh_model.py:calc_sfh_singlegal", "diffstar/kernels/quenching_kernels.py:_quenching_kern", "diffstar/kernels/main_sequence_kernels.py:_sfr_eff_plaw"]}
{"id": "C114", "title": "Locality and scaling of the SFH", "statement": "calc_sfh_singlegal at a time depends on the halo only through its mass at that time and not on the rest of the time table. A halo more massive by a factor, with lgmcrit shifted accordingly, forms stars faster by that factor, and so does a galaxy with lgy_at_mcrit larger by its logarithm; stretching the halo history in time by a factor and shifting lg_qt by its logarithm leaves the SFRs unchanged at the stretched times.", "quantifier": "for every halo model, parameters, table and factor", "why_tests_cant": "Relations between runs with different halos and parameters; the tests compare single runs with stored values.", "anchors": ["diffstar/sfh_model.py:calc_sfh_singlegal", "diffstar/kernels/history_kernel_builders.py:_sfh_singlegal_scalar", "diffstar/kernels/main_sequence_kernels.py:sfh_ms_kernel", "diffstar/kernels/quenching_kernels.py:_quenching_kern"]}
{"id": "C115", "title": "The parameters are identifiable", "statement": "Two different sets of bounded parameters give different SFRs for some halo (of constant mass), time and baryon fraction: no parameter is ignored or interchangeable with others. A single history is not enough: if it ends before the quenching event starts, calc_sfh_singlegal gives the same SFR and stellar mass for all quenching parameters of events that start later.", "quantifier": "for every pair of parameter sets within the bounds", "why_tests_cant": "A statement about all pairs of points of an eight-dimensional box; tests vary one parameter at a time at most.", "anchors": ["diffstar/sfh_model.py:calc_sfh_singlegal", "diffstar/kernels/main_sequence_kernels.py:_sfr_eff_plaw", "diffstar/kernels/quenching_kernels.py:_quenching_kern"]}
{"id": "C116", "title": "The optimiser gets the gradient of the loss, and the fitter returns the loss of its parameters", "statement": "loss_grad_default_clipssfrh_np returns eight numbers without NaN whose product with any direction is the derivative of loss_default_clipssfrh in that direction, so that a small step against it lowers the loss; diffstar_fitter then accepts the start vectors, and with an optimiser that never raises the loss it reports success, a loss that is the loss of the reported parameters and not larger than at the first start vector, and that is at most 0.1 or not larger than at any of ten start vectors.", "quantifier": "for every accepted history and every start vector at which no clip of the loss is exactly at its edge", "why_tests_cant": "Tests compare the gradient with nothing; a derivative with respect to the wrong argument or a loss reported for other parameters needs a comparison over all directions and attempts.", "anchors": ["diffstar/fitting_helpers/diffstar_fitting_helpers.py:loss_grad_default_clipssfrh_np", "diffstar/fitting_helpers/diffstar_fitting_helpers.py:diffstar_fitter", "diffstar/fitting_helpers/utils.py:return_random_pinit", "diffstar/fitting_helpers/utils.py:minimizer_wrapper"]}
{"id": "C117", "title": "Quality statistics compare each galaxy with its own fit", "statement": "For each mass bin and time the quality script saves the averages, over the galaxies of the bin with usable fits, of the stellar mass and SFR of the simulated galaxy and of the fit of that same galaxy, each galaxy counted once; the fit is evaluated by interpolating log10 of its tabulated history. If the simulation and the catalogue of fits have different numbers of rows the script raises instead of comparing a galaxy with the fit of another one.", "quantifier": "for every simulation table, catalogue of fits, mass bin and time index, whatever rows have no usable fit", "why_tests_cant": "The script needs the full simulation and has no tests; a misaligned mask or chunk gives plausible averages of the wrong pairs.", "anchors": ["scripts/diffstarpop_scripts/calculate_quality_diffstar_fits_mgash.py:calculate_plot_tng", "scripts/diffstarpop_scripts/calculate_quality_diffstar_fits_mgash.py:calculate_plot_smdpl_dr1", "scripts/diffstarpop_scripts/calculate_quality_diffstar_fits_mgash.py:calculate_plot_galcus_insitu", "scripts/diffstarpop_scripts/smhm_utils_tng_mgash.py:load_diffstar_sfh_tables"]}
{"id": "C118", "title": "Chunk histograms add up to the stellar-to-halo mass relation of the whole catalogue", "statement": "Adding the counts and weighted stellar masses that compute_weighted_histograms_z0 returns for the 20 chunks of the TNG catalogue and dividing gives exactly compute_smhm of all galaxies with usable fits, evaluated at 13.8 Gyr, with the mean bin width as scatter; a bin is undefined for the sum exactly when it is for the whole.", "quantifier": "for every catalogue (any number of rows, with any rows lacking fits) and any halo mass bins", "why_tests_cant": "A galaxy lost or counted twice between chunks changes the relation by a small amount that no test with one chunk sees.", "anchors": ["scripts/diffstarpop_scripts/smhm_utils_tng_mgash.py:compute_weighted_histograms_z0", "diffstar/diffstarpop/sumstats/smhm.py:compute_smhm", "diffstar/diffstarpop/sumstats/diffndhist.py:tw_ndhist_weighted"]}
{"id": "C119", "title": "The Monte Carlo catalogue scatters around the weighted predictions like independent coin flips", "statement": "If the uniform draws are independent, the sum of any statistic over the Monte Carlo selection of a population of n galaxies has mean square deviation sum frac_q (1 - frac_q) (difference of the branches)^2 from the weighted sum; for statistics in [0, 1] the mean deviates by eps or more with probability at most 2 exp(-2 n eps^2). Hence the histogram of log stellar mass (and the joint one with sSFR) of the catalogue agrees with the predicted distribution times a common number within eps n in all bins at once except with probability 2 nbins exp(-2 n eps^2).", "quantifier": "for every population, parameter vector, key, statistic, bins and eps >= 0", "why_tests_cant": "A tail bound over all draws of the generator; tests see a few seeds only.", "anchors": ["diffstar/diffstarpop/mc_diffstarpop_mgash.py:mc_diffstar_sfh_galpop", "diffstar/diffstarpop/kernels/diffstarpop_mgash.py:mc_diffstar_u_params_singlegal_kernel", "diffstar/diffstarpop/loss_kernels/mstar_ssfr_loss_mgash_anyz.py:mstar_kern_tobs", "diffstar/diffstarpop/loss_kernels/mstar_ssfr_loss_mgash_anyz.py:mstar_ssfr_kern_tobs"]}
{"id": "C120", "title": "The fitting problem is well posed", "statement": "For every galaxy the fitting loss, extended to the faces of the documented parameter box, has a minimum there; its value is the infimum of loss_default_clipssfrh over all unbounded parameters, and parameters, star formation rates, stellar masses and loss of any point of the box (so of the best fit) are approached arbitrarily closely by unbounded parameters. Conversely near-optimal fits are near a best fit: for each accuracy there is a margin such that a fit which no other beats by the margin has parameters and histories within the accuracy of those of a best fit.", "quantifier": "for every well-formed loss data, halo history and accuracy", "why_tests_cant": "An infimum over an unbounded eight-dimensional space that need not be attained; the margin comes from compactness and cannot be sampled.", "anchors": ["diffstar/fitting_helpers/diffstar_fitting_helpers.py:loss_default_clipssfrh", "diffstar/fitting_helpers/diffstar_fitting_helpers.py:diffstar_fitter", "diffstar/defaults.py:get_bounded_diffstar_params"]}
{"id": "C121", "title": "Weighted predictions are never noisier than counting Monte Carlo galaxies", "statement": "Over all random draws of a population (normal and uniform), the sum of a statistic in [0, 1] over the Monte Carlo selection and the sum weighted with the quenched fraction, as used in the losses, have the same mean; the mean square deviation of the former from any number is that of the latter plus the non-negative noise sum frac_q (1 - frac_q) E(difference of the branches)^2.", "quantifier": "for every population, parameter vector, statistic, number and distribution of the normal draws", "why_tests_cant": "Compares variances over all draws; sampling would need many catalogues for each parameter vector.", "anchors": ["diffstar/diffstarpop/mc_diffstarpop_mgash.py:mc_diffstar_sfh_galpop", "diffstar/diffstarpop/loss_kernels/mstar_ssfr_loss_mgash_anyz.py:mstar_kern_tobs"]}
{"id": "C122", "title": "The joint distribution of the parameters in a Monte Carlo catalogue", "statement": "With independent standard normal and uniform draws and no NaN rows, mc_diffstar_sfh_galpop draws the galaxies independently. A galaxy is with probability frac_q the bounded image of eight independent normal variables and otherwise the bounded image of four independent normal variables with the default quenching parameters; means and standard deviations are the lines of the population parameters at the mass and peak time of the halo. Quantiles of each bounded parameter (lg_rejuv relative to lg_drop) are the bounded quantiles of the normal distribution, and the bounded means are the medians.", "quantifier": "for every population, population parameters, key and measurable set of parameters per galaxy", "why_tests_cant": "A law over all draws; sampling only estimates it for one population.", "anchors": ["diffstar/diffstarpop/mc_diffstarpop_mgash.py:mc_diffstar_sfh_galpop", "diffstar/diffstarpop/kernels/diffstarpop_mgash.py:mc_diffstar_u_params_singlegal_kernel"]}
{"id": "C123", "title": "Predictions converge to the model population as it grows", "statement": "With independent draws and no NaN rows, the sum over n galaxies of any statistic in [0, 1] of the parameters, taken over the Monte Carlo catalogue or weighted with frac_q as in the losses, is within eps n of its expectation over the distribution of C122, except with probability 2 exp(-2 n eps^2). The mass function of mstar_kern_tobs exists and is in all bins within 2 (1 + nb) eps n / N of the expected mass function, N being the expected number of galaxies in the bins, except with probability 2 nb exp(-2 n eps^2), if N > 2 nb eps n.", "quantifier": "for every population, population parameters, statistic, bins and tolerance", "why_tests_cant": "A bound on the probability of large sampling errors for all sizes and parameters; runs with a few seeds cannot establish it.", "anchors": ["diffstar/diffstarpop/mc_diffstarpop_mgash.py:mc_diffstar_sfh_galpop", "diffstar/diffstarpop/loss_kernels/mstar_ssfr_loss_mgash_anyz.py:mstar_kern_tobs"]}
{"id": "C124", "title": "Stellar masses in floating-point arithmetic", "statement": "With every operation of cumulative_mstar_formed rounded, masses are positive and never decrease, for any precision and any increasing times and non-negative rates. Against the exact integral of the linearly interpolated SFR the relative error of the mass at table entry i is at most (1+u)^(i+9) - 1, u being the unit roundoff; in single precision, the default of JAX, it is below 1e-4 for tables of up to 1000 times. Strict growth (C12) is lost in single precision: there are rates above the floor that leave the mass unchanged.", "quantifier": "for every precision, time table starting at 0.002 Gyr or later, and SFH", "why_tests_cant": "Rounding errors depend on all table values; a bound for every table and SFH needs a proof.", "anchors": ["diffstar/utils.py:cumulative_mstar_formed", "diffstar/utils.py:cumtrapz"]}
{"id": "C125", "title": "Parameter bounds in single precision", "statement": "In single precision get_bounded_diffstar_params returns parameters within their bounds for every input, and the unbounded parameters can be recovered from them.", "quantifier": "for every unbounded parameter vector and every exponential function of the library with relative error below one half", "why_tests_cant": "Saturation happens for large inputs that tests on typical parameters do not reach.", "anchors": ["diffstar/defaults.py:get_bounded_diffstar_params", "diffstar/utils.py:_sigmoid", "diffstar/utils.py:_inverse_sigmoid"]}
{"id": "C126", "title": "Histogram weights and quenching function in single precision", "statement": "In single precision the histogram weights of tw_bin_jax_kern are correct to 6e-6 and not negative, and the quenching function has a relative error below 5e-5 and never exceeds one.", "quantifier": "for every bin, galaxy, width, time and quenching event within the parameter bounds, and every library power function with relative error 1e-5", "why_tests_cant": "The sign of a rounding error at isolated arguments; tests with tolerances do not see it and cannot bound it.", "anchors": ["diffstar/utils.py:tw_bin_jax_kern", "diffstar/kernels/quenching_kernels.py:_quenching_kern", "diffstar/kernels/quenching_kernels.py:_jax_tw"]}
{"id": "C127", "title": "Star formation histories in single precision", "statement": "With exponentials correct to 5e-7, powers of ten to 1e-5, logarithms of times to 2e-7 and halo masses of diffmah to 1e-5 dex, calc_sfh_singlegal in single precision gives star formation rates with a relative error below 0.002 + 1e-5/dt and, for up to 1000 times, stellar masses with a relative error below 0.003 + 1.1e-5/dt, where dt = 10**qlglgdt is the duration of the quenching event in dex.", "quantifier": "for all parameters within (or on) their bounds, all times between 0.01 and 100 Gyr and halo masses up to 1e20 Msun", "why_tests_cant": "A bound on rounding errors over all parameters, times and halos; comparison runs see only the errors of their inputs.", "anchors": ["diffstar/sfh_model.py:calc_sfh_singlegal", "diffstar/kernels/history_kernel_builders.py:_sfh_singlegal_scalar", "diffstar/kernels/main_sequence_kernels.py:_sfr_eff_plaw"]}
{"id": "C128", "title": "The quality script writes one file of averages per simulation", "statement": "For each value of -sim_name the script calculate_quality_diffstar_fits_mgash.py writes the file diffstar_quality_NAME.h5 with the edges 11.25, 11.75, ..., 14.25 and centres 11.5, ..., 14 of the halo mass bins, the times, and per bin and time the averages of C117 (NaN for bins without galaxies); every galaxy with halo mass between 11.25 and 14.25 is in exactly one bin. A mismatch between simulation and catalogue writes no file.", "quantifier": "for every simulation table, catalogue of fits, output directory and value of -sim_name", "why_tests_cant": "The script needs the simulations and has no tests; a run that fails half way or galaxies lost at bin edges are seen only in the plots.", "anchors": ["scripts/diffstarpop_scripts/calculate_quality_diffstar_fits_mgash.py:save_data_plot", "scripts/diffstarpop_scripts/calculate_quality_diffstar_fits_mgash.py:calculate_plot_tng"]}
{"id": "C129", "title": "Fitting runs clean up after themselves and leave other files alone", "statement": "After a run of a fitting script whose collation succeeds, the catalogue is in the output directory under its documented name, the text files of the ranks are gone, and every other file is as it was before; in particular concurrent runs for the two sfh_types of Galacticus or for different subvolumes of SMDPL do not disturb each other.", "quantifier": "for every output directory, number of ranks, content of the file system and list of subvolumes", "why_tests_cant": "Deletions by shell patterns depend on whatever else is in the directory; a test run in an empty directory cannot show a file too many being removed.", "anchors": ["scripts/galacticus_diffstar_fitter_script_mgash.py", "scripts/diffstar_fitting_script_umachine_mgash.py", "scripts/history_fitting_script_TNG_mgash.py"]}
{"id": "C130", "title": "Catalogues written by the fitting scripts are found by the readers of the pipeline", "statement": "After the runs of the fitting scripts the readers used by the rest of the pipeline open the files the scripts wrote: load_galacticus_diffstar_data returns the diffmah fits and the in-situ and total catalogues, load_diffdata the TNG catalogue and the diffmah file used by the fit, load_diffstar_subvolume (DR1) the catalogue of each SMDPL subvolume with its diffmah fits, load_precomputed_diffmah_fits the file it is asked for.", "quantifier": "for every directory, subvolume number, number of ranks and content of the file system before the runs", "why_tests_cant": "Writers and readers build the file names separately, in different scripts; no test runs one after the other.", "anchors": ["diffstar/data_loaders/load_galacticus_sfh.py:load_galacticus_diffstar_data", "diffstar/data_loaders/load_smah_data.py:load_precomputed_diffmah_fits", "scripts/diffstarpop_scripts/smhm_utils_tng_mgash.py:load_diffdata", "scripts/diffstarpop_scripts/smhm_utils_smdpl_mgash.py:load_diffstar_subvolume"]}
{"id": "C131", "title": "Interrupted and concurrent fitting runs do no harm", "statement": "The result of the Galacticus fitting script does not depend on the order in which the ranks write or on how their output is buffered. If the job is interrupted at any moment, files of others are untouched, the fits finished are in the catalogue or in complete text files once collation has begun, and repeating the run gives exactly the files of an uninterrupted run; a catalogue that was there before is complete or replaced by a complete one.", "quantifier": "for every interleaving of the ranks, every size of the write buffers, every moment of interruption and content of the file system", "why_tests_cant": "There are exponentially many interleavings and crash points; tests run one rank to its end.", "anchors": ["scripts/galacticus_diffstar_fitter_script_mgash.py", "diffstar/fitting_helpers/diffstar_fitting_helpers.py:write_collated_data"]}
{"id": "C132", "title": "Short test runs of the fitting scripts treat a part of the sample like a normal run", "statement": "With the option -test the fitting scripts fit a few galaxies per rank (5 for SMDPL and TNG, 30 for Galacticus) and write for them exactly what a normal run writes; without the option, or with -test False, they are normal runs; a test run works for small samples and does not harm the catalogue of a normal run.", "quantifier": "for every sample, number of ranks, text given to the option, output directory and content of the file system", "why_tests_cant": "The scripts are not covered by tests and the option is meant for testing by hand.", "anchors": ["scripts/galacticus_diffstar_fitter_script_mgash.py", "scripts/diffstar_fitting_script_umachine_mgash.py", "scripts/history_fitting_script_TNG_mgash.py"]}
{"id": "C133", "title": "Losses of the population model approach the loss of the exact distribution", "statement": "When the halos per target bin are many, the losses for stellar mass functions and for distributions of specific star formation rates, and their sums, are close to the losses that the exact mixture distribution of the parameters (C122) would have, except with probability exponentially small in the number of halos; so they also rank two sets of population parameters like the exact losses. Assumed: strictly increasing bins, targets between 0 and 1, halo weights that sum to at most one, no row that is NaN, and a positive share of galaxies inside the bins and at each target mass.", "quantifier": "for every population parameter set, halo sample, binning, target, number of halos, and every dependence between the random numbers of different target bins", "why_tests_cant": "A statement about all random seeds and sample sizes; a test sees a few seeds and one size.", "anchors": ["diffstar/diffstarpop/loss_kernels/mstar_ssfr_loss_mgash_anyz.py:loss_mstar_kern_tobs", "diffstar/diffstarpop/loss_kernels/mstar_ssfr_loss_mgash_anyz.py:loss_mstar_ssfr_kern_tobs", "diffstar/diffstarpop/loss_kernels/mstar_ssfr_loss_mgash_anyz.py:loss_combined_3loss_kern"]}
{"id": "C134", "title": "Parameter transforms and back in single precision", "statement": "With library exponentials and logarithms correct to 5e-7, get_unbounded_diffstar_params after get_bounded_diffstar_params in single precision returns unbounded parameters that lie within two ranges (upper minus lower bound) of the middle of their range with an error below 1e-6 of the range times 3 + exp(4 |u - middle| / range); and get_bounded_diffstar_params after get_unbounded_diffstar_params returns bounded parameters that keep a distance of 1e-5 of their range to the bounds with an error below 2.5e-5. All results are finite.", "quantifier": "for all parameters in these regions and all library functions of this accuracy; the lower bound of lg_rejuv is lg_drop", "why_tests_cant": "A bound on rounding errors over eight continuous parameters; tests compare a few values within a loose tolerance.", "anchors": ["diffstar/defaults.py:get_bounded_diffstar_params", "diffstar/defaults.py:get_unbounded_diffstar_params", "diffstar/utils.py:_sigmoid", "diffstar/utils.py:_inverse_sigmoid"]}
{"id": "C135", "title": "The gradient of the fitting loss as reverse-mode differentiation computes it", "statement": "Tracing loss_default_clipssfrh into primitive operations and propagating cotangents backwards (both branches of every where are differentiated; the branch that is not selected receives the cotangent zero, and zero times infinity is NaN) gives eight finite numbers for every vector of finite unbounded parameters, on the edges of the clips too. Off the edges they are the partial derivatives of the loss. So return_random_pinit accepts the first draw with finite entries, and diffstar_fitter succeeds for finite start vectors with an optimiser that descends.", "quantifier": "for all well-formed loss data (all non-empty tables, any number of snapshots, any halo growth model), all eight parameters and all sequences of draws", "why_tests_cant": "NaN gradients appear at isolated points (a branch that is not selected divides by zero); a test evaluates a few points, and an edge is hit with probability zero.", "anchors": ["diffstar/fitting_helpers/diffstar_fitting_helpers.py:loss_default_clipssfrh", "diffstar/fitting_helpers/diffstar_fitting_helpers.py:loss_grad_default_clipssfrh_np", "diffstar/fitting_helpers/utils.py:return_random_pinit", "diffstar/kernels/quenching_kernels.py:_jax_tw", "diffstar/utils.py:compute_fstar"]}
{"id": "C136", "title": "Gradients of the population losses as reverse-mode differentiation computes them", "statement": "Tracing the stellar mass loss, the sSFR losses and their sums into primitive operations and propagating cotangents backwards gives 88 finite numbers wherever the loss is a number, and the true gradient where no history touches the star formation floor and no log sSFR is exactly -12. The halo groups prepared by the loaders are all used by some target, as this needs. A run of the population fit that starts where the loss is a number saves parameters with a loss that is a number and not above the start, whatever the optimiser does; if the loss is a number at every iterate, it saves the first iterate with the lowest loss.", "quantifier": "for all halo samples observed after 0.1 Gyr, bins, targets, keys, flat vectors of 88 numbers and optimisers, given that the normal sampler is mean plus square root of the variance times a vector that depends only on the key", "why_tests_cant": "NaN gradients appear on hyperplanes (a branch that is not selected divides by zero) which sampled parameters never hit.", "anchors": ["diffstar/diffstarpop/loss_kernels/mstar_ssfr_loss_mgash_anyz.py:loss_mstar_kern_tobs_grad_wrapper", "diffstar/diffstarpop/loss_kernels/mstar_ssfr_loss_mgash_anyz.py:loss_mstar_ssfr_kern_tobs_grad_wrapper", "diffstar/diffstarpop/loss_kernels/mstar_ssfr_loss_mgash_anyz.py:loss_combined_3loss_wrapper", "diffstar/diffstarpop/utils.py:smoothly_clipped_line", "scripts/diffstarpop_scripts/fit_mstar_ssfr_pdfs_mgash.py"]}
{"id": "C137", "title": "How far the optimisers can move the parameters", "statement": "Whatever the gradients, no Adam step changes a parameter by more than 7.28 step sizes (a step can be larger than the step size: 2.5 step sizes after 999 steps with zero gradient), and a parameter with constant gradient g moves by |g|/(|g|+1e-8) step sizes per step against its sign. The population fit with n steps that starts where the loss is a number saves 88 numbers, none further than 0.0728 n from its start, with a loss that is a number and not above that of the start; parameters whose gradient is zero throughout are saved unchanged. If L-BFGS-B fails, the parameters returned by the backup run of minimizer with n steps are within 7.28 (4.9 + 0.01 (n-1)) of its start.", "quantifier": "for all losses and gradients (finite at the start), starts and numbers of steps, also when steps are skipped or repeated after a NaN loss", "why_tests_cant": "Bounds over all gradient histories; tests run a few steps on one loss.", "anchors": ["scripts/diffstarpop_scripts/fit_mstar_ssfr_pdfs_mgash.py", "diffstar/fitting_helpers/utils.py:_jax_adam_wrapper", "diffstar/fitting_helpers/utils.py:jax_adam_wrapper_v2", "diffstar/fitting_helpers/utils.py:minimizer"]}
{"id": "C138", "title": "What the value of a population loss says about the predicted distributions", "statement": "A loss that is a number lies between 0 and 2000 divided by the number of stellar mass bins (or of sSFR bins for the sSFR losses), for any parameters and any target that the repository can make. Conversely a loss v fixes how wrong the prediction can be: in every halo bin the predicted share of galaxies in any set S of mass bins is within sqrt(|S| v nk nb / 1000) of the target share (sqrt(|S| v nz nt nsf / 1000) for sSFR bins). Each part of a combined loss is at most the combined loss, so that a small combined loss bounds all parts.", "quantifier": "for all population parameters, halo populations, keys, targets with non-negative rows of sum at most one, sets of bins and values of the loss", "why_tests_cant": "Bounds over all parameters and targets and over all subsets of bins; tests evaluate a few parameter sets.", "anchors": ["diffstar/diffstarpop/loss_kernels/mstar_ssfr_loss_mgash_anyz.py:loss_mstar_kern_tobs", "diffstar/diffstarpop/loss_kernels/mstar_ssfr_loss_mgash_anyz.py:_mse"]}
{"id": "C139", "title": "Predicted stellar mass functions in single precision", "statement": "In single precision, whatever the order in which the library adds up, each bin of the mass function predicted from n galaxies in nb bins with any increasing edges is a number with error at most 4.5e-5 nb + 1.5e-6 nb^2 + 5e-7 n, the bins add up to one within 2e-7 (nb + 1), and the mean square error computed from given predictions has relative error at most 7e-8 times (number of bins + 5) for up to 100000 bins. No bin is negative.", "quantifier": "for all masses, weights, orders of summation and numbers of bins and galaxies such that at least half of the galaxies (by weight) are inside the bins and 9e-6 nb + 3e-7 nb^2 + 1e-7 n is at most 1/20", "why_tests_cant": "Quantifies over all orders of summation and all inputs; tests compare one machine and one order with a tolerance.", "anchors": ["diffstar/diffstarpop/loss_kernels/mstar_ssfr_loss_mgash_anyz.py:compute_diff_histograms_mstar_atmobs_z", "diffstar/diffstarpop/sumstats/diffndhist.py:tw_ndhist_weighted", "diffstar/diffstarpop/sumstats/diffndhist.py:_tw_cuml_lax_kern"]}
{"id": "C140", "title": "The population fit does not move the satellite quenching parameters", "statement": "The loss data puts every halo 99 Gyr before its infall. With such data each derivative of the loss of the fitting script with respect to one of the nine satellite quenching parameters is at most 1e-88 in size, and a fit of n steps saves each of these nine parameters within n times 1e-80 of its starting value, although Adam rescales small gradients: the fitted file holds the starting guess for them.", "quantifier": "for all losses of the fitting script, data with increasing bins and targets that are distributions, keys, mass accretion histories, numbers of steps n, and starts with a finite loss whose three floors of the quenched fraction of satellites (unbounded) are at least -1000 + 0.0728 n", "why_tests_cant": "A fit that leaves nine parameters unchanged still lowers its loss in every test, and no finite number of runs covers all data and starts.", "anchors": ["scripts/diffstarpop_scripts/fit_get_loss_helpers_mgash.py:get_loss_data_pdfs_ssfr_satellite", "scripts/diffstarpop_scripts/fit_mstar_ssfr_pdfs_mgash.py", "diffstar/diffstarpop/kernels/satquenchpop_model.py", "diffstar/diffstarpop/loss_kernels/mstar_ssfr_loss_mgash_anyz.py"]}
{"id": "C141", "title": "Time-averaged star formation rates in single precision", "statement": "The rate averaged over tau is a difference of two masses, so single precision costs it, on top of the relative error of the star formation rates themselves (and 4e-7), an absolute error of at most 1.4e-7 (i + 13) M/tau plus 7e-8 t/tau times the largest rate so far, at the i-th time t. In the fitting loss (tau = 1 Gyr, rates not below 1e-13 M) with up to 120 times the computed averaged rate is within 34 per cent (0.19 dex) of the exact one, and within 0.006 + 1e-5/(duration of quenching) of it as long as it is above 1e-11 M. Without the floor no relative bound holds: there is a table of single precision numbers whose averaged rate is computed as zero though it is above 1e-14.", "quantifier": "for all single precision tables of increasing times, parameters and mass accretion histories as in C127, and times whose largest rate so far is at most 200 times the mean rate so far (true of every table whose steps are at least a hundredth of the time)", "why_tests_cant": "The bound covers all tables and parameters; tests compare with a tolerance at a few points, and galaxies that stopped forming stars, where the cancellation matters, are rare among them.", "anchors": ["diffstar/utils.py:compute_fstar", "diffstar/fitting_helpers/diffstar_fitting_helpers.py:loss_default_clipssfrh", "diffstar/sfh_model.py"]}
{"id": "C142", "title": "Gas masses in single precision", "statement": "In single precision the gas masses stay non-negative whenever the computed star formation rates do not exceed the computed accretion rates of baryons. Gas plus stars is the accreted baryonic mass A of the computed rates up to 7e-8 (i + 12) A + 6e-8 stars at the i-th time. If the accretion rates are within a relative error d of the exact ones, the gas mass is within (d + 1e-4)(gas + stars) + (0.0031 + 1.1e-5/(duration of quenching)) stars of the exact one. The returned rate of change of the gas is the difference quotient of the returned gas masses (C19) within 1e-3 of itself plus 2e-6 G/dt/1e9, for gas masses up to G.", "quantifier": "for all single precision tables of up to 1001 increasing times and all histories (positivity and budget); for parameters and accretion histories as in C127 (gas mass); for time steps of at least a 500th of the time (rate)", "why_tests_cant": "The bounds hold for all tables and histories; the gas mass is a difference of two running sums, so that the error that matters is not the one of any single entry that a test would compare.", "anchors": ["diffstar/mgas_model.py:calc_mgas_singlegal", "diffstar/utils.py:_jax_get_dt_array", "diffstar/utils.py:cumulative_mstar_formed"]}
{"id": "C143", "title": "Which time tables give meaningful stellar masses", "statement": "The stellar masses of the history functions are positive and strictly increasing exactly if the times are strictly increasing and start after T_BIRTH_MIN = 0.001 Gyr: no other table of positive times works for any galaxy. Between neighbouring entries the mass goes down exactly if the time goes down and repeats exactly if the time repeats. A table that starts earlier gives a negative first mass, by less than 1e6 times the mean of the first rate and SFR_MIN.", "quantifier": "for every table of positive times, every halo and every parameter vector, for calc_sfh_singlegal, calc_sfh_galpop, calc_mgas_singlegal and calc_mgas_galpop", "why_tests_cant": "The functions accept any table without an error; tests use only increasing tables that start well after T_BIRTH_MIN, and the converse direction is a statement about all other tables.", "anchors": ["diffstar/utils.py:cumulative_mstar_formed", "diffstar/sfh_model.py:calc_sfh_singlegal", "diffstar/sfh_model.py:calc_sfh_galpop", "diffstar/mgas_model.py:calc_mgas_singlegal"]}
{"id": "C144", "title": "The fit loss in single precision", "statement": "The loss of the fits of single galaxies, computed in single precision with sums in any order, differs from the exact loss by at most 0.45 + 1e-5 sqrt(loss) in its square root, whatever the parameters. If at each snapshot the rate averaged over 1 Gyr is at least 1e-11 of the stellar mass or has no weight (last snapshot excepted), the difference is at most 0.045 + 1e-4/(duration of quenching in dex) + 1e-5 sqrt(loss). For such a galaxy whose quenching takes at least 0.01 dex, a computed loss that meets the success criterion 0.1 of the fits means an exact loss up to 0.14, and an exact loss up to 0.065 is computed as at most 0.1.", "quantifier": "for all parameter vectors in float bounds, all loss data with up to 120 single precision snapshots, default averaging time and floor, targets of specific rate up to 2e-8/yr (or without weight) and largest rate so far at most 200 times the mean rate so far, and all library functions of the stated accuracy", "why_tests_cant": "The loss sums up to 360 rounded terms that pass through clips, logarithms and differences of running sums; tests compute it at a handful of parameter vectors in one precision and never compare with exact arithmetic.", "anchors": ["diffstar/fitting_helpers/diffstar_fitting_helpers.py:loss_default_clipssfrh", "diffstar/utils.py:compute_fstar", "diffstar/sfh_model.py:calc_sfh_singlegal"]}
{"id": "C145", "title": "Population parameters and quenched fractions in single precision", "statement": "In single precision each of the 88 bounded population parameters stays in its closed interval and is within 1.1e-5 of the width of the interval of the exact one, and the quenched fractions computed from them are probabilities: between 0 and 1, satellites at least as high as before the satellite increment. They are within 3.4e-5 (centrals) or 1.6e-4 (satellites) of the exact fractions at the same parameters, so that with uniform draws the sequence of a galaxy differs from the exact one with probability at most 1.6e-4, and any of n sequences differs with probability at most 1.6e-4 n. Claims of exact arithmetic that fail: qphi_lgmu_crit stays below its upper bound -0.1; quenched fractions are strictly below 1.", "quantifier": "for all unbounded parameter vectors, all halos (mass, peak time, satellite or not, infall quantities) and all implementations of exp with relative error at most 5e-7", "why_tests_cant": "Each fraction is a nest of up to three sigmoids in which errors of the inner ones are amplified by the outer slopes; tests only check that fractions lie in [0, 1] at a few parameter vectors, where rounding at the ends does not show.", "anchors": ["diffstar/diffstarpop/kernels/defaults_mgash.py:get_bounded_diffstarpop_params", "diffstar/diffstarpop/kernels/sfh_pdf_mgash.py:_frac_quench_cen", "diffstar/diffstarpop/kernels/sfh_pdf_mgash.py:_frac_quench_sat", "diffstar/diffstarpop/kernels/satquenchpop_model.py:get_qprob_sat", "diffstar/diffstarpop/kernels/diffstarpop_mgash.py:mc_diffstar_u_params_singlegal_kernel"]}
{"id": "C146", "title": "How errors of the halo catalogue propagate", "statement": "If two halo histories agree to within delta dex at the tabulated times, then the star formation rates, the stellar masses and the averaged star formation rates of a galaxy with given parameters agree to within a factor 10^((1 + 1.2 A) delta) at every time, where A bounds the sizes of the two efficiency indices: 10^(7 delta) for parameters inside their bounds and 10^(2.2 delta) for the default galaxy. The quenched fraction of a population changes by at most 1.25 per dex of peak mass, 12 per Gyr of peak time and, for satellites only, by 0.5 per dex of mass ratio, 25 per dex of host mass and 1.25 per Gyr since infall; with the same key and uniform draws, two catalogues give galaxy i a different sequence with probability at most that bound, and the expected number of different sequences is at most the sum of the bounds.", "quantifier": "for all pairs of halo histories and catalogues, all bounded galaxy and population parameters, all increasing time tables and all averaging times", "why_tests_cant": "The sensitivity must hold for every pair of histories and every parameter vector; tests compare single runs, and the overshoot of the rolling power law (the factor 1.2) shows only near the critical mass.", "anchors": ["diffstar/sfh_model.py:calc_sfh_singlegal", "diffstar/utils.py:cumulative_mstar_formed", "diffstar/utils.py:compute_fstar", "diffstar/kernels/main_sequence_kernels.py:_sfr_eff_plaw", "diffstar/diffstarpop/mc_diffstarpop_mgash.py:mc_diffstar_sfh_galpop", "diffstar/diffstarpop/kernels/sfh_pdf_mgash.py:_frac_quench_cen", "diffstar/diffstarpop/kernels/satquenchpop_model.py:get_qprob_sat"]}
{"id": "C147", "title": "Galaxies drawn for neighbouring halos are neighbours", "statement": "If two halos are given galaxies with the same key and the same population parameters, then the drawn galaxy parameters differ by at most a fixed multiple of the difference in peak mass: 6 + 1.3 |z| per dex for the critical mass and the efficiency there and 26 + 1.3 |z| per dex for the two indices, where z is the standard normal deviate behind the parameter; on the quenched sequence also 1.3 + 1.3 |z| per dex and 2.5 per Gyr of peak time for the quenching time, 26 + 1.3 |z| per dex for the duration and the drop and twice that for the rejuvenation; on the main sequence the quenching parameters are equal. Infall quantities and the satellite flag do not enter. The star formation rates of the two galaxies then differ by an explicit number of dex: 7 times the difference of the log halo masses at that time plus the difference of peak mass times a factor that grows linearly with the deviates and with the distance of the halo mass from 10^11.25.", "quantifier": "for all population parameters produced by the bounding transform, all pairs of halos, keys, time tables and generators whose normal draws are mean + std * deviate", "why_tests_cant": "Continuity in the halo must hold through a smoothly clipped line with a slope that can be 20 per dex and a clipping scale of 1/2000 of the interval; tests draw galaxies for a few masses and never compare two masses with the same key.", "anchors": ["diffstar/diffstarpop/utils.py:smoothly_clipped_line", "diffstar/diffstarpop/kernels/sfh_pdf_mgash.py:line_model", "diffstar/diffstarpop/kernels/sfh_pdf_mgash.py:Mcrit_model", "diffstar/diffstarpop/kernels/sfh_pdf_mgash.py:_get_mean_u_params_qseq", "diffstar/diffstarpop/kernels/diffstarpop_mgash.py:mc_diffstar_u_params_singlegal_kernel", "diffstar/diffstarpop/mc_diffstarpop_mgash.py:mc_diffstar_sfh_singlegal"]}
{"id": "C148", "title": "Single precision galaxy draws follow the exact ones", "statement": "The galaxy parameters that mc_diffstar_params_singlegal draws in single precision are those of exact arithmetic with the same standard normal deviates z, up to: (7 + 4 |z|) 1e-4 for the critical mass and the efficiency there, (8 + 4 |z|) 1e-4 for the quenching time, (3 + 1.5 |slope| + 4 |z|) 1e-4 for the two indices, the duration and the drop (slope is that of the mean of the parameter with peak mass, at most 20 per dex), and the sum of two such terms for the rejuvenation; on the main sequence the quenching parameters are within 2e-4. Every straight line of the population model is evaluated within 1.5e-4 (|slope| + 1).", "quantifier": "for all single precision population parameters within their bounds, peak masses 10^5 to 10^20, peak times, keys, infall quantities and exponentials of relative accuracy 5e-7; violated for population lines that start at their lower bound", "why_tests_cant": "The clipping scale of a line is 1/2000 of the distance of its intercept from the lower bound, so an arbitrarily small distance makes the evaluation arbitrarily ill conditioned; tests use only the default population parameters, far from the bounds. With intercept and slope at their lower bounds the scale is 0 and the line is sent to the wrong side; exactly at peak mass 10^12.5 the galaxy is NaN.", "anchors": ["diffstar/diffstarpop/utils.py:smoothly_clipped_line", "diffstar/diffstarpop/kernels/sfh_pdf_mgash.py:line_model", "diffstar/diffstarpop/kernels/sfh_pdf_mgash.py:_get_mean_u_params_mseq", "diffstar/diffstarpop/kernels/sfh_pdf_mgash.py:_get_mean_u_params_qseq", "diffstar/diffstarpop/kernels/diffstarpop_mgash.py:mc_diffstar_u_params_singlegal_kernel", "diffstar/diffstarpop/mc_diffstarpop_mgash.py:mc_diffstar_params_singlegal"]}
{"id": "C149", "title": "Single precision star formation histories of drawn galaxies follow the exact ones", "statement": "The star formation rates that mc_diffstar_sfh_singlegal computes in single precision, from the population parameters to the final rate, are positive and within a stated number of dex of those of exact arithmetic with the same standard normal deviates z. On the main sequence: 1e-4 (122 + 34 |z0| + 4 |z1| + (|logMh - 11.25| + 2.25)(3 + 1.5 slope + 4 max(|z2|, |z3|))), where logMh is the halo mass at that time and slope the larger slope with peak mass of the means of the two indices. On the quenched sequence the errors of the drop and rejuvenation, that of the quenching time divided by the duration of the quenching event, and 7 times the relative error of that duration are added.", "quantifier": "for all single precision population parameters within their bounds, peak masses 10^5 to 10^20, keys, halos of mass 1 to 10^20, times 0.01 to 100 Gyr, halo histories accurate to 1e-5 dex, baryon fractions and math libraries of the stated accuracy; violated for population lines that start at their lower bound", "why_tests_cant": "The error of each stage multiplies that of the previous ones, the divisor of the quenching window is as small as 1/1000, and the tests compare only a few galaxies of the default population, all computed in the same precision.", "anchors": ["diffstar/diffstarpop/mc_diffstarpop_mgash.py:mc_diffstar_sfh_singlegal", "diffstar/diffstarpop/mc_diffstarpop_mgash.py:mc_diffstar_params_singlegal", "diffstar/sfh_model.py:calc_sfh_singlegal"]}
{"id": "C150", "title": "Predicted distributions are stable", "statement": "If the stellar masses of the galaxies of a population change by at most d dex and their quenched fractions by at most e, each value of the predicted stellar mass function changes by at most 2 (0.365 d/w + 2 e)/s, where w is the mean bin width and s the share of the population inside the bins (as smoothed by the histogram); it stays a number as long as 0.365 d/w + 2 e < s. For the joint distribution of mass and specific star formation rate on a grid of bins the same holds with d/w + d2/w2 in place of d/w; a conditional distribution with n bins changes by at most (n + 1) D W/S, where D bounds the changes of the joint distributions, W is the sum of the halo weights and S the share of the row. The square root of loss/1000 changes by at most the largest change of a predicted value. In particular halo histories that differ by d dex (same draws) change the stellar mass function by at most 5.2 d/(w s), and a histogram computed in single precision from such masses and weights is within 4 (0.365 d/w + e) plus the rounding error of C139 of the exact one, e being here the relative change of the weights, if more than half of the population is inside the bins.", "quantifier": "for all populations, star formation histories, strictly increasing bin edges, observation times after 0.1 Gyr, population parameters and keys; at least one galaxy", "why_tests_cant": "The normalisation divides by a count that can be arbitrarily small, so stability depends on where the galaxies lie; tests evaluate one population once and do not perturb it.", "anchors": ["diffstar/diffstarpop/loss_kernels/mstar_ssfr_loss_mgash_anyz.py:compute_diff_histograms_mstar_atmobs_z", "diffstar/diffstarpop/loss_kernels/mstar_ssfr_loss_mgash_anyz.py:compute_diff_histograms_mstar_ssfr_atz", "diffstar/diffstarpop/loss_kernels/mstar_ssfr_loss_mgash_anyz.py:mstar_kern_tobs", "diffstar/diffstarpop/loss_kernels/mstar_ssfr_loss_mgash_anyz.py:mstar_ssfr_kern_tobs", "diffstar/diffstarpop/loss_kernels/mstar_ssfr_loss_mgash_anyz.py:loss_mstar_kern_tobs", "diffstar/diffstarpop/sumstats/diffndhist.py:tw_ndhist_weighted"]}
{"id": "C151", "title": "Histories depend continuously on the times at which they are tabulated", "statement": "For every galaxy with parameters returned by the bounding transform, the star formation rates at any two tabulated times differ by at most 7 times the growth of the halo between them plus 13.2/T times the logarithmic time between them, where T = 10^qlglgdt is the quenching duration (all in dex): nothing jumps. The same holds for rates read from two tables. If the rates on two tables agree row by row within k dex and the time steps (counted from 0.001 Gyr) within r dex, the stellar masses agree within k + r dex. In particular, storing the times with a relative error of 1e-7 (single precision) changes rates and stellar masses by at most 0.001 dex beyond 7 times the change of the halo masses, if the table starts after 2 Myr and consecutive times differ by one part in a thousand.", "quantifier": "for all unbounded parameters, halo histories, positive times, baryon fractions and pairs of tables of equal length", "why_tests_cant": "A test compares the histories on one table; how much of the result is due to the table (double precision in the scripts, single precision on the device) is never measured.", "anchors": ["diffstar/sfh_model.py:calc_sfh_singlegal", "diffstar/kernels/quenching_kernels.py:_quenching_kern", "diffstar/utils.py:cumulative_mstar_formed"]}
{"id": "C152", "title": "Predictions depend continuously on the halo catalogue", "statement": "If a sequence of halo catalogues converges (peak masses, peak times, halo masses at the tabulated times, the time of observation and, for satellites, the infall quantities; same keys, centrals stay centrals), the predicted stellar mass functions, joint distributions of mass and specific star formation rate and the losses built from them converge to those of the limit, and are numbers (not NaN) from some catalogue on, provided the prediction for the limit is a number. There is no catalogue at which a prediction jumps.", "quantifier": "for all unbounded population parameters, keys, halo accretion models, baryon fractions, bins, numbers of halos and target bins, observation times after 0.1 Gyr, and all convergent families of catalogues", "why_tests_cant": "A test evaluates a few catalogues; continuity is a statement about all of them, and the code contains a switch (centrals/satellites), floors (smallest rate, smallest specific rate), clips (quenched fraction, lines) and piecewise kernels, each a possible jump.", "anchors": ["diffstar/diffstarpop/loss_kernels/mstar_ssfr_loss_mgash_anyz.py:mstar_kern_tobs", "diffstar/diffstarpop/loss_kernels/mstar_ssfr_loss_mgash_anyz.py:mstar_ssfr_kern_tobs", "diffstar/diffstarpop/loss_kernels/mstar_ssfr_loss_mgash_anyz.py:loss_mstar_kern_tobs", "diffstar/diffstarpop/loss_kernels/mstar_ssfr_loss_mgash_anyz.py:loss_mstar_ssfr_kern_tobs", "diffstar/diffstarpop/mc_diffstarpop_mgash.py:mc_diffstar_sfh_singlegal"]}
{"id": "C153", "title": "Joint distributions of mass and specific star formation rate in single precision", "statement": "The joint distribution of stellar mass and specific star formation rate of a halo bin, computed in single precision with the sums over galaxies taken in any order, is a number in each of its nms x nsf bins and reproduces each exact value b within 2.4 d + 5 e b, where d = 1.5e-5 + 2.5e-7 (nms + nsf) and e = nms nsf d + 8e-8 n for n galaxies, if e is at most 1/20 and at least half of the weight lies inside the grid. The distributions of specific rates at given stellar mass computed from joint distributions in error by D reproduce each exact value v within 2.4 delta + 5 e v, where delta is D times the halo weight over the share of the row and e = nsf delta + 8e-8 (nm + nsf + 1), if e is at most 1/20. The values are not always non-negative: rounding gives a negative probability for a bin three widths away from the galaxies, where the exact probability is tiny.", "quantifier": "for all populations, weights, ordered grids of bins, halo weights, orders of summation and roundings with unit roundoff at most 2^-24", "why_tests_cant": "Tests compare a few populations with tolerances; the accuracy claim ranges over all populations and all summation orders, and the negative value occurs for particular masses only.", "anchors": ["diffstar/diffstarpop/loss_kernels/mstar_ssfr_loss_mgash_anyz.py:compute_diff_histograms_mstar_ssfr_atz", "diffstar/diffstarpop/loss_kernels/mstar_ssfr_loss_mgash_anyz.py:mstar_ssfr_kern_tobs", "diffstar/diffstarpop/sumstats/diffndhist.py:tw_ndhist_weighted"]}
{"id": "C154", "title": "Mass functions and their loss in single precision, from the halo catalogue on", "statement": "The predicted stellar mass function of a halo bin, computed in single precision all the way from the halo catalogue (draws of the galaxy parameters, quenched fractions, star formation histories on the rounded table of 20 times, stellar masses, logarithms, weights of the two branches, histogram), is a number in each of its nb bins and reproduces the exact function of the same bounded population parameters within 1.46 D/s + 0.0014 + 4.5e-5 nb + 1.5e-6 nb^2 + 1e-6 n, where n is the number of galaxies, s the mean bin width, D = 1.001 d + 0.007 + B/10^6, d bounds the errors of the log star formation rates given in C149 and B the log stellar masses. This needs usable lines (C148), log halo masses within 0 to 20 that are computed within 1e-5 dex, an observation time between 0.2 and 100 Gyr, and a little more than half of the weight inside the histogram: at least 0.501 + 0.37 D/s. The root mean square misfit obtained from the loss computed in single precision differs from the exact one by at most the error E of the predictions plus 7e-8 (N+5) times (the exact misfit plus E), N being the number of bins of all targets, up to 100000.", "quantifier": "for all bounded population parameters with usable lines, halo samples, mass histories, random deviates, ordered bins, orders of summation, targets, and library functions of the stated accuracy", "why_tests_cant": "An end-to-end test sees one catalogue and one key; the bound ranges over all catalogues, deviates, parameters and summation orders, and composes the errors of every stage.", "anchors": ["diffstar/diffstarpop/loss_kernels/mstar_ssfr_loss_mgash_anyz.py:mstar_kern_tobs", "diffstar/diffstarpop/loss_kernels/mstar_ssfr_loss_mgash_anyz.py:loss_mstar_kern_tobs", "diffstar/diffstarpop/mc_diffstarpop_mgash.py:mc_diffstar_sfh_galpop"]}
{"id": "C155", "title": "Joint distributions of stellar mass and specific star formation rate in single precision, from the halo catalogue on", "statement": "The predicted joint distribution of stellar mass and specific star formation rate of a halo bin, computed in single precision all the way from the halo catalogue, is a number in each of its nms x nsf bins and reproduces the exact distribution of the same bounded population parameters within 1.46 (D/s + D'/r) + 0.0014 + 2.4 d + 5 e, where s and r are the mean bin widths of the two axes, D = 1.001 x + 0.007 + B/10^6 and D' = 2.002 x + 0.014 + 3 B/10^6, x bounds the errors of the log star formation rates given in C149, B the sizes of the log stellar masses and of the last log star formation rates, d = 1.5e-5 + 2.5e-7 (nms + nsf), e = nms nsf d + 1.6e-7 n for n galaxies. This needs the conditions of C154, e at most 0.05, and a little more than half of the weight inside the grid: at least 0.501 + 0.37 (D/s + D'/r). The root mean square misfit over nz redshifts, nt halo bins and nsf rates, computed in any order of summation, is within E + 7e-8 (nz nt nsf + 5) (misfit + E) of the exact one, if each prediction is within E of the exact one.", "quantifier": "for all bounded population parameters with usable lines, halo samples, mass histories, random deviates, ordered bins on both axes, orders of summation, targets, and library functions of the stated accuracy", "why_tests_cant": "An end-to-end test sees one catalogue and one key; the bound ranges over all catalogues, deviates, parameters, grids and summation orders, and composes the errors of every stage.", "anchors": ["diffstar/diffstarpop/loss_kernels/mstar_ssfr_loss_mgash_anyz.py:mstar_ssfr_kern_tobs", "diffstar/diffstarpop/loss_kernels/mstar_ssfr_loss_mgash_anyz.py:loss_mstar_ssfr_kern_tobs", "diffstar/diffstarpop/mc_diffstarpop_mgash.py:mc_diffstar_sfh_galpop"]}
{"id": "C156", "title": "Underflow and overflow do not change star formation histories", "statement": "In single precision, results below 2^-126 underflow (gradually or to zero, depending on the device) and results above 2^128 overflow; exp overflows in the efficiency of low-mass halos. For all parameters inside their bounds, halo masses between 1 and 1e20 Msun, baryon fractions between 1e-10 and 1, and up to 1000 times between 0.01 and 100 Gyr at least 1e-6 Gyr apart, the star formation rates and masses returned are exactly those of arithmetic with an unlimited range of exponents, on every such device, and none is infinite; so the error bound of C127 holds. The floor of 1e-14 that the code puts on the star formation rate is what makes this true: the main sequence rate alone does underflow to zero for a halo of one solar mass and a steep efficiency. Parameters, log halo masses and logarithms of times are single precision numbers, and powers of ten of exponents below 1e-17 are one.", "quantifier": "for all parameters in their bounds, mass histories, time tables, ways of handling underflow, and library functions of the stated accuracy", "why_tests_cant": "Underflow handling differs between devices and compilation flags; a test runs on one device and cannot show that the result is the same on all of them for all parameters.", "anchors": ["diffstar/sfh_model.py:calc_sfh_singlegal", "diffstar/kernels/history_kernel_builders.py:_sfh_singlegal_scalar", "diffstar/kernels/main_sequence_kernels.py:sfh_ms_kernel", "diffstar/utils.py:cumulative_mstar_formed"]}
{"id": "C157", "title": "Unbounded parameters of any size give finite star formation histories in single precision", "statement": "For every set of single precision unbounded parameters up to 1e29 in size, as an optimiser may propose them, get_bounded_diffstar_params in single precision with underflow and overflow returns eight finite numbers. They are those of arithmetic with an unlimited range of exponents, except that indx_lo, whose lower bound is zero, may underflow (both values are then below 1e-34). The star formation rates and masses that calc_sfh_singlegal computes from them are exactly those of an unlimited range, for halo masses between 1 and 1e20 Msun, baryon fractions between 1e-10 and 1 and up to 1000 times between 0.01 and 100 Gyr at least 1e-6 Gyr apart: exp overflows in the bounding sigmoids, but no result is infinite or not a number.", "quantifier": "for all single precision unbounded parameters up to 1e29, mass histories, time tables, ways of handling underflow, and library functions of the stated accuracy", "why_tests_cant": "The range of unbounded parameters covers 60 orders of magnitude in eight dimensions and underflow handling differs between devices; tests sample unbounded parameters of order one.", "anchors": ["diffstar/defaults.py:get_bounded_diffstar_params", "diffstar/kernels/main_sequence_kernels.py:_get_bounded_sfr_params", "diffstar/kernels/quenching_kernels.py:_get_bounded_q_params", "diffstar/utils.py:_sigmoid", "diffstar/sfh_model.py:calc_sfh_singlegal"]}
{"id": "C158", "title": "Single precision histories from unbounded parameters agree with exact histories to a stated number of dex", "statement": "For every set of single precision unbounded parameters up to 1e29 in size, get_bounded_diffstar_params followed by calc_sfh_singlegal in single precision, with underflow and overflow, gives finite positive star formation rates and stellar masses at all times. Each agrees with the exact result within 0.0015 + 0.000032/10**qlglgdt dex, so never worse than 0.034 dex, for log halo masses between 0 and 20 that are accurate to 1e-5 dex, baryon fractions between 1e-10 and 1, and up to 1000 times between 0.01 and 100 Gyr at least 1e-6 Gyr apart. A row of calc_sfh_galpop has the same accuracy whatever the other rows contain, even if those are infinite or not a number.", "quantifier": "for all single precision unbounded parameters up to 1e29, mass histories, time tables, population sizes, contents of other rows, ways of handling underflow, and library functions of the stated accuracy", "why_tests_cant": "The error bound is a maximum over an eight dimensional parameter space and all mass histories; tests compare single precision results with stored values at a few points and cannot tell rounding errors from model errors.", "anchors": ["diffstar/sfh_model.py:calc_sfh_singlegal", "diffstar/sfh_model.py:calc_sfh_galpop", "diffstar/defaults.py:get_bounded_diffstar_params", "diffstar/utils.py:cumulative_mstar_formed"]}
{"id": "C159", "title": "Bounded parameters on their bounds survive the way to unbounded parameters and back in single precision", "statement": "In single precision, get_bounded_diffstar_params(get_unbounded_diffstar_params(p)) is a set of eight finite numbers within 1e-4 of p for every p in the closed ranges of the parameters, including values on the bounds, whose unbounded values are infinite, and values so close to a bound that the difference is lost in rounding; in particular for all p that get_bounded_diffstar_params returns, whatever the size of the unbounded parameters.", "quantifier": "for all bounded parameters in the closed ranges, all unbounded parameters of any size, and library functions of the stated accuracy", "why_tests_cant": "The interesting cases are single floats next to each of sixteen bounds, where the result depends on whether a difference rounds to zero and on the sign of what is left; tests with random parameters of moderate size do not reach them.", "anchors": ["diffstar/defaults.py:get_unbounded_diffstar_params", "diffstar/defaults.py:get_bounded_diffstar_params", "diffstar/utils.py:_inverse_sigmoid", "diffstar/utils.py:_sigmoid", "diffstar/kernels/quenching_kernels.py:_get_unbounded_qrejuv"]}
{"id": "C160", "title": "Infinite unbounded parameters give bounded parameters and finite histories; NaN is neither produced nor lost", "statement": "In single precision, get_bounded_diffstar_params of unbounded parameters each of which is a number or plus or minus infinity returns eight finite numbers in the closed ranges, and calc_sfh_singlegal of these is finite for log halo masses, baryon fractions and time tables as in C158. Plus infinity gives the same parameter as every unbounded value of at least 60. A bounded parameter is NaN exactly if its unbounded parameter is NaN, and lg_rejuv also if the unbounded drop is NaN; NaN in one parameter does not spread to others.", "quantifier": "for all unbounded parameters that are numbers, infinities or NaN, all mass histories, time tables and library functions of the stated accuracy", "why_tests_cant": "Infinite parameters arise from parameters on their bounds; there are 4^8 combinations of numbers, infinities and NaN with a continuum of numbers, and tests use finite ones.", "anchors": ["diffstar/defaults.py:get_bounded_diffstar_params", "diffstar/utils.py:_sigmoid", "diffstar/kernels/quenching_kernels.py:_get_bounded_lg_rejuv", "diffstar/sfh_model.py:calc_sfh_singlegal"]}
{"id": "C161", "title": "Single precision histories are reproducible to the last bit and masses never decrease", "statement": "In single precision with underflow and overflow: calc_sfh_singlegal for a time table that ends earlier returns exactly the first rates and masses of the longer table, if those are finite; the star formation rate at a given time is the same number in every table that contains it; row i of calc_sfh_galpop is exactly calc_sfh_singlegal of galaxy i, or neither is finite. For unbounded parameters of any size up to 1e29, and log halo masses, baryon fractions and time tables as in C158, all rates and masses are positive and masses never decrease with time.", "quantifier": "for all parameters, mass histories, time tables, truncations of them, population sizes, and ways of handling underflow and overflow", "why_tests_cant": "Equality to the last bit for all truncations, tables and populations cannot be sampled, and a lost bit would be within the tolerance of any numerical test.", "anchors": ["diffstar/sfh_model.py:calc_sfh_singlegal", "diffstar/sfh_model.py:calc_sfh_galpop", "diffstar/utils.py:cumulative_mstar_formed", "diffstar/utils.py:cumtrapz"]}
{"id": "C162", "title": "Single precision rates and masses never decrease with the baryon fraction, and doubling it doubles rates exactly", "statement": "In single precision with underflow and overflow, for single precision unbounded parameters up to 1e29 and log halo masses and time tables as in C158: if fb <= fb2, both between 1e-10 and 1, then no star formation rate and no stellar mass of calc_sfh_singlegal with fb2 is below the one with fb. If fb2 is fb times a power of two, each rate before clipping at SFR_MIN is multiplied by exactly this power of two.", "quantifier": "for all unbounded parameters up to 1e29, baryon fractions, powers of two, mass histories, time tables, ways of handling underflow, and library functions of the stated accuracy", "why_tests_cant": "Monotonicity to the last bit for all pairs of baryon fractions cannot be sampled: pairs of neighbouring floats are the critical ones, and there rounding errors exceed the difference.", "anchors": ["diffstar/sfh_model.py:calc_sfh_singlegal", "diffstar/kernels/main_sequence_kernels.py:sfh_ms_kernel", "diffstar/utils.py:cumulative_mstar_formed"]}
{"id": "C163", "title": "In single precision quenching changes nothing before it starts, and nothing but the halo mass changes rates after it ends", "statement": "In single precision with underflow and overflow, for single precision unbounded parameters up to 1e29 and inputs as in C158: two galaxies with the same main sequence parameters have bit-identical star formation rates at every time t with log10(t) <= lg_qt - 0.51 * 10**qlglgdt for both, whatever their quenching parameters, and at all times if lg_drop is zero for both; masses are bit-identical if that holds for all times of the table. At times with log10(t) >= lg_qt + 0.51 * 10**qlglgdt the rate depends on time through the halo mass only, to the last bit.", "quantifier": "for all pairs of unbounded parameters up to 1e29, mass histories, time tables, ways of handling underflow, and library functions of the stated accuracy", "why_tests_cant": "The start and end of quenching move with two parameters and single bits change at its edges; tests compare a few histories with a tolerance.", "anchors": ["diffstar/kernels/quenching_kernels.py:_quenching_kern", "diffstar/kernels/quenching_kernels.py:_jax_partial_u_tw_kern", "diffstar/kernels/history_kernel_builders.py:_sfh_singlegal_scalar", "diffstar/sfh_model.py:calc_sfh_singlegal"]}
