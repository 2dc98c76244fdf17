# Design of the Lean model of diffstar

Source: `/repo` (ArgonneCPAC/diffstar, python). Nothing is executed; the model in
`lean/Verif/Model/*.lean` is a function-by-function transcription, each
definition citing the file and lines it mirrors. Specifications that do not mention the model live in
`lean/Verif/Spec.lean`, helper lemmas in `lean/Verif/Lemmas/`, and the property
theorems in `lean/Verif/Props/` (one file per group, beside an `example` showing that the hypotheses
are met by a concrete non-trivial case).

## Trusted base

* The Lean 4 kernel and Mathlib. Axioms: `propext`, `Classical.choice`, `Quot.sound` only.
* The reading of the Python source as the Lean definitions. Conventions:
  * floating point is replaced by exact real arithmetic (`ℝ`), except in `Model/Rounding.lean`. Overflow
    and underflow are **not** modelled, except in `Model/RoundRange.lean` (C156-C158); signed zeros are not. Theorems other than those of C124 and later ones that name
    rounding are about the mathematical function the code denotes. `Model/Rounding.lean` repeats some kernels with every
    operation rounded (IEEE round to nearest even, unbounded exponents, operations in the order of the source, no fused
    multiply-add; library functions such as `exp` are parameters with a stated accuracy). Where control flow depends on NaN/inf (fit drivers, zero slope, parameters on their bounds in `Model/RoundSpecial.lean`)
    the special values are modelled explicitly as an extra constructor.
  * decimal literals (`1e-14`, `0.156`, ...) are the exact rationals written in the source.
  * `jnp.where`/`lax.cond`/`lax.switch` are `if`; `vmap` is `List.map`/`zipWith`;
    `lax.scan` is a list scan; arrays are `List ℝ` (or `Fin n → ℝ` for matrices);
    named tuples are structures, or functions from an enumerated field type for the 88 DiffstarPop fields.
  * Python exceptions are values (`Except`/`Option`), reached by exactly the inputs that raise.
* External libraries appear as **parameters** of the model, so that theorems hold for every behaviour of
  them: diffmah (`_log_mah_kern`, `mah_singlehalo`), the JAX random number generator, `scipy.optimize.minimize`,
  Adam's update, `h5py` contents, `np.random`. Where a law of the library is used it is a named hypothesis
  or is built into the definition and stated in the comment.

Not modelled: plotting code, printing, argument parsing (except the option `-test`, C132), MPI transport itself
(ranks and their interleavings are, C129 and C131), gradients (JAX autodiff; derivatives of the model are proved to exist
instead), `jit` compilation, wall clock. The file system is modelled as a map from paths to contents where a property needs
it (C83, C101, C128-C132).

## Properties

"Proved" below is the intention; `MANIFEST.json` has the current status.

| id | what is modelled | how it is proved |
|----|------------------|------------------|
| C01 | `_sigmoid`, `calculate_sigmoid_bounds`, bounded main-sequence and quenching maps | sigma in (0,1); lg_rejuv interval (lg_drop,0) |
| C02 | plus `_inverse_sigmoid` and unbounded maps | log/exp inverse algebra on open box |
| C03 | same | strict monotonicity of exp; lg_rejuv by product sign argument |
| C04 | `_sfh_singlegal_scalar` final clip, four public functions | `max` |
| C05,C06 | `_jax_tw`, `_jax_partial_u_tw_kern`, `_quenching_kern` | polynomial inequalities, derivative (35/96)(1-y^2/9)^3, continuity by gluing |
| C07 | scalar SFH kernel | C05 + positivity of the main sequence |
| C08 | the unquenched parameter vector | explicit bound of the sigmoid at 5 using exp lower bounds |
| C09 | `_sfr_eff_plaw` | z*sigma(-z) <= 1/3 |
| C10 | scalar kernel | `max` algebra |
| C11-C14 | `cumtrapz` scan, `cumulative_mstar_formed` | spec is the Mathlib interval integral of the linear interpolant; induction on the table. C14 is a negation: the code integrates a linear ramp |
| C15,C16 | single and population calls as maps | list induction |
| C17-C19 | `calc_mgas_*` | linearity of the trapezoid; C18 is false (negation with witness history) and holds when SFR <= fb dMh/dt |
| C20 | both dt functions with their failure modes | index lemmas, telescoping sum |
| C21,C22 | `compute_fstar` with clamped interpolation | mean value bound of chord; C22 is false at index 0 |
| C23-C25 | triweight kernels, bin weights, nd-histograms | polynomial identities, telescoping, product-of-sums |
| C26 | `compute_smhm` | weighted mean |
| C27,C28 | whole loss kernels from unbounded parameters to loss, NaN explicit | sums; weights from C29; definedness characterised exactly |
| C29-C31 | quenched fraction and satellite kernels | nested sigmoid bounds |
| C32-C34 | Monte Carlo kernels over an abstract PRNG | functional dependence |
| C35,C36 | `smoothly_clipped_line`, std models, covariance blocks | z sigma(z) >= -1/3; C36 upper bound is false in general (negation with witness, reached by a shipped calibration) and zero slope is 0/0 |
| C37,C38 | 79+9 field tables | generic sigmoid round trip per field; finite check of the shipped tables by `decide`/`norm_num` |
| C39 | matrix conversions | matrix algebra |
| C40 | named tuple update | list induction |
| C41 | `jax_np_interp` with JAX index clamping/wrap-around | in range equal; out of range differs (negation) |
| C42-C45 | fit drivers over arbitrary outcome streams with NaN | invariant by induction on iterations; C43 false after NaN (negation) |
| C46-C49,C64 | weights, initial guess, loss, fitter | case analysis; C47 false (negation): update is discarded |
| C50,C51,C61,C69 | header, text rows (`%.5e` formatting with rounding modelled exactly), `genfromtxt`, collated file | token splitting lemmas; decimal rounding error bound; C61 false: `load_fit_sfh` wants a column that is never written |
| C52,C53,C70 | `np.array_split`, rank loop, `genfromtxt` shapes | arithmetic; C53 false for ranks with fewer than two halos; C70 false with more ranks than halos |
| C54-C56 | halo loaders, script-level decision whether to fit | C54 false for halos with too few points and in the TNG script |
| C57-C59 | Galacticus loaders | sums, slices; C59 false for istart>0 |
| C60,C62 | helpers | case analysis |
| C63 | `prepare_ragged` and the contraction of the loss kernel | sums over padded lists; false when halo bin 0 has a NaN prediction (NaN*0) |
| C63 | `prepare_ragged` | `IndexError` if a redshift has no populated halo bin (float index array); otherwise, with at least one redshift, the data is made (`C63_made_iff`) |
| C65 | `get_all_diffstarpop_u_params` | documented nested call always raises; flat form proved |
| C66,C68 | `minimizer`, `jax_adam_wrapper_v2`, `minimizer_wrapper` | case analysis over outcomes; two violations (extra arguments, infinite loss) |
| C67 | `get_loss_data_default` | positivity of every log argument |
| C71-C77 | target measurement: `load_diffstar_sfh_tables`, histograms, `sample_halos`, redshift index, MPI collection | list sums over bins (half-open bins with closed last bin), append/fold lemmas; violations by explicit halos on edges, missing subvolume, missing `fb`, high sSFR |
| C78-C81 | loss data functions: selection loops, normalisations, conditional targets, infall columns | loop invariant; sums; C80, C81 false (witnesses) |
| C82 | optimisation loop of the population fit over an abstract optimiser and kernel with non-finite values | loop invariant, first-minimum lemma; three violations |
| C83 | `return_subvol_str` on a directory listing | digit-string lemmas; false for unpadded names of two and three digits |
| C84 | `save_loss_data_h5` / `load_loss_data_h5`, h5 groups iterated in name order | decimal names below 10000 sort numerically; false beyond (negation for every longer sequence) |
| C85 | mass-binned quality means with the `0` / `nan` conventions | sums over filtered lists; two violations |
| C86 | time and mass preparation in the Galacticus diffmah fitter, `allreduce(MAX)` over ranks | running-maximum lemmas |
| C87 | core kernels | positive-part powers are C^n, so the triweight step is C^3; composition; `max` with the floor is smooth off the floor |
| C88 | `_sfr_eff_plaw` | derivative of `z sigma(z)` is strictly increasing on [-2,2], at least 1 above and at most 0 below; intermediate value theorem |
| C89 | core kernels | monotone exponent; trapezoid sums are monotone in the rates |
| C90 | chain of Galacticus extraction, target data, block file; times of the disk are taken to be those of the bulge as in the code | composition of C57, C58, C59 |
| C91 | `vmap` transforms on arrays as lists of rows | row by row |
| C92 | as C32, C27; the generator is idealised as independent uniform draws at the keys of the galaxies, the normal draws are arbitrary but fixed | product measure of boxes, linearity of the integral |
| C93 | as C27, C28; the sampler is assumed `n` times continuously differentiable in mean and covariance (as mean plus Cholesky factor times normal deviates is, for the diagonal positive covariances that occur), NaN is `none` | closure of local smoothness under the operations of the kernels; away from the floor and the clip for differentiability |
| C94 | as C27, C28; a history with a NaN parameter is `none` as a whole, which for the rejuvenation level is not what the code does (rates before the quenching time stay numbers), so that the theorems on the losses exclude `mean_urej_slp = 0` | the quotient of the smoothly clipped line is 0/0 exactly at slope 0; positivity of triweight bins |
| C95 | `Model/PopGrad.lean`; `jax.value_and_grad` is a parameter `Ad`, assumed (`Spec.IsAd`) to return the partial derivatives wherever the function is locally a differentiable function without NaN (for the traced program this is proved: C136) | chain rule on the local functions of C93 |
| C96 | `Model/PopGrad.lean` around the loop of C82; strings are character lists; the `.npz` reader is a parameter; the value of the kernel at vectors with NaN entries is a parameter | string lemmas for `split`/`join`, C38 for the calibrations, C82 for the loop. Partial: the start must be differentiable (at other starts C82 has the violations); paths starting with `diffstarfits` can never be files |
| C97 | `Model/SimLoaders.lean`; the disk is a function from paths to tables and time arrays; the SMDPL binary reader is a parameter; `none` is an exception | integration lemmas of C11 and running maxima of C70 applied row by row |
| C98 | `Model/SampleArrays.lean`: the arrays, their transposes, fancy indexing and `np.concatenate`, around the sampling of C72 | the arrays are projections of one list of rows; lengths of `np.random.choice` are assumed as in C72 |
| C99 | `Model/TngRanks.lean`: `np.array_split` over `NCHUNKS = 20`, the rank as chunk number, boolean masks that must have the right length. The whole-catalogue population is `loadTables` of C76; an exception in one rank counts as failure of the run; no temporary files of earlier runs are left in the output directory | the chunks flatten to the catalogue (C52), the sums pool (C73). Partial: 20 ranks; other rank counts fail (`C99_rank_count_violated`) because `-nchunks` is ignored |
| C100 | the models of C29-C36; the sampler is assumed to return `mean + std z` for positive diagonal covariances (`Spec.GaussianSampler`) | limits, midpoint, derivative and monotonicity of each transition (`Spec.Switches`); explicit distance of the smooth clipped line and of the bent line from their sharp versions. Written after mutants that exchanged parameters survived |
| C101 | `Model/SubvolFiles.lean`: a directory is the list of its names; the regular expression, `str.split`, `str.replace`, `astype(int)` and `np.sort` as list functions. ASCII digits, no line break at the end of a name | a matching name is the pattern around its digits; digit strings of one length and value are equal. Partial: the digits of a directory have one width, or are unpadded with a one-digit name among them (else `C101_mixed_padding_violated`, `C83_mixed_lengths_violated`); `-sim_name other` is accepted and always fails (`C101_other_simulation_violated`) |
| C102 | `Model/FitLoss.lean` with the default cuts | the weights of C46 with the logarithms removed, and the difference of two loss formulas (C49) that differ at one snapshot. Partial: the time cut does not hold for snapshots that already have 10^-0.1 of the final mass, because the weight 0.5 is written after the mask (`C102_early_snapshot_fitted_violated`) |
| C103 | `Model/FitLoss.lean`, `Model/Sfh.lean` | C49 with the targets computed from the model's own history. Partial: no snapshot is at a floor; then the loss is the ridge penalty. False for strongly quenched galaxies (the target is raised to a specific SFR of 1e-12, the model only to 1e-13: `C103_quenched_galaxy_violated`) and for galaxies that quench before the peak of their averaged SFR (`C103_early_quenching_violated`) |
| C104 | `Model/Sfh.lean`, `Model/Utils.lean` | trapezoid of one cell against the integral, summed with C13; uniform continuity on the compact time interval. The SFR as a function of time is any `sfr` with `calc_sfh_singlegal([x]) = [sfr x]` |
| C105 | `Model/MstarTarget.lean` on top of `Model/LossData.lean`, `Model/Targets.lean` | the double loop by induction, entries and targets together; the weights of a cell are those of C75-C77. Partial: a target is NaN exactly if no galaxy of the cell is within three bin widths of the grid (`C105_galaxies_off_grid_violated` has a concrete case in which the fit then raises) |
| C106 | `Model/CenSat.lean` | filters of the population compared with those of the SMDPL measurement (C71), whose properties C71-C77 then apply; samples by C74. Partial: the code takes the flag of the last snapshot at all redshifts (the per-redshift lines are commented out) |
| C107 | `Model/PopMinimizer.lean` | case analysis; partial: the flag is the constant 1 |
| C108 | `Model/SsfrTarget.lean`, `Model/LossData.lean`, `Model/Targets.lean`, `Model/PopLoss.lean` | the measured weights of C73 put into the targets of C79; a halo mass bin is weighted with its number of halos over the kernel weight its galaxies have on the grid. Predictions: C27 with the bins of the scripts. Partial: the two weightings agree with a plain sum over galaxies only if all galaxies are on the grid |
| C109 | `Model/FitLoss.lean`, `Model/Sfh.lean` | the formula of C49; `npInterp` is linear in the table values and `cumulative_mstar_formed` affine in the rates, so everything is a composition of continuous maps with positive arguments of the logarithms; the bound is compactness of the closed parameter box; differentiability from C87 and the maximum of two functions that differ at the point |
| C110 | `Model/FitScripts.lean`, `Model/Loaders.lean`, `Model/FitLoss.lean`, `Model/Output.lean` | the three scripts from the loaded data to the collated file; the loaders and file format are those of C53, C58 and C90. Rank parts are contiguous (C70), so concatenating them gives the galaxies in order. Partial: at least two galaxies per rank; the options have no effect |
| C111 | `Model/FitTables.lean`, `Model/FitScripts.lean` | the part of the three readers between the files and the parameter arrays; composed with the scripts of C110. Partial: two galaxies per rank, five points per diffmah fit; TNG evaluates the tables with another baryon fraction |
| C112 | `Model/Sfh.lean`, `Model/MainSequence.lean`, `Model/Quenching.lean` | the closed form of C05/C09 at the default values, with numerical bounds on the times of the quenching event |
| C113 | `Model/Sfh.lean`, `Model/Text.lean`, `Model/FitTables.lean` | mean value bounds for the triweight and the rolling slope, one parameter at a time; the rounding is that of C69 and of an arbitrary cast with the accuracy of single precision. Partial: one per cent only for events longer than 0.1 dex |
| C114 | `Model/Sfh.lean` | the closed form of C05/C09 under shifts of the logarithms |
| C115 | `Model/Sfh.lean` | main sequence: the two power-law wings determine slopes and intercepts, and different slopes the break; quenching: minimum, end value and start of the event determine the four parameters |
| C116 | `Model/FitGrad.lean`, `Model/FitLoss.lean`, `Model/FitDrivers.lean` | automatic differentiation is a parameter assumed correct where the loss is differentiable, which is C109 (for the traced program the assumption is proved: C135); the attempts are those of C42/C43 with no NaN gradient. The optimiser is assumed to report the loss of its result and not to end above its start |
| C117 | `Model/QualityRows.lean`, `Model/Quality.lean` | the chunks of data and catalogue are split alike, so masks select the same rows; then C85. The loader of the simulation is C97; a row of the tables is `tableRow` of C76. Partial: TNG; exact zeros as in C85 |
| C118 | `Model/QualityRows.lean`, `Model/NdHist.lean` | chunks concatenate to the catalogue, histograms are sums over galaxies |
| C119 | as C92 (same idealised generator; the normal draws are fixed) | variance of independent sums, Hoeffding's inequality (Mathlib) and a union bound over the bins |
| C120 | as C109; the loss on the faces of the box is the formula of C49 at bounded parameters | compactness of the closed box, continuity (C109), every point is the limit of inner points, which are bounded images by C02 |
| C121 | as C119, the normal draws being any random variable independent of the uniform ones | law of total variance on top of C119 |
| C122 | the generator as a function of the draws (`NormalDraws`: the normal draws with diagonal covariance are mean + deviation × standard normal deviate, each sub-key has its own deviates); one product measure for all draws | C100 for the lines; product measures, push-forward of the deviates, monotone bounding (C03) for quantiles |
| C123 | as C122; histories enter through measurability (C87) | Hoeffding over the product measure of C122; normalised histograms of close counts |
| C124 | `Rounding.cumulativeMstarFormed`: the scan with every operation rounded | monotone rounding keeps order; error calculus `Approx` (products, sums and roundings of approximations); C11 for the exact value; witness evaluated in binary32 |
| C125 | `Rounding.getBoundedDiffstarParams`: sigmoids with every operation rounded, `exp` any function of given accuracy | monotonicity of rounding; constants evaluated in binary32. Violated: `qlglgdt` above its bound, saturated parameters not invertible |
| C126 | `Rounding.twBinJaxKern`, `Rounding.quenchingKern`; integer powers by repeated squaring, `10**x` any function of given accuracy | error calculus of the polynomial (12 roundings, majorant 3.5), Lipschitz bounds of C113. Violated: CDF `-2^-23` in binary32 |
| C127 | `Rounding.calcSfhSinglegalSmh`: whole kernel with every operation rounded; library functions (`MathLib`) and `logMah` of given accuracy | logarithmic errors add over products; slope and shape are Lipschitz (C113); C124 for masses. Hypotheses hold for correctly rounded functions (proved) and for the parameters of C125 |
| C128 | `QualityMain.main`: bins by `np.arange`, steps per simulation, `save_data_plot` as named datasets | `main_entry` gives every dataset of the TNG file; the other options stop in the first loader. Averages are those of C117 |
| C129 | `RankFiles`: file system as a function of paths, `str.format`, `os.path.join`, `rm` with word splitting and `*`, the three scripts from the rank files to the clean-up | exact final file system for plain directory names; names of ranks, types and (padded) subvolumes are injective and prefix free |
| C130 | `CatFiles`: the readers' file names (`os.path.join`, `dirname`, padding) and which datasets they open, on the file system of C129 | composition with C129: the path a reader opens is the path the script wrote. Contents are the catalogues of C110 |
| C131 | `Interrupt`: the Galacticus run as single writes, any interleaving of ranks, any buffering, any prefix as crash point | a text file depends only on its own steps, and the steps of a rank keep their order; collation phase by cases on the prefix. Simplification: an interrupted hdf5 file holds the columns written so far |
| C132 | `TestRuns`: the scripts with `-test`: `type=bool` of argparse, number of galaxies, which subvolumes or rows are fitted | index arithmetic of `array_split` and slices on the scripts of C110, file system of C129 |
| C133 | `PopLoss`, draws of C122 for several populations at once (`Stream`) | C123 for each target bin (Hoeffding), union bound over target bins and histogram bins, then deterministic error propagation through normalisation, mixing of halo bins, conditioning and the mean square |
| C134 | `Rounding.getBoundedDiffstarParams`, `Rounding.getUnboundedDiffstarParams` | relative error of each rounding, propagated through sigmoid, division, logarithm and back; conditioning of the logarithm near the bounds. Outside these regions: C125 |
| C135 | `Model/AutoDiff.lean` (expressions, values with NaN, backward pass with the rules of `jax.lax`, the traced loss) | one invariant closed under every operation: the value is finite everywhere, the cotangents are finite multiples of one linear form, which is the derivative off the edges; at the joints of the triweight kernel both branches have the same derivative. Real arithmetic: overflow of intermediate numbers is outside the model |
| C136 | `Model/PopAutoDiff.lean`: the population losses as traced expressions of the 88 parameters; the sampler is mean plus Cholesky factor of the diagonal covariance times a normal vector of the key | the invariant of C135 for every kernel, given that the loss of `Model/PopLoss.lean` is a number; NaN-propagation in the other direction shows that the traced value is NaN otherwise. **Violated** at `mean_urej_slp = 0`: `where(y < 0, z, w)` hides the NaN of `w` in the value but not in the gradient; closed witness with one halo at 0.2 Gyr. The script stops at such a gradient and saves the best parameters so far; if it starts there, it saves 88 zeros, at which the loss is NaN (`C136_fit_zero_slope_violated`) |
| C137 | `Model/Adam.lean`: the update of `jax.example_libraries.optimizers.adam` (library, b1 = 0.9, b2 = 0.999, eps = 1e-8) plugged into the loop of the script (`Model/PopFit.lean`) and into `_jax_adam_wrapper` (`Model/FitDrivers.lean`) | invariant `m^2 <= 52.9 v` (weighted Cauchy-Schwarz) and `1 - b2^t <= (1 - b1^t)^2`; loop invariant on the recorded points, including extra steps and skipped passes; closed form for a constant gradient. Exact arithmetic |
| C138 | `Model/PopLoss.lean`, `Model/Targets.lean`; small spec `Spec.TargetRow` (a row of non-negative numbers of sum at most one) | squared distance of two such rows is at most two; Cauchy-Schwarz on the bins of S; that the targets of the repository are such rows follows from C79 |
| C139 | `Model/RoundHist.lean`: kernel, histogram, normalisation and mean square error with a rounding after each operation; `jnp.sum` is a relation (any binary tree of additions) | the error of one weight from C126; induction over summation trees; division by the total. `C139_nonneg_violated`: bins 8..12 and galaxies at 8.0234375 give a negative value in [11,12]. Overflow and underflow are not modelled |
| C140 | the traced losses of C136 and the Adam of C137; small specs `Spec.SatMstar`, `Spec.SatSsfr`, `Spec.SatData` (what the loss data contains) | `Lemmas/TraceSens.lean`: a calculus that bounds one derivative through a traced program (`Sens`), and relative to the value through histograms and normalisations (`Rel`); the sigmoid in the time since infall, at -99 Gyr, makes every one of them tiny; the Adam bound of C137 with a gradient below EPS gives the moves. Real arithmetic: in single precision these gradients underflow to zero |
| C141 | `Model/RoundFstar.lean`: `jnp.interp` (its interval search, its guard against equal abscissas and its chord formula), `compute_fstar` and the clip of the loss, a rounding after each operation | `Lemmas/RoundInterp.lean`: float and exact interpolation pick the same interval (also at a rounded abscissa that hits a knot); interpolated masses are Lipschitz in the time with the largest rate; masses lag by relative errors that grow with i (C124); C127 for the rates. `C141_average_can_vanish` is the negation without the floor. Overflow and underflow are not modelled |
| C142 | `Model/RoundGas.lean`: `_jax_get_dt_array` and `calc_mgas_singlegal` with a rounding after each operation (the accretion rates of diffmah are parameters) | `Props/RoundGas.lean`: running sums of rounded products are monotone in the summands, which gives the sign; C124 for the accreted mass and for the stars, one more rounding for the difference; C127 for the rates. Overflow and underflow are not modelled |
| C143 | the functions of C11-C15 | `Props/TimeTables.lean`: one trapezoid step with positive rates has the sign of the time step; chains of `<`. `C143_early_start_negative` is the case the code accepts silently |
| C144 | `Model/RoundLoss.lean`: `loss_default_clipssfrh` from the bounded parameters on, with a rounding after each operation; `jnp.mean` as a sum in any order (`IsSum`) and a division | `Props/RoundLoss.lean`: the loss is a sum of squares, so its square root is a Euclidean norm: triangle inequality for the errors of the residuals (C124, C127, C141), relative errors for the sums and squares (C139's lemmas). The last term is a steep sigmoid: a relative error 2e-7 of its argument changes it by at most 4e-6 of its height (Lipschitz near the centre, flat away from it). Overflow and underflow are not modelled |
| C145 | `Model/RoundPop.lean`: bounded population parameters and quenched fractions with a rounding after each operation; halo inputs and draws are the same numbers in both precisions | `Props/RoundPop.lean`, `Props/RoundPopErr.lean`: ranges from monotonicity of rounding (87 of 88 intervals have ends for which fl(lo + fl(hi - lo)) = hi; for `qphi_lgmu_crit` it is -0.0999999046, `C145_lgmu_crit_violated`); errors of the parameters (every interval is at least a fifth as wide as its ends are large) and of the fractions by the Lipschitz constant 1/4 of the sigmoid, step by step; flags: the draws between two fractions have measure at most their distance, union bound over galaxies. `C145_strict_violated`: saturated parameters give a fraction of exactly 1 for every central |
| C146 | nothing new: `calcSfhSinglegalSmh`, `computeFstar`, `mcDiffstarParamsSinglegal`, `mcDiffstarSfhGalpop`; diffmah's history is an arbitrary function, and the two runs may use two different ones | `Props/HaloErrors.lean`: the logarithmic rate as a function of log mass has derivative 1 + lo (1 - h) + hi h with h = sigma + z sigma (1 - sigma) between -0.1 and 1.1 (`swish_ge`, `swish_le`), mean value theorem; the trapezoid and the difference of interpolated masses are monotone in the rates, so the factor passes through; fractions by the constant 1/4 of the sigmoid; flags by the measure of the draws between the two fractions. The two runs share parameters, keys and draws |
| C147 | nothing new: `mcDiffstarParamsSinglegal`, `mcDiffstarSfhSinglegal`; the normal draws satisfy `Reparametrised` (jax's `multivariate_normal` for a diagonal covariance) | `Props/HaloDraws.lean`: derivative of the clipped line in the ordinate of the line is at most 1.3 (`clipOf_lip`), of the rolling line at most 1.2 times its larger slope (`mcrit_lip`); the bounding transform contracts (`bounded_contract`); rates by C146 and C113. Both galaxies must be free of NaN, which depends on the population slopes only (C94) |
| C148 | `Model/RoundDraw.lean`: every operation of the means, standard deviations, draws and bounding transform rounded; `CLIPPING_K = 20 / eps_lo` with `eps_lo = 0` is `+inf` and its sigmoid a step; the draw is `mean + sqrt(std * std) z`, products with and sums of the zero off-diagonal terms being exact | `Props/RoundLine.lean` (error of the clipped line: relative errors of the argument of a sigmoid matter only where its derivative is not small, `shift_mul`, `clipFl_err`), `Props/RoundDraw.lean` (`C148_line_error_partial`, `C148_params_ms_partial`, `C148_params_q_partial`). Partial: margin of the intercepts over their lower bounds (`UsableLines`). `C148_reversed_violated`: intercept -3 and slope -20, both at their lower bounds, give 4.9 at 10^13 where exact arithmetic gives -3. `C148_nan_violated`: the same parameters give NaN (infinity times zero) at peak mass 10^12.5. Overflow is not modelled; none of the numbers in that witness exceeds e^31 |
| C149 | `Rounding.mcSfhMs`, `Rounding.mcSfhQ` (`Model/RoundDraw.lean`): the rounded draw of C148 followed by the rounded star formation model of C127 | `Props/RoundDrawSfr.lean`: `drawn_sfr` splits the error at the rounded parameters: C127 bounds the float rate against the exact rate of the same parameters, C113 the exact rates of nearby parameters. `C149_sfr_ms_partial`, `C149_sfr_q_partial`. The standard normals themselves and the accretion history are taken as given (the latter within 1e-5 dex). Partial for the reason of C148 |
| C150 | `Model/PopLoss.lean`, `Model/NdHist.lean`, `Model/RoundHist.lean` (no new definitions) | `Props/PopStable.lean`: a bin weight is a difference of two values of the triweight cumulative function, both moving the same way, so it changes by at most the largest density 35/96 times the shift; `hist_lip` does the normalisation once for both histograms. `C150_histogram`, `C150_mass_function`, `C150_joint` (bins on a grid, as the callers build them), `C150_conditional`, `C150_loss` (triangle inequality of the root mean square), `C150_halo_histories` (with C146), `C150_single_precision` (with C139) |
| C151 | `Model/Sfh.lean`, `Model/Utils.lean` (no new definitions) | `Props/TimeShift.lean`: the main-sequence rate depends on time only through the halo mass (`growth_lip` of C146), the quenching exponent only through (log t - lg_qt)/duration (`qShape_lip` of C113). `C151_rates` (any indices and drops), `C151_no_jumps`, `C151_histories`, `C151_rounded_times` |
| C152 | `Model/PopLoss.lean` (no new definitions) | `Props/CatalogueLimit.lean`: `Spec.Approaches` says which columns of the catalogue converge. Parameters and quenched fractions converge by C147 and C146, whether a draw is NaN does not depend on the halo (C94), rates, cumulative masses and bin weights are continuous (`branch_tendsto`, `ndBin_tendsto`), sums are bounded away from 0 near the limit (`normalise_tendsto`). `C152_mass_function`, `C152_joint`, `C152_loss_mstar`, `C152_loss_mstar_ssfr` |
| C153 | `Model/RoundJoint.lean`: two-dimensional histogram, normalisation and conditional rows with a rounding after each operation, sums in any order (`IsHist2`, `IsDiffHistMstarSsfr`, `IsConditional`) | `Props/RoundJoint.lean`: the error of a bin weight is the sum of the errors of its two factors (C139), the exact total is the weight inside the grid (`grid_total`), dividing by the total costs a relative error (`normalised_fl_rel`). `C153_joint_partial`, `C153_conditional_partial`. `C153_nonneg_violated`: mass 10^(8+3/128), bins of width 1: one bin gets a negative value. Not modelled: fused multiply-add inside `einsum`, overflow, underflow |
| C154 | `Model/RoundPipeline.lean`: `mstar_kern_tobs` for one target bin with a rounding after each operation: `mcSfhMs`, `mcSfhQ`, `fracQuench` (RoundDraw, RoundPop), `logMassAt`, `branchWeights`, `IsDiffHistMstar` (RoundHist). The table of times is a parameter within 1e-6 of the exact one (relative), mass histories within 1e-5 dex | `Props/RoundPipeline.lean`: `branch_close` adds the errors of the rates (C149), of the cumulative sums (C124), of the table of times (C151; the table is spaced by 3.5 per cent at least) and of the logarithm; `galaxy_close` both branches; weights by C145; histogram by C150. `C154_mass_function_partial`, `C154_loss`. The exact side uses the rounded bounded parameters. Not modelled: overflow, underflow, fused multiply-add |
| C155 | `Model/RoundPipeline.lean`: `logSsfrAt` and `IsMstarSsfrPdf`, `mstar_ssfr_kern_tobs` for one target bin with a rounding after each operation; grid of bins from `Model/RoundJoint.lean` | `Props/RoundJointPipeline.lean`: masses and last rates of both branches from `galaxy_close` (C154), `logSsfr_float` for the floored specific rates, weights by C145, histogram by `joint_float` (C153), stability of the exact distribution by C152. `C155_joint_partial`, `C155_loss`. The exact side uses the rounded bounded parameters. Not modelled: overflow, underflow, fused multiply-add |
| C156 | `Model/RoundRange.lean`: `Machine`, arithmetic, `exp` and powers of ten that agree with `Rounding` between 2^-126 and 2^127, give something small below (any choice: subnormal numbers or zero) and possibly no number above (`none`); `_sigmoid` (zero if the denominator is infinite), `_sfr_eff_plaw`, `sfh_ms_kernel`, `_jax_tw`, `_quenching_kern`, `_sfh_singlegal_scalar`, `cumtrapz`, `cumulative_mstar_formed`, `calc_sfh_singlegal` over it | `Props/RoundRangeSim.lean`: `Sim`, two numbers agree or are both tiny; products, sums and roundings keep this, sums with a number of order one restore equality, because a float absorbs what is 2^26 times smaller (`float32_absorbs`). `Props/RoundRangeKern.lean`: both exponents. `Props/RoundRange.lean`: masses, quenching function and running sums stay in the range; if the efficiency or the product underflows, both rates are below 1e-16 and are replaced by the floor (`machine_floor`). `C156_no_effect`, `C156_mass_error`; `C156_underflow` shows that the main sequence rate does underflow. Inputs are floats (`FloatInputs`); single galaxies |
| C157 | `Model/RoundRange.lean`: `Machine.sigmoidB`, `Machine.getBoundedDiffstarParams` | `Props/RoundRangeBounds.lean`: the logistic function in limited range agrees or is tiny (`machine_logistic`); added to a lower bound that is not zero this makes no difference (`machine_sigmoidB_eq`); `indx_lo` has lower bound zero and stays only similar (`machine_indxLo`), which the efficiency does not notice (`machine_sfrEffPlaw`, `machine_history`); `lg_drop` is zero or at least 1e-8 in size (`float_drop`), so `lg_rejuv` agrees (`machine_rejuv`). `C157_history`. Infinite and NaN unbounded parameters: C160; finite sizes above 1e29 are not covered |
| C158 | `Model/RoundRange.lean`: `Machine.calcSfhGalpopSmh` and the definitions of C156 and C157, against `calcSfhSinglegalSmh`, `calcSfhGalpopSmh` over `ℝ` | `Props/RoundBoundSharp.lean`: errors of the bounded parameters with sharp constants (`boundedFl_sharp`, at most 1.2e-5). `Props/EndToEnd.lean`: the exact rates react to these errors as in `drawn_sfr` (`Props/RoundPipeline.lean`), which also has the rounding errors of the kernels (`bounded_rates`); running sums keep relative errors (`masses_close`); C157 removes the limits of the exponent. `C158_end_to_end`, `C158_uniform`, `C158_galpop` |
| C159 | `Model/RoundSpecial.lean`: `Special` (a number, an infinity or NaN), `_inverse_sigmoid` and `_sigmoid` with divisions by zero, logarithms of zero and infinity, `get_unbounded_diffstar_params`, `get_bounded_diffstar_params` | `Props/RoundSpecial.lean`: `special_height`: in the middle as in C134; within 1e-5 of a bound the logarithm is above 11.49 in size or infinite, and the logistic function brings this back to within 1.3e-5 of the bound; NaN does not occur because the rounded difference to the lower bound is at most the rounded range, also for the largest `qlglgdt`. `C159_closed_round_trip_partial`, `C159_stable_partial` (outputs of `get_bounded_diffstar_params`). Violated for `lg_drop = 0`. Exponents are unlimited |
| C160 | `Model/RoundSpecial.lean`: `getBoundedSpecial`; histories with `Machine` (C156) | `Props/RoundInfinite.lean`: sigmoids at infinity are one and zero, the result stays between the rounded bounds (`special_range`) and is a float, so that C156 applies. `C160_finite` (numbers: as C125), `C160_infinite`, `C160_limit`, `C160_nan` |
| C161 | `Model/RoundRange.lean` (`Machine`) | `Props/Reproducible.lean`: scans and maps of a prefix are prefixes (`mapM_take`, `scan_take`); masses never decrease by C124, C157 and C158. `C161_prefix`, `C161_mass_prefix`, `C161_rates`, `C161_rows`, `C161_masses_grow`. Operations in the order of the source |
| C162 | `Model/RoundRange.lean` (`Machine`), `Model/Rounding.lean` | `Props/RoundFb.lean`: rounding is monotone, and commutes with powers of two (`ieee_scale`); C157 for the range of exponents. `C162_monotone`, `C162_doubling` |
| C163 | as C162 | `Props/RoundQuench.lean`: position in the quenching kernel at least 6.1 widths from the centre (`position_early`, `position_late`), so that the triweight is exactly 0 or 1. `C163_before`, `C163_after` |

Library behaviour built into the model (trusted, stated in the comments): `str.format` of floats (`:.5e`, round half to
even on the exact value), `np.genfromtxt` (whitespace splitting, `#` comments, 1-d result for a single row, empty file), `np.array_split`,
`np.concatenate` shape check, `h5py` as a list of named columns, `np.maximum.accumulate`, `np.diff`, `jnp.take` with
indices in range, `jnp.logspace`, `np.linspace`, `np.digitize`, `scipy.stats.binned_statistic` (half-open bins, last bin closed).
`np.random.choice` is any function satisfying `Spec.IsNpChoice` (right size, members of the argument, distinct without replacement).

## Violations found in the code

| property | where | what happens |
|----------|-------|--------------|
| C14 | `cumulative_mstar_formed` | mass before the first table time is a ramp, not constant `SFR_MIN` |
| C18 | `calc_mgas_*` | gas mass can be negative |
| C22 | `compute_fstar` | first entry is always 0, documented as positive |
| C35, C36 | `smoothly_clipped_line` | zero slope gives 0/0 (NaN covariance); the line exceeds `y_hi` as soon as `y0` is 72 times closer to `y_hi` than to `y_lo` (it does not below a ratio of 71) |
| C41 | `jax_np_interp` | extrapolates / wraps outside the table |
| C43 | `minimizer_wrapper` | gives up after a NaN loss |
| C47 | `get_loss_data_default` | mass-dependent quenching guess computed but never used |
| C53 | fitting scripts | ranks with one (or no) halo break collation |
| C54 | fitting scripts | unusable halos fitted with parameters -1 |
| C59 | `extract_galacticus_sfh_tables` | wrong output row for `istart > 0` |
| C61 | `load_fit_sfh` | `KeyError: tau_dep` |
| C63 | `prepare_ragged` + einsum | NaN in halo bin 0 contaminates padded redshifts |
| C65 | `get_all_diffstarpop_u_params` | documented convention raises |
| C66 | `minimizer` | extra arguments not forwarded as the signature says |
| C68 | `minimizer_wrapper` | infinite loss reported as success |
| C70 | fitting scripts | `IndexError` with more ranks than halos |
| C72 | target scripts | halos exactly on a bin edge are treated differently by counts, samples and stellar mass targets |
| C73 | MPI target scripts | a subvolume without input stops the collection |
| C76 | `load_diffstar_sfh_tables` | SMDPL and Galacticus versions omit `fb`: `TypeError`; `lgt0` used for the time table only |
| C77 | target scripts | galaxies above `log10 sSFR = -8.52` leak out of the grid |
| C80 | loss data | target mixes halo bins that have no prediction |
| C81 | loss data | `gyr_since_infall = -99` for every satellite: satellite parameters unconstrained |
| C82 | population fit | NaN at the start: `UnboundLocalError` or zeros saved; extra step not continued from |
| C83 | `return_subvol_str` | `UnboundLocalError` for unpadded names `10`, `100` |
| C84 | `save_loss_data.py` | sequences longer than 10000 are read back out of order |
| C85 | quality script | SFR exactly 0 or 1 counts as missing in the sum but not in the number of galaxies |
| C101 | `load_diffstar_subvolume` | `-sim_name other` leaves `diffmah_bn` unbound; a one-digit name beside padded names makes the padded subvolumes "not found" |
| C102 | `get_weights` | a snapshot before `T_FIT_MIN` with more than 10^-0.1 of the final mass gets weight 0.5 |
| C103 | `get_loss_data_default`, `loss_default_clipssfrh` | different sSFR floors in target (1e-12) and model (1e-13): the true parameters of a quenched galaxy have loss above 0.18; quenching before the peak costs 50 or more |
| C105 | `get_loss_data_pdfs_mstar` | 60 halos of mass 10^11.2 whose galaxies have 10^6 Msun are used in the loss but their target is 0/0: the loss is NaN for all parameters and the fit raises |
| C106 | `create_target_data` (TNG) | a galaxy that is a central at the target redshift and a satellite today is counted as a satellite at the target redshift |
| C107 | `diffstarpop.utils.minimizer` | `success = 1` also if L-BFGS-B fails or the loss is NaN; no Adam backup |
| C108 | `get_loss_data_pdfs_ssfr_central` | halo bins are weighted with the number of all their halos, also of those whose galaxies are off the grid: one low-mass bin galaxy of 61 gets half of the weight of the target row |
| C110 | the fitting scripts | the dict `kwargs` made from `-fstar_tdelay`, `-mass_fit_min`, `-ssfrh_floor` is never passed to `diffstar_fitter`: the options have no effect; a time step below the requested mass limit enters the fit with full weight. Also, the default `-iend -1` of the SMDPL script selects no subvolume (`np.arange(0, -1)`), and the TNG script fits galaxies with failed diffmah fits using parameters -1 |
| C111 | `load_diffstar_sfh_tables` (TNG) | the fits use `fb = 0.0486/0.3089`, the tables the default 0.156: with the same parameters every tabulated SFR above the floor is 0.9915 of the fitted one |
| C113 | `get_outline` | five decimals are not enough for short quenching events: `lg_qt = 1.000004` is written as `1.00000e+00`, and with `qlglgdt = -2.9` the SFR within the event changes by more than 5 per cent |
| C117 | quality script | for SMDPL and Galacticus nothing is compared: `load_diffstar_sfh_tables` raises (C76) |
| C125 | `get_bounded_diffstar_params` | in single precision `ymin + (ymax - ymin)` is above `ymax = -0.01` for `qlglgdt`; large unbounded values give parameters on the bound, whose unbounded value is infinite |
| C159 | `_get_unbounded_qrejuv` | in single precision a large unbounded drop gives `lg_drop = 0 = lg_rejuv`; the unbounded rejuvenation is then 0/0, NaN, and NaN again after `get_bounded_diffstar_params`. All other parameters on their bounds come back |
| C126 | triweight kernels | in single precision the CDF is slightly negative close to -3: a histogram weight can be `-2^-23`, and the quenching function is above one before the event |
| C128 | quality script | all values of `-sim_name` but `tng`, also the default `smdpl`, raise before writing (loader called without `fb`, C76); galaxies exactly on a bin edge or above 14.25 are not counted |
| C129 | fitting scripts | `rm subvol_007*.dat` and `rm tmp_sfh_fits_rank_*.dat` also remove files of others; commands are not quoted, so that a blank in the output directory leaves the text files and removes another file |
| C130 | readers of catalogues | `load_galacticus_diffstar_data` raises if only one of the two fits was run; `load_diffstar_subvolume` finds nothing for numbers of different length such as 99 and 100 |
| C131 | `write_collated_data` | opens the final name with mode `w`: a crash during collation loses the previous catalogue and leaves an incomplete one under the same name |
| C132 | fitting scripts | `-test False` is a test run (`bool('False')`); `-test` with fewer than five galaxies per rank raises IndexError; a test run replaces the catalogue of a normal run |

Properties the code violates are kept in `properties.jsonl` in the documented/intended form; the
negation is proved with a concrete witness (theorem suffix `_violated`) and the strongest true restriction is
proved with suffix `_partial`; `MANIFEST.json` marks them `partial`.

## Further findings, not tied to a property

Read off the source while modelling; no theorem depends on them.

- The `mgash` fitting scripts parse `fstar_tdelay`, `mass_fit_min`, `ssfrh_floor` and never pass them on.
- The default `-iend -1` of the target scripts processes no subvolume.
- `-test False` means `True` (`type=bool`).
- `minimizer_wrapper` uses 999.99 as loss of a failed run, which is smaller than a real loss above it.
- In test mode the Galacticus scripts can ask for more halos than there are rows.
- In the population fit a failed extra step repeats the same failing point.
- `history_fitting_script.py`, `history_fitting_script_SMDPL_tpeak.py`, `history_fitting_script_TNG.py` and
  `generate_unit_testing_data.py` import modules that do not exist any more, so they are not modelled.
- The quality script for SMDPL and Galacticus uses the loader that raises (C76).
- Galacticus target data use the time array of the bulge for the disk without comparing them.
- `save_loss_data.py` runs at import with a fixed local path.
