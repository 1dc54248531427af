# Formal model of azedarach/reor in Lean 4: design

## Layout

* `lean/Verif/Model/*.lean`  executable model, one file per source module; every definition cites file and lines.
* `lean/Verif/Spec.lean`     small independent specification vocabulary (probability vector, stochastic matrix,
  squared distance, total variation, ...), not used by the model.
* `lean/Verif/Proofs/*.lean` helper lemmas.
* `lean/Verif/Props/*.lean`  the property theorems only, each with a non-vacuity `example`.

## Modelling conventions

* **Numbers.** Arithmetic is exact: a generic linearly ordered field `K` (so the theorems hold for the rationals
  and the reals). Derivative statements and statements that need a square root are over the reals.
  IEEE rounding and overflow are *not* modelled. Dtypes are modelled apart, in `Model/DTypes.lean` (C89) and
  `Model/DTypesFEM.lean` (C90-C92).
* **NaN/inf.** A numpy division by zero is an explicit outcome `PyErr.nonFinite`: "the run has produced NaN/inf;
  what happens afterwards is not modelled".
* **Python control flow.** `Py α` has three outcomes: a value, an exception (`PyErr`), divergence. `while` loops are
  `partial_fixpoint` definitions in `Option` (none = does not terminate); `for ... break` loops are recursion on
  the list of loop indices.
* **Objects.** A class instance is a structure; a method that mutates `self` returns the new structure. Caches
  (`StS`, `CK`, `SSt`, `Z`, ...) are kept as separate fields so that stale-cache bugs are expressible.
* **Arrays.** Numerical kernels use Mathlib `Matrix (Fin m) (Fin n) K`; at API boundaries and for slicing/reshape
  layouts a dynamically shaped `Arr2` (shape + index function) is used so that shape errors are expressible.
* **External calls** are parameters, with the assumption on each stated where used: random generator (`Rng`),
  k-means / SVC (labels only), `np.linalg.lstsq` (least-squares minimiser), the cvxpy LP solver (optimal solution),
  `np.sqrt`.
* Verbose printing, timing and pylint-level matters are not modelled.

## Plan per property

| Id | Modelled | Proof idea |
|----|----------|-----------|
| C01-C05 | `simplex_projection.py` complete, incl. sort, the descending loop with its wrap-around index | threshold lemma: loop result θ satisfies Σ max(x-θ,0)=1; KKT inequality |
| C06-C08 | `spg.py` complete | case analysis, field arithmetic |
| C09-C10 | the shared backtracking loop, generic in state and cost | measure: step shrinks by max(σ₂,½); partial-correctness induction |
| C11-C15 | `furthest_sum.py` complete (stable sort, in-place updates) | invariant: selected ++ candidates is a permutation of admissible indices; candidate values are sums over selected |
| C16 | `_random_matrix.py` | sums of quotients |
| C17-C27 | `gpnh_convex_coding.py` (state machine with caches) | invariants through generic descent loop; quadratic expansion for derivatives |
| C28-C36 | `archetypal_analysis.py` | same, plus cache coherence and lock-step simulation for delta |
| C37 | validation branch of each `transform` | evaluation |
| C38-C43 | `mtd_convex_coding.py` | same as GPNH, plus lag algebra |
| C44, C62-C64 | `gpnh_convex_coding_crom.py` | the fit of the parameters runs in lock-step with an MTD fit of zero data, so the MTD lemmas apply |
| C45-C46, C65-C66 | `crom.py`, k-means is a parameter | counting lemma; induction on horizon; reachable objects |
| C47-C52 | `fembv.py`, `fembv_kmeans.py` | COO layout evaluation; LP optimality; weighted mean minimises |
| C53-C55, C67-C71 | `fembv_varx.py`, least squares and linear programming are parameters | layout lemma for regressor columns and reshape; generic FEM-BV descent; a solver that prefers given weights |
| C56-C57, C72-C75 | `pwvarx.py`; scikit-learn's clustering and classification and the least squares are parameters | layout lemma for the predictors and the parameters; invariant of the loop over components; running fits side by side |
| C76-C78 | the outer loops of all estimators, as in C20, C33, C43, C44, C50, C67 | induction on the remaining iterations for a rule stated on the list of costs (`Spec.StopsBy`); telescoping; running two limits side by side |
| C79-C81 | `fembv.py` as in C47-C50, C69 | weighted means and least elements; weights before the last parameter update; counting |
| C82-C85 | `archetypal_analysis.py` as in C28-C36, `gpnh_convex_coding.py` as in C17-C27 | two fits run in lock step: equal costs at every trial step, gradients differing by row constants that the simplex projection ignores |
| C86 | `archetypal_analysis.py` as in C28-C36, `gpnh_convex_coding.py` as in C17-C27 | variational inequality of the simplex projection: the projected step is zero exactly if all slopes into the simplex are non-negative; the cost is quadratic with non-negative curvature |
| C87 | `archetypal_analysis.py` as in C28-C36 | each update lowers the cost by a fixed multiple of the squared projected step (curvature and gradient are bounded on the simplex), so a small decrease means a short projected step, which bounds the distance to the optimum; a step floor is allowed as long as twice floor times step scale times curvature stays below 1 - gamma, so that line searches never end at the floor, which covers the default settings for data of moderate size |
| C88 | `gpnh_convex_coding.py` as in C17-C23 | as C87; the penalty (or a single element) bounds every dictionary whose cost is bounded, which bounds curvature and gradient of the weights problem; without it the set of dictionaries of bounded cost is unbounded, hence the hypothesis |
| C89 | dtypes of the arrays of the convex coding estimators (`Model/DTypes.lean`): numpy's checks before in-place operations and `dot(..., out=)`, truncation on assignment | the run with dtypes is related phase by phase to the run with numbers only: the same when no integer array is written to, an exception in the first update of an integer array otherwise |
| C90 | `fembv_kmeans.py` with dtypes (`Model/DTypesFEM.lean`): the distance matrix of integer data is an integer array | the run with dtypes is the run for truncated distances; comparison of costs term by term; witnesses |
| C91 | `fembv_varx.py` with dtypes: weights, residuals, distances and parameters of integer data are truncated when assigned | weights below 1 truncate to 0, then the covariance is 0 and its inverse a LinAlgError, which is propagated through the loop; a witness by evaluation |
| C92 | `pwvarx.py` with dtypes: residuals of integer data are truncated | the loop over clusters with and without truncation is related step by step |
| C93 | `fembv_kmeans.py` and `fembv.py` | the two runs are related step by step: equal distance matrices, weights and linear programmes, centroids moved |
| C94, C95 | `mtd_convex_coding.py` as in C37-C43 | as for C84 and C85; the weights penalty depends on weights, order weights and transition matrices only, and every line search sees equal costs; forecasts are affine combinations of dictionary rows |
| C96 | `mtd_convex_coding.py` as in C37-C43 | as for C86, the projections being by rows, by columns and of a vector; the objective is quadratic with non-negative curvature in each of the four blocks, but bilinear in the parameters, whence the witness against joint optimality |
| C97 | `mtd_convex_coding.py` as in C37-C43 | as for C88: an iteration with little progress had small slopes in every phase, hence short steps; the objective is Lipschitz in weights and parameters on the stochastic sets, so what was nearly optimal before a phase is so after it; the parameters share a step, whose two parts of the slope have the same sign |
| C98 | initialisers of `gpnh_convex_coding.py`, `archetypal_analysis.py`, `mtd_convex_coding.py`, `gpnh_convex_coding_crom.py`, `fembv*.py` | the requests to the generator are a list computed from shapes and settings (`Draw`, `afterDraws`); each start leaves the generator where its list does, and nothing after the start draws |
| C99 | `crom.py` as in C65, with scikit-learn's documented distances and nearest labels as hypotheses (`KMeansLib.Metric`) | unfolding the methods; a two-centre clustering on a line shows that `cluster_centers_` is stale after `fit_predict` |
| C100 | GPNH and MTD convex coding, GPNH-CROM, kernel archetypal analysis and FEM-BV-k-means once more, with the object at an exception as part of the outcome (`Run`, `Model/Failure.lean`) | the outcomes agree with the other model; where each run can fail is listed stage by stage, and what the stages have assigned by then is read off; invariants of the iteration as in C17, C28, C38 |
| C101 | the constructors of GPNH, kernel archetypal analysis, MTD, GPNH-CROM and FEM-BV-k-means on a dictionary of keyword arguments (`Model/New.lean`) | case analysis of the look-ups |
| C102 | the objects built by those constructors with default settings, fits and transforms as elsewhere | a line search along a quadratic of curvature at most L accepts a step before the floor when 2 tol alpha_max L <= 1 - gamma; curvature bounds for the kernel objective on the simplices and for the GPNH objective on the level set of the start (`Proofs/Floor.lean`), and in the same way for MTD convex coding and the parameters of the reduced order model (`Proofs/FloorMTD.lean`, `Props/DefaultsMTD.lean`); the counterexample is a line search that halves forty times |
| C103 | `inverse_transform` of GPNH, kernel archetypal analysis and MTD | products of stochastic matrices; cost theorems of C30 and C33 |
| C104 | `fit_fembv_kmeans`, `fit_fembv_varx` of the examples (`Model/Examples.lean`), on top of the models of the estimators | induction on the number of starts; optimality of the weights from C48 and C50 |
| C105 | `generate_data` of gaussian_clusters.py | invariants of the loops; counting of the changes of a step function |
| C106 | `generate_data` of switching.py, with `mu[component]` as a view that is written to | invariant of the loop; witness with draws equal to the means. Partial: the data do not follow the process |
| C107 | `generate_data` of periodic.py | invariant of the loop |
| C108 | `generate_data` of kmeans_siso.py | case distinction on the regions; an interval that the system does not leave |
| C109 | panels of `plot_cluster_assignments`, shapes in `main` of kmeans_siso.py | counting of pairs |
| C110 | FEM-BV-VARX of rotated data and of moved data | two runs side by side (`VARXCorr`): solutions of least norm of the two least-squares problems correspond, `frobSq_params`; a witness with four samples against translations of a fit |
| C111 | The scale of the next step is the inverse curvature along the last one | the objective is quadratic in each block, so that its second difference along the move is the change of the slope (`second_difference`, `central_difference`) |
| C112 | FEM-BV-VARX of memory 0 is FEM-BV-k-means or a LinAlgError | the normal equations of a model with only an intercept; the covariance is singular exactly for weighted samples in a hyperplane; then a correspondence of runs up to LinAlgError (`LinOr`, `LinCorr`) |
| C113 | A component of a piecewise VARX fit is a local model of FEM-BV-VARX | the two design matrices are equal, and leaving out rows and multiplying them by 0 give the same squared error; uniqueness of the solution of least norm |
| C114 | The reduced order model turns with the data | C84 for the coding, whose weights are equal for both data sets; the fit of the parameters reads only these weights; predictions from C94's treatment of forecasts |
| C115 | Parameters of the reduced order model are optimal where they stop | the fit of the parameters is an MTD fit with only the parameters updated (Proofs/GPNHCROM.lean), so C96 and the convergence argument of C97 apply; the bound on the residual makes the tolerance independent of the data |
| C116 | ClusterPWVARX of rotated and translated data | coefficients of the moved data correspond to coefficients of the data with rotated residuals, so the minimisers do (`least_corr`); the correspondence preserves the norm if nothing is translated, so the least norm minimisers do too |
| C117 | k-means CROM transition matrix as an estimate | `pathProb` (product of the transition probabilities along the labels) grouped by pairs of labels; Gibbs' inequality from `log x ≤ x - 1`, with its equality case; counting of arrivals and departures for the stationary frequencies |
| C118 | effect of `epsilon_states` and `max_tv_norm` | comparison of two minimisers of `error + eps * spread` (C86); uniqueness from the quadratic expansion of the cost; shift of all elements for the mean; nested and convex sets of admissible weights for FEM-BV (C48, C50) |
| C119 | components of ClusterPWVARX do not influence each other | `PWDone` (what the loop leaves for a component, C56) depends on the selected rows only; the loop returns exactly if every least-squares problem is solved |
| C120 | ClusterPWVARX after an exception | `PWObj.fitTransformF` (Model/PWFailure.lean): `fit_transform` once more with the object at each exception, shown to have the same outcomes; the loop stops at a component only in the least-squares routine |
| C121 | weights are determined by data and dictionary | C86 (fixed points are minimisers) separates into samples; parallelogram law for two near-optimal weights; a left inverse of the affine map for affinely independent elements; C87/C88 for `transform` |
| C122 | affine invariance, irrelevance of excluded rows, equivariance of `furthest_sum` | simulation: the candidate lists of the two runs are related by `v ↦ a v + k b`, which commutes with the stable sort; relabelling from C11/C12 because without ties the best candidate is unique |
| C123 | `femVARXFitTransformF`, `femVARXTransformF`: the model functions with the object an exception leaves | the case list of the places where the fit can raise; the loop over components by the first failing index; the two witnesses from C112 |
| C124 | `scaleCost`, `updateScaleFactorsGradient`, `prepareScaleFactors` against `kaaCost` of the scaled dictionary | trace identities; the clip by cases; the derivative of `kaaCost` from C20 |
| C125 | `mtdPredict`, `cromPredict`, `KMCrom.predict`; the sum of absolute differences and stationary distributions are stated in the theorems | one step contracts differences of probability vectors by 1 - sum(c) (Doeblin); induction over blocks of max_lag steps; existence by a Cauchy sequence |
| C126 | `VARXModel.fit`, `varxInit`, `femVARXFitTransform`; `ExactRelation` states what it is for a series to follow a relation, without the design matrix | a minimiser is orthogonal to the column space; errors along v lie in the column space if v.y does, so they vanish; the other way the reported coefficients are the relation |
| C127 | `PWObj.fitTransform`; `PWFitted` reads the attributes, `Independent` states that the regressors of a component satisfy no linear relation | orthogonality of a minimiser (C126); error zero is attained, so all errors are zero; independence gives equality of coefficients |
| C128 | `KMCrom.fit`, `KMCrom.predict`; `oneStepError` and `arrivals` are sums over the sequence of labels | sums over time regrouped by pairs of clusters; errors of the fractions are orthogonal to functions of the previous label |
| C129 | `KMCrom.predict` of two objects with permuted labels, possibly from two clustering libraries | counts of permuted labels; sums with NaN do not depend on the order; induction on the horizon |
| C130 | `predictedWeightsZ`, `forecastZ` (Model/Slices.lean): lists of rows, integer lags, `pySlice`, `pyIndex`, in-place addition with broadcasting | lengths of the slices; loops over lags and samples by induction; every failure is a ValueError resp. an IndexError, and one is reached |
| C131 | `cromSolve`, `cromForecast`, `mtdForecast` as for C44 and C41 | two runs side by side, by way of the MTD relation of C95; the forecast loop commutes with renaming the entries of the window |
| C132 | `fltProjectVector` (Model/NonFinite.lean): NaN, the two infinities and exact finite values | the largest entry after sorting decides; with minus infinities the loop is the finite one, padded; nearest point by the threshold form |
| C133 | the fit of the parameters over NaN, the infinities and exact finite values (Model/CROMFlt.lean) | empty sums times an infinite factor are NaN; C132 gives zeros; the `while` is not entered; induction over the iterations; the finite part agrees with Model/GPNHCROM.lean |
| C134 | the two gradients and the two updates over NaN, the infinities and exact finite values (Model/MTDFlt.lean); the cost is an argument | 0 times an infinite factor is NaN; a NaN slope does not enter the `while`; C132 gives zeros; with finite values the gradients, the line search and the updates agree with Model/MTD.lean |
| C58 | `_validation.py` | evaluation |
| C59 | random-state handling of the estimators | equality of runs |
| C61 | `mtd_convex_coding.py` | descent lemma for quartics along the projected direction |
| C60 | `gpnh_convex_coding.py`, `archetypal_analysis.py`, `mtd_convex_coding.py` and `fembv.py` with `fembv_kmeans.py` once more with arrays in memory (`Heap`, `GPNHHeap`, `KAAHeap`, `MTDHeap`, `FEMHeap`): new arrays, in-place updates and second names are told apart | ownership invariant; the run in memory follows the run on values step by step; induction on histories |

## Trusted base

Lean's kernel; axioms `propext`, `Classical.choice`, `Quot.sound`; the faithfulness of the model as read from the source.

## What "proved" means in MANIFEST.json

A property is listed as proved only if its theorems carry no hypothesis that the property itself does not state.
Line search constants (`gamma`, `sigma_one`, `sigma_two`, `step_size_tolerance`, `memory`) come from `**kwargs` and are
not validated by the code, so "every configuration" includes all their values; a theorem that restricts them leaves
the property partial, and the note in the manifest names the restriction.

## Findings: where the code and a property disagree

For each of these the negation is proved at a concrete input, and the property is kept in a restricted form whose
theorem name ends in `_partial`.

* C10: with `sigma_two > 1` and `gamma > 1/2` the accepted step can exceed 1
  (`C10_step_range_fails`: the step is 5). `C10_step_le_one_iff` gives the exact settings: a rejected trial has
  `f_new - f_old - step * slope > (1 - gamma) * (-slope * step)`, so the interpolated step is at most
  `step / (2 * (1 - gamma))` whatever the safeguards. With `gamma <= 1/2` and a slope that is not positive the step
  therefore stays in [0, 1] for every `sigma_one`, `sigma_two`; this is `Spec.SafeSteps`, used by C17, C27, C28, C38,
  C42 and C44. With such settings the loop can also run forever (`C09_no_contraction_diverges`).
* C16: a matrix without columns (rows) has empty row (column) sums (`C16_empty_fails`).
* C17, C27: with `sigma_two > 1`, `gamma > 1/2` and a large `step_size_tolerance` the returned weights can be negative
  (`C17_gpnh_weights_fail`: weights (-1, 2); `C27_gpnh_reconstruction_fails`).
* C28: with a 0x0 kernel and `init='random'` the dictionary rows are empty (`C28_kaa_empty_fails`); custom starts are
  only checked for unit row sums, so negative entries pass (`C28_kaa_custom_fails`).
* C38, C42: as for C17, with `MTDConvexCoding` (`C38_mtd_weights_fail`: weights rows (-1, 2);
  `C42_mtd_forecast_fails`: a forecast of 2 from a dictionary whose entries are 0 and 1). Custom weights, order
  weights and transition matrices are only checked for unit sums, so negative entries pass.
* C46: if some cluster is not visited before the last training sample its column is NaN (0/0), and since the whole
  matrix is multiplied every prediction with horizon at least 1 is entirely NaN, whatever the label
  (`C46_unvisited_nan`, `C46_not_distribution`).
* C34: if the dictionary initialiser raises, its exception is seen instead of the TypeError
  (`C34_kaa_keywords_fail`).

Further observations made while modelling:

* `KernelAA`: `delta` has no effect on the result (C32). The clipping of the scale factors,
  `min(., 1 - delta)` followed by `max(., 1 + delta)`, would always give `1 + delta`.
* `KernelAA` gradients are wrong for kernels that are not symmetric (`C29_kaa_asymmetric_gradient_wrong`); symmetry is
  not checked.
* `GPNHConvexCoding`: empty data (`T * D = 0`) is a ZeroDivisionError; `n_components=None` is overwritten by the number
  of features and stays so for later fits; keyword arguments of the initialiser are accepted when both factors are
  updated and a TypeError when only the weights are; `transform` with `init='custom'` is always a ValueError (C37).
* `MTDConvexCoding`: an empty list of lags is accepted by the constructor but no fit succeeds
  (`C24_mtd_no_lags`); with exactly as many samples as the largest lag (and more than one component) the cost is NaN
  (`C61_mtd_nan_at_max_lag`), with fewer samples the regulariser has no effect; with one component the weights and
  parameter gradients include the regulariser although the cost does not; a negative horizon makes no step; with
  `init='custom'` a missing `order_weights` is an AttributeError.
* `GPNHConvexCodingCROM`: `n_components=None`, the documented default, is a TypeError in the constructor
  (`C24_crom_constructor`); lags are not validated: without lags, or with a zero lag and more samples than the largest
  lag, no fit succeeds (`C24_crom_bad_lags`). Negative lags are accepted: the last samples are then predicted from the
  beginning of the series without an error, and `predict` is an IndexError (C130; modelled for
  `_update_predicted_weights` and `predict`, not for the whole fit). Fractional lags are not modelled.
* `KMeansMarkovCROM`: `fit_predict` and `fit_transform` refit the inner k-means object but not the transition matrix,
  labels or centres (C65), so that `transform` afterwards does not refer to `cluster_centers_` (C99), and
  cannot be called before `fit`; `n_clusters=None` is documented to mean 2 clusters but is
  passed on to k-means (C66).
* `FEMBVKMeans`: custom weights are only checked for unit row sums, and with negative weights the centroid update does
  not minimise the cost (`C49_negative_weights`); a component without weight gets NaN centroids, which the solver then
  rejects with a ValueError (`C49_empty_component`, `C47_not_a_number`); the random start may violate the TV bound, so
  the first weights update may increase the cost; `max_tv_norm = 0` is accepted, but then a component without weight
  (NaN) or coinciding centroids result from the second iteration on (C80); `transform` discards the fit and restarts (C51); the `init` argument
  of the constructor is ignored (C52); a random start needs at least as many samples as components
  (`C24_fembv_too_few_samples`). No samples at all are a ValueError in the model. The distance matrix has the dtype of
  the data; the truncation for integer data is modelled apart (C90).
* `FEMBVVARX`: memories that are not all equal pass the constructor but every fit fails, except when
  `n_samples + memory[i] = 2 max(memory) + 1`, where a single residual is broadcast over the samples
  (`C55_unequal_memories_broadcast`; there the fit does not minimise what the distance matrix measures, so C67-C69 are
  stated for equal memories); negative memories pass the constructor and every fit fails (C71); `n_components=None`
  cannot be constructed; as many samples as the memory is a LinAlgError; no degrees of freedom give a non-finite
  covariance without an exception (`none` in the model); a perfect weighted fit has a singular covariance and is a
  LinAlgError; negative weights are NaN; `parameters` is ignored (C71); `transform` cannot be given external
  factors, fits the same model for each component, so that its weights are arbitrary, and sets mu and A to
  zero (C70). `np.empty` is a parameter (`Memory`), so that uninitialised entries are arbitrary.
* `ClusterPWVARX`: arrays of one column cannot be fitted but can be transformed (C57, C73); variances are divided by
  the number of samples less the number of coefficients, which may be 0 (non-finite, `none` in the model) or negative,
  so that variances are negative (`C75_pwvarx_negative_variance`); coefficients of exogenous variables survive a refit
  without them (C74), as do the clusterer and the classifier; there is no contemporaneous term in the exogenous
  variables, unlike in `FEMBVVARX`; a single row of exogenous variables is broadcast; samples with a label outside
  `range(n_components)`, which a given clusterer may return, have residual 0 (C56); `n_components=None`, although
  documented, is a TypeError. Not modelled: negative or fractional orders. Residuals are truncated for integer data (C92). Whether the classifier accepts the labels is up to scikit-learn (`SVC` rejects a single
  label, so that the default classifier cannot be used with one component).
* Arrays in memory (C60): the weights returned are the array `self.Gamma` (`self.S` for archetypes) itself and `dictionary_` is a
  second name for the dictionary until the next call, so a caller who writes into `dictionary_` changes what
  `transform` uses. Assumed: a kernel function given by the caller modifies nothing (it may return an array of the
  caller's); `dot(..., out=)` behaves as if its inputs were read first; local variables are values;
  one- and three-dimensional arrays are kept as matrices (a row, the matrices one below the other). After an exception
  the model in memory has only the memory, not which attributes were set; the theorems on histories therefore allow any
  existing arrays. Which attributes were set is modelled on values (C100, C120, C123; for FEM-BV-VARX without `self.models`, `self.X`, `self.u`). `np.empty` is modelled by arbitrary contents for the
  distance matrix of FEM-BV-k-means; `self.Eta` (never read) and the sparse constraint arrays are left out there.
* The step floor (C102): `step_size_tolerance=1e-12` ends a line search whatever the cost has become, and
  interpolated steps below `sigma_one` are refused although the comparison is with 0.1 itself, not 0.1 times the
  current step, so only halvings remain. For steep objectives the last trial can lie above the starting cost, and the
  default monotonicity check then raises RuntimeError in exact arithmetic: `GPNHConvexCoding(n_components=2)` with
  the dictionary (0, 2097152) and the sample 2**20 - 2**-22 (`C102_gpnh_transform_fails_tall_dictionary`).
* Constructors (C101): settings are read as `gamma`, `alpha_min`, ..., although the attributes are called
  `line_search_gamma`, ...; a setting passed under the name of the attribute is ignored without a message. `lags` of
  GPNH-CROM may not be a list, while those of MTD may; GPNH-CROM does not accept `n_components=None`.
* `inverse_transform` of ArchetypalAnalysis (C103) is inherited from KernelAA and returns the coefficients of the
  samples, not data ("Transform data back into its original space").
* After an exception (C100): the factors are attributes already when the iteration fails, but `dictionary_`, `cost_` and
  `n_iter_` are set at the end, so that after a failed refit `transform` uses a dictionary that is not `dictionary_`
  (`C100_gpnh_split`: (-5, 5) beside a reported (0, 0) of cost 0). MTD convex coding without lags replaces its arrays
  before it raises. GPNH-CROM with a zero lag raises only after the coding has been fitted and reported
  (`C100_crom_zero_lag`). FEM-BV-k-means assigns the centroids before it looks at the weights
  (`C100_fem_half_done`), and a failed `transform` leaves centroids drawn from the new data
  (`C100_fem_failed_transform`). A generator passed as `random_state` has moved when a late argument is rejected
  (`C100_kaa_keyword_failed`, `C100_mtd_weights_rejected`, `C100_gpnh_furthest_sum_failed`), so the corrected call does
  not start where it would have on a new object.
* Integer data (C89): arrays that take over the dtype of the data cannot be updated in place, so that, for example,
  `ArchetypalAnalysis(2).fit_transform(X)` with default settings raises TypeError for every integer `X`. Not modelled:
  unsigned, boolean and complex arrays, overflow, and which of two failures comes first in the parameters update of
  `GPNHConvexCodingCROM` when integer weights are supplied.
* Integer data (C90-C92): FEMBVKMeans and FEMBVVARX truncate distances, FEMBVVARX also weights, residuals and parameters,
  ClusterPWVARX residuals. `FEMBVVARX(2, None).fit_transform(X)` raises LinAlgError for every integer `X`
  (unless the first unweighted fit already fails). Numbers are
  exact before they are truncated, so a distance that is an integer is kept; in floating point it may come out just
  below and lose 1.
* Examples (C104-C109). switching.py: `xt = mu[component]` is a view and `xt += ...` changes the intercepts at every sample, so
  the data are not the process with the returned `mu` (`C106_not_autoregressive`); the number of switches differs from
  `n_switches` unless the samples divide evenly (10 samples, 3 switches: 4), and the weights of the inactive components are
  uninitialised. gaussian_clusters.py does not pass its random seed to the fits, only to the data. kmeans_siso.py: the option
  strings `'-p,--p'` and `'-s,--s'` are one string each, so that `--p` (ambiguous) and `--s` (unknown) are rejected; two or more lags
  without trend end in a ValueError after the first fit, and plotting with the default lags always does (`C109_rejected`).
  Modelled are the generated data, the repeated fits, the layout of panels and the shapes of collected coefficients; command
  lines, `run_kmeans` (a call of scikit-learn), printing and contents of plots are not.
* A FEM-BV-VARX fit depends on the origin of the data although the local models have an intercept: the weighted fit of a component whose weights select one sample has residual degrees of freedom `sum(weights) - 1 = 0` and no unique solution, no exception is raised, and the minimum-norm coefficients (which shrink the intercept as well) then decide the distances of all other samples (C110_femvarx_translation_matters: adding 1 to four samples changes the optimal weights).
* The scale of the step along the scale factors of kernel archetypal analysis (`alpha_alpha`,
  archetypal_analysis.py lines 607-618) compares the gradient with itself, because the factors are not
  moved: it is always `alpha_max` (`C111_kaa_scale_factors`).
* FEM-BV-VARX inverts the covariance matrix of the residuals of every local model
  (fembv_varx.py, `FEMBVVARXLocalLinearModel.fit`), although the distances never use the inverse. A
  singular covariance stops the fit with LinAlgError: for memory 0, all data in a hyperplane, for
  example collinear features or no more samples than features, where FEM-BV-k-means has no difficulty
  (`C112_hyperplane`).
* The noise covariance of the same regression has different degrees of freedom in the two modules:
  pwvarx.py (lines 165-172) subtracts the number of coefficients per feature from the number of
  samples, the weighted fit of fembv_varx.py (lines 143-147) only 1
  (`C113_component_is_weighted_model`).
* A failed fit of `ClusterPWVARX` can leave an object whose classifier is new and whose coefficients are those of the
  last fit, or zero for some components, without any sign of it (C120).
* With tied sums `furthest_sum` keeps the candidate stored last, so the selection then depends on the order of the samples (C122, witness with three equidistant samples).
* A fit of FEM-BV-VARX that fails after its arguments are accepted has already overwritten the fitted intercepts with zeros, while the affiliations and the cost are still those of the last fit; a failure in an update leaves intercepts from two different iterations (C123, witnesses). A failed `transform` destroys the fitted coefficients as well.
* The search over the scale factors of KernelAA, run for delta > 0, moves in a direction independent of the data: np.fmin is called with 1 - delta and np.fmax with 1 + delta, on the full diagonal matrix, so the off-diagonal zeros become 1 + delta (C124). By C32 nothing of it reaches the result.
* `simplex_project_vector` turns any vector with a NaN or plus infinity into zeros (`C132_nan_gives_zero`), because
  `np.fmax` ignores NaN. A fit whose gradient has become NaN therefore goes on with weights that are all 0 instead of
  showing the NaN; where the models say `nonFinite`, the code may end with such weights.
* With exactly `max_lag` samples `_fit_parameters` divides by a numpy 0. The gradients become NaN, the projection turns
  them into zeros, and the fit returns order weights and transition matrices that are all 0 without an error
  (`C133_zero_parameters`); forecasts are then 0 (`C133_forecast_zero`). The exact model (C44) says `nonFinite` there.
* With exactly `max_lag` samples `_update_weights` of the MTD coding sets the rows `t < n_samples - lag` of the weights to 0
  (`C134_zero_weights`), so they are no longer probability vectors, and `_update_parameters` sets all order weights and
  transition matrices to 0 even for `epsilon_weights = 0` (`C134_zero_parameters`). No error is raised.
* `_initialize_mtd_convex_coding` (mtd_convex_coding.py) is never called.
* A start index drawn at random may be among the excluded ones, a ValueError that depends on the seed.
* `furthest_sum`: the check for too few points is skipped when at least as many points are excluded as there are.
* The warning about the maximum number of iterations can never be issued (C22).
