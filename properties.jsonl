{"id": "C01", "title": "Simplex projection lands on the simplex", "statement": "simplex_project_vector(x) returns a vector of the same length whose entries are all non-negative and add up to exactly 1, for every non-empty vector.", "quantifier": "every length n>=1 and every real vector of that length", "why_tests_cant": "tests only sample finitely many vectors and sizes; the claim ranges over an infinite input space", "anchors": ["src/reor/simplex_projection.py:simplex_project_vector"]}
{"id": "C02", "title": "Simplex projection is the nearest simplex point", "statement": "The vector returned by simplex_project_vector(x) is the unique point of the probability simplex with the smallest Euclidean distance to x.", "quantifier": "every non-empty vector x and every competing point y of the simplex", "why_tests_cant": "nearest-point optimality compares against uncountably many competitors for every input", "anchors": ["src/reor/simplex_projection.py:simplex_project_vector"]}
{"id": "C03", "title": "Simplex points are fixed points", "statement": "simplex_project_vector leaves a vector that already lies on the simplex unchanged, so projecting twice equals projecting once.", "quantifier": "every non-empty vector", "why_tests_cant": "tests only sample finitely many vectors and sizes; the claim ranges over an infinite input space", "anchors": ["src/reor/simplex_projection.py:simplex_project_vector"]}
{"id": "C04", "title": "Row and column projection act on each line separately", "statement": "After simplex_project_rows(A) (resp. simplex_project_columns(A)) every row (column) equals the vector projection of the original row (column) and lies on the simplex; no other entry influences it.", "quantifier": "every matrix with at least one column (row)", "why_tests_cant": "tests only sample finitely many vectors and sizes; the claim ranges over an infinite input space", "anchors": ["src/reor/simplex_projection.py:simplex_project_rows", "src/reor/simplex_projection.py:simplex_project_columns"]}
{"id": "C05", "title": "Simplex projection regularity laws", "statement": "Projection ignores a constant added to every entry, preserves the order of entries, commutes with permutations of the entries, and never increases the Euclidean distance between two vectors.", "quantifier": "all pairs of non-empty vectors, all shifts, all permutations", "why_tests_cant": "tests only sample finitely many vectors and sizes; the claim ranges over an infinite input space", "anchors": ["src/reor/simplex_projection.py:simplex_project_vector"]}
{"id": "C06", "title": "Line-search step always shrinks and stays positive", "statement": "get_next_spg_step_length returns a step that is strictly positive and at most max(sigma_two, 1/2) times the current step.", "quantifier": "every positive current step, slope, old and new cost, every sigma_one>0 and sigma_two<1", "why_tests_cant": "tests only sample finitely many vectors and sizes; the claim ranges over an infinite input space", "anchors": ["src/reor/spg.py:get_next_spg_step_length"]}
{"id": "C07", "title": "Interpolated step minimises the interpolating parabola", "statement": "When get_next_spg_step_length does not fall back to halving, the step it returns is the stationary point of the parabola that matches f_old and slope delta at 0 and f_new at the current step; the fallback is exactly half the current step.", "quantifier": "all arguments", "why_tests_cant": "tests only sample finitely many vectors and sizes; the claim ranges over an infinite input space", "anchors": ["src/reor/spg.py:get_next_spg_step_length"]}
{"id": "C08", "title": "SPG step scale stays within its bounds", "statement": "get_next_spg_alpha returns a value in [alpha_min, alpha_max]; it is alpha_max when beta<=0 and sksk/beta when beta>0 and that ratio is within the bounds.", "quantifier": "all beta, sksk and alpha_min<=alpha_max", "why_tests_cant": "tests only sample finitely many vectors and sizes; the claim ranges over an infinite input space", "anchors": ["src/reor/spg.py:get_next_spg_alpha"]}
{"id": "C09", "title": "Backtracking loops terminate", "statement": "Each line search loop (weights, dictionary, scale factors, parameters) of KernelAA, GPNHConvexCoding, MTDConvexCoding and GPNHConvexCodingCROM stops after finitely many steps for whatever values the cost function returns, with an explicit bound depending only on step_size_tolerance and sigma_two.", "quantifier": "every cost function, state, search direction and configuration with 0<sigma_one, sigma_two<1, step_size_tolerance>0", "why_tests_cant": "termination for every cost function is not observable by finitely many runs", "anchors": ["src/reor/archetypal_analysis.py:KernelAA._weights_line_search", "src/reor/gpnh_convex_coding.py:GPNHConvexCoding._dictionary_line_search", "src/reor/mtd_convex_coding.py:MTDConvexCoding._parameters_line_search", "src/reor/gpnh_convex_coding_crom.py:GPNHConvexCodingCROM._parameters_line_search"]}
{"id": "C10", "title": "Line search returns a damped step with sufficient decrease", "statement": "A finished line search leaves the iterate at old + lambda*direction with 0<lambda<=1, and either the new cost is at most f_max + gamma*lambda*slope or lambda is below step_size_tolerance; if the full step is acceptable lambda is 1.", "quantifier": "every cost function, state, direction, memory contents and configuration", "why_tests_cant": "tests only sample finitely many vectors and sizes; the claim ranges over an infinite input space", "anchors": ["src/reor/archetypal_analysis.py:KernelAA._weights_line_search", "src/reor/gpnh_convex_coding.py:GPNHConvexCoding._weights_line_search", "src/reor/mtd_convex_coding.py:MTDConvexCoding._weights_line_search"]}
{"id": "C11", "title": "FurthestSum selects distinct admissible samples", "statement": "For a square dissimilarity matrix, a valid non-excluded start index and duplicate-free in-range exclusions, furthest_sum returns exactly n_components pairwise distinct sample indices, none of them excluded, for any number of extra steps.", "quantifier": "every matrix, n_components, start index, exclusion list and extra_steps", "why_tests_cant": "the number of replacement rounds and tie patterns is unbounded", "anchors": ["src/reor/furthest_sum.py:furthest_sum", "src/reor/furthest_sum.py:_furthest_sum_impl"]}
{"id": "C12", "title": "FurthestSum picks greedily", "statement": "For a symmetric dissimilarity matrix, every sample chosen by furthest_sum maximises, among all admissible samples not yet selected, the sum of dissimilarities to the currently selected samples.", "quantifier": "every symmetric matrix, every selection and replacement step", "why_tests_cant": "tests only sample finitely many vectors and sizes; the claim ranges over an infinite input space", "anchors": ["src/reor/furthest_sum.py:_furthest_sum_impl", "src/reor/furthest_sum.py:_get_furthest_index", "src/reor/furthest_sum.py:_update_distance_sums"]}
{"id": "C13", "title": "FurthestSum extra steps never lose dissimilarity", "statement": "For a symmetric dissimilarity matrix, more extra_steps never decreases the total pairwise dissimilarity of the selected set.", "quantifier": "every symmetric matrix, every number of extra steps", "why_tests_cant": "needs an induction over an unbounded number of replacement rounds", "anchors": ["src/reor/furthest_sum.py:_furthest_sum_impl"]}
{"id": "C14", "title": "FurthestSum argument errors", "statement": "furthest_sum raises ValueError for a non-square matrix, an out-of-range start index, an excluded start index or too few available points; returns an empty list for n_components=0 on any square matrix; a negative start index is rejected with IndexError rather than being wrapped.", "quantifier": "all argument combinations", "why_tests_cant": "the combinations of sizes, exclusions and start indices are unbounded", "anchors": ["src/reor/furthest_sum.py:furthest_sum", "src/reor/furthest_sum.py:_furthest_sum_impl"]}
{"id": "C15", "title": "FurthestSum with a single component keeps the start index", "statement": "With n_components=1 and a symmetric dissimilarity matrix furthest_sum returns exactly [start_index], whatever the matrix and the number of extra steps.", "quantifier": "every symmetric matrix, exclusions, extra_steps", "why_tests_cant": "tests only sample finitely many vectors and sizes; the claim ranges over an infinite input space", "anchors": ["src/reor/furthest_sum.py:_furthest_sum_impl"]}
{"id": "C16", "title": "Random stochastic matrices are stochastic", "statement": "left_stochastic_matrix / right_stochastic_matrix return non-negative matrices with unit column / row sums whenever they return finite values.", "quantifier": "every shape and every random draw", "why_tests_cant": "the random stream cannot be enumerated", "anchors": ["src/reor/_random_matrix.py:_uniform_stochastic_matrix", "src/reor/_random_matrix.py:left_stochastic_matrix", "src/reor/_random_matrix.py:right_stochastic_matrix"]}
{"id": "C17", "title": "GPNH weights stay on the simplex", "statement": "Every weights matrix returned by GPNHConvexCoding.fit_transform or transform (non-custom init) has non-negative rows adding up to 1, after any number of iterations and for any data.", "quantifier": "every dataset, configuration, random draw, number of iterations", "why_tests_cant": "invariant over an unbounded iteration history", "anchors": ["src/reor/gpnh_convex_coding.py:GPNHConvexCoding.fit_transform", "src/reor/gpnh_convex_coding.py:GPNHConvexCoding._update_weights"]}
{"id": "C18", "title": "GPNH dictionary gradient is the derivative of the cost", "statement": "The dictionary gradient used by GPNHConvexCoding equals the derivative of the reported cost with respect to the dictionary in every direction.", "quantifier": "all data, weights, dictionaries, directions, epsilon_states, component counts", "why_tests_cant": "finite-difference tests only sample points and have tolerance", "anchors": ["src/reor/gpnh_convex_coding.py:GPNHConvexCoding._update_dictionary_gradient", "src/reor/gpnh_convex_coding.py:GPNHConvexCoding._dictionary_penalty_gradient", "src/reor/gpnh_convex_coding.py:GPNHConvexCoding._evaluate_cost"]}
{"id": "C19", "title": "GPNH weights gradient is the derivative of the cost", "statement": "The weights gradient used by GPNHConvexCoding equals the derivative of the reported cost with respect to the weights in every direction.", "quantifier": "all data, weights, dictionaries, directions", "why_tests_cant": "finite-difference tests only sample points and have tolerance", "anchors": ["src/reor/gpnh_convex_coding.py:GPNHConvexCoding._update_weights_gradient"]}
{"id": "C20", "title": "GPNH cost never ends above where it started", "statement": "If GPNHConvexCoding.fit_transform returns with monotonicity required, cost_ equals the cost of the returned weights and dictionary_ and is at most the cost of the initial guess; each iteration's cost is at most the previous one.", "quantifier": "every dataset, configuration, initial guess, iteration history", "why_tests_cant": "unbounded iteration history", "anchors": ["src/reor/gpnh_convex_coding.py:GPNHConvexCoding._iterate", "src/reor/gpnh_convex_coding.py:GPNHConvexCoding.fit_transform"]}
{"id": "C21", "title": "Monotonicity error cannot occur in exact arithmetic", "statement": "With line_search_memory=1 and the step floor disabled (step_size_tolerance=0) each dictionary and weights update of GPNHConvexCoding terminates and does not increase the cost, so fit_transform never raises 'factorization cost increased'.", "quantifier": "every dataset and feasible start, for 0<sigma_one, sigma_two<1, 0<=gamma<1 and 0<alpha_min<=alpha_max (all defaults comply)", "why_tests_cant": "termination and descent for every input", "anchors": ["src/reor/gpnh_convex_coding.py:GPNHConvexCoding._dictionary_line_search", "src/reor/gpnh_convex_coding.py:GPNHConvexCoding._weights_line_search", "src/reor/gpnh_convex_coding.py:GPNHConvexCoding._iterate"]}
{"id": "C22", "title": "Iteration count and the missing non-convergence warning", "statement": "n_iter_ is always at most max_iterations-1 (it is the zero-based index of the last iteration), and consequently the documented 'Maximum number of iterations reached' warning is never issued by KernelAA, GPNH, MTD or FEMBV fits.", "quantifier": "every fit of every estimator", "why_tests_cant": "absence of an event over all runs", "anchors": ["src/reor/archetypal_analysis.py:KernelAA._kernel_aa", "src/reor/gpnh_convex_coding.py:GPNHConvexCoding._gpnh_convex_coding", "src/reor/mtd_convex_coding.py:MTDConvexCoding._mtd_convex_coding", "src/reor/fembv.py:FEMBV._fembv_fit"]}
{"id": "C23", "title": "Transform keeps the fitted model", "statement": "transform(data) of GPNH convex coding, kernel archetypal analysis and MTD convex coding re-estimates only the weights: the dictionary (for MTD also the order weights and transition matrices), the fitted dictionary_, cost_ and n_iter_ after the call equal those before it.", "quantifier": "every fitted model and every new dataset", "why_tests_cant": "unbounded iteration history", "anchors": ["src/reor/gpnh_convex_coding.py:GPNHConvexCoding.transform", "src/reor/archetypal_analysis.py:KernelAA.transform", "src/reor/mtd_convex_coding.py:MTDConvexCoding.transform"]}
{"id": "C24", "title": "Estimator parameter validation", "statement": "GPNH, MTD, KernelAA and FEMBV fits raise ValueError exactly when n_components is not a positive integer, max_iterations is not a positive integer or tolerance is negative or not a number (None n_components being replaced by the feature/sample count), before doing any work; FEMBV also rejects fewer samples than components, and an MTD object must have at least one lag.", "quantifier": "every configuration value, with random initialisation and default flags", "why_tests_cant": "all argument values", "anchors": ["src/reor/gpnh_convex_coding.py:GPNHConvexCoding._gpnh_convex_coding", "src/reor/archetypal_analysis.py:KernelAA._kernel_aa", "src/reor/mtd_convex_coding.py:MTDConvexCoding._mtd_convex_coding", "src/reor/fembv.py:FEMBV._fembv_fit"]}
{"id": "C25", "title": "GPNH dictionary penalty is the mean pairwise squared distance", "statement": "The dictionary penalty is epsilon_states times the average over ordered pairs of distinct dictionary elements of their squared Euclidean distance per feature; it and the total cost are never negative for epsilon_states>=0, and the cost is zero iff the data are reproduced exactly (for epsilon_states=0).", "quantifier": "all dictionaries and data", "why_tests_cant": "tests only sample finitely many vectors and sizes; the claim ranges over an infinite input space", "anchors": ["src/reor/gpnh_convex_coding.py:GPNHConvexCoding._evaluate_dictionary_penalty", "src/reor/gpnh_convex_coding.py:GPNHConvexCoding._evaluate_loss_function"]}
{"id": "C26", "title": "Exact factorizations are fixed points", "statement": "If data = weights.dictionary exactly with weights on the simplex and no dictionary regularisation, the dictionary and weights updates of GPNHConvexCoding leave both unchanged.", "quantifier": "all exact factorizations", "why_tests_cant": "tests check one example within tolerance", "anchors": ["src/reor/gpnh_convex_coding.py:GPNHConvexCoding._update_dictionary", "src/reor/gpnh_convex_coding.py:GPNHConvexCoding._update_weights"]}
{"id": "C27", "title": "Reconstructions stay in the convex hull", "statement": "inverse_transform of weights returned by a fit gives rows that are convex combinations of the dictionary elements, so each feature stays between the smallest and largest dictionary value.", "quantifier": "all fitted models", "why_tests_cant": "invariant over an unbounded iteration history", "anchors": ["src/reor/gpnh_convex_coding.py:GPNHConvexCoding.inverse_transform"]}
{"id": "C28", "title": "KernelAA weights and dictionary stay on the simplex", "statement": "The weights returned by KernelAA/ArchetypalAnalysis.fit_transform and dictionary_ have non-negative rows adding up to 1, after any number of iterations and for any kernel.", "quantifier": "every kernel, configuration, draw, number of iterations", "why_tests_cant": "unbounded iteration history", "anchors": ["src/reor/archetypal_analysis.py:KernelAA.fit_transform", "src/reor/archetypal_analysis.py:KernelAA._update_dictionary", "src/reor/archetypal_analysis.py:KernelAA._update_weights"]}
{"id": "C29", "title": "KernelAA gradients are derivatives of the cost", "statement": "For a symmetric kernel, the weights and dictionary gradients equal the derivatives of the reported cost in every direction (for an asymmetric kernel they need not).", "quantifier": "all symmetric kernels, weights, dictionaries, directions", "why_tests_cant": "finite differences only sample", "anchors": ["src/reor/archetypal_analysis.py:KernelAA._update_weights_gradient", "src/reor/archetypal_analysis.py:KernelAA._update_dictionary_gradient", "src/reor/archetypal_analysis.py:KernelAA._evaluate_cost"]}
{"id": "C30", "title": "Archetypal analysis minimises the documented objective", "statement": "For ArchetypalAnalysis with the default kernel, the reported cost equals the documented ||X - S C X||_F^2.", "quantifier": "all data and factors", "why_tests_cant": "tests only sample finitely many vectors and sizes; the claim ranges over an infinite input space", "anchors": ["src/reor/archetypal_analysis.py:ArchetypalAnalysis.fit_transform", "src/reor/archetypal_analysis.py:KernelAA._evaluate_cost"]}
{"id": "C31", "title": "KernelAA line searches use the true current cost", "statement": "At the start of every weights and dictionary line search inside a fit, the cached products are up to date, so the cost the line search starts from equals the cost function at the current weights and dictionary.", "quantifier": "every iteration of every fit", "why_tests_cant": "cache coherence is an invariant over histories", "anchors": ["src/reor/archetypal_analysis.py:KernelAA._weights_line_search", "src/reor/archetypal_analysis.py:KernelAA._dictionary_line_search", "src/reor/archetypal_analysis.py:KernelAA._iterate"]}
{"id": "C32", "title": "KernelAA relaxation parameter has no effect", "statement": "The scale factors never change from 1 during a fit, so for delta>0 the fitted weights, dictionary_ and cost_ are identical to those of delta=0 (although the documentation promises relaxation within [1-delta, 1+delta]).", "quantifier": "every kernel, delta, start and number of iterations", "why_tests_cant": "equality of two unbounded runs", "anchors": ["src/reor/archetypal_analysis.py:KernelAA._update_dictionary", "src/reor/archetypal_analysis.py:KernelAA._scale_factors_line_search"]}
{"id": "C33", "title": "KernelAA cost is monotone", "statement": "If KernelAA.fit_transform returns with monotonicity required, cost_ is the cost at the returned factors and at most the initial cost.", "quantifier": "every kernel, configuration, start", "why_tests_cant": "unbounded iteration history", "anchors": ["src/reor/archetypal_analysis.py:KernelAA._iterate"]}
{"id": "C34", "title": "KernelAA rejects init keywords", "statement": "KernelAA.fit_transform(kernel, start_index=..., n_extra_steps=... or exclude=...) with the documented FurthestSum options raises TypeError for every kernel, because the options are also forwarded to the weights initialiser.", "quantifier": "every kernel and every such keyword", "why_tests_cant": "all inputs", "anchors": ["src/reor/archetypal_analysis.py:_initialize_kernel_aa", "src/reor/archetypal_analysis.py:_initialize_kernel_aa_weights"]}
{"id": "C35", "title": "KernelAA shape errors", "statement": "KernelAA fits raise ValueError for non-square kernels, and transform raises ValueError for any kernel whose sample count differs from the fitted one.", "quantifier": "all kernels", "why_tests_cant": "all shapes", "anchors": ["src/reor/archetypal_analysis.py:KernelAA._kernel_aa", "src/reor/archetypal_analysis.py:KernelAA.transform"]}
{"id": "C36", "title": "FurthestSum-initialised dictionaries are made of data points", "statement": "With init='furthest_sum' the initial KernelAA dictionary has one-hot rows selecting distinct samples and the initial GPNH/MTD dictionary consists of rows of the data at distinct indices.", "quantifier": "all data, draws and options", "why_tests_cant": "tests only sample finitely many vectors and sizes; the claim ranges over an infinite input space", "anchors": ["src/reor/archetypal_analysis.py:_initialize_kernel_aa_dictionary_furthest_sum", "src/reor/gpnh_convex_coding.py:_initialize_gpnh_convex_coding_dictionary_furthest_sum"]}
{"id": "C37", "title": "Custom-initialised models cannot transform", "statement": "For GPNH, MTD and KernelAA models created with init='custom', transform raises ValueError for every dataset.", "quantifier": "every model with init='custom', every dataset", "why_tests_cant": "all inputs", "anchors": ["src/reor/gpnh_convex_coding.py:GPNHConvexCoding.transform", "src/reor/archetypal_analysis.py:KernelAA.transform", "src/reor/mtd_convex_coding.py:MTDConvexCoding.transform"]}
{"id": "C38", "title": "MTD weights and parameters stay stochastic", "statement": "MTDConvexCoding keeps weights rows, order weights and the columns of every transition matrix on the simplex after any number of iterations.", "quantifier": "every dataset, lags, configuration, draw", "why_tests_cant": "unbounded iteration history", "anchors": ["src/reor/mtd_convex_coding.py:MTDConvexCoding._update_weights", "src/reor/mtd_convex_coding.py:MTDConvexCoding._update_parameters"]}
{"id": "C39", "title": "MTD gradients are derivatives of the cost", "statement": "The dictionary, weights, order-weight and transition-matrix gradients used by MTDConvexCoding equal the partial derivatives of the reported cost.", "quantifier": "all data, lags, weights, dictionaries, parameters, directions, with at least two components and more samples than the maximum lag", "why_tests_cant": "finite differences only sample", "anchors": ["src/reor/mtd_convex_coding.py:MTDConvexCoding._update_weights_gradient", "src/reor/mtd_convex_coding.py:MTDConvexCoding._update_parameters_gradient", "src/reor/mtd_convex_coding.py:MTDConvexCoding._update_dictionary_gradient"]}
{"id": "C40", "title": "MTD one-step predictions", "statement": "The predicted weights used in the regulariser are, for each sample t >= max lag, the order-weighted sum of transition matrices applied to the weights at t - lag, and are kept up to date with the weights and parameters throughout a fit.", "quantifier": "all lags, weights, parameters, histories", "why_tests_cant": "cache coherence over histories and all slicing offsets", "anchors": ["src/reor/mtd_convex_coding.py:MTDConvexCoding._update_predicted_weights"]}
{"id": "C41", "title": "MTD and GPNH-CROM forecasts follow the MTD recursion", "statement": "predict(data, horizon=h) returns, for each sample with enough history, the h-fold iterated mixture-transition recursion of the transformed weights mapped through the dictionary; earlier samples are NaN; horizon 0 returns the reconstruction.", "quantifier": "all horizons, all lags >= 1, all data", "why_tests_cant": "unbounded horizon and lag sets", "anchors": ["src/reor/mtd_convex_coding.py:MTDConvexCoding.predict", "src/reor/gpnh_convex_coding_crom.py:GPNHConvexCodingCROM.predict"]}
{"id": "C42", "title": "Forecast weights remain probability vectors", "statement": "Forecast weights for every horizon are non-negative and add up to 1, hence forecasts stay within the convex hull of the dictionary.", "quantifier": "all horizons, all lags >= 1, all data", "why_tests_cant": "unbounded horizon", "anchors": ["src/reor/mtd_convex_coding.py:MTDConvexCoding.predict", "src/reor/gpnh_convex_coding_crom.py:GPNHConvexCodingCROM.predict"]}
{"id": "C43", "title": "MTD cost is monotone", "statement": "If MTDConvexCoding.fit_transform returns with monotonicity required, cost_ is the cost at the returned state and at most the initial cost.", "quantifier": "every dataset, configuration, start", "why_tests_cant": "unbounded iteration history", "anchors": ["src/reor/mtd_convex_coding.py:MTDConvexCoding._iterate"]}
{"id": "C44", "title": "GPNH-CROM parameters stay stochastic and their residual never increases", "statement": "After GPNHConvexCodingCROM.fit the order weights are a probability vector, every transition matrix is column stochastic, and the fit residual is at most that of the random start when monotonicity is required.", "quantifier": "every dataset, lags, draw", "why_tests_cant": "unbounded iteration history", "anchors": ["src/reor/gpnh_convex_coding_crom.py:GPNHConvexCodingCROM._fit_parameters", "src/reor/gpnh_convex_coding_crom.py:GPNHConvexCodingCROM._update_parameters"]}
{"id": "C45", "title": "k-means CROM transition matrix is column stochastic", "statement": "transition_matrix[j,k] is the fraction of the visits to cluster k (excluding the last sample) that are followed by cluster j; if every cluster is visited before the last sample all columns are probability vectors, otherwise exactly the columns of unvisited clusters are NaN.", "quantifier": "all label sequences and cluster counts", "why_tests_cant": "all sequences", "anchors": ["src/reor/crom.py:kmeans_markov_crom"]}
{"id": "C46", "title": "k-means CROM predictions are probability distributions", "statement": "KMeansMarkovCROM.predict(X, horizon=h) rows are the one-hot label distribution propagated h times through the fitted chain; they are probability vectors, and horizons compose.", "quantifier": "all horizons and datasets", "why_tests_cant": "unbounded horizon", "anchors": ["src/reor/crom.py:KMeansMarkovCROM.predict"]}
{"id": "C47", "title": "FEM-BV constraint matrices encode exactly the TV-constrained simplex", "statement": "A weights matrix can be completed by auxiliary variables to satisfy A_eq v = b_eq and A_ub v <= b_ub iff its rows are probability vectors and the total variation of each component over time is at most max_tv_norm (no TV bound when max_tv_norm is None or negative).", "quantifier": "all sample counts >= 1, component counts >= 2, bounds and weights", "why_tests_cant": "matrix layout must be right for every size", "anchors": ["src/reor/fembv.py:FEMBV._initialize_constraints", "src/reor/fembv.py:FEMBV._has_max_tv_norm_constraint"]}
{"id": "C48", "title": "FEM-BV weights satisfy the constraints", "statement": "Given a solver that returns optimal solutions, weights after FEM-BV weights updates are row stochastic with bounded TV norm and minimise the assignment cost among all such weights; clipping never changes them and the solver is never asked an infeasible problem.", "quantifier": "all distance matrices, sample counts >= 1, component counts >= 2 (with one component the weights are not touched), bounds", "why_tests_cant": "all inputs and histories", "anchors": ["src/reor/fembv.py:FEMBV._update_weights"]}
{"id": "C49", "title": "FEM-BV k-means centroids are optimal", "statement": "The centroid update gives weighted means which minimise the clustering cost for the current weights; a component with zero total weight gives non-finite centroids.", "quantifier": "all data, all non-negative weights", "why_tests_cant": "tests only sample finitely many vectors and sizes; the claim ranges over an infinite input space", "anchors": ["src/reor/fembv_kmeans.py:FEMBVKMeans._update_parameters"]}
{"id": "C50", "title": "FEM-BV k-means cost decreases", "statement": "With an exact solver, from the second iteration on each parameter and weights update does not increase the cost, so the monotonicity error never occurs.", "quantifier": "all data, histories", "why_tests_cant": "unbounded iteration history", "anchors": ["src/reor/fembv.py:FEMBV._iterate", "src/reor/fembv_kmeans.py:FEMBVKMeans._update_parameters"]}
{"id": "C51", "title": "FEM-BV transform discards the fitted parameters", "statement": "FEMBVKMeans.transform re-initialises the centroids from random rows of the new data: its result does not depend on the fitted centroids, and it overwrites them.", "quantifier": "every pair of fitted models, every dataset", "why_tests_cant": "equality of runs for all inputs", "anchors": ["src/reor/fembv.py:FEMBV.transform", "src/reor/fembv_kmeans.py:FEMBVKMeans._initialize_components"]}
{"id": "C52", "title": "FEM-BV constructor init is ignored", "statement": "fit_transform(data, parameters=P, weights=W) on a model constructed with init='custom' ignores P and W unless init='custom' is also passed to fit_transform.", "quantifier": "all P, W, data", "why_tests_cant": "equality of runs for all inputs", "anchors": ["src/reor/fembv.py:FEMBV.fit_transform", "src/reor/fembv.py:FEMBV._fembv_fit"]}
{"id": "C53", "title": "VARX residuals are one-step prediction errors of the reported coefficients", "statement": "After FEMBVVARXLocalLinearModel.fit, residual t equals y_t - (mu + sum_i A_i y_{t-i} + sum_i B_i u_{t-i} + B0 u_t) for every t past the presample, whatever coefficients the least-squares routine returned.", "quantifier": "all data, orders, dimensions", "why_tests_cant": "layout of regressor and reshape must be right for every order and dimension", "anchors": ["src/reor/fembv_varx.py:FEMBVVARXLocalLinearModel.fit", "src/reor/fembv_varx.py:FEMBVVARXLocalLinearModel.__init__"]}
{"id": "C54", "title": "Weighted VARX fit minimises the weighted squared prediction error", "statement": "Given a least-squares routine that minimises its objective, the coefficients reported by fit(weights) minimise sum_t w_t |y_t - prediction_t|^2 over all VARX coefficients.", "quantifier": "all data and non-negative weights", "why_tests_cant": "optimality against all competitors", "anchors": ["src/reor/fembv_varx.py:FEMBVVARXLocalLinearModel.fit"]}
{"id": "C55", "title": "FEM-BV-VARX with different memories is rejected", "statement": "Although the constructor accepts component memories that are not all equal, every fit of such a FEMBVVARX object raises: a ValueError from the shapes unless a local least-squares fit fails first, and always a ValueError with external factors. The only exception is n_samples + memory[i] = 2 max(memory) + 1 for all shorter memories, where the single residual is broadcast. With equal memories valid arguments are never rejected with a ValueError.", "quantifier": "all memory tuples, data and external factors", "why_tests_cant": "all sizes", "anchors": ["src/reor/fembv_varx.py:FEMBVVARX._initialize_components", "src/reor/fembv_varx.py:FEMBVVARX._evaluate_distance_matrix"]}
{"id": "C56", "title": "Piecewise VARX residuals match the labelled component", "statement": "After ClusterPWVARX.fit, the residual of each sample equals y_t minus the prediction of the component it is labelled with, from the reported mu, A, B; samples whose label is not a component have residual 0.", "quantifier": "all data, labels, orders; exogenous variables absent or with as many samples as the data", "why_tests_cant": "layout must be right for all sizes", "anchors": ["src/reor/pwvarx.py:ClusterPWVARX._fit_var_model", "src/reor/pwvarx.py:ClusterPWVARX._stack_predictors"]}
{"id": "C57", "title": "Piecewise VARX rejects single-column input", "statement": "ClusterPWVARX.fit_transform raises ValueError for every two-dimensional endogenous array with exactly one column, although one-dimensional input is accepted.", "quantifier": "all data of shape (n,1)", "why_tests_cant": "all inputs", "anchors": ["src/reor/pwvarx.py:ClusterPWVARX.fit_transform"]}
{"id": "C58", "title": "Shape and unit-sum validation", "statement": "Custom initial weights are accepted iff they have the expected shape and every row sum is within 1e-5+1e-8 of 1; negative entries are not rejected.", "quantifier": "all arrays", "why_tests_cant": "all inputs", "anchors": ["src/reor/_validation.py:_check_unit_axis_sums", "src/reor/_validation.py:_check_array_shape", "src/reor/gpnh_convex_coding.py:_check_init_weights"]}
{"id": "C59", "title": "Integer-seeded KernelAA fits are repeatable", "statement": "Fitting the same KernelAA object twice on the same kernel with an integer random_state gives identical results, whereas GPNHConvexCoding consumes its generator so a second fit uses different draws.", "quantifier": "all kernels, seeds, generators", "why_tests_cant": "all generator states", "anchors": ["src/reor/archetypal_analysis.py:_initialize_kernel_aa", "src/reor/gpnh_convex_coding.py:GPNHConvexCoding.__init__"]}
{"id": "C60", "title": "Caller's arrays are never modified", "statement": "fit_transform and transform of GPNHConvexCoding, KernelAA, MTDConvexCoding and FEMBVKMeans never modify the data, weights, dictionary, parameters, order weights or transition matrices passed by the caller, although updates are performed in place; FEMBVKMeans does not depend on the contents of the arrays it gets from np.empty.", "quantifier": "all inputs and histories", "why_tests_cant": "aliasing over all histories", "anchors": ["src/reor/gpnh_convex_coding.py:GPNHConvexCoding._gpnh_convex_coding", "src/reor/archetypal_analysis.py:KernelAA._kernel_aa", "src/reor/mtd_convex_coding.py:MTDConvexCoding._mtd_convex_coding", "src/reor/fembv.py:FEMBV._fembv_fit", "src/reor/fembv_kmeans.py:FEMBVKMeans._evaluate_distance_matrix"]}
{"id": "C61", "title": "MTD updates descend and default fits return", "statement": "With line_search_memory=1, step_size_tolerance=0, 0 < sigma_one, sigma_two < 1, 0 <= gamma < 1 and 0 < alpha_min <= alpha_max, every MTD dictionary, weights and parameters update terminates without increasing the cost; fits from stochastic starts never run forever and never report an increased cost, and default fits and transforms of non-empty data always return when no uniform draw is zero.", "quantifier": "every dataset whose number of samples differs from the maximum lag, all lags >= 1, all such settings, every draw and start", "why_tests_cant": "unbounded iteration history and all settings", "anchors": ["src/reor/mtd_convex_coding.py:MTDConvexCoding._iterate", "src/reor/mtd_convex_coding.py:MTDConvexCoding._update_parameters"]}
{"id": "C62", "title": "GPNH-CROM parameter gradients are exact", "statement": "The gradients used by GPNHConvexCodingCROM to update order weights and transition matrices are the derivative of the documented one-step prediction residual along every simultaneous direction, at every state.", "quantifier": "all weights, parameters, lags below the number of samples, more than one component", "why_tests_cant": "derivative claims range over real directions and all sizes", "anchors": ["src/reor/gpnh_convex_coding_crom.py:GPNHConvexCodingCROM._update_parameters_gradient"]}
{"id": "C63", "title": "GPNH-CROM parameter updates descend and default fits return", "statement": "With line_search_memory=1, step_size_tolerance=0, 0 < sigma_one, sigma_two < 1, 0 <= gamma < 1 and 0 < alpha_min <= alpha_max, each update of order weights and transition matrices terminates without increasing the residual, and default fits of non-empty data return when no uniform draw is zero.", "quantifier": "every dataset whose number of samples differs from the maximum lag, all lags >= 1, all such settings, every draw", "why_tests_cant": "unbounded iteration history and all settings", "anchors": ["src/reor/gpnh_convex_coding_crom.py:GPNHConvexCodingCROM._update_parameters", "src/reor/gpnh_convex_coding_crom.py:GPNHConvexCodingCROM.fit_transform"]}
{"id": "C64", "title": "GPNH-CROM leaves the coding alone", "statement": "fit_transform of GPNHConvexCodingCROM returns exactly the weights, dictionary, cost and iteration count of GPNHConvexCoding.fit_transform on the same object state; transform is that of GPNHConvexCoding and leaves dictionary, cost, lags, order weights and transition matrices unchanged.", "quantifier": "every dataset, configuration, supplied arrays, draw", "why_tests_cant": "equality of runs for all inputs", "anchors": ["src/reor/gpnh_convex_coding_crom.py:GPNHConvexCodingCROM.fit_transform", "src/reor/gpnh_convex_coding.py:GPNHConvexCoding.transform"]}
{"id": "C65", "title": "k-means CROM refits leave the transitions stale", "statement": "KMeansMarkovCROM.fit_predict and fit_transform refit only the inner k-means object: the transition matrix, labels, centres, inertia and iteration count stay those of the last fit call, and on an object never fitted every method other than fit raises AttributeError.", "quantifier": "all datasets, weights and objects", "why_tests_cant": "equality over all histories", "anchors": ["src/reor/crom.py:KMeansMarkovCROM.fit_predict", "src/reor/crom.py:KMeansMarkovCROM.fit_transform"]}
{"id": "C66", "title": "k-means CROM has no default number of clusters", "statement": "Although the documentation says None defaults to 2 clusters, KMeansMarkovCROM.fit only succeeds when n_clusters is a positive integer (given a k-means routine that requires one).", "quantifier": "every value of n_clusters, all data", "why_tests_cant": "all argument values", "anchors": ["src/reor/crom.py:KMeansMarkovCROM.fit", "src/reor/crom.py:kmeans_markov_crom"]}
{"id": "C67", "title": "FEM-BV-VARX cost decreases", "statement": "With equal memories, an exact linear-programming solver and an exact least-squares routine, no fit of FEMBVVARX raises the monotonicity error, no weights update fails, and the costs of successive iterations never increase.", "quantifier": "all data, external factors, settings, starts and iteration histories", "why_tests_cant": "unbounded iteration history", "anchors": ["src/reor/fembv.py:FEMBV._iterate", "src/reor/fembv_varx.py:FEMBVVARX._update_parameters"]}
{"id": "C68", "title": "FEM-BV-VARX reports consistent coefficients", "statement": "After FEMBVVARX.fit with equal memories, cost_ is the weighted squared error of the one-step forecasts made with the reported mu, A, B0 under the returned weights; with fixed weights or one component the reported coefficients minimise it among all coefficients.", "quantifier": "all data, external factors, settings, starts and histories", "why_tests_cant": "layout and optimality for all sizes and competitors", "anchors": ["src/reor/fembv.py:FEMBV.fit_transform", "src/reor/fembv_varx.py:FEMBVVARX._update_parameters", "src/reor/fembv_varx.py:FEMBVVARX._evaluate_distance_matrix"]}
{"id": "C69", "title": "FEM-BV-VARX weights are admissible and optimal", "statement": "With equal memories and at least two components the weights returned by FEMBVVARX.fit have probability rows and bounded total variation, and minimise the forecast error of the reported coefficients among all such weights.", "quantifier": "all data, external factors, settings, starts and histories", "why_tests_cant": "optimality against all competitors", "anchors": ["src/reor/fembv.py:FEMBV._update_weights", "src/reor/fembv.py:FEMBV.fit_transform"]}
{"id": "C70", "title": "FEM-BV-VARX transform carries no information", "statement": "FEMBVVARX.transform ignores everything that was fitted, resets the reported mu and A to zero, and fits the same unweighted autoregression for every component: its cost is that of a single model, and every admissible weights matrix is returned by some exact solver.", "quantifier": "every object with equal memories and at least two components, every dataset on which transform returns", "why_tests_cant": "quantifies over all solvers and all weights", "anchors": ["src/reor/fembv.py:FEMBV.transform", "src/reor/fembv_varx.py:FEMBVVARX._initialize_components"]}
{"id": "C71", "title": "FEM-BV-VARX arguments without effect and without check", "statement": "The parameters argument of FEMBVVARX.fit has no effect, the weights argument only with init='custom' passed to fit; a negative memory passes the constructor but every fit and transform then raises ValueError.", "quantifier": "all arguments and data", "why_tests_cant": "equality of runs for all inputs", "anchors": ["src/reor/fembv_varx.py:FEMBVVARX._initialize_components", "src/reor/fembv_varx.py:FEMBVVARX.__init__"]}
{"id": "C72", "title": "Piecewise VARX coefficients are least-squares optimal per component", "statement": "Given a least-squares routine that minimises its objective, the reported mu, A, B of each component minimise the squared one-step prediction errors of the samples labelled with it, among all coefficients (with mu = 0 when there is no trend).", "quantifier": "all data, labels, orders; exogenous variables absent or with as many samples as the data", "why_tests_cant": "optimality against all competitors", "anchors": ["src/reor/pwvarx.py:ClusterPWVARX._fit_var_model"]}
{"id": "C73", "title": "Piecewise VARX transform reproduces the fitted labels", "statement": "After ClusterPWVARX.fit_transform, transform on the same data returns the same labels; on an object never fitted and without a given classifier it raises AttributeError; vectors and single-column arrays are transformed alike.", "quantifier": "all data, orders, clusterers and classifiers whose predict has no side effects", "why_tests_cant": "equality over all inputs", "anchors": ["src/reor/pwvarx.py:ClusterPWVARX.transform", "src/reor/pwvarx.py:ClusterPWVARX.fit_transform"]}
{"id": "C74", "title": "Piecewise VARX exogenous variables", "statement": "With s = 0 the exogenous variables have no effect on fit or transform; with s > 0 a number of samples after the presample that is neither that of the data nor 1 raises ValueError; a fit without exogenous variables leaves the coefficients B of an earlier fit in place.", "quantifier": "all data, exogenous variables and orders", "why_tests_cant": "equality of runs for all inputs", "anchors": ["src/reor/pwvarx.py:ClusterPWVARX._stack_predictors", "src/reor/pwvarx.py:ClusterPWVARX._fit_var_model"]}
{"id": "C75", "title": "Piecewise VARX covariance and its degrees of freedom", "statement": "Sigma_u of a component is the sum of r r^T over the residuals of its samples divided by the number of its samples less the number of coefficients per feature; it is non-finite exactly if these are equal, and variances can be negative if there are fewer samples than coefficients.", "quantifier": "all data, labels, orders", "why_tests_cant": "all sizes", "anchors": ["src/reor/pwvarx.py:ClusterPWVARX._fit_var_model"]}
{"id": "C76", "title": "Stopping rule", "statement": "Every fit stops after the first iteration that changes the cost by less than tolerance, measured from the cost of the starting point on, or after max_iterations iterations; there is one cost per iteration, n_iter_ is the index of the last and cost_ its cost; with tolerance 0 all max_iterations iterations are made.", "quantifier": "every estimator with an outer loop, every dataset, setting, start and draw on which the fit returns", "why_tests_cant": "unbounded iteration history", "anchors": ["src/reor/gpnh_convex_coding.py:GPNHConvexCoding._iterate", "src/reor/archetypal_analysis.py:KernelAA._iterate", "src/reor/mtd_convex_coding.py:MTDConvexCoding._iterate", "src/reor/gpnh_convex_coding_crom.py:GPNHConvexCodingCROM._fit_parameters", "src/reor/fembv.py:FEMBV._iterate"]}
{"id": "C77", "title": "Number of iterations", "statement": "With monotone decrease n_iter_ times tolerance is at most the total decrease of the cost (for FEM-BV counted from the end of the first iteration). So with non-negative regularisation, or a positive semidefinite kernel, a limit beyond 1 + initial cost / tolerance is never reached: the fit stops by itself.", "quantifier": "every estimator with an outer loop, every dataset, setting, start and draw on which the fit returns", "why_tests_cant": "unbounded iteration history", "anchors": ["src/reor/gpnh_convex_coding.py:GPNHConvexCoding._iterate", "src/reor/archetypal_analysis.py:KernelAA._iterate", "src/reor/mtd_convex_coding.py:MTDConvexCoding._iterate", "src/reor/gpnh_convex_coding_crom.py:GPNHConvexCodingCROM._fit_parameters", "src/reor/fembv.py:FEMBV._iterate"]}
{"id": "C78", "title": "max_iterations only cuts a fit short", "statement": "If a fit with limit m' succeeds then the fit of the same object with a smaller positive limit m succeeds, its costs are the first m of the longer fit, its final cost is not smaller when decrease is monotone, and if the longer fit took at most m iterations the two results agree in everything but the setting.", "quantifier": "every estimator with an outer loop (for GPNH-CROM: the fit of the parameters to given weights), all m <= m', datasets, settings, starts and draws", "why_tests_cant": "equality of two runs for all inputs", "anchors": ["src/reor/gpnh_convex_coding.py:GPNHConvexCoding._iterate", "src/reor/archetypal_analysis.py:KernelAA._iterate", "src/reor/mtd_convex_coding.py:MTDConvexCoding._iterate", "src/reor/gpnh_convex_coding_crom.py:GPNHConvexCodingCROM._fit_parameters", "src/reor/fembv.py:FEMBV._iterate"]}
{"id": "C79", "title": "FEM-BV without an effective bound is k-means", "statement": "If max_tv_norm is missing, negative or at least n_samples - 1 then, after every fit or transform of FEMBVKMeans with two or more components that updates the weights, only components whose centroid is nearest to a sample have weight at it, and the reported cost is the sum of squared distances to the nearest centroids; for FEMBVVARX (equal memories) the same holds of the squared forecast errors.", "quantifier": "all data, settings, starts and iteration histories, every exact solver", "why_tests_cant": "optimality against all competitors after unbounded histories", "anchors": ["src/reor/fembv.py:FEMBV._update_weights", "src/reor/fembv.py:FEMBV._has_max_tv_norm_constraint", "src/reor/fembv_kmeans.py:FEMBVKMeans._evaluate_distance_matrix"]}
{"id": "C80", "title": "FEM-BV with bound zero cannot tell components apart", "statement": "With max_tv_norm = 0 and two or more components the weights returned do not change in time and the cost is the least total distance (forecast error) of a single component; if centroids are updated too and there is more than one iteration, every centroid is the mean of the data.", "quantifier": "all data, settings, starts and iteration histories, every exact solver; FEMBVVARX with equal memories for the weights", "why_tests_cant": "unbounded iteration history", "anchors": ["src/reor/fembv.py:FEMBV._update_weights", "src/reor/fembv.py:FEMBV._iterate", "src/reor/fembv_kmeans.py:FEMBVKMeans._update_parameters"]}
{"id": "C81", "title": "The FEM-BV bound counts regime changes", "statement": "A hard assignment of the samples to two or more components satisfies the constraints handed to the linear programming solver exactly if each component is entered or left at most max_tv_norm times (always, if there is no bound).", "quantifier": "all assignments, numbers of samples and components, bounds", "why_tests_cant": "all assignments and sizes", "anchors": ["src/reor/fembv.py:FEMBV._initialize_constraints"]}
{"id": "C82", "title": "Archetypal analysis does not depend on the position of the data", "statement": "Rotating the data (also into a space of more dimensions) and adding a constant vector changes nothing in a fit or transform of ArchetypalAnalysis with its default kernel: the same exception or the same weights, dictionary, costs and number of iterations, and the archetypes move with the data. For KernelAA adding u_i + u_j to the kernel changes nothing.", "quantifier": "all data, rotations, translations, settings, draws and starts whose rows have sum exactly 1", "why_tests_cant": "equality of two runs for all inputs", "anchors": ["src/reor/archetypal_analysis.py:KernelAA._kernel_aa", "src/reor/archetypal_analysis.py:ArchetypalAnalysis.fit_transform", "src/reor/archetypal_analysis.py:ArchetypalAnalysis.transform"]}
{"id": "C83", "title": "Kernel archetypal analysis does not depend on the order of samples and components", "statement": "With a custom start, relabelling the samples and the components relabels the weights and the dictionary of a KernelAA fit and changes nothing else: the same exception, or the same costs and number of iterations.", "quantifier": "all kernels, permutations, settings and custom starts", "why_tests_cant": "equality of two runs for all inputs", "anchors": ["src/reor/archetypal_analysis.py:KernelAA._iterate", "src/reor/archetypal_analysis.py:KernelAA._update_weights", "src/reor/archetypal_analysis.py:KernelAA._update_dictionary"]}
{"id": "C84", "title": "GPNH convex coding moves with the data", "statement": "Rotating and translating the data, and the dictionary supplied if there is one, changes nothing in a GPNHConvexCoding fit but the dictionary found, which is rotated and translated as well: the same exception or the same weights, costs and number of iterations. The same holds of transform, for any init.", "quantifier": "all data, rotations, translations, settings, draws; starts custom or furthest_sum (random dictionaries do not move with the data)", "why_tests_cant": "equality of two runs for all inputs", "anchors": ["src/reor/gpnh_convex_coding.py:GPNHConvexCoding._gpnh_convex_coding", "src/reor/gpnh_convex_coding.py:GPNHConvexCoding.transform", "src/reor/gpnh_convex_coding.py:_initialize_gpnh_convex_coding_dictionary_furthest_sum"]}
{"id": "C85", "title": "GPNH convex coding does not depend on the order of samples and dictionary elements", "statement": "With a custom start, relabelling the samples and the dictionary elements relabels the weights and the dictionary of a GPNHConvexCoding fit and changes nothing else.", "quantifier": "all data, permutations, settings and custom starts", "why_tests_cant": "equality of two runs for all inputs", "anchors": ["src/reor/gpnh_convex_coding.py:GPNHConvexCoding._iterate", "src/reor/gpnh_convex_coding.py:GPNHConvexCoding._update_dictionary", "src/reor/gpnh_convex_coding.py:GPNHConvexCoding._update_weights"]}
{"id": "C86", "title": "Updates stop moving exactly at the optimum", "statement": "An update of the weights or of the dictionary leaves them unchanged if and only if they already minimise the cost over all admissible values with the other factor fixed. For KernelAA this needs a positive semidefinite kernel: with an indefinite one an update can be stuck at weights that are not optimal.", "quantifier": "GPNHConvexCoding (epsilon_states >= 0) and KernelAA: all data, states with positive step scale, settings", "why_tests_cant": "optimality against all competitors", "anchors": ["src/reor/gpnh_convex_coding.py:GPNHConvexCoding._update_weights", "src/reor/gpnh_convex_coding.py:GPNHConvexCoding._update_dictionary", "src/reor/archetypal_analysis.py:KernelAA._update_weights", "src/reor/archetypal_analysis.py:KernelAA._update_dictionary"]}
{"id": "C87", "title": "A converged archetypal analysis is nearly optimal in each factor", "statement": "For every positive semidefinite kernel (every data set, with the default kernel) and every accuracy there is a tolerance, and for every smaller one a number of iterations, such that whatever the start and the draws the fit returned by KernelAA cannot be improved by more than that accuracy by changing only the dictionary or only the weights; transform returns weights that no others undercut by more than the accuracy.", "quantifier": "all kernels, accuracies, starts, draws and iteration histories; line search that contracts, memory 1, step floor zero or small compared with the curvature (the default floor for data of moderate size)", "why_tests_cant": "convergence over unbounded histories against all competitors", "anchors": ["src/reor/archetypal_analysis.py:KernelAA._iterate", "src/reor/archetypal_analysis.py:KernelAA._update_weights", "src/reor/archetypal_analysis.py:KernelAA._update_dictionary", "src/reor/archetypal_analysis.py:KernelAA.transform"]}
{"id": "C88", "title": "A converged GPNH convex coding is nearly optimal in each factor", "statement": "With a positive epsilon_states (or one component), for all data, every accuracy and every bound on the cost of the start there is a tolerance, and for every smaller one a number of iterations, such that the fit returned by GPNHConvexCoding cannot be improved by more than that accuracy by changing only the dictionary or only the weights. With init furthest_sum no bound on the start is needed; for transform no penalty is needed.", "quantifier": "all data, accuracies, starts of bounded cost, draws and iteration histories; line search that contracts, memory 1, step floor zero or small compared with the curvature (the default floor for data of moderate size)", "why_tests_cant": "convergence over unbounded histories against all competitors", "anchors": ["src/reor/gpnh_convex_coding.py:GPNHConvexCoding._iterate", "src/reor/gpnh_convex_coding.py:GPNHConvexCoding._update_weights", "src/reor/gpnh_convex_coding.py:GPNHConvexCoding._update_dictionary", "src/reor/gpnh_convex_coding.py:GPNHConvexCoding.transform"]}
{"id": "C89", "title": "Integer arrays cannot be fitted in place", "statement": "With integer data the estimators keep integer arrays that their updates write to: a fit of KernelAA or ArchetypalAnalysis from the default start, of GPNHConvexCoding from a furthest_sum start, of MTDConvexCoding that fits parameters from a random start, and every fit of GPNHConvexCodingCROM never returns and ends with TypeError where the same numbers as floating point would be fitted (ValueError for KernelAA with delta > 0); so does a fit that updates a factor given as an integer array. Random starts, transform and floating point arrays are not affected.", "quantifier": "all integer data, settings, draws and starts", "why_tests_cant": "all inputs and histories; the tests use floating point data", "anchors": ["src/reor/archetypal_analysis.py:_initialize_kernel_aa_dictionary_furthest_sum", "src/reor/archetypal_analysis.py:KernelAA._update_dictionary", "src/reor/gpnh_convex_coding.py:_initialize_gpnh_convex_coding_dictionary_furthest_sum", "src/reor/gpnh_convex_coding.py:GPNHConvexCoding._update_dictionary", "src/reor/mtd_convex_coding.py:_initialize_mtd_convex_coding_parameters_random", "src/reor/gpnh_convex_coding_crom.py:GPNHConvexCodingCROM._fit_parameters"]}
{"id": "C90", "title": "Integer data make FEM-BV-k-means understate its cost", "statement": "With integer data FEMBVKMeans stores distances rounded towards zero: with floating point data, and for transform or a fit with fixed integer centroids, nothing changes, but otherwise the reported cost is the cost of truncated distances, at most the true one, and there are data on which it is smaller than the true cost and the fit that floating point data would allow is refused.", "quantifier": "all data, settings, draws, solvers that are exact and starts; witnesses for the differences", "why_tests_cant": "all inputs and histories; the tests use floating point data", "anchors": ["src/reor/fembv_kmeans.py:FEMBVKMeans._initialize_components", "src/reor/fembv_kmeans.py:FEMBVKMeans._evaluate_distance_matrix", "src/reor/fembv.py:FEMBV._iterate", "src/reor/fembv.py:FEMBV.transform"]}
{"id": "C91", "title": "Integer data break FEM-BV-VARX", "statement": "With floating point data the dtypes change nothing. With integer data the weights of a component are rounded towards zero before its local model is fitted, so that a fit updating the parameters from random weights raises LinAlgError once its first unweighted fits have succeeded (weights below 1 all become 0), a fit from custom weights below 1 never returns, the parameters reported are integers, and a fit can report a cost below the true error of its parameters although those are not the best.", "quantifier": "all integer data, settings, draws, starts with weights below 1; a witness for the last part", "why_tests_cant": "all inputs and histories; the tests use floating point data", "anchors": ["src/reor/fembv_varx.py:FEMBVVARXLocalLinearModel.fit", "src/reor/fembv_varx.py:FEMBVVARX._initialize_components", "src/reor/fembv_varx.py:FEMBVVARX._update_parameters", "src/reor/fembv_varx.py:FEMBVVARX._evaluate_distance_matrix"]}
{"id": "C92", "title": "Integer data lose the noise covariance of cluster-wise VARX", "statement": "With floating point data the dtypes change nothing in ClusterPWVARX. With integer data the coefficients of every model are the same, but its noise covariance is that of residuals rounded towards zero, so no variance is larger than the one floating point data would give, and there are data with a positive variance whose reported variance is 0.", "quantifier": "all integer data, settings and clusterings; a witness for the last part", "why_tests_cant": "all inputs; the tests use floating point data", "anchors": ["src/reor/pwvarx.py:ClusterPWVARX.fit"]}
{"id": "C93", "title": "FEM-BV-k-means moves with the data", "statement": "Rotating and translating the data, and the centroids supplied if there are any, changes nothing in FEMBVKMeans.fit_transform but the centroids, which are rotated and translated as well: the same exception, or the same weights, costs, number of iterations and draws. transform gives moved data the same weights.", "quantifier": "all data, rotations, translations, starts, settings, total variation bounds, draws and solvers", "why_tests_cant": "equality of two runs for all inputs", "anchors": ["src/reor/fembv_kmeans.py:FEMBVKMeans._evaluate_distance_matrix", "src/reor/fembv_kmeans.py:FEMBVKMeans._update_parameters", "src/reor/fembv_kmeans.py:FEMBVKMeans._initialize_components", "src/reor/fembv.py:FEMBV._iterate", "src/reor/fembv.py:FEMBV.transform"]}
{"id": "C94", "title": "MTD convex coding moves with the data", "statement": "Rotating and translating the data, and the dictionary supplied if there is one, changes nothing in an MTDConvexCoding fit but the dictionary found, which is rotated and translated as well: the same exception, or the same weights, order weights, transition matrices, costs and number of iterations. transform gives moved data the same weights, and the forecasts of predict are moved with the data, for any init.", "quantifier": "all data, rotations, translations, settings, lags, horizons, draws; starts custom, furthest_sum or with a fixed dictionary (random dictionaries do not move with the data); parameters with sums exactly 1 for predict", "why_tests_cant": "equality of two runs for all inputs", "anchors": ["src/reor/mtd_convex_coding.py:MTDConvexCoding._mtd_convex_coding", "src/reor/mtd_convex_coding.py:MTDConvexCoding._iterate", "src/reor/mtd_convex_coding.py:MTDConvexCoding.transform", "src/reor/mtd_convex_coding.py:MTDConvexCoding.predict"]}
{"id": "C95", "title": "MTD convex coding does not depend on the order of components and lags", "statement": "With a custom start, relabelling the components and listing the lags in another order relabels weights, dictionary, order weights and transition matrices of an MTDConvexCoding fit and changes nothing else.", "quantifier": "all data, permutations of components and of lags, settings and custom starts", "why_tests_cant": "equality of two runs for all inputs", "anchors": ["src/reor/mtd_convex_coding.py:MTDConvexCoding._update_predicted_weights", "src/reor/mtd_convex_coding.py:MTDConvexCoding._weights_penalty_gradient", "src/reor/mtd_convex_coding.py:MTDConvexCoding._update_parameters", "src/reor/mtd_convex_coding.py:MTDConvexCoding._iterate"]}
{"id": "C96", "title": "MTD updates stop moving exactly at the optimum of their block", "statement": "An update of MTDConvexCoding leaves the weights, or the dictionary, unchanged if and only if they already minimise the objective over all admissible values with everything else fixed; the parameters update leaves the order weights unchanged if and only if they are optimal for the transition matrices, and the transition matrices if and only if they are optimal for the order weights. Order weights and transition matrices need not be optimal together: an update can be stuck at parameters that others undercut.", "quantifier": "all data, lags >= 1, states with positive step scale, settings with non-negative epsilons", "why_tests_cant": "optimality against all competitors", "anchors": ["src/reor/mtd_convex_coding.py:MTDConvexCoding._update_weights", "src/reor/mtd_convex_coding.py:MTDConvexCoding._update_dictionary", "src/reor/mtd_convex_coding.py:MTDConvexCoding._update_parameters"]}
{"id": "C97", "title": "A converged MTD convex coding is nearly optimal in each block", "statement": "With a positive epsilon_states (or one component), for all data, lags, every accuracy and every bound on the cost of the start there is a tolerance, and for every smaller one a number of iterations, such that the fit returned by MTDConvexCoding from a stochastic start cannot be improved by more than that accuracy by changing only the dictionary, only the weights, only the order weights or only the transition matrices. With init furthest_sum no bound on the start is needed; for transform epsilon_states may be 0.", "quantifier": "all data, lags >= 1, accuracies, starts of bounded cost, draws, combinations of blocks to update and iteration histories; line search that contracts, memory 1, step floor zero or small compared with the curvature (the default floor for data of moderate size); epsilons non-negative", "why_tests_cant": "convergence over unbounded histories against all competitors", "anchors": ["src/reor/mtd_convex_coding.py:MTDConvexCoding._iterate", "src/reor/mtd_convex_coding.py:MTDConvexCoding._update_weights", "src/reor/mtd_convex_coding.py:MTDConvexCoding._update_dictionary", "src/reor/mtd_convex_coding.py:MTDConvexCoding._update_parameters", "src/reor/mtd_convex_coding.py:MTDConvexCoding.transform"]}
{"id": "C98", "title": "Draws depend on shapes and settings alone", "statement": "Which numbers a fit or transform takes from its random generator, and in which order, is determined by the shape of the data, the settings and what the caller supplies, not by the values in the data, the tolerance or the number of iterations: dictionary, then weights, then order weights, then one transition matrix per lag; for FEM-BV centroids, then weights; nothing for supplied blocks. A KernelAA object keeps an integer seed unchanged. The random dictionary of GPNH convex coding is normal numbers times the root of the mean absolute value over the number of components, so it ignores order and signs of the data, and multiplying the data by c^2 multiplies it by c only.", "quantifier": "all data, settings, update flags, starts, generators and iteration histories of calls that return", "why_tests_cant": "the state of the generator after every possible run; the tests fix a seed and compare results", "anchors": ["src/reor/gpnh_convex_coding.py:GPNHConvexCoding._gpnh_convex_coding", "src/reor/gpnh_convex_coding.py:_initialize_gpnh_convex_coding_dictionary_random", "src/reor/archetypal_analysis.py:KernelAA._kernel_aa", "src/reor/mtd_convex_coding.py:MTDConvexCoding._mtd_convex_coding", "src/reor/gpnh_convex_coding_crom.py:GPNHConvexCodingCROM.fit_transform", "src/reor/fembv_kmeans.py:FEMBVKMeans._initialize_components", "src/reor/fembv.py:FEMBV._initialize_weights"]}
{"id": "C99", "title": "k-means CROM distances and labels refer to the centres on record only until the next refit", "statement": "Right after fit, KMeansMarkovCROM.transform returns the distances of the samples to cluster_centers_, and predict with horizon 0 gives all probability to a nearest of them. On every object transform and predict with horizon 0 agree: the cluster with probability 1 has a smallest distance in its row. fit_transform returns distances to the centres it has just found; after it, or after fit_predict, transform no longer gives distances to cluster_centers_.", "quantifier": "all datasets, sample weights and histories of method calls, for every clustering library that behaves as scikit-learn documents; a witness for the last part", "why_tests_cant": "all histories; the tests never call transform after a refit", "anchors": ["src/reor/crom.py:KMeansMarkovCROM.transform", "src/reor/crom.py:KMeansMarkovCROM.predict", "src/reor/crom.py:KMeansMarkovCROM.fit_transform", "src/reor/crom.py:KMeansMarkovCROM.fit_predict"]}
{"id": "C100", "title": "What a failed call leaves behind", "statement": "A fit or transform that ends in an exception keeps every setting and everything reported by the last successful fit (dictionary_, cost_, n_iter_, n_components_), except that n_components=None has been replaced. Weights and dictionary (and transition parameters, kernel) are either all those from before the call or all those of the failed iteration, and stochastic in the second case; a failed transform keeps the dictionary. So dictionary_ and the dictionary used by transform can disagree afterwards, and a GPNHConvexCodingCROM whose parameter fit fails (always, with a zero lag) reports a new coding without matching parameters. FEMBVKMeans can be left with new centroids beside old weights, and its failed transform can replace the centroids. Later fits do not depend on what was left, and a failed fit from a custom start fails again in the same way. Random numbers drawn before the exception stay drawn: a start index for a failing FurthestSum, a dictionary beside rejected weights or keywords.", "quantifier": "all estimators with an outer loop but FEMBVVARX; all data, settings, starts, draws and histories of the failed run; witnesses for the disagreements", "why_tests_cant": "the object after every possible failure; the tests only check that exceptions are raised", "anchors": ["src/reor/gpnh_convex_coding.py:GPNHConvexCoding._gpnh_convex_coding", "src/reor/gpnh_convex_coding.py:GPNHConvexCoding.transform", "src/reor/archetypal_analysis.py:KernelAA._kernel_aa", "src/reor/mtd_convex_coding.py:MTDConvexCoding._mtd_convex_coding", "src/reor/gpnh_convex_coding_crom.py:GPNHConvexCodingCROM.fit_transform", "src/reor/fembv.py:FEMBV._fembv_fit", "src/reor/fembv.py:FEMBV.transform"]}
{"id": "C101", "title": "Constructors: what is stored, defaulted, rejected and ignored", "statement": "The constructors of the estimators with a line search read exactly eight keyword settings, each under its own name without the attribute prefix line_search_, with the defaults 1, 1e-4, 1e-3, 1e3, 0.1, 0.9, 1e-12 and a monotonicity check; no range is checked and every other keyword is silently ignored. A negative memory is a ValueError and one that is not an integer a TypeError; nothing else about the settings is rejected. GPNH stores the remaining arguments unchecked; kernel archetypal analysis checks n_components first (None and integers >= 0 pass, negative ValueError, else TypeError); MTD lags must be positive integers (ValueError) and default to 1; GPNH-CROM rejects n_components=None, which its base class accepts, and lists of lags (AttributeError), but no value of a lag; FEM-BV-k-means rejects nothing; FEM-BV-VARX only a memory that is negative or not one per component (ValueError) and a missing number of components. Truth values count as 1 and 0, and any non-zero number switches the monotonicity check on.", "quantifier": "all keyword dictionaries of numbers and truth values, all arguments", "why_tests_cant": "keyword dictionaries and argument types form an infinite family; misspelt settings pass silently", "anchors": ["src/reor/gpnh_convex_coding.py:215-261", "src/reor/archetypal_analysis.py:218-270", "src/reor/mtd_convex_coding.py:192-268", "src/reor/gpnh_convex_coding_crom.py:74-100", "src/reor/fembv_kmeans.py:125-135", "src/reor/fembv.py:45-68"]}
{"id": "C102", "title": "Default settings are safe for data of moderate size", "statement": "With all line search settings at their defaults, in particular the step floor 1e-12, and draws that are never zero, fits and transforms return (no RuntimeError from the monotonicity check, no divergence) provided the problem is not too large: kernel archetypal analysis when n**2 times the largest kernel entry is at most 499950000, archetypal analysis when n**2 times the largest squared norm is, its transform when n_components times the largest entry is, GPNH transform when the squared dictionary entries sum to at most 499950000 times the number of data entries, and GPNH fits with epsilon_states > 0 under a corresponding bound on start cost or data; likewise MTD convex coding fits from furthest_sum and transforms, where epsilon_weights enters the bounds, and fits of the reduced order model, whose transition matrices add the bound 26 p T**3 <= 499950000 (T - L) for p lags up to L < T. The bound cannot be dropped: with a dictionary entry of 2**21 transform with all default settings raises RuntimeError in exact arithmetic.", "quantifier": "all data, kernels, dictionaries and generator states within the bounds", "why_tests_cant": "the boundary is a quantitative property of the backtracking floor, and the failure needs a specially aligned sample", "anchors": ["src/reor/archetypal_analysis.py:337-381", "src/reor/archetypal_analysis.py:430-488", "src/reor/gpnh_convex_coding.py:437-474", "src/reor/mtd_convex_coding.py:460-530", "src/reor/mtd_convex_coding.py:556-680", "src/reor/gpnh_convex_coding_crom.py:74-100", "src/reor/spg.py:4-18"]}
{"id": "C103", "title": "inverse_transform", "statement": "inverse_transform multiplies the weights by the stored dictionary: for GPNH and MTD models it returns the combinations of dictionary elements, for (kernel) archetypal analysis the coefficients of the fitted samples, not samples; without a fitted dictionary it is a TypeError and for a wrong number of components a ValueError. After a fit of archetypal analysis to data X the coefficients P have rows on the simplex, cost_ is the squared distance of X and PX, and every reconstructed feature lies within the range of the data; after a fit of an MTD model every reconstructed feature lies within the range of the dictionary.", "quantifier": "all models, weights and data; for the fits settings with steps in [0, 1] and stochastic supplied starts", "why_tests_cant": "universally quantified over data and fitted models", "anchors": ["src/reor/archetypal_analysis.py:805-819", "src/reor/gpnh_convex_coding.py:682-696", "src/reor/mtd_convex_coding.py:968-982"]}
{"id": "C104", "title": "Repeated fits keep the best one", "statement": "fit_fembv_kmeans and fit_fembv_varx of the examples fit n_init models one after the other, each from the generator as the one before left it, and return the first of those with the smallest cost together with its weights; without a start both are None, an exception in a start is raised, and more starts never give a worse result. The weights returned by fit_fembv_kmeans satisfy the total variation bound, are optimal for the returned centroids and have the returned cost. With one component it always returns a fit. A memory that does not fit the number of components is a ValueError.", "quantifier": "all data, settings, numbers of starts, draws; exact solver where optimality is claimed", "why_tests_cant": "the best of unboundedly many fits from arbitrary generators", "anchors": ["examples/fem-bv-kmeans/gaussian_clusters.py:fit_fembv_kmeans", "examples/fem-bv-varx/switching.py:fit_fembv_varx", "examples/fem-bv-varx/periodic.py:fit_fembv_varx"]}
{"id": "C105", "title": "Gaussian clusters example: regimes and true affiliations", "statement": "generate_data of gaussian_clusters.py assigns every sample to exactly one of three clusters, which follow each other cyclically; the regime changes exactly n_switches times if there are more samples than switches and never otherwise. Every sample is a draw from its own cluster (each of the three is drawn from at every sample). The true affiliations are admissible for a fit whose total variation bound is at least n_switches.", "quantifier": "all numbers of samples and switches, all generators", "why_tests_cant": "all sizes and generators", "anchors": ["examples/fem-bv-kmeans/gaussian_clusters.py:generate_data"]}
{"id": "C106", "title": "Switching example: the data follow the process with the returned parameters", "statement": "The time series generated by switching.py is a vector autoregressive process with the returned intercepts mu and coefficients A of the component of each sample; the components follow each other cyclically in n_switches + 1 regimes, and the returned weights say which is active.", "quantifier": "all dimensions, lengths, orders, numbers of components and switches, generators", "why_tests_cant": "all sizes and generators; the defect needs data to be compared with parameters", "anchors": ["examples/fem-bv-varx/switching.py:generate_data"]}
{"id": "C107", "title": "Periodic example: the data follow the process with the returned parameters", "statement": "The time series generated by periodic.py is, after order initial draws, drawn around phase times (mu plus the autoregressive sum) with the returned mu and A; the phases are cos(2 pi t / period), lie in [-1, 1], begin with 1 and repeat after a whole period. Generation returns exactly if there are at least order samples (IndexError otherwise).", "quantifier": "all dimensions, lengths, periods, orders, generators", "why_tests_cant": "all sizes and generators", "anchors": ["examples/fem-bv-varx/periodic.py:generate_data"]}
{"id": "C108", "title": "SISO example: the three regions cover the plane and the output stays bounded", "statement": "generate_data of kmeans_siso.py never raises 'Invalid region'. For at least one sample it returns outputs that follow the piecewise affine system with noise of at most 0.1 from a start in [0, 1] under inputs in [-5, 5], and every output lies in [-157/22, 104/11]. Without samples it raises IndexError.", "quantifier": "all numbers of samples, all generators that respect the bounds of uniform", "why_tests_cant": "invariant over trajectories of any length", "anchors": ["examples/pwvarx/kmeans_siso.py:generate_data"]}
{"id": "C109", "title": "SISO example: panels and collected coefficients", "statement": "plot_cluster_assignments draws exactly one panel for every pair of predictors and uses every row of the figure once, if there are at least two predictors and the labels have the right length, and raises ValueError otherwise (in particular with the defaults p = 1, s = 0). Collecting the coefficients of a fit works if a trend is included, or p = 1, or p = 0 and s <= 1, and raises ValueError otherwise.", "quantifier": "all numbers of samples, labels, lags and components", "why_tests_cant": "all lags and sizes", "anchors": ["examples/pwvarx/kmeans_siso.py:plot_cluster_assignments", "examples/pwvarx/kmeans_siso.py:main"]}
{"id": "C110", "title": "FEM-BV-VARX turns with the data", "statement": "Rotating or reflecting the data, and the external factors by a rotation of their own, changes nothing in FEMBVVARX.fit_transform but the parameters: the same exception, or the same weights, costs, number of iterations and draws, with mu Q for the intercepts, Q^T A Q for the coefficients and Q^T B M for those of the external factors. transform gives rotated and translated data exactly the same outcome. A fit of translated data can give other weights: a component with the weight of a single sample is not determined, and the coefficients of least norm do not move with the data.", "quantifier": "all data, rotations, translations, memories, starts, settings, total variation bounds, draws and solvers; a least-squares routine that returns the solution of least norm; a witness for the last part", "why_tests_cant": "equality of two runs for all inputs", "anchors": ["src/reor/fembv_varx.py:FEMBVVARXLocalLinearModel.fit", "src/reor/fembv_varx.py:FEMBVVARX._initialize_components", "src/reor/fembv_varx.py:FEMBVVARX._update_parameters", "src/reor/fembv_varx.py:FEMBVVARX._evaluate_distance_matrix", "src/reor/fembv.py:FEMBV._iterate", "src/reor/fembv.py:FEMBV.transform"]}
{"id": "C111", "title": "The scale of the next step is the inverse curvature along the last one", "statement": "After every completed update of a block (weights, dictionary, order weights and transition matrices; GPNH, kernel archetypal analysis, MTD models and the reduced order model) the stored step scale is the squared length of the move just made divided by the curvature of the documented objective along that move, kept between alpha_min and alpha_max, and alpha_max if the curvature is not positive. The curvature is the second difference of the objective; for the order weights and transition matrices, which move together, the change of the sum of the slopes in each. The scale of the step along the scale factors of kernel archetypal analysis is always alpha_max.", "quantifier": "all data, settings, states of a fit; kernel symmetric; for the order weights and transition matrices more than one component", "why_tests_cant": "curvature along every possible move", "anchors": ["src/reor/spg.py:get_next_spg_alpha", "src/reor/gpnh_convex_coding.py:_update_weights", "src/reor/gpnh_convex_coding.py:_update_dictionary", "src/reor/archetypal_analysis.py:_update_weights", "src/reor/archetypal_analysis.py:_update_dictionary", "src/reor/mtd_convex_coding.py:_update_weights", "src/reor/mtd_convex_coding.py:_update_dictionary", "src/reor/mtd_convex_coding.py:_update_parameters", "src/reor/gpnh_convex_coding_crom.py:_update_parameters"]}
{"id": "C112", "title": "FEM-BV-VARX of memory 0 is FEM-BV-k-means or a LinAlgError", "statement": "Without memory and external factors a local model fitted with nonnegative weights is a LinAlgError exactly if the weights do not sum to 1 and the samples with positive weight lie in a hyperplane; otherwise its intercept is the weighted mean. Data of at least two samples in a hyperplane (such as collinear features, or no more samples than features) therefore always raise LinAlgError. Other fits from given weights are a LinAlgError, or end exactly as FEM-BV-k-means started with these weights and every centroid at the mean of the data: same exception, weights, costs and number of iterations, with the centroids as intercepts (zero intercepts if the parameters are not updated).", "quantifier": "all data, nonnegative weights, numbers of components, settings, total variation bounds and solvers; a least-squares routine that returns a minimiser", "why_tests_cant": "equality of runs of two estimators for all inputs", "anchors": ["src/reor/fembv_varx.py:FEMBVVARXLocalLinearModel.fit", "src/reor/fembv_varx.py:FEMBVVARX._update_parameters", "src/reor/fembv_varx.py:FEMBVVARX._evaluate_distance_matrix", "src/reor/fembv_kmeans.py:FEMBVKMeans._update_parameters", "src/reor/fembv.py:FEMBV._iterate"]}
{"id": "C113", "title": "A component of a piecewise VARX fit is a local model of FEM-BV-VARX", "statement": "With trend and without exogenous variables, the coefficients of a component of ClusterPWVARX and the residuals of its samples are those of the FEM-BV-VARX local model of the same order whose weights are 1 for the samples of the component and 0 for the others, or that model is a LinAlgError (exactly if the component does not have exactly one sample and its residuals are linearly dependent). The covariances differ by the degrees of freedom. If a component has all samples it is the local model fitted without weights, with equal covariance.", "quantifier": "all data, orders, clusterers, classifiers, labels, components; a least-squares routine that returns the solution of least norm", "why_tests_cant": "equality of results of two implementations for all inputs", "anchors": ["src/reor/pwvarx.py:ClusterPWVARX._fit_var_model", "src/reor/pwvarx.py:ClusterPWVARX._stack_predictors", "src/reor/fembv_varx.py:FEMBVVARXLocalLinearModel.fit"]}
{"id": "C114", "title": "The reduced order model turns with the data", "statement": "Rotating, reflecting and translating the data (and a given dictionary with them) changes nothing in GPNHConvexCodingCROM.fit_transform but the dictionary, if the start is given or found by furthest sum: the same exception, or the same weights, order weights, transition matrices, costs and draws, with the dictionary moved like the data. predict with the moved dictionary gives moved data the same exception or the moved predictions, at every horizon and with NaN in the same rows.", "quantifier": "all data, motions, starts, settings, lags >= 1 and horizons; for predict all dictionaries, order weights with sum 1 and transition matrices with columns of sum 1", "why_tests_cant": "equality of two runs for all inputs", "anchors": ["src/reor/gpnh_convex_coding_crom.py:fit_transform", "src/reor/gpnh_convex_coding_crom.py:predict", "src/reor/gpnh_convex_coding.py:_gpnh_convex_coding"]}
{"id": "C115", "title": "The parameters of the reduced order model are optimal where they stop", "statement": "A completed update of the GPNHConvexCodingCROM parameters leaves the order weights (the transition matrices) unchanged exactly if no other order weights (transition matrices) on the simplex have a smaller prediction residual; they need not be optimal together. For every accuracy there are a tolerance and, for every smaller one, a number of iterations, both independent of data, coding and random start, such that no other order weights and no other transition matrices undercut the residual of a fit that returns by more than that accuracy; this holds for the default line search settings if the series is not too long.", "quantifier": "all data, lags >= 1, numbers of components, stochastic starts, draws, accuracies; line search memory 1; step floor small compared with the curvature (zero, or the default one with a bound on the number of samples)", "why_tests_cant": "an infimum over all stochastic parameters, and limits of runs", "anchors": ["src/reor/gpnh_convex_coding_crom.py:_update_parameters", "src/reor/gpnh_convex_coding_crom.py:_update_parameters_gradient", "src/reor/gpnh_convex_coding_crom.py:_parameters_line_search", "src/reor/gpnh_convex_coding_crom.py:_fit_parameters"]}
{"id": "C116", "title": "Piecewise VARX fits turn with the data", "statement": "If the classifier gives the samples of rotated and translated data (with exogenous variables mapped by an invertible matrix and translated) the same labels, the residuals of ClusterPWVARX and the covariances of its components are rotated like the data and nothing else changes. If nothing is translated and the least-squares routine returns the solution of least norm, the intercepts and coefficient matrices are rotated too, even where the samples of a component do not determine them. Without a trend a translation does change the residuals.", "quantifier": "all data, rotations and reflections, translations, orders, component numbers and labels, with and without exogenous variables", "why_tests_cant": "A test compares two fits; it cannot cover all rotations, nor components with fewer samples than coefficients, where only the choice of least norm makes the result equivariant.", "anchors": ["src/reor/pwvarx.py:110-172", "src/reor/pwvarx.py:63-99", "src/reor/pwvarx.py:174-217"]}
{"id": "C117", "title": "The k-means CROM transition matrix is the maximum-likelihood estimate", "statement": "Among all transition probabilities, the finite entries of the transition matrix fitted by KMeansMarkovCROM give the label sequence of the training data the largest probability, and no others do for the labels that have a successor. One step of the fitted chain takes the label counts without the last sample to those without the first; if the first and last label agree, the label counts are stationary.", "quantifier": "all data, cluster numbers and labelings returned by the clustering", "why_tests_cant": "A test compares with a few other matrices; the optimality is over all transition probabilities.", "anchors": ["src/reor/crom.py:kmeans_markov_crom", "src/reor/crom.py:KMeansMarkovCROM.fit"]}
{"id": "C118", "title": "What the regularisation parameters do", "statement": "Of two GPNH dictionaries that the update leaves unchanged for the same data and weights, the one for the larger epsilon_states has elements that are not further apart and a reconstruction that is not better. For epsilon_states > 0 (two or more components) only one dictionary stays for given data and weights; for 0 there can be several. A dictionary that stays reconstructs the mean of the data, and its penalty plus its reconstruction error is at most the variance of the data. A fit started from a dictionary of equal elements ends with a penalty of at most the reconstruction error of that start. The FEM-BV-k-means cost for given centroids does not increase, and is convex, as max_tv_norm is relaxed.", "quantifier": "all data, weights, dictionaries, epsilon_states >= 0, accepted line search settings; all bounds, centroids, starts and generators, with an exact solver for the linear programs", "why_tests_cant": "Tests compare a few values of the parameters for a few data sets; monotonicity, uniqueness and convexity concern all of them.", "anchors": ["src/reor/gpnh_convex_coding.py:GPNHConvexCoding._update_dictionary", "src/reor/gpnh_convex_coding.py:GPNHConvexCoding._evaluate_dictionary_penalty", "src/reor/fembv.py:FEMBV._update_weights", "src/reor/fembv.py:FEMBV._initialize_constraints"]}
{"id": "C119", "title": "Components of a piecewise VARX fit are independent of each other", "statement": "Given the labels, the coefficients, covariance and residuals of a component of ClusterPWVARX depend only on the samples with its label: data and labels of the other components can be anything. If the labels are renamed by a permutation, the fit returns as before, each component appears under its new number and the residuals are the same.", "quantifier": "all data, predictors, label vectors (also with labels outside the range), orders, component numbers, permutations and least-squares routines", "why_tests_cant": "Tests try a few data sets and labelings; independence is a statement about all changes of the other samples.", "anchors": ["src/reor/pwvarx.py:ClusterPWVARX._fit_var_model"]}
{"id": "C120", "title": "What a failed piecewise VARX fit leaves behind", "statement": "A fit of ClusterPWVARX that raises an exception leaves the settings as they were. If the data are rejected, nothing is changed; if the clustering fails, only the clusterer; if the classification fails, clusterer, labels and classifier are those of the failed fit but the coefficients those of the last successful one; if the least-squares routine fails at a component, the components before it are complete, that one and those after it are zero, and nothing is left of the last fit. A later fit goes as if the failed one had only made the clusterer and the classifier (and left coefficients of exogenous variables); transform uses the classifier of the failed fit.", "quantifier": "all data, exogenous variables, orders, component numbers, and all clustering, classification and least-squares routines, with any behaviour on failure", "why_tests_cant": "Tests do not make scikit-learn or the SVD fail half-way; the claim is about every place where a fit can stop.", "anchors": ["src/reor/pwvarx.py:ClusterPWVARX.fit_transform", "src/reor/pwvarx.py:ClusterPWVARX._cluster", "src/reor/pwvarx.py:ClusterPWVARX._fit_var_model", "src/reor/pwvarx.py:ClusterPWVARX.transform"]}
{"id": "C121", "title": "Weights are the coordinates of the nearest point in the convex hull of the dictionary", "statement": "A completed update of the GPNH weights leaves them unchanged exactly if the reconstruction of every sample is the nearest point to it in the convex hull of the dictionary; so this depends on no other sample, there is only one such reconstruction whatever the settings, and it is exact for samples in the hull. The weights themselves are unique if the dictionary elements are affinely independent, and need not be otherwise. With a small enough tolerance and enough iterations, transform of GPNH convex coding and of archetypal analysis gives, from any two random starts, reconstructions (and, for affinely independent elements, weights) that agree to any given accuracy.", "quantifier": "all data, dictionaries, weights, line search settings that descend, tolerances below a bound, iteration limits above a bound, random starts", "why_tests_cant": "Tests run a few starts; that all runs agree, and that the fixed points are exactly the projections, is about all of them.", "anchors": ["src/reor/gpnh_convex_coding.py:GPNHConvexCoding._update_weights", "src/reor/gpnh_convex_coding.py:GPNHConvexCoding.transform", "src/reor/archetypal_analysis.py:ArchetypalAnalysis.transform"]}
{"id": "C122", "title": "What the FurthestSum selection depends on", "statement": "For valid arguments, replacing every dissimilarity d between two different, not excluded samples by a*d+b with a>0 leaves the result of furthest_sum unchanged for every number of extra steps, whatever is done to the diagonal and to the rows and columns of excluded samples. For a symmetric matrix without ties, renaming the samples renames the result, in the same order; with ties this fails.", "quantifier": "all matrices (symmetric or not, for the first part), start indices, exclusion lists, factors, offsets, renamings and numbers of extra steps", "why_tests_cant": "Tests fix one matrix; the claim compares runs on unboundedly many related matrices.", "anchors": ["src/reor/furthest_sum.py:furthest_sum", "src/reor/furthest_sum.py:_furthest_sum_impl", "src/reor/furthest_sum.py:_get_furthest_index"]}
{"id": "C123", "title": "FEM-BV-VARX objects after a failed fit", "statement": "A fit (or transform) of FEM-BV-VARX that raises keeps all settings and the cost, number of iterations and number of components of the last successful fit. Rejected arguments leave the object as it was; any later failure has replaced the intercepts (the matrices, if the memory is positive; the external coefficients, if external factors were given) by new arrays, which are 0 while the affiliations are still the old ones. A failure during an update leaves the coefficients of the components before the failing one updated and the others not. A later fit behaves as if the failed one had not happened, except that without external factors it reports the external coefficients the failed fit left.", "quantifier": "all objects as the constructor makes them, data, arguments, solvers, least-squares routines and points of failure", "why_tests_cant": "Tests look at the outcome of successful fits; the state after each possible exception is not observed.", "anchors": ["src/reor/fembv_varx.py:FEMBVVARX._initialize_components", "src/reor/fembv_varx.py:FEMBVVARX._update_parameters", "src/reor/fembv.py:FEMBV._fembv_fit", "src/reor/fembv.py:FEMBV.fit_transform", "src/reor/fembv.py:FEMBV.transform"]}
{"id": "C124", "title": "The search over the scale factors of kernel archetypal analysis", "statement": "The cost the search over the scale factors evaluates from cached products is the objective with each archetype multiplied by its factor, it starts at the current objective, and for a symmetric kernel its gradient is the derivative of that objective. Its direction, for delta >= 0, does not depend on the data: the bounds of the clipping are exchanged and the clipping acts on the whole matrix, so every entry outside the diagonal is 1 + delta and the full step is the objective with every archetype replaced by 1 + delta times the sum of all archetypes.", "quantifier": "all kernels (gradient: symmetric), states reached by a fit, searches that start, delta (direction: delta >= 0) and scale factors", "why_tests_cant": "Tests use delta = 0, where the search over scale factors is skipped.", "anchors": ["src/reor/archetypal_analysis.py:KernelAA._update_scale_factors_gradient", "src/reor/archetypal_analysis.py:KernelAA._scale_factors_line_search", "src/reor/archetypal_analysis.py:KernelAA._update_dictionary"]}
{"id": "C125", "title": "Forecasts never move apart and forget where they started", "statement": "Forecasts of weights by stochastic parameters differ, for every horizon, by no more than the weights they started from; if component j is entered with probability at least c_j at every lag and from every component, the difference shrinks by the factor 1 - sum(c) every max_lag steps. So forecasts of MTD convex coding and of GPNH-CROM, for whatever data and sample, come within 2 max|S| (1 - sum(c))^ceil(h / max_lag) of the reconstruction of the stationary distribution, which exists and is unique, and predictions of the k-means CROM within 2 (1 - sum(c))^h of its stationary distribution and of each other. With a periodic chain they never approach.", "quantifier": "all parameters that are stochastic (as fits make them: C38, C44), lags >= 1, data, samples, horizons; the existence of the stationary distribution over the reals", "why_tests_cant": "Long horizons from all starting points cannot be sampled; a forecast with a wrong recursion (a lag off by one, a transposed matrix) still returns plausible numbers.", "anchors": ["src/reor/mtd_convex_coding.py:MTDConvexCoding.predict", "src/reor/gpnh_convex_coding_crom.py:GPNHConvexCodingCROM.predict", "src/reor/crom.py:KMeansMarkovCROM.predict"]}
{"id": "C126", "title": "Residuals of the local models are uncorrelated with the regressors; a local model cannot fit without noise", "statement": "The weighted residuals of a local model sum to zero in every feature, and so do their products with every lag of every feature and of every external factor and with the current factors. A fit of a local model is a LinAlgError exactly if its degrees of freedom are not zero and some combination of the features is, wherever the weight is not zero, an exact affine function of the regressors. So a FEM-BV-VARX fit of a series that follows an autoregression without noise, or with a feature that is constant or has a period that a component remembers, is a LinAlgError, whatever the other settings are.", "quantifier": "all series, weights that are not negative, orders, external factors, memories; exact least squares that always returns", "why_tests_cant": "Rounding hides that the covariance is singular: for data without noise numpy usually returns a huge inverse, or an error, depending on the last bits.", "anchors": ["src/reor/fembv_varx.py:FEMBVVARXLocalLinearModel.fit", "src/reor/fembv_varx.py:FEMBVVARX._initialize_components"]}
{"id": "C127", "title": "Piecewise VARX fits recover a series without noise", "statement": "For each component of a piecewise fit the residuals of its samples sum to zero (with a trend), and their products with every lag of every feature and of every exogenous variable sum to zero. If the samples of a component follow some coefficients without noise, their residuals and their covariance are zero and the reported coefficients reproduce the samples; if moreover their regressors satisfy no linear relation, the reported coefficients are the true ones (a FEM-BV-VARX fit of such data is a LinAlgError instead: C126).", "quantifier": "all data, orders, exogenous variables with as many samples as the data, trends, clusterers and classifiers; exact least squares", "why_tests_cant": "Exact recovery depends on rows, lags and columns of the design matrix all being in place, for all orders and dimensions; the tests check one series each.", "anchors": ["src/reor/pwvarx.py:ClusterPWVARX._fit_var_model", "src/reor/pwvarx.py:ClusterPWVARX.fit_transform"]}
{"id": "C128", "title": "The transition matrix of a k-means CROM is the best one-step predictor", "statement": "The columns of the fitted transition matrix that are not NaN belong to a matrix of probabilities whose one-step predictions of the labels have the least squared error of all matrices, with equality only for the same columns. If every cluster is left at least once, the one-step predictions returned by predict for the fitted samples but the last add up to the numbers of fitted samples but the first in each cluster.", "quantifier": "all clusterings scikit-learn may return, all numbers of clusters and samples", "why_tests_cant": "Optimality is a claim about all matrices; a test compares with a handful, if any.", "anchors": ["src/reor/crom.py:kmeans_markov_crom", "src/reor/crom.py:KMeansMarkovCROM.fit", "src/reor/crom.py:KMeansMarkovCROM.predict"]}
{"id": "C129", "title": "Numbering of the clusters does not matter to a k-means CROM", "statement": "Two models whose clusters are numbered differently by the k-means routine have transition matrices that are permuted accordingly, and predictions for any horizon with permuted columns; NaN appears in corresponding places.", "quantifier": "all clusterings, permutations, data, horizons (also zero and negative)", "why_tests_cant": "k-means numbers clusters at random; tests fix a seed.", "anchors": ["src/reor/crom.py:kmeans_markov_crom", "src/reor/crom.py:KMeansMarkovCROM.fit", "src/reor/crom.py:KMeansMarkovCROM.predict"]}
{"id": "C130", "title": "Lags of any sign: slices, errors and forecasts", "statement": "With positive lags the slices cut by _update_predicted_weights always fit each other and row t of the predicted weights is the mixture of the weights at t - lag; forecasts never index out of range. A lag that is zero or negative beside a largest lag that is not negative is a ValueError if there are more samples than the largest lag. With negative lags only, which the reduced order model accepts, there is no error: the last samples are predicted from the beginning of the series, and predict is an IndexError for every horizon but 0.", "quantifier": "all integer lags, weights, parameters, horizons and numbers of samples (at least the size of the lags for the statement on negative ones)", "why_tests_cant": "Slices with negative bounds and broadcasting hide errors; the tests use positive lags on one length of data.", "anchors": ["src/reor/gpnh_convex_coding_crom.py:GPNHConvexCodingCROM._update_predicted_weights", "src/reor/gpnh_convex_coding_crom.py:GPNHConvexCodingCROM.predict", "src/reor/mtd_convex_coding.py:MTDConvexCoding._update_predicted_weights", "src/reor/mtd_convex_coding.py:MTDConvexCoding.predict"]}
{"id": "C131", "title": "The numbering of components and lags carries no meaning for parameters and forecasts", "statement": "Fitting the parameters of the reduced order model from relabelled weights, order weights and transition matrices, with the lags listed in another order, fails in the same way or gives the relabelled parameters with the same residual, history and number of iterations. Forecasts of both the reduced order model and the MTD estimator from relabelled weights, dictionary and parameters are the same data, NaN rows and errors included.", "quantifier": "all relabellings of components and lags, weights, dictionaries, parameters, settings, lags and horizons", "why_tests_cant": "Relabelled runs need the line search and the projections to commute with permutations; a test tries one numbering.", "anchors": ["src/reor/gpnh_convex_coding_crom.py:GPNHConvexCodingCROM._fit_parameters", "src/reor/gpnh_convex_coding_crom.py:GPNHConvexCodingCROM._update_parameters", "src/reor/gpnh_convex_coding_crom.py:GPNHConvexCodingCROM.predict", "src/reor/mtd_convex_coding.py:MTDConvexCoding.predict"]}
{"id": "C132", "title": "The simplex projection hides NaN and infinite entries", "statement": "A vector with a NaN or an entry plus infinity, or without a finite entry, is projected to the zero vector: no NaN, no error, but not a probability vector. Otherwise entries minus infinity get weight 0 and the rest is projected as if they were absent. The result is always finite and is a probability vector exactly in the last case.", "quantifier": "all vectors of floating point values with exact finite arithmetic", "why_tests_cant": "np.fmax drops the NaN that arises, so a broken gradient turns into ordinary looking zero weights; the tests project finite vectors only.", "anchors": ["src/reor/spg.py:simplex_project_vector"]}
{"id": "C133", "title": "With exactly max_lag samples the reduced order model is fitted to zero", "statement": "If the number of samples equals the largest lag, the fit of the parameters of the GPNH reduced order model raises nothing: from any finite start and after any positive number of iterations all order weights and all transition matrices are 0. The cost is NaN for any parameters unless there is one component, and every forecast at a positive horizon made with such parameters is a row of NaN or of zeros. With any other number of samples the fit has the outcome of the exact model: the same exception, or the same finite parameters, or it does not end.", "quantifier": "all weights, lags, starting parameters, tolerances and positive numbers of iterations and memory lengths", "why_tests_cant": "The division by the numpy integer 0 only warns; NaN gradients are hidden by the projection and NaN costs pass the check for an increase. The tests use long time series.", "anchors": ["src/reor/gpnh_convex_coding_crom.py:_fit_parameters", "src/reor/gpnh_convex_coding_crom.py:_update_parameters", "src/reor/gpnh_convex_coding_crom.py:_evaluate_fit_residual"]}
{"id": "C134", "title": "With exactly max_lag samples the updates of the MTD coding produce zeros", "statement": "If the number of samples equals the largest lag, one update of the weights of the MTD coding raises nothing and sets every row of the weights that precedes the last sample by at least some lag to 0, while the other rows are probability vectors. One update of the parameters sets all order weights and transition matrices to 0, even when epsilon_weights is 0. With any other number of samples both gradients and the outcomes of both updates are those of the exact model.", "quantifier": "all data, dictionaries, finite weights and parameters, costs, positive lags, step sizes and non-empty memories", "why_tests_cant": "The division by the numpy integer 0 only warns, NaN gradients give NaN slopes that accept the full step, and the projection turns NaN into 0. The tests use long time series.", "anchors": ["src/reor/mtd_convex_coding.py:_update_weights", "src/reor/mtd_convex_coding.py:_update_parameters", "src/reor/mtd_convex_coding.py:_weights_penalty_gradient"]}
