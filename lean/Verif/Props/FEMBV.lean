import Verif.Proofs.FEMRun
import Verif.Proofs.GPNHFit
import Verif.Proofs.Rel
import Mathlib.Tactic.NormNum
import Mathlib.Tactic.FinCases

/-!
Properties of FEM-BV and FEM-BV-k-means (C22, C24, C47-C52).
-/

set_option linter.unusedSectionVars false

namespace Reor

open scoped BigOperators
open Spec

variable {K : Type} [Field K] [LinearOrder K] [IsStrictOrderedRing K]

/-- `tv` is the bound on the total variation that the argument `max_tv_norm` stands for: its value,
if it is a number that is not negative, otherwise there is none. -/
def TvBound (maxTvNorm : NumArg K) (tv : Option K) : Prop :=
  ∀ b, tv = some b ↔ 0 ≤ b ∧ (maxTvNorm = .real b ∨ ∃ z : ℤ, maxTvNorm = .int z ∧ b = z)

theorem tvBound_of_ok {m : NumArg K} {tv : Option K} (h : maxTvConstraint m = Py.ok tv) :
    TvBound m tv := by
  intro b
  cases m with
  | none => simp only [maxTvConstraint, Py.ok.injEq] at h; simp [← h]
  | other => simp [maxTvConstraint] at h
  | int z =>
    unfold maxTvConstraint at h
    by_cases c : z ≥ 0
    · simp only [c, if_true, Py.ok.injEq] at h
      simp only [← h, Option.some.injEq, reduceCtorEq, NumArg.int.injEq, false_or]
      constructor
      · rintro rfl
        exact ⟨by exact_mod_cast c, z, rfl, rfl⟩
      · rintro ⟨-, z', rfl, rfl⟩
        rfl
    · simp only [c, if_false, Py.ok.injEq] at h
      simp only [← h, reduceCtorEq, NumArg.int.injEq, false_or, false_iff, not_and]
      rintro hb ⟨z', rfl, rfl⟩
      exact c (by exact_mod_cast hb)
  | real x =>
    unfold maxTvConstraint at h
    by_cases c : x ≥ 0
    · simp only [c, if_true, Py.ok.injEq] at h
      simp only [← h, Option.some.injEq, reduceCtorEq, NumArg.real.injEq, false_and, exists_false,
        or_false]
      constructor
      · rintro rfl
        exact ⟨c, rfl⟩
      · rintro ⟨-, rfl⟩
        rfl
    · simp only [c, if_false, Py.ok.injEq] at h
      simp only [← h, reduceCtorEq, NumArg.real.injEq, false_and, exists_false,
        or_false, false_iff, not_and]
      rintro hb rfl
      exact c hb

theorem maxTvConstraint_number {m : NumArg K} (hm : m ≠ .other) :
    ∃ tv, maxTvConstraint m = Py.ok tv := by
  cases m with
  | none => exact ⟨_, rfl⟩
  | other => exact absurd rfl hm
  | int z =>
    unfold maxTvConstraint
    by_cases c : z ≥ 0 <;> simp [c]
  | real x =>
    unfold maxTvConstraint
    by_cases c : x ≥ 0 <;> simp [c]

/-! ### C47: the constraint matrices -/

/-- C47.  For every number of samples, every number of components from two on and every bound,
setting up the constraints succeeds, and weights can be completed by auxiliary variables to satisfy
the constraints exactly if each row is a probability vector and the total variation of each
component is within the bound (if there is one). -/
theorem C47_constraints {k T : ℕ} (hk : 1 < k) (hT : 0 < T) {m : NumArg K} (hm : m ≠ .other) :
    ∃ tv con, maxTvConstraint m = Py.ok tv ∧ TvBound m tv ∧
      femConstraints tv k T = Py.ok (some con) ∧
      ∀ G : Matrix (Fin T) (Fin k) K,
        (∃ v, con.Aeq.mulVec v = con.beq ∧ (∀ r, con.Aub.mulVec v r ≤ con.bub r) ∧
          ∀ (t : Fin T) (i : Fin k), v ⟨t * k + i, weightIndex_lt t.2 i.2⟩ = G t i) ↔
        TvAdmissible tv G := by
  obtain ⟨tv, htv⟩ := maxTvConstraint_number hm
  obtain ⟨con, hcon, he⟩ := femConstraints_encodes tv hk hT
  refine ⟨tv, con, htv, tvBound_of_ok htv, hcon, fun G => ?_⟩
  rw [← layout_iff tv G]
  constructor
  · rintro ⟨v, h1, h2, h3⟩
    exact ⟨v, (he v).1 ⟨h1, h2⟩, h3⟩
  · rintro ⟨v, h1, h2⟩
    exact ⟨v, ((he v).2 h1).1, ((he v).2 h1).2, h2⟩

/-- C47: with a single component there are no constraints. -/
theorem C47_single_component (tv : Option K) (T : ℕ) : femConstraints tv 1 T = Py.ok none := rfl

/-- C47: a bound that is not a number is a TypeError. -/
theorem C47_not_a_number : maxTvConstraint (.other : NumArg K) = Py.raise .typeError := rfl

/-- Both sides of the equivalence occur: switching between two components at once has total variation
1, so it is admissible with bound 1 and without bound, and not with bound 1/2. -/
example : TvAdmissible (some 1) (!![1, 0; 0, 1] : Matrix (Fin 2) (Fin 2) ℚ) ∧
    TvAdmissible none (!![1, 0; 0, 1] : Matrix (Fin 2) (Fin 2) ℚ) ∧
    ¬ TvAdmissible (some (1 / 2)) (!![1, 0; 0, 1] : Matrix (Fin 2) (Fin 2) ℚ) := by
  have hr : RowStochastic (!![1, 0; 0, 1] : Matrix (Fin 2) (Fin 2) ℚ) := by
    intro t
    fin_cases t
    · refine ⟨fun i => ?_, by simp⟩
      fin_cases i <;> simp
    · refine ⟨fun i => ?_, by simp⟩
      fin_cases i <;> simp
  have e : ∀ i : Fin 2, totalVariation (fun t => (!![1, 0; 0, 1] : Matrix (Fin 2) (Fin 2) ℚ) t i) =
      1 := by
    intro i
    fin_cases i
    · change ∑ t : Fin 1, _ = _
      simp
    · change ∑ t : Fin 1, _ = _
      simp
  refine ⟨⟨hr, fun b hb i => ?_⟩, ⟨hr, fun b hb => by simp at hb⟩, fun h => ?_⟩
  · rw [e]
    rw [← Option.some.inj hb]
  · have := h.2 _ rfl 0
    rw [e] at this
    norm_num at this

/-! ### C48: weights -/

/-- C48.  With a solver that returns optimal solutions, a weights update with two or more components
never fails, whatever the state and the component model; the new weights are admissible, have the
least cost of all admissible weights, are the solver's (clipping does not change them), and nothing
else changes. -/
theorem C48_weights_update {P : Type} {T k : ℕ} (hk : 1 < k) (hT : 0 < T) {m : NumArg ℝ}
    (hm : m ≠ .other) (comp : FEMComp P T k ℝ) {solver : LPSolver ℝ} (hs : solver.Exact)
    (s : FEMState P T k ℝ) :
    ∃ tv con s', maxTvConstraint m = Py.ok tv ∧ TvBound m tv ∧
      femConstraints tv k T = Py.ok (some con) ∧
      s.updateWeights comp solver (e := auxParameters tv k T) (some con) = Py.ok (s', false) ∧
      s'.params = s.params ∧ TvAdmissible tv s'.Gamma ∧
      (∀ G, TvAdmissible tv G → assignmentCost s'.Gamma (comp.distance s.params) ≤
        assignmentCost G (comp.distance s.params)) ∧
      ∃ v : Fin (k * T + auxParameters tv k T) → ℝ,
        solver (weightsProgram con (comp.distance s.params)) = .value v ∧
        ∀ (t : Fin T) (i : Fin k), s'.Gamma t i = v ⟨t * k + i, weightIndex_lt t.2 i.2⟩ := by
  obtain ⟨tv, htv⟩ := maxTvConstraint_number hm
  obtain ⟨con, hcon, he⟩ := femConstraints_encodes tv hk hT
  obtain ⟨v, hv, hup, had, hle⟩ := updateWeights_exact (comp := comp) hk he hs s
    (leastExist_real (maxTvConstraint_nonneg htv) T k hk _)
  exact ⟨tv, con, _, htv, tvBound_of_ok htv, hcon, hup, rfl, had, hle, v, hv, fun t i => rfl⟩

/-- C48: the solver is never asked an infeasible or unbounded problem: for every matrix of distances
the program has an optimal solution. -/
theorem C48_program_solvable {T k : ℕ} (hk : 1 < k) (hT : 0 < T) {m : NumArg ℝ}
    (hm : m ≠ .other) (D : Matrix (Fin T) (Fin k) ℝ) :
    ∃ tv con, maxTvConstraint m = Py.ok tv ∧ femConstraints tv k T = Py.ok (some con) ∧
      ∃ v, (weightsProgram (e := auxParameters tv k T) con D).Optimal v := by
  obtain ⟨tv, htv⟩ := maxTvConstraint_number hm
  obtain ⟨con, hcon, he⟩ := femConstraints_encodes tv hk hT
  obtain ⟨G, hG, hle⟩ := exists_least_weights (T := T) (by omega) (maxTvConstraint_nonneg htv) D
  obtain ⟨v0, hv0, hv0G⟩ := (layout_iff tv G).2 hG
  refine ⟨tv, con, htv, hcon, v0, (he v0).2 hv0, fun w hw => ?_⟩
  have hw' : TvAdmissible tv (rawWeights (e := auxParameters tv k T) w) :=
    (layout_iff tv _).1 ⟨w, (he w).1 hw, fun _ _ => rfl⟩
  have hraw : rawWeights (e := auxParameters tv k T) v0 = G := by
    funext t i
    exact hv0G t i
  refine le_of_eq_of_le (lpObjective_sum (e := auxParameters tv k T) D v0)
    (le_of_le_of_eq ?_ (lpObjective_sum (e := auxParameters tv k T) D w).symm)
  change assignmentCost (rawWeights v0) D ≤ _
  rw [hraw]
  exact hle _ hw'

/-- C48: with one component the weights are never touched. -/
theorem C48_single_component {P : Type} {T e : ℕ} (comp : FEMComp P T 1 K) (solver : LPSolver K)
    (con : Option (FEMConstraints (1 * T + e) K)) (s : FEMState P T 1 K) :
    s.updateWeights comp solver con = Py.ok (s, false) := rfl

/-- C48: after every fit (or transform) of FEM-BV-k-means that updates the weights of two or more
components, whatever it started from, no weights update has failed, the weights are admissible and
have the least cost of all admissible weights for the final centroids. -/
theorem C48_fit {R : Rng ℝ} {solver : LPSolver ℝ} (hs : solver.Exact) {obj obj' : FEMKMeansObj R}
    {data : Arr2 ℝ} {args : FEMArgs ℝ} {info : FEMInfo ℝ} (hw : args.updateWeights = true)
    (h : femKMeansRun R solver obj data args = Py.ok (obj', info)) :
    ∃ (k : ℕ) (G : Matrix (Fin data.rows) (Fin k) ℝ) (Theta : Matrix (Fin k) (Fin data.cols) ℝ)
      (tv : Option ℝ), TvBound obj.maxTvNorm tv ∧
      obj'.Gamma = some (Arr2.of G) ∧ obj'.Theta = some (Arr2.of Theta) ∧ info.failures = 0 ∧
      (1 < k → TvAdmissible tv G ∧ ∀ G', TvAdmissible tv G' →
        assignmentCost G (fun t j => sqDist (fun d => data.val t d) (fun d => Theta j d)) ≤
        assignmentCost G' (fun t j => sqDist (fun d => data.val t d) (fun d => Theta j d))) := by
  obtain ⟨p, theta, gamma, tv, con, r, hp, -, -, htv, hcon, hr, hout⟩ := femKMeansRun_eq_ok h
  obtain ⟨-, -, -, hk, hm, -⟩ := checkParams_ok hp
  obtain ⟨h1, -, -⟩ := femIterate_good (kmeansLawful p.1 data.val) hk hs (femConstraints_for hcon)
    (leastExist_real (maxTvConstraint_nonneg htv) _ _) obj.require p.2.2 args.updateParameters
    args.updateWeights hm (femStartState data p.1 theta.1 gamma.1) trivial
  obtain ⟨hg, hf, -⟩ := h1 r hr
  rw [Prod.ext_iff] at hout
  obtain ⟨rfl, rfl⟩ := hout
  refine ⟨p.1, r.state.Gamma, r.state.params, tv, tvBound_of_ok htv, rfl, rfl, hf, fun hk1 =>
    ⟨hg.adm hw hk1, fun G' hG' => ?_⟩⟩
  exact le_of_eq_of_le hg.cost.symm (hg.least hw hk1 G' hG')

/-! ### C49: centroids -/

/-- C49.  If every component has non-zero total weight, the centroid update gives the weighted means;
for weights that are not negative these have the least cost of all centroids. -/
theorem C49_centroids {T D k : ℕ} (X : Matrix (Fin T) (Fin D) K) (G : Matrix (Fin T) (Fin k) K)
    (hG : ∀ j, ∑ t, G t j ≠ 0) (Theta : Matrix (Fin k) (Fin D) K) :
    ∃ Theta', kmeansUpdate X G Theta = Py.ok Theta' ∧
      (∀ j d, Theta' j d = (∑ t, G t j * X t d) / ∑ t, G t j) ∧
      ((∀ t j, 0 ≤ G t j) → ∀ Theta'' : Matrix (Fin k) (Fin D) K,
        ∑ t, ∑ j, G t j * sqDist (fun d => X t d) (fun d => Theta' j d) ≤
        ∑ t, ∑ j, G t j * sqDist (fun d => X t d) (fun d => Theta'' j d)) := by
  rcases kmeansUpdate_cases X G Theta with h | ⟨Theta', h⟩
  · exfalso
    unfold kmeansUpdate at h
    simp only at h
    rw [if_neg] at h
    · simp at h
    · rintro ⟨j, -, hj⟩
      exact hG j hj
  · refine ⟨Theta', h, fun j d => ?_, fun hn Theta'' => ?_⟩
    · exact congrFun (congrFun (kmeansUpdate_eq_ok h).2 j) d
    · exact kmeansCost_le h (fun j => Finset.sum_nonneg fun t _ => hn t j) Theta''

/-- C49: the minimum is attained only there: other centroids have a strictly larger cost. -/
theorem C49_unique {T D k : ℕ} (X : Matrix (Fin T) (Fin D) K) (G : Matrix (Fin T) (Fin k) K)
    (hG : ∀ j, 0 < ∑ t, G t j) (Theta Theta' Theta'' : Matrix (Fin k) (Fin D) K)
    (h : kmeansUpdate X G Theta = Py.ok Theta') (hne : Theta'' ≠ Theta') :
    ∑ t, ∑ j, G t j * sqDist (fun d => X t d) (fun d => Theta' j d) <
      ∑ t, ∑ j, G t j * sqDist (fun d => X t d) (fun d => Theta'' j d) := by
  have e := kmeansCost_mean h Theta''
  have hpos : 0 < ∑ j, (∑ t, G t j) * ∑ d, (Theta' j d - Theta'' j d) ^ 2 := by
    obtain ⟨j, hj⟩ : ∃ j, ∃ d, Theta'' j d ≠ Theta' j d := by
      by_contra hc
      push Not at hc
      exact hne (funext fun j => funext fun d => hc j d)
    obtain ⟨d, hd⟩ := hj
    refine Finset.sum_pos' (fun j _ => mul_nonneg (hG j).le
      (Finset.sum_nonneg fun d _ => sq_nonneg _)) ⟨j, Finset.mem_univ j, mul_pos (hG j) ?_⟩
    refine Finset.sum_pos' (fun d _ => sq_nonneg _) ⟨d, Finset.mem_univ d, ?_⟩
    exact lt_of_le_of_ne (sq_nonneg _) (Ne.symm (pow_ne_zero 2 (sub_ne_zero.2 hd.symm)))
  change assignmentCost G (kmeansDistance X Theta') < assignmentCost G (kmeansDistance X Theta'')
  linarith

/-- C49: a component without weight gives centroids that are not finite. -/
theorem C49_empty_component {T D k : ℕ} (X : Matrix (Fin T) (Fin D) K)
    (G : Matrix (Fin T) (Fin k) K) (j : Fin k) (hj : ∑ t, G t j = 0) (hD : 0 < D)
    (Theta : Matrix (Fin k) (Fin D) K) : kmeansUpdate X G Theta = Py.raise .nonFinite := by
  unfold kmeansUpdate
  exact if_pos ⟨j, ⟨0, hD⟩, hj⟩

/-- C49: that the weights are not negative is needed: custom initial weights need only have unit row
sums.  Here the second component has weights 2 and -3, its weighted mean is 3, and moving it away
lowers the cost. -/
theorem C49_negative_weights : ∃ (X : Matrix (Fin 2) (Fin 1) ℚ) (G : Matrix (Fin 2) (Fin 2) ℚ)
    (A B : Matrix (Fin 2) (Fin 1) ℚ), (∀ t, ∑ j, G t j = 1) ∧
    kmeansUpdate X G A = Py.ok A ∧
    ∑ t, ∑ j, G t j * sqDist (fun d => X t d) (fun d => B j d) <
      ∑ t, ∑ j, G t j * sqDist (fun d => X t d) (fun d => A j d) := by
  have hA : kmeansUpdate !![0; 1] !![-1, 2; 4, -3] !![4 / 3; 3] =
      Py.ok (!![4 / 3; 3] : Matrix (Fin 2) (Fin 1) ℚ) := by
    unfold kmeansUpdate
    simp only
    rw [if_neg]
    · congr 1
      ext j d
      fin_cases j <;> fin_cases d <;> simp [Fin.sum_univ_two] <;> norm_num
    · rintro ⟨j, -, hj⟩
      fin_cases j <;> simp [Fin.sum_univ_two] at hj <;> norm_num at hj
  refine ⟨!![0; 1], !![-1, 2; 4, -3], !![4 / 3; 3], !![4 / 3; 4], ?_, hA, ?_⟩
  · intro t
    fin_cases t <;> simp [Fin.sum_univ_two] <;> norm_num
  · simp [Fin.sum_univ_two, sqDist]
    norm_num

/-- The update at work: weights 1, 1/2 and 0, 1/2 of the samples 0, 3. -/
example : kmeansUpdate (!![0; 3] : Matrix (Fin 2) (Fin 1) ℚ) !![1, 0; 1 / 2, 1 / 2] 0 =
    Py.ok !![1; 3] := by
  unfold kmeansUpdate
  simp only
  rw [if_neg]
  · congr 1
    ext j d
    fin_cases j <;> fin_cases d <;> simp [Fin.sum_univ_two] <;> norm_num
  · rintro ⟨j, -, hj⟩
    fin_cases j <;> simp [Fin.sum_univ_two] at hj <;> norm_num at hj

/-! ### C50: the cost -/

/-- C50.  With an exact solver the monotonicity error never occurs, whatever the data, settings and
start; the costs at the ends of the iterations do not increase; the reported cost is the clustering
cost of the final weights and centroids. -/
theorem C50_costs_decrease {R : Rng ℝ} {solver : LPSolver ℝ} (hs : solver.Exact)
    (obj : FEMKMeansObj R) (data : Arr2 ℝ) (args : FEMArgs ℝ) :
    femKMeansRun R solver obj data args ≠ Py.raise .runtimeError ∧
    ∀ obj' info, femKMeansRun R solver obj data args = Py.ok (obj', info) →
      info.trace.Pairwise (· ≥ ·) ∧
      ∃ (k : ℕ) (G : Matrix (Fin data.rows) (Fin k) ℝ) (Theta : Matrix (Fin k) (Fin data.cols) ℝ),
        obj'.Gamma = some (Arr2.of G) ∧ obj'.Theta = some (Arr2.of Theta) ∧
        info.cost = ∑ t, ∑ j, G t j * sqDist (fun d => data.val t d) (fun d => Theta j d) := by
  constructor
  · intro h
    rw [femKMeansRun_eq] at h
    rcases Py.bind_eq_raise.1 h with h | ⟨p, hp, h⟩
    · by_cases hv : ValidParams (defaultComponents obj.nComponents data.cols) obj.maxIterations
          obj.tolerance
      · obtain ⟨p, hp, -⟩ := checkParams_valid hv
        rw [hp] at h
        simp at h
      · rw [checkParams_invalid hv] at h
        simp at h
    obtain ⟨-, -, -, hk, hm, -⟩ := checkParams_ok hp
    rcases Py.bind_eq_raise.1 h with h | ⟨theta, -, h⟩
    · exact kmeansInit_ne_runtime h
    rcases Py.bind_eq_raise.1 h with h | ⟨gamma, -, h⟩
    · exact femInitWeights_ne_runtime h
    rcases Py.bind_eq_raise.1 h with h | ⟨tv, htv, h⟩
    · cases hm : obj.maxTvNorm with
      | other => rw [hm] at h; simp [maxTvConstraint] at h
      | _ =>
        obtain ⟨tv, htv⟩ := maxTvConstraint_number (m := obj.maxTvNorm) (by simp [hm])
        rw [htv] at h
        simp at h
    rcases Py.bind_eq_raise.1 h with h | ⟨con, hcon, h⟩
    · exact femConstraints_ne_runtime h
    rcases Py.bind_eq_raise.1 h with h | ⟨r, -, h⟩
    · obtain ⟨-, h2, -⟩ := femIterate_good (kmeansLawful p.1 data.val) hk hs (femConstraints_for hcon)
        (leastExist_real (maxTvConstraint_nonneg htv) _ _) obj.require p.2.2 args.updateParameters
        args.updateWeights hm (femStartState data p.1 theta.1 gamma.1) trivial
      have := h2 _ h
      simp at this
    · simp at h
  · intro obj' info h
    obtain ⟨p, theta, gamma, tv, con, r, hp, -, -, htv, hcon, hr, hout⟩ := femKMeansRun_eq_ok h
    obtain ⟨-, -, -, hk, hm, -⟩ := checkParams_ok hp
    obtain ⟨h1, -, -⟩ := femIterate_good (kmeansLawful p.1 data.val) hk hs (femConstraints_for hcon)
      (leastExist_real (maxTvConstraint_nonneg htv) _ _) obj.require p.2.2 args.updateParameters
      args.updateWeights hm (femStartState data p.1 theta.1 gamma.1) trivial
    obtain ⟨hg, -, ht⟩ := h1 r hr
    rw [Prod.ext_iff] at hout
    obtain ⟨rfl, rfl⟩ := hout
    exact ⟨ht, p.1, r.state.Gamma, r.state.params, rfl, rfl, hg.cost⟩

/-- C50: from admissible weights (which every weights update leaves) neither update increases the
clustering cost, and the weights stay admissible. -/
theorem C50_each_update {T D k : ℕ} (hk : 1 < k) (hT : 0 < T) {m : NumArg ℝ} (hm : m ≠ .other)
    {solver : LPSolver ℝ} (hs : solver.Exact) (X : Matrix (Fin T) (Fin D) ℝ) :
    ∃ tv con, maxTvConstraint m = Py.ok tv ∧ TvBound m tv ∧
      femConstraints tv k T = Py.ok (some con) ∧
      ∀ s : FEMState (Matrix (Fin k) (Fin D) ℝ) T k ℝ, TvAdmissible tv s.Gamma →
        (∀ s', s.updateParameters (kmeansComp k X) = Py.ok s' → s'.Gamma = s.Gamma ∧
          ∑ t, ∑ j, s'.Gamma t j * sqDist (fun d => X t d) (fun d => s'.params j d) ≤
          ∑ t, ∑ j, s.Gamma t j * sqDist (fun d => X t d) (fun d => s.params j d)) ∧
        ∃ s', s.updateWeights (kmeansComp k X) solver (e := auxParameters tv k T) (some con) =
            Py.ok (s', false) ∧ s'.params = s.params ∧ TvAdmissible tv s'.Gamma ∧
          ∑ t, ∑ j, s'.Gamma t j * sqDist (fun d => X t d) (fun d => s'.params j d) ≤
          ∑ t, ∑ j, s.Gamma t j * sqDist (fun d => X t d) (fun d => s.params j d) := by
  obtain ⟨tv, htv⟩ := maxTvConstraint_number hm
  obtain ⟨con, hcon, he⟩ := femConstraints_encodes tv hk hT
  refine ⟨tv, con, htv, tvBound_of_ok htv, hcon, fun s had => ⟨fun s' h => ?_, ?_⟩⟩
  · obtain ⟨p, hp, h⟩ := Py.bind_eq_ok.1 h
    rw [Py.pure_eq] at h
    obtain rfl := Py.ok.inj h
    exact ⟨rfl, kmeansCost_le (Theta := s.params) hp (fun j => Finset.sum_nonneg fun t _ => (had.1 t).1 j) _⟩
  · obtain ⟨v, hv, hup, had', hle⟩ := updateWeights_exact (comp := kmeansComp k X) hk he hs s
      (leastExist_real (maxTvConstraint_nonneg htv) T k hk _)
    exact ⟨_, hup, rfl, had', hle _ had⟩

/-- Random starts succeed if no uniform draw is zero and there are enough samples. -/
theorem kmeansInit_succeeds {R : Rng K} (hR : R.Lawful) {T D k : ℕ} (hk : k ≤ T)
    (X : Matrix (Fin T) (Fin D) K) (parameters : Option (Arr2 K)) {init : Option String}
    (hi : init ≠ some "custom") (g : R.G) : ∃ r, kmeansInit R X k parameters init g = Py.ok r := by
  unfold kmeansInit
  rw [if_neg hi]
  simp only
  unfold kmeansRandom
  rw [if_neg (not_lt.2 hk)]
  obtain ⟨r, hr⟩ := rowIndices_succeeds (n := T) (k := k)
    (sel := (R.choice T k g).1.map fun i : ℕ => (i : ℤ)) (by simp [hR.choice_length T k g hk])
    (by
      intro s hs
      obtain ⟨i, hi, rfl⟩ := List.mem_map.1 hs
      have := hR.choice_lt T k g hk i hi
      omega)
  exact ⟨_, Py.bind_eq_ok.2 ⟨r, hr, rfl⟩⟩

/-- C50: every fit or transform from a random start, with acceptable settings, at least as many
samples as components and no zero among the draws, either returns or comes to a component without
weight; without updates of the centroids (as in `transform`) it always returns. -/
theorem C50_fit_returns {R : Rng ℝ} (hR : R.Lawful) (hpos : ∀ m n g i j, 0 < (R.uniform m n g).1 i j)
    {solver : LPSolver ℝ} (hs : solver.Exact) (obj : FEMKMeansObj R) (data : Arr2 ℝ)
    (args : FEMArgs ℝ) (hi : args.init ≠ some "custom") {k : ℕ}
    (hk : obj.nComponents = .int k ∨ obj.nComponents = .none ∧ k = data.cols) (hkT : k ≤ data.rows)
    (hv : ValidConfig obj.nComponents data.cols obj.maxIterations obj.tolerance)
    (hm : obj.maxTvNorm ≠ .other) :
    (∃ r, femKMeansRun R solver obj data args = Py.ok r) ∨
      args.updateParameters = true ∧
        femKMeansRun R solver obj data args = Py.raise .nonFinite := by
  rw [validConfig_iff] at hv
  obtain ⟨p, hp, hpk, -, hk0, hm0, -⟩ := checkParams_valid hv
  have hpk' : p.1 = k := by
    rcases hk with h | ⟨h, rfl⟩
    · rw [h] at hpk
      simpa [defaultComponents] using hpk.symm
    · rw [h] at hpk
      simpa [defaultComponents] using hpk.symm
  obtain ⟨theta, hth⟩ := kmeansInit_succeeds hR (k := p.1) (by omega) data.val args.parameters hi
    obj.randomState
  obtain ⟨gamma, hga⟩ : ∃ gamma, femInitWeights R data.rows p.1 args.weights args.init theta.2 =
      Py.ok gamma := by
    unfold femInitWeights
    rw [if_neg hi]
    exact rightStochastic_succeeds hpos hk0 _
  obtain ⟨tv, htv⟩ := maxTvConstraint_number hm
  obtain ⟨con, hcon⟩ : ∃ con, femConstraints tv p.1 data.rows = Py.ok con := by
    by_cases h1 : 1 < p.1
    · obtain ⟨c, hc, -⟩ := femConstraints_encodes (T := data.rows) tv h1 (by omega)
      exact ⟨_, hc⟩
    · exact ⟨none, if_neg h1⟩
  have hrun : femKMeansRun R solver obj data args =
      (femIterate (kmeansComp p.1 data.val) solver (e := auxParameters tv p.1 data.rows) con
        obj.require p.2.2 p.2.1 args.updateParameters args.updateWeights
        (femStartState data p.1 theta.1 gamma.1) >>= fun r =>
          Py.ok (femFinish obj data p gamma.2 r)) := by
    rw [femKMeansRun_eq]
    simp only [hp, hth, hga, htv, hcon, Py.ok_bind]
  have hgood := femIterate_good (kmeansLawful p.1 data.val) hk0 hs (femConstraints_for hcon)
    (leastExist_real (maxTvConstraint_nonneg htv) _ _) obj.require p.2.2 args.updateParameters
    args.updateWeights hm0 (femStartState data p.1 theta.1 gamma.1) trivial
  rw [hrun]
  cases hit : femIterate (kmeansComp p.1 data.val) solver (e := auxParameters tv p.1 data.rows) con
        obj.require p.2.2 p.2.1 args.updateParameters args.updateWeights
        (femStartState data p.1 theta.1 gamma.1) with
  | ok r => exact Or.inl ⟨_, rfl⟩
  | diverge => exact absurd hit hgood.2.2
  | raise e =>
    obtain ⟨rfl, hup⟩ := hgood.2.1 e hit
    exact Or.inr ⟨hup, rfl⟩

/-! ### C51: transform -/

/-- `fit_transform` and `transform` of objects with the same settings and generator state. -/
def SameSettings {R : Rng K} (a b : FEMKMeansObj R) : Prop :=
  a.nComponents = b.nComponents ∧ a.maxTvNorm = b.maxTvNorm ∧ a.maxIterations = b.maxIterations ∧
    a.tolerance = b.tolerance ∧ a.randomState = b.randomState ∧ a.require = b.require

/-- C51.  `transform` does not depend on what was fitted before: with the same settings and
generator state, two objects with any fitted centroids and weights (or none) give the same outcome,
the same weights and report, and have the same centroids, weights and generator state
afterwards. -/
theorem C51_transform_ignores_fit {R : Rng K} (solver : LPSolver K) {a b : FEMKMeansObj R}
    (h : SameSettings a b) (data : Arr2 K) :
    PyRel (fun x y => x.2 = y.2 ∧ x.1.Theta = y.1.Theta ∧ x.1.Gamma = y.1.Gamma ∧
        SameSettings x.1 y.1)
      (femKMeansTransform R solver a data) (femKMeansTransform R solver b data) := by
  obtain ⟨h1, h2, h3, h4, h5, h6⟩ := h
  unfold femKMeansTransform
  simp only [femKMeansRun_eq, h1, h2, h3, h4, h5, h6, Py.bind_assoc]
  refine PyRel.bind_same fun p => PyRel.bind_same fun th => PyRel.bind_same fun ga =>
    PyRel.bind_same fun tv => PyRel.bind_same fun con => PyRel.bind_same fun r => ?_
  refine PyRel.ok ⟨rfl, rfl, rfl, ?_, h2, h3, h4, rfl, h6⟩
  change defaultComponents a.nComponents _ = defaultComponents b.nComponents _
  rw [h1]

/-- C51: the centroids after `transform` are distinct rows of the new data, drawn at random. -/
theorem C51_transform_overwrites {R : Rng K} (hR : R.Lawful) (solver : LPSolver K)
    (obj obj' : FEMKMeansObj R) (data : Arr2 K) (G : Option (Arr2 K)) (info : FEMInfo K)
    (h : femKMeansTransform R solver obj data = Py.ok (obj', G, info)) :
    ∃ (k : ℕ) (rows : Fin k → Fin data.rows), Function.Injective rows ∧
      (List.finRange k).map (fun j => ((rows j : ℕ))) = (R.choice data.rows k obj.randomState).1 ∧
      obj'.Theta = some (Arr2.of fun (j : Fin k) d => data.val (rows j) d) := by
  unfold femKMeansTransform at h
  obtain ⟨⟨o, i⟩, hrun, h⟩ := Py.bind_eq_ok.1 h
  rw [Py.pure_eq] at h
  have hout := Py.ok.inj h
  simp only [Prod.mk.injEq] at hout
  obtain ⟨rfl, -, -⟩ := hout
  obtain ⟨p, theta, gamma, tv, con, r, hp, hth, -, htv, hcon, hr, hout⟩ := femKMeansRun_eq_ok hrun
  rw [Prod.ext_iff] at hout
  obtain ⟨rfl, -⟩ := hout
  have hth' : kmeansRandom R data.val p.1 obj.randomState = Py.ok theta := hth
  unfold kmeansRandom at hth'
  by_cases c : data.rows < p.1
  · rw [if_pos c] at hth'
    simp at hth'
  · rw [if_neg c] at hth'
    obtain ⟨rows, hrows, hth'⟩ := Py.bind_eq_ok.1 hth'
    rw [Py.pure_eq] at hth'
    have e := rowIndices_ok (by simp [hR.choice_length _ _ _ (not_lt.1 c)])
      (by
        intro s hs
        obtain ⟨i, -, rfl⟩ := List.mem_map.1 hs
        exact Int.natCast_nonneg i) hrows
    have e' : (List.finRange p.1).map (fun j => ((rows j : ℕ))) =
        (R.choice data.rows p.1 obj.randomState).1 := by
      have hinj : Function.Injective (fun i : ℕ => (i : ℤ)) := Nat.cast_injective
      refine List.map_injective_iff.2 hinj ?_
      rw [e, List.map_map]
      rfl
    refine ⟨p.1, rows, ?_, e', ?_⟩
    · have hn := hR.choice_nodup data.rows p.1 obj.randomState (not_lt.1 c)
      rw [← e'] at hn
      intro i j hij
      exact List.inj_on_of_nodup_map hn (List.mem_finRange i) (List.mem_finRange j)
        (congrArg Fin.val hij)
    · have hpar : r.state.params = theta.1 :=
        femLoop_params (kmeansComp p.1 data.val) solver con obj.require p.2.2 true _ _ _ _ _ _ r hr
      change some (Arr2.of r.state.params) = _
      rw [hpar, ← Py.ok.inj hth']

/-! ### C52: the initialisation chosen in the constructor -/

/-- C52.  Unless `init='custom'` is passed to `fit_transform` itself, supplied parameters and weights
and the `init` of the constructor have no effect on the outcome. -/
theorem C52_constructor_init_ignored {R : Rng K} (solver : LPSolver K) (obj : FEMKMeansObj R)
    (data : Arr2 K) (args : FEMArgs K) (hi : args.init ≠ some "custom") (P W : Option (Arr2 K))
    (i : Option String) :
    PyRel (fun x y => x.2 = y.2 ∧ x.1 = { y.1 with init := obj.init })
      (femKMeansFitTransform R solver obj data args)
      (femKMeansFitTransform R solver { obj with init := i } data
        { args with parameters := P, weights := W }) := by
  unfold femKMeansFitTransform
  have e1 : ∀ k g, kmeansInit R data.val k args.parameters args.init g =
      kmeansInit R data.val k P args.init g := by
    intro k g
    unfold kmeansInit
    rw [if_neg hi, if_neg hi]
  have e2 : ∀ k g, femInitWeights R data.rows k args.weights args.init g =
      femInitWeights R data.rows k W args.init g := by
    intro k g
    unfold femInitWeights
    rw [if_neg hi, if_neg hi]
  simp only [femKMeansRun_eq, e1, e2, Py.bind_assoc]
  refine PyRel.bind_same fun p => PyRel.bind_same fun th => PyRel.bind_same fun ga =>
    PyRel.bind_same fun tv => PyRel.bind_same fun con => PyRel.bind_same fun r => ?_
  exact PyRel.ok ⟨rfl, rfl⟩

/-- C52: with `init='custom'` passed to `fit_transform` they are used: the parameters must have the
right shape. -/
theorem C52_custom_is_used {R : Rng K} (solver : LPSolver K) (obj : FEMKMeansObj R)
    (data : Arr2 K) (args : FEMArgs K) (hi : args.init = some "custom") {P : Arr2 K}
    (hP : args.parameters = some P) (r : FEMKMeansObj R × Option (Arr2 K) × FEMInfo K)
    (h : femKMeansFitTransform R solver obj data args = Py.ok r) : P.cols = data.cols := by
  unfold femKMeansFitTransform at h
  obtain ⟨o, hrun, -⟩ := Py.bind_eq_ok.1 h
  obtain ⟨p, theta, gamma, tv, con, r, hp, hth, -, htv, hcon, hr, hout⟩ := femKMeansRun_eq_ok hrun
  unfold kmeansInit at hth
  rw [hi, if_pos rfl, hP] at hth
  obtain ⟨A, hA, -⟩ := Py.bind_eq_ok.1 hth
  unfold kmeansCheckParameters at hA
  obtain ⟨B, hB, hA⟩ := Py.bind_eq_ok.1 hA
  obtain ⟨hB', -, -⟩ := checkArray_ok hB
  obtain rfl := Option.some.inj hB'
  unfold checkArrayShape at hA
  by_cases c : P.rows = p.1 ∧ P.cols = data.cols
  · exact c.2
  · rw [dif_neg c] at hA
    simp at hA

/-! ### C22, C24 -/

/-- C22.  The reported number of iterations is below the maximum, and the warning is never
issued. -/
theorem C22_fembv_no_warning {R : Rng K} {solver : LPSolver K} {obj obj' : FEMKMeansObj R}
    {data : Arr2 K} {args : FEMArgs K} {info : FEMInfo K}
    (h : femKMeansRun R solver obj data args = Py.ok (obj', info)) :
    info.warned = false ∧ ∃ m : ℕ, obj.maxIterations = .int m ∧ info.nIter < m := by
  obtain ⟨p, theta, gamma, tv, con, r, hp, -, -, htv, hcon, hr, hout⟩ := femKMeansRun_eq_ok h
  rw [Prod.ext_iff] at hout
  obtain ⟨-, rfl⟩ := hout
  have := femIterate_nIter hr
  refine ⟨?_, p.2.1, (checkParams_ok hp).2.2.1, this⟩
  change decide (r.nIter = p.2.1 ∧ p.2.2 > 0) = false
  simp only [decide_eq_false_iff_not, not_and]
  intro h
  omega

/-- C22 for `fit_transform`. -/
theorem C22_fembv_fit {R : Rng K} {solver : LPSolver K} {obj obj' : FEMKMeansObj R}
    {data : Arr2 K} {args : FEMArgs K} {G : Option (Arr2 K)} {info : FEMInfo K}
    (h : femKMeansFitTransform R solver obj data args = Py.ok (obj', G, info)) :
    info.warned = false ∧ ∃ m n : ℕ, obj.maxIterations = .int m ∧ obj'.nIter_ = some n ∧ n < m := by
  unfold femKMeansFitTransform at h
  obtain ⟨⟨o, i⟩, hrun, h⟩ := Py.bind_eq_ok.1 h
  rw [Py.pure_eq] at h
  have hout := Py.ok.inj h
  simp only [Prod.mk.injEq] at hout
  obtain ⟨rfl, -, rfl⟩ := hout
  obtain ⟨ha, m, hm, hlt⟩ := C22_fembv_no_warning hrun
  exact ⟨ha, m, _, hm, rfl, hlt⟩

/-- C24.  With an invalid configuration every fit and transform raises ValueError, whatever the data
and the other arguments. -/
theorem C24_fembv_invalid_rejected {R : Rng K} (solver : LPSolver K) (obj : FEMKMeansObj R)
    (data : Arr2 K) (args : FEMArgs K)
    (hv : ¬ ValidConfig obj.nComponents data.cols obj.maxIterations obj.tolerance) :
    femKMeansFitTransform R solver obj data args = Py.raise .valueError ∧
    femKMeansTransform R solver obj data = Py.raise .valueError := by
  rw [validConfig_iff] at hv
  unfold femKMeansFitTransform femKMeansTransform
  simp only [femKMeansRun_eq, checkParams_invalid hv, Py.raise_bind, and_self]

/-- C24.  With a valid configuration, at least as many samples as components and a random start, a
fit never raises ValueError, if the solver does not. -/
theorem C24_fembv_valid_accepted {R : Rng K} {solver : LPSolver K}
    (hs : ∀ lp, solver lp ≠ .error .valueError) (obj : FEMKMeansObj R)
    (data : Arr2 K) (args : FEMArgs K) (hi : args.init ≠ some "custom") {k : ℕ}
    (hk : obj.nComponents = .int k ∨ obj.nComponents = .none ∧ k = data.cols) (hkT : k ≤ data.rows)
    (hv : ValidConfig obj.nComponents data.cols obj.maxIterations obj.tolerance) :
    femKMeansFitTransform R solver obj data args ≠ Py.raise .valueError := by
  intro h
  unfold femKMeansFitTransform at h
  rcases Py.bind_eq_raise.1 h with h | ⟨_, _, h⟩
  swap
  · simp at h
  rw [validConfig_iff] at hv
  obtain ⟨p, hp, hpk, -, hk0, hm0, -⟩ := checkParams_valid hv
  have hpk' : p.1 = k := by
    rcases hk with h | ⟨h, rfl⟩
    · rw [h] at hpk
      simpa [defaultComponents] using hpk.symm
    · rw [h] at hpk
      simpa [defaultComponents] using hpk.symm
  rw [femKMeansRun_eq, hp, Py.ok_bind] at h
  rcases Py.bind_eq_raise.1 h with h | ⟨theta, _, h⟩
  · unfold kmeansInit at h
    rw [if_neg hi] at h
    rcases kmeansRandom_raise h with ⟨h, -⟩ | ⟨-, h⟩
    · omega
    · simp at h
  rcases Py.bind_eq_raise.1 h with h | ⟨gamma, _, h⟩
  · unfold femInitWeights at h
    rw [if_neg hi] at h
    have := rightStochastic_raise h
    simp at this
  rcases Py.bind_eq_raise.1 h with h | ⟨tv, _, h⟩
  · cases hm : obj.maxTvNorm with
    | other => rw [hm] at h; simp [maxTvConstraint] at h
    | _ =>
      obtain ⟨tv, htv⟩ := maxTvConstraint_number (m := obj.maxTvNorm) (by simp [hm])
      rw [htv] at h
      simp at h
  rcases Py.bind_eq_raise.1 h with h | ⟨con, hcon, h⟩
  · by_cases h1 : 1 < p.1
    · obtain ⟨c, hc, -⟩ := femConstraints_encodes (T := data.rows) tv h1 (by omega)
      rw [hc] at h
      simp at h
    · unfold femConstraints at h
      rw [if_neg h1] at h
      simp at h
  rcases Py.bind_eq_raise.1 h with h | ⟨r, _, h⟩
  · exact femLoop_ne_valueError (fun G p => kmeansUpdate_ne_valueError data.val G p) hs _ _ _ _ _ _ h
  · simp at h

/-- C24: fewer samples than components are rejected as well, unless centroids are supplied. -/
theorem C24_fembv_too_few_samples {R : Rng K} (solver : LPSolver K) (obj : FEMKMeansObj R)
    (data : Arr2 K) (args : FEMArgs K) (hi : args.init ≠ some "custom") {k : ℕ}
    (hk : obj.nComponents = .int k ∨ obj.nComponents = .none ∧ k = data.cols) (hkT : data.rows < k) :
    femKMeansFitTransform R solver obj data args = Py.raise .valueError := by
  by_cases hv : ValidConfig obj.nComponents data.cols obj.maxIterations obj.tolerance
  · rw [validConfig_iff] at hv
    obtain ⟨p, hp, hpk, -, hk0, hm0, -⟩ := checkParams_valid hv
    have hpk' : p.1 = k := by
      rcases hk with h | ⟨h, rfl⟩
      · rw [h] at hpk
        simpa [defaultComponents] using hpk.symm
      · rw [h] at hpk
        simpa [defaultComponents] using hpk.symm
    have e : kmeansInit R data.val p.1 args.parameters args.init obj.randomState =
        Py.raise .valueError := by
      unfold kmeansInit
      rw [if_neg hi]
      exact if_pos (by omega)
    unfold femKMeansFitTransform
    rw [femKMeansRun_eq, hp, Py.ok_bind, e]
    rfl
  · exact (C24_fembv_invalid_rejected solver obj data args hv).1

/-- C24.  The number of components of a fitted model is the configured one, or the number of features
if that was None. -/
theorem C24_fembv_components {R : Rng K} (solver : LPSolver K) {obj obj' : FEMKMeansObj R}
    {data : Arr2 K} {args : FEMArgs K} {G : Option (Arr2 K)} {info : FEMInfo K}
    (h : femKMeansFitTransform R solver obj data args = Py.ok (obj', G, info)) :
    ∃ (k : ℕ) (W S : Arr2 K), obj'.nComponents_ = some k ∧ obj'.nComponents = .int k ∧
      (obj.nComponents = .int k ∨ obj.nComponents = .none ∧ k = data.cols) ∧
      G = some W ∧ obj'.Gamma = some W ∧ obj'.Theta = some S ∧ W.rows = data.rows ∧ W.cols = k ∧
      S.rows = k ∧ S.cols = data.cols := by
  unfold femKMeansFitTransform at h
  obtain ⟨⟨o, i⟩, hrun, h⟩ := Py.bind_eq_ok.1 h
  rw [Py.pure_eq] at h
  have hout := Py.ok.inj h
  simp only [Prod.mk.injEq] at hout
  obtain ⟨rfl, rfl, rfl⟩ := hout
  obtain ⟨p, theta, gamma, tv, con, r, hp, -, -, htv, hcon, hr, hout⟩ := femKMeansRun_eq_ok hrun
  rw [Prod.ext_iff] at hout
  obtain ⟨rfl, -⟩ := hout
  have hc := (checkParams_ok hp).2.1
  exact ⟨p.1, _, _, rfl, hc, defaultComponents_eq_int hc, rfl, rfl, rfl, rfl, rfl, rfl, rfl⟩

/-! ### Examples -/

/-- A generator over the reals, as `demoRng`. -/
def demoRngReal : Rng ℝ where
  G := ℕ
  ofSeed := fun s => s
  uniform := fun _ _ g => (fun i j => (((i : ℕ) + 2 * (j : ℕ) + g + 1 : ℕ) : ℝ), g + 1)
  randn := fun _ _ g => (fun i j => ((i : ℕ) : ℝ) - ((j : ℕ) : ℝ) * (g : ℝ), g + 1)
  randint := fun n g => (g % n, g + 1)
  choice := fun _ k g => (List.range k, g + 1)

theorem demoRngReal_lawful : demoRngReal.Lawful where
  uniform_nonneg := by intro m n g i j; exact Nat.cast_nonneg _
  randint_lt := fun n g h => Nat.mod_lt _ h
  choice_length := by intro n k g h; simp [demoRngReal]
  choice_nodup := by intro n k g h; exact List.nodup_range
  choice_lt := by intro n k g h i hi; simp [demoRngReal] at hi; omega

/-- Two components, total variation at most 1/2. -/
noncomputable def demoFEM : FEMKMeansObj demoRngReal where
  nComponents := .int 2
  maxTvNorm := .real (1 / 2)
  init := none
  maxIterations := .int 5
  tolerance := .real (1 / 100)
  randomState := (0 : ℕ)
  require := true

/-- Three samples with one feature. -/
noncomputable def demoFEMData : Arr2 ℝ := Arr2.of (!![0; 1; 5] : Matrix (Fin 3) (Fin 1) ℝ)

theorem demoFEM_valid : ValidConfig demoFEM.nComponents demoFEMData.cols demoFEM.maxIterations
    demoFEM.tolerance :=
  ⟨Or.inr ⟨2, rfl, by norm_num⟩, ⟨5, rfl, by norm_num⟩, Or.inr ⟨1 / 100, rfl, by norm_num⟩⟩

/-- A transform of the example returns, for any exact solver (and there is one). -/
theorem demoFEM_transform {solver : LPSolver ℝ} (hs : solver.Exact) :
    ∃ r, femKMeansRun demoRngReal solver demoFEM demoFEMData
      { updateParameters := false, updateWeights := true } = Py.ok r := by
  rcases C50_fit_returns demoRngReal_lawful
    (fun m n g i j => Nat.cast_pos.2 (Nat.succ_pos _)) hs demoFEM demoFEMData
    { updateParameters := false, updateWeights := true } (by simp) (k := 2) (Or.inl rfl)
    (by simp [demoFEMData, Arr2.of]) demoFEM_valid (by simp [demoFEM]) with h | ⟨h, -⟩
  · exact h
  · simp at h

/-- C22, C48 and C50 at work: the weights of the example are admissible, with total variation at
most 1/2; costs do not increase. -/
example : ∃ (G : Matrix (Fin 3) (Fin 2) ℝ) (costs : List ℝ), TvAdmissible (some (1 / 2)) G ∧
    costs.Pairwise (· ≥ ·) := by
  obtain ⟨solver, hs⟩ := exists_exact_solver (K := ℝ)
  obtain ⟨⟨o, i⟩, h⟩ := demoFEM_transform hs
  obtain ⟨p, theta, gamma, tv, con, r, hp, -, -, htv, hcon, hr, hout⟩ := femKMeansRun_eq_ok h
  obtain ⟨-, hpk, -⟩ := checkParams_ok hp
  have hk : p.1 = 2 := by
    have : (2 : ℤ) = (p.1 : ℤ) := NumArg.int.inj hpk
    exact_mod_cast this.symm
  obtain ⟨k, G, Theta, tv', hb, hG, -, -, hadm⟩ := C48_fit hs rfl h
  have hk' : k = 2 := by
    rw [Prod.ext_iff] at hout
    obtain ⟨rfl, -⟩ := hout
    have := congrArg (fun a : Option (Arr2 ℝ) => a.map Arr2.cols) hG
    have : p.1 = k := Option.some.inj this
    omega
  have ht : tv' = some (1 / 2) := (hb _).2 ⟨by norm_num, Or.inl rfl⟩
  subst hk' ht
  exact ⟨G, i.trace, (hadm (by norm_num)).1, ((C50_costs_decrease hs _ _ _).2 _ _ h).1⟩

/-- C51 at work: any fitted centroids of the example object are replaced by the first rows. -/
example (A : Option (Arr2 ℝ)) : ∃ (o : FEMKMeansObj demoRngReal) (k : ℕ)
    (rows : Fin k → Fin 3), Function.Injective rows ∧
    o.Theta = some (Arr2.of fun (j : Fin k) d => demoFEMData.val (rows j) d) := by
  obtain ⟨solver, hs⟩ := exists_exact_solver (K := ℝ)
  obtain ⟨⟨o, i⟩, h⟩ := demoFEM_transform hs
  have h' : femKMeansTransform demoRngReal solver demoFEM demoFEMData =
      Py.ok (o, o.Gamma, i) := Py.bind_eq_ok.2 ⟨_, h, rfl⟩
  have hsame : SameSettings demoFEM { demoFEM with Theta := A } := ⟨rfl, rfl, rfl, rfl, rfl, rfl⟩
  have hrel := C51_transform_ignores_fit solver hsame demoFEMData
  rw [h'] at hrel
  cases h2 : femKMeansTransform demoRngReal solver { demoFEM with Theta := A } demoFEMData with
  | ok q =>
    obtain ⟨k, rows, hi, -, ht⟩ := C51_transform_overwrites demoRngReal_lawful solver _ q.1 demoFEMData
      q.2.1 q.2.2 h2
    exact ⟨q.1, k, rows, hi, ht⟩
  | raise e => rw [h2] at hrel; exact hrel.elim
  | diverge => rw [h2] at hrel; exact hrel.elim

/-- Hypotheses of C52 and C24: default arguments do not say `init='custom'`. -/
example : ({} : FEMArgs ℚ).init ≠ some "custom" := by simp

end Reor
