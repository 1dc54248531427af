import Verif.Props.FEMBounds
import Verif.Props.PWVARX
import Verif.Proofs.DTypesFEM

/-!
What becomes of FEM-BV and piecewise VARX fits of integer data (C90-C92).
-/

set_option linter.unusedSectionVars false

namespace Reor

open scoped BigOperators
open Spec

/-! ### C90: FEM-BV-k-means -/

section KMeans

variable {K : Type} [Field K] [LinearOrder K] [IsStrictOrderedRing K] [FloorRing K]

/-- C90.  For floating point data the dtypes change nothing. -/
theorem C90_fembv_floating_point (R : Rng K) (solver : LPSolver K) (obj : FEMKMeansObj R)
    (data : Arr2 K) (args : FEMArgs K) :
    femKMeansRunT R solver obj .float data args = femKMeansRun R solver obj data args ∧
      femKMeansTransformT R solver obj .float data = femKMeansTransform R solver obj data :=
  ⟨rfl, rfl⟩

theorem Py.bind_congr {α β : Type} {x : Py α} {f g : α → Py β}
    (h : ∀ a, x = Py.ok a → f a = g a) : (x >>= f) = (x >>= g) := by
  cases x with
  | ok a => exact h a rfl
  | raise e => rfl
  | diverge => rfl

theorem Py.bind_left {α β : Type} {x y : Py α} (h : x = y) (f : α → Py β) :
    (x >>= f) = (y >>= f) := by
  rw [h]

/-- Distances between integer vectors are integers. -/
theorem kmeansDistanceT_int {T D k : ℕ} {X : Matrix (Fin T) (Fin D) K} {Theta : Matrix (Fin k) (Fin D) K}
    (hX : ∀ t d, ∃ z : ℤ, X t d = z) (hTh : ∀ j d, ∃ z : ℤ, Theta j d = z) :
    kmeansDistanceT .int X Theta = kmeansDistance X Theta := by
  choose x hx using hX
  choose y hy using hTh
  funext t j
  show truncateInt (∑ d, (X t d - Theta j d) ^ 2) = ∑ d, (X t d - Theta j d) ^ 2
  have : ∑ d, (X t d - Theta j d) ^ 2 = ((∑ d, (x t d - y j d) ^ 2 : ℤ) : K) := by
    push_cast
    exact Finset.sum_congr rfl fun d _ => by rw [hx, hy]
  rw [this, truncateInt_intCast]

/-- The centroids a fit starts from are integers if the data and the given centroids are. -/
theorem kmeansInit_int {R : Rng K} {T D k : ℕ} {X : Matrix (Fin T) (Fin D) K}
    {parameters : Option (Arr2 K)} {init : Option String} {g : R.G}
    {theta : Matrix (Fin k) (Fin D) K × R.G} (hX : ∀ t d, ∃ z : ℤ, X t d = z)
    (hP : init = some "custom" → ∀ P, parameters = some P → ∀ j d, ∃ z : ℤ, P.val j d = z)
    (h : kmeansInit R X k parameters init g = Py.ok theta) :
    ∀ j d, ∃ z : ℤ, theta.1 j d = z := by
  unfold kmeansInit at h
  split at h
  · rename_i P hPs
    have hc : init = some "custom" ∧ parameters = some P := by
      by_cases c : init = some "custom"
      · rw [if_pos c] at hPs
        exact ⟨c, hPs⟩
      · rw [if_neg c] at hPs
        simp at hPs
    obtain ⟨Th, hTh, h⟩ := Py.bind_eq_ok.1 h
    obtain rfl := Py.ok.inj h
    unfold kmeansCheckParameters at hTh
    obtain ⟨A, hA, hTh'⟩ := Py.bind_eq_ok.1 hTh
    have hAP : A = P := by
      unfold checkArray at hA
      split at hA
      · simp at hA
      · rename_i heq
        obtain rfl := Option.some.inj heq
        split at hA <;> simp at hA
        exact hA.symm
    subst hAP
    unfold checkArrayShape at hTh'
    split at hTh'
    · obtain rfl := Py.ok.inj hTh'
      intro j d
      exact hP hc.1 _ hc.2 _ _
    · simp at hTh'
  · unfold kmeansRandom at h
    split at h
    · simp at h
    · obtain ⟨rows, -, h⟩ := Py.bind_eq_ok.1 h
      obtain rfl := Py.ok.inj h
      exact fun j d => hX _ _

/-- C90.  A fit of integer data that does not update the centroids, in particular every `transform`, is
the fit of the same numbers as floating point data: centroids drawn from the data, or given integer
centroids, have integer distances to the data. -/
theorem C90_fembv_fixed_centroids_unaffected {R : Rng K} {solver : LPSolver K} {obj : FEMKMeansObj R}
    {data : Arr2 K} {args : FEMArgs K} (hX : ∀ t d, ∃ z : ℤ, data.val t d = z)
    (hup : args.updateParameters = false)
    (hP : args.init = some "custom" → ∀ P, args.parameters = some P →
      ∀ j d, ∃ z : ℤ, P.val j d = z) :
    femKMeansRunT R solver obj .int data args = femKMeansRun R solver obj data args := by
  unfold femKMeansRunT femKMeansRun
  simp only [hup]
  refine Py.bind_congr fun p _ => Py.bind_congr fun theta hth => Py.bind_congr fun gamma _ =>
    Py.bind_congr fun tv _ => Py.bind_congr fun con _ => ?_
  have hd : (kmeansCompT .int p.1 data.val).distance theta.1 =
      (kmeansComp p.1 data.val).distance theta.1 :=
    kmeansDistanceT_int hX (kmeansInit_int hX hP hth)
  have e : ∀ (con' : Option (FEMConstraints (p.1 * data.rows + auxParameters tv p.1 data.rows) K)),
      femIterate (kmeansCompT .int p.1 data.val) solver con' obj.require p.2.2 p.2.1 false
        args.updateWeights
        ⟨gamma.1, theta.1, (kmeansCompT .int p.1 data.val).distance theta.1⟩ =
      femIterate (kmeansComp p.1 data.val) solver con' obj.require p.2.2 p.2.1 false
        args.updateWeights ⟨gamma.1, theta.1, (kmeansComp p.1 data.val).distance theta.1⟩ := by
    intro con'
    rw [hd]
    exact femIterate_congr hd
  exact Py.bind_left (e con) _

theorem C90_fembv_transform_unaffected {R : Rng K} {solver : LPSolver K} {obj : FEMKMeansObj R}
    {data : Arr2 K} (hX : ∀ t d, ∃ z : ℤ, data.val t d = z) :
    femKMeansTransformT R solver obj .int data = femKMeansTransform R solver obj data := by
  unfold femKMeansTransformT femKMeansTransform
  rw [C90_fembv_fixed_centroids_unaffected hX rfl fun h => by simp at h]

end KMeans

/-- C90.  The cost reported by a fit of integer data is computed from distances rounded down.  If the
weights are probabilities it is not above the cost of the reported weights and centroids, and it falls
short of it by less than the number of samples.  Weights updated for two or more components are optimal
for the rounded distances: the true cost of any other admissible weights is lower by less than the
number of samples. -/
theorem C90_fembv_integer_cost {R : Rng ℝ} {solver : LPSolver ℝ} (hs : solver.Exact)
    {obj obj' : FEMKMeansObj R} {data : Arr2 ℝ} {args : FEMArgs ℝ} {info : FEMInfo ℝ}
    (h : femKMeansRunT R solver obj .int data args = Py.ok (obj', info)) :
    ∃ (k : ℕ) (G : Matrix (Fin data.rows) (Fin k) ℝ) (Theta : Matrix (Fin k) (Fin data.cols) ℝ),
      obj'.nComponents = .int k ∧ obj'.Gamma = some (Arr2.of G) ∧ obj'.Theta = some (Arr2.of Theta) ∧
      info.cost = ∑ t, ∑ j,
        G t j * (⌊sqDist (fun d => data.val t d) (fun d => Theta j d)⌋ : ℝ) ∧
      (RowStochastic G → 0 < data.rows →
        info.cost ≤ ∑ t, ∑ j, G t j * sqDist (fun d => data.val t d) (fun d => Theta j d) ∧
        ∑ t, ∑ j, G t j * sqDist (fun d => data.val t d) (fun d => Theta j d) <
          info.cost + data.rows) ∧
      (args.updateWeights = true → 1 < k → ∃ tv, TvBound obj.maxTvNorm tv ∧ TvAdmissible tv G ∧
        ∀ G', TvAdmissible tv G' →
          info.cost ≤ ∑ t, ∑ j,
            G' t j * (⌊sqDist (fun d => data.val t d) (fun d => Theta j d)⌋ : ℝ) ∧
          ∑ t, ∑ j, G t j * sqDist (fun d => data.val t d) (fun d => Theta j d) <
            ∑ t, ∑ j, G' t j * sqDist (fun d => data.val t d) (fun d => Theta j d) + data.rows) := by
  obtain ⟨p, theta, gamma, tv, con, r, hp, -, -, htv, hcon, hr, hout⟩ := femKMeansRunT_eq_ok h
  obtain ⟨-, hc, -, hk, hm, -⟩ := checkParams_ok hp
  have hg := femIterate_reported (I := fun _ => True) (fun _ _ _ _ _ => trivial) hk hs
    (femConstraints_for hcon) (leastExist_real (maxTvConstraint_nonneg htv) _ _) trivial hr
  rw [Prod.ext_iff] at hout
  obtain ⟨rfl, rfl⟩ := hout
  have hnn : ∀ (Theta : Matrix (Fin p.1) (Fin data.cols) ℝ) t j, 0 ≤ kmeansDistance data.val Theta t j :=
    fun Theta t j => Finset.sum_nonneg fun d _ => sq_nonneg _
  have hfl : ∀ (G : Matrix (Fin data.rows) (Fin p.1) ℝ),
      assignmentCost G ((kmeansCompT .int p.1 data.val).distance r.state.params) =
      ∑ t, ∑ j, G t j * (⌊sqDist (fun d => data.val t d) (fun d => r.state.params j d)⌋ : ℝ) := by
    intro G
    refine Finset.sum_congr rfl fun t _ => Finset.sum_congr rfl fun j _ => ?_
    exact congrArg (G t j * ·) (truncateInt_of_nonneg (hnn _ t j))
  have hcost : r.cost = assignmentCost r.state.Gamma
      (DType.int.storeMat (kmeansDistance data.val r.state.params)) := hg.cost
  refine ⟨p.1, r.state.Gamma, r.state.params, hc, rfl, rfl, hg.cost.trans (hfl _), ?_, ?_⟩
  · intro hG hT
    obtain ⟨h1, h2⟩ := assignmentCost_truncated hT hG (hnn r.state.params)
    rw [← hcost] at h1 h2
    exact ⟨h1, h2⟩
  · intro hw hk1
    have hT : 0 < data.rows := femConstraints_rows hk1 hcon
    refine ⟨tv, tvBound_of_ok htv, hg.adm hw hk1, fun G' hG' => ⟨?_, ?_⟩⟩
    · exact (hg.least hw hk1 G' hG').trans_eq (hfl G')
    · have h1 := (assignmentCost_truncated hT (hg.adm hw hk1).1 (hnn r.state.params)).2
      have h2 := (assignmentCost_truncated hT hG'.1 (hnn r.state.params)).1
      have h3 : r.cost ≤ assignmentCost G'
        (DType.int.storeMat (kmeansDistance data.val r.state.params)) := hg.least hw hk1 G' hG'
      rw [← hcost] at h1
      show assignmentCost r.state.Gamma (kmeansDistance data.val r.state.params) <
        assignmentCost G' (kmeansDistance data.val r.state.params) + data.rows
      linarith

/-! The fit of integer data may be refused although the same fit of floating point data is not. -/

/-- Two components without a bound. -/
noncomputable def demoFEMInt (tol : ℝ) : FEMKMeansObj demoRngReal where
  nComponents := .int 2
  maxTvNorm := .none
  init := none
  maxIterations := .int 5
  tolerance := .real tol
  randomState := (0 : ℕ)
  require := true

/-- The samples 0, 2 and 4. -/
noncomputable def demoIntX : Matrix (Fin 3) (Fin 1) ℝ := !![0; 2; 4]

/-- The weights the fit starts from. -/
noncomputable def demoIntG : Matrix (Fin 3) (Fin 2) ℝ := !![1, 0; 9 / 11, 2 / 11; 0, 1]

/-- The weights after one iteration. -/
noncomputable def demoIntG1 : Matrix (Fin 3) (Fin 2) ℝ := !![1, 0; 1, 0; 0, 1]

theorem demoIntG_stochastic : RowStochastic demoIntG := by
  intro t
  refine ⟨fun j => ?_, ?_⟩
  · fin_cases t <;> fin_cases j <;> norm_num [demoIntG]
  · rw [Fin.sum_univ_two]
    fin_cases t <;> norm_num [demoIntG]

theorem demoIntG1_stochastic : RowStochastic demoIntG1 := by
  intro t
  refine ⟨fun j => ?_, ?_⟩
  · fin_cases t <;> fin_cases j <;> norm_num [demoIntG1]
  · rw [Fin.sum_univ_two]
    fin_cases t <;> norm_num [demoIntG1]

theorem demoInt_distance {a b : ℝ} {z : Matrix (Fin 3) (Fin 2) ℤ}
    (h0 : ∀ t, (z t 0 : ℝ) ≤ (demoIntX t 0 - a) ^ 2 ∧ (demoIntX t 0 - a) ^ 2 < z t 0 + 1)
    (h1 : ∀ t, (z t 1 : ℝ) ≤ (demoIntX t 0 - b) ^ 2 ∧ (demoIntX t 0 - b) ^ 2 < z t 1 + 1) :
    kmeansDistanceT .int demoIntX !![a; b] = fun t j => (z t j : ℝ) := by
  funext t j
  show truncateInt (∑ d : Fin 1, (demoIntX t d - (!![a; b] : Matrix (Fin 2) (Fin 1) ℝ) j d) ^ 2) = z t j
  rw [Fin.sum_univ_one, truncateInt_of_nonneg (sq_nonneg _)]
  congr 1
  rw [Int.floor_eq_iff]
  fin_cases j
  · exact h0 t
  · exact h1 t

theorem demoInt_checks (tol : ℝ) (htol : 0 < tol) :
    checkParams (defaultComponents (demoFEMInt tol).nComponents 1)
      (demoFEMInt tol).maxIterations (demoFEMInt tol).tolerance = Py.ok ((2, 5, tol) : ℕ × ℕ × ℝ) ∧
    femInitWeights demoRngReal 3 2 (some (Arr2.of demoIntG)) (some "custom")
      (demoFEMInt tol).randomState = Py.ok (demoIntG, (demoFEMInt tol).randomState) := by
  constructor
  · simp [demoFEMInt, defaultComponents, checkParams, htol.le]
  have hw : checkUnitRowSums demoIntG = Py.ok () := by
    refine if_pos fun t => ?_
    have : ∑ j, demoIntG t j = 1 := (demoIntG_stochastic t).2
    rw [iscloseOne, this]
    norm_num
  have h' : femCheckInitWeights (Arr2.of demoIntG) 3 2 = Py.ok demoIntG := by
    unfold femCheckInitWeights
    rw [show checkArray (some (Arr2.of demoIntG)) = Py.ok (Arr2.of demoIntG) from rfl,
      Py.ok_bind, show checkArrayShape (Arr2.of demoIntG) 3 2 = Py.ok demoIntG from rfl,
      Py.ok_bind, hw]
    rfl
  unfold femInitWeights
  rw [if_pos rfl]
  simp only [h', Py.ok_bind]
  rfl

/-- The first iteration: the cost decreases from 4 to 1. -/
theorem demoInt_step {solver : LPSolver ℝ} (hs : solver.Exact)
    {con : FEMConstraints (weightParameters (none : Option ℝ) 2 3) ℝ} (henc : con.Encodes)
    (require : Bool) (tol : ℝ) :
    femStep (kmeansCompT .int 2 demoIntX) solver (e := auxParameters (none : Option ℝ) 2 3) (some con)
      require tol true true 0 ⟨demoIntG, !![0; 4], kmeansDistanceT .int demoIntX !![0; 4]⟩ 4 =
      Py.ok ((⟨demoIntG1, !![9 / 10; 48 / 13],
        kmeansDistanceT .int demoIntX !![9 / 10; 48 / 13]⟩, 1), false) := by
  have hu1 : kmeansUpdate demoIntX demoIntG !![0; 4] =
      Py.ok (!![9 / 10; 48 / 13] : Matrix (Fin 2) (Fin 1) ℝ) := by
    unfold kmeansUpdate
    simp only
    rw [if_neg]
    · congr 1
      funext j d
      rw [show d = 0 from Subsingleton.elim d 0]
      fin_cases j <;> simp [Fin.sum_univ_three, demoIntG, demoIntX] <;> norm_num
    · rintro ⟨j, -, hj⟩
      fin_cases j <;> simp [Fin.sum_univ_three, demoIntG] at hj <;> norm_num at hj
  have hd1 := demoInt_distance (a := 9 / 10) (b := 48 / 13) (z := !![0, 13; 1, 2; 9, 0])
    (by intro t; fin_cases t <;> norm_num [demoIntX]) (by intro t; fin_cases t <;> norm_num [demoIntX])
  have hC : ConstraintsFor (none : Option ℝ) 3 2 (some con) := fun _ => ⟨con, rfl, henc⟩
  have hL : LeastExist (none : Option ℝ) 3 2 := leastExist_real (by simp) _ _
  obtain ⟨G, hG, hGe⟩ := femWeightsPhase_eq (by norm_num) (kmeansCompT .int 2 demoIntX) hs hC hL
    require tol 0 ⟨demoIntG, !![9 / 10; 48 / 13],
      kmeansDistanceT .int demoIntX !![9 / 10; 48 / 13]⟩ 4
  have hG1 : G = demoIntG1 := by
    have h1 := hG.admissible (by norm_num)
    have h2 := hG.least (by norm_num) demoIntG1 ⟨demoIntG1_stochastic, by simp⟩
    have h2' : assignmentCost G (kmeansDistanceT .int demoIntX !![9 / 10; 48 / 13]) ≤
      assignmentCost demoIntG1 (kmeansDistanceT .int demoIntX !![9 / 10; 48 / 13]) := h2
    rw [hd1] at h2'
    have hs0 := (h1.1 0).2
    have hs1 := (h1.1 1).2
    have hs2 := (h1.1 2).2
    have hn := fun t => (h1.1 t).1
    rw [Fin.sum_univ_two] at hs0 hs1 hs2
    have hn1 := hn 0 1
    have hn2 := hn 1 1
    have hn3 := hn 2 0
    simp [assignmentCost, Fin.sum_univ_three, demoIntG1] at h2'
    funext t j
    fin_cases t <;> fin_cases j <;> simp [demoIntG1] <;> linarith
  subst hG1
  have hc1 : assignmentCost demoIntG1 (kmeansDistanceT .int demoIntX !![9 / 10; 48 / 13]) = 1 := by
    rw [hd1]
    simp [assignmentCost, Fin.sum_univ_three, demoIntG1]
  unfold femStep
  simp only [femParametersPhase_eq]
  rw [show (kmeansCompT .int 2 demoIntX).update demoIntG !![0; 4] =
    Py.ok !![9 / 10; 48 / 13] from hu1, Py.ok_bind, femCheck_zero, Py.ok_bind, Py.ok_bind]
  rw [femCheck_zero, Py.ok_bind] at hGe
  refine hGe.trans ?_
  rw [show (kmeansCompT .int 2 demoIntX).distance !![9 / 10; 48 / 13] =
    kmeansDistanceT .int demoIntX !![9 / 10; 48 / 13] from rfl, hc1]

theorem demoInt_start : (⟨demoIntG, !![0; 4], kmeansDistanceT .int demoIntX !![0; 4]⟩ :
    FEMState _ 3 2 ℝ).evaluateCost (kmeansCompT .int 2 demoIntX) =
    (⟨demoIntG, !![0; 4], kmeansDistanceT .int demoIntX !![0; 4]⟩, 4) := by
  have hd0 := demoInt_distance (a := 0) (b := 4) (z := !![0, 16; 4, 4; 16, 0])
    (by intro t; fin_cases t <;> norm_num [demoIntX]) (by intro t; fin_cases t <;> norm_num [demoIntX])
  have hc0 : assignmentCost demoIntG (kmeansDistanceT .int demoIntX !![0; 4]) = 4 := by
    rw [hd0]
    simp [assignmentCost, Fin.sum_univ_three, demoIntG]
    norm_num
  exact Prod.ext rfl hc0

/-- Arguments of the fit: the centroids 0 and 4 and the weights above. -/
noncomputable def demoIntArgs : FEMArgs ℝ where
  parameters := some (Arr2.of (!![0; 4] : Matrix (Fin 2) (Fin 1) ℝ))
  weights := some (Arr2.of demoIntG)
  init := some "custom"

/-- C90.  For every exact solver this fit of integer data fails with a RuntimeError that the cost
increased (from 1 to 2 in the second iteration), which cannot happen if the same numbers are floating
point data. -/
theorem C90_fembv_integer_fit_refused {solver : LPSolver ℝ} (hs : solver.Exact) :
    femKMeansRunT demoRngReal solver (demoFEMInt (1 / 100)) .int (Arr2.of demoIntX) demoIntArgs =
      Py.raise .runtimeError ∧
    femKMeansRun demoRngReal solver (demoFEMInt (1 / 100)) (Arr2.of demoIntX) demoIntArgs ≠
      Py.raise .runtimeError := by
  refine ⟨?_, (C50_costs_decrease hs _ _ _).1⟩
  obtain ⟨hp, hw'⟩ := demoInt_checks (1 / 100) (by norm_num)
  obtain ⟨con, hcon, henc⟩ := femConstraints_encodes (K := ℝ) (k := 2) (T := 3) none (by norm_num)
    (by norm_num)
  have hu2 : kmeansUpdate demoIntX demoIntG1 !![9 / 10; 48 / 13] =
      Py.ok (!![1; 4] : Matrix (Fin 2) (Fin 1) ℝ) := by
    unfold kmeansUpdate
    simp only
    rw [if_neg]
    · congr 1
      funext j d
      rw [show d = 0 from Subsingleton.elim d 0]
      fin_cases j <;> simp [Fin.sum_univ_three, demoIntG1, demoIntX] <;> norm_num
    · rintro ⟨j, -, hj⟩
      fin_cases j <;> simp [Fin.sum_univ_three, demoIntG1] at hj <;> norm_num at hj
  have hd2 := demoInt_distance (a := 1) (b := 4) (z := !![1, 16; 1, 4; 9, 0])
    (by intro t; fin_cases t <;> norm_num [demoIntX]) (by intro t; fin_cases t <;> norm_num [demoIntX])
  have hc2 : assignmentCost demoIntG1 (kmeansDistanceT .int demoIntX !![1; 4]) = 2 := by
    rw [hd2]
    simp [assignmentCost, Fin.sum_univ_three, demoIntG1]
    norm_num
  have step2 : femStep (kmeansCompT .int 2 demoIntX) solver (e := auxParameters none 2 3) (some con)
      true (1 / 100 : ℝ) true true 1
      ⟨demoIntG1, !![9 / 10; 48 / 13], kmeansDistanceT .int demoIntX !![9 / 10; 48 / 13]⟩ 1 =
      Py.raise .runtimeError := by
    unfold femStep
    simp only [femParametersPhase_eq]
    rw [show (kmeansCompT .int 2 demoIntX).update demoIntG1 !![9 / 10; 48 / 13] =
      Py.ok !![1; 4] from hu2, Py.ok_bind,
      show (kmeansCompT .int 2 demoIntX).distance !![1; 4] =
        kmeansDistanceT .int demoIntX !![1; 4] from rfl, hc2]
    rw [show femCheck true (1 / 100 : ℝ) 1 1 2 = Py.raise .runtimeError from
      if_pos ⟨by norm_num, rfl, by norm_num, by norm_num⟩]
    rfl
  have hiter : femIterate (kmeansCompT .int 2 demoIntX) solver (e := auxParameters none 2 3) (some con)
      true (1 / 100) 5 true true
      ⟨demoIntG, !![0; 4], kmeansDistanceT .int demoIntX !![0; 4]⟩ = Py.raise .runtimeError := by
    unfold femIterate
    rw [show List.range 5 = 0 :: 1 :: [2, 3, 4] from rfl]
    simp only [demoInt_start]
    rw [femLoop_cons, demoInt_step hs henc, Py.ok_bind]
    simp only
    rw [if_neg (by norm_num), femLoop_cons, step2]
    rfl
  unfold femKMeansRunT
  exact Py.bind_eq_raise.2 (Or.inr ⟨_, hp, Py.bind_eq_raise.2 (Or.inr ⟨_, rfl,
    Py.bind_eq_raise.2 (Or.inr ⟨_, hw', Py.bind_eq_raise.2 (Or.inr ⟨none, rfl,
      Py.bind_eq_raise.2 (Or.inr ⟨_, hcon, Py.bind_eq_raise.2 (Or.inl hiter)⟩)⟩)⟩)⟩)⟩)

/-- C90.  The same fit with a larger tolerance returns after one iteration and reports the cost 1, less
than half the cost of the weights and centroids it reports. -/
theorem C90_fembv_integer_cost_understated {solver : LPSolver ℝ} (hs : solver.Exact) :
    ∃ (obj' : FEMKMeansObj demoRngReal) (info : FEMInfo ℝ) (G : Matrix (Fin 3) (Fin 2) ℝ)
      (Theta : Matrix (Fin 2) (Fin 1) ℝ),
      femKMeansRunT demoRngReal solver (demoFEMInt 10) .int (Arr2.of demoIntX) demoIntArgs =
        Py.ok (obj', info) ∧
      obj'.Gamma = some (Arr2.of G) ∧ obj'.Theta = some (Arr2.of Theta) ∧ RowStochastic G ∧
      info.cost = 1 ∧
      2 < ∑ t, ∑ j, G t j * sqDist (fun d => demoIntX t d) (fun d => Theta j d) := by
  obtain ⟨hp, hw'⟩ := demoInt_checks 10 (by norm_num)
  obtain ⟨con, hcon, henc⟩ := femConstraints_encodes (K := ℝ) (k := 2) (T := 3) none (by norm_num)
    (by norm_num)
  have hiter : femIterate (kmeansCompT .int 2 demoIntX) solver (e := auxParameters none 2 3) (some con)
      true 10 5 true true
      ⟨demoIntG, !![0; 4], kmeansDistanceT .int demoIntX !![0; 4]⟩ =
      Py.ok ⟨⟨demoIntG1, !![9 / 10; 48 / 13],
        kmeansDistanceT .int demoIntX !![9 / 10; 48 / 13]⟩, 1, 0, [1], 0⟩ := by
    unfold femIterate
    rw [show List.range 5 = 0 :: 1 :: [2, 3, 4] from rfl]
    simp only [demoInt_start]
    rw [femLoop_cons, demoInt_step hs henc, Py.ok_bind]
    simp only
    rw [if_pos (by norm_num)]
    rfl
  have hrun : femKMeansRunT demoRngReal solver (demoFEMInt 10) .int (Arr2.of demoIntX) demoIntArgs =
      Py.ok (femFinish (demoFEMInt 10) (Arr2.of demoIntX) (2, 5, 10) (demoFEMInt 10).randomState
        ⟨⟨demoIntG1, !![9 / 10; 48 / 13],
          kmeansDistanceT .int demoIntX !![9 / 10; 48 / 13]⟩, 1, 0, [1], 0⟩) := by
    unfold femKMeansRunT
    exact Py.bind_eq_ok.2 ⟨_, hp, Py.bind_eq_ok.2 ⟨_, rfl, Py.bind_eq_ok.2 ⟨_, hw',
      Py.bind_eq_ok.2 ⟨none, rfl, Py.bind_eq_ok.2 ⟨_, hcon, Py.bind_eq_ok.2 ⟨_, hiter, rfl⟩⟩⟩⟩⟩⟩
  refine ⟨_, _, demoIntG1, !![9 / 10; 48 / 13], hrun, rfl, rfl, demoIntG1_stochastic, rfl, ?_⟩
  simp [Fin.sum_univ_three, demoIntG1, sqDist, demoIntX]
  norm_num

/-- Hypotheses of C90: integer data, and a transform of them that returns. -/
example : ∃ (solver : LPSolver ℝ) (r : FEMKMeansObj demoRngReal × FEMInfo ℝ), solver.Exact ∧
    (∀ t d, ∃ z : ℤ, demoFEMData.val t d = z) ∧
    femKMeansRunT demoRngReal solver demoFEM .int demoFEMData
      { updateParameters := false, updateWeights := true } = Py.ok r := by
  obtain ⟨solver, hs⟩ := exists_exact_solver (K := ℝ)
  obtain ⟨r, h⟩ := demoFEM_transform hs
  have hX : ∀ t d, ∃ z : ℤ, demoFEMData.val t d = z := by
    intro t d
    change Fin 3 at t
    change Fin 1 at d
    rw [show d = 0 from Subsingleton.elim _ _]
    fin_cases t
    · exact ⟨0, by simp [demoFEMData, Arr2.of]⟩
    · exact ⟨1, by simp [demoFEMData, Arr2.of]⟩
    · exact ⟨5, by simp [demoFEMData, Arr2.of]⟩
  exact ⟨solver, r, hs, hX, (C90_fembv_fixed_centroids_unaffected hX rfl fun h => by simp at h).trans h⟩

/-! ### C91: FEM-BV-VARX -/

section VARX

variable {R : Rng ℝ} {solver : LPSolver ℝ} {lstsq : LstSq} {mem : Memory}

/-- C91.  For floating point data the dtypes change nothing. -/
theorem C91_varx_floating_point (obj : FEMVARXObj R) (data : Arr2 ℝ) (args : FEMVARXArgs) :
    femVARXRunT R solver lstsq mem obj .float data args =
      femVARXRun R solver lstsq mem obj data args := by
  obtain ⟨w, i, init, up, uw, u⟩ := args
  cases u <;> rfl

/-- C91.  The local models of integer data have the coefficients of the floating point ones, whatever
the weights; the residuals, from which covariances and distances are computed, are those of the floating
point model without their fractional parts. -/
theorem C91_varx_integer_local_model {D E : ℕ} {m : VARXModel D E} {w : Option (Σ l : ℕ, Fin l → ℝ)}
    {f g : VARXFit m} (hf : m.fitT .int lstsq w = Py.ok f) (hg : m.fit lstsq w = Py.ok g) :
    f.mu = g.mu ∧ f.A = g.A ∧ f.B = g.B ∧ f.B0 = g.B0 ∧
      ∀ t d, ∃ z : ℤ, f.residuals t d = z ∧ |f.residuals t d| ≤ |g.residuals t d| ∧
        |g.residuals t d - f.residuals t d| < 1 := by
  have key : ∃ params, f.FromT .int params ∧ g.From params := by
    cases w with
    | none =>
      obtain ⟨p, hp, h1⟩ := fitPlainT_eq_ok hf
      obtain ⟨p', hp', h2⟩ := fitPlain_eq_ok hg
      rw [hp] at hp'
      obtain rfl := Py.ok.inj hp'
      exact ⟨p, h1, h2⟩
    | some w =>
      unfold VARXModel.fitT at hf
      unfold VARXModel.fit at hg
      simp only at hf hg
      by_cases hn : m.n = w.1
      · rw [dif_pos hn] at hf hg
        obtain ⟨p, hp, h1⟩ := fitWeightedT_eq_ok hf
        obtain ⟨-, p', hp', h2⟩ := fitWeighted_eq_ok hg
        rw [hp] at hp'
        obtain rfl := Py.ok.inj hp'
        exact ⟨p, h1, h2⟩
      · rw [dif_neg hn] at hf
        simp at hf
  obtain ⟨p, h1, h2⟩ := key
  refine ⟨h1.mu.trans h2.mu.symm, h1.A.trans h2.A.symm, h1.B.trans h2.B.symm,
    h1.B0.trans h2.B0.symm, fun t d => ?_⟩
  have e : f.residuals t d = truncateInt (g.residuals t d) := by
    rw [h1.residuals, h2.residuals]
    rfl
  rw [e]
  obtain ⟨z, hz⟩ := truncateInt_int (g.residuals t d)
  exact ⟨z, hz, abs_truncateInt_le _, abs_sub_truncateInt_lt _⟩

/-- Positive draws of two or more components give random weights strictly between zero and one. -/
theorem rightStochastic_between (hpos : ∀ m n g i j, 0 < (R.uniform m n g).1 i j) {T k : ℕ}
    (hk : 1 < k) {g : R.G} {r : Matrix (Fin T) (Fin k) ℝ × R.G}
    (h : rightStochasticMatrix R T k g = Py.ok r) (t : Fin T) (i : Fin k) : |r.1 t i| < 1 := by
  unfold rightStochasticMatrix at h
  simp only at h
  split_ifs at h with hz
  rw [← Py.ok.inj h]
  have hp := hpos T k g t
  have hsum : 0 < ∑ j, (R.uniform T k g).1 t j :=
    Finset.sum_pos (fun j _ => hp j) ⟨i, Finset.mem_univ _⟩
  have hlt : (R.uniform T k g).1 t i < ∑ j, (R.uniform T k g).1 t j := by
    obtain ⟨j, hj⟩ : ∃ j : Fin k, j ≠ i := by
      by_cases hi : (i : ℕ) = 0
      · exact ⟨⟨1, hk⟩, fun h => by rw [← h] at hi; simp at hi⟩
      · exact ⟨⟨0, by omega⟩, fun h => hi (by rw [← h])⟩
    exact Finset.single_lt_sum hj (Finset.mem_univ _) (Finset.mem_univ _) (hp j) fun l _ _ => (hp l).le
  show |(R.uniform T k g).1 t i / ∑ j, (R.uniform T k g).1 t j| < 1
  rw [abs_of_pos (div_pos (hp i) hsum), div_lt_one hsum]
  exact hlt

variable {obj : FEMVARXObj R} {data : Arr2 ℝ} {args : FEMVARXArgs}

/-- A fit of integer data does not return from starting weights that are below one for a component. -/
theorem femVARXRunT_small (hup : args.updateParameters = true)
    (hw : ∀ T g gamma, femInitWeights R T obj.memory.length args.weights args.init g = Py.ok gamma →
      ∃ i, ∀ t, |gamma.1 t i| < 1)
    (r : FEMVARXObj R × FEMInfo ℝ) : femVARXRunT R solver lstsq mem obj .int data args ≠ Py.ok r := by
  intro h
  obtain ⟨⟨k, n, tol⟩, hl, start, q, hp, hst, hq, -⟩ := femVARXRunT_eq_ok h
  obtain ⟨-, -, -, -, hm, -⟩ := checkParams_ok hp
  obtain ⟨-, hmod, -⟩ := varxInitT_eq_ok hst
  obtain ⟨gamma, tv, con, hg, -, -, hit, -⟩ := femVARXIterateT_eq_ok hq
  simp only at hl
  subst hl
  obtain ⟨i, hi⟩ := hw _ _ _ hg
  obtain ⟨-, -, hs, -, -, hD, -⟩ := varxInit_model (hmod i)
  rw [hup] at hit
  exact femIterate_not_ok hm (fun p => varxUpdateT_not_ok hD hs hi _ p) _ hit

/-- C91.  A fit of integer data with two or more components that starts from random weights and updates
the parameters never returns: the weights are below one, and as integers they are zero. -/
theorem C91_varx_integer_random_start_fails (hpos : ∀ m n g i j, 0 < (R.uniform m n g).1 i j)
    (hk : 1 < obj.memory.length) (hup : args.updateParameters = true)
    (hw : args.init = some "custom" → args.weights = none) (r : FEMVARXObj R × FEMInfo ℝ) :
    femVARXRunT R solver lstsq mem obj .int data args ≠ Py.ok r := by
  refine femVARXRunT_small hup (fun T g gamma hg => ⟨⟨0, by omega⟩, fun t => ?_⟩) r
  unfold femInitWeights at hg
  have e : (if args.init = some "custom" then args.weights else none) = none := by
    split_ifs with c
    · exact hw c
    · rfl
  rw [e] at hg
  exact rightStochastic_between hpos hk hg t _

/-- Given weights are used as they are. -/
theorem femInitWeights_custom {T k : ℕ} {W : Arr2 ℝ} {g : R.G} {gamma : Matrix (Fin T) (Fin k) ℝ × R.G}
    (h : femInitWeights R T k (some W) (some "custom") g = Py.ok gamma)
    (hsmall : ∃ j, ∀ t, |W.val t j| < 1) : ∃ i, ∀ t, |gamma.1 t i| < 1 := by
  unfold femInitWeights at h
  rw [if_pos rfl] at h
  simp only at h
  obtain ⟨V, hV, h⟩ := Py.bind_eq_ok.1 h
  obtain rfl := Py.ok.inj h
  unfold femCheckInitWeights at hV
  obtain ⟨B, hB, hV⟩ := Py.bind_eq_ok.1 hV
  obtain ⟨hB, -⟩ := checkArray_ok hB
  obtain rfl := Option.some.inj hB
  obtain ⟨V', hV', hV⟩ := Py.bind_eq_ok.1 hV
  obtain ⟨_, -, hV⟩ := Py.bind_eq_ok.1 hV
  obtain rfl := Py.ok.inj hV
  obtain ⟨m, n, W⟩ := W
  unfold checkArrayShape at hV'
  split_ifs at hV' with c
  obtain ⟨c1, c2⟩ := c
  simp only at c1 c2
  subst c1
  subst c2
  obtain rfl := Py.ok.inj hV'
  exact hsmall

/-- C91.  The same holds for given weights that are below one for some component at all times. -/
theorem C91_varx_integer_custom_start_fails {W : Arr2 ℝ} (hi : args.init = some "custom")
    (hw : args.weights = some W) (hup : args.updateParameters = true)
    (hsmall : ∃ j, ∀ t, |W.val t j| < 1) (r : FEMVARXObj R × FEMInfo ℝ) :
    femVARXRunT R solver lstsq mem obj .int data args ≠ Py.ok r := by
  refine femVARXRunT_small hup (fun T g gamma hg => ?_) r
  rw [hi, hw] at hg
  exact femInitWeights_custom hg hsmall

/-- C91.  Numbers of a fit of integer data that returns are integers: intercepts, coefficients of earlier
values, and coefficients of external factors. -/
theorem C91_varx_integer_parameters (hs : solver.Exact) {obj' : FEMVARXObj R} {info : FEMInfo ℝ}
    (h : femVARXRunT R solver lstsq mem obj .int data args = Py.ok (obj', info)) :
    (∃ mu, obj'.mu = some mu ∧ ∀ i d, ∃ z : ℤ, mu.val i d = z) ∧
    (0 < maxMemory obj.memory → ∃ A, obj'.A = some A ∧ ∀ i l a b, ∃ z : ℤ, A.val i l a b = z) ∧
    (args.externalFactors.isSome → ∃ B0, obj'.B0 = some B0 ∧ ∀ i a b, ∃ z : ℤ, B0.val i a b = z) := by
  obtain ⟨p, hl, start, q, hp, hst, hq, hout⟩ := femVARXRunT_eq_ok h
  obtain ⟨-, -, -, hk, -⟩ := checkParams_ok hp
  obtain ⟨hL, -, -, h1, h2, h3⟩ := varxInitT_eq_ok hst
  obtain ⟨gamma, tv, con, -, htv, hcon, hit, -⟩ := femVARXIterateT_eq_ok hq
  have h0 : IntegerParams start.params :=
    ⟨fun i d => ⟨0, by rw [h1]; simp⟩, fun i l a b => ⟨0, by rw [h2]; simp⟩,
      fun i a b => ⟨0, by rw [h3]; simp⟩⟩
  have hr := (femIterate_reported (I := IntegerParams)
    (fun G p p' hp hu => varxUpdateT_integer hp hu) hk hs (femConstraints_for hcon)
    (leastExist_real (maxTvConstraint_nonneg htv) _ _) h0 hit).inv
  obtain ⟨rfl, -⟩ := Prod.ext_iff.1 hout
  refine ⟨⟨_, rfl, hr.mu⟩, fun hL' => ?_, fun hu => ?_⟩
  · have hL0 : start.L > 0 := by omega
    exact ⟨_, if_pos hL0, hr.A⟩
  · exact ⟨_, if_pos hu, hr.B0⟩

/-- C91.  With equal memories, where the set-up and the least-squares routine succeed, the error is
LinAlgError. -/
theorem C91_varx_integer_random_start_error (hpos : ∀ m n g i j, 0 < (R.uniform m n g).1 i j)
    (htot : ∀ m n r a b, ∃ x, lstsq m n r a b = Py.ok x)
    (hk : 1 < obj.memory.length) {L : ℤ} (hmem : ∀ a ∈ obj.memory, a = L)
    (hup : args.updateParameters = true) (hw : args.init = some "custom" → args.weights = none)
    {r : FEMVARXObj R × FEMInfo ℝ}
    (h : femVARXRunT R solver lstsq mem obj .int data
      { args with updateParameters := false, updateWeights := false } = Py.ok r) :
    femVARXRunT R solver lstsq mem obj .int data args = Py.raise .linAlgError := by
  obtain ⟨⟨k, n, tol⟩, hl, start, q, hp, hst, hq, -⟩ := femVARXRunT_eq_ok h
  obtain ⟨-, -, -, hk0, hm, -⟩ := checkParams_ok hp
  obtain ⟨hL, hmod, -⟩ := varxInitT_eq_ok hst
  obtain ⟨gamma, tv, con, hg, htv, hcon, -, -⟩ := femVARXIterateT_eq_ok hq
  simp only at hl hk0
  subst hl
  have hne : obj.memory ≠ [] := fun h => by simp [h] at hk
  have hmax : maxMemory obj.memory = L := hmem _ (maxMemory_spec hne).1
  have hD : 0 < data.cols := (varxInit_model (hmod ⟨0, hk0⟩)).2.2.2.2.2.1
  have hsmall : ∀ t i, |gamma.1 t i| < 1 := by
    intro t i
    unfold femInitWeights at hg
    have e : (if args.init = some "custom" then args.weights else none) = none := by
      split_ifs with c
      · exact hw c
      · rfl
    simp only [e] at hg
    exact rightStochastic_between hpos hk hg t _
  have hup' : varxUpdateT .int lstsq gamma.1 start.params = Py.raise .linAlgError := by
    refine varxUpdateT_raise hk0 hD (fun i => (varxInit_model (hmod i)).2.2.1) (fun i => ?_) hsmall htot _
    obtain ⟨h1, h2, -, h4, -⟩ := varxInit_model (hmod i)
    have := hmem _ (List.get_mem obj.memory i)
    have e : obj.memory.get (Fin.cast rfl i) = L := this
    rw [e] at h1 h2
    rw [hmax] at h1 hL
    simp at h1
    omega
  rw [femVARXRunT_eq]
  refine Py.bind_eq_raise.2 (Or.inr ⟨_, hp, ?_⟩)
  rw [dif_pos rfl]
  refine Py.bind_eq_raise.2 (Or.inr ⟨start, hst, ?_⟩)
  refine Py.bind_eq_raise.2 (Or.inl ?_)
  unfold femVARXIterateT
  refine Py.bind_eq_raise.2 (Or.inr ⟨_, hg, ?_⟩)
  refine Py.bind_eq_raise.2 (Or.inr ⟨_, htv, ?_⟩)
  refine Py.bind_eq_raise.2 (Or.inr ⟨_, hcon, ?_⟩)
  refine Py.bind_eq_raise.2 (Or.inl ?_)
  rw [hup]
  exact femIterate_raise hm hup'

end VARX

/-! A series of two samples: the intercept 3/2 is reported as 1, the residuals 3/2 count as 1. -/

section VARXDemo

variable {solver : LPSolver ℝ} {lstsq : LstSq} {mem : Memory}

/-- Two integer samples. -/
def demoTwo : Matrix (Fin 2) (Fin 1) ℝ := fun t _ => ![0, 3] t

/-- Their local model without memory. -/
noncomputable def demoTwoModel (mem : Memory) : VARXModel 1 (exogCols none) :=
  ⟨2, 0, 0, demoTwo, fun _ e => e.elim0, varxRegressors (E := 0) mem 0 0 demoTwo fun _ e => e.elim0⟩

theorem demoTwo_model (mem : Memory) :
    varxModel mem demoTwo (.int 0) none (.int 0) = Py.ok (demoTwoModel mem) := rfl

theorem demoTwo_residual (params : Matrix (Fin (demoTwoModel mem).nCols) (Fin 1) ℝ) (t : Fin 2) :
    (demoTwoModel mem).residuals params t 0 =
      demoTwo t 0 - (demoTwoModel mem).readMu params 0 := by
  have h := residuals_eq (VARXModel.made_of (demoTwo_model mem)) params t (Nat.zero_le _) 0
  refine h.trans (congrArg (demoTwo t 0 - ·) ?_)
  unfold varxPrediction
  have e1 : ∀ F : Fin (demoTwoModel mem).p → ℝ, ∑ i, F i = 0 := fun F =>
    Finset.sum_eq_zero fun i _ => (Nat.not_lt_zero _ i.2).elim
  have e2 : ∀ F : Fin (demoTwoModel mem).s → ℝ, ∑ i, F i = 0 := fun F =>
    Finset.sum_eq_zero fun i _ => (Nat.not_lt_zero _ i.2).elim
  have e3 : ∀ F : Fin (exogCols none) → ℝ, ∑ i, F i = 0 := fun F =>
    Finset.sum_eq_zero fun i _ => (Nat.not_lt_zero _ i.2).elim
  rw [e1, e2, e3]
  ring

/-- The least squares are attained at 3/2. -/
theorem demoTwo_mu (hl : lstsq.Exact) {params : Matrix (Fin (demoTwoModel mem).nCols) (Fin 1) ℝ}
    (h : lstsq _ _ _ (demoTwoModel mem).z (demoTwoModel mem).target = Py.ok params) :
    (demoTwoModel mem).readMu params 0 = 3 / 2 := by
  have e : ∀ x : Matrix (Fin (demoTwoModel mem).nCols) (Fin 1) ℝ,
      lsError (demoTwoModel mem).z (demoTwoModel mem).target x =
        (0 - (demoTwoModel mem).readMu x 0) ^ 2 + (3 - (demoTwoModel mem).readMu x 0) ^ 2 := by
    intro x
    have h0 := demoTwo_residual (mem := mem) x 0
    have h1 := demoTwo_residual (mem := mem) x 1
    have k0 : demoTwo 0 0 = 0 := rfl
    have k1 : demoTwo 1 0 = 3 := rfl
    rw [k0] at h0
    rw [k1] at h1
    rw [← h0, ← h1]
    unfold lsError frobSq
    change ∑ t : Fin 2, ∑ d : Fin 1, _ = _
    rw [Fin.sum_univ_two, Fin.sum_univ_one, Fin.sum_univ_one]
    rfl
  have := (e params).symm.trans_le ((hl _ _ _ _ _ _ h (fun _ _ => 3 / 2)).trans_eq (e _))
  have k : (demoTwoModel mem).readMu (fun _ _ => 3 / 2) 0 = 3 / 2 := rfl
  rw [k] at this
  nlinarith [sq_nonneg ((demoTwoModel mem).readMu params 0 - 3 / 2)]

theorem demoTwo_truncated {params : Matrix (Fin (demoTwoModel mem).nCols) (Fin 1) ℝ}
    (h : (demoTwoModel mem).readMu params 0 = 3 / 2) :
    (demoTwoModel mem).residualsT .int params = (fun t _ => ![-1, 1] t : Matrix (Fin 2) (Fin 1) ℝ) := by
  funext t d
  have hd : d = 0 := Subsingleton.elim (α := Fin 1) d 0
  subst hd
  refine (congrArg truncateInt (demoTwo_residual params t)).trans ?_
  rw [h]
  have h0 : truncateInt (demoTwo 0 0 - 3 / 2) = -1 := by
    unfold truncateInt
    have e : demoTwo 0 0 - 3 / 2 = (-3 / 2 : ℝ) := by norm_num [demoTwo]
    have hc : ⌈(-3 / 2 : ℝ)⌉ = -1 := by
      rw [Int.ceil_eq_iff]
      norm_num
    rw [e, if_neg (by norm_num), hc]
    norm_num
  have h1 : truncateInt (demoTwo 1 0 - 3 / 2) = 1 := by
    unfold truncateInt
    have e : demoTwo 1 0 - 3 / 2 = (3 / 2 : ℝ) := by norm_num [demoTwo]
    have hc : ⌊(3 / 2 : ℝ)⌋ = 1 := by
      rw [Int.floor_eq_iff]
      norm_num
    rw [e, if_pos (by norm_num), hc]
    norm_num
  have : ∀ t : Fin 2, truncateInt (demoTwo t 0 - 3 / 2) = (![-1, 1] : Fin 2 → ℝ) t :=
    Fin.forall_fin_two.2 ⟨h0, h1⟩
  exact this t

/-- What the local fits of the example give. -/
structure DemoTwoFit (f : VARXFit (demoTwoModel mem)) : Prop where
  mu : f.mu 0 = 3 / 2
  residuals : f.residuals = (fun t _ => ![-1, 1] t : Matrix (Fin 2) (Fin 1) ℝ)

theorem demoTwo_finish {params : Matrix (Fin (demoTwoModel mem).nCols) (Fin 1) ℝ}
    (h : (demoTwoModel mem).readMu params 0 = 3 / 2) (df : ℝ) :
    ∃ f, (demoTwoModel mem).finishT .int params
      (covariance ((demoTwoModel mem).tailResidualsT .int params) df) = Py.ok f ∧ DemoTwoFit f := by
  have hr : (demoTwoModel mem).tailResidualsT .int params (0 : Fin 2) 0 ≠ 0 := by
    have : (demoTwoModel mem).tailResidualsT .int params (0 : Fin 2) 0 = -1 :=
      congrFun (congrFun (demoTwo_truncated h) (0 : Fin 2)) (0 : Fin 1)
    rw [this]
    norm_num
  obtain ⟨S, hS⟩ := npInv_covariance ((demoTwoModel mem).tailResidualsT .int params) df (0 : Fin 2) hr
  unfold VARXModel.finishT
  rw [hS, Py.ok_bind]
  exact ⟨_, rfl, h, demoTwo_truncated h⟩

theorem demoTwo_fit (hl : lstsq.Exact) (htot : ∀ m n r a b, ∃ x, lstsq m n r a b = Py.ok x) :
    ∃ f, (demoTwoModel mem).fitT .int lstsq none = Py.ok f ∧ DemoTwoFit f := by
  obtain ⟨params, hp⟩ := htot _ _ _ (demoTwoModel mem).z (demoTwoModel mem).target
  obtain ⟨f, hf, h⟩ := demoTwo_finish (demoTwo_mu hl hp)
    (((demoTwoModel mem).n : ℝ) - (demoTwoModel mem).presample - (demoTwoModel mem).p * (1 : ℕ) - 1 -
      (exogCols none : ℕ) * (1 + (demoTwoModel mem).s))
  refine ⟨f, ?_, h⟩
  change (demoTwoModel mem).fitPlainT .int lstsq = Py.ok f
  unfold VARXModel.fitPlainT
  rw [hp, Py.ok_bind]
  exact hf

theorem demoTwo_fit_weighted (hl : lstsq.Exact)
    (htot : ∀ m n r a b, ∃ x, lstsq m n r a b = Py.ok x) {w : Fin 2 → ℝ} (hw : ∀ t, w t = 1) :
    ∃ f, (demoTwoModel mem).fitT .int lstsq (some ⟨2, w⟩) = Py.ok f ∧ DemoTwoFit f := by
  have ht : ∀ t, (demoTwoModel mem).tailWeights w t = 1 := fun t => hw _
  have hrow : ∀ {r : ℕ} (a : Matrix (Fin ((demoTwoModel mem).n - (demoTwoModel mem).presample))
      (Fin r) ℝ), scaleRows (fun t => Real.sqrt ((demoTwoModel mem).tailWeights w t)) a = a := by
    intro r a
    funext t j
    simp [scaleRows, ht]
  obtain ⟨params, hp⟩ := htot _ _ _ (demoTwoModel mem).z (demoTwoModel mem).target
  obtain ⟨f, hf, h⟩ := demoTwo_finish (demoTwo_mu hl hp)
    (∑ t, (demoTwoModel mem).tailWeights w t - 1)
  refine ⟨f, ?_, h⟩
  change (demoTwoModel mem).fitWeightedT .int lstsq w = Py.ok f
  unfold VARXModel.fitWeightedT
  rw [if_neg fun ⟨t, h⟩ => by rw [ht t] at h; linarith]
  simp only [hrow, hp, Py.ok_bind]
  exact hf

/-- The fit of the example: one component, or two, without a bound; one iteration. -/
noncomputable def demoTwoObj (k : ℕ) : FEMVARXObj demoRngReal where
  nComponents := .int k
  maxTvNorm := .none
  memory := List.replicate k 0
  maxIterations := .int 1
  tolerance := .real (1 / 100)
  randomState := (0 : ℕ)
  require := true

theorem demoTwo_memory (k : ℕ) : ∀ a ∈ (demoTwoObj k).memory, a = (0 : ℤ) := fun _ ha =>
  List.eq_of_mem_replicate ha

theorem demoTwo_params {k : ℕ} (hk : 0 < k) : checkParams (defaultComponents (demoTwoObj k).nComponents 1)
    (demoTwoObj k).maxIterations (demoTwoObj k).tolerance = Py.ok ((k, 1, 1 / 100) : ℕ × ℕ × ℝ) := by
  simp [demoTwoObj, defaultComponents, checkParams]
  rw [if_neg hk.ne', if_neg (by norm_num)]

theorem demoTwo_max {k : ℕ} (hk : 0 < k) : maxMemory (demoTwoObj k).memory = (0 : ℤ) :=
  varx_equal_max (by simp [demoTwoObj]; omega) (demoTwo_memory k)

/-- The set-up of the example. -/
theorem demoTwo_init (hl : lstsq.Exact) (htot : ∀ m n r a b, ∃ x, lstsq m n r a b = Py.ok x) {k : ℕ}
    (hk : 0 < k) (hlen : k = (demoTwoObj k).memory.length) :
    ∃ params, varxInitT .int mem lstsq demoTwo
      (fun i : Fin k => (demoTwoObj k).memory.get (Fin.cast hlen i)) (maxMemory (demoTwoObj k).memory)
      none = Py.ok ⟨0, fun _ => demoTwoModel mem, params⟩ := by
  obtain ⟨f, hf, -⟩ := demoTwo_fit (mem := mem) hl htot
  have hmem : (fun i : Fin k => (demoTwoObj k).memory.get (Fin.cast hlen i)) = fun _ => (0 : ℤ) :=
    funext fun _ => demoTwo_memory k _ (List.get_mem _ _)
  rw [hmem, demoTwo_max hk]
  unfold varxInitT
  have h2 : varxModels mem demoTwo (fun _ : Fin k => (0 : ℤ)) 0 none =
      Py.ok (fun _ => demoTwoModel mem) := pyPi_eq_ok.2 fun i => demoTwo_model mem
  have h3 : pyPi (fun i : Fin k => (demoTwoModel mem).fitT .int lstsq none) = Py.ok fun _ => f :=
    pyPi_eq_ok.2 fun i => hf
  have h4 : varxCheckShapes (fun _ : Fin k => demoTwoModel mem) (0 : ℤ).toNat (2 - (0 : ℤ).toNat) =
      Py.ok () := if_pos fun i => Or.inl rfl
  rw [show varxCheckExog 2 none = Py.ok () from rfl, Py.ok_bind, h2, Py.ok_bind, h3, Py.ok_bind, h4,
    Py.ok_bind]
  exact ⟨_, rfl⟩

/-- One iteration with one component: the parameters are updated and the weights are kept. -/
theorem femIterate_single {P : Type} {T k e : ℕ} {comp : FEMComp P T k ℝ} (hk : k = 1)
    {con : Option (FEMConstraints (k * T + e) ℝ)} (require : Bool) (tol : ℝ) {s : FEMState P T k ℝ}
    {p : P} (hu : comp.update s.Gamma s.params = Py.ok p) :
    ∃ r, femIterate comp solver con require tol 1 true true s = Py.ok r ∧ r.state.Gamma = s.Gamma ∧
      r.state.params = p ∧ r.cost = assignmentCost s.Gamma (comp.distance p) := by
  unfold femIterate
  simp only [FEMState.evaluateCost, FEMState.evaluateDistance]
  have hstep : ∀ c, femStep comp solver con require tol true true 0
      ⟨s.Gamma, s.params, comp.distance s.params⟩ c = Py.ok
        ((⟨s.Gamma, p, comp.distance p⟩, assignmentCost s.Gamma (comp.distance p)), false) := by
    intro c
    have h1 : femParametersPhase comp require tol 0
        ⟨s.Gamma, s.params, comp.distance s.params⟩ c =
        Py.ok (⟨s.Gamma, p, comp.distance p⟩, assignmentCost s.Gamma (comp.distance p)) := by
      rw [femParametersPhase_eq]
      simp only [hu, Py.ok_bind, femCheck_zero]
    have h2 : ∀ c', femWeightsPhase comp solver con require tol 0 ⟨s.Gamma, p, comp.distance p⟩ c' =
        Py.ok ((⟨s.Gamma, p, comp.distance p⟩, assignmentCost s.Gamma (comp.distance p)), false) := by
      intro c'
      unfold femWeightsPhase FEMState.updateWeights
      rw [if_pos hk, Py.ok_bind]
      simp only [femCheck_zero, FEMState.evaluateCost]
      rfl
    unfold femStep
    simp only [h1, Py.ok_bind]
    exact h2 _
  rw [show List.range 1 = [0] from rfl, femLoop_cons, hstep, Py.ok_bind]
  split
  · exact ⟨_, rfl, rfl, rfl, rfl⟩
  · exact ⟨_, rfl, rfl, rfl, rfl⟩

theorem demoTwo_weights : ∃ gamma, femInitWeights demoRngReal 2 1 none none (0 : ℕ) = Py.ok gamma ∧
    ∀ t i, gamma.1 t i = 1 := by
  obtain ⟨gamma, hg, -⟩ := demo_random_weights 2 1 le_rfl 0
  refine ⟨gamma, hg, fun t i => ?_⟩
  unfold femInitWeights at hg
  rw [if_neg (by simp)] at hg
  simp only [rightStochasticMatrix] at hg
  split_ifs at hg with h
  rw [← Py.ok.inj hg]
  show (demoRngReal.uniform 2 1 (0 : ℕ)).1 t i / ∑ j, (demoRngReal.uniform 2 1 (0 : ℕ)).1 t j = 1
  rw [Fin.sum_univ_one, Subsingleton.elim i 0]
  refine div_self ?_
  simp only [demoRngReal]
  positivity

/-- C91.  What is reported for integer data need not be a best model, and the cost need not be its
cost.  A fit of the two integer samples 0 and 3 with one component reports the intercept 1 and the cost
2; the squared errors of this intercept add up to 5, those of the best one to 9/2. -/
theorem C91_varx_integer_fit_not_best (hl : lstsq.Exact)
    (htot : ∀ m n r a b, ∃ x, lstsq m n r a b = Py.ok x) :
    ∃ obj' info, femVARXRunT demoRngReal solver lstsq mem (demoTwoObj 1) .int (Arr2.of demoTwo) {} =
        Py.ok (obj', info) ∧
      obj'.Gamma = some (Arr2.of fun (_ : Fin 2) (_ : Fin 1) => 1) ∧
      obj'.mu = some (Arr2.of fun (_ : Fin 1) (_ : Fin 1) => 1) ∧ info.cost = 2 ∧
      ∑ t, (demoTwo t 0 - 1) ^ 2 = 5 ∧ ∑ t, (demoTwo t 0 - 3 / 2) ^ 2 = 9 / 2 ∧
      ∀ c, 9 / 2 ≤ ∑ t, (demoTwo t 0 - c) ^ 2 := by
  obtain ⟨params, hst⟩ := demoTwo_init (mem := mem) (k := 1) hl htot one_pos rfl
  obtain ⟨gamma, hg, hone⟩ := demoTwo_weights
  have hw : ∀ t : Fin 2, (varxWeightsT .int gamma.1 0 0).2 t = 1 := by
    intro t
    unfold varxWeightsT varxWeights
    simp only [Nat.zero_le, dite_true]
    refine (congrArg truncateInt (hone _ _)).trans ?_
    have := truncateInt_intCast (K := ℝ) 1
    simpa using this
  obtain ⟨f, hf, hF⟩ := demoTwo_fit_weighted (mem := mem) hl htot hw
  have hu : (varxCompT .int (fun _ : Fin 1 => demoTwoModel mem) 0 2 lstsq).update gamma.1 params =
      Py.ok ⟨fun _ => f, fun i d => truncateInt (f.mu d), params.A, fun i => DType.int.storeMat f.B0⟩ := by
    have : pyPi (fun i : Fin 1 => (demoTwoModel mem).fitT .int lstsq
        (some (varxWeightsT .int gamma.1 i (demoTwoModel mem).p))) = Py.ok fun _ => f :=
      pyPi_eq_ok.2 fun i => by
        rw [Subsingleton.elim i 0]
        exact hf
    change varxUpdateT .int lstsq gamma.1 params = _
    unfold varxUpdateT
    rw [this, Py.ok_bind]
    congr 2
  obtain ⟨r, hr, r1, r2, r3⟩ := femIterate_single (solver := solver) (e := auxParameters (none : Option ℝ) 1 2)
    (con := none) rfl true (1 / 100)
    (s := ⟨gamma.1, params, varxDistanceT .int 2 params⟩) hu
  have hrun : femVARXRunT demoRngReal solver lstsq mem (demoTwoObj 1) .int (Arr2.of demoTwo) {} =
      Py.ok (femVARXFinish (demoTwoObj 1) (Arr2.of demoTwo) {} (1, 1, 1 / 100)
        ⟨0, fun _ => demoTwoModel mem, params⟩ (r, gamma.2)) := by
    rw [femVARXRunT_eq]
    refine Py.bind_eq_ok.2 ⟨_, demoTwo_params one_pos, ?_⟩
    rw [dif_pos (show (1 : ℕ) = (demoTwoObj 1).memory.length from rfl)]
    refine Py.bind_eq_ok.2 ⟨_, hst, ?_⟩
    refine Py.bind_eq_ok.2 ⟨(r, gamma.2), ?_, rfl⟩
    unfold femVARXIterateT
    refine Py.bind_eq_ok.2 ⟨_, hg, ?_⟩
    refine Py.bind_eq_ok.2 ⟨none, rfl, ?_⟩
    refine Py.bind_eq_ok.2 ⟨none, rfl, ?_⟩
    exact Py.bind_eq_ok.2 ⟨r, hr, rfl⟩
  have hG : gamma.1 = fun _ _ => 1 := funext fun t => funext fun i => hone t i
  refine ⟨_, _, hrun, ?_, ?_, ?_, ?_, ?_, ?_⟩
  · simp only
    rw [r1, hG]
    rfl
  · simp only
    rw [r2]
    have : (fun (_ : Fin 1) (d : Fin 1) => truncateInt (f.mu d)) = fun _ _ => (1 : ℝ) := by
      funext i d
      rw [Subsingleton.elim d 0, hF.mu, truncateInt_of_nonneg (by norm_num)]
      have hc : ⌊(3 / 2 : ℝ)⌋ = 1 := by
        rw [Int.floor_eq_iff]
        norm_num
      rw [hc]
      norm_num
    exact congrArg (fun q => some (Arr2.of q)) this
  · simp only
    rw [r3, hG]
    have hd : ∀ t : Fin 2, (varxCompT .int (fun _ : Fin 1 => demoTwoModel mem) 0 2 lstsq).distance
        ⟨fun _ => f, fun i d => truncateInt (f.mu d), params.A, fun i => DType.int.storeMat f.B0⟩ t 0 =
        1 := by
      intro t
      have e : sqResidual f (t + 0) = 1 := by
        unfold sqResidual
        rw [dif_pos (show (t : ℕ) + 0 < (demoTwoModel mem).n from t.2)]
        rw [hF.residuals, Fin.sum_univ_one, Fin.sum_univ_one, Matrix.one_apply_eq]
        have : ∀ t : Fin 2, (![-1, 1] : Fin 2 → ℝ) t * 1 * (![-1, 1] : Fin 2 → ℝ) t = 1 :=
          Fin.forall_fin_two.2 (by norm_num)
        exact this t
      refine (congrArg truncateInt ((if_pos rfl).trans e)).trans ?_
      have := truncateInt_intCast (K := ℝ) 1
      simpa using this
    unfold assignmentCost
    rw [Fin.sum_univ_two, Fin.sum_univ_one, Fin.sum_univ_one, hd, hd]
    norm_num
  · simp [Fin.sum_univ_two, demoTwo]
    norm_num
  · simp [Fin.sum_univ_two, demoTwo]
    norm_num
  · intro c
    simp only [Fin.sum_univ_two, demoTwo, Matrix.cons_val_zero, Matrix.cons_val_one]
    nlinarith [sq_nonneg (c - 3 / 2)]

/-- C91 on the two samples with two components and a random start: the fit of the same numbers as floating
point data returns, that of integer data raises LinAlgError. -/
example (mem : Memory) : ∃ (solver : LPSolver ℝ) (lstsq : LstSq), solver.Exact ∧ lstsq.Exact ∧
    (∃ r, femVARXRunT demoRngReal solver lstsq mem (demoTwoObj 2) .float (Arr2.of demoTwo) {} =
      Py.ok r) ∧
    femVARXRunT demoRngReal solver lstsq mem (demoTwoObj 2) .int (Arr2.of demoTwo) {} =
      Py.raise .linAlgError := by
  obtain ⟨solver, lstsq, hs, hls, -, -, htot⟩ := exists_exact_tools
  refine ⟨solver, lstsq, hs, hls, ?_, ?_⟩
  · rw [C91_varx_floating_point]
    obtain ⟨gamma, hg, hpos⟩ := demo_random_weights 2 2 (by norm_num) (demoTwoObj 2).randomState
    refine varx_run_once (L := 0) (models := fun _ => demoTwoModel mem) hs htot (by norm_num)
      (by norm_num) (demoTwo_params (by norm_num)) (tv := none) rfl rfl (demoTwo_max (by norm_num)) rfl ?_
      (if_pos fun i => Or.inl rfl) (fun _ => rfl) (fun _ params => ?_) rfl hg hpos
    · have hmem : (fun i : Fin 2 => (demoTwoObj 2).memory.get (Fin.cast rfl i)) = fun _ => (0 : ℤ) :=
        funext fun _ => demoTwo_memory 2 _ (List.get_mem _ _)
      refine (congrArg (fun q => varxModels mem demoTwo q 0 none) hmem).trans ?_
      exact pyPi_eq_ok.2 fun i => demoTwo_model mem
    · by_contra hc
      push Not at hc
      have h0 : (demoTwoModel mem).residuals params (0 : Fin 2) 0 = 0 := hc (0 : Fin 2)
      have h1 : (demoTwoModel mem).residuals params (1 : Fin 2) 0 = 0 := hc (1 : Fin 2)
      rw [demoTwo_residual] at h0 h1
      have k0 : demoTwo 0 0 = 0 := rfl
      have k1 : demoTwo 1 0 = 3 := rfl
      rw [k0] at h0
      rw [k1] at h1
      linarith
  · have hpos : ∀ (m n : ℕ) (g : demoRngReal.G) i j, 0 < (demoRngReal.uniform m n g).1 i j := by
      intro m n g i j
      exact Nat.cast_pos.2 (Nat.succ_pos _)
    obtain ⟨params, hst⟩ := demoTwo_init (mem := mem) (k := 2) hls htot (by norm_num) rfl
    obtain ⟨gamma, hg, -⟩ := demo_random_weights 2 2 (by norm_num) (demoTwoObj 2).randomState
    obtain ⟨con, hcon, -⟩ := femConstraints_ok (K := ℝ) none (k := 2) (T := 2) (by norm_num) (by norm_num)
    have hr : ∃ r, femIterate (varxCompT .int (fun _ : Fin 2 => demoTwoModel mem) 0 2 lstsq) solver
        (e := auxParameters none 2 2) (some con) true (1 / 100) 1 false false
        ⟨gamma.1, params, varxDistanceT .int 2 params⟩ = Py.ok r := by
      unfold femIterate
      rw [show List.range 1 = [0] from rfl, femLoop_cons]
      change ∃ r, (Py.ok _ >>= _) = Py.ok r
      rw [Py.ok_bind]
      split
      · exact ⟨_, rfl⟩
      · exact ⟨_, rfl⟩
    obtain ⟨r, hr⟩ := hr
    refine C91_varx_integer_random_start_error (L := 0) (r := femVARXFinish (demoTwoObj 2)
      (Arr2.of demoTwo) { updateParameters := false, updateWeights := false } (2, 1, 1 / 100)
        ⟨0, fun _ => demoTwoModel mem, params⟩ (r, gamma.2)) hpos htot (by simp [demoTwoObj])
      (demoTwo_memory 2) rfl (fun h => by simp at h) ?_
    rw [femVARXRunT_eq]
    refine Py.bind_eq_ok.2 ⟨_, demoTwo_params (by norm_num), ?_⟩
    rw [dif_pos (show (2 : ℕ) = (demoTwoObj 2).memory.length from rfl)]
    refine Py.bind_eq_ok.2 ⟨_, hst, ?_⟩
    refine Py.bind_eq_ok.2 ⟨(r, gamma.2), ?_, rfl⟩
    unfold femVARXIterateT
    refine Py.bind_eq_ok.2 ⟨_, hg, ?_⟩
    refine Py.bind_eq_ok.2 ⟨none, rfl, ?_⟩
    refine Py.bind_eq_ok.2 ⟨some con, hcon, ?_⟩
    exact Py.bind_eq_ok.2 ⟨r, hr, rfl⟩

/-- C91, integer parameters: the fit with one component returns. -/
example (mem : Memory) : ∃ (solver : LPSolver ℝ) (lstsq : LstSq) (r : FEMVARXObj demoRngReal × FEMInfo ℝ)
    (mu : Arr2 ℝ), femVARXRunT demoRngReal solver lstsq mem (demoTwoObj 1) .int (Arr2.of demoTwo) {} =
      Py.ok r ∧ r.1.mu = some mu ∧ ∀ i d, ∃ z : ℤ, mu.val i d = z := by
  obtain ⟨solver, lstsq, hs, hls, -, -, htot⟩ := exists_exact_tools
  obtain ⟨o, i, h, -⟩ := C91_varx_integer_fit_not_best (solver := solver) (mem := mem) hls htot
  obtain ⟨⟨mu, hmu, hz⟩, -⟩ := C91_varx_integer_parameters hs h
  exact ⟨solver, lstsq, _, mu, h, hmu, hz⟩

end VARXDemo

/-! ### C92: piecewise VARX -/

section PWVARX

variable {lib : PWLib} {lstsq : LstSq} {obj obj' obj'' : PWObj lib} {endog : PWArr}
  {exog : Option PWArr} {labels : Σ m : ℕ, Fin m → ℤ}

/-- C92.  For floating point data the dtypes change nothing. -/
theorem C92_pwvarx_floating_point :
    obj.fitTransformT .float lstsq endog exog = obj.fitTransform lstsq endog exog := by
  unfold PWObj.fitTransformT PWObj.fitTransform PWObj.fitVarModelT PWObj.fitVarModel
  simp only [pwLoopT_float]

/-- The fits of floating point and of integer data, side by side. -/
theorem pw_fit_rel : PyRel (fun r r' => r'.2 = r.2 ∧ r'.1.mu = r.1.mu ∧ r'.1.A = r.1.A ∧
      r'.1.B = r.1.B ∧ r'.1.clusterer = r.1.clusterer ∧ r'.1.classifier = r.1.classifier ∧
      r'.1.clusterLabels_ = r.1.clusterLabels_ ∧
      ∃ res, r.1.residuals = some res ∧ r'.1.residuals = some (storeArr .int res))
    (obj.fitTransform lstsq endog exog) (obj.fitTransformT .int lstsq endog exog) := by
  unfold PWObj.fitTransformT PWObj.fitTransform
  refine PyRel.bind_same fun x => PyRel.bind_same fun _ => PyRel.bind_same fun q => ?_
  unfold PWObj.fitVarModelT PWObj.fitVarModel
  simp only [Py.bind_assoc]
  refine PyRel.bind_same fun K => ?_
  refine (pwLoopT_rel (t := .int) (List.finRange K) ⟨rfl, rfl, rfl, ?_⟩).bind ?_
  · funext i j
    have := truncateInt_intCast (K := ℝ) 0
    exact (by simpa using this.symm : (0 : ℝ) = truncateInt 0)
  · rintro st st' ⟨h1, h2, h3, h4⟩
    simp only [Py.pure_eq, Py.ok_bind]
    refine PyRel.ok ⟨rfl, ?_, ?_, ?_, rfl, rfl, rfl, _, rfl, ?_⟩
    · simp only [h1]
    · simp only [h2]
    · simp only [h3]
    · simp only [h4]
      rfl

/-- C92.  A fit of integer data ends as the one of the same numbers as floating point data.  Labels,
intercepts and coefficients, the clustering and the classifier are the same; the residuals are those of
the floating point fit without their fractional parts. -/
theorem C92_pwvarx_integer_models (obj : PWObj lib) (lstsq : LstSq) (endog : PWArr)
    (exog : Option PWArr) :
    (∀ obj' labels, obj.fitTransform lstsq endog exog = Py.ok (obj', labels) →
      ∃ obj'' R, obj.fitTransformT .int lstsq endog exog = Py.ok (obj'', labels) ∧
        obj''.mu = obj'.mu ∧ obj''.A = obj'.A ∧ obj''.B = obj'.B ∧
        obj''.clusterer = obj'.clusterer ∧ obj''.classifier = obj'.classifier ∧
        obj''.clusterLabels_ = obj'.clusterLabels_ ∧ obj'.residuals = some R ∧
        ∃ R', obj''.residuals = some (Arr2.of R') ∧ ∀ t d, ∃ z : ℤ, R' t d = z ∧
          |R' t d| ≤ |R.val t d| ∧ |R.val t d - R' t d| < 1) ∧
    (∀ e, obj.fitTransform lstsq endog exog = Py.raise e ↔
      obj.fitTransformT .int lstsq endog exog = Py.raise e) ∧
    (obj.fitTransform lstsq endog exog = Py.diverge ↔
      obj.fitTransformT .int lstsq endog exog = Py.diverge) := by
  have h := pw_fit_rel (obj := obj) (lstsq := lstsq) (endog := endog) (exog := exog)
  cases h1 : obj.fitTransform lstsq endog exog <;>
    cases h2 : obj.fitTransformT .int lstsq endog exog <;> rw [h1, h2] at h <;>
    simp only [PyRel] at h
  · rename_i r r'
    refine ⟨fun obj' labels hr => ?_, by simp, by simp⟩
    obtain rfl := Py.ok.inj hr
    obtain ⟨obj'', labels'⟩ := r'
    obtain ⟨rfl, a1, a2, a3, a4, a5, a6, R, a7, a8⟩ := h
    refine ⟨obj'', R, rfl, a1, a2, a3, a4, a5, a6, a7, _, a8, fun t d => ?_⟩
    obtain ⟨z, hz⟩ := truncateInt_int (R.val t d)
    exact ⟨z, hz, abs_truncateInt_le _, abs_sub_truncateInt_lt _⟩
  · subst h
    simp
  · simp

/-- What a fit of integer data that returns has done. -/
theorem pw_fitT_spec (h : obj.fitTransformT .int lstsq endog exog = Py.ok (obj', labels)) :
    ∃ F : PWFitted obj obj' endog.matrix.rows endog.matrix.cols (exogCount exog),
      labels = ⟨_, F.lab⟩ ∧ (∀ t d, ∃ z : ℤ, F.R t d = z) ∧ ∀ k,
        F.S k = covariance (takeRows F.R (maskRows F.lab k)) (((maskRows F.lab k).length : ℝ) -
          obj.p * endog.matrix.cols - trendCols obj.includeTrend - exogCount exog * obj.s) := by
  unfold PWObj.fitTransformT at h
  simp only at h
  obtain ⟨x, hx, h⟩ := Py.bind_eq_ok.1 h
  obtain ⟨_, -, h⟩ := Py.bind_eq_ok.1 h
  obtain ⟨⟨o1, lab⟩, hc, h⟩ := Py.bind_eq_ok.1 h
  obtain ⟨o2, ho, h⟩ := Py.bind_eq_ok.1 h
  have h := Py.ok.inj h
  rw [Prod.mk.injEq] at h
  obtain ⟨rfl, rfl⟩ := h
  unfold PWObj.fitVarModelT at ho
  obtain ⟨K, hK, ho⟩ := Py.bind_eq_ok.1 ho
  obtain ⟨st, hst, ho⟩ := Py.bind_eq_ok.1 ho
  have ho := Py.ok.inj ho
  have hrel := pwLoopT_rel (t := .int) (lstsq := lstsq) (trend := obj.includeTrend)
    (y := lagRows (max obj.p obj.s) endog.matrix.val 0) (x := x) (labels := lab) (List.finRange K)
    (st := ⟨0, fun _ _ => 0, fun _ _ => 0, fun _ => some 0, 0⟩)
    (st' := ⟨0, fun _ _ => 0, fun _ _ => 0, fun _ => some 0, 0⟩) ⟨rfl, rfl, rfl, by
      funext i j
      have := truncateInt_intCast (K := ℝ) 0
      exact (by simpa using this.symm : (0 : ℝ) = truncateInt 0)⟩
  simp only at hst
  rw [hst] at hrel
  obtain ⟨st0, hst0, hrel⟩ : ∃ st0, pwLoop lstsq obj.includeTrend
      (lagRows (max obj.p obj.s) endog.matrix.val 0) x lab (List.finRange K)
      ⟨0, fun _ _ => 0, fun _ _ => 0, fun _ => some 0, 0⟩ = Py.ok st0 ∧ PWStored .int st0 st := by
    cases hl : pwLoop lstsq obj.includeTrend (lagRows (max obj.p obj.s) endog.matrix.val 0) x lab
        (List.finRange K) ⟨0, fun _ _ => 0, fun _ _ => 0, fun _ => some 0, 0⟩ with
    | ok st0 =>
      rw [hl] at hrel
      exact ⟨st0, rfl, hrel⟩
    | raise e =>
      rw [hl] at hrel
      exact hrel.elim
    | diverge =>
      rw [hl] at hrel
      exact hrel.elim
  obtain ⟨h1, -, -⟩ := pwLoop_spec (List.nodup_finRange K) hst0
  have hcomp : obj.nComponents = .int K := by
    simp only at hK
    cases hn : obj.nComponents with
    | int z =>
      rw [hn] at hK
      unfold pwSize at hK
      simp only at hK
      split_ifs at hK with hz
      rw [← Py.ok.inj hK, Int.toNat_of_nonneg (by omega)]
    | _ => simp [hn, pwSize] at hK
  have hmu : obj.includeTrend = false → st.mu = 0 := by
    intro ht
    rw [hrel.mu]
    funext k
    obtain ⟨params, hp⟩ := h1 k (List.mem_finRange k)
    rw [hp.mu]
    unfold pwReadMu
    rw [dif_neg (by simp [ht])]
    rfl
  obtain ⟨hS, -, -⟩ := pwLoopT_sigma (List.nodup_finRange K) hst
  subst ho
  refine ⟨⟨K, st.mu, st.A, st.B, st.sigmaU, st.residuals, lab, hcomp, fun ht => if_pos ht, hmu,
    fun hp => if_pos hp, fun hp => if_pos hp, rfl, rfl⟩, rfl, fun t d => ?_, fun k => ?_⟩
  · simp only [hrel.residuals]
    exact truncateInt_int _
  · exact hS k (List.mem_finRange k)

/-- The covariance in terms of the samples of a component. -/
theorem pw_covariance {m D : ℕ} {lab : Fin m → ℤ} {res : Matrix (Fin m) (Fin D) ℝ} {k p s E : ℕ}
    {trend : Bool} {S : Option (Matrix (Fin D) (Fin D) ℝ)}
    (hS : S = covariance (takeRows res (maskRows lab k)) (((maskRows lab k).length : ℝ) -
          p * D - trendCols trend - E * s)) :
    let df : ℤ := ((Finset.univ.filter fun t => lab t = (k : ℕ)).card : ℤ) -
      (p * D + s * E + if trend then 1 else 0 : ℕ)
    (S = none ↔ df = 0) ∧ ∀ S', S = some S' → ∀ a b,
      S' a b = (∑ t, if lab t = (k : ℕ) then res t a * res t b else 0) / df := by
  have hc : (maskRows lab k).length = (Finset.univ.filter fun t => lab t = (k : ℕ)).card := by
    rw [← List.toFinset_card_of_nodup maskRows_nodup]
    congr 1
    ext t
    simp [mem_maskRows]
  have hdf : ((maskRows lab k).length : ℝ) - p * D - trendCols trend - E * s =
      ((((Finset.univ.filter fun t => lab t = (k : ℕ)).card : ℤ) -
          (p * D + s * E + if trend then 1 else 0 : ℕ) : ℤ) : ℝ) := by
    rw [hc]
    unfold trendCols
    push_cast
    ring
  intro df
  rw [hdf] at hS
  change _ = covariance _ (df : ℝ) at hS
  clear_value df
  unfold covariance at hS
  refine ⟨?_, fun S' h a b => ?_⟩
  · rw [hS]
    split_ifs with h0
    · simpa using h0
    · simpa using h0
  · rw [hS] at h
    split_ifs at h with h0
    rw [← Option.some.inj h]
    refine congrArg (· / _) ?_
    rw [Matrix.mul_apply, ← sum_maskRows (fun t => res t a * res t b)]
    rfl

/-- C92.  The covariance of a component is computed from the residuals without their fractional
parts. -/
theorem C92_pwvarx_integer_covariance
    (h : obj.fitTransformT .int lstsq endog exog = Py.ok (obj', labels)) :
    ∃ F : PWFitted obj obj' endog.matrix.rows endog.matrix.cols (exogCount exog),
      labels = ⟨_, F.lab⟩ ∧ (∀ t d, ∃ z : ℤ, F.R t d = z) ∧ ∀ k : Fin F.K,
        let df : ℤ := ((Finset.univ.filter fun t => F.lab t = (k : ℕ)).card : ℤ) -
          (obj.p * endog.matrix.cols + obj.s * exogCount exog +
            if obj.includeTrend then 1 else 0 : ℕ)
        (F.S k = none ↔ df = 0) ∧ ∀ S, F.S k = some S → ∀ a b,
          S a b = (∑ t, if F.lab t = (k : ℕ) then F.R t a * F.R t b else 0) / df := by
  obtain ⟨F, h1, h2, h3⟩ := pw_fitT_spec h
  exact ⟨F, h1, h2, fun k => pw_covariance (h3 k)⟩

/-- C92.  Where the divisor is positive, the variances reported for integer data are not above those of
the same numbers as floating point data, and they are zero if the floating point residuals of the
component are all below one. -/
theorem C92_pwvarx_integer_variances
    (h : obj.fitTransform lstsq endog exog = Py.ok (obj', labels))
    (h' : obj.fitTransformT .int lstsq endog exog = Py.ok (obj'', labels)) :
    ∃ (F : PWFitted obj obj' endog.matrix.rows endog.matrix.cols (exogCount exog))
      (F' : PWFitted obj obj'' endog.matrix.rows endog.matrix.cols (exogCount exog)),
      labels = ⟨_, F.lab⟩ ∧ F'.lab = F.lab ∧ ∀ (k : Fin F.K) (k' : Fin F'.K), (k : ℕ) = k' →
        obj.p * endog.matrix.cols + obj.s * exogCount exog + (if obj.includeTrend then 1 else 0) <
          (Finset.univ.filter fun t => F.lab t = (k : ℕ)).card →
        ∃ S S', F.S k = some S ∧ F'.S k' = some S' ∧ ∀ d, S' d d ≤ S d d ∧
          ((∀ t, F.lab t = (k : ℕ) → |F.R t d| < 1) → S' d d = 0) := by
  obtain ⟨F, h1, h2⟩ := C75_pwvarx_covariance h
  obtain ⟨F', h1', -, h2'⟩ := C92_pwvarx_integer_covariance h'
  have hlab : F'.lab = F.lab := by
    have := h1'.symm.trans h1
    exact eq_of_heq (Sigma.mk.inj this).2
  have hres : F'.R = DType.int.storeMat F.R := by
    obtain ⟨-, -, -, -, -, -, -, res, r1, r2⟩ : _ ∧ _ ∧ _ ∧ _ ∧ _ ∧ _ ∧ _ ∧ ∃ res,
        obj'.residuals = some res ∧ obj''.residuals = some (storeArr .int res) := by
      have hr := pw_fit_rel (obj := obj) (lstsq := lstsq) (endog := endog) (exog := exog)
      rw [h, h'] at hr
      exact hr
    rw [F.R_eq] at r1
    rw [F'.R_eq, ← Option.some.inj r1] at r2
    have := Option.some.inj r2
    unfold storeArr Arr2.of at this
    simpa using this
  refine ⟨F, F', h1, hlab, fun k k' hk hpos => ?_⟩
  obtain ⟨n1, v1⟩ := h2 k
  obtain ⟨n2, v2⟩ := h2' k'
  rw [hlab, ← hk] at n2 v2
  set df : ℤ := ((Finset.univ.filter fun t => F.lab t = (k : ℕ)).card : ℤ) -
    (obj.p * endog.matrix.cols + obj.s * exogCount exog + if obj.includeTrend then 1 else 0 : ℕ) with hdf
  have hdf0 : 0 < df := by omega
  have hdfR : (0 : ℝ) < df := by exact_mod_cast hdf0
  obtain ⟨S, hS⟩ := Option.ne_none_iff_exists'.1 fun hc => hdf0.ne' (n1.1 hc)
  obtain ⟨S', hS'⟩ := Option.ne_none_iff_exists'.1 fun hc => hdf0.ne' (n2.1 hc)
  refine ⟨S, S', hS, hS', fun d => ?_⟩
  rw [v1 S hS, v2 S' hS', hres]
  refine ⟨?_, fun hsmall => ?_⟩
  · refine div_le_div_of_nonneg_right (Finset.sum_le_sum fun t _ => ?_) hdfR.le
    split_ifs
    · have := mul_self_le_mul_self (abs_nonneg _) (abs_truncateInt_le (F.R t d))
      rwa [abs_mul_abs_self, abs_mul_abs_self] at this
    · exact le_rfl
  · rw [Finset.sum_eq_zero, zero_div]
    intro t _
    split_ifs with ht
    · have : DType.int.storeMat F.R t d = 0 := truncateInt_eq_zero (hsmall t ht)
      rw [this, zero_mul]
    · rfl

/-- The labels and the attributes of the object determine what was fitted. -/
theorem PWFitted.eq_of_labels {n D E : ℕ} (F F' : PWFitted obj obj' n D E) (h : F.lab = F'.lab) :
    F = F' := by
  obtain ⟨hK, hR⟩ := PWFitted.unique F F'
  obtain ⟨K, mu, A, B, S, res, lab, c1, c2, c3, c4, c5, c6, c7⟩ := F
  obtain ⟨K', mu', A', B', S', res', lab', d1, d2, d3, d4, d5, d6, d7⟩ := F'
  simp only at hK hR h
  subst hK
  subst hR
  subst h
  have e1 : mu = mu' := by
    cases ht : obj.includeTrend with
    | true =>
      have := Option.some.inj ((c2 ht).symm.trans (d2 ht))
      unfold Arr2.of at this
      simpa using this
    | false => rw [c3 ht, d3 ht]
  have e2 : A = A' := by
    rcases Nat.eq_zero_or_pos obj.p with hp | hp
    · funext k i
      exact (Nat.not_lt_zero _ (lt_of_lt_of_eq i.2 hp)).elim
    · have := Option.some.inj ((c4 hp).symm.trans (d4 hp))
      simpa using this
  have e3 : B = B' := by
    rcases Nat.eq_zero_or_pos (obj.s * E) with hp | hp
    · funext k i a b
      exact absurd (Nat.mul_pos (lt_of_le_of_lt (Nat.zero_le _) i.2)
        (lt_of_le_of_lt (Nat.zero_le _) b.2)) (by omega)
    · have := Option.some.inj ((c5 hp).symm.trans (d5 hp))
      simpa using this
  have e4 : S = S' := by
    have := Option.some.inj (c6.symm.trans d6)
    simpa using this
  subst e1
  subst e2
  subst e3
  subst e4
  rfl

/-- C92.  The variance can be lost altogether.  For the three integer samples 0, 0, 1 without lags and
with a trend, all in one component, an exact fit of the same numbers as floating point data reports a
positive variance, the fit of integer data the variance 0. -/
theorem C92_pwvarx_integer_variance_lost (hls : lstsq.Exact) {obj' : PWObj lib}
    (h : PWObj.fitTransform lstsq { nComponents := .int (1 : ℕ), p := 0 } (.vec 3 ![0, 0, 1]) none =
      Py.ok (obj', ⟨3, fun _ => 0⟩)) :
    ∃ (obj'' : PWObj lib) (v : ℝ), 0 < v ∧
      PWObj.fitTransformT .int lstsq { nComponents := .int (1 : ℕ), p := 0 } (.vec 3 ![0, 0, 1]) none =
        Py.ok (obj'', ⟨3, fun _ => 0⟩) ∧
      (∃ S : SigmaArr, obj'.sigmaU = some S ∧ ∀ k, ∃ M, S.val k = some M ∧ ∀ d, M d d = v) ∧
      ∃ S : SigmaArr, obj''.sigmaU = some S ∧ ∀ k, ∃ M, S.val k = some M ∧ ∀ d, M d d = 0 := by
  obtain ⟨obj'', -, h', -⟩ := (C92_pwvarx_integer_models _ _ _ _).1 _ _ h
  obtain ⟨F, F', h1, h2, h3⟩ := C92_pwvarx_integer_variances h h'
  obtain ⟨G, g1, g2, -⟩ := C56_pwvarx_residuals (fun u h => by simp at h) h
  obtain ⟨L, l1, l2⟩ := C72_pwvarx_least_squares hls (fun u h => by simp at h) h
  obtain ⟨C, c1, c2⟩ := C75_pwvarx_covariance h
  have hG : G = F := PWFitted.eq_of_labels G F (eq_of_heq (Sigma.mk.inj (g1.symm.trans h1)).2)
  have hL : L = F := PWFitted.eq_of_labels L F (eq_of_heq (Sigma.mk.inj (l1.symm.trans h1)).2)
  have hC : C = F := PWFitted.eq_of_labels C F (eq_of_heq (Sigma.mk.inj (c1.symm.trans h1)).2)
  subst hG
  subst hL
  subst hC
  have hlab : C.lab = fun _ => 0 := (eq_of_heq (Sigma.mk.inj h1).2).symm
  have hK : C.K = 1 := by exact_mod_cast (NumArg.int.inj C.components).symm
  have hK' : F'.K = 1 := by exact_mod_cast (NumArg.int.inj F'.components).symm
  let k0 : Fin C.K := ⟨0, by omega⟩
  have hk0 : ∀ t, C.lab t = ((k0 : Fin C.K) : ℕ) := fun t => congrFun hlab t
  have hy : ∀ t : Fin 3, rowSeq (PWArr.vec 3 ![0, 0, 1]).matrix.val t (0 : Fin 1) =
      (![0, 0, 1] : Fin 3 → ℝ) t := by
    intro t
    exact congrFun (dif_pos t.2) _
  have hf : ∀ (mu : Fin 1 → ℝ) (A : Fin 0 → Matrix (Fin 1) (Fin 1) ℝ) (B : Fin 0 → Matrix (Fin 1) (Fin 0) ℝ)
      (τ : ℕ), varxPrediction mu A B 0 (rowSeq (PWArr.vec 3 ![0, 0, 1]).matrix.val) (pwExogSeq none) τ
        (0 : Fin 1) = mu 0 := by
    intro mu A B τ
    unfold varxPrediction
    rw [Finset.sum_eq_zero (fun i _ => Fin.elim0 i), Finset.sum_eq_zero (fun i _ => Fin.elim0 i)]
    refine (congrArg₂ (· + ·) rfl (Finset.sum_eq_zero fun (e : Fin 0) _ => e.elim0)).trans ?_
    ring
  have hR : ∀ t : Fin 3, C.R t (0 : Fin 1) = (![0, 0, 1] : Fin 3 → ℝ) t - C.mu k0 (0 : Fin 1) := by
    intro t
    refine (g2 t k0 (hk0 t) (0 : Fin 1)).trans ?_
    exact congrArg₂ _ (hy t) (hf _ _ _ _)
  have hsum : ∀ (mu : Fin 1 → ℝ) (A : Fin 0 → Matrix (Fin 1) (Fin 1) ℝ)
      (B : Fin 0 → Matrix (Fin 1) (Fin 0) ℝ),
      ∑ t : Fin 3, (if C.lab t = ((k0 : Fin C.K) : ℕ) then
        sqDist (rowSeq (PWArr.vec 3 ![0, 0, 1]).matrix.val (t + max 0 0))
          (varxPrediction mu A B 0 (rowSeq (PWArr.vec 3 ![0, 0, 1]).matrix.val) (pwExogSeq none)
            (t + max 0 0)) else 0) = mu 0 ^ 2 + mu 0 ^ 2 + (1 - mu 0) ^ 2 := by
    intro mu A B
    have e : ∀ t : Fin 3, (if C.lab t = ((k0 : Fin C.K) : ℕ) then
        sqDist (rowSeq (PWArr.vec 3 ![0, 0, 1]).matrix.val (t + max 0 0))
          (varxPrediction mu A B 0 (rowSeq (PWArr.vec 3 ![0, 0, 1]).matrix.val) (pwExogSeq none)
            (t + max 0 0)) else 0) = ((![0, 0, 1] : Fin 3 → ℝ) t - mu 0) ^ 2 := by
      intro t
      rw [if_pos (hk0 t)]
      unfold sqDist
      refine (Fin.sum_univ_one _).trans ?_
      exact congrArg (· ^ 2) (congrArg₂ _ (hy t) (hf _ _ _ _))
    rw [Finset.sum_congr rfl fun t _ => e t, Fin.sum_univ_three]
    simp
  have hle := l2 k0 (fun _ => 1 / 3) (fun i => Fin.elim0 i) (fun i => Fin.elim0 i) (fun h => by simp at h)
  have hle : C.mu k0 (0 : Fin 1) ^ 2 + C.mu k0 (0 : Fin 1) ^ 2 + (1 - C.mu k0 (0 : Fin 1)) ^ 2 ≤
      (1 / 3) ^ 2 + (1 / 3) ^ 2 + (1 - 1 / 3) ^ 2 :=
    (hsum (C.mu k0) (C.A k0) (C.B k0)).symm.le.trans (hle.trans (hsum (fun _ => 1 / 3) _ _).le)
  set c := C.mu k0 (0 : Fin 1) with hc
  have hc1 : c = 1 / 3 := by nlinarith [sq_nonneg (c - 1 / 3)]
  have hsmall : ∀ t : Fin 3, |(![0, 0, 1] : Fin 3 → ℝ) t - c| < 1 := by
    intro t
    fin_cases t <;> simp [hc1] <;> norm_num [abs_lt]
  have hcard : (Finset.univ.filter fun t => C.lab t = ((k0 : Fin C.K) : ℕ)).card = 3 := by
    rw [Finset.filter_true_of_mem fun t _ => hk0 t]
    rfl
  have hkk : ∀ k : Fin C.K, k = k0 := fun k => Fin.ext (by have := k.2; simp only [k0]; omega)
  obtain ⟨S, S', hS, hS', hd⟩ := h3 k0 ⟨0, by omega⟩ rfl (by
    rw [hcard]
    exact (by decide : 0 * 1 + 0 * 0 + (if true = true then 1 else 0) < 3))
  have hv := (c2 k0).2 S hS (0 : Fin 1) (0 : Fin 1)
  rw [hcard] at hv
  refine ⟨obj'', S (0 : Fin 1) (0 : Fin 1), ?_, h', ⟨_, C.S_eq, fun k => ⟨S, ?_, fun d => ?_⟩⟩, _,
    F'.S_eq, fun k => ⟨S', ?_, fun d => ?_⟩⟩
  · rw [hv]
    refine div_pos (Finset.sum_pos' (fun t _ => ?_) ⟨(0 : Fin 3), Finset.mem_univ _, ?_⟩) ?_
    · split_ifs
      · exact mul_self_nonneg _
      · exact le_rfl
    · refine lt_of_lt_of_eq ?_ (if_pos (hk0 _)).symm
      refine mul_self_pos.2 fun h0 => ?_
      have := (hR 0).symm.trans h0
      rw [hc1] at this
      norm_num at this
    · have hdf : ((3 : ℕ) : ℤ) - ((0 * 1 + 0 * 0 + if true = true then 1 else 0 : ℕ) : ℤ) = 2 := by decide
      exact_mod_cast (by rw [hdf]; norm_num :
        0 < ((3 : ℕ) : ℤ) - ((0 * 1 + 0 * 0 + if true = true then 1 else 0 : ℕ) : ℤ))
  · exact (congrArg C.S (hkk k)).trans hS
  · rw [show d = (0 : Fin 1) from Subsingleton.elim (α := Fin 1) _ _]
  · rw [← hS']
    have hk : (k : ℕ) < F'.K := k.2
    exact congrArg F'.S (Fin.ext (by simp only; omega))
  · refine (hd d).2 fun t _ => ?_
    rw [show d = (0 : Fin 1) from Subsingleton.elim (α := Fin 1) _ _]
    exact (congrArg abs (hR t)).trans_lt (hsmall t)

/-- C92: fits of integer data with exogenous variables return. -/
example : ∃ (lstsq : LstSq) (obj' obj'' : PWObj demoPWLib) (labels : Σ m : ℕ, Fin m → ℤ),
    demoPW.fitTransform lstsq demoPWData (some demoPWExog) = Py.ok (obj', labels) ∧
    demoPW.fitTransformT .int lstsq demoPWData (some demoPWExog) = Py.ok (obj'', labels) := by
  obtain ⟨lstsq, hl, ⟨o, l⟩, h⟩ := demoPW_runs
  obtain ⟨o', -, h', -⟩ := (C92_pwvarx_integer_models _ _ _ _).1 o l h
  exact ⟨lstsq, o, o', l, h, h'⟩

/-- C92: the fit whose variance is lost returns. -/
example : ∃ (lstsq : LstSq) (obj' : PWObj constPWLib), lstsq.Exact ∧
    PWObj.fitTransform lstsq { nComponents := .int (1 : ℕ), p := 0 } (.vec 3 ![0, 0, 1]) none =
      Py.ok (obj', ⟨3, fun _ => 0⟩) := by
  obtain ⟨lstsq, hl, htot⟩ := exists_exact_lstsq
  obtain ⟨⟨o, l⟩, h⟩ := pw_fit_succeeds (lib := constPWLib)
    (obj := { nComponents := .int (1 : ℕ), p := 0 }) (exog := none) (endog := .vec 3 ![0, 0, 1])
    ⟨fun _ _ => ⟨_, rfl⟩, fun _ _ _ => ⟨_, rfl⟩, fun _ _ => ⟨_, rfl⟩⟩ htot (K := 1) rfl
    (by rintro a h; cases h) (by decide) (fun u h => by simp at h)
  obtain ⟨F, x, rfl, -, -, -, f, -, hf⟩ := pw_fit_spec h
  refine ⟨lstsq, o, hl, h.trans ?_⟩
  rw [← Py.ok.inj hf]
  rfl

end PWVARX

end Reor
