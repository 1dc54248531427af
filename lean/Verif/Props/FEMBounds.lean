import Verif.Props.FEMVARX
import Verif.Proofs.FEMBounds
import Verif.Proofs.FEMFrozen

/-!
What the bound on the total variation means for the weights and centroids of FEM-BV (C79-C81).
-/

set_option linter.unusedSectionVars false

namespace Reor

open scoped BigOperators
open Spec

variable {K : Type} [Field K] [LinearOrder K] [IsStrictOrderedRing K]

/-! ### C79: no effective bound -/

/-- `max_tv_norm` does not restrict the weights of `T` samples: it is missing, negative or at least
`T - 1`. -/
def NoEffectiveBound (maxTvNorm : NumArg K) (T : ℕ) : Prop :=
  (∀ x, maxTvNorm = .real x → x < 0 ∨ ((T - 1 : ℕ) : K) ≤ x) ∧
  ∀ z : ℤ, maxTvNorm = .int z → z < 0 ∨ ((T - 1 : ℕ) : ℤ) ≤ z

theorem NoEffectiveBound.large {m : NumArg K} {T : ℕ} (h : NoEffectiveBound m T) {tv : Option K}
    (htv : TvBound m tv) : ∀ b, tv = some b → ((T - 1 : ℕ) : K) ≤ b := by
  intro b hb
  obtain ⟨h0, hm | ⟨z, hm, rfl⟩⟩ := (htv b).1 hb
  · rcases h.1 b hm with h | h
    · exact absurd h (not_lt.2 h0)
    · exact h
  · rcases h.2 z hm with h | h
    · exact absurd (by exact_mod_cast h : (z : K) < 0) (not_lt.2 h0)
    · exact_mod_cast h

/-- C79.  Without an effective bound, after every fit (or transform) of FEM-BV-k-means that updates the
weights of two or more components, only components whose centroid is nearest to a sample have weight
at that sample, and the reported cost is the sum of the squared distances of the samples to their
nearest centroids: the k-means cost. -/
theorem C79_fembv_nearest {R : Rng ℝ} {solver : LPSolver ℝ} (hs : solver.Exact)
    {obj obj' : FEMKMeansObj R} {data : Arr2 ℝ} {args : FEMArgs ℝ} {info : FEMInfo ℝ}
    (hw : args.updateWeights = true) (hb : NoEffectiveBound obj.maxTvNorm data.rows)
    (h : femKMeansRun R solver obj data args = Py.ok (obj', info)) :
    ∃ (k : ℕ) (G : Matrix (Fin data.rows) (Fin k) ℝ) (Theta : Matrix (Fin k) (Fin data.cols) ℝ),
      obj'.nComponents = .int k ∧ obj'.Gamma = some (Arr2.of G) ∧ obj'.Theta = some (Arr2.of Theta) ∧
      (1 < k → ∃ m : Fin data.rows → ℝ,
        (∀ t, IsLeast (Set.range fun j => sqDist (fun d => data.val t d) (fun d => Theta j d)) (m t)) ∧
        info.cost = ∑ t, m t ∧
        ∀ t j, 0 < G t j → sqDist (fun d => data.val t d) (fun d => Theta j d) = m t) := by
  obtain ⟨p, theta, gamma, tv, con, r, hp, -, -, htv, hcon, hr, hout⟩ := femKMeansRun_eq_ok h
  obtain ⟨-, hc, -, hk, hm, -⟩ := checkParams_ok hp
  obtain ⟨h1, -, -⟩ := femIterate_good (kmeansLawful p.1 data.val) hk hs (femConstraints_for hcon)
    (leastExist_real (maxTvConstraint_nonneg htv) _ _) obj.require p.2.2 args.updateParameters
    args.updateWeights hm (femStartState data p.1 theta.1 gamma.1) trivial
  obtain ⟨hg, -, -⟩ := h1 r hr
  rw [Prod.ext_iff] at hout
  obtain ⟨rfl, rfl⟩ := hout
  refine ⟨p.1, r.state.Gamma, r.state.params, hc, rfl, rfl, fun hk1 => ?_⟩
  have hl := hb.large (tvBound_of_ok htv)
  obtain ⟨m, hm1, hm2, hm3⟩ := unbounded_optimal hk
    ((tvAdmissible_iff_of_large hl _).1 (hg.adm hw hk1)) fun G' hG' => by
      rw [← hg.cost]
      exact hg.least hw hk1 G' ((tvAdmissible_iff_of_large hl _).2 hG')
  exact ⟨m, hm1, (hg.cost.trans hm2 :), hm3⟩

theorem femVARXRun_memory {R : Rng ℝ} {solver : LPSolver ℝ} {lstsq : LstSq} {mem : Memory}
    {obj obj' : FEMVARXObj R} {data : Arr2 ℝ} {args : FEMVARXArgs} {info : FEMInfo ℝ}
    (h : femVARXRun R solver lstsq mem obj data args = Py.ok (obj', info)) :
    obj'.memory = obj.memory := by
  obtain ⟨p, hl, start, r, -, -, -, hout⟩ := femVARXRun_eq_ok h
  rw [Prod.ext_iff] at hout
  have hobj : obj' = _ := hout.1
  rw [hobj]
  rfl

/-- C79: the same for FEM-BV-VARX with equal memories: the weights choose the components with the
smallest squared forecast error. -/
theorem C79_femvarx_nearest {R : Rng ℝ} {solver : LPSolver ℝ} {lstsq : LstSq} {mem : Memory}
    {obj obj' : FEMVARXObj R} {data : Arr2 ℝ} {args : FEMVARXArgs} {info : FEMInfo ℝ}
    (hs : solver.Exact) (hls : lstsq.Exact) (he : lstsq.Ends)
    (hc : obj.Constructed) {L : ℤ} (hL : ∀ a ∈ obj.memory, a = L)
    (hup : args.updateParameters = true) (hw : args.updateWeights = true)
    (hk : 1 < obj.memory.length) (hb : NoEffectiveBound obj.maxTvNorm (data.rows - L.toNat))
    (h : femVARXRun R solver lstsq mem obj data args = Py.ok (obj', info)) :
    ∃ (F : FEMVARXFitted obj' args.externalFactors data.rows data.cols)
      (m : Fin (data.rows - F.L) → ℝ), (F.L : ℤ) = L ∧
      (∀ t, IsLeast (Set.range fun i => F.error data.val t i) (m t)) ∧
      ∑ t, ∑ i, F.G t i * F.error data.val t i = ∑ t, m t ∧
      ∀ t i, 0 < F.G t i → F.error data.val t i = m t := by
  obtain ⟨F, tv, hFL, htv, hadm, hle⟩ := C69_femvarx_weights hs hls he hc hL hup hw hk h
  have hFL' : L.toNat = F.L := by omega
  rw [hFL'] at hb
  have hl := hb.large htv
  have hFk : 0 < F.k := by
    rw [← F.components, femVARXRun_memory h]
    omega
  obtain ⟨m, h1, h2, h3⟩ := unbounded_optimal hFk ((tvAdmissible_iff_of_large hl _).1 hadm)
    fun G' hG' => hle G' ((tvAdmissible_iff_of_large hl _).2 hG')
  exact ⟨F, m, hFL, h1, h2, h3⟩

/-! ### C80: bound zero -/

/-- `max_tv_norm` is the number zero. -/
def ZeroBound (maxTvNorm : NumArg K) : Prop := maxTvNorm = .int 0 ∨ maxTvNorm = .real 0

theorem ZeroBound.eq {m : NumArg K} (h : ZeroBound m) {tv : Option K} (htv : TvBound m tv) :
    tv = some 0 := by
  refine (htv 0).2 ⟨le_refl _, ?_⟩
  rcases h with rfl | rfl
  · exact Or.inr ⟨0, rfl, by simp⟩
  · exact Or.inl rfl

theorem femConstraints_rows {tv : Option K} {k T : ℕ} (hk : 1 < k)
    {con : Option (FEMConstraints (weightParameters tv k T) K)}
    (h : femConstraints tv k T = Py.ok con) : 0 < T := by
  rcases Nat.eq_zero_or_pos T with hT | hT
  · unfold femConstraints at h
    rw [if_pos hk, if_pos hT] at h
    simp at h
  · exact hT

/-- C80.  With bound zero, after every fit (or transform) of FEM-BV-k-means that updates the weights of
two or more components, the weights do not change in time, only components whose total squared
distance to the data is least have weight, and the reported cost is that least total. -/
theorem C80_fembv_constant {R : Rng ℝ} {solver : LPSolver ℝ} (hs : solver.Exact)
    {obj obj' : FEMKMeansObj R} {data : Arr2 ℝ} {args : FEMArgs ℝ} {info : FEMInfo ℝ}
    (hw : args.updateWeights = true) (hb : ZeroBound obj.maxTvNorm)
    (h : femKMeansRun R solver obj data args = Py.ok (obj', info)) :
    ∃ (k : ℕ) (G : Matrix (Fin data.rows) (Fin k) ℝ) (Theta : Matrix (Fin k) (Fin data.cols) ℝ),
      obj'.nComponents = .int k ∧ obj'.Gamma = some (Arr2.of G) ∧ obj'.Theta = some (Arr2.of Theta) ∧
      (1 < k → (∀ t t' j, G t j = G t' j) ∧
        IsLeast (Set.range fun j => ∑ t, sqDist (fun d => data.val t d) (fun d => Theta j d))
          info.cost ∧
        ∀ t j, 0 < G t j →
          ∑ t, sqDist (fun d => data.val t d) (fun d => Theta j d) = info.cost) := by
  obtain ⟨p, theta, gamma, tv, con, r, hp, -, -, htv, hcon, hr, hout⟩ := femKMeansRun_eq_ok h
  obtain ⟨-, hc, -, hk, hm, -⟩ := checkParams_ok hp
  obtain ⟨h1, -, -⟩ := femIterate_good (kmeansLawful p.1 data.val) hk hs (femConstraints_for hcon)
    (leastExist_real (maxTvConstraint_nonneg htv) _ _) obj.require p.2.2 args.updateParameters
    args.updateWeights hm (femStartState data p.1 theta.1 gamma.1) trivial
  obtain ⟨hg, -, -⟩ := h1 r hr
  rw [Prod.ext_iff] at hout
  obtain ⟨rfl, rfl⟩ := hout
  refine ⟨p.1, r.state.Gamma, r.state.params, hc, rfl, rfl, fun hk1 => ?_⟩
  have hT := femConstraints_rows hk1 hcon
  obtain rfl := hb.eq (tvBound_of_ok htv)
  have had := hg.adm hw hk1
  obtain ⟨h2, h3⟩ := constant_optimal hk hT had fun G' hG' => by
    rw [← hg.cost]
    exact hg.least hw hk1 G' hG'
  rw [← hg.cost] at h2 h3
  exact ⟨((tvAdmissible_zero_iff _).1 had).2, h2, h3⟩

/-- C80: moreover, if centroids are updated too and there is more than one iteration, all centroids are
the mean of the data, so that the components cannot be told apart; the cost is the total squared
deviation from the mean. -/
theorem C80_fembv_centroids_coincide {R : Rng ℝ} {solver : LPSolver ℝ} (hs : solver.Exact)
    {obj obj' : FEMKMeansObj R} {data : Arr2 ℝ} {args : FEMArgs ℝ} {info : FEMInfo ℝ}
    (hw : args.updateWeights = true) (hup : args.updateParameters = true)
    (hb : ZeroBound obj.maxTvNorm) (hlen : 1 < info.trace.length)
    (h : femKMeansRun R solver obj data args = Py.ok (obj', info)) :
    ∃ (k : ℕ) (Theta : Matrix (Fin k) (Fin data.cols) ℝ),
      obj'.nComponents = .int k ∧ obj'.Theta = some (Arr2.of Theta) ∧
      (1 < k → (∀ j d, Theta j d = (∑ t, data.val t d) / data.rows) ∧
        info.cost = ∑ t, sqDist (fun d => data.val t d) (fun d => (∑ t, data.val t d) / data.rows)) := by
  obtain ⟨p, theta, gamma, tv, con, r, hp, -, -, htv, hcon, hr, hout⟩ := femKMeansRun_eq_ok h
  obtain ⟨-, hc, -, hk, hm, -⟩ := checkParams_ok hp
  obtain ⟨h1, -, -⟩ := femIterate_good (kmeansLawful p.1 data.val) hk hs (femConstraints_for hcon)
    (leastExist_real (maxTvConstraint_nonneg htv) _ _) obj.require p.2.2 args.updateParameters
    args.updateWeights hm (femStartState data p.1 theta.1 gamma.1) trivial
  obtain ⟨hg, -, -⟩ := h1 r hr
  rw [Prod.ext_iff] at hout
  obtain ⟨rfl, rfl⟩ := hout
  refine ⟨p.1, r.state.params, hc, rfl, fun hk1 => ?_⟩
  have hT := femConstraints_rows hk1 hcon
  obtain rfl := hb.eq (tvBound_of_ok htv)
  rw [hw, hup] at hr
  obtain ⟨G, q, hG, hq⟩ := femIterate_admissible (kmeansLawful p.1 data.val) hk1 hs
    (femConstraints_for hcon) (leastExist_real (maxTvConstraint_nonneg htv) _ _) obj.require p.2.2 hm
    (femStartState data p.1 theta.1 gamma.1) trivial hr hlen
  have hmean := kmeansUpdate_constant (p := q) hT ((tvAdmissible_zero_iff G).1 hG).2 hq
  refine ⟨hmean, ?_⟩
  have had := hg.adm hw hk1
  obtain ⟨⟨⟨j, hj⟩, -⟩, -⟩ := constant_optimal hk hT had fun G' hG' => by
    rw [← hg.cost]
    exact hg.least hw hk1 G' hG'
  refine (hg.cost.trans hj.symm).trans ?_
  refine Finset.sum_congr rfl fun t _ => ?_
  change ∑ d, (data.val t d - r.state.params j d) ^ 2 = ∑ d, _
  exact Finset.sum_congr rfl fun d _ => by rw [hmean j d]

/-- C80: with bound zero the weights of FEM-BV-VARX (equal memories) do not change in time either, and
only components with the least total squared forecast error have weight. -/
theorem C80_femvarx_constant {R : Rng ℝ} {solver : LPSolver ℝ} {lstsq : LstSq} {mem : Memory}
    {obj obj' : FEMVARXObj R} {data : Arr2 ℝ} {args : FEMVARXArgs} {info : FEMInfo ℝ}
    (hs : solver.Exact) (hls : lstsq.Exact) (he : lstsq.Ends)
    (hc : obj.Constructed) {L : ℤ} (hL : ∀ a ∈ obj.memory, a = L)
    (hup : args.updateParameters = true) (hw : args.updateWeights = true)
    (hk : 1 < obj.memory.length) (hb : ZeroBound obj.maxTvNorm)
    (h : femVARXRun R solver lstsq mem obj data args = Py.ok (obj', info)) :
    ∃ (F : FEMVARXFitted obj' args.externalFactors data.rows data.cols) (m : ℝ), (F.L : ℤ) = L ∧
      (∀ t t' i, F.G t i = F.G t' i) ∧
      IsLeast (Set.range fun i => ∑ t, F.error data.val t i) m ∧
      ∑ t, ∑ i, F.G t i * F.error data.val t i = m ∧
      ∀ t i, 0 < F.G t i → ∑ t, F.error data.val t i = m := by
  obtain ⟨F, tv, hFL, htv, hadm, hle⟩ := C69_femvarx_weights hs hls he hc hL hup hw hk h
  obtain rfl := hb.eq htv
  have hFk : 0 < F.k := by
    rw [← F.components, femVARXRun_memory h]
    omega
  obtain ⟨h2, h3⟩ := constant_optimal (D := fun t i => F.error data.val t i) hFk
    (Nat.sub_pos_of_lt F.hL) hadm hle
  exact ⟨F, _, hFL, ((tvAdmissible_zero_iff _).1 hadm).2, h2, rfl, h3⟩

/-! ### C81: the bound counts regime changes -/

/-- C81.  A hard assignment `a` of the samples to two or more components satisfies the constraints that
are handed to the solver exactly if each component is entered or left at most as many times as the
bound says (if there is a bound). -/
theorem C81_regime_changes {k T : ℕ} (hk : 1 < k) (hT : 0 < T) {m : NumArg K} (hm : m ≠ .other)
    (a : Fin T → Fin k) :
    ∃ tv con, maxTvConstraint m = Py.ok tv ∧ TvBound m tv ∧
      femConstraints tv k T = Py.ok (some con) ∧
      ((∃ v, con.Aeq.mulVec v = con.beq ∧ (∀ r, con.Aub.mulVec v r ≤ con.bub r) ∧
          ∀ (t : Fin T) (i : Fin k), v ⟨t * k + i, weightIndex_lt t.2 i.2⟩ = if i = a t then 1 else 0) ↔
        ∀ b, tv = some b → ∀ i, ((((Finset.univ : Finset (Fin (T - 1))).filter fun t : Fin (T - 1) =>
          ¬ ((a ⟨t, by omega⟩ = i) ↔ (a ⟨t + 1, by omega⟩ = i))).card : ℕ) : K) ≤ b) := by
  obtain ⟨tv, con, h1, h2, h3, h4⟩ := C47_constraints (K := K) hk hT hm
  refine ⟨tv, con, h1, h2, h3, (h4 (pointWeights a)).trans ?_⟩
  constructor
  · intro h b hb i
    exact (totalVariation_point a i).symm.le.trans (h.2 b hb i)
  · intro h
    exact ⟨pointWeights_stochastic a, fun b hb i => (totalVariation_point a i).le.trans (h b hb i)⟩

/-! ### Examples -/

/-- The example object without a bound, with a bound that has no effect on three samples, and with
bound zero. -/
noncomputable def demoFEMBound (m : NumArg ℝ) : FEMKMeansObj demoRngReal := { demoFEM with maxTvNorm := m }

example : NoEffectiveBound (.none : NumArg ℝ) 3 ∧ NoEffectiveBound (.int 2 : NumArg ℝ) 3 ∧
    NoEffectiveBound (.real (-1) : NumArg ℝ) 3 ∧ ¬ NoEffectiveBound (.real (3 / 2) : NumArg ℝ) 3 := by
  refine ⟨⟨fun x h => by simp at h, fun z h => by simp at h⟩, ⟨fun x h => by simp at h, fun z h => ?_⟩,
    ⟨fun x h => ?_, fun z h => by simp at h⟩, fun h => ?_⟩
  · rw [← NumArg.int.inj h]
    norm_num
  · rw [← NumArg.real.inj h]
    norm_num
  · rcases h.1 _ rfl with h | h <;> norm_num at h

/-- A transform of the example returns. -/
theorem demoFEMBound_transform {solver : LPSolver ℝ} (hs : solver.Exact) {m : NumArg ℝ}
    (hm : m ≠ .other) : ∃ r, femKMeansRun demoRngReal solver (demoFEMBound m) demoFEMData
      { updateParameters := false, updateWeights := true } = Py.ok r := by
  rcases C50_fit_returns demoRngReal_lawful
    (fun m n g i j => Nat.cast_pos.2 (Nat.succ_pos _)) hs (demoFEMBound m) demoFEMData
    { updateParameters := false, updateWeights := true } (by simp) (k := 2) (Or.inl rfl)
    (by simp [demoFEMData, Arr2.of]) demoFEM_valid hm with h | ⟨h, -⟩
  · exact h
  · simp at h

/-- C79 at work: with bound 2 on three samples each sample is assigned to the nearest of the centroids. -/
example : ∃ (solver : LPSolver ℝ) (r : FEMKMeansObj demoRngReal × FEMInfo ℝ) (k : ℕ)
    (Theta : Matrix (Fin k) (Fin 1) ℝ) (m : Fin 3 → ℝ), solver.Exact ∧
    femKMeansRun demoRngReal solver (demoFEMBound (.int 2)) demoFEMData
      { updateParameters := false, updateWeights := true } = Py.ok r ∧ k = 2 ∧
    (∀ t, IsLeast (Set.range fun j => sqDist (fun d => demoFEMData.val t d) (fun d => Theta j d)) (m t)) ∧
    r.2.cost = ∑ t, m t := by
  obtain ⟨solver, hs⟩ := exists_exact_solver (K := ℝ)
  obtain ⟨⟨o, i⟩, h⟩ := demoFEMBound_transform hs (m := .int 2) (by simp)
  have hb : NoEffectiveBound (demoFEMBound (.int 2)).maxTvNorm demoFEMData.rows := by
    refine ⟨fun x h => by simp [demoFEMBound] at h, fun z h => Or.inr ?_⟩
    rw [← NumArg.int.inj h]
    norm_num [demoFEMData, Arr2.of]
  obtain ⟨k, G, Theta, hk, -, -, hrest⟩ := C79_fembv_nearest hs rfl hb h
  have hk2 : k = 2 := by
    obtain ⟨p, theta, gamma, tv, con, r, hp, -, -, -, -, -, hout⟩ := femKMeansRun_eq_ok h
    rw [Prod.ext_iff] at hout
    obtain ⟨rfl, -⟩ := hout
    have : (2 : ℤ) = (k : ℤ) := NumArg.int.inj hk
    exact_mod_cast this.symm
  obtain ⟨m, h1, h2, -⟩ := hrest (by omega)
  exact ⟨solver, (o, i), k, Theta, m, hs, h, hk2, h1, h2⟩

/-- Two iterations from equal weights, bound zero. -/
noncomputable def demoFEMZero : FEMKMeansObj demoRngReal where
  nComponents := .int 2
  maxTvNorm := .int 0
  init := none
  maxIterations := .int 2
  tolerance := .int 0
  randomState := (0 : ℕ)
  require := false

/-- Equal weights. -/
noncomputable def demoHalf : Matrix (Fin 3) (Fin 2) ℝ := fun _ _ => 1 / 2

theorem demoHalf_admissible : TvAdmissible (some 0) demoHalf := by
  refine (tvAdmissible_zero_iff _).2 ⟨fun t => ⟨fun j => ?_, ?_⟩, fun _ _ _ => rfl⟩
  · norm_num [demoHalf]
  · rw [Fin.sum_univ_two]
    norm_num [demoHalf]

/-- The fit of the example with bound zero returns after two iterations. -/
theorem demoFEMZero_fit : ∃ (solver : LPSolver ℝ) (r : FEMKMeansObj demoRngReal × FEMInfo ℝ),
    solver.Exact ∧ r.2.trace.length = 2 ∧
    femKMeansRun demoRngReal solver demoFEMZero demoFEMData
      { parameters := some (Arr2.of (!![0; 1] : Matrix (Fin 2) (Fin 1) ℝ)),
        weights := some (Arr2.of demoHalf), init := some "custom" } = Py.ok r := by
  have hp : checkParams (defaultComponents demoFEMZero.nComponents demoFEMData.cols)
      demoFEMZero.maxIterations demoFEMZero.tolerance = Py.ok ((2, 2, 0) : ℕ × ℕ × ℝ) := by
    simp [demoFEMZero, defaultComponents, checkParams]
  have hw : checkUnitRowSums demoHalf = Py.ok () := by
    refine if_pos fun t => ?_
    have : ∑ j, demoHalf t j = 1 := (demoHalf_admissible.1 t).2
    rw [iscloseOne, this]
    norm_num
  have hw' : femInitWeights demoRngReal 3 2 (some (Arr2.of demoHalf)) (some "custom")
      demoFEMZero.randomState = Py.ok (demoHalf, demoFEMZero.randomState) := by
    have h' : femCheckInitWeights (Arr2.of demoHalf) 3 2 = Py.ok demoHalf := by
      unfold femCheckInitWeights
      rw [show checkArray (some (Arr2.of demoHalf)) = Py.ok (Arr2.of demoHalf) from rfl,
        Py.ok_bind, show checkArrayShape (Arr2.of demoHalf) 3 2 = Py.ok demoHalf from rfl,
        Py.ok_bind, hw]
      rfl
    unfold femInitWeights
    rw [if_pos rfl]
    simp only [h', Py.ok_bind]
    rfl
  have htv : maxTvConstraint demoFEMZero.maxTvNorm = Py.ok (some (0 : ℝ)) := by
    simp [demoFEMZero, maxTvConstraint]
  obtain ⟨con, hcon, henc⟩ := femConstraints_encodes (K := ℝ) (k := 2) (T := 3) (some 0) (by norm_num)
    (by norm_num)
  have hu : ∀ p, kmeansUpdate (!![0; 1; 5] : Matrix (Fin 3) (Fin 1) ℝ) demoHalf p =
      Py.ok (fun _ _ => 2 : Matrix (Fin 2) (Fin 1) ℝ) := by
    intro p
    unfold kmeansUpdate
    simp only
    rw [if_neg]
    · congr 1
      funext j d
      rw [show d = 0 from Subsingleton.elim d 0]
      simp [Fin.sum_univ_three, demoHalf]
      norm_num
    · rintro ⟨j, -, hj⟩
      simp [demoHalf] at hj
  obtain ⟨r, hr, hlen⟩ := femIterate_favourite_twice
    (comp := kmeansComp 2 (!![0; 1; 5] : Matrix (Fin 3) (Fin 1) ℝ))
    (p := (!![0; 1] : Matrix (Fin 2) (Fin 1) ℝ)) (by norm_num) henc demoHalf_admissible
    (hu !![0; 1]) (hu fun _ _ => 2)
    (fun G' hG' => by
      refine Finset.sum_le_sum fun t _ => le_of_eq ?_
      change ∑ i, demoHalf t i * kmeansDistance _ (fun _ _ => 2) t i =
        ∑ i, G' t i * kmeansDistance _ (fun _ _ => 2) t i
      simp only [kmeansDistance]
      rw [← Finset.sum_mul, ← Finset.sum_mul, (hG'.1 t).2, (demoHalf_admissible.1 t).2])
    (kmeansDistance (!![0; 1; 5] : Matrix (Fin 3) (Fin 1) ℝ) (!![0; 1] : Matrix (Fin 2) (Fin 1) ℝ))
  refine ⟨preferringSolver demoHalf, femFinish demoFEMZero demoFEMData (2, 2, 0)
    demoFEMZero.randomState r, preferringSolver_exact _, hlen, ?_⟩
  rw [femKMeansRun_eq, hp, Py.ok_bind]
  exact Py.bind_eq_ok.2 ⟨_, rfl, Py.bind_eq_ok.2 ⟨_, hw', Py.bind_eq_ok.2 ⟨_, htv,
    Py.bind_eq_ok.2 ⟨_, hcon, Py.bind_eq_ok.2 ⟨r, hr, rfl⟩⟩⟩⟩⟩

/-- C80 at work: both centroids are the mean 2 of the samples 0, 1 and 5, the weights are constant, and
the cost is 4 + 1 + 9. -/
example : ∃ (solver : LPSolver ℝ) (r : FEMKMeansObj demoRngReal × FEMInfo ℝ), solver.Exact ∧
    femKMeansRun demoRngReal solver demoFEMZero demoFEMData
      { parameters := some (Arr2.of (!![0; 1] : Matrix (Fin 2) (Fin 1) ℝ)),
        weights := some (Arr2.of demoHalf), init := some "custom" } = Py.ok r ∧
    r.1.Theta = some (Arr2.of (fun _ _ => 2 : Matrix (Fin 2) (Fin 1) ℝ)) ∧ r.2.cost = 14 := by
  obtain ⟨solver, ⟨o, i⟩, hs, hlen, h⟩ := demoFEMZero_fit
  obtain ⟨k, Theta, hk, hTh, hrest⟩ := C80_fembv_centroids_coincide hs rfl rfl (Or.inl rfl)
    (by simp only at hlen; omega) h
  have hk2 : k = 2 := by
    obtain ⟨p, theta, gamma, tv, con, r, hp, -, -, -, -, -, hout⟩ := femKMeansRun_eq_ok h
    rw [Prod.ext_iff] at hout
    obtain ⟨rfl, -⟩ := hout
    have : (2 : ℤ) = (k : ℤ) := NumArg.int.inj hk
    exact_mod_cast this.symm
  subst hk2
  obtain ⟨h1, h2⟩ := hrest (by norm_num)
  have hmean : ∀ d : Fin 1, (∑ t : Fin 3, (!![0; 1; 5] : Matrix (Fin 3) (Fin 1) ℝ) t d) / ((3 : ℕ) : ℝ) = 2 := by
    intro d
    rw [show d = 0 from Subsingleton.elim d 0]
    simp [Fin.sum_univ_three]
    norm_num
  refine ⟨solver, (o, i), hs, h, ?_, ?_⟩
  · refine hTh.trans (congrArg (fun A : Matrix (Fin 2) (Fin 1) ℝ => some (Arr2.of A)) ?_)
    funext j d
    exact (h1 j d).trans (hmean d)
  · refine h2.trans ?_
    change ∑ t : Fin 3, sqDist (fun d : Fin 1 => (!![0; 1; 5] : Matrix (Fin 3) (Fin 1) ℝ) t d)
      (fun d : Fin 1 => (∑ t : Fin 3, (!![0; 1; 5] : Matrix (Fin 3) (Fin 1) ℝ) t d) / ((3 : ℕ) : ℝ)) = 14
    simp only [hmean]
    simp [Fin.sum_univ_three, sqDist]
    norm_num

/-- The FEM-BV-VARX example with a bound that has no effect or bound zero. -/
noncomputable def demoVARXBound (m : NumArg ℝ) : FEMVARXObj demoRngReal := { demoVARX with maxTvNorm := m }

theorem demoVARXBound_fit {solver : LPSolver ℝ} {lstsq : LstSq} {mem : Memory} (hs : solver.Exact)
    (htot : ∀ m n r a b, ∃ x, lstsq m n r a b = Py.ok x) {m : NumArg ℝ} (hm : m ≠ .other) :
    ∃ r, femVARXRun demoRngReal solver lstsq mem (demoVARXBound m) (Arr2.of varxDemo)
      (demoVARXArgs true) = Py.ok r := by
  obtain ⟨tv, htv⟩ := maxTvConstraint_number hm
  refine varx_run_once (L := 1) (models := fun _ => varxDemoModel mem) (tv := tv) hs htot (by norm_num)
    (by norm_num) demoVARX_params htv rfl demoVARX_max rfl ?_ (if_pos fun i => Or.inl rfl)
    (fun _ => rfl) (fun _ => varxDemo_residual mem) rfl demoVARX_weights ?_
  · refine (congrArg (fun q => varxModels mem varxDemo q 1 (demoVARXArgs true).externalFactors)
      (demoVARX_mems rfl)).trans ?_
    exact pyPi_eq_ok.2 fun i => varxDemo_model mem
  · intro t i
    simp only [demoVARXWeights]
    split_ifs <;> norm_num

/-- C79 and C80 for FEM-BV-VARX: the hypotheses are met. -/
example {mem : Memory} : ∃ (solver : LPSolver ℝ) (lstsq : LstSq) (obj' obj'' : FEMVARXObj demoRngReal)
    (info info' : FEMInfo ℝ) (F : FEMVARXFitted obj' (some (Arr2.of varxDemoU)) 4 1)
    (F' : FEMVARXFitted obj'' (some (Arr2.of varxDemoU)) 4 1),
    femVARXRun demoRngReal solver lstsq mem (demoVARXBound .none) (Arr2.of varxDemo)
      (demoVARXArgs true) = Py.ok (obj', info) ∧
    femVARXRun demoRngReal solver lstsq mem (demoVARXBound (.int 0)) (Arr2.of varxDemo)
      (demoVARXArgs true) = Py.ok (obj'', info') ∧
    (∀ t i, 0 < F.G t i → ∀ j, F.error varxDemo t i ≤ F.error varxDemo t j) ∧
    ∀ t t' i, F'.G t i = F'.G t' i := by
  obtain ⟨solver, lstsq, hs, hls, he, hr, htot⟩ := exists_exact_tools
  obtain ⟨⟨o, inf⟩, h⟩ := demoVARXBound_fit (mem := mem) (m := .none) hs htot (by simp)
  obtain ⟨⟨o', inf'⟩, h'⟩ := demoVARXBound_fit (mem := mem) (m := .int 0) hs htot (by simp)
  obtain ⟨F, m, -, h1, -, h2⟩ := C79_femvarx_nearest (obj := demoVARXBound .none) hs hls he
    demoVARX_constructed demoVARX_memory rfl rfl (by simp [demoVARXBound, demoVARX])
    ⟨fun x h => by simp [demoVARXBound] at h, fun z h => by simp [demoVARXBound] at h⟩ h
  obtain ⟨F', -, -, h3, -⟩ := C80_femvarx_constant (obj := demoVARXBound (.int 0)) hs hls he
    demoVARX_constructed demoVARX_memory rfl rfl (by simp [demoVARXBound, demoVARX]) (Or.inl rfl) h'
  refine ⟨solver, lstsq, o, o', inf, inf', F, F', h, h', fun t i hi j => ?_, h3⟩
  exact (h2 t i hi).le.trans ((h1 t).2 ⟨j, rfl⟩)

/-- C81: going from one of two components to the other and back is two changes for each. -/
example : ∃ tv con, maxTvConstraint (.int 1 : NumArg ℚ) = Py.ok tv ∧
    femConstraints tv 2 3 = Py.ok (some con) ∧
    ¬ ∃ v, con.Aeq.mulVec v = con.beq ∧ (∀ r, con.Aub.mulVec v r ≤ con.bub r) ∧
      ∀ (t : Fin 3) (i : Fin 2), v ⟨t * 2 + i, weightIndex_lt t.2 i.2⟩ =
        if i = ![0, 1, 0] t then 1 else 0 := by
  obtain ⟨tv, con, h1, h2, h3, h4⟩ := C81_regime_changes (K := ℚ) (k := 2) (T := 3) (m := .int 1)
    (by norm_num) (by norm_num) (by simp) ![0, 1, 0]
  refine ⟨tv, con, h1, h3, fun h => ?_⟩
  have := (h4.1 h) 1 ((h2 1).2 ⟨by norm_num, Or.inr ⟨1, rfl, by norm_num⟩⟩) 0
  have e : (((Finset.univ : Finset (Fin (3 - 1))).filter fun t : Fin (3 - 1) =>
      ¬ (((![0, 1, 0] : Fin 3 → Fin 2) ⟨t, by omega⟩ = 0) ↔
        ((![0, 1, 0] : Fin 3 → Fin 2) ⟨t + 1, by omega⟩ = 0))).card) = 2 := by decide
  rw [e] at this
  norm_num at this

end Reor
