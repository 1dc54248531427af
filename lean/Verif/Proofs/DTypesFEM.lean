import Verif.Model.DTypesFEM
import Verif.Proofs.DTypes
import Verif.Proofs.FEMRun
import Verif.Proofs.FEMFrozen
import Verif.Proofs.FEMBounds
import Verif.Proofs.PWVARX

/-!
Truncation, and FEM-BV iterations of component models that need not be exact.
-/

set_option linter.unusedSectionVars false

namespace Reor

open scoped BigOperators
open Spec

/-! ### Truncation -/

section Truncate

variable {K : Type} [Field K] [LinearOrder K] [IsStrictOrderedRing K] [FloorRing K]

theorem truncateInt_of_nonneg {x : K} (h : 0 ≤ x) : truncateInt x = ((⌊x⌋ : ℤ) : K) := if_pos h

theorem truncateInt_nonneg {x : K} (h : 0 ≤ x) : 0 ≤ truncateInt x := by
  rw [truncateInt_of_nonneg h]
  exact_mod_cast Int.floor_nonneg.2 h

theorem truncateInt_le {x : K} (h : 0 ≤ x) : truncateInt x ≤ x := by
  rw [truncateInt_of_nonneg h]
  exact Int.floor_le x

theorem lt_truncateInt_add_one {x : K} (h : 0 ≤ x) : x < truncateInt x + 1 := by
  rw [truncateInt_of_nonneg h]
  exact Int.lt_floor_add_one x

theorem truncateInt_intCast (z : ℤ) : truncateInt (z : K) = z := by
  unfold truncateInt
  split_ifs <;> simp

theorem truncateInt_int (x : K) : ∃ z : ℤ, truncateInt x = z := by
  unfold truncateInt
  split_ifs
  · exact ⟨_, rfl⟩
  · exact ⟨_, rfl⟩

theorem abs_truncateInt_le (x : K) : |truncateInt x| ≤ |x| := by
  rcases le_or_gt 0 x with h | h
  · rw [abs_of_nonneg h, abs_of_nonneg (truncateInt_nonneg h)]
    exact truncateInt_le h
  · unfold truncateInt
    rw [if_neg (not_le.2 h), abs_of_neg h, abs_of_nonpos]
    · exact neg_le_neg (Int.le_ceil x)
    · exact_mod_cast Int.ceil_nonpos.2 h.le

theorem abs_sub_truncateInt_lt (x : K) : |x - truncateInt x| < 1 := by
  rcases le_or_gt 0 x with h | h
  · rw [abs_of_nonneg (sub_nonneg.2 (truncateInt_le h))]
    linarith [lt_truncateInt_add_one h]
  · unfold truncateInt
    rw [if_neg (not_le.2 h), abs_of_nonpos (sub_nonpos.2 (Int.le_ceil x))]
    linarith [Int.ceil_lt_add_one x]

theorem truncateInt_eq_zero {x : K} (h : |x| < 1) : truncateInt x = 0 := by
  obtain ⟨h1, h2⟩ := abs_lt.1 h
  unfold truncateInt
  split_ifs with c
  · rw [Int.floor_eq_zero_iff.2 ⟨c, h2⟩, Int.cast_zero]
  · rw [Int.ceil_eq_zero_iff.2 ⟨h1, (not_le.1 c).le⟩, Int.cast_zero]

theorem DType.storeMat_float {m n : ℕ} (A : Matrix (Fin m) (Fin n) K) :
    DType.float.storeMat A = A := rfl

end Truncate

/-! ### Iterations of any component model -/

section Iterate

variable {K : Type} [Field K] [LinearOrder K] [IsStrictOrderedRing K]
variable {P : Type} {T k : ℕ} {tv : Option K} {comp : FEMComp P T k K} {I : P → Prop}
  {solver : LPSolver K} {con : Option (FEMConstraints (k * T + auxParameters tv k T) K)}

/-- What holds of the state and the cost of an iteration whatever the component model. -/
structure FEMReported (tv : Option K) (comp : FEMComp P T k K) (I : P → Prop) (uw : Bool)
    (s : FEMState P T k K) (c : K) : Prop where
  inv : I s.params
  cost : c = assignmentCost s.Gamma (comp.distance s.params)
  adm : uw = true → 1 < k → TvAdmissible tv s.Gamma
  least : uw = true → 1 < k → ∀ G, TvAdmissible tv G → c ≤ assignmentCost G (comp.distance s.params)

theorem femStep_reported (hI : ∀ G p p', I p → comp.update G p = Py.ok p' → I p') (hk : 0 < k)
    (hs : solver.Exact) (hcon : ConstraintsFor tv T k con) (hmin : LeastExist tv T k)
    {require : Bool} {tol : K} {up uw : Bool} {n : ℕ} {s : FEMState P T k K} {c : K}
    (h0 : I s.params) (hc : c = assignmentCost s.Gamma (comp.distance s.params))
    {r : (FEMState P T k K × K) × Bool}
    (h : femStep comp solver con require tol up uw n s c = Py.ok r) :
    FEMReported tv comp I uw r.1.1 r.1.2 := by
  unfold femStep at h
  obtain ⟨q, hq, h⟩ := Py.bind_eq_ok.1 h
  have hq' : I q.1.params ∧ q.2 = assignmentCost q.1.Gamma (comp.distance q.1.params) := by
    cases up with
    | false =>
      obtain rfl := Py.ok.inj hq
      exact ⟨h0, hc⟩
    | true =>
      simp only [femParametersPhase_eq] at hq
      obtain ⟨p, hp, hq⟩ := Py.bind_eq_ok.1 hq
      obtain ⟨_, -, hq⟩ := Py.bind_eq_ok.1 hq
      obtain rfl := Py.ok.inj hq
      exact ⟨hI _ _ _ h0 hp, rfl⟩
  cases uw with
  | false =>
    obtain rfl := Py.ok.inj h
    exact ⟨hq'.1, hq'.2, fun h => by simp at h, fun h => by simp at h⟩
  | true =>
    obtain ⟨G, hG, he⟩ := femWeightsPhase_eq hk comp hs hcon hmin require tol n q.1 c
    simp only [he] at h
    obtain ⟨_, -, h⟩ := Py.bind_eq_ok.1 h
    obtain rfl := Py.ok.inj h
    exact ⟨hq'.1, rfl, fun _ h => hG.admissible h, fun _ h => hG.least h⟩

theorem femLoop_reported (hI : ∀ G p p', I p → comp.update G p = Py.ok p' → I p') (hk : 0 < k)
    (hs : solver.Exact) (hcon : ConstraintsFor tv T k con) (hmin : LeastExist tv T k)
    {require : Bool} {tol : K} {up uw : Bool} :
    ∀ (is : List ℕ) (s : FEMState P T k K) (c : K) (last : Option ℕ) (tr : List K) (fl : ℕ)
      (r : FEMResult P T k K), I s.params →
      c = assignmentCost s.Gamma (comp.distance s.params) →
      (last ≠ none → FEMReported tv comp I uw s c) →
      femLoop comp solver con require tol up uw is s c last tr fl = Py.ok r →
      FEMReported tv comp I uw r.state r.cost := by
  intro is
  induction is with
  | nil =>
    intro s c last tr fl r _ _ hl h
    cases last with
    | none => simp [femLoop] at h
    | some n =>
      simp only [femLoop, Py.ok.injEq] at h
      subst h
      exact hl (by simp)
  | cons i is ih =>
    intro s c last tr fl r h0 hc _ h
    rw [femLoop_cons] at h
    obtain ⟨q, hq, h⟩ := Py.bind_eq_ok.1 h
    have hg := femStep_reported hI hk hs hcon hmin h0 hc hq
    by_cases c1 : |q.1.2 - c| < tol
    · rw [if_pos c1] at h
      obtain rfl := Py.ok.inj h
      exact hg
    · rw [if_neg c1] at h
      exact ih _ _ _ _ _ r hg.inv hg.cost (fun _ => hg) h

theorem femIterate_reported (hI : ∀ G p p', I p → comp.update G p = Py.ok p' → I p') (hk : 0 < k)
    (hs : solver.Exact) (hcon : ConstraintsFor tv T k con) (hmin : LeastExist tv T k)
    {require : Bool} {tol : K} {up uw : Bool} {m : ℕ} {s : FEMState P T k K} (h0 : I s.params)
    {r : FEMResult P T k K} (h : femIterate comp solver con require tol m up uw s = Py.ok r) :
    FEMReported tv comp I uw r.state r.cost := by
  unfold femIterate at h
  exact femLoop_reported hI hk hs hcon hmin _ (s.evaluateCost comp).1 (s.evaluateCost comp).2 none
    _ _ _ h0 rfl (by simp) h

end Iterate

section Frozen

variable {K : Type} [Field K] [LinearOrder K] [IsStrictOrderedRing K]
variable {P : Type} {T k e : ℕ} {comp comp' : FEMComp P T k K} {solver : LPSolver K}
  {con : Option (FEMConstraints (k * T + e) K)}

/-- If the parameters are not updated only their distances matter. -/
theorem femLoop_congr {require : Bool} {tol : K} {uw : Bool} {p : P}
    (hd : comp.distance p = comp'.distance p) :
    ∀ (is : List ℕ) (s : FEMState P T k K) (c : K) (last : Option ℕ) (tr : List K) (fl : ℕ),
      s.params = p →
      femLoop comp solver con require tol false uw is s c last tr fl =
        femLoop comp' solver con require tol false uw is s c last tr fl := by
  intro is
  induction is with
  | nil => intros; rfl
  | cons i is ih =>
    intro s c last tr fl hp
    have hev : ∀ s : FEMState P T k K, s.params = p → s.evaluateCost comp = s.evaluateCost comp' := by
      intro s h
      simp only [FEMState.evaluateCost, FEMState.evaluateDistance, h, hd]
    have hev' : s.evaluateDistance comp = s.evaluateDistance comp' := by
      simp only [FEMState.evaluateDistance, hp, hd]
    have hw : s.updateWeights comp solver con = s.updateWeights comp' solver con := by
      unfold FEMState.updateWeights
      rw [hev']
    have hstep : femStep comp solver con require tol false uw i s c =
        femStep comp' solver con require tol false uw i s c ∧
        ∀ r, femStep comp' solver con require tol false uw i s c = Py.ok r → r.1.1.params = p := by
      cases uw with
      | false =>
        refine ⟨rfl, fun r hr => ?_⟩
        obtain rfl := Py.ok.inj (show Py.ok ((s, c), false) = Py.ok r from hr)
        exact hp
      | true =>
        have hpar : ∀ q, s.updateWeights comp' solver con = Py.ok q → q.1.params = p := by
          intro q hq
          rw [updateWeights_params hq, hp]
        constructor
        · show femWeightsPhase comp solver con require tol i s c =
            femWeightsPhase comp' solver con require tol i s c
          unfold femWeightsPhase
          rw [hw]
          cases hq : s.updateWeights comp' solver con with
          | ok q =>
            simp only [Py.ok_bind]
            rw [hev _ (hpar q hq)]
          | raise e => rfl
          | diverge => rfl
        · intro r hr
          replace hr : femWeightsPhase comp' solver con require tol i s c = Py.ok r := hr
          unfold femWeightsPhase at hr
          obtain ⟨q, hq, hr⟩ := Py.bind_eq_ok.1 hr
          obtain ⟨_, -, hr⟩ := Py.bind_eq_ok.1 hr
          obtain rfl := Py.ok.inj hr
          exact hpar q hq
    show (femStep comp solver con require tol false uw i s c >>= fun r => _) =
      (femStep comp' solver con require tol false uw i s c >>= fun r => _)
    rw [hstep.1]
    cases hq : femStep comp' solver con require tol false uw i s c with
    | ok r =>
      simp only [Py.ok_bind]
      rw [ih _ _ _ _ _ (hstep.2 r hq)]
    | raise e => rfl
    | diverge => rfl

theorem femIterate_congr {require : Bool} {tol : K} {uw : Bool} {m : ℕ} {s : FEMState P T k K}
    (hd : comp.distance s.params = comp'.distance s.params) :
    femIterate comp solver con require tol m false uw s =
      femIterate comp' solver con require tol m false uw s := by
  unfold femIterate
  have : s.evaluateCost comp = s.evaluateCost comp' := by
    simp only [FEMState.evaluateCost, FEMState.evaluateDistance, hd]
  simp only [this]
  exact femLoop_congr hd _ _ _ _ _ _ rfl

end Frozen

/-! ### FEM-BV-k-means -/

section KMeans

variable {K : Type} [Field K] [LinearOrder K] [IsStrictOrderedRing K] [FloorRing K]

theorem femKMeansRunT_float {R : Rng K} {solver : LPSolver K} {obj : FEMKMeansObj R} {data : Arr2 K}
    {args : FEMArgs K} : femKMeansRunT R solver obj .float data args =
      femKMeansRun R solver obj data args := rfl

theorem femKMeansRunT_eq_ok {R : Rng K} {solver : LPSolver K} {obj : FEMKMeansObj R} {t : DType}
    {data : Arr2 K} {args : FEMArgs K} {out : FEMKMeansObj R × FEMInfo K}
    (h : femKMeansRunT R solver obj t data args = Py.ok out) :
    ∃ p theta gamma tv con r,
      checkParams (defaultComponents obj.nComponents data.cols) obj.maxIterations obj.tolerance =
        Py.ok p ∧
      kmeansInit R data.val p.1 args.parameters args.init obj.randomState = Py.ok theta ∧
      femInitWeights R data.rows p.1 args.weights args.init theta.2 = Py.ok gamma ∧
      maxTvConstraint obj.maxTvNorm = Py.ok tv ∧ femConstraints tv p.1 data.rows = Py.ok con ∧
      femIterate (kmeansCompT t p.1 data.val) solver (e := auxParameters tv p.1 data.rows) con
        obj.require p.2.2 p.2.1 args.updateParameters args.updateWeights
        ⟨gamma.1, theta.1, (kmeansCompT t p.1 data.val).distance theta.1⟩ = Py.ok r ∧
      out = femFinish obj data p gamma.2 r := by
  unfold femKMeansRunT at h
  obtain ⟨p, hp, h⟩ := Py.bind_eq_ok.1 h
  obtain ⟨theta, hth, h⟩ := Py.bind_eq_ok.1 h
  obtain ⟨gamma, hga, h⟩ := Py.bind_eq_ok.1 h
  obtain ⟨tv, htv, h⟩ := Py.bind_eq_ok.1 h
  obtain ⟨con, hcon, h⟩ := Py.bind_eq_ok.1 h
  obtain ⟨r, hr, h⟩ := Py.bind_eq_ok.1 h
  exact ⟨p, theta, gamma, tv, con, r, hp, hth, hga, htv, hcon, hr, (Py.ok.inj h).symm⟩

/-- Truncated distances give a cost that is lower by less than the number of samples. -/
theorem assignmentCost_truncated {T k : ℕ} (hT : 0 < T) {G D : Matrix (Fin T) (Fin k) K}
    (hG : RowStochastic G) (hD : ∀ t j, 0 ≤ D t j) :
    assignmentCost G (DType.int.storeMat D) ≤ assignmentCost G D ∧
      assignmentCost G D < assignmentCost G (DType.int.storeMat D) + T := by
  constructor
  · exact Finset.sum_le_sum fun t _ => Finset.sum_le_sum fun j _ =>
      mul_le_mul_of_nonneg_left (truncateInt_le (hD t j)) ((hG t).1 j)
  · have key : ∀ t, ∑ j, G t j * D t j < ∑ j, G t j * DType.int.storeMat D t j + 1 := by
      intro t
      have h1 : ∑ j, G t j * DType.int.storeMat D t j + 1 =
          ∑ j, G t j * (DType.int.storeMat D t j + 1) := by
        simp only [mul_add, mul_one, Finset.sum_add_distrib]
        rw [(hG t).2]
      rw [h1]
      obtain ⟨j, hj⟩ : ∃ j, 0 < G t j := by
        by_contra hc
        push Not at hc
        have : ∑ j, G t j ≤ 0 := Finset.sum_nonpos fun j _ => hc j
        rw [(hG t).2] at this
        exact absurd this (not_le.2 one_pos)
      refine Finset.sum_lt_sum (fun j _ => ?_) ⟨j, Finset.mem_univ _, ?_⟩
      · exact mul_le_mul_of_nonneg_left (lt_truncateInt_add_one (hD t j)).le ((hG t).1 j)
      · exact mul_lt_mul_of_pos_left (lt_truncateInt_add_one (hD t j)) hj
    have hcard : (T : K) = ∑ _t : Fin T, (1 : K) := by simp
    unfold assignmentCost
    rw [hcard, ← Finset.sum_add_distrib]
    exact Finset.sum_lt_sum (fun t _ => (key t).le) ⟨⟨0, hT⟩, Finset.mem_univ _, key _⟩

end KMeans

/-! ### FEM-BV-VARX -/

section Update

variable {P : Type} {T k e : ℕ} {comp : FEMComp P T k ℝ} {solver : LPSolver ℝ}
  {con : Option (FEMConstraints (k * T + e) ℝ)} {require : Bool} {tol : ℝ} {uw : Bool} {m : ℕ}
  {s : FEMState P T k ℝ}

/-- An iteration does not return if the first update of the parameters does not. -/
theorem femIterate_not_ok (hm : 0 < m) (h : ∀ p, comp.update s.Gamma s.params ≠ Py.ok p)
    (r : FEMResult P T k ℝ) : femIterate comp solver con require tol m true uw s ≠ Py.ok r := by
  intro hr
  obtain ⟨m, rfl⟩ : ∃ m', m = m' + 1 := ⟨m - 1, by omega⟩
  unfold femIterate at hr
  rw [List.range_succ_eq_map, femLoop_cons] at hr
  obtain ⟨q, hq, -⟩ := Py.bind_eq_ok.1 hr
  unfold femStep at hq
  obtain ⟨q', hq', -⟩ := Py.bind_eq_ok.1 hq
  simp only [femParametersPhase_eq] at hq'
  obtain ⟨p, hp, -⟩ := Py.bind_eq_ok.1 hq'
  exact h p hp

theorem femIterate_raise (hm : 0 < m) {err : PyErr} (h : comp.update s.Gamma s.params = Py.raise err) :
    femIterate comp solver con require tol m true uw s = Py.raise err := by
  obtain ⟨m, rfl⟩ : ∃ m', m = m' + 1 := ⟨m - 1, by omega⟩
  unfold femIterate
  rw [List.range_succ_eq_map, femLoop_cons]
  refine Py.bind_eq_raise.2 (Or.inl ?_)
  unfold femStep
  refine Py.bind_eq_raise.2 (Or.inl ?_)
  simp only [femParametersPhase_eq]
  exact Py.bind_eq_raise.2 (Or.inl h)

end Update

section VARXFits

variable {D E : ℕ} {m : VARXModel D E} {lstsq : LstSq} {t : DType}

/-- A fit reads its results off the same parameters; the residuals are stored. -/
structure VARXFit.FromT (t : DType) (f : VARXFit m) (params : Matrix (Fin m.nCols) (Fin D) ℝ) :
    Prop where
  residuals : f.residuals = m.residualsT t params
  mu : f.mu = m.readMu params
  A : f.A = m.readA params
  B : f.B = m.readB params
  B0 : f.B0 = m.readB0 params

theorem finishT_eq_ok {params : Matrix (Fin m.nCols) (Fin D) ℝ}
    {S : Option (Matrix (Fin D) (Fin D) ℝ)} {f : VARXFit m} (h : m.finishT t params S = Py.ok f) :
    f.FromT t params ∧ f.sigmaU = S ∧ npInv S = Py.ok f.sigmaUInv := by
  unfold VARXModel.finishT at h
  obtain ⟨inv, hinv, h⟩ := Py.bind_eq_ok.1 h
  obtain rfl := Py.ok.inj h
  exact ⟨⟨rfl, rfl, rfl, rfl, rfl⟩, rfl, hinv⟩

theorem fitPlainT_eq_ok {f : VARXFit m} (h : m.fitPlainT t lstsq = Py.ok f) :
    ∃ params, lstsq _ _ _ m.z m.target = Py.ok params ∧ f.FromT t params := by
  unfold VARXModel.fitPlainT at h
  obtain ⟨params, hp, h⟩ := Py.bind_eq_ok.1 h
  exact ⟨params, hp, (finishT_eq_ok h).1⟩

theorem fitWeightedT_eq_ok {weights : Fin m.n → ℝ} {f : VARXFit m}
    (h : m.fitWeightedT t lstsq weights = Py.ok f) :
    ∃ params, lstsq _ _ _ (scaleRows (fun t => Real.sqrt (m.tailWeights weights t)) m.z)
      (scaleRows (fun t => Real.sqrt (m.tailWeights weights t)) m.target) = Py.ok params ∧
      f.FromT t params := by
  unfold VARXModel.fitWeightedT at h
  by_cases c : ∃ t, m.tailWeights weights t < 0
  · rw [if_pos c] at h
    simp at h
  · rw [if_neg c] at h
    obtain ⟨params, hp, h⟩ := Py.bind_eq_ok.1 h
    exact ⟨params, hp, (finishT_eq_ok h).1⟩

theorem npInv_zero (hD : 0 < D) :
    npInv (some (0 : Matrix (Fin D) (Fin D) ℝ)) = Py.raise .linAlgError := by
  have : Nonempty (Fin D) := Fin.pos_iff_nonempty.1 hD
  exact if_pos Matrix.det_zero

/-- Without weights the covariance is the zero matrix, which has no inverse. -/
theorem fitWeightedT_zero (hD : 0 < D) {w : Fin m.n → ℝ} (hw : ∀ t, m.tailWeights w t = 0) :
    m.fitWeightedT t lstsq w =
      (lstsq _ _ _ (scaleRows (fun t => Real.sqrt (m.tailWeights w t)) m.z)
        (scaleRows (fun t => Real.sqrt (m.tailWeights w t)) m.target) >>= fun _ =>
          Py.raise .linAlgError) := by
  unfold VARXModel.fitWeightedT
  rw [if_neg fun ⟨t, ht⟩ => by rw [hw t] at ht; exact lt_irrefl _ ht]
  simp only
  congr 1
  funext params
  have hcov : covariance (scaleRows (fun t => Real.sqrt (m.tailWeights w t))
      (m.tailResidualsT t params)) (∑ t, m.tailWeights w t - 1) = some 0 := by
    unfold covariance
    rw [if_neg (by simp [hw])]
    congr 1
    funext a b
    rw [Matrix.mul_apply]
    simp [scaleRows, hw]
  rw [hcov]
  unfold VARXModel.finishT
  rw [npInv_zero hD]
  rfl

theorem varxWeightsT_tail {T k : ℕ} {G : Matrix (Fin T) (Fin k) ℝ} {i : Fin k}
    (hs : m.s = 0) (hG : ∀ t, |G t i| < 1) (hn : m.n = (varxWeightsT .int G i m.p).1) :
    ∀ t, m.tailWeights (fun t => (varxWeightsT .int G i m.p).2 (Fin.cast hn t)) t = 0 := by
  intro t
  unfold VARXModel.tailWeights varxWeightsT varxWeights
  simp only
  rw [dif_pos]
  · exact truncateInt_eq_zero (hG _)
  · exact le_trans (le_max_left m.p m.s) (Nat.le_add_left _ _)

/-- Weights below one are truncated to zero. -/
theorem fitT_small (hD : 0 < D) {T k : ℕ} {G : Matrix (Fin T) (Fin k) ℝ} {i : Fin k}
    (hs : m.s = 0) (hG : ∀ t, |G t i| < 1) :
    (∀ f, m.fitT .int lstsq (some (varxWeightsT .int G i m.p)) ≠ Py.ok f) ∧
    (m.n = T + m.p → (∀ m n r a b, ∃ x, lstsq m n r a b = Py.ok x) →
      m.fitT .int lstsq (some (varxWeightsT .int G i m.p)) = Py.raise .linAlgError) := by
  unfold VARXModel.fitT
  simp only
  by_cases hn : m.n = (varxWeightsT .int G i m.p).1
  · rw [dif_pos hn, fitWeightedT_zero hD (varxWeightsT_tail hs hG hn)]
    constructor
    · intro f h
      obtain ⟨_, -, h⟩ := Py.bind_eq_ok.1 h
      simp at h
    · intro _ htot
      obtain ⟨x, hx⟩ := htot _ _ _ (scaleRows (fun t => Real.sqrt (m.tailWeights
        (fun t => (varxWeightsT .int G i m.p).2 (Fin.cast hn t)) t)) m.z)
        (scaleRows (fun t => Real.sqrt (m.tailWeights
        (fun t => (varxWeightsT .int G i m.p).2 (Fin.cast hn t)) t)) m.target)
      rw [hx, Py.ok_bind]
  · rw [dif_neg hn]
    exact ⟨fun f h => by simp at h, fun h => absurd h hn⟩

end VARXFits

section VARXRun

variable {mem : Memory} {lstsq : LstSq} {R : Rng ℝ} {solver : LPSolver ℝ}

theorem pyPi_raise_first {k : ℕ} {β : Fin (k + 1) → Type} {f : (i : Fin (k + 1)) → Py (β i)}
    {e : PyErr} (h : f 0 = Py.raise e) : pyPi f = Py.raise e := by
  unfold pyPi
  rw [h]
  rfl

theorem varxUpdateT_not_ok {T k D E L : ℕ} {models : Fin k → VARXModel D E} (hD : 0 < D)
    {G : Matrix (Fin T) (Fin k) ℝ} {i : Fin k} (hs : (models i).s = 0) (hG : ∀ t, |G t i| < 1)
    (p p' : VARXParams models L) : varxUpdateT .int lstsq G p ≠ Py.ok p' := by
  intro h
  unfold varxUpdateT at h
  obtain ⟨fits, hf, -⟩ := Py.bind_eq_ok.1 h
  exact (fitT_small hD hs hG).1 _ (pyPi_eq_ok.1 hf i)

theorem varxUpdateT_raise {T k D E L : ℕ} (hk : 0 < k) {models : Fin k → VARXModel D E} (hD : 0 < D)
    {G : Matrix (Fin T) (Fin k) ℝ} (hs : ∀ i, (models i).s = 0) (hn : ∀ i, (models i).n = T + (models i).p)
    (hG : ∀ t i, |G t i| < 1) (htot : ∀ m n r a b, ∃ x, lstsq m n r a b = Py.ok x)
    (p : VARXParams models L) : varxUpdateT .int lstsq G p = Py.raise .linAlgError := by
  obtain ⟨k, rfl⟩ : ∃ k', k = k' + 1 := ⟨k - 1, by omega⟩
  unfold varxUpdateT
  refine Py.bind_eq_raise.2 (Or.inl (pyPi_raise_first ?_))
  exact (fitT_small hD (hs 0) fun t => hG t 0).2 (hn 0) htot

variable {n D k : ℕ} {X : Matrix (Fin n) (Fin D) ℝ} {memory : Fin k → ℤ} {L : ℤ}
  {u : Option (Arr2 ℝ)} {t : DType}

theorem varxInitT_eq_ok {start : VARXStart k D (exogCols u)}
    (h : varxInitT t mem lstsq X memory L u = Py.ok start) :
    start.L = L.toNat ∧
    (∀ i, varxModel mem (dropRows X (L - memory i).toNat) (.int (memory i)) u (.int 0) =
      Py.ok (start.models i)) ∧
    (∀ i, (start.models i).fitT t lstsq none = Py.ok (start.params.fits i)) ∧
    start.params.mu = (fun _ _ => 0) ∧ start.params.A = (fun _ _ _ _ => 0) ∧
    start.params.B0 = (fun _ _ _ => 0) := by
  unfold varxInitT at h
  obtain ⟨_, -, h⟩ := Py.bind_eq_ok.1 h
  obtain ⟨models, hm, h⟩ := Py.bind_eq_ok.1 h
  obtain ⟨fits, hf, h⟩ := Py.bind_eq_ok.1 h
  obtain ⟨_, hc, h⟩ := Py.bind_eq_ok.1 h
  obtain rfl := Py.ok.inj h
  exact ⟨rfl, pyPi_eq_ok.1 hm, pyPi_eq_ok.1 hf, rfl, rfl, rfl⟩

variable {obj : FEMVARXObj R} {data : Arr2 ℝ} {args : FEMVARXArgs}

/-- The steps of a run. -/
theorem femVARXRunT_eq : femVARXRunT R solver lstsq mem obj t data args =
    (checkParams (defaultComponents obj.nComponents data.cols) obj.maxIterations obj.tolerance >>=
      fun p => if h : p.1 = obj.memory.length then
        varxInitT t mem lstsq data.val (fun i : Fin p.1 => obj.memory.get (Fin.cast h i))
          (maxMemory obj.memory) (args.externalFactors.map (storeArr t)) >>= fun start =>
          femVARXIterateT R solver lstsq obj t data.rows p.1 p.2.1 p.2.2 args start >>= fun r =>
            Py.ok (femVARXFinish obj data args p start r)
        else Py.raise .indexError) := rfl

theorem femVARXRunT_eq_ok {out : FEMVARXObj R × FEMInfo ℝ}
    (h : femVARXRunT R solver lstsq mem obj t data args = Py.ok out) :
    ∃ (p : ℕ × ℕ × ℝ) (hl : p.1 = obj.memory.length)
      (start : VARXStart p.1 data.cols (exogCols (args.externalFactors.map (storeArr t))))
      (r : FEMResult (VARXParams start.models start.L) (data.rows - start.L) p.1 ℝ × R.G),
      checkParams (defaultComponents obj.nComponents data.cols) obj.maxIterations obj.tolerance =
        Py.ok p ∧
      varxInitT t mem lstsq data.val (fun i : Fin p.1 => obj.memory.get (Fin.cast hl i))
        (maxMemory obj.memory) (args.externalFactors.map (storeArr t)) = Py.ok start ∧
      femVARXIterateT R solver lstsq obj t data.rows p.1 p.2.1 p.2.2 args start = Py.ok r ∧
      out = femVARXFinish obj data args p start r := by
  rw [femVARXRunT_eq] at h
  obtain ⟨p, hp, h⟩ := Py.bind_eq_ok.1 h
  by_cases hl : p.1 = obj.memory.length
  · rw [dif_pos hl] at h
    obtain ⟨start, hst, h⟩ := Py.bind_eq_ok.1 h
    obtain ⟨r, hr, h⟩ := Py.bind_eq_ok.1 h
    exact ⟨p, hl, start, r, hp, hst, hr, (Py.ok.inj h).symm⟩
  · rw [dif_neg hl] at h
    simp at h

theorem femVARXIterateT_eq_ok {n k maxIter : ℕ} {tol : ℝ} {D E : ℕ} {start : VARXStart k D E}
    {r : FEMResult (VARXParams start.models start.L) (n - start.L) k ℝ × R.G}
    (h : femVARXIterateT R solver lstsq obj t n k maxIter tol args start = Py.ok r) :
    ∃ gamma tv con,
      femInitWeights R (n - start.L) k args.weights args.init obj.randomState = Py.ok gamma ∧
      maxTvConstraint obj.maxTvNorm = Py.ok tv ∧ femConstraints tv k (n - start.L) = Py.ok con ∧
      femIterate (varxCompT t start.models start.L (n - start.L) lstsq) solver
        (e := auxParameters tv k (n - start.L)) con obj.require tol maxIter args.updateParameters
        args.updateWeights ⟨gamma.1, start.params, varxDistanceT t (n - start.L) start.params⟩ =
        Py.ok r.1 ∧ r.2 = gamma.2 := by
  unfold femVARXIterateT at h
  obtain ⟨gamma, hg, h⟩ := Py.bind_eq_ok.1 h
  obtain ⟨tv, htv, h⟩ := Py.bind_eq_ok.1 h
  obtain ⟨con, hcon, h⟩ := Py.bind_eq_ok.1 h
  obtain ⟨q, hq, h⟩ := Py.bind_eq_ok.1 h
  obtain rfl := Py.ok.inj h
  exact ⟨gamma, tv, con, hg, htv, hcon, hq, rfl⟩

/-- Coefficients reported for integer data. -/
structure IntegerParams {k D E L : ℕ} {models : Fin k → VARXModel D E} (p : VARXParams models L) :
    Prop where
  mu : ∀ i d, ∃ z : ℤ, p.mu i d = z
  A : ∀ i l a b, ∃ z : ℤ, p.A i l a b = z
  B0 : ∀ i a b, ∃ z : ℤ, p.B0 i a b = z

theorem varxUpdateT_integer {T k D E L : ℕ} {models : Fin k → VARXModel D E}
    {G : Matrix (Fin T) (Fin k) ℝ} {p p' : VARXParams models L} (hp : IntegerParams p)
    (h : varxUpdateT .int lstsq G p = Py.ok p') : IntegerParams p' := by
  unfold varxUpdateT at h
  obtain ⟨fits, -, h⟩ := Py.bind_eq_ok.1 h
  obtain rfl := Py.ok.inj h
  refine ⟨fun i d => truncateInt_int _, fun i l a b => ?_, fun i a b => truncateInt_int _⟩
  simp only
  split_ifs with c
  · exact truncateInt_int _
  · exact hp.A i l a b

end VARXRun

/-! ### Piecewise VARX -/

section PWVARX

variable {K m D p s E : ℕ} {trend : Bool} {lstsq : LstSq} {y : Matrix (Fin m) (Fin D) ℝ}
  {x : Matrix (Fin m) (Fin (p * D + s * E)) ℝ} {labels : Fin m → ℤ} {t : DType}

/-- The same coefficients, and stored residuals. -/
structure PWStored (t : DType) (st st' : PWState K m D p s E) : Prop where
  mu : st'.mu = st.mu
  A : st'.A = st.A
  B : st'.B = st.B
  residuals : st'.residuals = t.storeMat st.residuals

theorem putRows_storeMat {w : ℕ} (a : Matrix (Fin m) (Fin w) ℝ) (rows : List (Fin m))
    (b : Matrix (Fin rows.length) (Fin w) ℝ) :
    putRows (t.storeMat a) rows (t.storeMat b) = t.storeMat (putRows a rows b) := by
  funext i j
  simp only [putRows, DType.storeMat]
  by_cases h : List.idxOf i rows < rows.length
  · rw [dif_pos h, dif_pos h]
    rfl
  · rw [dif_neg h, dif_neg h]
    rfl

theorem pwStepT_rel {st st' : PWState K m D p s E} (h : PWStored t st st') (k : Fin K) :
    PyRel (PWStored t) (pwStep lstsq trend y x labels st k) (pwStepT t lstsq trend y x labels st' k) := by
  unfold pwStep pwStepT
  refine PyRel.bind_same fun params => ?_
  refine PyRel.ok ⟨?_, ?_, ?_, ?_⟩
  · exact congrArg (fun q => Function.update q k ((pwReadMu params).getD (q k))) h.mu
  · exact congrArg (fun q => Function.update q k (pwReadA params)) h.A
  · exact congrArg (fun q => Function.update q k (pwReadB params)) h.B
  · simp only [h.residuals]
    exact putRows_storeMat _ _ _

theorem pwLoopT_rel (ks : List (Fin K)) {st st' : PWState K m D p s E} (h : PWStored t st st') :
    PyRel (PWStored t) (pwLoop lstsq trend y x labels ks st)
      (pwLoopT t lstsq trend y x labels ks st') := by
  induction ks generalizing st st' with
  | nil => exact PyRel.ok h
  | cons k ks ih => exact (pwStepT_rel h k).bind fun a b hab => ih hab

theorem pwLoopT_float (ks : List (Fin K)) (st : PWState K m D p s E) :
    pwLoopT .float lstsq trend y x labels ks st = pwLoop lstsq trend y x labels ks st := by
  induction ks generalizing st with
  | nil => rfl
  | cons k ks ih =>
    unfold pwLoopT pwLoop
    refine congrArg₂ _ rfl ?_
    funext st1
    exact ih st1

/-- The covariances are computed from the stored residuals. -/
theorem pwLoopT_sigma {ks : List (Fin K)} (hn : ks.Nodup) {st st' : PWState K m D p s E}
    (h : pwLoopT t lstsq trend y x labels ks st = Py.ok st') :
    (∀ k ∈ ks, st'.sigmaU k = covariance (takeRows st'.residuals (maskRows labels k))
      (((maskRows labels k).length : ℝ) - p * D - trendCols trend - E * s)) ∧
    (∀ j, j ∉ ks → st'.sigmaU j = st.sigmaU j) ∧
    (∀ i, (∀ k ∈ ks, labels i ≠ (k : ℕ)) → st'.residuals i = st.residuals i) := by
  induction ks generalizing st with
  | nil =>
    rw [← Py.ok.inj h]
    simp
  | cons k ks ih =>
    obtain ⟨st1, h1, h2⟩ := Py.bind_eq_ok.1 h
    unfold pwStepT at h1
    obtain ⟨params, -, h1⟩ := Py.bind_eq_ok.1 h1
    have h1 := Py.ok.inj h1
    have a : st1.sigmaU k = covariance (takeRows st1.residuals (maskRows labels k))
        (((maskRows labels k).length : ℝ) - p * D - trendCols trend - E * s) := by
      rw [← h1]
      exact Function.update_self ..
    have b : ∀ j, j ≠ k → st1.sigmaU j = st.sigmaU j := by
      intro j hj
      rw [← h1]
      exact Function.update_of_ne hj ..
    have c : ∀ i, labels i ≠ (k : ℕ) → st1.residuals i = st.residuals i := by
      intro i hi
      rw [← h1]
      exact putRows_not_mem _ _ _ _ fun h => hi ((mem_maskRows i).1 h)
    obtain ⟨hk, hn⟩ := List.nodup_cons.1 hn
    obtain ⟨a', b', c'⟩ := ih hn h2
    refine ⟨fun j hj => ?_, fun j hj => ?_, fun i hi => ?_⟩
    · rcases List.mem_cons.1 hj with rfl | hj
      · rw [b' j hk, a]
        congr 1
        refine takeRows_congr fun i hi => (c' i fun l hl h => hk ?_).symm
        rw [(mem_maskRows i).1 hi] at h
        have : j = l := Fin.ext (by exact_mod_cast h)
        rwa [this]
      · exact a' j hj
    · simp only [List.mem_cons, not_or] at hj
      exact (b' j hj.2).trans (b j hj.1)
    · rw [c' i fun j hj => hi j (List.mem_cons_of_mem _ hj), c i (hi k List.mem_cons_self)]

end PWVARX

end Reor
