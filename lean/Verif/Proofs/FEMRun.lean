import Verif.Proofs.FEMIterate
import Verif.Proofs.Init
import Mathlib.Topology.Order.Compact
import Mathlib.Topology.Algebra.Order.Field
import Mathlib.Topology.Instances.Real.Lemmas
import Mathlib.Tactic.FieldSimp

/-!
Existence of optimal weights, optimality of the centroids, and the FEM-BV iteration.
-/

set_option linter.unusedSectionVars false

namespace Reor

open scoped BigOperators
open Spec

/-! ### Existence of optimal weights -/

/-- Over the reals there are always admissible weights of least cost. -/
theorem exists_least_weights {T k : ℕ} (hk : 0 < k) {tv : Option ℝ}
    (htv : ∀ b, tv = some b → 0 ≤ b) (D : Matrix (Fin T) (Fin k) ℝ) :
    ∃ G, TvAdmissible tv G ∧
      ∀ G', TvAdmissible tv G' → assignmentCost G D ≤ assignmentCost G' D := by
  have hcomp : IsCompact {G : Fin T → Fin k → ℝ | TvAdmissible tv G} := by
    refine IsCompact.of_isClosed_subset
      (isCompact_univ_pi fun _ : Fin T => isCompact_univ_pi fun _ : Fin k =>
        isCompact_Icc (a := (0 : ℝ)) (b := 1)) ?_ ?_
    · have : {G : Fin T → Fin k → ℝ | TvAdmissible tv G} =
          (⋂ t, ⋂ i, {G | 0 ≤ G t i}) ∩ (⋂ t, {G | ∑ i, G t i = 1}) ∩
            ⋂ b, ⋂ (_ : tv = some b), ⋂ i,
              {G | ∑ t : Fin (T - 1), |G ⟨t + 1, by omega⟩ i - G ⟨t, by omega⟩ i| ≤ b} := by
        ext G
        simp only [Set.mem_ofPred_eq, Set.mem_inter_iff, Set.mem_iInter, TvAdmissible, RowStochastic,
          IsProb, totalVariation, forall_and]
      rw [this]
      refine (IsClosed.inter ?_ ?_).inter ?_
      · exact isClosed_iInter fun t => isClosed_iInter fun i =>
          isClosed_le continuous_const (by fun_prop)
      · exact isClosed_iInter fun t => isClosed_eq (by fun_prop) continuous_const
      · exact isClosed_iInter fun b => isClosed_iInter fun _ => isClosed_iInter fun i =>
          isClosed_le (by fun_prop) continuous_const
    · intro G hG t _ i _
      exact ⟨(hG.1 t).1 i, tvAdmissible_le_one hG t i⟩
  have hcont : Continuous fun G : Fin T → Fin k → ℝ => assignmentCost G D := by
    unfold assignmentCost
    fun_prop
  obtain ⟨G, hG, hmin⟩ := hcomp.exists_isMinOn
    ⟨_, tvAdmissible_uniform (T := T) hk htv⟩ hcont.continuousOn
  exact ⟨G, hG, fun G' hG' => hmin hG'⟩

variable {K : Type} [Field K] [LinearOrder K] [IsStrictOrderedRing K]

/-! ### Centroids -/

section Centroids

variable {T D k : ℕ}

/-- Weighted squared deviations from `θ`, in terms of those from the weighted mean `m`. -/
theorem sum_sq_mean (g x : Fin T → K) {m : K} (hm : ∑ t, g t * x t = (∑ t, g t) * m) (θ : K) :
    ∑ t, g t * (x t - θ) ^ 2 = ∑ t, g t * (x t - m) ^ 2 + (∑ t, g t) * (m - θ) ^ 2 := by
  have e : ∀ c : K, ∑ t, g t * (x t - c) ^ 2 =
      ∑ t, g t * x t ^ 2 - 2 * c * ∑ t, g t * x t + c ^ 2 * ∑ t, g t := by
    intro c
    rw [Finset.mul_sum, Finset.mul_sum, ← Finset.sum_sub_distrib, ← Finset.sum_add_distrib]
    exact Finset.sum_congr rfl fun t _ => by ring
  rw [e, e, hm]
  ring

/-- The clustering cost, component by component and feature by feature. -/
theorem kmeansCost_eq (X : Matrix (Fin T) (Fin D) K) (G : Matrix (Fin T) (Fin k) K)
    (Theta : Matrix (Fin k) (Fin D) K) :
    assignmentCost G (kmeansDistance X Theta) =
      ∑ j, ∑ d, ∑ t, G t j * (X t d - Theta j d) ^ 2 := by
  unfold assignmentCost kmeansDistance
  rw [Finset.sum_comm]
  refine Finset.sum_congr rfl fun j _ => ?_
  rw [Finset.sum_comm]
  exact Finset.sum_congr rfl fun t _ => Finset.mul_sum _ _ _

theorem kmeansUpdate_eq_ok {X : Matrix (Fin T) (Fin D) K} {G : Matrix (Fin T) (Fin k) K}
    {Theta Theta' : Matrix (Fin k) (Fin D) K} (h : kmeansUpdate X G Theta = Py.ok Theta') :
    (∀ j, ∀ _ : Fin D, ∑ t, G t j ≠ 0) ∧
      Theta' = fun j d => (∑ t, G t j * X t d) / ∑ t, G t j := by
  unfold kmeansUpdate at h
  by_cases c : ∃ j, ∃ _ : Fin D, ∑ t, G t j = 0
  · rw [if_pos c] at h
    simp at h
  · rw [if_neg c] at h
    exact ⟨fun j d hz => c ⟨j, d, hz⟩, (Py.ok.inj h).symm⟩

theorem kmeansUpdate_cases (X : Matrix (Fin T) (Fin D) K) (G : Matrix (Fin T) (Fin k) K)
    (Theta : Matrix (Fin k) (Fin D) K) :
    kmeansUpdate X G Theta = Py.raise .nonFinite ∨ ∃ Theta', kmeansUpdate X G Theta = Py.ok Theta' := by
  unfold kmeansUpdate
  by_cases c : ∃ j, ∃ _ : Fin D, ∑ t, G t j = 0
  · exact Or.inl (if_pos c)
  · exact Or.inr ⟨_, if_neg c⟩

/-- The cost at any centroids exceeds that at the weighted means by the weighted squared distances
between the two. -/
theorem kmeansCost_mean {X : Matrix (Fin T) (Fin D) K} {G : Matrix (Fin T) (Fin k) K}
    {Theta Theta' : Matrix (Fin k) (Fin D) K} (h : kmeansUpdate X G Theta = Py.ok Theta')
    (Theta'' : Matrix (Fin k) (Fin D) K) :
    assignmentCost G (kmeansDistance X Theta'') = assignmentCost G (kmeansDistance X Theta') +
      ∑ j, (∑ t, G t j) * ∑ d, (Theta' j d - Theta'' j d) ^ 2 := by
  obtain ⟨hne, he⟩ := kmeansUpdate_eq_ok h
  rw [kmeansCost_eq, kmeansCost_eq, ← Finset.sum_add_distrib]
  refine Finset.sum_congr rfl fun j _ => ?_
  rw [Finset.mul_sum, ← Finset.sum_add_distrib]
  refine Finset.sum_congr rfl fun d _ => ?_
  refine sum_sq_mean (fun t => G t j) (fun t => X t d) (m := Theta' j d) ?_ _
  have : Theta' j d = (∑ t, G t j * X t d) / ∑ t, G t j := congrFun (congrFun he j) d
  rw [this, mul_div_cancel₀ _ (hne j d)]

theorem kmeansCost_le {X : Matrix (Fin T) (Fin D) K} {G : Matrix (Fin T) (Fin k) K}
    {Theta Theta' : Matrix (Fin k) (Fin D) K} (h : kmeansUpdate X G Theta = Py.ok Theta')
    (hG : ∀ j, 0 ≤ ∑ t, G t j) (Theta'' : Matrix (Fin k) (Fin D) K) :
    assignmentCost G (kmeansDistance X Theta') ≤ assignmentCost G (kmeansDistance X Theta'') := by
  rw [kmeansCost_mean h Theta'']
  have : 0 ≤ ∑ j, (∑ t, G t j) * ∑ d, (Theta' j d - Theta'' j d) ^ 2 :=
    Finset.sum_nonneg fun j _ => mul_nonneg (hG j) (Finset.sum_nonneg fun d _ => sq_nonneg _)
  linarith

/-- The update does not look at the old centroids. -/
theorem kmeansUpdate_irrel (X : Matrix (Fin T) (Fin D) K) (G : Matrix (Fin T) (Fin k) K)
    (A B : Matrix (Fin k) (Fin D) K) : kmeansUpdate X G A = kmeansUpdate X G B := rfl

end Centroids

/-! ### The iteration of FEM-BV-k-means -/

theorem kmeansLawful {T D : ℕ} (k : ℕ) (X : Matrix (Fin T) (Fin D) K) :
    (kmeansComp k X).Lawful (fun _ => True) (fun e => e = .nonFinite) where
  idem h := h
  keeps _ := trivial
  least {G p p'} hG h q _ := kmeansCost_le (Theta := p) h (fun j => Finset.sum_nonneg fun t _ => hG t j) q
  err {G p e} h := by
    rcases kmeansUpdate_cases X G p with h' | ⟨_, h'⟩
    · exact Py.raise.inj ((h : kmeansUpdate X G p = _).symm.trans h')
    · exact absurd ((h : kmeansUpdate X G p = _).symm.trans h') (by simp)
  total {G p} h := by
    rcases kmeansUpdate_cases X G p with h' | ⟨_, h'⟩ <;>
      exact absurd ((h : kmeansUpdate X G p = _).symm.trans h') (by simp)

/-! ### The fit -/

section Fit

theorem maxTvConstraint_nonneg {m : NumArg K} {tv : Option K} (h : maxTvConstraint m = Py.ok tv) :
    ∀ b, tv = some b → 0 ≤ b := by
  intro b hb
  subst hb
  cases m with
  | none => simp [maxTvConstraint] at h
  | other => simp [maxTvConstraint] at h
  | int z =>
    unfold maxTvConstraint at h
    by_cases c : z ≥ 0
    · simp only [c, if_true, Py.ok.injEq, Option.some.injEq] at h
      rw [← h]
      exact_mod_cast c
    · simp [c] at h
  | real x =>
    unfold maxTvConstraint at h
    by_cases c : x ≥ 0
    · simp only [c, if_true, Py.ok.injEq, Option.some.injEq] at h
      rw [← h]
      exact c
    · simp [c] at h

theorem femConstraints_for {tv : Option K} {k T : ℕ}
    {con : Option (FEMConstraints (weightParameters tv k T) K)}
    (h : femConstraints tv k T = Py.ok con) : ConstraintsFor tv T k con := by
  intro hk
  by_cases hT : T = 0
  · unfold femConstraints at h
    rw [if_pos hk, if_pos hT] at h
    simp at h
  · obtain ⟨c, hc, he⟩ := femConstraints_encodes tv hk (Nat.pos_of_ne_zero hT)
    rw [hc] at h
    exact ⟨c, (Py.ok.inj h).symm, he⟩

theorem leastExist_real {tv : Option ℝ} (htv : ∀ b, tv = some b → 0 ≤ b) (T k : ℕ) :
    LeastExist tv T k := fun hk D => exists_least_weights (by omega) htv D

variable {R : Rng K} {solver : LPSolver K} {obj : FEMKMeansObj R} {data : Arr2 K} {args : FEMArgs K}

/-- The initial state of a fit. -/
def femStartState (data : Arr2 K) (k : ℕ) (Theta : Matrix (Fin k) (Fin data.cols) K)
    (G : Matrix (Fin data.rows) (Fin k) K) :
    FEMState (Matrix (Fin k) (Fin data.cols) K) data.rows k K :=
  ⟨G, Theta, kmeansDistance data.val Theta⟩

/-- The object and report after an iteration. -/
def femFinish (obj : FEMKMeansObj R) (data : Arr2 K) (p : ℕ × ℕ × K) (g : R.G)
    (r : FEMResult (Matrix (Fin p.1) (Fin data.cols) K) data.rows p.1 K) :
    FEMKMeansObj R × FEMInfo K :=
  ({ obj with
      nComponents := defaultComponents obj.nComponents data.cols
      randomState := g
      Gamma := some (Arr2.of r.state.Gamma)
      Theta := some (Arr2.of r.state.params) },
    { cost := r.cost, nIter := r.nIter, warned := decide (r.nIter = p.2.1 ∧ p.2.2 > 0),
      trace := r.trace, failures := r.failures })

/-- The steps of a fit. -/
theorem femKMeansRun_eq : femKMeansRun R solver obj data args =
    (checkParams (defaultComponents obj.nComponents data.cols) obj.maxIterations obj.tolerance >>=
      fun p => kmeansInit R data.val p.1 args.parameters args.init obj.randomState >>= fun theta =>
        femInitWeights R data.rows p.1 args.weights args.init theta.2 >>= fun gamma =>
          maxTvConstraint obj.maxTvNorm >>= fun tv =>
            femConstraints tv p.1 data.rows >>= fun con =>
              femIterate (kmeansComp p.1 data.val) solver (e := auxParameters tv p.1 data.rows) con
                obj.require p.2.2 p.2.1 args.updateParameters args.updateWeights
                (femStartState data p.1 theta.1 gamma.1) >>= fun r =>
                  Py.ok (femFinish obj data p gamma.2 r)) := rfl

theorem femKMeansRun_eq_ok {out : FEMKMeansObj R × FEMInfo K}
    (h : femKMeansRun R solver obj data args = Py.ok out) :
    ∃ p theta gamma tv con r,
      checkParams (defaultComponents obj.nComponents data.cols) obj.maxIterations obj.tolerance =
        Py.ok p ∧
      kmeansInit R data.val p.1 args.parameters args.init obj.randomState = Py.ok theta ∧
      femInitWeights R data.rows p.1 args.weights args.init theta.2 = Py.ok gamma ∧
      maxTvConstraint obj.maxTvNorm = Py.ok tv ∧ femConstraints tv p.1 data.rows = Py.ok con ∧
      femIterate (kmeansComp p.1 data.val) solver (e := auxParameters tv p.1 data.rows) con
        obj.require p.2.2 p.2.1 args.updateParameters args.updateWeights
        (femStartState data p.1 theta.1 gamma.1) = Py.ok r ∧
      out = femFinish obj data p gamma.2 r := by
  rw [femKMeansRun_eq] at h
  obtain ⟨p, hp, h⟩ := Py.bind_eq_ok.1 h
  obtain ⟨theta, hth, h⟩ := Py.bind_eq_ok.1 h
  obtain ⟨gamma, hga, h⟩ := Py.bind_eq_ok.1 h
  obtain ⟨tv, htv, h⟩ := Py.bind_eq_ok.1 h
  obtain ⟨con, hcon, h⟩ := Py.bind_eq_ok.1 h
  obtain ⟨r, hr, h⟩ := Py.bind_eq_ok.1 h
  exact ⟨p, theta, gamma, tv, con, r, hp, hth, hga, htv, hcon, hr, (Py.ok.inj h).symm⟩

theorem femLoop_ne_valueError {P : Type} {T k e : ℕ} {comp : FEMComp P T k K}
    (hcomp : ∀ G p, comp.update G p ≠ Py.raise .valueError) {solver : LPSolver K}
    (hs : ∀ lp, solver lp ≠ .error .valueError)
    {con : Option (FEMConstraints (k * T + e) K)} {require : Bool} {tol : K} {up uw : Bool} :
    ∀ (is : List ℕ) (s : FEMState P T k K) (c : K) (last : Option ℕ) (tr : List K) (fl : ℕ),
      femLoop comp solver con require tol up uw is s c last tr fl ≠ Py.raise .valueError := by
  have hcheck : ∀ n a b, femCheck require tol n a b ≠ Py.raise .valueError := by
    intro n a b h
    rcases femCheck_cases require tol n a b with h' | h' <;> rw [h'] at h <;> simp at h
  have hpar : ∀ n s c, femParametersPhase comp require tol n s c ≠ Py.raise .valueError := by
    intro n s c h
    rw [femParametersPhase_eq] at h
    rcases Py.bind_eq_raise.1 h with h | ⟨_, -, h⟩
    · exact hcomp _ _ h
    rcases Py.bind_eq_raise.1 h with h | ⟨_, -, h⟩
    · exact hcheck _ _ _ h
    · simp at h
  have hwei : ∀ n s c, femWeightsPhase comp solver con require tol n s c ≠
      Py.raise .valueError := by
    intro n s c h
    unfold femWeightsPhase at h
    rcases Py.bind_eq_raise.1 h with h | ⟨_, -, h⟩
    · unfold FEMState.updateWeights at h
      by_cases h1 : k = 1
      · rw [if_pos h1] at h
        simp at h
      · rw [if_neg h1] at h
        cases con with
        | none => simp at h
        | some cc =>
          simp only at h
          have := hs (weightsProgram cc (s.evaluateDistance comp).distanceMatrix)
          generalize solver (weightsProgram cc (s.evaluateDistance comp).distanceMatrix) = o at h this
          unfold FEMState.useSolution at h
          cases o with
          | value v => simp at h
          | failed => simp at h
          | noValue => simp at h
          | error e' =>
            simp only [Py.raise.injEq] at h
            rw [h] at this
            exact this rfl
    rcases Py.bind_eq_raise.1 h with h | ⟨_, -, h⟩
    · exact hcheck _ _ _ h
    · simp at h
  have hstep : ∀ n s c, femStep comp solver con require tol up uw n s c ≠ Py.raise .valueError := by
    intro n s c h
    unfold femStep at h
    rcases Py.bind_eq_raise.1 h with h | ⟨_, -, h⟩
    · cases up with
      | true => exact hpar _ _ _ h
      | false => simp at h
    · cases uw with
      | true => exact hwei _ _ _ h
      | false => simp at h
  intro is
  induction is with
  | nil =>
    intro s c last tr fl h
    unfold femLoop at h
    cases last <;> simp at h
  | cons i is ih =>
    intro s c last tr fl h
    rw [femLoop_cons] at h
    rcases Py.bind_eq_raise.1 h with h | ⟨q, -, h⟩
    · exact hstep _ _ _ h
    by_cases c1 : |q.1.2 - c| < tol
    · rw [if_pos c1] at h
      simp at h
    · rw [if_neg c1] at h
      exact ih _ _ _ _ _ h

theorem kmeansUpdate_ne_valueError {T D k : ℕ} (X : Matrix (Fin T) (Fin D) K)
    (G : Matrix (Fin T) (Fin k) K) (p : Matrix (Fin k) (Fin D) K) :
    kmeansUpdate X G p ≠ Py.raise .valueError := by
  intro h
  rcases kmeansUpdate_cases X G p with h' | ⟨_, h'⟩ <;> rw [h'] at h <;> simp at h

/-- A loop that ends has executed one of its iterations. -/
theorem femLoop_nIter {P : Type} {T k e : ℕ} (comp : FEMComp P T k K) (solver : LPSolver K)
    (con : Option (FEMConstraints (k * T + e) K)) (require : Bool) (tol : K) (up uw : Bool)
    {m : ℕ} : ∀ (is : List ℕ) (s : FEMState P T k K) (c : K) (last : Option ℕ) (tr : List K)
      (fl : ℕ) (r : FEMResult P T k K), (∀ i ∈ is, i < m) → (∀ n, last = some n → n < m) →
      femLoop comp solver con require tol up uw is s c last tr fl = Py.ok r → r.nIter < m := by
  intro is
  induction is with
  | nil =>
    intro s c last tr fl r _ hl h
    unfold femLoop at h
    cases last with
    | none => simp at h
    | some n =>
      rw [← Py.ok.inj h]
      exact hl n rfl
  | cons i is ih =>
    intro s c last tr fl r hi hl h
    rw [femLoop_cons] at h
    obtain ⟨q, -, h⟩ := Py.bind_eq_ok.1 h
    by_cases c1 : |q.1.2 - c| < tol
    · rw [if_pos c1] at h
      rw [← Py.ok.inj h]
      exact hi i (by simp)
    · rw [if_neg c1] at h
      refine ih _ _ _ _ _ r (fun j hj => hi j (by simp [hj])) ?_ h
      intro n hn
      rw [← Option.some.inj hn]
      exact hi i (by simp)

theorem femIterate_nIter {P : Type} {T k e : ℕ} {comp : FEMComp P T k K} {solver : LPSolver K}
    {con : Option (FEMConstraints (k * T + e) K)} {require : Bool} {tol : K} {up uw : Bool}
    {m : ℕ} {s : FEMState P T k K} {r : FEMResult P T k K}
    (h : femIterate comp solver con require tol m up uw s = Py.ok r) : r.nIter < m :=
  femLoop_nIter comp solver con require tol up uw _ _ _ _ _ _ r (fun i hi => List.mem_range.1 hi)
    (fun n hn => by simp at hn) h

/-- Parameters that are not updated stay as they are. -/
theorem femLoop_params {P : Type} {T k e : ℕ} (comp : FEMComp P T k K) (solver : LPSolver K)
    (con : Option (FEMConstraints (k * T + e) K)) (require : Bool) (tol : K) (uw : Bool) :
    ∀ (is : List ℕ) (s : FEMState P T k K) (c : K) (last : Option ℕ) (tr : List K)
      (fl : ℕ) (r : FEMResult P T k K),
      femLoop comp solver con require tol false uw is s c last tr fl = Py.ok r →
        r.state.params = s.params := by
  intro is
  induction is with
  | nil =>
    intro s c last tr fl r h
    unfold femLoop at h
    cases last with
    | none => simp at h
    | some n => rw [← Py.ok.inj h]
  | cons i is ih =>
    intro s c last tr fl r h
    rw [femLoop_cons] at h
    obtain ⟨q, hq, h⟩ := Py.bind_eq_ok.1 h
    have hq' : q.1.1.params = s.params := by
      cases uw with
      | false =>
        have : femStep comp solver con require tol false false i s c = Py.ok ((s, c), false) := rfl
        rw [this] at hq
        rw [← Py.ok.inj hq]
      | true =>
        have : femStep comp solver con require tol false true i s c =
          femWeightsPhase comp solver con require tol i s c := rfl
        rw [this] at hq
        unfold femWeightsPhase at hq
        obtain ⟨w, hw, hq⟩ := Py.bind_eq_ok.1 hq
        obtain ⟨_, -, hq⟩ := Py.bind_eq_ok.1 hq
        rw [Py.pure_eq] at hq
        rw [← Py.ok.inj hq]
        change w.1.params = s.params
        unfold FEMState.updateWeights at hw
        by_cases h1 : k = 1
        · rw [if_pos h1] at hw
          rw [← Py.ok.inj hw]
        · rw [if_neg h1] at hw
          cases con with
          | none => simp at hw
          | some cc =>
            simp only at hw
            generalize solver (weightsProgram cc (s.evaluateDistance comp).distanceMatrix) = o at hw
            unfold FEMState.useSolution at hw
            cases o with
            | value v =>
              rw [← Py.ok.inj hw]
              rfl
            | failed =>
              rw [← Py.ok.inj hw]
              rfl
            | noValue => simp at hw
            | error e => simp at hw
    by_cases c1 : |q.1.2 - c| < tol
    · rw [if_pos c1] at h
      rw [← Py.ok.inj h]
      exact hq'
    · rw [if_neg c1] at h
      rw [ih _ _ _ _ _ r h, hq']

theorem checkArray_raise {A : Option (Arr2 K)} {e : PyErr} (h : checkArray A = Py.raise e) :
    e = .valueError := by
  unfold checkArray at h
  cases A with
  | none => simpa using h.symm
  | some A =>
    simp only at h
    by_cases c : A.rows = 0 ∨ A.cols = 0
    · rw [if_pos c] at h
      simpa using h.symm
    · rw [if_neg c] at h
      simp at h

theorem checkArrayShape_raise {A : Arr2 K} {m n : ℕ} {e : PyErr}
    (h : checkArrayShape A m n = Py.raise e) : e = .valueError := by
  unfold checkArrayShape at h
  by_cases c : A.rows = m ∧ A.cols = n
  · rw [dif_pos c] at h
    simp at h
  · rw [dif_neg c] at h
    simpa using h.symm

theorem kmeansRandom_raise {T D k : ℕ} {X : Matrix (Fin T) (Fin D) K} {g : R.G} {e : PyErr}
    (h : kmeansRandom R X k g = Py.raise e) : T < k ∧ e = .valueError ∨ k ≤ T ∧ e = .indexError := by
  unfold kmeansRandom at h
  by_cases c : T < k
  · rw [if_pos c] at h
    exact Or.inl ⟨c, by simpa using h.symm⟩
  · rw [if_neg c] at h
    rcases Py.bind_eq_raise.1 h with h | ⟨_, -, h⟩
    · exact Or.inr ⟨not_lt.1 c, rowIndices_raise h⟩
    · simp at h

theorem kmeansInit_ne_runtime {T D k : ℕ} {X : Matrix (Fin T) (Fin D) K}
    {parameters : Option (Arr2 K)} {init : Option String} {g : R.G} :
    ¬ kmeansInit R X k parameters init g = Py.raise .runtimeError := by
  intro h
  unfold kmeansInit at h
  split at h
  · rcases Py.bind_eq_raise.1 h with h | ⟨_, -, h⟩
    · unfold kmeansCheckParameters at h
      rcases Py.bind_eq_raise.1 h with h | ⟨_, -, h⟩
      · simpa using checkArray_raise h
      · simpa using checkArrayShape_raise h
    · simp at h
  · rcases kmeansRandom_raise h with h | h <;> simp at h

theorem femInitWeights_ne_runtime {T k : ℕ} {weights : Option (Arr2 K)} {init : Option String}
    {g : R.G} : ¬ femInitWeights R T k weights init g = Py.raise .runtimeError := by
  intro h
  unfold femInitWeights at h
  split at h
  · rcases Py.bind_eq_raise.1 h with h | ⟨_, -, h⟩
    · unfold femCheckInitWeights at h
      rcases Py.bind_eq_raise.1 h with h | ⟨_, -, h⟩
      · simpa using checkArray_raise h
      rcases Py.bind_eq_raise.1 h with h | ⟨_, -, h⟩
      · simpa using checkArrayShape_raise h
      rcases Py.bind_eq_raise.1 h with h | ⟨_, -, h⟩
      · unfold checkUnitRowSums at h
        split at h <;> simp at h
      · simp at h
    · simp at h
  · have := rightStochastic_raise h
    simp at this

theorem femConstraints_ne_runtime {tv : Option K} {k T : ℕ} :
    ¬ femConstraints tv k T = Py.raise .runtimeError := by
  intro h
  by_cases hk : k > 1
  · by_cases hT : T = 0
    · unfold femConstraints at h
      rw [if_pos hk, if_pos hT] at h
      simp at h
    · obtain ⟨c, hc, -⟩ := femConstraints_encodes tv hk (Nat.pos_of_ne_zero hT)
      rw [hc] at h
      simp at h
  · unfold femConstraints at h
    rw [if_neg hk] at h
    simp at h

end Fit

end Reor
