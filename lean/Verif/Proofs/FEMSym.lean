import Verif.Proofs.Rel
import Verif.Proofs.FEMBV

/-!
Running two FEM-BV fits side by side.
-/

namespace Reor

set_option linter.unusedSectionVars false

open scoped BigOperators Matrix

variable {K : Type} [Field K] [LinearOrder K] [IsStrictOrderedRing K]
variable {P P' : Type} {T k e : ℕ}

theorem PyRel.bind_eqs {α γ δ' : Type} {Q : γ → δ' → Prop} {x y : Py α} {f : α → Py γ}
    {g : α → Py δ'} (h : x = y) (hf : ∀ a, PyRel Q (f a) (g a)) : PyRel Q (x >>= f) (y >>= g) :=
  h ▸ PyRel.bind_same hf

/-- Component models whose parameters correspond: equal distances, corresponding updates. -/
structure FEMCorr (Rp : P → P' → Prop) (comp : FEMComp P T k K) (comp' : FEMComp P' T k K) : Prop where
  distance : ∀ {p p'}, Rp p p' → comp.distance p = comp'.distance p'
  update : ∀ {p p'} (G : Matrix (Fin T) (Fin k) K), Rp p p' →
    PyRel Rp (comp.update G p) (comp'.update G p')

/-- States that agree up to the parameters. -/
def FEMState.Corr (Rp : P → P' → Prop) (s : FEMState P T k K) (s' : FEMState P' T k K) : Prop :=
  s.Gamma = s'.Gamma ∧ Rp s.params s'.params ∧ s.distanceMatrix = s'.distanceMatrix

variable {Rp : P → P' → Prop} {comp : FEMComp P T k K} {comp' : FEMComp P' T k K}
variable {s : FEMState P T k K} {s' : FEMState P' T k K}

theorem FEMCorr.evaluateDistance (hc : FEMCorr Rp comp comp') (h : s.Corr Rp s') :
    (s.evaluateDistance comp).Corr Rp (s'.evaluateDistance comp') :=
  ⟨h.1, h.2.1, hc.distance h.2.1⟩

theorem FEMCorr.evaluateCost (hc : FEMCorr Rp comp comp') (h : s.Corr Rp s') :
    (s.evaluateCost comp).1.Corr Rp (s'.evaluateCost comp').1 ∧
      (s.evaluateCost comp).2 = (s'.evaluateCost comp').2 := by
  have := hc.evaluateDistance h
  refine ⟨this, ?_⟩
  simp only [FEMState.evaluateCost, this.1, this.2.2]

theorem FEMCorr.parametersPhase (hc : FEMCorr Rp comp comp') (h : s.Corr Rp s') (require : Bool)
    (tolerance : K) (n : ℕ) (oldCost : K) :
    PyRel (fun r r' => r.1.Corr Rp r'.1 ∧ r.2 = r'.2)
      (femParametersPhase comp require tolerance n s oldCost)
      (femParametersPhase comp' require tolerance n s' oldCost) := by
  unfold femParametersPhase FEMState.updateParameters
  simp only [Py.bind_assoc, Py.pure_eq, Py.ok_bind]
  have hu : PyRel Rp (comp.update s.Gamma s.params) (comp'.update s'.Gamma s'.params) :=
    h.1 ▸ hc.update s.Gamma h.2.1
  refine hu.bind fun p p' hp => ?_
  have h1 : FEMState.Corr Rp ({ s with params := p } : FEMState P T k K) { s' with params := p' } :=
    ⟨h.1, hp, h.2.2⟩
  obtain ⟨h2, h3⟩ := hc.evaluateCost (hc.evaluateDistance h1)
  exact PyRel.bind_eqs (congrArg _ h3) fun _ => PyRel.ok ⟨h2, h3⟩

theorem FEMCorr.weightsPhase (hc : FEMCorr Rp comp comp') (h : s.Corr Rp s') (solver : LPSolver K)
    (con : Option (FEMConstraints (k * T + e) K)) (require : Bool) (tolerance : K) (n : ℕ)
    (oldCost : K) :
    PyRel (fun r r' => (r.1.1.Corr Rp r'.1.1 ∧ r.1.2 = r'.1.2) ∧ r.2 = r'.2)
      (femWeightsPhase comp solver con require tolerance n s oldCost)
      (femWeightsPhase comp' solver con require tolerance n s' oldCost) := by
  unfold femWeightsPhase
  have hw : PyRel (fun q q' => q.1.Corr Rp q'.1 ∧ q.2 = q'.2) (s.updateWeights comp solver con)
      (s'.updateWeights comp' solver con) := by
    unfold FEMState.updateWeights
    split_ifs with h1
    · exact PyRel.ok ⟨h, rfl⟩
    · have h2 := hc.evaluateDistance h
      cases con with
      | none => exact rfl
      | some con =>
        simp only
        rw [h2.2.2]
        cases solver (weightsProgram con (s'.evaluateDistance comp').distanceMatrix) with
        | value v => exact PyRel.ok ⟨⟨rfl, h2.2.1, h2.2.2⟩, rfl⟩
        | failed => exact PyRel.ok ⟨h2, rfl⟩
        | noValue => exact rfl
        | error e => exact rfl
  refine hw.bind fun q q' hq => ?_
  obtain ⟨h2, h3⟩ := hc.evaluateCost hq.1
  exact PyRel.bind_eqs (congrArg _ h3) fun _ => PyRel.ok ⟨⟨h2, h3⟩, hq.2⟩

theorem FEMCorr.step (hc : FEMCorr Rp comp comp') (h : s.Corr Rp s') (solver : LPSolver K)
    (con : Option (FEMConstraints (k * T + e) K)) (require : Bool) (tolerance : K) (up uw : Bool)
    (n : ℕ) (oldCost : K) :
    PyRel (fun r r' => (r.1.1.Corr Rp r'.1.1 ∧ r.1.2 = r'.1.2) ∧ r.2 = r'.2)
      (femStep comp solver con require tolerance up uw n s oldCost)
      (femStep comp' solver con require tolerance up uw n s' oldCost) := by
  unfold femStep
  have h1 : PyRel (fun r r' => r.1.Corr Rp r'.1 ∧ r.2 = r'.2)
      (match up with
        | true => femParametersPhase comp require tolerance n s oldCost
        | false => Py.ok (s, oldCost))
      (match up with
        | true => femParametersPhase comp' require tolerance n s' oldCost
        | false => Py.ok (s', oldCost)) := by
    cases up
    · exact PyRel.ok ⟨h, rfl⟩
    · exact hc.parametersPhase h _ _ _ _
  refine h1.bind fun r r' hr => ?_
  cases uw
  · exact PyRel.ok ⟨hr, rfl⟩
  · exact hc.weightsPhase hr.1 _ _ _ _ _ _

/-- Results of fits that agree up to the parameters. -/
def FEMResult.Corr (Rp : P → P' → Prop) (r : FEMResult P T k K) (r' : FEMResult P' T k K) : Prop :=
  r.state.Corr Rp r'.state ∧ r.cost = r'.cost ∧ r.nIter = r'.nIter ∧ r.trace = r'.trace ∧
    r.failures = r'.failures

theorem FEMCorr.loop (hc : FEMCorr Rp comp comp') (solver : LPSolver K)
    (con : Option (FEMConstraints (k * T + e) K)) (require : Bool) (tolerance : K) (up uw : Bool) :
    ∀ (is : List ℕ) {s : FEMState P T k K} {s' : FEMState P' T k K} (_ : s.Corr Rp s') (c : K)
      (last : Option ℕ) (tr : List K) (f : ℕ),
      PyRel (FEMResult.Corr Rp) (femLoop comp solver con require tolerance up uw is s c last tr f)
        (femLoop comp' solver con require tolerance up uw is s' c last tr f)
  | [], s, s', h, c, last, tr, f => by
    cases last with
    | none => exact rfl
    | some n => exact PyRel.ok ⟨h, rfl, rfl, rfl, rfl⟩
  | i :: is, s, s', h, c, last, tr, f => by
    simp only [femLoop]
    refine (hc.step h solver con require tolerance up uw i c).bind fun r r' hr => ?_
    obtain ⟨⟨h1, h2⟩, h3⟩ := hr
    rw [h2, h3]
    by_cases hd : |r'.1.2 - c| < tolerance
    · simp only [if_pos hd]
      exact PyRel.ok ⟨h1, rfl, rfl, rfl, rfl⟩
    · simp only [if_neg hd]
      exact hc.loop solver con require tolerance up uw is h1 _ _ _ _

/-- Two fits whose component models correspond have corresponding outcomes. -/
theorem FEMCorr.iterate (hc : FEMCorr Rp comp comp') (h : s.Corr Rp s') (solver : LPSolver K)
    (con : Option (FEMConstraints (k * T + e) K)) (require : Bool) (tolerance : K) (maxIter : ℕ)
    (up uw : Bool) :
    PyRel (FEMResult.Corr Rp) (femIterate comp solver con require tolerance maxIter up uw s)
      (femIterate comp' solver con require tolerance maxIter up uw s') := by
  unfold femIterate
  obtain ⟨h1, h2⟩ := hc.evaluateCost h
  simp only [h2]
  exact hc.loop solver con require tolerance up uw _ h1 _ _ _ _

/-! ### Rigid motions -/

variable {D : ℕ}

/-- The rows of `Y` are those of `X` multiplied by `Q` and translated by `b`. -/
def RowsMoved {m : ℕ} (Q : Matrix (Fin D) (Fin D) K) (b : Fin D → K) (X Y : Matrix (Fin m) (Fin D) K) :
    Prop := ∀ t d, Y t d = (X * Q) t d + b d

theorem sum_sq_mul_orthogonal {Q : Matrix (Fin D) (Fin D) K} (hQ : Q * Qᵀ = 1) (v : Fin D → K) :
    ∑ d, (∑ l, v l * Q l d) ^ 2 = ∑ d, v d ^ 2 := by
  have h : (Matrix.vecMul v Q) ⬝ᵥ (Matrix.vecMul v Q) = v ⬝ᵥ v := by
    rw [← Matrix.dotProduct_mulVec, ← Matrix.vecMul_transpose]
    rw [Matrix.vecMul_vecMul, hQ, Matrix.vecMul_one]
  simpa [dotProduct, Matrix.vecMul, sq] using h

theorem kmeansDistance_moved {Q : Matrix (Fin D) (Fin D) K} (hQ : Q * Qᵀ = 1) {b : Fin D → K}
    {X Y : Matrix (Fin T) (Fin D) K} (hY : RowsMoved Q b X Y) {C C' : Matrix (Fin k) (Fin D) K}
    (hC : RowsMoved Q b C C') : kmeansDistance X C = kmeansDistance Y C' := by
  funext t j
  unfold kmeansDistance
  rw [← sum_sq_mul_orthogonal hQ fun d => X t d - C j d]
  refine Finset.sum_congr rfl fun d _ => ?_
  rw [hY, hC, Matrix.mul_apply, Matrix.mul_apply]
  congr 1
  rw [add_sub_add_right_eq_sub, ← Finset.sum_sub_distrib]
  exact Finset.sum_congr rfl fun l _ => by ring

theorem kmeansUpdate_moved {Q : Matrix (Fin D) (Fin D) K} {b : Fin D → K}
    {X Y : Matrix (Fin T) (Fin D) K} (hY : RowsMoved Q b X Y) (G : Matrix (Fin T) (Fin k) K)
    (C C' : Matrix (Fin k) (Fin D) K) :
    PyRel (RowsMoved Q b) (kmeansUpdate X G C) (kmeansUpdate Y G C') := by
  unfold kmeansUpdate
  simp only
  split_ifs with h
  · exact rfl
  · refine PyRel.ok fun j d => ?_
    have hn : ∑ t, G t j ≠ 0 := fun hn => h ⟨j, d, hn⟩
    change (∑ t, G t j * Y t d) / ∑ t, G t j =
      ∑ l, (∑ t, G t j * X t l) / (∑ t, G t j) * Q l d + b d
    have hY' : ∀ t, Y t d = ∑ l, X t l * Q l d + b d := fun t => hY t d
    simp only [hY']
    rw [div_eq_iff hn, add_mul, Finset.sum_mul]
    have : ∀ l, (∑ t, G t j * X t l) / (∑ t, G t j) * Q l d * ∑ t, G t j =
        ∑ t, G t j * (X t l * Q l d) := by
      intro l
      rw [div_mul_eq_mul_div, div_mul_cancel₀ _ hn, Finset.sum_mul]
      exact Finset.sum_congr rfl fun t _ => by ring
    simp only [this]
    rw [Finset.sum_comm, Finset.mul_sum, ← Finset.sum_add_distrib]
    refine Finset.sum_congr rfl fun t _ => ?_
    rw [mul_add, Finset.mul_sum, mul_comm (b d)]

theorem kmeansCorr {Q : Matrix (Fin D) (Fin D) K} (hQ : Q * Qᵀ = 1) {b : Fin D → K}
    {X Y : Matrix (Fin T) (Fin D) K} (hY : RowsMoved Q b X Y) (k : ℕ) :
    FEMCorr (RowsMoved Q b) (kmeansComp k X) (kmeansComp k Y) :=
  ⟨fun h => kmeansDistance_moved hQ hY h, fun {p p'} G _ => kmeansUpdate_moved hY G p p'⟩

/-- The parameters supplied to two fits. -/
def ArgMoved (Q : Matrix (Fin D) (Fin D) K) (b : Fin D → K) (A A' : Option (Arr2 K)) : Prop :=
  (A = none ∧ A' = none) ∨ ∃ (m : ℕ) (C C' : Matrix (Fin m) (Fin D) K),
    A = some (Arr2.of C) ∧ A' = some (Arr2.of C') ∧ RowsMoved Q b C C'

theorem kmeansInit_moved {Q : Matrix (Fin D) (Fin D) K} {b : Fin D → K}
    {X Y : Matrix (Fin T) (Fin D) K} (hY : RowsMoved Q b X Y) (R : Rng K) (k : ℕ)
    {A A' : Option (Arr2 K)} (hA : ArgMoved Q b A A') (init : Option String) (g : R.G) :
    PyRel (fun r r' => RowsMoved Q b r.1 r'.1 ∧ r.2 = r'.2) (kmeansInit R X k A init g)
      (kmeansInit R Y k A' init g) := by
  have hr : PyRel (fun r r' => RowsMoved Q b r.1 r'.1 ∧ r.2 = r'.2) (kmeansRandom R X k g)
      (kmeansRandom R Y k g) := by
    unfold kmeansRandom
    split_ifs
    · exact rfl
    · exact PyRel.bind_same fun rows => PyRel.ok ⟨fun j d => hY (rows j) d, rfl⟩
  unfold kmeansInit
  by_cases hi : init = some "custom"
  · simp only [if_pos hi]
    rcases hA with ⟨rfl, rfl⟩ | ⟨m, C, C', rfl, rfl, hC⟩
    · exact hr
    · have hc : PyRel (RowsMoved Q b) (kmeansCheckParameters (Arr2.of C) k D)
          (kmeansCheckParameters (Arr2.of C') k D) := by
        unfold kmeansCheckParameters
        refine PyRel.bind (P := fun A A' => A = Arr2.of C ∧ A' = Arr2.of C') ?_ ?_
        · have e : ∀ A : Matrix (Fin m) (Fin D) K, checkArray (some (Arr2.of A)) =
              (if m = 0 ∨ D = 0 then Py.raise .valueError else Py.ok (Arr2.of A)) := fun _ => rfl
          rw [e, e]
          split_ifs
          · exact rfl
          · exact PyRel.ok ⟨rfl, rfl⟩
        · rintro A A' ⟨rfl, rfl⟩
          unfold checkArrayShape
          by_cases hm : m = k
          · subst hm
            rw [dif_pos ⟨rfl, rfl⟩, dif_pos ⟨rfl, rfl⟩]
            exact PyRel.ok hC
          · rw [dif_neg fun h => hm h.1, dif_neg fun h => hm h.1]
            exact rfl
      exact hc.bind fun _ _ h => PyRel.ok ⟨h, rfl⟩
  · simp only [if_neg hi]
    exact hr

theorem femKMeansRun_moved {Q : Matrix (Fin D) (Fin D) K} (hQ : Q * Qᵀ = 1) {b : Fin D → K}
    {X Y : Matrix (Fin T) (Fin D) K} (hY : RowsMoved Q b X Y) (R : Rng K) (solver : LPSolver K)
    (obj : FEMKMeansObj R) (args : FEMArgs K) {A' : Option (Arr2 K)}
    (hA : ArgMoved Q b args.parameters A') :
    PyRel (fun r r' => ∃ (k : ℕ) (C C' : Matrix (Fin k) (Fin D) K),
        r.1.Theta = some (Arr2.of C) ∧ RowsMoved Q b C C' ∧
        r' = ({ r.1 with Theta := some (Arr2.of C') }, r.2))
      (femKMeansRun R solver obj (Arr2.of X) args)
      (femKMeansRun R solver obj (Arr2.of Y) { args with parameters := A' }) := by
  unfold femKMeansRun
  simp only [Arr2.of]
  refine PyRel.bind_same fun p => ?_
  refine (kmeansInit_moved hY R p.1 hA args.init obj.randomState).bind fun th th' hth => ?_
  obtain ⟨hth, hg⟩ := hth
  simp only [hg]
  refine PyRel.bind_same fun gamma => PyRel.bind_same fun tv => PyRel.bind_same fun con => ?_
  refine ((kmeansCorr hQ hY p.1).iterate
    (s := ⟨gamma.1, th.1, kmeansDistance X th.1⟩) (s' := ⟨gamma.1, th'.1, kmeansDistance Y th'.1⟩)
    ⟨rfl, hth, kmeansDistance_moved hQ hY hth⟩ solver con
    obj.require p.2.2 p.2.1 args.updateParameters args.updateWeights).bind fun r r' hr => ?_
  obtain ⟨⟨h1, h2, -⟩, h3, h4, h5, h6⟩ := hr
  refine PyRel.ok ⟨p.1, r.state.params, r'.state.params, rfl, h2, ?_⟩
  simp only [h1, h3, h4, h5, h6]

end Reor
