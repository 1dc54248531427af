import Verif.Proofs.VARXSym

/-!
FEM-BV-VARX with memory 0 beside FEM-BV-k-means.
-/

namespace Reor

set_option linter.unusedSectionVars false

open scoped BigOperators Matrix
open Spec

/-! ### Equal outcomes, unless the first is a LinAlgError -/

section LinOr

variable {α β γ δ' : Type}

/-- The first outcome is a LinAlgError, or the outcomes agree up to a relation. -/
def LinOr (P : α → β → Prop) (x : Py α) (y : Py β) : Prop :=
  x = Py.raise .linAlgError ∨ PyRel P x y

theorem LinOr.ok {P : α → β → Prop} {a : α} {b : β} (h : P a b) : LinOr P (Py.ok a) (Py.ok b) :=
  Or.inr h

theorem LinOr.bind {P : α → β → Prop} {Q : γ → δ' → Prop} {x : Py α} {y : Py β} {f : α → Py γ}
    {g : β → Py δ'} (h : LinOr P x y) (hfg : ∀ a b, P a b → LinOr Q (f a) (g b)) :
    LinOr Q (x >>= f) (y >>= g) := by
  rcases h with rfl | h
  · exact Or.inl rfl
  · cases x <;> cases y <;> simp only [PyRel] at h
    · exact hfg _ _ h
    · exact Or.inr h
    · exact Or.inr trivial

theorem LinOr.bind_same {Q : γ → δ' → Prop} {x : Py α} {f : α → Py γ} {g : α → Py δ'}
    (h : ∀ a, x = Py.ok a → LinOr Q (f a) (g a)) : LinOr Q (x >>= f) (x >>= g) := by
  cases x
  · exact h _ rfl
  · exact Or.inr rfl
  · exact Or.inr trivial

theorem LinOr.bind_eqs {Q : γ → δ' → Prop} {x y : Py α} {f : α → Py γ} {g : α → Py δ'} (h : x = y)
    (hf : ∀ a, LinOr Q (f a) (g a)) : LinOr Q (x >>= f) (y >>= g) :=
  h ▸ LinOr.bind_same fun a _ => hf a

theorem pyPi_or : ∀ {k : ℕ} {β : Fin k → Type} {P : ∀ i, β i → Prop} {e : PyErr}
    {f : (i : Fin k) → Py (β i)} (_ : ∀ i, f i = Py.raise e ∨ ∃ a, f i = Py.ok a ∧ P i a),
    pyPi f = Py.raise e ∨ ∃ a, pyPi f = Py.ok a ∧ ∀ i, P i (a i)
  | 0, _, _, _, _, _ => Or.inr ⟨_, rfl, fun i => i.elim0⟩
  | k + 1, β, P, e, f, h => by
    unfold pyPi
    rcases h 0 with h0 | ⟨a, h0, ha⟩
    · exact Or.inl (by rw [h0]; rfl)
    · rw [h0, Py.ok_bind]
      rcases pyPi_or fun i => h i.succ with hr | ⟨r, hr, hP⟩
      · exact Or.inl (by rw [hr]; rfl)
      · refine Or.inr ⟨Fin.cons a r, by rw [hr]; rfl, fun i => ?_⟩
        refine Fin.cases ?_ (fun i => ?_) i
        · exact ha
        · exact hP i

end LinOr

/-! ### Two FEM-BV fits with weights that are not negative -/

section Runs

variable {P P' : Type} {T k e : ℕ}

/-- Component models that correspond: `Rs` relates the parameters at any time, `Ru` those that come
out of an update. -/
structure LinCorr (Rs Ru : P → P' → Prop) (comp : FEMComp P T k ℝ) (comp' : FEMComp P' T k ℝ) :
    Prop where
  distance : ∀ {p p'}, Rs p p' → comp.distance p = comp'.distance p'
  weaken : ∀ {p p'}, Ru p p' → Rs p p'
  update : ∀ {p p'} (G : Matrix (Fin T) (Fin k) ℝ), (∀ t i, 0 ≤ G t i) → Rs p p' →
    LinOr Ru (comp.update G p) (comp'.update G p')

/-- States that agree up to the parameters. -/
def FEMState.Lin (Rp : P → P' → Prop) (s : FEMState P T k ℝ) (s' : FEMState P' T k ℝ) : Prop :=
  s.Gamma = s'.Gamma ∧ (∀ t i, 0 ≤ s.Gamma t i) ∧ Rp s.params s'.params

variable {Rs Ru : P → P' → Prop} {comp : FEMComp P T k ℝ} {comp' : FEMComp P' T k ℝ}
variable {s : FEMState P T k ℝ} {s' : FEMState P' T k ℝ}

theorem LinCorr.cost (hc : LinCorr Rs Ru comp comp') (h : s.Lin Rs s') :
    (s.evaluateCost comp).2 = (s'.evaluateCost comp').2 := by
  simp only [FEMState.evaluateCost, FEMState.evaluateDistance, h.1, hc.distance h.2.2]

theorem FEMState.Lin.evaluateCost {Rp : P → P' → Prop} (h : s.Lin Rp s') :
    (s.evaluateCost comp).1.Lin Rp (s'.evaluateCost comp').1 := h

theorem LinCorr.parametersPhase (hc : LinCorr Rs Ru comp comp') (h : s.Lin Rs s') (require : Bool)
    (tolerance : ℝ) (n : ℕ) (oldCost : ℝ) :
    LinOr (fun r r' => r.1.Lin Ru r'.1 ∧ r.2 = r'.2)
      (femParametersPhase comp require tolerance n s oldCost)
      (femParametersPhase comp' require tolerance n s' oldCost) := by
  unfold femParametersPhase FEMState.updateParameters
  simp only [Py.bind_assoc, Py.pure_eq, Py.ok_bind]
  have hu : LinOr Ru (comp.update s.Gamma s.params) (comp'.update s'.Gamma s'.params) :=
    h.1 ▸ hc.update s.Gamma h.2.1 h.2.2
  refine hu.bind fun p p' hp => ?_
  have h1 : FEMState.Lin Ru
      ((({ s with params := p } : FEMState P T k ℝ).evaluateDistance comp))
      ((({ s' with params := p' } : FEMState P' T k ℝ).evaluateDistance comp')) := ⟨h.1, h.2.1, hp⟩
  have h3 := hc.cost ⟨h1.1, h1.2.1, hc.weaken h1.2.2⟩
  exact LinOr.bind_eqs (congrArg _ h3) fun _ => LinOr.ok ⟨h1, h3⟩

theorem clip01_nonneg (x : ℝ) : 0 ≤ clip01 x := by
  unfold clip01
  exact le_min (le_max_right _ _) zero_le_one

theorem LinCorr.weightsPhase (hc : LinCorr Rs Ru comp comp') {Rp : P → P' → Prop}
    (hR : ∀ {p p'}, Rp p p' → Rs p p') (h : s.Lin Rp s') (solver : LPSolver ℝ)
    (con : Option (FEMConstraints (k * T + e) ℝ)) (require : Bool) (tolerance : ℝ) (n : ℕ)
    (oldCost : ℝ) :
    LinOr (fun r r' => (r.1.1.Lin Rp r'.1.1 ∧ r.1.2 = r'.1.2) ∧ r.2 = r'.2)
      (femWeightsPhase comp solver con require tolerance n s oldCost)
      (femWeightsPhase comp' solver con require tolerance n s' oldCost) := by
  unfold femWeightsPhase
  have hw : LinOr (fun q q' => q.1.Lin Rp q'.1 ∧ q.2 = q'.2) (s.updateWeights comp solver con)
      (s'.updateWeights comp' solver con) := by
    unfold FEMState.updateWeights
    split_ifs with h1
    · exact LinOr.ok ⟨h, rfl⟩
    · cases con with
      | none => exact Or.inr rfl
      | some con =>
        simp only
        have hd : (s.evaluateDistance comp).distanceMatrix =
            (s'.evaluateDistance comp').distanceMatrix := hc.distance (hR h.2.2)
        rw [hd]
        cases solver (weightsProgram con (s'.evaluateDistance comp').distanceMatrix) with
        | value v => exact LinOr.ok ⟨⟨rfl, fun t i => clip01_nonneg _, h.2.2⟩, rfl⟩
        | failed => exact LinOr.ok ⟨h, rfl⟩
        | noValue => exact Or.inr rfl
        | error e => exact Or.inr rfl
  refine hw.bind fun q q' hq => ?_
  have h3 := hc.cost ⟨hq.1.1, hq.1.2.1, hR hq.1.2.2⟩
  exact LinOr.bind_eqs (congrArg _ h3) fun _ => LinOr.ok ⟨⟨hq.1, h3⟩, hq.2⟩

/-- What holds after an iteration. -/
def afterStep (up : Bool) (Rs Ru : P → P' → Prop) (p : P) (p' : P') : Prop :=
  if up then Ru p p' else Rs p p'

theorem LinCorr.after (hc : LinCorr Rs Ru comp comp') {up : Bool} {p : P} {p' : P'}
    (h : afterStep up Rs Ru p p') : Rs p p' := by
  cases up
  · exact h
  · exact hc.weaken h

theorem LinCorr.step (hc : LinCorr Rs Ru comp comp') (h : s.Lin Rs s') (solver : LPSolver ℝ)
    (con : Option (FEMConstraints (k * T + e) ℝ)) (require : Bool) (tolerance : ℝ) (up uw : Bool)
    (n : ℕ) (oldCost : ℝ) :
    LinOr (fun r r' => (r.1.1.Lin (afterStep up Rs Ru) r'.1.1 ∧ r.1.2 = r'.1.2) ∧ r.2 = r'.2)
      (femStep comp solver con require tolerance up uw n s oldCost)
      (femStep comp' solver con require tolerance up uw n s' oldCost) := by
  unfold femStep
  have h1 : LinOr (fun r r' => r.1.Lin (afterStep up Rs Ru) r'.1 ∧ r.2 = r'.2)
      (match up with
        | true => femParametersPhase comp require tolerance n s oldCost
        | false => Py.ok (s, oldCost))
      (match up with
        | true => femParametersPhase comp' require tolerance n s' oldCost
        | false => Py.ok (s', oldCost)) := by
    cases up
    · exact LinOr.ok ⟨h, rfl⟩
    · exact hc.parametersPhase h _ _ _ _
  refine h1.bind fun r r' hr => ?_
  cases uw
  · exact LinOr.ok ⟨hr, rfl⟩
  · exact hc.weightsPhase hc.after hr.1 _ _ _ _ _ _

/-- Results of fits that agree up to the parameters. -/
def FEMResult.Lin (Rp : P → P' → Prop) (r : FEMResult P T k ℝ) (r' : FEMResult P' T k ℝ) : Prop :=
  r.state.Lin Rp r'.state ∧ r.cost = r'.cost ∧ r.nIter = r'.nIter ∧ r.trace = r'.trace ∧
    r.failures = r'.failures

theorem LinCorr.loop (hc : LinCorr Rs Ru comp comp') (solver : LPSolver ℝ)
    (con : Option (FEMConstraints (k * T + e) ℝ)) (require : Bool) (tolerance : ℝ) (up uw : Bool) :
    ∀ (is : List ℕ) {s : FEMState P T k ℝ} {s' : FEMState P' T k ℝ} (_ : s.Lin Rs s') (c : ℝ)
      (last : Option ℕ) (_ : last ≠ none → s.Lin (afterStep up Rs Ru) s') (tr : List ℝ) (f : ℕ),
      LinOr (FEMResult.Lin (afterStep up Rs Ru))
        (femLoop comp solver con require tolerance up uw is s c last tr f)
        (femLoop comp' solver con require tolerance up uw is s' c last tr f)
  | [], s, s', h, c, last, hlast, tr, f => by
    cases last with
    | none => exact Or.inr rfl
    | some n => exact LinOr.ok ⟨hlast (by simp), rfl, rfl, rfl, rfl⟩
  | i :: is, s, s', h, c, last, hlast, tr, f => by
    simp only [femLoop]
    refine (hc.step h solver con require tolerance up uw i c).bind fun r r' hr => ?_
    obtain ⟨⟨h1, h2⟩, h3⟩ := hr
    rw [h2, h3]
    by_cases hd : |r'.1.2 - c| < tolerance
    · simp only [if_pos hd]
      exact LinOr.ok ⟨h1, rfl, rfl, rfl, rfl⟩
    · simp only [if_neg hd]
      exact hc.loop solver con require tolerance up uw is ⟨h1.1, h1.2.1, hc.after h1.2.2⟩ _ _
        (fun _ => h1) _ _

theorem LinCorr.iterate (hc : LinCorr Rs Ru comp comp') (h : s.Lin Rs s') (solver : LPSolver ℝ)
    (con : Option (FEMConstraints (k * T + e) ℝ)) (require : Bool) (tolerance : ℝ) (maxIter : ℕ)
    (up uw : Bool) :
    LinOr (FEMResult.Lin (afterStep up Rs Ru))
      (femIterate comp solver con require tolerance maxIter up uw s)
      (femIterate comp' solver con require tolerance maxIter up uw s') := by
  unfold femIterate
  simp only [hc.cost h]
  exact hc.loop solver con require tolerance up uw _ h.evaluateCost _ _ (fun h => absurd rfl h) _ _

end Runs

/-! ### Local models of memory 0 -/

section Mean

variable {n D : ℕ}

/-- The minimiser of the weighted squared distances is the weighted mean. -/
theorem weighted_mean_unique {X : Matrix (Fin n) (Fin D) ℝ} {w : Fin n → ℝ}
    (hw : 0 < ∑ t, w t) {mu : Fin D → ℝ}
    (hmin : ∀ c : Fin D → ℝ, ∑ t, w t * ∑ d, (X t d - mu d) ^ 2 ≤
      ∑ t, w t * ∑ d, (X t d - c d) ^ 2) (d : Fin D) :
    mu d = (∑ t, w t * X t d) / ∑ t, w t := by
  have h := hmin (Function.update mu d ((∑ t, w t * X t d) / ∑ t, w t))
  set W := ∑ t, w t with hW
  set S := ∑ t, w t * X t d with hS
  have e : ∀ c : ℝ, ∑ t, w t * ∑ j, (X t j - Function.update mu d c j) ^ 2 =
      ∑ t, w t * ∑ j ∈ Finset.univ.erase d, (X t j - mu j) ^ 2 + ∑ t, w t * X t d ^ 2 -
        2 * c * S + c ^ 2 * W := by
    intro c
    have : ∀ t, w t * ∑ j, (X t j - Function.update mu d c j) ^ 2 =
        w t * ∑ j ∈ Finset.univ.erase d, (X t j - mu j) ^ 2 + w t * X t d ^ 2 -
          2 * c * (w t * X t d) + c ^ 2 * w t := by
      intro t
      rw [← Finset.add_sum_erase _ _ (Finset.mem_univ d), Function.update_self]
      rw [Finset.sum_congr rfl (g := fun j => (X t j - mu j) ^ 2) fun j hj => by
        rw [Function.update_of_ne (Finset.ne_of_mem_erase hj)]]
      ring
    rw [Finset.sum_congr rfl fun t _ => this t, Finset.sum_add_distrib, Finset.sum_sub_distrib,
      Finset.sum_add_distrib, ← Finset.mul_sum, ← Finset.mul_sum]
  have e0 := e (mu d)
  rw [Function.update_eq_self] at e0
  rw [e0, e] at h
  have hc : S / W * W = S := div_mul_cancel₀ _ hw.ne'
  have h2 : W * (mu d - S / W) ^ 2 ≤ 0 := by
    have k1 : W * (mu d - S / W) ^ 2 =
        mu d ^ 2 * W - 2 * mu d * (S / W * W) + (S / W) * (S / W * W) := by ring
    have k2 : (S / W) ^ 2 * W = (S / W) * (S / W * W) := by ring
    rw [hc] at k1 k2
    rw [k2] at h
    rw [k1]
    linarith
  have h3 : (mu d - S / W) ^ 2 ≤ 0 := by
    by_contra hne
    push Not at hne
    nlinarith [mul_pos hw hne]
  have := pow_eq_zero_iff (two_ne_zero) |>.1 (le_antisymm h3 (sq_nonneg _))
  linarith

/-- The local model of memory 0 without external factors. -/
def meanModel (mem : Memory) (X : Matrix (Fin n) (Fin D) ℝ) : VARXModel D 0 :=
  ⟨n, 0, 0, X, fun _ e => e.elim0, varxRegressors mem 0 0 X fun _ e => e.elim0⟩

variable {mem : Memory} {X : Matrix (Fin n) (Fin D) ℝ} {lstsq : LstSq}

theorem meanModel_made : (meanModel mem X).Made mem := ⟨rfl, Nat.zero_le _⟩

theorem mean_prediction (mu : Fin D → ℝ) (A : Fin 0 → Matrix (Fin D) (Fin D) ℝ)
    (B : Fin 0 → Matrix (Fin D) (Fin 0) ℝ) (B0 : Matrix (Fin D) (Fin 0) ℝ) (y : ℕ → Fin D → ℝ)
    (u : ℕ → Fin 0 → ℝ) (t : ℕ) : varxPrediction mu A B B0 y u t = mu := by
  funext d
  simp [varxPrediction]

theorem mean_error (w : Fin n → ℝ) (mu : Fin D → ℝ) :
    weightedError 0 w X (fun _ => mu) = ∑ t, w t * ∑ d, (X t d - mu d) ^ 2 := by
  unfold weightedError
  refine Finset.sum_congr rfl fun t _ => ?_
  rw [if_pos (Nat.zero_le _)]
  rfl

theorem meanModel_residuals (params : Matrix (Fin (meanModel mem X).nCols) (Fin D) ℝ) (t : Fin n)
    (d : Fin D) : (meanModel mem X).residuals params t d = X t d - (meanModel mem X).readMu params d := by
  have h := residuals_eq (meanModel_made (mem := mem) (X := X)) params t (Nat.zero_le _) d
  rw [h]
  exact congrArg (fun z => X t d - z) (congrFun (mean_prediction _ _ _ _ _ _ _) d)

theorem finish_or {E : ℕ} {m : VARXModel D E} (params : Matrix (Fin m.nCols) (Fin D) ℝ)
    (S : Option (Matrix (Fin D) (Fin D) ℝ)) :
    (m.finish params S = Py.raise .linAlgError ∧ ∃ S', S = some S' ∧ S'.det = 0) ∨
      ∃ f, m.finish params S = Py.ok f ∧ f.From params ∧ ∀ S', S = some S' → S'.det ≠ 0 := by
  cases S with
  | none => exact Or.inr ⟨_, rfl, ⟨rfl, rfl, rfl, rfl, rfl⟩, fun _ h => by simp at h⟩
  | some S =>
    by_cases h : S.det = 0
    · refine Or.inl ⟨?_, S, rfl, h⟩
      unfold VARXModel.finish
      rw [show npInv (some S) = Py.raise .linAlgError from if_pos h]
      rfl
    · refine Or.inr ⟨⟨m.residuals params, m.readMu params, m.readA params, m.readB params,
        m.readB0 params, some S, some S⁻¹⟩, ?_, ⟨rfl, rfl, rfl, rfl, rfl⟩, ?_⟩
      · unfold VARXModel.finish
        rw [show npInv (some S) = Py.ok (some S⁻¹) from if_neg h]
        rfl
      · rintro _ ⟨⟩
        exact h

/-- When the covariance of residuals is singular. -/
theorem covariance_singular {l : ℕ} (r : Matrix (Fin l) (Fin D) ℝ) (df : ℝ) :
    (∃ S, covariance r df = some S ∧ S.det = 0) ↔
      df ≠ 0 ∧ ∃ v : Fin D → ℝ, v ≠ 0 ∧ ∀ t, ∑ d, r t d * v d = 0 := by
  have key : ∀ h : df ≠ 0, (Matrix.det fun a b => (r.transpose * r) a b / df) = 0 ↔
      ∃ v : Fin D → ℝ, v ≠ 0 ∧ ∀ t, ∑ d, r t d * v d = 0 := by
    intro h
    have e : (fun a b => (r.transpose * r) a b / df : Matrix (Fin D) (Fin D) ℝ) =
        df⁻¹ • (r.transpose * r) := by
      funext a b
      exact div_eq_inv_mul _ _
    refine (iff_of_eq (congrArg (fun M => Matrix.det M = 0) e)).trans ?_
    rw [← Matrix.exists_mulVec_eq_zero_iff]
    refine exists_congr fun v => and_congr_right fun _ => ?_
    rw [Matrix.smul_mulVec, smul_eq_zero, or_iff_right (inv_ne_zero h), ← Matrix.mulVec_mulVec]
    constructor
    · intro hz t
      have h0 : (r *ᵥ v) ⬝ᵥ (r *ᵥ v) = 0 := by
        rw [Matrix.dotProduct_mulVec, ← Matrix.mulVec_transpose, hz, zero_dotProduct]
      exact mul_self_eq_zero.1
        ((Finset.sum_eq_zero_iff_of_nonneg fun t _ => mul_self_nonneg _).1 h0 t (Finset.mem_univ _))
    · intro hz
      have : r *ᵥ v = 0 := funext hz
      rw [this, Matrix.mulVec_zero]
  unfold covariance
  by_cases h : df = 0
  · simp [h]
  · rw [if_neg h]
    constructor
    · rintro ⟨S, hS, hdet⟩
      obtain rfl := Option.some.inj hS
      exact ⟨h, (key h).1 hdet⟩
    · rintro ⟨-, hv⟩
      exact ⟨_, rfl, (key h).2 hv⟩

theorem meanModel_readMu {w : Fin n → ℝ} (hw : ∀ t, 0 ≤ w t)
    (hpos : 0 < ∑ t, w t) {x : Matrix (Fin (meanModel mem X).nCols) (Fin D) ℝ}
    (hx : ∀ x', lsError
        (scaleRows (fun t => Real.sqrt ((meanModel mem X).tailWeights w t)) (meanModel mem X).z)
        (scaleRows (fun t => Real.sqrt ((meanModel mem X).tailWeights w t)) (meanModel mem X).target) x ≤
      lsError
        (scaleRows (fun t => Real.sqrt ((meanModel mem X).tailWeights w t)) (meanModel mem X).z)
        (scaleRows (fun t => Real.sqrt ((meanModel mem X).tailWeights w t)) (meanModel mem X).target) x')
    (d : Fin D) : (meanModel mem X).readMu x d = (∑ t, w t * X t d) / ∑ t, w t := by
  have htail : ∀ t, 0 ≤ (meanModel mem X).tailWeights w t := fun t => hw _
  refine weighted_mean_unique hpos (fun c => ?_) d
  obtain ⟨x', h1, -⟩ := exists_params (meanModel mem X) c (fun i => i.elim0) (fun i => i.elim0)
    (fun _ e => e.elim0)
  have h := hx x'
  rw [lsError_eq meanModel_made htail, lsError_eq meanModel_made htail] at h
  have a1 : (varxPrediction ((meanModel mem X).readMu x) ((meanModel mem X).readA x)
    ((meanModel mem X).readB x) ((meanModel mem X).readB0 x) (rowSeq (meanModel mem X).y)
    (rowSeq (meanModel mem X).u)) = fun _ => (meanModel mem X).readMu x :=
      funext fun t => mean_prediction _ _ _ _ _ _ t
  have a2 : (varxPrediction ((meanModel mem X).readMu x') ((meanModel mem X).readA x')
    ((meanModel mem X).readB x') ((meanModel mem X).readB0 x') (rowSeq (meanModel mem X).y)
    (rowSeq (meanModel mem X).u)) = fun _ => c :=
      funext fun t => (mean_prediction _ _ _ _ _ _ t).trans h1
  rw [a1, a2] at h
  exact (le_of_eq (mean_error _ _).symm).trans (h.trans (le_of_eq (mean_error _ _)))

/-- Weighted residuals from the mean that vanish in a direction. -/
theorem hyperplane_iff {w : Fin n → ℝ} (hw : ∀ t, 0 ≤ w t) (hpos : 0 < ∑ t, w t) {mu : Fin D → ℝ}
    (hmu : ∀ d, mu d = (∑ t, w t * X t d) / ∑ t, w t) :
    (∃ v : Fin D → ℝ, v ≠ 0 ∧ ∀ t, ∑ d, (Real.sqrt (w t) * (X t d - mu d)) * v d = 0) ↔
      InHyperplane w X := by
  refine exists_congr fun v => and_congr_right fun _ => ?_
  have e : ∀ t, ∑ d, (Real.sqrt (w t) * (X t d - mu d)) * v d =
      Real.sqrt (w t) * (∑ d, X t d * v d - ∑ d, mu d * v d) := by
    intro t
    rw [← Finset.sum_sub_distrib, Finset.mul_sum]
    exact Finset.sum_congr rfl fun d _ => by ring
  constructor
  · intro h
    refine ⟨∑ d, mu d * v d, fun t ht => ?_⟩
    have h1 := h t
    rw [e, mul_eq_zero, Real.sqrt_eq_zero (hw t), or_iff_right ht] at h1
    linarith
  · rintro ⟨c, hc⟩ t
    have hm : ∑ d, mu d * v d = c := by
      have h1 : (∑ t, w t) * ∑ d, mu d * v d = ∑ t, w t * ∑ d, X t d * v d := by
        simp only [Finset.mul_sum]
        rw [Finset.sum_comm (s := Finset.univ (α := Fin n))]
        refine Finset.sum_congr rfl fun d _ => ?_
        have h2 : (∑ t, w t) * mu d = ∑ t, w t * X t d := by
          rw [hmu, mul_div_cancel₀ _ hpos.ne']
        rw [← mul_assoc, h2, Finset.sum_mul]
        exact Finset.sum_congr rfl fun t _ => by ring
      have h3 : ∑ t, w t * ∑ d, X t d * v d = (∑ t, w t) * c := by
        rw [Finset.sum_mul]
        refine Finset.sum_congr rfl fun t _ => ?_
        by_cases h0 : w t = 0
        · rw [h0, zero_mul, zero_mul]
        · rw [hc t h0]
      rw [h3] at h1
      exact mul_left_cancel₀ hpos.ne' h1
    rw [e]
    by_cases h0 : w t = 0
    · rw [h0, Real.sqrt_zero, zero_mul]
    · rw [hc t h0, hm, sub_self, mul_zero]

/-- The fit with weights that are not negative. -/
theorem meanModel_fitWeighted (hD : 0 < D) (hl : lstsq.Exact)
    (htot : ∀ m n r a b, ∃ x, lstsq m n r a b = Py.ok x) {w : Fin n → ℝ} (hw : ∀ t, 0 ≤ w t) :
    ((meanModel mem X).fitWeighted lstsq w = Py.raise .linAlgError ∧ ∑ t, w t ≠ 1 ∧ InHyperplane w X) ∨
    ∃ f, (meanModel mem X).fitWeighted lstsq w = Py.ok f ∧ ∑ t, w t ≠ 0 ∧
      ¬(∑ t, w t ≠ 1 ∧ InHyperplane w X) ∧
      (∀ d, f.mu d = (∑ t, w t * X t d) / ∑ t, w t) ∧
      ∀ (t : Fin n) d, f.residuals t d = X t d - f.mu d := by
  have htail : ∀ t, 0 ≤ (meanModel mem X).tailWeights w t := fun t => hw _
  obtain ⟨x, hx⟩ := htot _ _ _
    (scaleRows (fun t => Real.sqrt ((meanModel mem X).tailWeights w t)) (meanModel mem X).z)
    (scaleRows (fun t => Real.sqrt ((meanModel mem X).tailWeights w t)) (meanModel mem X).target)
  have hneg : ¬∃ t, (meanModel mem X).tailWeights w t < 0 := by
    rintro ⟨t, ht⟩
    exact absurd (htail t) (not_le.2 ht)
  have hfit : (meanModel mem X).fitWeighted lstsq w = (meanModel mem X).finish x
      (covariance (scaleRows (fun t => Real.sqrt ((meanModel mem X).tailWeights w t))
        ((meanModel mem X).tailResiduals x)) (∑ t, (meanModel mem X).tailWeights w t - 1)) := by
    unfold VARXModel.fitWeighted
    rw [if_neg hneg]
    simp only [hx, Py.ok_bind]
  -- when the covariance is singular
  have hsing : (∃ S, covariance (scaleRows (fun t => Real.sqrt ((meanModel mem X).tailWeights w t))
        ((meanModel mem X).tailResiduals x)) (∑ t, (meanModel mem X).tailWeights w t - 1) = some S ∧
        S.det = 0) ↔ ∑ t, w t ≠ 1 ∧ InHyperplane w X := by
    rw [covariance_singular]
    refine and_congr ?_ ?_
    · change (∑ t, w t) - 1 ≠ 0 ↔ _
      rw [sub_ne_zero]
    · have e : ∀ (t : Fin n) d, (scaleRows (fun t => Real.sqrt ((meanModel mem X).tailWeights w t))
          ((meanModel mem X).tailResiduals x)) t d =
          Real.sqrt (w t) * (X t d - (meanModel mem X).readMu x d) := fun t d =>
        congrArg (fun z => Real.sqrt (w t) * z) (meanModel_residuals x t d)
      by_cases h0 : ∑ t, w t = 0
      · have hz : ∀ t, w t = 0 := fun t =>
          (Finset.sum_eq_zero_iff_of_nonneg fun t _ => hw t).1 h0 t (Finset.mem_univ _)
        refine iff_of_true ⟨fun _ => 1, ?_, fun t => ?_⟩ ⟨fun _ => 1, ?_, 0, fun t ht => absurd (hz t) ht⟩
        · exact fun h => one_ne_zero (congrFun h ⟨0, hD⟩)
        · have e0 : ∀ (t : Fin n) d, Real.sqrt (w t) * (X t d - (meanModel mem X).readMu x d) = 0 :=
            fun t d => by rw [hz, Real.sqrt_zero, zero_mul]
          exact Finset.sum_eq_zero fun d _ =>
            (congrArg (· * (1 : ℝ)) ((e t d).trans (e0 t d))).trans (zero_mul _)
        · exact fun h => one_ne_zero (congrFun h ⟨0, hD⟩)
      · have hpos : 0 < ∑ t, w t :=
          lt_of_le_of_ne (Finset.sum_nonneg fun t _ => hw t) (Ne.symm h0)
        rw [← hyperplane_iff hw hpos (meanModel_readMu hw hpos fun x' => hl _ _ _ _ _ _ hx x')]
        refine exists_congr fun v => and_congr_right fun _ => ?_
        refine forall_congr' fun t => ?_
        rw [Finset.sum_congr rfl fun d _ => congrArg (· * v d) (e t d)]
  rw [hfit]
  rcases finish_or (m := meanModel mem X) x (covariance
      (scaleRows (fun t => Real.sqrt ((meanModel mem X).tailWeights w t))
        ((meanModel mem X).tailResiduals x)) (∑ t, (meanModel mem X).tailWeights w t - 1))
    with ⟨h, hS⟩ | ⟨f, h, hf, hS⟩
  · exact Or.inl ⟨h, hsing.1 hS⟩
  · right
    have hns : ¬(∑ t, w t ≠ 1 ∧ InHyperplane w X) := by
      rw [← hsing]
      rintro ⟨S, h1, h2⟩
      exact hS S h1 h2
    have hW : ∑ t, w t ≠ 0 := by
      intro h0
      have hz : ∀ t, w t = 0 := fun t =>
        (Finset.sum_eq_zero_iff_of_nonneg fun t _ => hw t).1 h0 t (Finset.mem_univ _)
      exact hns ⟨by rw [h0]; norm_num, fun _ => 1, fun h => one_ne_zero (congrFun h ⟨0, hD⟩), 0,
        fun t ht => absurd (hz t) ht⟩
    have hpos : 0 < ∑ t, w t :=
      lt_of_le_of_ne (Finset.sum_nonneg fun t _ => hw t) (Ne.symm hW)
    refine ⟨f, h, hW, hns, fun d => ?_, fun t d => ?_⟩
    · rw [hf.mu]
      exact meanModel_readMu hw hpos (fun x' => hl _ _ _ _ _ _ hx x') d
    · rw [hf.residuals, hf.mu]
      exact meanModel_residuals x t d

/-- The fit without weights. -/
theorem meanModel_fitPlain (hn : 0 < n) (hl : lstsq.Exact)
    (htot : ∀ m n r a b, ∃ x, lstsq m n r a b = Py.ok x) :
    ((meanModel mem X).fit lstsq none = Py.raise .linAlgError ∧ n ≠ 1 ∧ InHyperplane (fun _ => 1) X) ∨
    ∃ f, (meanModel mem X).fit lstsq none = Py.ok f ∧ ¬(n ≠ 1 ∧ InHyperplane (fun _ => 1) X) ∧
      ∀ (t : Fin n) d, f.residuals t d = X t d - (∑ t, X t d) / n := by
  obtain ⟨x, hx⟩ := htot _ _ _ (meanModel mem X).z (meanModel mem X).target
  have hcard : ∑ _t : Fin n, (1 : ℝ) = n := by simp
  have hpos : 0 < ∑ _t : Fin n, (1 : ℝ) := by rw [hcard]; exact_mod_cast hn
  have hone : ∀ {c : ℕ} (a : Matrix (Fin ((meanModel mem X).n - (meanModel mem X).presample)) (Fin c) ℝ),
      scaleRows (fun t => Real.sqrt ((meanModel mem X).tailWeights (fun _ => 1) t)) a = a := by
    intro c a
    ext t j
    change Real.sqrt 1 * a t j = a t j
    rw [Real.sqrt_one, one_mul]
  have hx' : ∀ x', lsError
      (scaleRows (fun t => Real.sqrt ((meanModel mem X).tailWeights (fun _ => 1) t)) (meanModel mem X).z)
      (scaleRows (fun t => Real.sqrt ((meanModel mem X).tailWeights (fun _ => 1) t))
        (meanModel mem X).target) x ≤ lsError
      (scaleRows (fun t => Real.sqrt ((meanModel mem X).tailWeights (fun _ => 1) t)) (meanModel mem X).z)
      (scaleRows (fun t => Real.sqrt ((meanModel mem X).tailWeights (fun _ => 1) t))
        (meanModel mem X).target) x' := by
    intro x'
    rw [hone, hone]
    exact hl _ _ _ _ _ _ hx x'
  have hmu : ∀ d, (meanModel mem X).readMu x d = (∑ t, 1 * X t d) / ∑ _t : Fin n, (1 : ℝ) :=
    meanModel_readMu (fun _ => zero_le_one) hpos hx'
  let df : ℝ := ((meanModel mem X).n : ℝ) - (meanModel mem X).presample - (meanModel mem X).p * D - 1 -
    (0 : ℕ) * (1 + (meanModel mem X).s)
  have hdf : df = n - 1 := by
    change ((n : ℝ) - (max 0 0 : ℕ) - (0 : ℕ) * D - 1 - (0 : ℕ) * (1 + (0 : ℕ))) = n - 1
    simp
  have hfit : (meanModel mem X).fit lstsq none = (meanModel mem X).finish x
      (covariance ((meanModel mem X).tailResiduals x) df) := by
    unfold VARXModel.fit VARXModel.fitPlain
    simp only [hx, Py.ok_bind]
    rfl
  have hsing : (∃ S, covariance ((meanModel mem X).tailResiduals x) df = some S ∧ S.det = 0) ↔
      n ≠ 1 ∧ InHyperplane (fun _ => 1) X := by
    rw [covariance_singular]
    refine and_congr ?_ ?_
    · rw [hdf, sub_ne_zero, Ne, Nat.cast_eq_one]
    · rw [← hyperplane_iff (fun _ => zero_le_one) hpos hmu]
      refine exists_congr fun v => and_congr_right fun _ => ?_
      refine forall_congr' fun t => ?_
      have e : ∀ d, (meanModel mem X).tailResiduals x t d =
          Real.sqrt 1 * (X t d - (meanModel mem X).readMu x d) := by
        intro d
        rw [Real.sqrt_one, one_mul]
        exact meanModel_residuals x t d
      rw [Finset.sum_congr rfl fun d _ => congrArg (· * v d) (e d)]
  rw [hfit]
  rcases finish_or (m := meanModel mem X) x (covariance ((meanModel mem X).tailResiduals x) df)
    with ⟨h, hS⟩ | ⟨f, h, hf, hS⟩
  · exact Or.inl ⟨h, hsing.1 hS⟩
  · right
    refine ⟨f, h, ?_, fun t d => ?_⟩
    · rw [← hsing]
      rintro ⟨S, h1, h2⟩
      exact hS S h1 h2
    · rw [hf.residuals]
      refine (meanModel_residuals x t d).trans ?_
      rw [hmu, hcard]
      simp

/-- Residuals from the centroids. -/
def MeanStart {k : ℕ} (mem : Memory) (X : Matrix (Fin n) (Fin D) ℝ)
    (p : VARXParams (fun _ : Fin k => meanModel mem X) 0) (Theta : Matrix (Fin k) (Fin D) ℝ) : Prop :=
  ∀ i (t : Fin n) d, (p.fits i).residuals t d = X t d - Theta i d

/-- The reported intercepts are the centroids, too. -/
def MeanUpdated {k : ℕ} (mem : Memory) (X : Matrix (Fin n) (Fin D) ℝ)
    (p : VARXParams (fun _ : Fin k => meanModel mem X) 0) (Theta : Matrix (Fin k) (Fin D) ℝ) : Prop :=
  MeanStart mem X p Theta ∧ p.mu = Theta

theorem mean_distance {k : ℕ} {p : VARXParams (fun _ : Fin k => meanModel mem X) 0}
    {Theta : Matrix (Fin k) (Fin D) ℝ} (h : MeanStart mem X p Theta) :
    varxDistance n p = kmeansDistance X Theta := by
  funext t i
  unfold varxDistance kmeansDistance
  rw [if_pos (show (meanModel mem X).n - 0 = n from rfl), sqResidual_seq]
  refine Finset.sum_congr rfl fun d _ => ?_
  unfold rowSeq
  rw [dif_pos (show (t : ℕ) + 0 < (meanModel mem X).n from t.2)]
  exact congrArg (fun z => z ^ 2) (h i t d)

/-- FEM-BV-VARX of memory 0 and FEM-BV-k-means side by side. -/
theorem meanCorr (hD : 0 < D) (hl : lstsq.Exact)
    (htot : ∀ m n r a b, ∃ x, lstsq m n r a b = Py.ok x) (k : ℕ) :
    LinCorr (MeanStart mem X) (MeanUpdated mem X)
      (varxComp (fun _ : Fin k => meanModel mem X) 0 n lstsq) (kmeansComp k X) where
  distance := fun h => mean_distance h
  weaken := fun h => h.1
  update := by
    intro p Theta G hG hp
    change LinOr _ (varxUpdate lstsq G p) (kmeansUpdate X G Theta)
    unfold varxUpdate
    have hfits : ∀ i : Fin k,
        (meanModel mem X).fit lstsq (some (varxWeights G i (meanModel mem X).p)) =
          (meanModel mem X).fitWeighted lstsq fun t => G t i := by
      intro i
      unfold VARXModel.fit
      refine (dif_pos (show (meanModel mem X).n = _ from rfl)).trans ?_
      refine congrArg _ (funext fun t => ?_)
      change (if _ : 0 ≤ (t : ℕ) then G ⟨(t : ℕ) - 0, t.2⟩ i else 1) = G t i
      exact dif_pos (Nat.zero_le _)
    rcases pyPi_or (P := fun i (f : VARXFit (meanModel mem X)) => ∑ t, G t i ≠ 0 ∧
        (∀ d, f.mu d = (∑ t, G t i * X t d) / ∑ t, G t i) ∧
        ∀ (t : Fin n) d, f.residuals t d = X t d - f.mu d)
        (f := fun i : Fin k => (meanModel mem X).fit lstsq (some (varxWeights G i (meanModel mem X).p)))
        (fun i => by
          rw [hfits i]
          rcases meanModel_fitWeighted hD hl htot fun t => hG t i with h | ⟨f, h, h1, -, h2⟩
          · exact Or.inl h.1
          · exact Or.inr ⟨f, h, h1, h2⟩) with h | ⟨f, h, hf⟩
    · exact Or.inl (by rw [h]; rfl)
    · rw [h, Py.ok_bind]
      unfold kmeansUpdate
      simp only
      rw [if_neg]
      · refine LinOr.ok ⟨fun i t d => ?_, ?_⟩
        · exact ((hf i).2.2 t d).trans (congrArg (fun z => X t d - z) ((hf i).2.1 d))
        · funext i d
          exact (hf i).2.1 d
      · rintro ⟨j, -, hj⟩
        exact (hf j).1 hj

end Mean

end Reor
