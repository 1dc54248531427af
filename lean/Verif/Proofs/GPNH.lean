import Verif.Proofs.GPNHCost
import Verif.Proofs.LineSearch
import Verif.Proofs.Descent
import Verif.Proofs.SimplexGeom
import Mathlib.Algebra.Order.Archimedean.Basic
import Mathlib.Tactic.Positivity

/-!
The updates and the fit of the GPNH model.
-/

namespace Reor

set_option linter.unusedSectionVars false

open scoped BigOperators Matrix
open Spec

variable {K : Type} [Field K] [LinearOrder K] [IsStrictOrderedRing K]
variable {T D k : ℕ}

/-- Moving part of the way towards a stochastic matrix keeps the rows stochastic. -/
theorem rowStochastic_step {m n : ℕ} {A B : Matrix (Fin m) (Fin n) K} (hA : RowStochastic A)
    (hB : RowStochastic B) {lam : K} (h0 : 0 ≤ lam) (h1 : lam ≤ 1) :
    RowStochastic (A + lam • (B - A)) := by
  intro i
  constructor
  · intro j
    have := (hA i).1 j
    have := (hB i).1 j
    simp only [Matrix.add_apply, Matrix.smul_apply, Matrix.sub_apply, smul_eq_mul]
    have e : A i j + lam * (B i j - A i j) = (1 - lam) * A i j + lam * B i j := by ring
    rw [e]
    have : 0 ≤ 1 - lam := by linarith
    positivity
  · have e1 := (hA i).2
    have e2 := (hB i).2
    simp only [Matrix.add_apply, Matrix.smul_apply, Matrix.sub_apply, smul_eq_mul,
      Finset.sum_add_distrib, ← Finset.mul_sum, Finset.sum_sub_distrib]
    simp only at e1 e2
    rw [e1, e2]; ring

theorem projectRows_rowStochastic {m n : ℕ} (hn : 1 ≤ n) (A : Matrix (Fin m) (Fin n) K) :
    RowStochastic (simplexProjectRows A) := by
  intro i
  rw [projectRows_apply]
  exact project_isProb hn _

/-- The projected-gradient direction is a descent direction. -/
theorem projected_slope {m n : ℕ} (hn : 1 ≤ n) {A G : Matrix (Fin m) (Fin n) K}
    (hA : RowStochastic A) (alpha : K) :
    frobSq (simplexProjectRows (A - alpha • G) - A) +
      alpha * inner (simplexProjectRows (A - alpha • G) - A) G ≤ 0 := by
  set P := simplexProjectRows (A - alpha • G) with hP
  have h : ∀ i, ∑ j, (A i j - alpha * G i j - P i j) * (A i j - P i j) ≤ 0 := by
    intro i
    have h1 := project_vi hn (fun j => (A - alpha • G) i j) (fun j => A i j) (hA i)
    rw [← projectRows_apply] at h1
    simpa [Matrix.sub_apply, Matrix.smul_apply] using h1
  have h2 : ∑ i, ∑ j, (A i j - alpha * G i j - P i j) * (A i j - P i j) ≤ 0 :=
    Finset.sum_nonpos fun i _ => h i
  refine le_trans (le_of_eq ?_) h2
  unfold frobSq inner
  rw [Finset.mul_sum, ← Finset.sum_add_distrib]
  refine Finset.sum_congr rfl fun i _ => ?_
  rw [Finset.mul_sum, ← Finset.sum_add_distrib]
  refine Finset.sum_congr rfl fun j _ => ?_
  simp only [Matrix.sub_apply]
  ring

/-- The settings of the line search keep the step between 0 and 1. -/
def LSConfig.Safe (cfg : LSConfig K) : Prop :=
  SafeSteps cfg.gamma cfg.alphaMax cfg.sigmaOne cfg.sigmaTwo

theorem LSConfig.safe_of_sigma {cfg : LSConfig K} (h1 : 0 < cfg.sigmaOne)
    (h2 : cfg.sigmaTwo < 1) : cfg.Safe := Or.inl ⟨h1.le, h2.le⟩

theorem StepRange.unit {cfg : LSConfig K} {δ lam : K} (h : StepRange cfg δ lam) (hs : cfg.Safe)
    (hδ : 0 ≤ cfg.alphaMax → δ ≤ 0) : 0 ≤ lam ∧ lam ≤ 1 := by
  rcases hs with ⟨h1, h2⟩ | ⟨ha, h1, h2⟩
  · exact ⟨h.nonneg (Or.inl h1), h.le_one (Or.inl h1) (Or.inl h2)⟩
  · have h3 : 0 ≤ cfg.sigmaOne ∨ (δ ≤ 0 ∧ cfg.gamma ≤ 1) := h1.imp_right fun h => ⟨hδ ha, h⟩
    exact ⟨h.nonneg h3, h.le_one h3 (h2.imp_right fun h => ⟨hδ ha, h⟩)⟩

theorem StepRange.bounds {cfg : LSConfig K} {δ lam : K} (h : StepRange cfg δ lam) :
    StepBounds cfg.gamma cfg.sigmaOne cfg.sigmaTwo δ lam :=
  ⟨fun h0 => h0.elim h.pos_sigma fun h0 => h.pos_slope h0.1 h0.2, h.nonneg, h.le_one⟩

/-- The step scale is not negative if its upper bound is not. -/
theorem nextSpgAlpha_nonneg {beta sksk aMin aMax : K} (hq : 0 ≤ sksk) (h : 0 ≤ aMax) :
    0 ≤ nextSpgAlpha beta sksk aMin aMax := by
  unfold nextSpgAlpha
  split_ifs with hb
  · exact h
  · exact le_min h (le_max_of_le_right (div_nonneg hq (not_le.1 hb).le))

theorem slope_nonpos_of_nonneg {δ N alpha : K} (ha : 0 ≤ alpha) (hδ : N + alpha * δ ≤ 0)
    (hN : 0 ≤ N) (h0 : N = 0 → δ = 0) : δ ≤ 0 := by
  rcases ha.eq_or_lt with h | h
  · rw [← h, zero_mul, add_zero] at hδ
    exact (h0 (le_antisymm hδ hN)).le
  · exact slope_nonpos h hδ hN

theorem projected_slope_nonpos {m n : ℕ} (hn : 1 ≤ n) {A G : Matrix (Fin m) (Fin n) K}
    (hA : RowStochastic A) {alpha : K} (ha : 0 ≤ alpha) :
    inner (simplexProjectRows (A - alpha • G) - A) G ≤ 0 :=
  slope_nonpos_of_nonneg ha (projected_slope hn hA alpha) (frobSq_nonneg _) (fun h => by
    rw [frobSq_eq_zero h.le, inner_zero_left])

namespace GPNHState

theorem dictionaryTrial_retriable (eps : K) :
    Retriable (dictionaryTrial (T := T) (D := D) (k := k) eps) := fun _ _ _ => rfl

theorem weightsTrial_retriable (eps : K) :
    Retriable (weightsTrial (T := T) (D := D) (k := k) eps) := fun _ _ _ => rfl

theorem mulSum_self_nonneg {m n : ℕ} (A : Matrix (Fin m) (Fin n) K) : 0 ≤ mulSum A A := by
  rw [mulSum_eq_inner, ← frobSq_eq_inner]
  exact frobSq_nonneg A

/-- What a completed weights update guarantees. -/
structure WeightsPost (cfg : LSConfig K) (eps : K) (s s' : GPNHState T D k K) (lam : K) : Prop where
  range : StepRange cfg
    (inner (simplexProjectRows (s.Gamma - s.alphaGamma • gradWOf s.X s.Gamma s.S) - s.Gamma)
      (gradWOf s.X s.Gamma s.S)) lam
  X : s'.X = s.X
  S : s'.S = s.S
  SSt : s'.SSt = s.S * s.Sᵀ
  Gamma : s'.Gamma = s.Gamma +
    lam • (simplexProjectRows (s.Gamma - s.alphaGamma • gradWOf s.X s.Gamma s.S) - s.Gamma)
  alphaS : s'.alphaS = s.alphaS
  fSMem : s'.fSMem = s.fSMem
  fGammaMem : s'.fGammaMem = s.fGammaMem.tail ++ [gpnhCost eps s.X s.Gamma s.S]
  memNe : s.fGammaMem ≠ []
  alpha : ∃ beta sksk, 0 ≤ sksk ∧ s'.alphaGamma = nextSpgAlpha beta sksk cfg.alphaMin cfg.alphaMax
  accept : (∃ fMax ∈ s'.fGammaMem, (∀ f ∈ s'.fGammaMem, f ≤ fMax) ∧
      gpnhCost eps s'.X s'.Gamma s'.S ≤ fMax + cfg.gamma * lam *
        inner (simplexProjectRows (s.Gamma - s.alphaGamma • gradWOf s.X s.Gamma s.S) - s.Gamma)
          (gradWOf s.X s.Gamma s.S)) ∨ |lam| < cfg.stepSizeTolerance

theorem updateWeights_post {cfg : LSConfig K}
    {eps : K} {s s' : GPNHState T D k K} (h : s.updateWeights cfg eps = Py.ok s') :
    ∃ lam, WeightsPost cfg eps s s' lam := by
  unfold updateWeights weightsLineSearch at h
  simp only [prepareWeights_eq] at h
  obtain ⟨⟨s1, lam⟩, hr, h⟩ := Py.bind_eq_ok.1 h
  obtain ⟨r, hr, h'⟩ := Py.bind_eq_ok.1 hr
  simp only [Py.pure_eq, Py.ok.injEq, Prod.mk.injEq] at h' h
  obtain ⟨ha, hc, hd, he, hf⟩ := lineSearch_spec (weightsTrial_retriable eps) hr
  have hstate : r.state = (weightsTrial eps _ r.stepSize).1 := (congrArg Prod.fst he).symm
  have hcost : r.cost = (weightsTrial eps _ r.stepSize).2 := (congrArg Prod.snd he).symm
  rw [evaluateCost_eq _ _ rfl] at hc hf
  simp only [weightsTrial] at hstate hcost
  rw [evaluateCost_eq _ _ rfl] at hcost
  obtain ⟨hs1, hlam⟩ := h'
  subst hlam
  rw [hstate] at hs1
  subst hs1
  subst h
  refine ⟨r.stepSize, ⟨by simpa [mulSum_eq_inner] using ha, rfl, rfl, rfl, rfl, rfl, rfl, ?_, hd,
    ⟨_, _, mul_nonneg (sq_nonneg _) (mulSum_self_nonneg _), rfl⟩, ?_⟩⟩
  · simpa [updateWeightsGradient] using hc
  · rcases hf with ⟨M, hM, hM2, hM3⟩ | hf
    · refine Or.inl ⟨M, ?_, ?_, ?_⟩
      · simpa [updateWeightsGradient, hc] using hM
      · simpa [updateWeightsGradient, hc] using hM2
      · rw [hcost] at hM3
        simpa [updateWeightsGradient, mulSum_eq_inner, mul_right_comm] using hM3
    · exact Or.inr hf

/-- What a completed dictionary update guarantees. -/
structure DictPost (cfg : LSConfig K) (eps : K) (s s' : GPNHState T D k K) (lam : K) : Prop where
  range : StepRange cfg (inner (-(s.alphaS • gradSOf eps s.X s.Gamma s.S))
    (gradSOf eps s.X s.Gamma s.S)) lam
  X : s'.X = s.X
  Gamma : s'.Gamma = s.Gamma
  SSt : s'.SSt = s'.S * s'.Sᵀ
  S : s'.S = s.S + lam • (-(s.alphaS • gradSOf eps s.X s.Gamma s.S))
  alphaGamma : s'.alphaGamma = s.alphaGamma
  fGammaMem : s'.fGammaMem = s.fGammaMem
  fSMem : s'.fSMem = s.fSMem.tail ++ [gpnhCost eps s.X s.Gamma s.S]
  memNe : s.fSMem ≠ []
  alpha : ∃ beta sksk, 0 ≤ sksk ∧ s'.alphaS = nextSpgAlpha beta sksk cfg.alphaMin cfg.alphaMax
  accept : (∃ fMax ∈ s'.fSMem, (∀ f ∈ s'.fSMem, f ≤ fMax) ∧
      gpnhCost eps s'.X s'.Gamma s'.S ≤ fMax + cfg.gamma * lam *
        inner (-(s.alphaS • gradSOf eps s.X s.Gamma s.S)) (gradSOf eps s.X s.Gamma s.S)) ∨
      |lam| < cfg.stepSizeTolerance

theorem updateDictionary_post {cfg : LSConfig K}
    {eps : K} {s s' : GPNHState T D k K} (h : s.updateDictionary cfg eps = Py.ok s') :
    ∃ lam, DictPost cfg eps s s' lam := by
  unfold updateDictionary dictionaryLineSearch at h
  simp only [prepareDictionary_eq] at h
  obtain ⟨⟨s1, lam⟩, hr, h⟩ := Py.bind_eq_ok.1 h
  obtain ⟨r, hr, h'⟩ := Py.bind_eq_ok.1 hr
  simp only [Py.pure_eq, Py.ok.injEq, Prod.mk.injEq] at h' h
  obtain ⟨ha, hc, hd, he, hf⟩ := lineSearch_spec (dictionaryTrial_retriable eps) hr
  have hstate : r.state = (dictionaryTrial eps _ r.stepSize).1 := (congrArg Prod.fst he).symm
  have hcost : r.cost = (dictionaryTrial eps _ r.stepSize).2 := (congrArg Prod.snd he).symm
  rw [evaluateCost_eq _ _ rfl] at hc hf
  simp only [dictionaryTrial] at hstate hcost
  rw [evaluateCost_eq _ _ rfl] at hcost
  obtain ⟨hs1, hlam⟩ := h'
  subst hlam
  rw [hstate] at hs1
  subst hs1
  rw [updateDictionaryGradient_eq] at h
  subst h
  refine ⟨r.stepSize, ⟨by simpa [mulSum_eq_inner] using ha, rfl, rfl, rfl, rfl, rfl, rfl, ?_, hd,
    ⟨_, _, mul_nonneg (sq_nonneg _) (mulSum_self_nonneg _), rfl⟩, ?_⟩⟩
  · simpa using hc
  · rcases hf with ⟨M, hM, hM2, hM3⟩ | hf
    · refine Or.inl ⟨M, ?_, ?_, ?_⟩
      · simpa [hc] using hM
      · simpa [hc] using hM2
      · rw [hcost] at hM3
        simpa [mulSum_eq_inner, mul_right_comm] using hM3
    · exact Or.inr hf

theorem WeightsPost.pos {cfg : LSConfig K} {eps : K} {s s' : GPNHState T D k K} {lam : K}
    (h : WeightsPost cfg eps s s' lam) (h1 : 0 < cfg.sigmaOne) (_ : cfg.sigmaTwo < 1) : 0 < lam :=
  h.range.pos_sigma h1

theorem WeightsPost.le {cfg : LSConfig K} {eps : K} {s s' : GPNHState T D k K} {lam : K}
    (h : WeightsPost cfg eps s s' lam) (h1 : 0 < cfg.sigmaOne) (h2 : cfg.sigmaTwo < 1) : lam ≤ 1 :=
  h.range.le h1 h2

theorem DictPost.pos {cfg : LSConfig K} {eps : K} {s s' : GPNHState T D k K} {lam : K}
    (h : DictPost cfg eps s s' lam) (h1 : 0 < cfg.sigmaOne) (_ : cfg.sigmaTwo < 1) : 0 < lam :=
  h.range.pos_sigma h1

theorem DictPost.le {cfg : LSConfig K} {eps : K} {s s' : GPNHState T D k K} {lam : K}
    (h : DictPost cfg eps s s' lam) (h1 : 0 < cfg.sigmaOne) (h2 : cfg.sigmaTwo < 1) : lam ≤ 1 :=
  h.range.le h1 h2

/-! ### Errors and termination -/

theorem updateWeights_raise {cfg : LSConfig K} {eps : K} {s : GPNHState T D k K} {e : PyErr}
    (h : s.updateWeights cfg eps = Py.raise e) : s.fGammaMem = [] ∧ e = .indexError := by
  unfold updateWeights weightsLineSearch at h
  simp only [prepareWeights_eq] at h
  rcases Py.bind_eq_raise.1 h with h | ⟨_, _, h⟩
  · rcases Py.bind_eq_raise.1 h with h | ⟨_, _, h⟩
    · exact lineSearch_no_raise h
    · simp at h
  · simp at h

theorem updateDictionary_raise {cfg : LSConfig K} {eps : K} {s : GPNHState T D k K} {e : PyErr}
    (h : s.updateDictionary cfg eps = Py.raise e) : s.fSMem = [] ∧ e = .indexError := by
  unfold updateDictionary dictionaryLineSearch at h
  simp only [prepareDictionary_eq] at h
  rcases Py.bind_eq_raise.1 h with h | ⟨_, _, h⟩
  · rcases Py.bind_eq_raise.1 h with h | ⟨_, _, h⟩
    · exact lineSearch_no_raise h
    · simp at h
  · simp at h

theorem updateWeights_terminates {cfg : LSConfig K} {eps : K} {s : GPNHState T D k K}
    (h1 : 0 < cfg.sigmaOne) {N : ℕ} (hN : shrink cfg.sigmaTwo ^ (N + 1) < cfg.stepSizeTolerance)
    (hm : s.fGammaMem ≠ []) : ∃ s', s.updateWeights cfg eps = Py.ok s' := by
  unfold updateWeights weightsLineSearch
  simp only [prepareWeights_eq]
  obtain ⟨r, hr, -⟩ := lineSearch_terminates (trial := weightsTrial (T := T) (D := D) (k := k) eps)
    h1 hm (s := { s with
        SSt := s.S * s.Sᵀ, XSt := s.X * s.Sᵀ
        gradGamma := gradWOf s.X s.Gamma s.S
        incrGamma := simplexProjectRows (s.Gamma - s.alphaGamma • gradWOf s.X s.Gamma s.S)
          - s.Gamma
        GammaOld := s.Gamma })
    (f0 := _) (δ := _) N hN
  rw [hr]
  exact ⟨_, rfl⟩

theorem updateDictionary_terminates {cfg : LSConfig K} {eps : K} {s : GPNHState T D k K}
    (h1 : 0 < cfg.sigmaOne) {N : ℕ} (hN : shrink cfg.sigmaTwo ^ (N + 1) < cfg.stepSizeTolerance)
    (hm : s.fSMem ≠ []) : ∃ s', s.updateDictionary cfg eps = Py.ok s' := by
  unfold updateDictionary dictionaryLineSearch
  simp only [prepareDictionary_eq]
  obtain ⟨r, hr, -⟩ := lineSearch_terminates
    (trial := dictionaryTrial (T := T) (D := D) (k := k) eps)
    h1 hm (s := { s with
        SSt := s.S * s.Sᵀ, GtX := s.Gammaᵀ * s.X, GtG := s.Gammaᵀ * s.Gamma
        gradS := gradSOf eps s.X s.Gamma s.S
        incrS := -(s.alphaS • gradSOf eps s.X s.Gamma s.S)
        SOld := s.S })
    (f0 := _) (δ := _) N hN
  rw [hr]
  exact ⟨_, rfl⟩

/-! ### Descent -/

/-- Lipschitz bound of the weights gradient. -/
def lipW (S : Matrix (Fin k) (Fin D) K) (T : ℕ) : K := frobSq S / ((D : K) * (T : K))

/-- Lipschitz bound of the dictionary gradient. -/
def lipS (eps : K) (W : Matrix (Fin T) (Fin k) K) (D : ℕ) : K :=
  frobSq W / ((D : K) * (T : K)) + |eps| * (2 * k / ((k : K) * ((k : K) - 1) * (D : K)))

theorem lipW_nonneg (S : Matrix (Fin k) (Fin D) K) : 0 ≤ lipW S T := by
  unfold lipW; have := frobSq_nonneg S; positivity

theorem pen_denominator_nonneg (k D : ℕ) : (0 : K) ≤ (k : K) * ((k : K) - 1) * (D : K) := by
  rcases Nat.eq_zero_or_pos k with h | h
  · subst h; simp
  · have : (1 : K) ≤ k := by exact_mod_cast h
    have h2 : (0 : K) ≤ (k : K) - 1 := by linarith
    positivity

theorem lipS_nonneg (eps : K) (W : Matrix (Fin T) (Fin k) K) : 0 ≤ lipS eps W D := by
  unfold lipS
  have h1 := frobSq_nonneg W
  have h2 := pen_denominator_nonneg (K := K) k D
  have h3 := abs_nonneg eps
  positivity

theorem inner_centring_le (H : Matrix (Fin k) (Fin D) K) :
    inner (centring k * H) H ≤ k * frobSq H := by
  unfold inner frobSq
  simp only [centring_mul_apply]
  rw [Finset.sum_comm, Finset.sum_comm (f := fun i j => H i j ^ 2), Finset.mul_sum]
  refine Finset.sum_le_sum fun d _ => ?_
  simp only [sub_mul, Finset.sum_sub_distrib, ← Finset.mul_sum]
  have e : ∑ i, (k : K) * H i d * H i d = k * ∑ i, H i d ^ 2 := by
    rw [Finset.mul_sum]; exact Finset.sum_congr rfl fun i _ => by ring
  rw [e]
  nlinarith [mul_self_nonneg (∑ i, H i d)]

theorem curvature_S_le (eps : K) (W : Matrix (Fin T) (Fin k) K) (H : Matrix (Fin k) (Fin D) K) :
    gpnhCost eps 0 W H ≤ lipS eps W D * frobSq H := by
  rw [gpnhCost_eq, zero_sub, frobSq_neg]
  unfold lipS
  rw [add_mul]
  have h1 := frobSq_mul_le W H
  have h2 := inner_centring_le H
  have h3 := inner_centring_nonneg H
  have h4 := pen_denominator_nonneg (K := K) k D
  have h5 := frobSq_nonneg H
  refine add_le_add ?_ ?_
  · rw [div_mul_eq_mul_div]
    exact div_le_div_of_nonneg_right h1 (by positivity)
  · have h6 : 2 * inner (centring k * H) H / ((k : K) * ((k : K) - 1) * (D : K)) ≤
        2 * k / ((k : K) * ((k : K) - 1) * (D : K)) * frobSq H := by
      rw [div_mul_eq_mul_div]
      exact div_le_div_of_nonneg_right (by nlinarith) h4
    have h7 : 0 ≤ 2 * inner (centring k * H) H / ((k : K) * ((k : K) - 1) * (D : K)) := by
      positivity
    calc eps * (2 * inner (centring k * H) H / ((k : K) * ((k : K) - 1) * (D : K)))
        ≤ |eps| * (2 * inner (centring k * H) H / ((k : K) * ((k : K) - 1) * (D : K))) :=
          mul_le_mul_of_nonneg_right (le_abs_self _) h7
      _ ≤ |eps| * (2 * k / ((k : K) * ((k : K) - 1) * (D : K)) * frobSq H) :=
          mul_le_mul_of_nonneg_left h6 (abs_nonneg _)
      _ = _ := by ring

theorem curvature_W_le (H : Matrix (Fin T) (Fin k) K) (S : Matrix (Fin k) (Fin D) K) :
    frobSq (H * S) / ((D : K) * (T : K)) ≤ lipW S T * frobSq H := by
  unfold lipW
  rw [div_mul_eq_mul_div, mul_comm (frobSq S)]
  exact div_le_div_of_nonneg_right (frobSq_mul_le H S) (by positivity)

/-- The weights update does not increase the cost. -/
theorem updateWeights_descends {cfg : LSConfig K} (h1 : 0 < cfg.sigmaOne) (h2 : cfg.sigmaTwo < 1)
    (hg0 : 0 ≤ cfg.gamma) (ht1 : cfg.stepSizeTolerance ≤ cfg.sigmaOne) (hk : 1 ≤ k)
    {eps : K} {s s' : GPNHState T D k K} (hW : RowStochastic s.Gamma) (ha : 0 < s.alphaGamma)
    {m0 : K} (hm : s.fGammaMem = [m0])
    (ht2 : 2 * cfg.stepSizeTolerance * (s.alphaGamma * lipW s.S T) ≤ 1 - cfg.gamma)
    (h : s.updateWeights cfg eps = Py.ok s') :
    gpnhCost eps s'.X s'.Gamma s'.S ≤ gpnhCost eps s.X s.Gamma s.S := by
  have hpost := updateWeights_post h
  unfold updateWeights weightsLineSearch at h
  simp only [prepareWeights_eq] at h
  obtain ⟨⟨s1, lam⟩, hr, h⟩ := Py.bind_eq_ok.1 h
  obtain ⟨r, hr, h'⟩ := Py.bind_eq_ok.1 hr
  simp only [Py.pure_eq, Py.ok.injEq, Prod.mk.injEq] at h' h
  obtain ⟨ha1, -, -, he, -⟩ := lineSearch_spec (weightsTrial_retriable eps) hr
  rw [hm] at hr
  set g := gradWOf s.X s.Gamma s.S with hg
  set d := simplexProjectRows (s.Gamma - s.alphaGamma • g) - s.Gamma with hd
  have hslope := projected_slope (G := g) hk hW s.alphaGamma
  rw [← hd] at hslope
  have hdesc := lineSearch_descends' h1 h2 (weightsTrial_retriable eps)
    (lstar := 2 * cfg.stepSizeTolerance) (r := r) (s := _) (f0 := _) (δ := _) (by
      intro lam hl0 hl1 hl2
      simp only [weightsTrial]
      rw [evaluateCost_eq _ _ rfl, evaluateCost_eq _ _ rfl, gpnhCost_add_W]
      simp only
      rw [inner_comm, mulSum_eq_inner]
      refine armijo_of_quadratic (curvature_W_le d s.S) (lipW_nonneg s.S) ha hslope
        (frobSq_nonneg _) hl0.le ?_
      refine le_trans ?_ ht2
      exact mul_le_mul_of_nonneg_right hl2 (mul_nonneg ha.le (lipW_nonneg s.S)))
    ht1 (by linarith) hr
  have hcost : r.cost = (weightsTrial eps _ r.stepSize).2 := (congrArg Prod.snd he).symm
  have hstate : r.state = (weightsTrial eps _ r.stepSize).1 := (congrArg Prod.fst he).symm
  simp only [weightsTrial] at hstate hcost
  rw [evaluateCost_eq _ _ rfl] at hcost hdesc
  obtain ⟨hs1, hlam⟩ := h'
  subst hlam
  rw [hstate] at hs1
  subst hs1
  subst h
  rw [hcost] at hdesc
  have hneg : inner d g ≤ 0 := slope_nonpos ha hslope (frobSq_nonneg _)
  have : cfg.gamma * mulSum d g * r.stepSize ≤ 0 := by
    rw [mulSum_eq_inner]
    exact mul_nonpos_of_nonpos_of_nonneg (mul_nonpos_of_nonneg_of_nonpos hg0 hneg) (ha1.pos_sigma h1).le
  exact hdesc.trans (by simpa using this)

/-- The dictionary update does not increase the cost. -/
theorem updateDictionary_descends {cfg : LSConfig K} (h1 : 0 < cfg.sigmaOne)
    (h2 : cfg.sigmaTwo < 1) (hg0 : 0 ≤ cfg.gamma) (ht1 : cfg.stepSizeTolerance ≤ cfg.sigmaOne)
    {eps : K} {s s' : GPNHState T D k K} (ha : 0 < s.alphaS)
    {m0 : K} (hm : s.fSMem = [m0])
    (ht2 : 2 * cfg.stepSizeTolerance * (s.alphaS * lipS eps s.Gamma D) ≤ 1 - cfg.gamma)
    (h : s.updateDictionary cfg eps = Py.ok s') :
    gpnhCost eps s'.X s'.Gamma s'.S ≤ gpnhCost eps s.X s.Gamma s.S := by
  unfold updateDictionary dictionaryLineSearch at h
  simp only [prepareDictionary_eq] at h
  obtain ⟨⟨s1, lam⟩, hr, h⟩ := Py.bind_eq_ok.1 h
  obtain ⟨r, hr, h'⟩ := Py.bind_eq_ok.1 hr
  simp only [Py.pure_eq, Py.ok.injEq, Prod.mk.injEq] at h' h
  obtain ⟨ha1, -, -, he, -⟩ := lineSearch_spec (dictionaryTrial_retriable eps) hr
  rw [hm] at hr
  set g := gradSOf eps s.X s.Gamma s.S with hg
  set d := -(s.alphaS • g) with hd
  have hslope : frobSq d + s.alphaS * inner d g ≤ 0 := by
    rw [hd, frobSq_neg, frobSq_smul, inner_neg_left, inner_smul_left, ← frobSq_eq_inner]
    nlinarith
  have hdesc := lineSearch_descends' h1 h2 (dictionaryTrial_retriable eps)
    (lstar := 2 * cfg.stepSizeTolerance) (r := r) (s := _) (f0 := _) (δ := _) (by
      intro lam hl0 hl1 hl2
      simp only [dictionaryTrial]
      rw [evaluateCost_eq _ _ rfl, evaluateCost_eq _ _ rfl, gpnhCost_add_S]
      simp only
      rw [inner_comm, mulSum_eq_inner]
      refine armijo_of_quadratic (curvature_S_le eps s.Gamma d) (lipS_nonneg eps s.Gamma) ha hslope
        (frobSq_nonneg _) hl0.le ?_
      refine le_trans ?_ ht2
      exact mul_le_mul_of_nonneg_right hl2 (mul_nonneg ha.le (lipS_nonneg eps s.Gamma)))
    ht1 (by linarith) hr
  have hcost : r.cost = (dictionaryTrial eps _ r.stepSize).2 := (congrArg Prod.snd he).symm
  have hstate : r.state = (dictionaryTrial eps _ r.stepSize).1 := (congrArg Prod.fst he).symm
  simp only [dictionaryTrial] at hstate hcost
  rw [evaluateCost_eq _ _ rfl] at hcost hdesc
  obtain ⟨hs1, hlam⟩ := h'
  subst hlam
  rw [hstate] at hs1
  subst hs1
  rw [updateDictionaryGradient_eq] at h
  subst h
  rw [hcost] at hdesc
  have hneg : inner d g ≤ 0 := slope_nonpos ha hslope (frobSq_nonneg _)
  have : cfg.gamma * mulSum d g * r.stepSize ≤ 0 := by
    rw [mulSum_eq_inner]
    exact mul_nonpos_of_nonpos_of_nonneg (mul_nonpos_of_nonneg_of_nonpos hg0 hneg) (ha1.pos_sigma h1).le
  exact hdesc.trans (by simpa using this)

/-- The weights update terminates even without a step floor. -/
theorem updateWeights_terminates_armijo [Archimedean K] {cfg : LSConfig K}
    (h1 : 0 < cfg.sigmaOne) (h2 : cfg.sigmaTwo < 1) (hg1 : cfg.gamma < 1) (hk : 1 ≤ k)
    {eps : K} {s : GPNHState T D k K} (hW : RowStochastic s.Gamma) (ha : 0 < s.alphaGamma)
    (hm : s.fGammaMem ≠ []) : ∃ s', s.updateWeights cfg eps = Py.ok s' := by
  unfold updateWeights weightsLineSearch
  simp only [prepareWeights_eq]
  set g := gradWOf s.X s.Gamma s.S with hg
  set d := simplexProjectRows (s.Gamma - s.alphaGamma • g) - s.Gamma with hd
  have hslope := projected_slope (G := g) hk hW s.alphaGamma
  rw [← hd] at hslope
  obtain ⟨l, hl, hlA⟩ := exists_lstar hg1 (mul_nonneg ha.le (lipW_nonneg (T := T) s.S))
  obtain ⟨N, hN⟩ := exists_pow_shrink_le h2 hl
  obtain ⟨r, hr⟩ := lineSearch_terminates_armijo'
    (trial := weightsTrial (T := T) (D := D) (k := k) eps) h1 h2 (weightsTrial_retriable eps)
    (lstar := l) hm (s := { s with
        SSt := s.S * s.Sᵀ, XSt := s.X * s.Sᵀ
        gradGamma := g
        incrGamma := d
        GammaOld := s.Gamma })
    (f0 := evaluateCost eps { s with
        SSt := s.S * s.Sᵀ, XSt := s.X * s.Sᵀ
        gradGamma := g
        incrGamma := d }) (δ := mulSum d g) (by
      intro lam hl0 hl1 hl2
      simp only [weightsTrial]
      rw [evaluateCost_eq _ _ rfl, evaluateCost_eq _ _ rfl, gpnhCost_add_W]
      simp only
      rw [inner_comm, mulSum_eq_inner]
      refine armijo_of_quadratic (curvature_W_le d s.S) (lipW_nonneg s.S) ha hslope
        (frobSq_nonneg _) hl0.le ?_
      exact (mul_le_mul_of_nonneg_right hl2 (mul_nonneg ha.le (lipW_nonneg s.S))).trans hlA) N hN
  rw [hr]
  exact ⟨_, rfl⟩

/-- The dictionary update terminates even without a step floor. -/
theorem updateDictionary_terminates_armijo [Archimedean K] {cfg : LSConfig K}
    (h1 : 0 < cfg.sigmaOne) (h2 : cfg.sigmaTwo < 1) (hg1 : cfg.gamma < 1)
    {eps : K} {s : GPNHState T D k K} (ha : 0 < s.alphaS)
    (hm : s.fSMem ≠ []) : ∃ s', s.updateDictionary cfg eps = Py.ok s' := by
  unfold updateDictionary dictionaryLineSearch
  simp only [prepareDictionary_eq]
  set g := gradSOf eps s.X s.Gamma s.S with hg
  set d := -(s.alphaS • g) with hd
  have hslope : frobSq d + s.alphaS * inner d g ≤ 0 := by
    rw [hd, frobSq_neg, frobSq_smul, inner_neg_left, inner_smul_left, ← frobSq_eq_inner]
    nlinarith
  obtain ⟨l, hl, hlA⟩ := exists_lstar hg1 (mul_nonneg ha.le (lipS_nonneg (D := D) eps s.Gamma))
  obtain ⟨N, hN⟩ := exists_pow_shrink_le h2 hl
  obtain ⟨r, hr⟩ := lineSearch_terminates_armijo'
    (trial := dictionaryTrial (T := T) (D := D) (k := k) eps) h1 h2 (dictionaryTrial_retriable eps)
    (lstar := l) hm (s := { s with
        SSt := s.S * s.Sᵀ, GtX := s.Gammaᵀ * s.X, GtG := s.Gammaᵀ * s.Gamma
        gradS := g
        incrS := d
        SOld := s.S })
    (f0 := evaluateCost eps { s with
        SSt := s.S * s.Sᵀ, GtX := s.Gammaᵀ * s.X, GtG := s.Gammaᵀ * s.Gamma
        gradS := g
        incrS := d }) (δ := mulSum d g) (by
      intro lam hl0 hl1 hl2
      simp only [dictionaryTrial]
      rw [evaluateCost_eq _ _ rfl, evaluateCost_eq _ _ rfl, gpnhCost_add_S]
      simp only
      rw [inner_comm, mulSum_eq_inner]
      refine armijo_of_quadratic (curvature_S_le eps s.Gamma d) (lipS_nonneg eps s.Gamma) ha hslope
        (frobSq_nonneg _) hl0.le ?_
      exact (mul_le_mul_of_nonneg_right hl2
        (mul_nonneg ha.le (lipS_nonneg eps s.Gamma))).trans hlA) N hN
  rw [hr]
  exact ⟨_, rfl⟩

end GPNHState

end Reor
