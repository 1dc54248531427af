import Verif.Proofs.ConvergeMTDStep

/-!
Complete runs of the MTD loop that stop are nearly optimal in each block.
-/

namespace Reor

set_option linter.unusedSectionVars false

open scoped BigOperators Matrix
open Spec

variable {K : Type} [Field K] [LinearOrder K] [IsStrictOrderedRing K]
variable {T D k p : ℕ}

/-- The objective of a configuration. -/
abbrev MTDConfig.cost (c : MTDConfig p K) (X : Matrix (Fin T) (Fin D) K)
    (W : Matrix (Fin T) (Fin k) K) (S : Matrix (Fin k) (Fin D) K) (w : Fin p → K)
    (A : Fin p → Matrix (Fin k) (Fin k) K) : K :=
  mtdCost c.epsilonStates c.epsilonWeights c.lags X W S w A

theorem frobSq_smul_le_of_unit {m n : ℕ} {lam : K} (h0 : 0 ≤ lam) (h1 : lam ≤ 1)
    (B : Matrix (Fin m) (Fin n) K) : frobSq (lam • B) ≤ frobSq B := by
  rw [frobSq_smul]
  exact mul_le_of_le_one_left (frobSq_nonneg _) (by nlinarith)

theorem vsq_smul_le {n : ℕ} {lam : K} (h0 : 0 ≤ lam) (h1 : lam ≤ 1) (v : Fin n → K) :
    vsq (lam • v) ≤ vsq v := by
  unfold vsq
  refine Finset.sum_le_sum fun i _ => ?_
  rw [Pi.smul_apply, smul_eq_mul, mul_pow]
  exact mul_le_of_le_one_left (sq_nonneg _) (by nlinarith)

theorem msq_smul_le {lam : K} (h0 : 0 ≤ lam) (h1 : lam ≤ 1)
    (B : Fin p → Matrix (Fin k) (Fin k) K) : msq (lam • B) ≤ msq B :=
  Finset.sum_le_sum fun i _ => frobSq_smul_le_of_unit h0 h1 (B i)

/-- A state between the statements of a fit to `X`, of bounded cost, dictionary and step scales. -/
structure MTDState.Steady (c : MTDConfig p K) (X : Matrix (Fin T) (Fin D) K) (a0 a1 B R : K)
    (s : MTDState T D k p K) : Prop where
  data : s.X = X
  good : s.Good c
  stoch : RowStochastic s.Gamma
  ow : IsProb s.orderWeights
  tm : ∀ i, ColStochastic (s.transitionMatrices i)
  cost : s.objective c ≤ B
  bound : frobSq s.S ≤ R
  alphaS : a0 ≤ s.alphaS ∧ s.alphaS ≤ a1
  alphaGamma : a0 ≤ s.alphaGamma ∧ s.alphaGamma ≤ a1
  alphaParameters : a0 ≤ s.alphaParameters ∧ s.alphaParameters ≤ a1
  memS : ∃ m, s.fSMem = [m]
  memG : ∃ m, s.fGammaMem = [m]
  memP : ∃ m, s.fParametersMem = [m]

theorem MTDState.Steady.objective {c : MTDConfig p K} {X : Matrix (Fin T) (Fin D) K} {a0 a1 B R : K}
    {s : MTDState T D k p K} (h : s.Steady c X a0 a1 B R) :
    s.objective c = c.cost X s.Gamma s.S s.orderWeights s.transitionMatrices := by
  unfold MTDState.objective
  rw [h.data]

/-- Constants such that a phase which lowers the cost by less than `tol` was nearly optimal and
moved its block by at most `ν`, and such that moves by `ν` hardly change the objective. -/
structure MTDConst (c : MTDConfig p K) (X : Matrix (Fin T) (Fin D) K) (k : ℕ)
    (ε ν a0 a1 B R tol : K) (ud : Bool) : Prop where
  contW : ∀ (W W' : Matrix (Fin T) (Fin k) K) (S : Matrix (Fin k) (Fin D) K) (w : Fin p → K)
    (A : Fin p → Matrix (Fin k) (Fin k) K), RowStochastic W → RowStochastic W' → IsProb w →
    (∀ i, ColStochastic (A i)) → frobSq S ≤ R → frobSq (W - W') ≤ ν ^ 2 →
    c.cost X W S w A ≤ c.cost X W' S w A + ε
  contP : ∀ (W : Matrix (Fin T) (Fin k) K) (S : Matrix (Fin k) (Fin D) K) (w w' : Fin p → K)
    (A A' : Fin p → Matrix (Fin k) (Fin k) K), RowStochastic W → IsProb w → IsProb w' →
    (∀ i, ColStochastic (A i)) → (∀ i, ColStochastic (A' i)) → vsq (w' - w) ≤ ν ^ 2 →
    msq (A' - A) ≤ ν ^ 2 → c.cost X W S w A ≤ c.cost X W S w' A' + ε
  dictionary : ud = true → ∀ (s s' : MTDState T D k p K), s.Steady c X a0 a1 B R →
    s.updateDictionary c = Py.ok s' →
    s'.Steady c X a0 a1 B R ∧ s'.Gamma = s.Gamma ∧ s'.orderWeights = s.orderWeights ∧
    s'.transitionMatrices = s.transitionMatrices ∧ s'.objective c ≤ s.objective c ∧
    (s.objective c - s'.objective c < tol → ∀ S, frobSq S ≤ R →
      s.objective c ≤ c.cost X s.Gamma S s.orderWeights s.transitionMatrices + ε)
  weights : ∀ (s s' : MTDState T D k p K), s.Steady c X a0 a1 B R →
    s.updateWeights c = Py.ok s' →
    s'.Steady c X a0 a1 B R ∧ s'.S = s.S ∧ s'.orderWeights = s.orderWeights ∧
    s'.transitionMatrices = s.transitionMatrices ∧ s'.objective c ≤ s.objective c ∧
    (s.objective c - s'.objective c < tol → frobSq (s.Gamma - s'.Gamma) ≤ ν ^ 2 ∧
      ∀ W, RowStochastic W →
        s.objective c ≤ c.cost X W s.S s.orderWeights s.transitionMatrices + ε)
  parameters : ∀ (s s' : MTDState T D k p K), s.Steady c X a0 a1 B R →
    s.updateParameters c = Py.ok s' →
    s'.Steady c X a0 a1 B R ∧ s'.S = s.S ∧ s'.Gamma = s.Gamma ∧ s'.objective c ≤ s.objective c ∧
    (s.objective c - s'.objective c < tol → vsq (s'.orderWeights - s.orderWeights) ≤ ν ^ 2 ∧
      msq (s'.transitionMatrices - s.transitionMatrices) ≤ ν ^ 2 ∧
      (∀ w, IsProb w →
        s.objective c ≤ c.cost X s.Gamma s.S w s.transitionMatrices + ε) ∧
      ∀ A : Fin p → Matrix (Fin k) (Fin k) K, (∀ i, ColStochastic (A i)) →
        s.objective c ≤ c.cost X s.Gamma s.S s.orderWeights A + ε)

/-- Scales for the estimates below. -/
theorem exists_scale {ε ν a1 C : K} (hε : 0 < ε) (hν : 0 < ν) (ha1 : 0 < a1) (hC : 0 ≤ C) :
    ∃ η μ : K, 0 < η ∧ 0 ≤ μ ∧ a1 * η ^ 2 ≤ μ ^ 2 ∧ μ ^ 2 ≤ ν ^ 2 ∧ μ * C + η ^ 2 ≤ ε := by
  set κ : K := (a1 + 1) * C + 1 with hκ
  have hκ0 : 0 < κ := by rw [hκ]; positivity
  have ha : 0 < a1 + 1 := by linarith
  set η : K := min 1 (min (ε / κ) (ν / (a1 + 1))) with hη
  have hη0 : 0 < η := lt_min one_pos (lt_min (div_pos hε hκ0) (div_pos hν ha))
  have hη1 : η ≤ 1 := min_le_left _ _
  have hη2 : η ≤ ε / κ := (min_le_right _ _).trans (min_le_left _ _)
  have hη3 : η ≤ ν / (a1 + 1) := (min_le_right _ _).trans (min_le_right _ _)
  rw [le_div_iff₀ hκ0] at hη2
  rw [le_div_iff₀ ha] at hη3
  have hηη : η ^ 2 ≤ η := by nlinarith
  refine ⟨η, (a1 + 1) * η, hη0, by positivity, ?_, ?_, ?_⟩
  · rw [mul_pow]
    exact mul_le_mul_of_nonneg_right (by nlinarith) (sq_nonneg _)
  · exact pow_le_pow_left₀ (by positivity) (by linarith) 2
  · have : (a1 + 1) * η * C + η = η * κ := by rw [hκ]; ring
    linarith

/-- What little progress says about the slope. -/
theorem slope_of_short {g f f' δ τ : K} (hg : 0 < g) (h1 : f' ≤ f + g * δ) (h2 : f - f' < g * τ) :
    -τ ≤ δ := by
  have : g * -δ < g * τ := by linarith
  have := lt_of_mul_lt_mul_left this hg.le
  linarith

/-- What a small slope says about the length of the step. -/
theorem length_of_slope {N alpha a1 δ τ : K} (h1 : N + alpha * δ ≤ 0) (h2 : 0 ≤ alpha)
    (h3 : alpha ≤ a1) (hτ : 0 ≤ τ) (h4 : -τ ≤ δ) : N ≤ a1 * τ := by
  have h5 : alpha * -δ ≤ alpha * τ := mul_le_mul_of_nonneg_left (by linarith) h2
  have h6 : alpha * τ ≤ a1 * τ := mul_le_mul_of_nonneg_right h3 hτ
  linarith

/-- A bound for the curvatures of the objective in its blocks, for dictionaries with sum of squares
at most `R`. -/
def mtdCurvature (T D k : ℕ) (c : MTDConfig p K) (R : K) : K :=
  gpnhCurvature T D k c.epsilonStates R +
    mtdCoef T k c.epsilonWeights c.lags *
      (2 + 2 * (T * (p * k)) + MTDState.paramsCurvature T p k)

theorem exists_dictionary_tol {c : MTDConfig p K} (hd : c.ls.Descends)
    (X : Matrix (Fin T) (Fin D) K) (heS : 0 ≤ c.epsilonStates)
    {ε : K} (hε : 0 < ε) {ν : K} (hν : 0 < ν) {a0 a1 : K}
    (ha0 : 0 < a0) (ha1 : 0 < a1) (h0 : a0 ≤ c.ls.alphaMin) (h1 : c.ls.alphaMax ≤ a1) {B R : K}
    (hR : 0 ≤ R)
    (hlev : ∀ (W : Matrix (Fin T) (Fin k) K) (S : Matrix (Fin k) (Fin D) K)
      (w : Fin p → K) (A : Fin p → Matrix (Fin k) (Fin k) K),
      RowStochastic W → c.cost X W S w A ≤ B → frobSq S ≤ R)
    (hf : c.ls.Floor (a1 * (T / ((D : K) * (T : K)) +
      |c.epsilonStates| * (2 * k / ((k : K) * ((k : K) - 1) * (D : K)))))) :
    ∃ tol, 0 < tol ∧ ∀ (s s' : MTDState T D k p K), s.Steady c X a0 a1 B R →
    s.updateDictionary c = Py.ok s' →
    s'.Steady c X a0 a1 B R ∧ s'.Gamma = s.Gamma ∧ s'.orderWeights = s.orderWeights ∧
    s'.transitionMatrices = s.transitionMatrices ∧ s'.objective c ≤ s.objective c ∧
    (s.objective c - s'.objective c < tol → ∀ S, frobSq S ≤ R →
      s.objective c ≤ c.cost X s.Gamma S s.orderWeights s.transitionMatrices + ε) := by
  obtain ⟨ρ, hρ, hρ2⟩ := exists_sq_ge (K := K) (M := 2 * R + 2 * R) (by positivity)
  have hpd := GPNHState.pen_denominator_nonneg (K := K) k D
  set L : K := T / ((D : K) * (T : K)) +
    |c.epsilonStates| * (2 * k / ((k : K) * ((k : K) - 1) * (D : K))) with hLdef
  have hL : 0 ≤ L := by have := abs_nonneg c.epsilonStates; positivity
  obtain ⟨b, hb0, hb1, hb2, hb3, hbt⟩ := exists_step_bound hd.sigmaOne hd.gamma1
    (M := a1 * L) (mul_nonneg ha1.le hL) hf
  obtain ⟨η, μ, hη0, hμ0, hημ, hμν, herr⟩ := exists_scale hε hν ha1 (C := ρ / a0) (div_nonneg hρ ha0.le)
  have hη2 : 0 ≤ η ^ 2 := sq_nonneg η
  have hgb : 0 < c.ls.gamma * b := mul_pos hd.gamma0 hb0
  refine ⟨c.ls.gamma * b * η ^ 2, mul_pos hgb (by positivity), fun s s' hs h => ?_⟩
  obtain ⟨lam, hl⟩ := MTDState.updateDictionary_post hs.good h
  obtain ⟨m0, hm⟩ := hs.memS
  have hlip : GPNHState.lipS c.epsilonStates s.Gamma D ≤ L := by
    unfold GPNHState.lipS
    rw [hLdef]
    exact add_le_add (div_le_div_of_nonneg_right (frobSq_rowStochastic hs.stoch)
      (by positivity)) le_rfl
  have hapos := ha0.trans_le hs.alphaS.1
  have hpr := MTDState.updateDictionary_slope hd hs.good hapos hs.alphaS.2 hm hlip
    hb0 hb1 hb2 hb3 hbt h
  have hNn : 0 ≤ s.alphaS ^ 2 * frobSq (gradSOf c.epsilonStates s.X s.Gamma s.S) :=
    mul_nonneg (sq_nonneg _) (frobSq_nonneg _)
  have hsn := slope_nonpos hapos (s.slopeS_eq c) hNn
  have hle : s'.objective c ≤ s.objective c := by
    have := mul_nonpos_of_nonneg_of_nonpos hgb.le hsn
    linarith
  have hstoch : RowStochastic s'.Gamma := by rw [hl.Gamma]; exact hs.stoch
  have hcB := hle.trans hs.cost
  have hX : s'.X = X := hl.X.trans hs.data
  refine ⟨⟨hX, hl.good, hstoch, by rw [hl.orderWeights]; exact hs.ow,
    by rw [hl.transitionMatrices]; exact hs.tm, hcB, ?_, ?_,
    by rw [hl.alphaGamma]; exact hs.alphaGamma,
    by rw [hl.alphaParameters]; exact hs.alphaParameters, ⟨_, by rw [hl.fSMem, hm]; rfl⟩,
    by rw [hl.fGammaMem]; exact hs.memG, by rw [hl.fParametersMem]; exact hs.memP⟩, hl.Gamma,
    hl.orderWeights, hl.transitionMatrices, hle, fun hlt S hS => ?_⟩
  · refine hlev _ _ s'.orderWeights s'.transitionMatrices hstoch ?_
    unfold MTDState.objective at hcB
    rw [hX] at hcB
    exact hcB
  · obtain ⟨b, q, -, hb⟩ := hl.alpha
    rw [hb]
    have := nextSpgAlpha_range (beta := b) (sksk := q) hd.alphaMax
    exact ⟨h0.trans this.1, this.2.trans h1⟩
  · have hN := (length_of_slope (s.slopeS_eq c) hapos.le hs.alphaS.2 hη2 (slope_of_short hgb hpr hlt)).trans
      hημ
    have hG : frobSq (gradSOf c.epsilonStates X s.Gamma s.S) ≤ (μ / a0) ^ 2 := by
      rw [hs.data] at hN
      rw [div_pow, le_div_iff₀ (by positivity)]
      refine le_trans ?_ hN
      rw [mul_comm]
      exact mul_le_mul_of_nonneg_right
        (pow_le_pow_left₀ ha0.le hs.alphaS.1 2) (frobSq_nonneg _)
    have hdist : frobSq (S - s.S) ≤ ρ ^ 2 := by
      have := frobSq_add_le S (-s.S)
      rw [frobSq_neg, ← sub_eq_add_neg] at this
      linarith [hs.bound]
    have h3 := (abs_le.1 (abs_inner_le (div_nonneg hμ0 ha0.le) hρ hG hdist)).1
    have h4 := gpnhCost_add_S c.epsilonStates X s.Gamma s.S (S - s.S) 1
    rw [one_smul, add_sub_cancel, one_mul, one_pow, one_mul] at h4
    have h5 := gpnhCost_convex_S heS s.Gamma (S - s.S)
    have h6 : μ / a0 * ρ = μ * (ρ / a0) := by ring
    rw [hs.objective]
    unfold MTDConfig.cost mtdCost
    linarith

theorem exists_weights_tol {c : MTDConfig p K} (hd : c.ls.Descends) (hk : 1 ≤ k)
    (X : Matrix (Fin T) (Fin D) K)
    (heW : 0 ≤ c.epsilonWeights) {ε : K} (hε : 0 < ε) {ν : K} (hν : 0 < ν) {a0 a1 : K}
    (ha0 : 0 < a0) (ha1 : 0 < a1) (h0 : a0 ≤ c.ls.alphaMin) (h1 : c.ls.alphaMax ≤ a1) {B R : K}
    (hR : 0 ≤ R)
    (hf : c.ls.Floor (a1 * (R / ((D : K) * (T : K)) +
      mtdCoef T k c.epsilonWeights c.lags * (2 + 2 * (T * (p * k)))))) :
    ∃ tol, 0 < tol ∧ ∀ (s s' : MTDState T D k p K), s.Steady c X a0 a1 B R →
    s.updateWeights c = Py.ok s' →
    s'.Steady c X a0 a1 B R ∧ s'.S = s.S ∧ s'.orderWeights = s.orderWeights ∧
    s'.transitionMatrices = s.transitionMatrices ∧ s'.objective c ≤ s.objective c ∧
    (s.objective c - s'.objective c < tol → frobSq (s.Gamma - s'.Gamma) ≤ ν ^ 2 ∧
      ∀ W, RowStochastic W →
        s.objective c ≤ c.cost X W s.S s.orderWeights s.transitionMatrices + ε) := by
  obtain ⟨RW, hRW, hRW2⟩ := rowStochastic_diam (K := K) T k
  have hco := mtdCoef_nonneg (T := T) (k := k) heW c.lags
  set L : K := R / ((D : K) * (T : K)) +
    mtdCoef T k c.epsilonWeights c.lags * (2 + 2 * (T * (p * k))) with hLdef
  have hL : 0 ≤ L := by positivity
  obtain ⟨b, hb0, hb1, hb2, hb3, hbt⟩ := exists_step_bound hd.sigmaOne hd.gamma1
    (M := a1 * L) (mul_nonneg ha1.le hL) hf
  obtain ⟨η, μ, hη0, hμ0, hημ, hμν, herr⟩ := exists_scale hε hν ha1 (C := RW / a0) (div_nonneg hRW ha0.le)
  have hη2 : 0 ≤ η ^ 2 := sq_nonneg η
  have hgb : 0 < c.ls.gamma * b := mul_pos hd.gamma0 hb0
  refine ⟨c.ls.gamma * b * η ^ 2, mul_pos hgb (by positivity), fun s s' hs h => ?_⟩
  obtain ⟨lam, hl⟩ := MTDState.updateWeights_post hs.good h
  obtain ⟨m0, hm⟩ := hs.memG
  have hlip : GPNHState.lipW s.S T +
      mtdCoef T k c.epsilonWeights c.lags * (2 + 2 * (T * (p * k))) ≤ L := by
    unfold GPNHState.lipW
    rw [hLdef]
    exact add_le_add (div_le_div_of_nonneg_right hs.bound (by positivity)) le_rfl
  have hapos := ha0.trans_le hs.alphaGamma.1
  have hpr := MTDState.updateWeights_slope hd hk heW hs.good hs.stoch hs.ow hs.tm hapos
    hs.alphaGamma.2 hm hlip hb0 hb1 hb2 hb3 hbt h
  have hslope := MTDState.slopeW_le (c := c) hk hs.stoch
  have hsn := slope_nonpos hapos hslope (frobSq_nonneg _)
  have hle : s'.objective c ≤ s.objective c := by
    have := mul_nonpos_of_nonneg_of_nonpos hgb.le hsn
    linarith
  have hlam0 := (hl.pos hd.sigmaOne hd.sigmaTwo).le
  have hlam1 := hl.le hd.sigmaOne hd.sigmaTwo
  refine ⟨⟨hl.X.trans hs.data, hl.good, ?_, by rw [hl.orderWeights]; exact hs.ow,
    by rw [hl.transitionMatrices]; exact hs.tm, hle.trans hs.cost,
    by rw [hl.S]; exact hs.bound, by rw [hl.alphaS]; exact hs.alphaS, ?_,
    by rw [hl.alphaParameters]; exact hs.alphaParameters,
    by rw [hl.fSMem]; exact hs.memS, ⟨_, by rw [hl.fGammaMem, hm]; rfl⟩,
    by rw [hl.fParametersMem]; exact hs.memP⟩, hl.S, hl.orderWeights, hl.transitionMatrices, hle,
    fun hlt => ?_⟩
  · rw [hl.Gamma]
    exact rowStochastic_step hs.stoch (projectRows_rowStochastic hk _) hlam0 hlam1
  · obtain ⟨b, q, -, hb⟩ := hl.alpha
    rw [hb]
    have := nextSpgAlpha_range (beta := b) (sksk := q) hd.alphaMax
    exact ⟨h0.trans this.1, this.2.trans h1⟩
  · have hδ := slope_of_short hgb hpr hlt
    have hN := (length_of_slope hslope hapos.le hs.alphaGamma.2 hη2 hδ).trans hημ
    refine ⟨?_, fun W hW => ?_⟩
    · have : s.Gamma - s'.Gamma = -(lam • s.dirW c) := by rw [hl.Gamma]; abel
      rw [this, frobSq_neg]
      exact ((frobSq_smul_le_of_unit hlam0 hlam1 _).trans hN).trans hμν
    · by_cases hk1 : k = 1
      · rw [hs.objective, MTDState.rowStochastic_one_eq hk1 hW hs.stoch]
        linarith
      have h3 := MTDState.near_slope_W hk ha0 hs.alphaGamma.1 hμ0 hRW hN hδ hW
        (fun V hV => hRW2 W V hW hV)
      have h4 := gpnhCost_add_W c.epsilonStates X s.Gamma (W - s.Gamma) s.S 1
      have h5 := mtdPenalty_add_W hk1 c.epsilonWeights c.lags s.Gamma (W - s.Gamma)
        s.orderWeights s.transitionMatrices 1
      rw [one_smul, add_sub_cancel] at h4 h5
      have h6 : 0 ≤ frobSq ((W - s.Gamma) * s.S) / ((D : K) * (T : K)) :=
        div_nonneg (frobSq_nonneg _) (by positivity)
      have h7 := mtdPenalty_nonneg heW c.lags (W - s.Gamma) s.orderWeights s.transitionMatrices
      have h9 : μ * RW / a0 = μ * (RW / a0) := by ring
      unfold mtdGradW at h3
      rw [inner_add_right, inner_comm (W - s.Gamma), inner_comm (W - s.Gamma), hs.data] at h3
      rw [hs.objective]
      unfold MTDConfig.cost mtdCost
      linarith

theorem exists_parameters_tol {c : MTDConfig p K} (hd : c.ls.Descends) (hlag : ∀ i, 1 ≤ c.lags i)
    (hk : 1 ≤ k) (hp : 1 ≤ p)
    (X : Matrix (Fin T) (Fin D) K)
    (heW : 0 ≤ c.epsilonWeights) {ε : K} (hε : 0 < ε) {ν : K} (hν : 0 < ν) {a0 a1 : K}
    (ha0 : 0 < a0) (ha1 : 0 < a1) (h0 : a0 ≤ c.ls.alphaMin) (h1 : c.ls.alphaMax ≤ a1) {B R : K}
    (hf : c.ls.Floor
      (a1 * (mtdCoef T k c.epsilonWeights c.lags * MTDState.paramsCurvature T p k))) :
    ∃ tol, 0 < tol ∧ ∀ (s s' : MTDState T D k p K), s.Steady c X a0 a1 B R →
    s.updateParameters c = Py.ok s' →
    s'.Steady c X a0 a1 B R ∧ s'.S = s.S ∧ s'.Gamma = s.Gamma ∧ s'.objective c ≤ s.objective c ∧
    (s.objective c - s'.objective c < tol → vsq (s'.orderWeights - s.orderWeights) ≤ ν ^ 2 ∧
      msq (s'.transitionMatrices - s.transitionMatrices) ≤ ν ^ 2 ∧
      (∀ w, IsProb w →
        s.objective c ≤ c.cost X s.Gamma s.S w s.transitionMatrices + ε) ∧
      ∀ A : Fin p → Matrix (Fin k) (Fin k) K, (∀ i, ColStochastic (A i)) →
        s.objective c ≤ c.cost X s.Gamma s.S s.orderWeights A + ε) := by
  obtain ⟨RA, hRA, hRA2⟩ := exists_sq_ge (K := K) (M := 4 * (p * k : K)) (by positivity)
  have hcurv := MTDState.params_curvature_le (K := K) T p k
  have hLP := MTDState.paramsCurvature_nonneg (K := K) T p k
  have hco := mtdCoef_nonneg (T := T) (k := k) heW c.lags
  have hL : 0 ≤ (mtdCoef T k c.epsilonWeights c.lags * MTDState.paramsCurvature T p k) :=
    mul_nonneg hco hLP
  obtain ⟨b, hb0, hb1, hb2, hb3, hbt⟩ := exists_step_bound hd.sigmaOne hd.gamma1
    (M := a1 * (mtdCoef T k c.epsilonWeights c.lags * MTDState.paramsCurvature T p k))
    (mul_nonneg ha1.le hL) hf
  obtain ⟨η, μ, hη0, hμ0, hημ, hμν, herr⟩ := exists_scale hε hν ha1 (C := 2 / a0 + RA / a0) (add_nonneg (div_nonneg zero_le_two ha0.le) (div_nonneg hRA ha0.le))
  have hη2 : 0 ≤ η ^ 2 := sq_nonneg η
  have hgb : 0 < c.ls.gamma * b := mul_pos hd.gamma0 hb0
  rw [mul_add] at herr
  refine ⟨c.ls.gamma * b * η ^ 2, mul_pos hgb (by positivity), fun s s' hs h => ?_⟩
  obtain ⟨lam, hl⟩ := MTDState.updateParameters_post hs.good h
  obtain ⟨m0, hm⟩ := hs.memP
  have hapos := ha0.trans_le hs.alphaParameters.1
  have hpr := MTDState.updateParameters_slope hd hlag hk hp heW hs.good hs.stoch hs.ow hs.tm hapos
    hs.alphaParameters.2 hm hLP hcurv le_rfl hb0 hb1 hb2 hb3 hbt h
  have hsn := MTDState.slopeP_nonpos (c := c) hk hp hs.ow hs.tm hapos.le
  have hle : s'.objective c ≤ s.objective c := by
    have := mul_nonpos_of_nonneg_of_nonpos hgb.le hsn
    linarith
  have hlam0 := (hl.pos hd.sigmaOne hd.sigmaTwo).le
  have hlam1 := hl.le hd.sigmaOne hd.sigmaTwo
  have hst := hl.stochastic (LSConfig.safe_of_sigma hd.sigmaOne hd.sigmaTwo) hk hp
    (fun _ => hapos.le) ⟨hs.ow, hs.tm⟩
  refine ⟨⟨hl.X.trans hs.data, hl.good, by rw [hl.Gamma]; exact hs.stoch, hst.1, hst.2,
    hle.trans hs.cost, by rw [hl.S]; exact hs.bound, by rw [hl.alphaS]; exact hs.alphaS,
    by rw [hl.alphaGamma]; exact hs.alphaGamma, ?_,
    by rw [hl.fSMem]; exact hs.memS, by rw [hl.fGammaMem]; exact hs.memG,
    ⟨_, by rw [hl.fParametersMem, hm]; rfl⟩⟩, hl.S, hl.Gamma, hle, fun hlt => ?_⟩
  · obtain ⟨b, q, -, hb⟩ := hl.alpha
    rw [hb]
    have := nextSpgAlpha_range (beta := b) (sksk := q) hd.alphaMax
    exact ⟨h0.trans this.1, this.2.trans h1⟩
  · have hδ := slope_of_short hgb hpr hlt
    obtain ⟨hp1, hp2⟩ := MTDState.slopeP_parts (c := c) hk hp hs.ow hs.tm
    have hs1 := slope_nonpos hapos hp1 (vsq_nonneg _)
    have hs2 := slope_nonpos hapos hp2 (msq_nonneg _)
    unfold MTDState.slopeP at hδ
    have hδ1 : -η ^ 2 ≤ vecMulSum (s.dirOW c) (mtdGradOW c.epsilonWeights c.lags
      s.Gamma s.orderWeights s.transitionMatrices) := by linarith
    have hδ2 : -η ^ 2 ≤ mulSum3 (s.dirTM c) (mtdGradTM c.epsilonWeights c.lags
      s.Gamma s.orderWeights s.transitionMatrices) := by linarith
    have hN1 := (length_of_slope hp1 hapos.le hs.alphaParameters.2 hη2 hδ1).trans hημ
    have hN2 := (length_of_slope hp2 hapos.le hs.alphaParameters.2 hη2 hδ2).trans hημ
    refine ⟨?_, ?_, fun w hw => ?_, fun A hA => ?_⟩
    · rw [hl.orderWeights, add_sub_cancel_left]
      exact ((vsq_smul_le hlam0 hlam1 _).trans hN1).trans hμν
    · rw [hl.transitionMatrices, add_sub_cancel_left]
      exact ((msq_smul_le hlam0 hlam1 _).trans hN2).trans hμν
    · rw [hs.objective]
      unfold MTDConfig.cost mtdCost
      by_cases hk1 : k = 1
      · rw [mtdPenalty_eq, mtdPenalty_eq, if_pos hk1, if_pos hk1]
        linarith
      have h3 := MTDState.near_slope_w hp ha0 hs.alphaParameters.1 hμ0 hN1 hδ1 hw
      have h5 := mtdPenalty_add_w hk1 c.epsilonWeights c.lags s.Gamma s.orderWeights
        (w - s.orderWeights) s.transitionMatrices 1
      rw [one_smul, add_sub_cancel, one_mul, one_pow, one_mul] at h5
      have h7 := mul_nonneg hco
        (frobSq_nonneg (mtdPred c.lags s.Gamma (w - s.orderWeights) s.transitionMatrices))
      have h8 : 0 ≤ μ * (RA / a0) := mul_nonneg hμ0 (div_nonneg hRA ha0.le)
      have h9 : μ * 2 / a0 = μ * (2 / a0) := by ring
      linarith
    · rw [hs.objective]
      unfold MTDConfig.cost mtdCost
      by_cases hk1 : k = 1
      · rw [mtdPenalty_eq, mtdPenalty_eq, if_pos hk1, if_pos hk1]
        linarith
      have h3 := MTDState.near_slope_A hk ha0 hs.alphaParameters.1 hμ0 hRA hRA2 hN2 hδ2 hA
      have h5 := mtdPenalty_add_A hk1 c.epsilonWeights c.lags s.Gamma s.orderWeights
        s.transitionMatrices (A - s.transitionMatrices) 1
      rw [one_smul, add_sub_cancel, one_mul, one_pow, one_mul] at h5
      have h7 := mul_nonneg hco
        (frobSq_nonneg (mtdPred c.lags s.Gamma s.orderWeights (A - s.transitionMatrices)))
      have h8 : 0 ≤ μ * (2 / a0) := mul_nonneg hμ0 (div_nonneg zero_le_two ha0.le)
      have h9 : μ * RA / a0 = μ * (RA / a0) := by ring
      linarith

theorem mtdCurvature_parts {c : MTDConfig p K} (k : ℕ) (heW : 0 ≤ c.epsilonWeights) {a1 R : K}
    (ha1 : 0 ≤ a1) (hR : 0 ≤ R) (ht : 0 ≤ c.ls.stepSizeTolerance)
    (hf : c.ls.Floor (a1 * mtdCurvature T D k c R)) :
    c.ls.Floor (a1 * (T / ((D : K) * (T : K)) +
      |c.epsilonStates| * (2 * k / ((k : K) * ((k : K) - 1) * (D : K))))) ∧
    c.ls.Floor (a1 * (R / ((D : K) * (T : K)) +
      mtdCoef T k c.epsilonWeights c.lags * (2 + 2 * (T * (p * k))))) ∧
    c.ls.Floor (a1 * (mtdCoef T k c.epsilonWeights c.lags * MTDState.paramsCurvature T p k)) := by
  have hpd := GPNHState.pen_denominator_nonneg (K := K) k D
  have hco := mtdCoef_nonneg (T := T) (k := k) heW c.lags
  have hLP := MTDState.paramsCurvature_nonneg (K := K) T p k
  have h1 : 0 ≤ (1 : K) / D := by positivity
  have h2 : 0 ≤ |c.epsilonStates| * (2 * k / ((k : K) * ((k : K) - 1) * (D : K))) := by
    have := abs_nonneg c.epsilonStates
    positivity
  have h3 : 0 ≤ R / ((D : K) * (T : K)) := by positivity
  have h4 : 0 ≤ mtdCoef T k c.epsilonWeights c.lags * (2 + 2 * (T * (p * k))) := by positivity
  have h5 := mul_nonneg hco hLP
  have h6 : (T : K) / ((D : K) * (T : K)) ≤ 1 / D := by
    rcases Nat.eq_zero_or_pos T with h | h
    · subst h
      simp
    · have : (T : K) ≠ 0 := by exact_mod_cast h.ne'
      rw [mul_comm, div_mul_eq_div_div, div_self this]
  have h7 : mtdCoef T k c.epsilonWeights c.lags *
      (2 + 2 * (T * (p * k)) + MTDState.paramsCurvature T p k) =
      mtdCoef T k c.epsilonWeights c.lags * (2 + 2 * (T * (p * k))) +
      mtdCoef T k c.epsilonWeights c.lags * MTDState.paramsCurvature T p k := by ring
  refine ⟨hf.mono ht ?_, hf.mono ht ?_, hf.mono ht ?_⟩ <;>
    refine mul_le_mul_of_nonneg_left ?_ ha1 <;> unfold mtdCurvature gpnhCurvature <;> linarith

theorem exists_mtdConst {c : MTDConfig p K} (hd : c.ls.Descends) (hlag : ∀ i, 1 ≤ c.lags i)
    (hk : 1 ≤ k) (hp : 1 ≤ p) (X : Matrix (Fin T) (Fin D) K) (heS : 0 ≤ c.epsilonStates)
    (heW : 0 ≤ c.epsilonWeights) {ε : K} (hε : 0 < ε) {a0 a1 : K}
    (ha0 : 0 < a0) (ha1 : 0 < a1) (h0 : a0 ≤ c.ls.alphaMin) (h1 : c.ls.alphaMax ≤ a1) {B R : K}
    (hR : 0 ≤ R) {ud : Bool}
    (hlev : ud = true → ∀ (W : Matrix (Fin T) (Fin k) K) (S : Matrix (Fin k) (Fin D) K)
      (w : Fin p → K) (A : Fin p → Matrix (Fin k) (Fin k) K),
      RowStochastic W → c.cost X W S w A ≤ B → frobSq S ≤ R)
    (ht : 0 ≤ c.ls.stepSizeTolerance) (hf : c.ls.Floor (a1 * mtdCurvature T D k c R)) :
    ∃ tol ν, 0 < tol ∧ MTDConst c X k ε ν a0 a1 B R tol ud := by
  obtain ⟨ΛW, hΛW, hcW⟩ := mtdCost_cont_W c.epsilonStates heW c.lags X k hR
  obtain ⟨ΛP, hΛP, hcP⟩ := mtdCost_cont_params c.epsilonStates heW c.lags X k
  have hΛ : 0 < ΛW + ΛP + 1 := by linarith
  set ν : K := ε / (ΛW + ΛP + 1) with hν
  have hν0 : 0 < ν := div_pos hε hΛ
  have hνε : (ΛW + ΛP + 1) * ν = ε := mul_div_cancel₀ _ hΛ.ne'
  have hνW := mul_nonneg hΛW hν0.le
  have hνP := mul_nonneg hΛP hν0.le
  rw [add_mul, add_mul] at hνε
  obtain ⟨hf1, hf2, hf3⟩ := mtdCurvature_parts (T := T) (D := D) k heW ha1.le hR ht hf
  obtain ⟨t2, ht2, hw⟩ := exists_weights_tol (T := T) (D := D) (k := k) (B := B) hd hk X heW hε
    hν0 ha0 ha1 h0 h1 hR hf2
  obtain ⟨t3, ht3, hpa⟩ := exists_parameters_tol (T := T) (D := D) (k := k) (B := B) hd hlag hk hp X
    heW hε hν0 ha0 ha1 h0 h1 hf3
  obtain ⟨t1, ht1, hdi⟩ : ∃ tol, 0 < tol ∧ (ud = true → ∀ (s s' : MTDState T D k p K),
      s.Steady c X a0 a1 B R → s.updateDictionary c = Py.ok s' →
      s'.Steady c X a0 a1 B R ∧ s'.Gamma = s.Gamma ∧ s'.orderWeights = s.orderWeights ∧
      s'.transitionMatrices = s.transitionMatrices ∧ s'.objective c ≤ s.objective c ∧
      (s.objective c - s'.objective c < tol → ∀ S, frobSq S ≤ R →
        s.objective c ≤ c.cost X s.Gamma S s.orderWeights s.transitionMatrices + ε)) := by
    cases ud
    · exact ⟨1, one_pos, fun h => by simp at h⟩
    · obtain ⟨t, ht, h⟩ := exists_dictionary_tol hd X heS hε hν0 ha0 ha1 h0 h1 hR (hlev rfl)
        hf1
      exact ⟨t, ht, fun _ => h⟩
  refine ⟨min t1 (min t2 t3), ν, lt_min ht1 (lt_min ht2 ht3), ⟨?_, ?_, ?_, ?_, ?_⟩⟩
  · intro W W' S w A hW hW' hw hA hS hdW
    have := hcW ν W W' S w A hν0.le hW hW' hw hA hS hdW
    unfold MTDConfig.cost
    linarith
  · intro W S w w' A A' hW hw hw' hA hA' hdw hdA
    have := hcP ν W S w w' A A' hν0.le hW hw hw' hA hA' hdw hdA
    unfold MTDConfig.cost
    linarith
  · intro hud s s' hs h
    obtain ⟨q1, q2, q3, q4, q5, q6⟩ := hdi hud s s' hs h
    exact ⟨q1, q2, q3, q4, q5, fun hlt => q6 (hlt.trans_le (min_le_left _ _))⟩
  · intro s s' hs h
    obtain ⟨q1, q2, q3, q4, q5, q6⟩ := hw s s' hs h
    exact ⟨q1, q2, q3, q4, q5,
      fun hlt => q6 (hlt.trans_le ((min_le_right _ _).trans (min_le_left _ _)))⟩
  · intro s s' hs h
    obtain ⟨q1, q2, q3, q4, q5⟩ := hpa s s' hs h
    exact ⟨q1, q2, q3, q4,
      fun hlt => q5 (hlt.trans_le ((min_le_right _ _).trans (min_le_right _ _)))⟩

/-! ### Complete loops -/

/-- Each enabled block is optimal up to `ε` given the others. -/
def MTDState.NearOptimal (c : MTDConfig p K) (X : Matrix (Fin T) (Fin D) K) (ε : K) (fl : MTDFlags)
    (s : MTDState T D k p K) : Prop :=
  (fl.updateDictionary = true → ∀ S, c.cost X s.Gamma s.S s.orderWeights s.transitionMatrices ≤
    c.cost X s.Gamma S s.orderWeights s.transitionMatrices + ε) ∧
  (fl.updateWeights = true → ∀ W, RowStochastic W →
    c.cost X s.Gamma s.S s.orderWeights s.transitionMatrices ≤
      c.cost X W s.S s.orderWeights s.transitionMatrices + ε) ∧
  (fl.updateParameters = true →
    (∀ w, IsProb w → c.cost X s.Gamma s.S s.orderWeights s.transitionMatrices ≤
      c.cost X s.Gamma s.S w s.transitionMatrices + ε) ∧
    ∀ A : Fin p → Matrix (Fin k) (Fin k) K, (∀ i, ColStochastic (A i)) →
      c.cost X s.Gamma s.S s.orderWeights s.transitionMatrices ≤
        c.cost X s.Gamma s.S s.orderWeights A + ε)

/-- An optional first phase. -/
theorem runPhases_optional {σ : Type} {e : σ → K} {require : Bool} {old : K} {fl : Bool}
    {f : σ → Py σ} {rest : List (σ → Py σ)} {s : σ} {r : σ × K}
    (h : runPhases (fun s => (s, e s)) require old ((if fl then [f] else []) ++ rest) s (e s) =
      Py.ok r) :
    ∃ s1, (fl = true → f s = Py.ok s1) ∧ (fl = false → s1 = s) ∧
      runPhases (fun s => (s, e s)) require old rest s1 (e s1) = Py.ok r := by
  cases fl
  · exact ⟨s, by simp, fun _ => rfl, by simpa using h⟩
  · simp only [if_true, List.cons_append, List.nil_append, runPhases] at h
    obtain ⟨s1, h1, h⟩ := Py.bind_eq_ok.1 h
    split_ifs at h
    exact ⟨s1, fun _ => h1, by simp, h⟩

theorem mtd_iteration_near {c : MTDConfig p K} {X : Matrix (Fin T) (Fin D) K}
    {ε ν a0 a1 B R tol : K} {fl : MTDFlags} (hε : 0 < ε)
    (hc : MTDConst c X k ε ν a0 a1 B R tol fl.updateDictionary)
    (hlev : fl.updateDictionary = true → ∀ (W : Matrix (Fin T) (Fin k) K)
      (S : Matrix (Fin k) (Fin D) K) (w : Fin p → K) (A : Fin p → Matrix (Fin k) (Fin k) K),
      RowStochastic W → c.cost X W S w A ≤ B → frobSq S ≤ R) {require : Bool} {t : K}
    (ht : t ≤ tol) :
    ∀ (s : MTDState T D k p K) f r, s.Steady c X a0 a1 B R →
      (fun s : MTDState T D k p K => (s, s.evaluateCost c)) s = (s, f) →
      runPhases (fun s : MTDState T D k p K => (s, s.evaluateCost c)) require f
        (mtdPhases c fl) s f = Py.ok r →
      r.1.Steady c X a0 a1 B R ∧
        (fun s : MTDState T D k p K => (s, s.evaluateCost c)) r.1 = (r.1, r.2) ∧ r.2 ≤ f ∧
        (f - r.2 < t → r.1.NearOptimal c X (ε + ε + ε) fl) := by
  intro s f r hs hcs h
  have hf : s.evaluateCost c = f := congrArg Prod.snd hcs
  have hν2 := sq_nonneg ν
  have h00 : frobSq (0 : Matrix (Fin T) (Fin k) K) = 0 := by rw [frobSq_eq_inner, inner_zero_left]
  have hv0 : vsq (0 : Fin p → K) = 0 := by simp [vsq]
  have hm0 : msq (0 : Fin p → Matrix (Fin k) (Fin k) K) = 0 := by
    simp [msq, frobSq]
  unfold mtdPhases at h
  rw [List.append_assoc, ← hf] at h
  obtain ⟨s1, hd1, hd2, h⟩ := runPhases_optional h
  obtain ⟨s2, hw1, hw2, h⟩ := runPhases_optional h
  rw [← List.append_nil (if fl.updateParameters = true then [MTDState.updateParameters c] else [])]
    at h
  obtain ⟨s3, hp1, hp2, h⟩ := runPhases_optional h
  simp only [runPhases, Py.ok.injEq] at h
  subst h
  -- dictionary
  obtain ⟨g1, G1, w1, A1, le1, near1⟩ : s1.Steady c X a0 a1 B R ∧ s1.Gamma = s.Gamma ∧
      s1.orderWeights = s.orderWeights ∧ s1.transitionMatrices = s.transitionMatrices ∧
      s1.objective c ≤ s.objective c ∧
      (fl.updateDictionary = true → s.objective c - s1.objective c < tol → ∀ S, frobSq S ≤ R →
        s.objective c ≤ c.cost X s.Gamma S s.orderWeights s.transitionMatrices + ε) := by
    rcases Bool.eq_false_or_eq_true fl.updateDictionary with hb | hb
    · obtain ⟨a, b, d, e, g, i⟩ := hc.dictionary hb s s1 hs (hd1 hb)
      exact ⟨a, b, d, e, g, fun _ => i⟩
    · rw [hd2 hb]
      exact ⟨hs, rfl, rfl, rfl, le_rfl, fun h => by simp [hb] at h⟩
  obtain ⟨g2, S2, w2, A2, le2, near2⟩ : s2.Steady c X a0 a1 B R ∧ s2.S = s1.S ∧
      s2.orderWeights = s1.orderWeights ∧ s2.transitionMatrices = s1.transitionMatrices ∧
      s2.objective c ≤ s1.objective c ∧
      (s1.objective c - s2.objective c < tol → frobSq (s1.Gamma - s2.Gamma) ≤ ν ^ 2 ∧
        (fl.updateWeights = true → ∀ W, RowStochastic W →
          s1.objective c ≤ c.cost X W s1.S s1.orderWeights s1.transitionMatrices + ε)) := by
    rcases Bool.eq_false_or_eq_true fl.updateWeights with hb | hb
    · obtain ⟨a, b, d, e, g, i⟩ := hc.weights s1 s2 g1 (hw1 hb)
      exact ⟨a, b, d, e, g, fun h => ⟨(i h).1, fun _ => (i h).2⟩⟩
    · rw [hw2 hb]
      exact ⟨g1, rfl, rfl, rfl, le_rfl, fun _ => ⟨by rw [sub_self, h00]; exact hν2,
        fun h => by simp [hb] at h⟩⟩
  obtain ⟨g3, S3, G3, le3, near3⟩ : s3.Steady c X a0 a1 B R ∧ s3.S = s2.S ∧
      s3.Gamma = s2.Gamma ∧ s3.objective c ≤ s2.objective c ∧
      (s2.objective c - s3.objective c < tol → vsq (s3.orderWeights - s2.orderWeights) ≤ ν ^ 2 ∧
        msq (s3.transitionMatrices - s2.transitionMatrices) ≤ ν ^ 2 ∧
        (fl.updateParameters = true →
          (∀ w, IsProb w →
            s2.objective c ≤ c.cost X s2.Gamma s2.S w s2.transitionMatrices + ε) ∧
          ∀ A : Fin p → Matrix (Fin k) (Fin k) K, (∀ i, ColStochastic (A i)) →
            s2.objective c ≤ c.cost X s2.Gamma s2.S s2.orderWeights A + ε)) := by
    rcases Bool.eq_false_or_eq_true fl.updateParameters with hb | hb
    · obtain ⟨a, b, d, e, i⟩ := hc.parameters s2 s3 g2 (hp1 hb)
      exact ⟨a, b, d, e, fun h => ⟨(i h).1, (i h).2.1, fun _ => (i h).2.2⟩⟩
    · rw [hp2 hb]
      exact ⟨g2, rfl, rfl, le_rfl, fun _ => ⟨by rw [sub_self, hv0]; exact hν2,
        by rw [sub_self, hm0]; exact hν2, fun h => by simp [hb] at h⟩⟩
  have ef : f = s.objective c := by rw [← hf, MTDState.evaluateCost_eq hs.good]
  have e3 : s3.evaluateCost c = s3.objective c := MTDState.evaluateCost_eq g3.good
  refine ⟨g3, rfl, ?_, fun hlt => ?_⟩
  · simp only
    rw [e3, ef]
    linarith
  simp only at hlt ⊢
  rw [e3, ef] at hlt
  obtain ⟨m2, n2⟩ := near2 (by linarith)
  obtain ⟨mw, mA, n3⟩ := near3 (by linarith)
  have n1 := fun hb => near1 hb (by linarith)
  have o3 := g3.objective
  unfold MTDState.NearOptimal
  rw [← o3]
  refine ⟨fun hb S => ?_, fun hb W hW => ?_, fun hb => ⟨fun w hw => ?_, fun A hA => ?_⟩⟩
  · rcases le_total (s3.objective c)
      (c.cost X s3.Gamma S s3.orderWeights s3.transitionMatrices) with hS | hS
    · linarith
    have hSR : frobSq S ≤ R := hlev hb _ _ _ _ g3.stoch (hS.trans g3.cost)
    have q1 := n1 hb S hSR
    have q2 := hc.contW s1.Gamma s2.Gamma S s1.orderWeights s1.transitionMatrices g1.stoch g2.stoch
      g1.ow g1.tm hSR m2
    have q3 := hc.contP s3.Gamma S s2.orderWeights s3.orderWeights s2.transitionMatrices
      s3.transitionMatrices g3.stoch g2.ow g3.ow g2.tm g3.tm mw mA
    rw [G3, w2, A2] at q3
    rw [G1, w1, A1] at q2
    rw [w1, A1] at q3
    rw [G3]
    linarith
  · have q1 := n2 hb W hW
    have q3 := hc.contP W s1.S s2.orderWeights s3.orderWeights s2.transitionMatrices
      s3.transitionMatrices hW g2.ow g3.ow g2.tm g3.tm mw mA
    rw [w2, A2] at q3
    rw [S3, S2]
    linarith
  · have q1 := (n3 hb).1 w hw
    have q3 := hc.contP s2.Gamma s2.S w w s2.transitionMatrices s3.transitionMatrices g2.stoch hw hw
      g2.tm g3.tm (by rw [sub_self, hv0]; exact hν2) mA
    rw [S3, G3]
    linarith
  · have q1 := (n3 hb).2 A hA
    have q3 := hc.contP s2.Gamma s2.S s2.orderWeights s3.orderWeights A A g2.stoch g2.ow g3.ow
      hA hA mw (by rw [sub_self, hm0]; exact hν2)
    rw [S3, G3]
    linarith

/-- A small tolerance and enough iterations give blocks that are optimal up to `ε` given each
other; both depend on the cost of the start, and if the dictionary is fixed on its size. -/
theorem mtdSolve_near_optimal [Archimedean K] {c : MTDConfig p K} (hd : c.ls.Descends)
    (hmem : c.ls.memory = 1) (hlag : ∀ i, 1 ≤ c.lags i) (hk : 1 ≤ k)
    (X : Matrix (Fin T) (Fin D) K) (heS : 0 ≤ c.epsilonStates)
    (heW : 0 ≤ c.epsilonWeights) {ε : K} (hε : 0 < ε) {B R : K} (hR : 0 ≤ R) {fl : MTDFlags}
    (hlev : fl.updateDictionary = true → ∀ (W : Matrix (Fin T) (Fin k) K)
      (S : Matrix (Fin k) (Fin D) K) (w : Fin p → K) (A : Fin p → Matrix (Fin k) (Fin k) K),
      RowStochastic W → c.cost X W S w A ≤ B → frobSq S ≤ R)
    (ht : 0 ≤ c.ls.stepSizeTolerance)
    (hf : c.ls.Floor (max 1 c.ls.alphaMax * mtdCurvature T D k c R)) :
    ∃ tol : K, 0 < tol ∧ ∀ t, 0 < t → t ≤ tol → ∃ M : ℕ, ∀ (require : Bool)
      (maxIter : ℕ) (pt : MTDPoint T D k p K)
      (r : IterResult (MTDState T D k p K) K), M ≤ maxIter → RowStochastic pt.2.1 →
      IsProb pt.2.2.1 → (∀ i, ColStochastic (pt.2.2.2 i)) → frobSq pt.1 ≤ R →
      mtdObjectiveAt c X pt ≤ B →
      mtdSolve c require t maxIter fl X pt = Py.ok r → r.state.NearOptimal c X ε fl := by
  by_cases hp0 : p = 0
  · refine ⟨1, one_pos, fun t _ _ => ⟨0, fun require maxIter pt r _ _ _ _ _ _ h => ?_⟩⟩
    exact absurd hp0 (mtdSolve_eq_ok.1 h).1.1
  have hp : 1 ≤ p := Nat.one_le_iff_ne_zero.2 hp0
  have hε3 : 0 < ε / 3 := by positivity
  obtain ⟨tol, ν, htol, hc⟩ := exists_mtdConst hd hlag hk hp X heS heW hε3
    (a0 := min 1 c.ls.alphaMin) (a1 := max 1 c.ls.alphaMax) (lt_min one_pos hd.alphaMin)
    (lt_max_of_lt_left one_pos) (min_le_right _ _) (le_max_right _ _) hR hlev ht hf
  refine ⟨tol, htol, fun t ht0 ht => ?_⟩
  obtain ⟨M, hM⟩ := exists_nat_gt (2 * B / t)
  refine ⟨M, fun require maxIter pt r hmax hW hw hA hS hB h => ?_⟩
  have h1 : List.replicate c.ls.memory (0 : K) = [0] := by rw [hmem]; rfl
  have hsteady : (mtdInitialState c X pt).Steady c X (min 1 c.ls.alphaMin)
      (max 1 c.ls.alphaMax) B R :=
    ⟨rfl, mtdInitialState_good c X pt, hW, hw, hA, hB, hS, ⟨min_le_left _ _, le_max_left _ _⟩,
      ⟨min_le_left _ _, le_max_left _ _⟩, ⟨min_le_left _ _, le_max_left _ _⟩, ⟨0, h1⟩, ⟨0, h1⟩,
      ⟨0, h1⟩⟩
  have := iterate_near (evalCost := fun s : MTDState T D k p K => (s, s.evaluateCost c))
    (require := require) (tol := t)
    (Near := MTDState.NearOptimal c X (ε / 3 + ε / 3 + ε / 3) fl)
    (mtd_iteration_near hε3 hc hlev (require := require) ht)
    (fun _ => rfl) (fun x hx => hx) (B := B)
    (fun x f hx hxc => by
      have e : x.evaluateCost c = f := congrArg Prod.snd hxc
      rw [MTDState.evaluateCost_eq hx.good] at e
      rw [← e, abs_of_nonneg]
      · exact hx.cost
      · exact add_nonneg (gpnhCost_nonneg' heS _ _ _) (mtdPenalty_nonneg heW _ _ _ _))
    (maxIter := maxIter) (by
      rw [div_lt_iff₀ ht0] at hM
      refine hM.trans_le (mul_le_mul_of_nonneg_right ?_ ht0.le)
      exact_mod_cast hmax) hsteady (mtdSolve_eq_ok.1 h).2
  rwa [add_thirds] at this

/-- A tolerance and a number of iterations that serve all combinations of flags. -/
theorem uniform_flags {P : MTDFlags → K → ℕ → Prop}
    (h : ∀ fl, ∃ tol : K, 0 < tol ∧ ∀ t, 0 < t → t ≤ tol → ∃ M : ℕ, ∀ m, M ≤ m → P fl t m) :
    ∃ tol : K, 0 < tol ∧ ∀ t, 0 < t → t ≤ tol → ∃ M : ℕ, ∀ m, M ≤ m → ∀ fl, P fl t m := by
  choose tol htol key using h
  have hne : (Finset.univ : Finset (Bool × Bool × Bool)).Nonempty := Finset.univ_nonempty
  refine ⟨Finset.univ.inf' hne fun b => tol ⟨b.1, b.2.1, b.2.2⟩,
    (Finset.lt_inf'_iff hne).2 fun b _ => htol _, fun t ht0 ht => ?_⟩
  choose M hM using fun fl : MTDFlags => key fl t ht0
    (ht.trans (Finset.inf'_le (fun b : Bool × Bool × Bool => tol ⟨b.1, b.2.1, b.2.2⟩)
      (Finset.mem_univ (fl.updateDictionary, fl.updateWeights, fl.updateParameters))))
  refine ⟨Finset.univ.sup fun b : Bool × Bool × Bool => M ⟨b.1, b.2.1, b.2.2⟩, fun m hm fl =>
    hM fl m ((Finset.le_sup (f := fun b : Bool × Bool × Bool => M ⟨b.1, b.2.1, b.2.2⟩)
      (Finset.mem_univ (fl.updateDictionary, fl.updateWeights, fl.updateParameters))).trans hm)⟩

/-- The loops from starts of bounded cost, for all flags. -/
theorem mtdSolve_near_optimal_flags [Archimedean K] {c : MTDConfig p K} (hd : c.ls.Descends)
    (hmem : c.ls.memory = 1) (hlag : ∀ i, 1 ≤ c.lags i) (hk : 1 ≤ k)
    (X : Matrix (Fin T) (Fin D) K) (hDT : D * T ≠ 0)
    (he : 0 < c.epsilonStates ∨ (0 ≤ c.epsilonStates ∧ k = 1)) (heW : 0 ≤ c.epsilonWeights)
    {ε : K} (hε : 0 < ε) {B : K} (hB : 0 ≤ B) (ht : 0 ≤ c.ls.stepSizeTolerance)
    (hf : c.ls.Floor (max 1 c.ls.alphaMax * mtdCurvature T D k c
      (gpnhLevel c.epsilonStates X k B))) :
    ∃ tol : K, 0 < tol ∧ ∀ t, 0 < t → t ≤ tol → ∃ M : ℕ, ∀ m, M ≤ m → ∀ (fl : MTDFlags)
      (require : Bool) (pt : MTDPoint T D k p K)
      (r : IterResult (MTDState T D k p K) K), RowStochastic pt.2.1 →
      IsProb pt.2.2.1 → (∀ i, ColStochastic (pt.2.2.2 i)) → mtdObjectiveAt c X pt ≤ B →
      mtdSolve c require t m fl X pt = Py.ok r → r.state.NearOptimal c X ε fl := by
  have he0 : 0 ≤ c.epsilonStates := by rcases he with h | h; exacts [h.le, h.1]
  set R : K := gpnhLevel c.epsilonStates X k B with hRdef
  have hR : 0 ≤ R := gpnhLevel_nonneg he0 X k hB
  have hlev : ∀ (W : Matrix (Fin T) (Fin k) K) (S : Matrix (Fin k) (Fin D) K), RowStochastic W →
      gpnhCost c.epsilonStates X W S ≤ B → frobSq S ≤ R := fun W S hW h =>
    gpnh_level_bound he hDT X hW h
  have hlev' : ∀ (W : Matrix (Fin T) (Fin k) K) (S : Matrix (Fin k) (Fin D) K)
      (w : Fin p → K) (A : Fin p → Matrix (Fin k) (Fin k) K), RowStochastic W →
      c.cost X W S w A ≤ B → frobSq S ≤ R := fun W S w A hW h =>
    hlev W S hW ((le_add_of_nonneg_right (mtdPenalty_nonneg heW c.lags W w A)).trans h)
  refine uniform_flags fun fl => ?_
  obtain ⟨tol, htol, key⟩ := mtdSolve_near_optimal hd hmem hlag hk X he0 heW hε hR (B := B)
    (fl := fl) (fun _ => hlev') ht hf
  refine ⟨tol, htol, fun t ht0 ht => ?_⟩
  obtain ⟨M, hM⟩ := key t ht0 ht
  exact ⟨M, fun m hm require pt r hW hw hA hB h =>
    hM require m pt r hm hW hw hA (hlev' _ _ _ _ hW hB) hB h⟩

end Reor
