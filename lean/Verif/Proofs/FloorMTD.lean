import Verif.Proofs.ConvergeMTDFit
import Verif.Proofs.Floor
import Verif.Proofs.GPNHCROM

/-!
Line searches of the MTD fits with a step floor.
-/

namespace Reor

set_option linter.unusedSectionVars false

open scoped BigOperators Matrix
open Spec

variable {K : Type} [Field K] [LinearOrder K] [IsStrictOrderedRing K]
variable {T D k p : ℕ}

/-- Every phase returns and does not increase the objective, when the floor is small compared with
the curvature in the blocks that are updated. -/
theorem mtd_steady_phases [Archimedean K] {c : MTDConfig p K} (hd : c.ls.Descends)
    (hlag : ∀ i, 1 ≤ c.lags i) (hk : 1 ≤ k) (hp : 1 ≤ p) (X : Matrix (Fin T) (Fin D) K)
    (heW : 0 ≤ c.epsilonWeights) {a0 a1 : K} (ha0 : 0 < a0)
    (ha1 : 0 < a1) (h0 : a0 ≤ c.ls.alphaMin) (h1 : c.ls.alphaMax ≤ a1) {B R : K} (hR : 0 ≤ R)
    {fl : MTDFlags} (heS : fl.updateDictionary = true → 0 ≤ c.epsilonStates)
    (hlev : fl.updateDictionary = true → ∀ (W : Matrix (Fin T) (Fin k) K)
      (S : Matrix (Fin k) (Fin D) K) (w : Fin p → K) (A : Fin p → Matrix (Fin k) (Fin k) K),
      RowStochastic W → c.cost X W S w A ≤ B → frobSq S ≤ R)
    (hfD : fl.updateDictionary = true → c.ls.Floor (a1 * (T / ((D : K) * (T : K)) +
      |c.epsilonStates| * (2 * k / ((k : K) * ((k : K) - 1) * (D : K))))))
    (hfW : fl.updateWeights = true → c.ls.Floor (a1 * (R / ((D : K) * (T : K)) +
      mtdCoef T k c.epsilonWeights c.lags * (2 + 2 * (T * (p * k))))))
    (hfP : fl.updateParameters = true → c.ls.Floor
      (a1 * (mtdCoef T k c.epsilonWeights c.lags * MTDState.paramsCurvature T p k)))
    (hT : T ≠ c.maxLag) :
    ∀ f ∈ mtdPhases (T := T) (D := D) (k := k) c fl, ∀ s, s.Steady c X a0 a1 B R →
      ∃ s', f s = Py.ok s' ∧ s'.Steady c X a0 a1 B R ∧ s'.evaluateCost c ≤ s.evaluateCost c := by
  intro f hf s hs
  obtain ⟨mS, hmS⟩ := hs.memS
  obtain ⟨mG, hmG⟩ := hs.memG
  obtain ⟨mP, hmP⟩ := hs.memP
  rw [MTDState.evaluateCost_eq hs.good]
  rcases mem_mtdPhases hf with ⟨hfl, rfl⟩ | ⟨hfl, rfl⟩ | ⟨hfl, rfl⟩
  · obtain ⟨s', h⟩ := MTDState.updateDictionary_succeeds hs.good hd.sigmaOne hd.sigmaTwo hd.gamma1
      (ha0.trans_le hs.alphaS.1) (by rw [hmS]; simp)
    obtain ⟨tol, -, key⟩ := exists_dictionary_tol (k := k) hd X (heS hfl) (ε := 1) one_pos (ν := 1)
      one_pos ha0 ha1 h0 h1 hR (hlev hfl) (hfD hfl)
    obtain ⟨hs', -, -, -, hle, -⟩ := key s s' hs h
    exact ⟨s', h, hs', by rwa [MTDState.evaluateCost_eq hs'.good]⟩
  · obtain ⟨s', h⟩ := MTDState.updateWeights_succeeds hs.good hT hd.sigmaOne hd.sigmaTwo hd.gamma1 hk
      hs.stoch (ha0.trans_le hs.alphaGamma.1) (by rw [hmG]; simp)
    obtain ⟨tol, -, key⟩ := exists_weights_tol (k := k) hd hk X heW (ε := 1) one_pos (ν := 1)
      one_pos ha0 ha1 h0 h1 (B := B) hR (hfW hfl)
    obtain ⟨hs', -, -, -, hle, -⟩ := key s s' hs h
    exact ⟨s', h, hs', by rwa [MTDState.evaluateCost_eq hs'.good]⟩
  · obtain ⟨s', h⟩ := MTDState.updateParameters_succeeds hlag hs.good hT hd.sigmaOne hd.sigmaTwo
      hd.gamma1 hk hp hs.stoch hs.ow hs.tm (ha0.trans_le hs.alphaParameters.1) (by rw [hmP]; simp)
    obtain ⟨tol, -, key⟩ := exists_parameters_tol (k := k) hd hlag hk hp X heW (ε := 1) one_pos
      (ν := 1) one_pos ha0 ha1 h0 h1 (B := B) (R := R) (hfP hfl)
    obtain ⟨hs', -, -, hle, -⟩ := key s s' hs h
    exact ⟨s', h, hs', by rwa [MTDState.evaluateCost_eq hs'.good]⟩

theorem mtdSolve_succeeds_floor [Archimedean K] {c : MTDConfig p K} (hd : c.ls.Descends)
    (hmem : c.ls.memory = 1) (hlag : ∀ i, 1 ≤ c.lags i) (hk : 1 ≤ k) (hp : 1 ≤ p)
    (hDT : D * T ≠ 0) (hT : T ≠ c.maxLag) {X : Matrix (Fin T) (Fin D) K}
    (heW : 0 ≤ c.epsilonWeights) {B R : K} (hR : 0 ≤ R)
    {fl : MTDFlags} (heS : fl.updateDictionary = true → 0 ≤ c.epsilonStates)
    (hlev : fl.updateDictionary = true → ∀ (W : Matrix (Fin T) (Fin k) K)
      (S : Matrix (Fin k) (Fin D) K) (w : Fin p → K) (A : Fin p → Matrix (Fin k) (Fin k) K),
      RowStochastic W → c.cost X W S w A ≤ B → frobSq S ≤ R)
    (hfD : fl.updateDictionary = true → c.ls.Floor (max 1 c.ls.alphaMax * (T / ((D : K) * (T : K)) +
      |c.epsilonStates| * (2 * k / ((k : K) * ((k : K) - 1) * (D : K))))))
    (hfW : fl.updateWeights = true → c.ls.Floor (max 1 c.ls.alphaMax * (R / ((D : K) * (T : K)) +
      mtdCoef T k c.epsilonWeights c.lags * (2 + 2 * (T * (p * k))))))
    (hfP : fl.updateParameters = true → c.ls.Floor (max 1 c.ls.alphaMax *
      (mtdCoef T k c.epsilonWeights c.lags * MTDState.paramsCurvature T p k)))
    {require : Bool} {tol : K} {maxIter : ℕ} (hm : 0 < maxIter) {pt : MTDPoint T D k p K}
    (hW : RowStochastic pt.2.1) (hw : IsProb pt.2.2.1) (hA : ∀ i, ColStochastic (pt.2.2.2 i))
    (hS : frobSq pt.1 ≤ R) (hB : mtdObjectiveAt c X pt ≤ B) :
    ∃ r, mtdSolve c require tol maxIter fl X pt = Py.ok r := by
  have h1 : List.replicate c.ls.memory (0 : K) = [0] := by rw [hmem]; rfl
  have hsteady : (mtdInitialState c X pt).Steady c X (min 1 c.ls.alphaMin)
      (max 1 c.ls.alphaMax) B R :=
    ⟨rfl, mtdInitialState_good c X pt, hW, hw, hA, hB, hS, ⟨min_le_left _ _, le_max_left _ _⟩,
      ⟨min_le_left _ _, le_max_left _ _⟩, ⟨min_le_left _ _, le_max_left _ _⟩, ⟨0, h1⟩, ⟨0, h1⟩,
      ⟨0, h1⟩⟩
  obtain ⟨r, hr, -⟩ := iterate_ok (evalCost := fun s : MTDState T D k p K => (s, s.evaluateCost c))
    (fun _ => rfl) (require := require) (tol := tol)
    (Inv := MTDState.Steady c X (min 1 c.ls.alphaMin) (max 1 c.ls.alphaMax) B R) (fun _ h => h)
    (mtd_steady_phases hd hlag hk hp X heW (lt_min one_pos hd.alphaMin)
      (lt_max_of_lt_left one_pos) (min_le_right _ _) (le_max_right _ _) hR heS hlev hfD hfW hfP hT)
    hsteady hm
  exact ⟨r, mtdSolve_eq_ok.2 ⟨⟨by omega, hDT, fun h => hT h.2⟩, hr⟩⟩

/-- The parameters of the reduced order model. -/
theorem cromSolve_succeeds_floor [Archimedean K] {c : CROMConfig p K} (hd : c.ls.Descends)
    (hmem : c.ls.memory = 1) (hlag : ∀ i, 1 ≤ c.lags i) (hk : 1 ≤ k) (hp : 1 ≤ p) (hT0 : T ≠ 0)
    (hT : T ≠ c.maxLag) (hf : c.ls.Floor (max 1 c.ls.alphaMax *
      (mtdCoef T k 1 c.lags * MTDState.paramsCurvature T p k)))
    {require : Bool} {tol : K} {maxIter : ℕ} (hm : 0 < maxIter)
    {W : Matrix (Fin T) (Fin k) K} {w : Fin p → K} {A : Fin p → Matrix (Fin k) (Fin k) K}
    (hW : RowStochastic W) (hw : IsProb w) (hA : ∀ i, ColStochastic (A i)) :
    ∃ r, cromSolve c require tol maxIter W w A = Py.ok r := by
  obtain ⟨r, hr⟩ := mtdSolve_succeeds_floor (c := c.toMTD) (D := 1) (T := T) (k := k) hd hmem hlag
    hk hp (by omega) hT (X := 0) zero_le_one
    (B := mtdObjectiveAt c.toMTD 0 (cromPoint W w A)) (R := frobSq (cromPoint W w A).1)
    (frobSq_nonneg _) (fl := ⟨false, false, true⟩) (by simp) (by simp) (by simp) (by simp)
    (fun _ => hf) (require := require) (tol := tol) hm (pt := cromPoint W w A) hW hw hA le_rfl
    le_rfl
  refine cromSolve_of_ok hT0 ?_ hr
  rintro ⟨⟨i, hi⟩, -⟩
  have := hlag i
  omega

end Reor
