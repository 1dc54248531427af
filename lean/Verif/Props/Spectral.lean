import Verif.Props.MTDStationary
import Verif.Props.Stationary
import Verif.Props.GPNHCROM
import Verif.Proofs.Spectral

/-!
C111: the scale of the next step is the squared length of the move just made over the curvature of
the objective along it, kept between the two bounds, and the upper bound if the curvature is not
positive.
-/

namespace Reor

set_option linter.unusedSectionVars false

open scoped BigOperators Matrix
open Spec

variable {K : Type} [Field K] [LinearOrder K] [IsStrictOrderedRing K]
variable {T D k p n : ℕ}

/-- `a` is the spectral scale for a move of squared length `len` with curvature `curv`. -/
def SpectralScale (lo hi len curv a : K) : Prop :=
  (curv ≤ 0 → a = hi) ∧ (0 < curv → a = min hi (max lo (len / curv)))

/-- Curvature of `f` along the move from `x` to `y`, from three values of `f`. -/
def moveCurvature {E : Type} [AddCommGroup E] (f : E → K) (x y : E) : K :=
  f (y + (y - x)) - 2 * f y + f x

/-- Slope of `f` at `x` in the direction `d`, from two values of `f`. -/
def moveSlope {E : Type} [AddCommGroup E] (f : E → K) (x d : E) : K := (f (x + d) - f (x - d)) / 2

theorem nextSpgAlpha_spectral (lo hi len curv : K) :
    SpectralScale lo hi len curv (nextSpgAlpha curv len lo hi) := by
  unfold nextSpgAlpha
  exact ⟨fun h => if_pos h, fun h => if_neg (not_le.2 h)⟩

/-- C111.  GPNH weights. -/
theorem C111_gpnh_weights (cfg : LSConfig K) (eps : K) (s s' : GPNHState T D k K)
    (h : s.updateWeights cfg eps = Py.ok s') :
    SpectralScale cfg.alphaMin cfg.alphaMax (∑ t, ∑ j, (s'.Gamma t j - s.Gamma t j) ^ 2)
      (moveCurvature (fun W => gpnhCost eps s.X W s.S) s.Gamma s'.Gamma) s'.alphaGamma := by
  obtain ⟨H, lam, -, -, hG, ha⟩ := GPNHState.updateWeights_alpha h
  have hc := second_difference (f := fun W => gpnhCost eps s.X W s.S)
    (g := fun W H => inner H (gradWOf s.X W s.S))
    (fun W H t => by rw [gpnhCost_add_W, inner_comm]) hG
  have hl : ∑ t, ∑ j, (s'.Gamma t j - s.Gamma t j) ^ 2 = lam ^ 2 * inner H H := by
    have e : s'.Gamma - s.Gamma = lam • H := by rw [hG]; abel
    exact (congrArg frobSq e).trans (frobSq_smul' lam H)
  rw [moveCurvature, hc, hl, ha, inner_sub_right]
  exact nextSpgAlpha_spectral _ _ _ _

/-- C111.  GPNH dictionary. -/
theorem C111_gpnh_dictionary (cfg : LSConfig K) (eps : K) (s s' : GPNHState T D k K)
    (h : s.updateDictionary cfg eps = Py.ok s') :
    SpectralScale cfg.alphaMin cfg.alphaMax (∑ i, ∑ d, (s'.S i d - s.S i d) ^ 2)
      (moveCurvature (fun S => gpnhCost eps s.X s.Gamma S) s.S s'.S) s'.alphaS := by
  obtain ⟨H, lam, -, -, hG, ha⟩ := GPNHState.updateDictionary_alpha h
  have hc := second_difference (f := fun S => gpnhCost eps s.X s.Gamma S)
    (g := fun S H => inner H (gradSOf eps s.X s.Gamma S))
    (fun S H t => by rw [gpnhCost_add_S, inner_comm]) hG
  have hl : ∑ i, ∑ d, (s'.S i d - s.S i d) ^ 2 = lam ^ 2 * inner H H := by
    have e : s'.S - s.S = lam • H := by rw [hG]; abel
    exact (congrArg frobSq e).trans (frobSq_smul' lam H)
  rw [moveCurvature, hc, hl, ha, inner_sub_right]
  exact nextSpgAlpha_spectral _ _ _ _

/-- C111.  Kernel archetypal analysis weights, in every state of a fit of a symmetric kernel. -/
theorem C111_kaa_weights (cfg : LSConfig K) (delta : K) (A : Matrix (Fin n) (Fin n) K)
    (hA : ∀ i j, A i j = A j i) (s s' : KAAState n k K) (hr : KAAReach cfg delta A s)
    (h : s.updateWeights cfg delta = Py.ok s') :
    SpectralScale cfg.alphaMin cfg.alphaMax (∑ t, ∑ i, (s'.S t i - s.S t i) ^ 2)
      (moveCurvature (fun W => kaaCost A W s.C) s.S s'.S) s'.alphaS := by
  have hA' : Aᵀ = A := by ext i j; exact (hA i j).symm
  obtain ⟨H, lam, -, hG, ha⟩ := KAAState.updateWeights_alpha hr.good h
  have hc := second_difference (f := fun W => kaaCost A W s.C)
    (g := fun W H => inner H (kaaGradS A W s.C))
    (fun W H t => kaaCost_add_S hA' W H s.C t) hG
  have hl : ∑ t, ∑ i, (s'.S t i - s.S t i) ^ 2 = lam ^ 2 * inner H H := by
    have e : s'.S - s.S = lam • H := by rw [hG]; abel
    exact (congrArg frobSq e).trans (frobSq_smul' lam H)
  rw [moveCurvature, hc, hl, ha, inner_sub_right]
  exact nextSpgAlpha_spectral _ _ _ _

/-- C111.  Kernel archetypal analysis dictionary, in every state of a fit of a symmetric kernel. -/
theorem C111_kaa_dictionary (cfg : LSConfig K) (delta : K) (A : Matrix (Fin n) (Fin n) K)
    (hA : ∀ i j, A i j = A j i) (s s' : KAAState n k K) (hr : KAAReach cfg delta A s)
    (h : s.updateDictionary cfg delta = Py.ok s') :
    SpectralScale cfg.alphaMin cfg.alphaMax (∑ i, ∑ t, (s'.C i t - s.C i t) ^ 2)
      (moveCurvature (fun C => kaaCost A s.S C) s.C s'.C) s'.alphaC := by
  have hA' : Aᵀ = A := by ext i j; exact (hA i j).symm
  obtain ⟨H, lam, -, hG, ha⟩ := KAAState.updateDictionary_alpha hr.good h
  have hc := second_difference (f := fun C => kaaCost A s.S C)
    (g := fun C H => inner H (kaaGradC A s.S C))
    (fun C H t => kaaCost_add_C hA' s.S C H t) hG
  have hl : ∑ i, ∑ t, (s'.C i t - s.C i t) ^ 2 = lam ^ 2 * inner H H := by
    have e : s'.C - s.C = lam • H := by rw [hG]; abel
    exact (congrArg frobSq e).trans (frobSq_smul' lam H)
  rw [moveCurvature, hc, hl, ha, inner_sub_right]
  exact nextSpgAlpha_spectral _ _ _ _

/-- C111.  MTD weights.  (With one component the code's gradient has the penalty, its objective has
not; weights on the simplex are then all 1 and do not move.) -/
theorem C111_mtd_weights (c : MTDConfig p K) (s s' : MTDState T D k p K) (hs : MTDCoherent c s)
    (hk : k ≠ 1 ∨ RowStochastic s.Gamma) (h : s.updateWeights c = Py.ok s') :
    SpectralScale c.ls.alphaMin c.ls.alphaMax (∑ t, ∑ j, (s'.Gamma t j - s.Gamma t j) ^ 2)
      (moveCurvature (fun W => mtdCost c.epsilonStates c.epsilonWeights c.lags s.X W s.S
        s.orderWeights s.transitionMatrices) s.Gamma s'.Gamma) s'.alphaGamma := by
  obtain ⟨lam, hG, ha⟩ := MTDState.updateWeights_alpha (mtdCoherent_iff.1 hs) h
  have hl : ∑ t, ∑ j, (s'.Gamma t j - s.Gamma t j) ^ 2 =
      lam ^ 2 * inner (s.dirW c) (s.dirW c) := by
    have e : s'.Gamma - s.Gamma = lam • s.dirW c := by rw [hG]; abel
    exact (congrArg frobSq e).trans (frobSq_smul' lam (s.dirW c))
  by_cases hk1 : k = 1
  · have hd := MTDState.dirW_one (c := c) hk1 (hk.resolve_left (fun h => h hk1))
    have hG' : s'.Gamma = s.Gamma := by rw [hG, hd, smul_zero, add_zero]
    have hc : moveCurvature (fun W => mtdCost c.epsilonStates c.epsilonWeights c.lags s.X W s.S
        s.orderWeights s.transitionMatrices) s.Gamma s'.Gamma = 0 := by
      rw [moveCurvature, hG', sub_self, add_zero]; ring
    rw [hc, hl, ha, hd]
    simp only [inner_zero_left, mul_zero]
    exact nextSpgAlpha_spectral _ _ _ _
  have hc := second_difference (f := fun W => mtdCost c.epsilonStates c.epsilonWeights c.lags s.X W
      s.S s.orderWeights s.transitionMatrices)
    (g := fun W H => inner H (mtdGradW c s.X W s.S s.orderWeights s.transitionMatrices))
    (q := fun H => frobSq (H * s.S) / ((D : K) * (T : K)) +
      mtdPenalty c.epsilonWeights c.lags H s.orderWeights s.transitionMatrices)
    (fun W H t => by
      simp only [mtdCost]
      rw [gpnhCost_add_W, mtdPenalty_add_W hk1, mtdGradW, inner_add_right, inner_comm H,
        inner_comm H (gradWOf _ _ _)]
      ring) hG
  rw [moveCurvature, hc, hl, ha, inner_sub_right]
  exact nextSpgAlpha_spectral _ _ _ _

/-- C111.  MTD dictionary. -/
theorem C111_mtd_dictionary (c : MTDConfig p K) (s s' : MTDState T D k p K) (hs : MTDCoherent c s)
    (h : s.updateDictionary c = Py.ok s') :
    SpectralScale c.ls.alphaMin c.ls.alphaMax (∑ i, ∑ d, (s'.S i d - s.S i d) ^ 2)
      (moveCurvature (fun S => mtdCost c.epsilonStates c.epsilonWeights c.lags s.X s.Gamma S
        s.orderWeights s.transitionMatrices) s.S s'.S) s'.alphaS := by
  obtain ⟨H, lam, hG, ha⟩ := MTDState.updateDictionary_alpha (mtdCoherent_iff.1 hs) h
  have hl : ∑ i, ∑ d, (s'.S i d - s.S i d) ^ 2 = lam ^ 2 * inner H H := by
    have e : s'.S - s.S = lam • H := by rw [hG]; abel
    exact (congrArg frobSq e).trans (frobSq_smul' lam H)
  have hc := second_difference (f := fun S => mtdCost c.epsilonStates c.epsilonWeights c.lags s.X
      s.Gamma S s.orderWeights s.transitionMatrices)
    (g := fun S H => inner H (gradSOf c.epsilonStates s.X s.Gamma S))
    (q := fun H => gpnhCost c.epsilonStates 0 s.Gamma H)
    (fun S H t => by
      simp only [mtdCost]
      rw [gpnhCost_add_S, inner_comm]
      ring) hG
  rw [moveCurvature, hc, hl, ha, inner_sub_right]
  exact nextSpgAlpha_spectral _ _ _ _

/-- C111.  MTD parameters: order weights and transition matrices move together and share the scale.
The objective is quadratic in each of the two, not in the pair: the curvature is the change, between
the two ends of the move, of the sum of the slopes in each. -/
theorem C111_mtd_parameters (hk : k ≠ 1) (c : MTDConfig p K) (s s' : MTDState T D k p K)
    (hs : MTDCoherent c s) (h : s.updateParameters c = Py.ok s') :
    let f := fun w A => mtdCost c.epsilonStates c.epsilonWeights c.lags s.X s.Gamma s.S w A
    let dw := s'.orderWeights - s.orderWeights
    let dA := s'.transitionMatrices - s.transitionMatrices
    SpectralScale c.ls.alphaMin c.ls.alphaMax
      (∑ i, (s'.orderWeights i - s.orderWeights i) ^ 2 +
        ∑ i, ∑ j, ∑ l, (s'.transitionMatrices i j l - s.transitionMatrices i j l) ^ 2)
      ((moveSlope (fun w => f w s'.transitionMatrices) s'.orderWeights dw +
          moveSlope (fun A => f s'.orderWeights A) s'.transitionMatrices dA) -
        (moveSlope (fun w => f w s.transitionMatrices) s.orderWeights dw +
          moveSlope (fun A => f s.orderWeights A) s.transitionMatrices dA)) s'.alphaParameters := by
  obtain ⟨v, B, lam, hw, hA, ha⟩ := MTDState.updateParameters_alpha (mtdCoherent_iff.1 hs) h
  intro f dw dA
  have edw : dw = lam • v := by simp only [dw]; rw [hw]; abel
  have edA : dA = lam • B := by simp only [dA]; rw [hA]; abel
  have h1 : ∀ w A, moveSlope (fun w => f w A) w dw =
      lam * vecMulSum v (mtdGradOW c.epsilonWeights c.lags s.Gamma w A) := fun w A => by
    rw [moveSlope, edw]
    exact central_difference (f := fun w => f w A)
      (g := fun w v => vecMulSum v (mtdGradOW c.epsilonWeights c.lags s.Gamma w A))
      (q := fun v => mtdCoef T k c.epsilonWeights c.lags * frobSq (mtdPred c.lags s.Gamma v A))
      (fun w v t => by
        simp only [f, mtdCost]
        rw [mtdPenalty_add_w hk]
        ring) w v lam
  have h2 : ∀ w A, moveSlope (fun A => f w A) A dA =
      lam * mulSum3 B (mtdGradTM c.epsilonWeights c.lags s.Gamma w A) := fun w A => by
    rw [moveSlope, edA]
    exact central_difference (f := fun A => f w A)
      (g := fun A B => mulSum3 B (mtdGradTM c.epsilonWeights c.lags s.Gamma w A))
      (q := fun B => mtdCoef T k c.epsilonWeights c.lags * frobSq (mtdPred c.lags s.Gamma w B))
      (fun A B t => by
        simp only [f, mtdCost]
        rw [mtdPenalty_add_A hk]
        ring) A B lam
  have hl : (∑ i, (s'.orderWeights i - s.orderWeights i) ^ 2 +
        ∑ i, ∑ j, ∑ l, (s'.transitionMatrices i j l - s.transitionMatrices i j l) ^ 2) =
      lam ^ 2 * (vecMulSum v v + mulSum3 B B) := by
    have e1 : ∀ i, s'.orderWeights i - s.orderWeights i = lam * v i := fun i =>
      congrFun edw i
    have e2 : ∀ i j l, s'.transitionMatrices i j l - s.transitionMatrices i j l = lam * B i j l :=
      fun i j l => congrFun (congrFun (congrFun edA i) j) l
    simp only [e1, e2]
    unfold vecMulSum mulSum3 mulSum
    rw [mul_add, Finset.mul_sum, Finset.mul_sum]
    refine congrArg₂ (· + ·) (Finset.sum_congr rfl fun i _ => by ring)
      (Finset.sum_congr rfl fun i _ => ?_)
    rw [Finset.mul_sum]
    refine Finset.sum_congr rfl fun j _ => ?_
    rw [Finset.mul_sum]
    exact Finset.sum_congr rfl fun l _ => by ring
  rw [h1, h1, h2, h2, hl, ha]
  refine (congrArg (fun x => SpectralScale _ _ _ x _) ?_).mp (nextSpgAlpha_spectral _ _ _ _)
  have e3 : ∀ a b : Fin p → K, vecMulSum v (a - b) = vecMulSum v a - vecMulSum v b := fun a b => by
    unfold vecMulSum
    rw [← Finset.sum_sub_distrib]
    exact Finset.sum_congr rfl fun i _ => by rw [Pi.sub_apply]; ring
  have e4 : ∀ a b : Fin p → Matrix (Fin k) (Fin k) K,
      mulSum3 B (a - b) = mulSum3 B a - mulSum3 B b := fun a b => by
    unfold mulSum3 mulSum
    simp only [← Finset.sum_sub_distrib]
    refine Finset.sum_congr rfl fun i _ => Finset.sum_congr rfl fun j _ =>
      Finset.sum_congr rfl fun l _ => ?_
    show B i j l * (a i j l - b i j l) = _
    ring
  rw [e3, e4]
  ring

/-- C111.  The parameters of the reduced order model fitted to given weights. -/
theorem C111_crom_parameters (hk : k ≠ 1) (c : CROMConfig p K) (s s' : CROMState T k p K)
    (hs : CROMCoherent c s) (h : s.updateParameters c = Py.ok s') :
    let f := fun w A => mtdPenalty 1 c.lags s.Gamma w A
    let dw := s'.orderWeights - s.orderWeights
    let dA := s'.transitionMatrices - s.transitionMatrices
    SpectralScale c.ls.alphaMin c.ls.alphaMax
      (∑ i, (s'.orderWeights i - s.orderWeights i) ^ 2 +
        ∑ i, ∑ j, ∑ l, (s'.transitionMatrices i j l - s.transitionMatrices i j l) ^ 2)
      ((moveSlope (fun w => f w s'.transitionMatrices) s'.orderWeights dw +
          moveSlope (fun A => f s'.orderWeights A) s'.transitionMatrices dA) -
        (moveSlope (fun w => f w s.transitionMatrices) s.orderWeights dw +
          moveSlope (fun A => f s.orderWeights A) s.transitionMatrices dA)) s'.alphaParameters := by
  have := C111_mtd_parameters hk c.toMTD (s.toMTD c) (s'.toMTD c)
    (mtdCoherent_iff.2 (crom_good_iff.2 hs)) (CROMState.updateParameters_ok h)
  have e : (fun w A => mtdCost c.toMTD.epsilonStates c.toMTD.epsilonWeights c.toMTD.lags
      (s.toMTD c).X (s.toMTD c).Gamma (s.toMTD c).S w A) =
      fun w A => mtdPenalty 1 c.lags s.Gamma w A := by
    funext w A
    exact mtdCost_crom _ _ _ _
  simp only at this
  have e' : ∀ w A, mtdCost c.toMTD.epsilonStates c.toMTD.epsilonWeights c.toMTD.lags
      (s.toMTD c).X (s.toMTD c).Gamma (s.toMTD c).S w A = mtdPenalty 1 c.lags s.Gamma w A :=
    fun w A => congrFun (congrFun e w) A
  simp only [e'] at this
  exact this

/-- C111.  The step along the scale factors of kernel archetypal analysis always gets the largest
scale: the factors are never moved, so that the two gradients compared are equal. -/
theorem C111_kaa_scale_factors (cfg : LSConfig K) (delta : K) (hd : 0 < delta)
    (s s' : KAAState n k K) (h : s.updateDictionary cfg delta = Py.ok s') :
    s'.alphaAlpha = cfg.alphaMax := by
  unfold KAAState.updateDictionary at h
  obtain ⟨s1, -, h⟩ := Py.bind_eq_ok.1 h
  rw [if_pos hd] at h
  unfold KAAState.updateScaleFactors at h
  obtain ⟨⟨s2, lam⟩, hr, h⟩ := Py.bind_eq_ok.1 h
  obtain ⟨m, h2, -⟩ := KAAState.scaleFactorsLineSearch_ok hr
  simp only [Py.pure_eq, Py.ok.injEq] at h h2
  subst h
  have e : s2.updateScaleFactorsGradient.gradAlpha = s2.gradAlpha := by rw [h2]; rfl
  simp only [e, sub_self, mul_zero, Finset.sum_const_zero]
  exact if_pos le_rfl

/-- C111 at work: one sample and one component.  The objective `(1 - x) ^ 2` has second derivative
2; after any dictionary update that moves, the scale is one half. -/
example : ∃ s' : GPNHState 1 1 1 ℚ,
    (GPNHState.initializeWorkspace demoLS !![1] !![1] !![0]).updateDictionary demoLS 0 = Py.ok s' ∧
    s'.S ≠ !![0] ∧ s'.alphaS = 1 / 2 := by
  obtain ⟨s', hs'⟩ := (C09_gpnh demoLS (by norm_num [demoLS]) 219 (by norm_num [demoLS]) 0
    (GPNHState.initializeWorkspace demoLS !![1] !![1] (!![0] : Matrix (Fin 1) (Fin 1) ℚ))).1
    (by simp [GPNHState.initializeWorkspace, demoLS])
  have hne : s'.S ≠ !![0] := fun h0 => by
    have := (C86_gpnh_dictionary_fixed_iff_optimal demoLS (by norm_num [demoLS]) 0 le_rfl _ _
      (by norm_num [GPNHState.initializeWorkspace]) hs').1 h0 !![1]
    norm_num [GPNHState.initializeWorkspace, gpnhCost_eq, frobSq, Matrix.mul_apply] at this
  have key := C111_gpnh_dictionary demoLS 0 _ _ hs'
  obtain ⟨x, hx⟩ : ∃ x : ℚ, s'.S = !![x] := ⟨s'.S 0 0, by ext i j; fin_cases i; fin_cases j; rfl⟩
  have hx0 : x ≠ 0 := fun h => hne (by rw [hx, h])
  have hx2 : 0 < 2 * x ^ 2 := by positivity
  rw [hx] at key
  have hc : moveCurvature (fun S => gpnhCost (0 : ℚ) !![1] !![1] S) !![0] !![x] = 2 * x ^ 2 := by
    norm_num [moveCurvature, gpnhCost_eq, frobSq, Matrix.mul_apply]
    ring
  have h1 := key.2 (hc.symm ▸ hx2)
  refine ⟨s', hs', hne, h1.trans ?_⟩
  have hl : (∑ i : Fin 1, ∑ d : Fin 1, ((!![x] : Matrix (Fin 1) (Fin 1) ℚ) i d -
      (GPNHState.initializeWorkspace demoLS !![1] !![1] (!![0] : Matrix (Fin 1) (Fin 1) ℚ)).S i d) ^ 2) =
      x ^ 2 := by
    simp [GPNHState.initializeWorkspace]
  rw [hl]
  refine (congrArg (fun c => min demoLS.alphaMax (max demoLS.alphaMin (x ^ 2 / c))) hc).trans ?_
  have : x ^ 2 / (2 * x ^ 2) = 1 / 2 := by field_simp
  simp only [this]
  norm_num [demoLS]

/-- C111: updates of states of a fit as required. -/
example : (∃ s s' t' : KAAState 3 2 ℚ, KAAReach demoLS (1/2) demoKernel s ∧
      s.updateWeights demoLS (1/2) = Py.ok s' ∧ s.updateDictionary demoLS (1/2) = Py.ok t' ∧
      SpectralScale demoLS.alphaMin demoLS.alphaMax (∑ t, ∑ i, (s'.S t i - s.S t i) ^ 2)
        (moveCurvature (fun W => kaaCost demoKernel W s.C) s.S s'.S) s'.alphaS ∧
      t'.alphaAlpha = demoLS.alphaMax) ∧
    ∃ s' : MTDState 3 1 2 2 ℚ, mtdDemoState.updateParameters mtdDemoConfig = Py.ok s' ∧
      MTDCoherent mtdDemoConfig mtdDemoState := by
  refine ⟨?_, ?_⟩
  · have h0 : KAAReach demoLS (1/2) demoKernel
      (KAAState.initializeWorkspace demoLS demoKernel !![1, 0; 1/2, 1/2; 0, 1]
        !![1, 0, 0; 0, 0, 1]) := .start _ _
    obtain ⟨⟨s1, h1⟩, ⟨s2, h2⟩⟩ := C09_kaa demoLS (by norm_num [demoLS]) 219
      (by norm_num [demoLS]) (by norm_num [demoLS]) _ _ _ h0
    exact ⟨_, s2, s1, h0, h2, h1, C111_kaa_weights demoLS (1/2) demoKernel demoKernel_symm _ _ h0 h2,
      C111_kaa_scale_factors demoLS (1/2) (by norm_num) _ _ h1⟩
  · have := (C09_mtd mtdDemoConfig (by norm_num [mtdDemoConfig, demoLS]) 219
      (by norm_num [mtdDemoConfig, demoLS]) mtdDemoState).2.2
      (by simp [mtdDemoState, MTDState.initializeWorkspace, mtdDemoConfig, demoLS,
        MTDState.updatePredictedWeights, GPNHState.initializeWorkspace])
    rcases this with h | h
    · obtain ⟨s', h'⟩ := h.2
      exact ⟨s', h', mtdDemo_coherent⟩
    · exact absurd h.1 (by decide)

end Reor
