import Verif.Proofs.ConvergeKAA
import Verif.Proofs.GPNHFit

/-!
GPNH fits that stop are nearly optimal in each factor.
-/

namespace Reor

set_option linter.unusedSectionVars false

open scoped BigOperators Matrix
open Spec

variable {K : Type} [Field K] [LinearOrder K] [IsStrictOrderedRing K]
variable {T D k : ℕ}

/-! ### Dictionaries of bounded cost are bounded -/

theorem sum_sq_rowStochastic {m n : ℕ} {A : Matrix (Fin m) (Fin n) K} (hA : RowStochastic A)
    (i : Fin m) : ∑ j, A i j ^ 2 ≤ 1 := by
  rw [← (hA i).2]
  refine Finset.sum_le_sum fun j _ => ?_
  have h0 := (hA i).1 j
  have h1 : A i j ≤ 1 := by
    rw [← (hA i).2]
    exact Finset.single_le_sum (f := fun j => A i j) (fun j _ => (hA i).1 j) (Finset.mem_univ j)
  simp only at h0 h1 ⊢
  nlinarith

/-- A dictionary is bounded by a reconstruction and the distances of its elements. -/
theorem frobSq_dictionary_le {W : Matrix (Fin T) (Fin k) K} (hW : RowStochastic W)
    (S : Matrix (Fin k) (Fin D) K) (t : Fin T) :
    frobSq S ≤ 2 * k * frobSq (W * S) +
      2 * ∑ i, ∑ j, sqDist (fun d => S i d) (fun d => S j d) := by
  have hrow : ∀ j, ∑ d, S j d ^ 2 ≤ 2 * frobSq (W * S) +
      2 * ∑ i, sqDist (fun d => S i d) (fun d => S j d) := by
    intro j
    have h1 : ∀ d, S j d ^ 2 ≤ 2 * (W * S) t d ^ 2 + 2 * ∑ i, (S i d - S j d) ^ 2 := by
      intro d
      have e : S j d = (W * S) t d - ∑ i, W t i * (S i d - S j d) := by
        simp only [mul_sub, Finset.sum_sub_distrib, ← Finset.sum_mul, (hW t).2, Matrix.mul_apply]
        ring
      have hcs := Finset.sum_mul_sq_le_sq_mul_sq Finset.univ (fun i => W t i)
        (fun i => S i d - S j d)
      have h2 : (∑ i, W t i ^ 2) * ∑ i, (S i d - S j d) ^ 2 ≤ 1 * ∑ i, (S i d - S j d) ^ 2 :=
        mul_le_mul_of_nonneg_right (sum_sq_rowStochastic hW t)
          (Finset.sum_nonneg fun i _ => sq_nonneg _)
      have h3 := (hcs.trans h2)
      rw [one_mul] at h3
      conv_lhs => rw [e]
      nlinarith [sq_nonneg ((W * S) t d + ∑ i, W t i * (S i d - S j d))]
    refine (Finset.sum_le_sum fun d _ => h1 d).trans ?_
    rw [Finset.sum_add_distrib, ← Finset.mul_sum, ← Finset.mul_sum]
    refine add_le_add (mul_le_mul_of_nonneg_left ?_ (by norm_num))
      (mul_le_mul_of_nonneg_left (le_of_eq ?_) (by norm_num))
    · unfold frobSq
      exact Finset.single_le_sum (f := fun t => ∑ d, (W * S) t d ^ 2)
        (fun t _ => Finset.sum_nonneg fun d _ => sq_nonneg _) (Finset.mem_univ t)
    · unfold sqDist
      rw [Finset.sum_comm]
  have : frobSq S ≤ ∑ j : Fin k, (2 * frobSq (W * S) +
      2 * ∑ i, sqDist (fun d => S i d) (fun d => S j d)) :=
    Finset.sum_le_sum fun j _ => hrow j
  refine this.trans (le_of_eq ?_)
  rw [Finset.sum_add_distrib, Finset.sum_const, Finset.card_univ, Fintype.card_fin, nsmul_eq_mul,
    ← Finset.mul_sum, Finset.sum_comm]
  ring

/-- A bound for the dictionaries of cost at most `c`, if there is a positive penalty or only one
element. -/
theorem gpnh_level_bound {eps : K} (he : 0 < eps ∨ (0 ≤ eps ∧ k = 1)) (hDT : D * T ≠ 0)
    (X : Matrix (Fin T) (Fin D) K) {c : K} {W : Matrix (Fin T) (Fin k) K}
    {S : Matrix (Fin k) (Fin D) K} (hW : RowStochastic W) (h : gpnhCost eps X W S ≤ c) :
    frobSq S ≤ 4 * k * (frobSq X + c * (D * T)) + 2 * (c * (k * (k - 1) * D) / eps) := by
  have hD : 0 < D := Nat.pos_of_ne_zero fun h => hDT (by simp [h])
  have hT : 0 < T := Nat.pos_of_ne_zero fun h => hDT (by simp [h])
  have hD' : (0 : K) < D := by exact_mod_cast hD
  have hT' : (0 : K) < T := by exact_mod_cast hT
  have he0 : 0 ≤ eps := by rcases he with h | h; exacts [h.le, h.1]
  have hpd := GPNHState.pen_denominator_nonneg (K := K) k D
  have hsplit : gpnhCost eps X W S = frobSq (X - W * S) / ((D : K) * (T : K)) +
    eps * ((∑ i, ∑ j, sqDist (fun d => S i d) (fun d => S j d)) /
        ((k : K) * ((k : K) - 1) * (D : K))) := rfl
  have hfit0 : 0 ≤ frobSq (X - W * S) / ((D : K) * (T : K)) :=
    div_nonneg (frobSq_nonneg _) (by positivity)
  have hpair : (0 : K) ≤ (∑ i, ∑ j, sqDist (fun d => S i d) (fun d => S j d)) /
        ((k : K) * ((k : K) - 1) * (D : K)) :=
    div_nonneg (Finset.sum_nonneg fun i _ => Finset.sum_nonneg fun j _ =>
      Finset.sum_nonneg fun d _ => sq_nonneg _) hpd
  have hpen := mul_nonneg he0 hpair
  rw [hsplit] at h
  have hc : 0 ≤ c := by linarith
  have h1 : ∑ i, ∑ j, sqDist (fun d => S i d) (fun d => S j d) ≤ c * (k * (k - 1) * D) / eps := by
    by_cases hk : k ≤ 1
    · refine le_trans (le_of_eq (Finset.sum_eq_zero fun i _ => Finset.sum_eq_zero fun j _ => ?_))
        (div_nonneg (mul_nonneg hc hpd) he0)
      have : i = j := Fin.ext (by omega)
      subst this
      simp [sqDist]
    · have hk' : (1 : K) < k := by exact_mod_cast (not_le.1 hk)
      have hden : (0 : K) < (k : K) * ((k : K) - 1) * (D : K) :=
        mul_pos (mul_pos (by linarith) (by linarith)) hD'
      have hpos : 0 < eps := by
        rcases he with h | h
        · exact h
        · omega
      rw [le_div_iff₀ hpos]
      have h2 : eps * ((∑ i, ∑ j, sqDist (fun d => S i d) (fun d => S j d)) /
          ((k : K) * ((k : K) - 1) * (D : K))) ≤ c := by linarith
      rw [mul_div_assoc', div_le_iff₀ hden] at h2
      linarith
  have h2 : frobSq (X - W * S) / ((D : K) * (T : K)) ≤ c := by linarith
  rw [div_le_iff₀ (by positivity)] at h2
  have h3 : frobSq (W * S) ≤ 2 * frobSq X + 2 * (c * (D * T)) := by
    have := frobSq_add_le X (-(X - W * S))
    rw [frobSq_neg, show X + -(X - W * S) = W * S by abel] at this
    linarith
  have h4 := frobSq_dictionary_le hW S ⟨0, hT⟩
  have h5 : 2 * (k : K) * frobSq (W * S) ≤ 2 * k * (2 * frobSq X + 2 * (c * (D * T))) :=
    mul_le_mul_of_nonneg_left h3 (by positivity)
  linarith

theorem gpnhCost_nonneg' {eps : K} (he : 0 ≤ eps) (X : Matrix (Fin T) (Fin D) K)
    (W : Matrix (Fin T) (Fin k) K) (S : Matrix (Fin k) (Fin D) K) : 0 ≤ gpnhCost eps X W S := by
  rw [gpnhCost_eq]
  have h1 := frobSq_nonneg (X - W * S)
  have h2 := inner_centring_nonneg S
  have h3 := GPNHState.pen_denominator_nonneg (K := K) k D
  positivity

/-! ### Bounds of the gradients -/

theorem gradWOf_bound (X : Matrix (Fin T) (Fin D) K) (k : ℕ) {R : K} (hR : 0 ≤ R) :
    ∃ g : K, 0 ≤ g ∧ ∀ (W : Matrix (Fin T) (Fin k) K) (S : Matrix (Fin k) (Fin D) K),
      RowStochastic W → frobSq S ≤ R → frobSq (gradWOf X W S) ≤ g ^ 2 := by
  have hX := frobSq_nonneg X
  obtain ⟨g, hg, hg2⟩ := exists_sq_ge (K := K)
    (M := 2 * ((-2 / ((D : K) * (T : K))) ^ 2 * (frobSq X * R)) +
      2 * ((2 / ((D : K) * (T : K))) ^ 2 * (T * (R * R)))) (by positivity)
  refine ⟨g, hg, fun W S hW hS => le_trans ?_ hg2⟩
  unfold gradWOf
  refine (frobSq_add_le _ _).trans ?_
  rw [frobSq_smul, frobSq_smul]
  have hSt : frobSq Sᵀ ≤ R := by rw [frobSq_transpose]; exact hS
  have h1 : frobSq (X * Sᵀ) ≤ frobSq X * R := frobSq_mul_le_of le_rfl hSt
  have h2 : frobSq (W * (S * Sᵀ)) ≤ T * (R * R) :=
    frobSq_mul_le_of (frobSq_rowStochastic hW) (frobSq_mul_le_of hS hSt)
  have h3 := mul_le_mul_of_nonneg_left h1 (sq_nonneg (-2 / ((D : K) * (T : K))))
  have h4 := mul_le_mul_of_nonneg_left h2 (sq_nonneg (2 / ((D : K) * (T : K))))
  linarith

/-! ### Progress of the updates -/

/-- A state between the statements of a fit to `X`, of bounded cost, dictionary and step scales. -/
structure GPNHState.Steady (X : Matrix (Fin T) (Fin D) K) (eps a0 a1 B R : K)
    (s : GPNHState T D k K) : Prop where
  data : s.X = X
  SSt : s.SSt = s.S * s.Sᵀ
  stoch : RowStochastic s.Gamma
  cost : gpnhCost eps X s.Gamma s.S ≤ B
  bound : frobSq s.S ≤ R
  alphaS : a0 ≤ s.alphaS ∧ s.alphaS ≤ a1
  alphaGamma : a0 ≤ s.alphaGamma ∧ s.alphaGamma ≤ a1
  memS : ∃ m, s.fSMem = [m]
  memG : ∃ m, s.fGammaMem = [m]

namespace GPNHState

theorem updateWeights_progress {cfg : LSConfig K} (hd : cfg.Descends) (hk : 1 ≤ k) {eps : K}
    {a1 b L m0 : K} {s s' : GPNHState T D k K} (hW : RowStochastic s.Gamma)
    (ha : 0 < s.alphaGamma) (ha1 : s.alphaGamma ≤ a1) (hm : s.fGammaMem = [m0])
    (hL : lipW s.S T ≤ L)
    (hb0 : 0 < b) (hb1 : b ≤ 1) (hb2 : b ≤ cfg.sigmaOne) (hb3 : 2 * b * (a1 * L) ≤ 1 - cfg.gamma)
    (hbt : cfg.stepSizeTolerance ≤ b)
    (h : s.updateWeights cfg eps = Py.ok s') :
    gpnhCost eps s'.X s'.Gamma s'.S ≤ gpnhCost eps s.X s.Gamma s.S - cfg.gamma * b / a1 *
      frobSq (simplexProjectRows (s.Gamma - s.alphaGamma • gradWOf s.X s.Gamma s.S) - s.Gamma) := by
  unfold updateWeights weightsLineSearch at h
  simp only [prepareWeights_eq] at h
  obtain ⟨⟨s1, lam⟩, hr, h⟩ := Py.bind_eq_ok.1 h
  obtain ⟨r, hr, h'⟩ := Py.bind_eq_ok.1 hr
  simp only [Py.pure_eq, Py.ok.injEq, Prod.mk.injEq] at h' h
  obtain ⟨-, -, -, he, -⟩ := lineSearch_spec (weightsTrial_retriable eps) hr
  rw [hm] at hr
  set g := gradWOf s.X s.Gamma s.S with hg
  set d := simplexProjectRows (s.Gamma - s.alphaGamma • g) - s.Gamma with hdd
  have hslope := projected_slope (G := g) hk hW s.alphaGamma
  rw [← hdd] at hslope
  have hprog := lineSearch_progress hd.sigmaOne hd.sigmaTwo hd.gamma0.le
    (weightsTrial_retriable eps) (q := frobSq (d * s.S) / ((D : K) * (T : K))) (L := L)
    (N := frobSq d) (fun lam => by
      simp only [weightsTrial]
      rw [evaluateCost_eq _ _ rfl, evaluateCost_eq _ _ rfl, gpnhCost_add_W]
      simp only
      rw [inner_comm, mulSum_eq_inner]) ha ha1 (by rw [mulSum_eq_inner]; exact hslope)
    (frobSq_nonneg _) ((lipW_nonneg s.S).trans hL)
    ((curvature_W_le d s.S).trans (mul_le_mul_of_nonneg_right hL (frobSq_nonneg _)))
    hb0 hb1 hb2 hb3 hbt hr
  have hcost : r.cost = (weightsTrial eps _ r.stepSize).2 := (congrArg Prod.snd he).symm
  have hstate : r.state = (weightsTrial eps _ r.stepSize).1 := (congrArg Prod.fst he).symm
  simp only [weightsTrial] at hstate hcost
  rw [evaluateCost_eq _ _ rfl] at hcost hprog
  obtain ⟨hs1, hlam⟩ := h'
  subst hlam
  rw [hstate] at hs1
  subst hs1
  subst h
  rw [hcost] at hprog
  exact hprog

theorem updateDictionary_progress {cfg : LSConfig K} (hd : cfg.Descends) {eps : K}
    {a1 b L m0 : K} {s s' : GPNHState T D k K}
    (ha : 0 < s.alphaS) (ha1 : s.alphaS ≤ a1) (hm : s.fSMem = [m0])
    (hL : lipS eps s.Gamma D ≤ L)
    (hb0 : 0 < b) (hb1 : b ≤ 1) (hb2 : b ≤ cfg.sigmaOne) (hb3 : 2 * b * (a1 * L) ≤ 1 - cfg.gamma)
    (hbt : cfg.stepSizeTolerance ≤ b)
    (h : s.updateDictionary cfg eps = Py.ok s') :
    gpnhCost eps s'.X s'.Gamma s'.S ≤ gpnhCost eps s.X s.Gamma s.S - cfg.gamma * b / a1 *
      (s.alphaS ^ 2 * frobSq (gradSOf eps s.X s.Gamma s.S)) := by
  unfold updateDictionary dictionaryLineSearch at h
  simp only [prepareDictionary_eq] at h
  obtain ⟨⟨s1, lam⟩, hr, h⟩ := Py.bind_eq_ok.1 h
  obtain ⟨r, hr, h'⟩ := Py.bind_eq_ok.1 hr
  simp only [Py.pure_eq, Py.ok.injEq, Prod.mk.injEq] at h' h
  obtain ⟨-, -, -, he, -⟩ := lineSearch_spec (dictionaryTrial_retriable eps) hr
  rw [hm] at hr
  set g := gradSOf eps s.X s.Gamma s.S with hg
  set d := -(s.alphaS • g) with hdd
  have hslope : frobSq d + s.alphaS * inner d g ≤ 0 := by
    rw [hdd, frobSq_neg, frobSq_smul, inner_neg_left, inner_smul_left, ← frobSq_eq_inner]
    nlinarith
  have hN : s.alphaS ^ 2 * frobSq g = frobSq d := by rw [hdd, frobSq_neg, frobSq_smul]
  have hprog := lineSearch_progress hd.sigmaOne hd.sigmaTwo hd.gamma0.le
    (dictionaryTrial_retriable eps) (q := gpnhCost eps 0 s.Gamma d) (L := L)
    (N := frobSq d) (fun lam => by
      simp only [dictionaryTrial]
      rw [evaluateCost_eq _ _ rfl, evaluateCost_eq _ _ rfl, gpnhCost_add_S]
      simp only
      rw [inner_comm, mulSum_eq_inner]) ha ha1 (by rw [mulSum_eq_inner]; exact hslope)
    (frobSq_nonneg _) ((lipS_nonneg eps s.Gamma).trans hL)
    ((curvature_S_le eps s.Gamma d).trans (mul_le_mul_of_nonneg_right hL (frobSq_nonneg _)))
    hb0 hb1 hb2 hb3 hbt hr
  have hcost : r.cost = (dictionaryTrial eps _ r.stepSize).2 := (congrArg Prod.snd he).symm
  have hstate : r.state = (dictionaryTrial eps _ r.stepSize).1 := (congrArg Prod.fst he).symm
  simp only [dictionaryTrial] at hstate hcost
  rw [evaluateCost_eq _ _ rfl] at hcost hprog
  obtain ⟨hs1, hlam⟩ := h'
  subst hlam
  rw [hstate] at hs1
  subst hs1
  rw [updateDictionaryGradient_eq] at h
  subst h
  rw [hcost] at hprog
  rw [hN]
  exact hprog

end GPNHState

/-! ### What one phase achieves -/

/-- Constants such that a phase which lowers the cost by less than `tol` was nearly optimal. -/
structure GPNHConst (cfg : LSConfig K) (X : Matrix (Fin T) (Fin D) K) (k : ℕ) (eps : K)
    (ε a0 a1 B R tol : K) (ud : Bool) : Prop where
  dictionary : ud = true → ∀ (s s' : GPNHState T D k K), s.Steady X eps a0 a1 B R →
    s.updateDictionary cfg eps = Py.ok s' →
    s'.Steady X eps a0 a1 B R ∧ s'.Gamma = s.Gamma ∧
    gpnhCost eps X s'.Gamma s'.S ≤ gpnhCost eps X s.Gamma s.S ∧
    (gpnhCost eps X s.Gamma s.S - gpnhCost eps X s'.Gamma s'.S < tol →
      ∀ S, gpnhCost eps X s.Gamma s.S ≤ gpnhCost eps X s.Gamma S + ε)
  weights : ∀ (s s' : GPNHState T D k K), s.Steady X eps a0 a1 B R →
    s.updateWeights cfg eps = Py.ok s' →
    s'.Steady X eps a0 a1 B R ∧ s'.S = s.S ∧
    gpnhCost eps X s'.Gamma s'.S ≤ gpnhCost eps X s.Gamma s.S ∧
    (gpnhCost eps X s.Gamma s.S - gpnhCost eps X s'.Gamma s'.S < tol →
      (∀ W, RowStochastic W → gpnhCost eps X s.Gamma s.S ≤ gpnhCost eps X W s.S + ε) ∧
      ∀ S, frobSq S ≤ R → gpnhCost eps X s.Gamma S ≤ gpnhCost eps X s'.Gamma S + ε)

/-- A bound for the sum of squares of dictionaries whose cost is at most `c`. -/
def gpnhLevel {T D : ℕ} (eps : K) (X : Matrix (Fin T) (Fin D) K) (k : ℕ) (c : K) : K :=
  4 * k * (frobSq X + c * (D * T)) + 2 * (c * (k * (k - 1) * D) / eps)

theorem gpnhLevel_nonneg {T D : ℕ} {eps : K} (he : 0 ≤ eps) (X : Matrix (Fin T) (Fin D) K) (k : ℕ)
    {c : K} (hc : 0 ≤ c) : 0 ≤ gpnhLevel eps X k c := by
  unfold gpnhLevel
  have := frobSq_nonneg X
  have := GPNHState.pen_denominator_nonneg (K := K) k D
  positivity

/-- A bound for the curvature of the cost in each factor, for dictionaries with squared entries
summing up to at most `R`. -/
def gpnhCurvature (T D k : ℕ) (eps R : K) : K :=
  1 / (D : K) + |eps| * (2 * k / ((k : K) * ((k : K) - 1) * (D : K))) + R / ((D : K) * (T : K))

theorem exists_gpnhConst {cfg : LSConfig K} (hd : cfg.Descends) (hk : 1 ≤ k)
    (X : Matrix (Fin T) (Fin D) K) {eps : K} (he : 0 ≤ eps) {ε : K} (hε : 0 < ε) {a0 a1 : K}
    (ha0 : 0 < a0) (ha1 : 0 < a1) (h0 : a0 ≤ cfg.alphaMin) (h1 : cfg.alphaMax ≤ a1) {B R : K}
    (hR : 0 ≤ R) {ud : Bool}
    (hlev : ud = true → ∀ (W : Matrix (Fin T) (Fin k) K) (S : Matrix (Fin k) (Fin D) K),
      RowStochastic W → gpnhCost eps X W S ≤ B → frobSq S ≤ R)
    (hf : cfg.Floor (a1 * gpnhCurvature T D k eps R)) :
    ∃ tol, 0 < tol ∧ GPNHConst cfg X k eps ε a0 a1 B R tol ud := by
  obtain ⟨gW, hgW, hgW2⟩ := gradWOf_bound X k hR
  obtain ⟨RW, hRW, hRW2⟩ := rowStochastic_diam (K := K) T k
  obtain ⟨ρ, hρ, hρ2⟩ := exists_sq_ge (K := K) (M := 2 * R + 2 * R) (by positivity)
  have hpd := GPNHState.pen_denominator_nonneg (K := K) k D
  set LS : K := 1 / (D : K) + |eps| * (2 * k / ((k : K) * ((k : K) - 1) * (D : K)))
    with hLSdef
  set LW : K := R / ((D : K) * (T : K)) with hLWdef
  have hLS0 : 0 ≤ LS := by have := abs_nonneg eps; positivity
  have hLW0 : 0 ≤ LW := by positivity
  set L : K := LS + LW with hLdef
  have hL : 0 ≤ L := by positivity
  obtain ⟨b, hb0, hb1, hb2, hb3, hbt⟩ := exists_step_bound hd.sigmaOne hd.gamma1
    (M := a1 * L) (by positivity) hf
  set κ : K := RW / a0 + gW + ρ / a0 + 1 with hκ
  have hRWa : 0 ≤ RW / a0 := div_nonneg hRW ha0.le
  have hρa : 0 ≤ ρ / a0 := div_nonneg hρ ha0.le
  have hκ0 : 0 < κ := by rw [hκ]; linarith
  set η : K := ε / κ with hη
  have hη0 : 0 < η := div_pos hε hκ0
  have hηκ : η * κ = ε := div_mul_cancel₀ _ hκ0.ne'
  set c : K := cfg.gamma * b / a1 with hc
  have hc0 : 0 < c := div_pos (mul_pos hd.gamma0 hb0) ha1
  have key : ∀ {f f' N : K}, f' ≤ f - c * N → f - f' < c * η ^ 2 → N ≤ η ^ 2 := by
    intro f f' N h1 h2
    have : c * N < c * η ^ 2 := by linarith
    exact (lt_of_mul_lt_mul_left this hc0.le).le
  refine ⟨c * η ^ 2, by positivity, ⟨fun hud s s' hs h => ?_, fun s s' hs h => ?_⟩⟩
  · obtain ⟨lam, hl⟩ := GPNHState.updateDictionary_post h
    obtain ⟨m0, hm⟩ := hs.memS
    have hlip : GPNHState.lipS eps s.Gamma D ≤ L := by
      have : GPNHState.lipS eps s.Gamma D ≤ LS := by
        unfold GPNHState.lipS
        rw [hLSdef]
        refine add_le_add ((div_le_div_of_nonneg_right (frobSq_rowStochastic hs.stoch)
          (by positivity)).trans ?_) le_rfl
        rcases Nat.eq_zero_or_pos T with h0 | h0
        · subst h0
          simp
        · have : (0 : K) < T := by exact_mod_cast h0
          rw [mul_comm, ← div_div, div_self this.ne']
      rw [hLdef]; linarith
    have hp := GPNHState.updateDictionary_progress hd (ha0.trans_le hs.alphaS.1) hs.alphaS.2 hm hlip
      hb0 hb1 hb2 hb3 hbt h
    rw [← hc, hl.X, hs.data] at hp
    have hle : gpnhCost eps X s'.Gamma s'.S ≤ gpnhCost eps X s.Gamma s.S := by
      have := mul_nonneg hc0.le (mul_nonneg (sq_nonneg s.alphaS)
        (frobSq_nonneg (gradSOf eps X s.Gamma s.S)))
      linarith
    have hcB := hle.trans hs.cost
    have hstoch : RowStochastic s'.Gamma := by rw [hl.Gamma]; exact hs.stoch
    refine ⟨⟨hl.X.trans hs.data, hl.SSt, hstoch, hcB, hlev hud _ _ hstoch hcB, ?_,
      by rw [hl.alphaGamma]; exact hs.alphaGamma, ⟨_, by rw [hl.fSMem, hm]; rfl⟩,
      by rw [hl.fGammaMem]; exact hs.memG⟩, hl.Gamma, hle, fun hlt S => ?_⟩
    · obtain ⟨b, q, -, hb⟩ := hl.alpha
      rw [hb]
      have := nextSpgAlpha_range (beta := b) (sksk := q) hd.alphaMax
      exact ⟨h0.trans this.1, this.2.trans h1⟩
    · rcases le_total (gpnhCost eps X s.Gamma s.S) (gpnhCost eps X s.Gamma S) with hS | hS
      · linarith
      have hSR : frobSq S ≤ R := hlev hud _ _ hs.stoch (hS.trans hs.cost)
      have hN := key hp hlt
      have hG : frobSq (gradSOf eps X s.Gamma s.S) ≤ (η / a0) ^ 2 := by
        rw [div_pow, le_div_iff₀ (by positivity)]
        refine le_trans ?_ hN
        rw [mul_comm]
        exact mul_le_mul_of_nonneg_right
          (pow_le_pow_left₀ ha0.le hs.alphaS.1 2) (frobSq_nonneg _)
      have hdist : frobSq (S - s.S) ≤ ρ ^ 2 := by
        have := frobSq_add_le S (-s.S)
        rw [frobSq_neg, ← sub_eq_add_neg] at this
        linarith [hs.bound]
      have h3 := (abs_le.1 (abs_inner_le (div_nonneg hη0.le ha0.le) hρ hG hdist)).1
      have h4 := gpnhCost_add_S eps X s.Gamma s.S (S - s.S) 1
      rw [one_smul, add_sub_cancel, one_mul, one_pow, one_mul] at h4
      have h5 := gpnhCost_convex_S he s.Gamma (S - s.S)
      have h6 : η / a0 * ρ ≤ η * κ := by
        rw [div_mul_eq_mul_div, ← mul_div_assoc']
        exact mul_le_mul_of_nonneg_left (by rw [hκ]; linarith) hη0.le
      linarith
  · obtain ⟨lam, hl⟩ := GPNHState.updateWeights_post h
    obtain ⟨m0, hm⟩ := hs.memG
    have hlip : GPNHState.lipW s.S T ≤ L := by
      have : GPNHState.lipW s.S T ≤ LW := by
        unfold GPNHState.lipW
        rw [hLWdef]
        exact div_le_div_of_nonneg_right hs.bound (by positivity)
      rw [hLdef]; linarith
    have hp := GPNHState.updateWeights_progress hd hk hs.stoch (ha0.trans_le hs.alphaGamma.1)
      hs.alphaGamma.2 hm hlip hb0 hb1 hb2 hb3 hbt h
    rw [← hc, hl.X, hs.data] at hp
    have hle : gpnhCost eps X s'.Gamma s'.S ≤ gpnhCost eps X s.Gamma s.S := by
      have := mul_nonneg hc0.le (frobSq_nonneg
        (simplexProjectRows (s.Gamma - s.alphaGamma • gradWOf X s.Gamma s.S) - s.Gamma))
      linarith
    have hlam0 := (hl.pos hd.sigmaOne hd.sigmaTwo).le
    have hlam1 := hl.le hd.sigmaOne hd.sigmaTwo
    refine ⟨⟨hl.X.trans hs.data, by rw [hl.SSt, hl.S], ?_, hle.trans hs.cost,
      by rw [hl.S]; exact hs.bound, by rw [hl.alphaS]; exact hs.alphaS, ?_,
      by rw [hl.fSMem]; exact hs.memS, ⟨_, by rw [hl.fGammaMem, hm]; rfl⟩⟩, hl.S, hle,
      fun hlt => ⟨fun W hW => ?_, fun S hS => ?_⟩⟩
    · rw [hl.Gamma]
      exact rowStochastic_step hs.stoch (projectRows_rowStochastic hk _) hlam0 hlam1
    · obtain ⟨b, q, -, hb⟩ := hl.alpha
      rw [hb]
      have := nextSpgAlpha_range (beta := b) (sksk := q) hd.alphaMax
      exact ⟨h0.trans this.1, this.2.trans h1⟩
    · have hN := key hp hlt
      have := near_optimal_of_short (f := fun W => gpnhCost eps X W s.S)
        (q := fun H => frobSq (H * s.S) / ((D : K) * (T : K))) hk
        (fun H t => by rw [gpnhCost_add_W, inner_comm])
        (fun H => div_nonneg (frobSq_nonneg _) (by positivity)) ha0 hs.alphaGamma.1
        hη0.le hgW hRW hN (hgW2 _ _ hs.stoch hs.bound) hRW2 hW
      refine this.trans ?_
      have : η * (RW / a0 + gW) ≤ η * κ := mul_le_mul_of_nonneg_left (by rw [hκ]; linarith) hη0.le
      linarith
    · have hN := key hp hlt
      rw [hl.Gamma, hs.data, gpnhCost_add_W, inner_comm]
      have h3 := (abs_le.1 (abs_inner_le hη0.le hgW hN (hgW2 _ _ hs.stoch hS))).1
      have h5 : 0 ≤ lam ^ 2 * (frobSq ((simplexProjectRows
          (s.Gamma - s.alphaGamma • gradWOf X s.Gamma s.S) - s.Gamma) * S) /
          ((D : K) * (T : K))) :=
        mul_nonneg (sq_nonneg lam) (div_nonneg (frobSq_nonneg _) (by positivity))
      have h7 := mul_le_mul_of_nonneg_left h3 hlam0
      have h8 : lam * (η * gW) ≤ 1 * (η * gW) :=
        mul_le_mul_of_nonneg_right hlam1 (mul_nonneg hη0.le hgW)
      have h9 : η * gW ≤ η * κ := mul_le_mul_of_nonneg_left (by rw [hκ]; linarith) hη0.le
      linarith

/-! ### Complete loops -/

/-- Each enabled factor is optimal up to `ε` given the other. -/
def GPNHState.NearOptimal (X : Matrix (Fin T) (Fin D) K) (eps ε : K) (ud uw : Bool)
    (s : GPNHState T D k K) : Prop :=
  (ud = true → ∀ S, gpnhCost eps X s.Gamma s.S ≤ gpnhCost eps X s.Gamma S + ε) ∧
  (uw = true → ∀ W, RowStochastic W → gpnhCost eps X s.Gamma s.S ≤ gpnhCost eps X W s.S + ε)

theorem gpnh_iteration_near {cfg : LSConfig K} {X : Matrix (Fin T) (Fin D) K}
    {eps ε a0 a1 B R tol : K} {ud : Bool} (hε : 0 < ε)
    (hc : GPNHConst cfg X k eps ε a0 a1 B R tol ud)
    (hlev : ud = true → ∀ (W : Matrix (Fin T) (Fin k) K) (S : Matrix (Fin k) (Fin D) K),
      RowStochastic W → gpnhCost eps X W S ≤ B → frobSq S ≤ R) {require uw : Bool} {t : K}
    (ht : t ≤ tol) :
    ∀ (s : GPNHState T D k K) c r, s.Steady X eps a0 a1 B R →
      (fun s : GPNHState T D k K => (s, s.evaluateCost eps)) s = (s, c) →
      runPhases (fun s : GPNHState T D k K => (s, s.evaluateCost eps)) require c
        ((if ud then [GPNHState.updateDictionary cfg eps] else []) ++
        (if uw then [GPNHState.updateWeights cfg eps] else [])) s c = Py.ok r →
      r.1.Steady X eps a0 a1 B R ∧
        (fun s : GPNHState T D k K => (s, s.evaluateCost eps)) r.1 = (r.1, r.2) ∧ r.2 ≤ c ∧
        (c - r.2 < t → r.1.NearOptimal X eps (ε + ε) ud uw) := by
  intro s c r hs hcs h
  have hcost : ∀ x : GPNHState T D k K, x.Steady X eps a0 a1 B R →
      x.evaluateCost eps = gpnhCost eps X x.Gamma x.S := by
    intro x hx
    rw [GPNHState.evaluateCost_eq _ _ hx.SSt, hx.data]
  have hc0 : c = gpnhCost eps X s.Gamma s.S := by
    rw [← hcost s hs]
    exact (congrArg Prod.snd hcs).symm
  cases ud <;> cases uw
  · simp only [Bool.false_eq_true, if_false, List.append_nil, runPhases, Py.ok.injEq] at h
    subst h
    exact ⟨hs, hcs, le_rfl, fun _ => ⟨by simp, by simp⟩⟩
  · simp only [Bool.false_eq_true, if_false, if_true, List.nil_append, runPhases] at h
    obtain ⟨s', hs', h⟩ := Py.bind_eq_ok.1 h
    split_ifs at h
    obtain rfl := Py.ok.inj h
    obtain ⟨hst, hC, hle, hnear⟩ := hc.weights s s' hs hs'
    have e3 := hcost s' hst
    refine ⟨hst, rfl, by simp only; rw [e3, hc0]; exact hle,
      fun hlt => ⟨by simp, fun _ W hW => ?_⟩⟩
    simp only at hlt ⊢
    rw [e3, hc0] at hlt
    have := (hnear (hlt.trans_le ht)).1 W hW
    rw [hC]
    rw [hC] at hle
    linarith
  · simp only [Bool.false_eq_true, if_false, if_true, List.append_nil, runPhases] at h
    obtain ⟨s', hs', h⟩ := Py.bind_eq_ok.1 h
    split_ifs at h
    obtain rfl := Py.ok.inj h
    obtain ⟨hst, hS, hle, hnear⟩ := hc.dictionary rfl s s' hs hs'
    have e3 := hcost s' hst
    refine ⟨hst, rfl, by simp only; rw [e3, hc0]; exact hle,
      fun hlt => ⟨fun _ S => ?_, by simp⟩⟩
    simp only at hlt ⊢
    rw [e3, hc0] at hlt
    have := hnear (hlt.trans_le ht) S
    rw [hS]
    rw [hS] at hle
    linarith
  · simp only [if_true, List.cons_append, List.nil_append, runPhases] at h
    obtain ⟨s', hs', h⟩ := Py.bind_eq_ok.1 h
    split_ifs at h
    obtain ⟨s'', hs'', h⟩ := Py.bind_eq_ok.1 h
    split_ifs at h
    obtain rfl := Py.ok.inj h
    obtain ⟨hst, hS, hle, hnear⟩ := hc.dictionary rfl s s' hs hs'
    obtain ⟨hst2, hC2, hle2, hnear2⟩ := hc.weights s' s'' hst hs''
    have f3 := hcost s'' hst2
    refine ⟨hst2, rfl, by simp only; rw [f3, hc0]; exact hle2.trans hle,
      fun hlt => ⟨fun _ S => ?_, fun _ W hW => ?_⟩⟩
    · simp only at hlt ⊢
      rw [f3, hc0] at hlt
      rcases le_total (gpnhCost eps X s''.Gamma s''.S) (gpnhCost eps X s''.Gamma S) with hSS | hSS
      · linarith
      have hSR : frobSq S ≤ R := hlev rfl _ _ hst2.stoch (hSS.trans hst2.cost)
      have h1 := hnear (by linarith) S
      have h2 := (hnear2 (by linarith)).2 S hSR
      rw [hS] at h2
      linarith
    · simp only at hlt ⊢
      rw [f3, hc0] at hlt
      have h2 := (hnear2 (by linarith)).1 W hW
      rw [hC2]
      rw [hC2] at hle2
      linarith

/-- A small tolerance and enough iterations give factors that are optimal up to `ε` given each
other; both depend on the cost of the start, and if the dictionary is fixed on its size. -/
theorem gpnhIterate_near_optimal [Archimedean K] {cfg : LSConfig K} (hd : cfg.Descends)
    (hmem : cfg.memory = 1) (hk : 1 ≤ k) (X : Matrix (Fin T) (Fin D) K) {eps : K} (he : 0 ≤ eps)
    {ε : K} (hε : 0 < ε) {B R : K} (hR : 0 ≤ R) {ud : Bool}
    (hlev : ud = true → ∀ (W : Matrix (Fin T) (Fin k) K) (S : Matrix (Fin k) (Fin D) K),
      RowStochastic W → gpnhCost eps X W S ≤ B → frobSq S ≤ R)
    (hf : cfg.Floor (max 1 cfg.alphaMax * gpnhCurvature T D k eps R)) :
    ∃ tol : K, 0 < tol ∧ ∀ t, 0 < t → t ≤ tol → ∃ M : ℕ, ∀ (require uw : Bool)
      (maxIter : ℕ) (W : Matrix (Fin T) (Fin k) K) (S : Matrix (Fin k) (Fin D) K)
      (r : IterResult (GPNHState T D k K) K), M ≤ maxIter → RowStochastic W → frobSq S ≤ R →
      gpnhCost eps X W S ≤ B →
      gpnhIterate cfg eps require t maxIter ud uw (GPNHState.initializeWorkspace cfg X W S) =
        Py.ok r →
      r.state.NearOptimal X eps ε ud uw := by
  obtain ⟨tol, htol, hc⟩ := exists_gpnhConst hd hk X he (half_pos hε)
    (a0 := min 1 cfg.alphaMin) (a1 := max 1 cfg.alphaMax) (lt_min one_pos hd.alphaMin)
    (lt_max_of_lt_left one_pos) (min_le_right _ _) (le_max_right _ _) hR hlev hf
  refine ⟨tol, htol, fun t ht0 ht => ?_⟩
  obtain ⟨M, hM⟩ := exists_nat_gt (2 * B / t)
  refine ⟨M, fun require uw maxIter W S r hmax hW hS hB h => ?_⟩
  have hsteady : (GPNHState.initializeWorkspace cfg X W S).Steady X eps (min 1 cfg.alphaMin)
      (max 1 cfg.alphaMax) B R :=
    ⟨rfl, rfl, hW, hB, hS, ⟨min_le_left _ _, le_max_left _ _⟩, ⟨min_le_left _ _, le_max_left _ _⟩,
      ⟨0, by simp [GPNHState.initializeWorkspace, hmem]⟩,
      ⟨0, by simp [GPNHState.initializeWorkspace, hmem]⟩⟩
  have := iterate_near (evalCost := fun s : GPNHState T D k K => (s, s.evaluateCost eps))
    (require := require) (tol := t)
    (Near := GPNHState.NearOptimal X eps (ε / 2 + ε / 2) ud uw)
    (gpnh_iteration_near (half_pos hε) hc hlev (require := require) (uw := uw) ht)
    (fun _ => rfl) (fun x hx => hx) (B := B)
    (fun x c hx hxc => by
      have e : x.evaluateCost eps = c := congrArg Prod.snd hxc
      rw [GPNHState.evaluateCost_eq _ _ hx.SSt, hx.data] at e
      rw [← e, abs_of_nonneg (gpnhCost_nonneg' he _ _ _)]
      exact hx.cost)
    (maxIter := maxIter) (by
      rw [div_lt_iff₀ ht0] at hM
      refine hM.trans_le (mul_le_mul_of_nonneg_right ?_ ht0.le)
      exact_mod_cast hmax) hsteady (gpnhIterate_eq_ok.1 h).2
  rwa [add_halves] at this

end Reor
