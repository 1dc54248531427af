import Verif.Proofs.Converge
import Verif.Proofs.Stopping
import Verif.Proofs.KernelAAObj

/-!
KernelAA fits that stop are nearly optimal in each factor.
-/

namespace Reor

set_option linter.unusedSectionVars false

open scoped BigOperators Matrix
open Spec

variable {K : Type} [Field K] [LinearOrder K] [IsStrictOrderedRing K]
variable {n k : ℕ}

/-! ### Constants -/

theorem exists_sq_ge {M : K} (hM : 0 ≤ M) : ∃ g : K, 0 ≤ g ∧ M ≤ g ^ 2 :=
  ⟨M + 1, by linarith, by nlinarith⟩

theorem frobSq_smul_two (A : Matrix (Fin n) (Fin k) K) :
    frobSq ((2 : K) • A) = 4 * frobSq A ∧ frobSq ((-2 : K) • A) = 4 * frobSq A := by
  constructor <;> rw [frobSq_smul] <;> ring

/-- A quadratic form with bounded coefficients. -/
theorem quad_le {B : K} (hB : 0 ≤ B) {A : Matrix (Fin n) (Fin n) K} (hA : ∀ i j, |A i j| ≤ B)
    (u : Fin n → K) : ∑ i, ∑ j, u i * A i j * u j ≤ B * n * ∑ i, u i ^ 2 := by
  have h1 : ∀ i j, u i * A i j * u j ≤ B * ((u i ^ 2 + u j ^ 2) / 2) := by
    intro i j
    have h2 : |u i * A i j * u j| ≤ B * (|u i| * |u j|) := by
      rw [abs_mul, abs_mul]
      have := mul_le_mul_of_nonneg_right (hA i j) (mul_nonneg (abs_nonneg (u i)) (abs_nonneg (u j)))
      linarith
    refine (le_abs_self _).trans (h2.trans (mul_le_mul_of_nonneg_left ?_ hB))
    have := sq_nonneg (|u i| - |u j|)
    rw [← sq_abs (u i), ← sq_abs (u j)]
    nlinarith
  refine (Finset.sum_le_sum fun i _ => Finset.sum_le_sum fun j _ => h1 i j).trans (le_of_eq ?_)
  simp only [← Finset.mul_sum, ← Finset.sum_div, Finset.sum_add_distrib, Finset.sum_const,
    Finset.card_univ, Fintype.card_fin, nsmul_eq_mul]
  ring

/-- Coefficients of convex combinations. -/
theorem abs_convex_le {B : K} {A : Matrix (Fin n) (Fin n) K} (hA : ∀ i j, |A i j| ≤ B)
    {C : Matrix (Fin k) (Fin n) K} (hC : RowStochastic C) (a b : Fin k) :
    |(C * A * Cᵀ) a b| ≤ B := by
  simp only [Matrix.mul_apply, Matrix.transpose_apply]
  refine (Finset.abs_sum_le_sum_abs _ _).trans ?_
  have h1 : ∀ j, |(∑ i, C a i * A i j) * C b j| ≤ B * C b j := by
    intro j
    rw [abs_mul, abs_of_nonneg ((hC b).1 j)]
    refine mul_le_mul_of_nonneg_right ?_ ((hC b).1 j)
    refine (Finset.abs_sum_le_sum_abs _ _).trans ?_
    have h2 : ∀ i, |C a i * A i j| ≤ C a i * B := by
      intro i
      rw [abs_mul, abs_of_nonneg ((hC a).1 i)]
      exact mul_le_mul_of_nonneg_left (hA i j) ((hC a).1 i)
    refine (Finset.sum_le_sum fun i _ => h2 i).trans (le_of_eq ?_)
    rw [← Finset.sum_mul, (hC a).2, one_mul]
  refine (Finset.sum_le_sum fun j _ => h1 j).trans (le_of_eq ?_)
  rw [← Finset.mul_sum, (hC b).2, mul_one]

theorem kaa_curvature_S {B : K} (hB : 0 ≤ B) {A : Matrix (Fin n) (Fin n) K}
    (hA : ∀ i j, |A i j| ≤ B) {C : Matrix (Fin k) (Fin n) K} (hC : RowStochastic C)
    (H : Matrix (Fin n) (Fin k) K) :
    ((Hᵀ * H) * (C * A * Cᵀ)).trace ≤ B * k * frobSq H := by
  have e : ((Hᵀ * H) * (C * A * Cᵀ)).trace = inner H (H * (C * A * Cᵀ)) := by
    rw [Matrix.mul_assoc, inner_eq_trace]
  rw [e]
  unfold inner frobSq
  rw [Finset.mul_sum]
  refine Finset.sum_le_sum fun t _ => ?_
  refine le_trans (le_of_eq ?_) (quad_le hB (fun i j => abs_convex_le hA hC i j) (fun i => H t i))
  rw [Finset.sum_comm]
  refine Finset.sum_congr rfl fun j _ => ?_
  rw [Matrix.mul_apply, Finset.mul_sum]
  exact Finset.sum_congr rfl fun i _ => by ring

theorem kaa_curvature_C {B : K} (hB : 0 ≤ B) {A : Matrix (Fin n) (Fin n) K}
    (hA : ∀ i j, |A i j| ≤ B) {S : Matrix (Fin n) (Fin k) K} (hS : RowStochastic S)
    (H : Matrix (Fin k) (Fin n) K) :
    ((Sᵀ * S) * (H * A * Hᵀ)).trace ≤ B * (n : K) ^ 2 * frobSq H := by
  have e : ((Sᵀ * S) * (H * A * Hᵀ)).trace = inner (S * H) (S * H * A) := by
    rw [inner_eq_trace, Matrix.transpose_mul, ← Matrix.mul_assoc, Matrix.trace_mul_comm]
    simp only [Matrix.mul_assoc]
  rw [e]
  have h1 : ∀ G : Matrix (Fin n) (Fin n) K, inner G (G * A) ≤ B * n * frobSq G := by
    intro G
    unfold inner frobSq
    rw [Finset.mul_sum]
    refine Finset.sum_le_sum fun t _ => ?_
    refine le_trans (le_of_eq ?_) (quad_le hB hA (fun i => G t i))
    rw [Finset.sum_comm]
    refine Finset.sum_congr rfl fun j _ => ?_
    rw [Matrix.mul_apply, Finset.mul_sum]
    exact Finset.sum_congr rfl fun i _ => by ring
  refine (h1 _).trans ?_
  have h2 : frobSq (S * H) ≤ n * frobSq H := frobSq_mul_le_of (frobSq_rowStochastic hS) le_rfl
  calc B * n * frobSq (S * H) ≤ B * n * (n * frobSq H) :=
        mul_le_mul_of_nonneg_left h2 (by positivity)
    _ = _ := by ring

theorem kaaGradS_bound (A : Matrix (Fin n) (Fin n) K) (k : ℕ) :
    ∃ g : K, 0 ≤ g ∧ ∀ (S : Matrix (Fin n) (Fin k) K) (C : Matrix (Fin k) (Fin n) K),
      RowStochastic S → RowStochastic C → frobSq (kaaGradS A S C) ≤ g ^ 2 := by
  have hA := frobSq_nonneg A
  obtain ⟨g, hg, hg2⟩ := exists_sq_ge (K := K)
    (M := 2 * (4 * (frobSq A * k)) + 2 * (4 * (n * (k * frobSq A * k)))) (by positivity)
  refine ⟨g, hg, fun S C hS hC => le_trans ?_ hg2⟩
  unfold kaaGradS
  refine (frobSq_add_le _ _).trans ?_
  rw [(frobSq_smul_two _).2, (frobSq_smul_two _).1]
  have hCt : frobSq Cᵀ ≤ k := by rw [frobSq_transpose]; exact frobSq_rowStochastic hC
  have h1 : frobSq (Aᵀ * Cᵀ) ≤ frobSq A * k :=
    frobSq_mul_le_of (by rw [frobSq_transpose]) hCt
  have h2 : frobSq (S * (C * A * Cᵀ)) ≤ n * (k * frobSq A * k) :=
    frobSq_mul_le_of (frobSq_rowStochastic hS)
      (frobSq_mul_le_of (frobSq_mul_le_of (frobSq_rowStochastic hC) le_rfl) hCt)
  linarith

theorem kaaGradC_bound (A : Matrix (Fin n) (Fin n) K) (k : ℕ) :
    ∃ g : K, 0 ≤ g ∧ ∀ (S : Matrix (Fin n) (Fin k) K) (C : Matrix (Fin k) (Fin n) K),
      RowStochastic S → RowStochastic C → frobSq (kaaGradC A S C) ≤ g ^ 2 := by
  have hA := frobSq_nonneg A
  obtain ⟨g, hg, hg2⟩ := exists_sq_ge (K := K)
    (M := 2 * (4 * (n * frobSq A)) + 2 * (4 * (n * n * (k * frobSq A)))) (by positivity)
  refine ⟨g, hg, fun S C hS hC => le_trans ?_ hg2⟩
  unfold kaaGradC
  refine (frobSq_add_le _ _).trans ?_
  rw [(frobSq_smul_two _).2, (frobSq_smul_two _).1]
  have hSt : frobSq Sᵀ ≤ n := by rw [frobSq_transpose]; exact frobSq_rowStochastic hS
  have h1 : frobSq (Sᵀ * Aᵀ) ≤ n * frobSq A :=
    frobSq_mul_le_of hSt (by rw [frobSq_transpose])
  have h2 : frobSq ((Sᵀ * S) * (C * A)) ≤ n * n * (k * frobSq A) :=
    frobSq_mul_le_of (frobSq_mul_le_of hSt (frobSq_rowStochastic hS))
      (frobSq_mul_le_of (frobSq_rowStochastic hC) le_rfl)
  linarith

theorem rowStochastic_diam (m n : ℕ) : ∃ R : K, 0 ≤ R ∧
    ∀ B C : Matrix (Fin m) (Fin n) K, RowStochastic B → RowStochastic C →
      frobSq (B - C) ≤ R ^ 2 := by
  obtain ⟨R, hR, hR2⟩ := exists_sq_ge (K := K) (M := 2 * m + 2 * m) (by positivity)
  refine ⟨R, hR, fun B C hB hC => le_trans ?_ hR2⟩
  have h1 := frobSq_add_le B (-C)
  rw [frobSq_neg, ← sub_eq_add_neg] at h1
  have h2 := frobSq_rowStochastic hB
  have h3 := frobSq_rowStochastic hC
  linarith

theorem kaaCost_bound (A : Matrix (Fin n) (Fin n) K) (k : ℕ) :
    ∃ B : K, ∀ (S : Matrix (Fin n) (Fin k) K) (C : Matrix (Fin k) (Fin n) K),
      RowStochastic S → RowStochastic C → |kaaCost A S C| ≤ B := by
  have hA := frobSq_nonneg A
  obtain ⟨a, ha, ha2⟩ := exists_sq_ge (K := K) (M := n) (by positivity)
  obtain ⟨b, hb, hb2⟩ := exists_sq_ge (K := K) (M := k * frobSq A) (by positivity)
  obtain ⟨c, hc, hc2⟩ := exists_sq_ge (K := K) (M := n * n * k) (by positivity)
  refine ⟨|A.trace| + 2 * (a * b) + c * b, fun S C hS hC => ?_⟩
  have hSt : frobSq Sᵀ ≤ n := by rw [frobSq_transpose]; exact frobSq_rowStochastic hS
  have hCA : frobSq (C * A) ≤ k * frobSq A := frobSq_mul_le_of (frobSq_rowStochastic hC) le_rfl
  have h1 := abs_inner_le ha hb (hSt.trans ha2) (hCA.trans hb2)
  have h2 := abs_inner_le hc hb
    ((frobSq_mul_le_of (frobSq_mul_le_of hSt (frobSq_rowStochastic hS))
      (frobSq_rowStochastic hC)).trans hc2) (hCA.trans hb2)
  rw [kaaCost_eq_inner]
  have h3 := abs_le.1 h1
  have h4 := abs_le.1 h2
  have h5 := neg_abs_le A.trace
  have h6 := le_abs_self A.trace
  rw [abs_le]
  constructor <;> linarith [h3.1, h3.2, h4.1, h4.2]

/-! ### Progress of the updates -/

/-- A state between the statements of a fit, with bounded step scales. -/
structure KAAState.Steady (A : Matrix (Fin n) (Fin n) K) (a0 a1 : K) (s : KAAState n k K) :
    Prop where
  good : s.Good A
  S : RowStochastic s.S
  C : RowStochastic s.C
  alphaS : a0 ≤ s.alphaS ∧ s.alphaS ≤ a1
  alphaC : a0 ≤ s.alphaC ∧ s.alphaC ≤ a1
  memS : ∃ m, s.fSMem = [m]
  memC : ∃ m, s.fCMem = [m]

/-- The conditions on the settings. -/
structure LSConfig.Descends (cfg : LSConfig K) : Prop where
  sigmaOne : 0 < cfg.sigmaOne
  sigmaTwo : cfg.sigmaTwo < 1
  gamma0 : 0 < cfg.gamma
  gamma1 : cfg.gamma < 1
  alphaMin : 0 < cfg.alphaMin
  alphaMax : cfg.alphaMin ≤ cfg.alphaMax

namespace KAAState

theorem updateWeights_progress {cfg : LSConfig K} (hd : cfg.Descends) (hk : 1 ≤ k) {delta : K}
    {A : Matrix (Fin n) (Fin n) K} (hA : Aᵀ = A) {B : K} (hB : 0 ≤ B) (hAB : ∀ i j, |A i j| ≤ B)
    {a0 a1 b L : K} (ha0 : 0 < a0) (hL : B * k ≤ L)
    (hb0 : 0 < b) (hb1 : b ≤ 1) (hb2 : b ≤ cfg.sigmaOne) (hb3 : 2 * b * (a1 * L) ≤ 1 - cfg.gamma)
    (hbt : cfg.stepSizeTolerance ≤ b)
    {s s' : KAAState n k K} (hs : s.Steady A a0 a1) (h : s.updateWeights cfg delta = Py.ok s') :
    kaaCost A s'.S s'.C ≤ kaaCost A s.S s.C - cfg.gamma * b / a1 *
      frobSq (simplexProjectRows (s.S - s.alphaS • kaaGradS A s.S s.C) - s.S) := by
  have hg := hs.good
  obtain ⟨m0, hm⟩ := hs.memS
  set d := simplexProjectRows (s.S - s.alphaS • kaaGradS A s.S s.C) - s.S with hdd
  have hslope := projected_slope (G := kaaGradS A s.S s.C) hk hs.S s.alphaS
  rw [← hdd] at hslope
  rw [updateWeights_eq hg, hm, hg.Kmat, ← hdd] at h
  obtain ⟨r, hr, h⟩ := Py.bind_eq_ok.1 h
  simp only [Py.ok.injEq] at h
  have hLp : 0 ≤ L := le_trans (by positivity) hL
  have hprog := lineSearch_progress hd.sigmaOne hd.sigmaTwo hd.gamma0.le
    (weightsTrial_retriable (n := n) (k := k) (K := K))
    (q := ((dᵀ * d) * (s.C * A * s.Cᵀ)).trace) (fun lam => by
      rw [weightsTrial_cost hg, hg.Kmat, ← hdd, kaaCost_add_S hA]) (ha0.trans_le hs.alphaS.1)
    hs.alphaS.2 hslope (frobSq_nonneg _) hLp
    ((kaa_curvature_S hB hAB hs.C d).trans (mul_le_mul_of_nonneg_right hL (frobSq_nonneg _)))
    hb0 hb1 hb2 hb3 hbt hr
  refine le_trans (le_of_eq ?_) hprog
  obtain ⟨-, -, -, he, -⟩ := lineSearch_spec weightsTrial_retriable hr
  have hcost : (weightsTrial s.weightsStart r.stepSize).2 = r.cost := congrArg Prod.snd he
  have hstate : (weightsTrial s.weightsStart r.stepSize).1 = r.state := congrArg Prod.fst he
  rw [weightsTrial_cost hg, hg.Kmat, ← hdd] at hcost
  have e1 : s'.S = r.state.S := by
    rw [← h]; unfold updateWeightsGradient; by_cases hdel : delta > 0 <;> simp [hdel]
  have e2 : s'.C = r.state.C := by
    rw [← h]; unfold updateWeightsGradient; by_cases hdel : delta > 0 <;> simp [hdel]
  rw [e1, e2, ← hstate, ← hcost, hdd, ← hg.Kmat]
  rfl

theorem updateDictionary_progress {cfg : LSConfig K} (hd : cfg.Descends) (hn : 1 ≤ n) {delta : K}
    {A : Matrix (Fin n) (Fin n) K} (hA : Aᵀ = A) {B : K} (hB : 0 ≤ B) (hAB : ∀ i j, |A i j| ≤ B)
    {a0 a1 b L : K} (ha0 : 0 < a0) (hL : B * (n : K) ^ 2 ≤ L)
    (hb0 : 0 < b) (hb1 : b ≤ 1) (hb2 : b ≤ cfg.sigmaOne) (hb3 : 2 * b * (a1 * L) ≤ 1 - cfg.gamma)
    (hbt : cfg.stepSizeTolerance ≤ b)
    {s s' : KAAState n k K} (hs : s.Steady A a0 a1) (h : s.updateDictionary cfg delta = Py.ok s') :
    kaaCost A s'.S s'.C ≤ kaaCost A s.S s.C - cfg.gamma * b / a1 *
      frobSq (simplexProjectRows (s.C - s.alphaC • kaaGradC A s.S s.C) - s.C) := by
  have hg := hs.good
  obtain ⟨m0, hm⟩ := hs.memC
  set d := simplexProjectRows (s.C - s.alphaC • kaaGradC A s.S s.C) - s.C with hdd
  have hslope := projected_slope (G := kaaGradC A s.S s.C) hn hs.C s.alphaC
  rw [← hdd] at hslope
  unfold updateDictionary at h
  obtain ⟨s1, hs1, h⟩ := Py.bind_eq_ok.1 h
  have hsc : s'.S = s1.S ∧ s'.C = s1.C := by
    by_cases hdel : delta > 0
    · rw [if_pos hdel] at h
      obtain ⟨g, i, a, m, hs', -⟩ := updateScaleFactors_ok h
      rw [hs']
      exact ⟨rfl, rfl⟩
    · rw [if_neg hdel] at h
      simp only [Py.pure_eq, Py.ok.injEq] at h
      subst h
      exact ⟨rfl, rfl⟩
  rw [hsc.1, hsc.2]
  rw [updateDictionaryCore_eq hg, hm, hg.Kmat, ← hdd] at hs1
  obtain ⟨r, hr, hs1⟩ := Py.bind_eq_ok.1 hs1
  simp only [Py.ok.injEq] at hs1
  have hLp : 0 ≤ L := le_trans (by positivity) hL
  have hprog := lineSearch_progress hd.sigmaOne hd.sigmaTwo hd.gamma0.le
    (dictionaryTrial_retriable (n := n) (k := k) delta)
    (q := ((s.Sᵀ * s.S) * (d * A * dᵀ)).trace) (fun lam => by
      rw [dictionaryTrial_cost hg, hg.Kmat, ← hdd, kaaCost_add_C hA]) (ha0.trans_le hs.alphaC.1)
    hs.alphaC.2 hslope (frobSq_nonneg _) hLp
    ((kaa_curvature_C hB hAB hs.S d).trans (mul_le_mul_of_nonneg_right hL (frobSq_nonneg _)))
    hb0 hb1 hb2 hb3 hbt hr
  refine le_trans (le_of_eq ?_) hprog
  obtain ⟨-, -, -, he, -⟩ := lineSearch_spec (dictionaryTrial_retriable delta) hr
  have hcost : (dictionaryTrial delta s.dictStart r.stepSize).2 = r.cost := congrArg Prod.snd he
  have hstate : (dictionaryTrial delta s.dictStart r.stepSize).1 = r.state := congrArg Prod.fst he
  rw [dictionaryTrial_cost hg, hg.Kmat, ← hdd] at hcost
  rw [dictionaryTrial_eq _ _ (by exact hg.alpha)] at hstate
  have e1 : s1.S = r.state.S := by
    rw [← hs1]; unfold updateDictionaryGradient; by_cases hdel : delta > 0 <;> simp [hdel]
  have e2 : s1.C = r.state.C := by
    rw [← hs1]; unfold updateDictionaryGradient; by_cases hdel : delta > 0 <;> simp [hdel]
  rw [e1, e2, ← hstate, ← hcost, hdd, ← hg.Kmat]
  rfl

theorem Steady.weights {cfg : LSConfig K} (hd : cfg.Descends) (hk : 1 ≤ k)
    {A : Matrix (Fin n) (Fin n) K} {a0 a1 lam : K} (h0 : a0 ≤ cfg.alphaMin)
    (h1 : cfg.alphaMax ≤ a1) {s s' : KAAState n k K} (hs : s.Steady A a0 a1)
    (hl : WeightsPost cfg s s' lam) : s'.Steady A a0 a1 := by
  obtain ⟨m, hm⟩ := hs.memS
  refine ⟨hl.good hs.good, ?_, by rw [hl.C]; exact hs.C, ?_, by rw [hl.alphaC]; exact hs.alphaC,
    ⟨_, by rw [hl.fSMem, hm]; rfl⟩, by rw [hl.fCMem]; exact hs.memC⟩
  · rw [hl.S]
    exact rowStochastic_step hs.S (projectRows_rowStochastic hk _)
      (hl.pos hd.sigmaOne hd.sigmaTwo).le (hl.le hd.sigmaOne hd.sigmaTwo)
  · obtain ⟨b, q, -, hb⟩ := hl.alpha
    rw [hb]
    have := nextSpgAlpha_range (beta := b) (sksk := q) hd.alphaMax
    exact ⟨h0.trans this.1, this.2.trans h1⟩

theorem Steady.dictionary {cfg : LSConfig K} (hd : cfg.Descends) (hn : 1 ≤ n)
    {A : Matrix (Fin n) (Fin n) K} {a0 a1 lam : K} (h0 : a0 ≤ cfg.alphaMin)
    (h1 : cfg.alphaMax ≤ a1) {s s' : KAAState n k K} (hs : s.Steady A a0 a1)
    (hl : DictPost cfg s s' lam) : s'.Steady A a0 a1 := by
  obtain ⟨m, hm⟩ := hs.memC
  refine ⟨hl.good hs.good, by rw [hl.S]; exact hs.S, ?_, by rw [hl.alphaS]; exact hs.alphaS, ?_,
    by rw [hl.fSMem]; exact hs.memS, ⟨_, by rw [hl.fCMem, hm]; rfl⟩⟩
  · rw [hl.C]
    exact rowStochastic_step hs.C (projectRows_rowStochastic hn _)
      (hl.pos hd.sigmaOne hd.sigmaTwo).le (hl.le hd.sigmaOne hd.sigmaTwo)
  · obtain ⟨b, q, -, hb⟩ := hl.alpha
    rw [hb]
    have := nextSpgAlpha_range (beta := b) (sksk := q) hd.alphaMax
    exact ⟨h0.trans this.1, this.2.trans h1⟩

theorem Steady.cost {A : Matrix (Fin n) (Fin n) K} {a0 a1 : K} (delta : K) {s : KAAState n k K}
    (hs : s.Steady A a0 a1) : (s.evaluateCost delta).1.Steady A a0 a1 := by
  rw [evaluateCost_eq _ _ hs.good.alpha]
  exact ⟨⟨hs.good.Kmat, hs.good.traceK, hs.good.alpha, rfl⟩, hs.S, hs.C, hs.alphaS, hs.alphaC,
    hs.memS, hs.memC⟩

end KAAState

/-! ### What one phase achieves -/

/-- Constants such that a phase which lowers the cost by less than `tol` was nearly optimal. -/
structure KAAConst (cfg : LSConfig K) (A : Matrix (Fin n) (Fin n) K) (k : ℕ) (ε : K) (a0 a1 tol : K) :
    Prop where
  dictionary : ∀ (delta : K) (s s' : KAAState n k K), s.Steady A a0 a1 →
    s.updateDictionary cfg delta = Py.ok s' →
    s'.Steady A a0 a1 ∧ s'.S = s.S ∧ kaaCost A s'.S s'.C ≤ kaaCost A s.S s.C ∧
    (kaaCost A s.S s.C - kaaCost A s'.S s'.C < tol →
      ∀ B, RowStochastic B → kaaCost A s.S s.C ≤ kaaCost A s.S B + ε)
  weights : ∀ (delta : K) (s s' : KAAState n k K), s.Steady A a0 a1 →
    s.updateWeights cfg delta = Py.ok s' →
    s'.Steady A a0 a1 ∧ s'.C = s.C ∧ kaaCost A s'.S s'.C ≤ kaaCost A s.S s.C ∧
    (kaaCost A s.S s.C - kaaCost A s'.S s'.C < tol →
      (∀ W, RowStochastic W → kaaCost A s.S s.C ≤ kaaCost A W s.C + ε) ∧
      ∀ B, RowStochastic B → kaaCost A s.S B ≤ kaaCost A s'.S B + ε)

theorem exists_kaaConst {cfg : LSConfig K} (hd : cfg.Descends) (hk : 1 ≤ k) (hn : 1 ≤ n)
    {A : Matrix (Fin n) (Fin n) K} (hA : Aᵀ = A)
    (hpsd : ∀ v : Fin n → K, 0 ≤ ∑ i, ∑ j, v i * A i j * v j) {ε : K} (hε : 0 < ε) {a0 a1 : K}
    (ha0 : 0 < a0) (ha1 : 0 < a1) (h0 : a0 ≤ cfg.alphaMin) (h1 : cfg.alphaMax ≤ a1)
    {B : K} (hB : 0 ≤ B) (hAB : ∀ i j, |A i j| ≤ B)
    (hf : cfg.Floor (a1 * (B * ((n : K) ^ 2 + k)))) :
    ∃ tol, 0 < tol ∧ KAAConst cfg A k ε a0 a1 tol := by
  have hAn := frobSq_nonneg A
  obtain ⟨gS, hgS, hgS2⟩ := kaaGradS_bound A k
  obtain ⟨gC, hgC, hgC2⟩ := kaaGradC_bound A k
  obtain ⟨RS, hRS, hRS2⟩ := rowStochastic_diam (K := K) n k
  obtain ⟨RC, hRC, hRC2⟩ := rowStochastic_diam (K := K) k n
  set L : K := B * ((n : K) ^ 2 + k) with hLdef
  have hL : 0 ≤ L := by positivity
  have hLS : B * k ≤ L := mul_le_mul_of_nonneg_left (by linarith [sq_nonneg (n : K)]) hB
  have hLC : B * (n : K) ^ 2 ≤ L :=
    mul_le_mul_of_nonneg_left (by linarith [Nat.cast_nonneg (α := K) k]) hB
  obtain ⟨b, hb0, hb1, hb2, hb3, hbt⟩ := exists_step_bound hd.sigmaOne hd.gamma1
    (M := a1 * L) (by positivity) hf
  set κ : K := RS / a0 + gS + (RC / a0 + gC) + 1 with hκ
  have hRSa : 0 ≤ RS / a0 := div_nonneg hRS ha0.le
  have hRCa : 0 ≤ RC / a0 := div_nonneg hRC ha0.le
  have hκ0 : 0 < κ := by rw [hκ]; linarith
  set η : K := ε / κ with hη
  have hη0 : 0 < η := div_pos hε hκ0
  have hηκ : η * κ = ε := div_mul_cancel₀ _ hκ0.ne'
  set c : K := cfg.gamma * b / a1 with hc
  have hc0 : 0 < c := div_pos (mul_pos hd.gamma0 hb0) ha1
  have key : ∀ {f f' N : K}, f' ≤ f - c * N → f - f' < c * η ^ 2 → N ≤ η ^ 2 := by
    intro f f' N h1 h2
    have : c * N < c * η ^ 2 := by linarith
    exact (lt_of_mul_lt_mul_left this hc0.le).le
  refine ⟨c * η ^ 2, by positivity, ⟨fun delta s s' hs h => ?_, fun delta s s' hs h => ?_⟩⟩
  · obtain ⟨lam, hl⟩ := KAAState.updateDictionary_post hs.good h
    have hp := KAAState.updateDictionary_progress hd hn hA hB hAB ha0 hLC hb0 hb1 hb2 hb3 hbt hs h
    rw [← hc] at hp
    refine ⟨hs.dictionary hd hn h0 h1 hl, hl.S, ?_, fun hlt B hB => ?_⟩
    · have := mul_nonneg hc0.le (frobSq_nonneg
        (simplexProjectRows (s.C - s.alphaC • kaaGradC A s.S s.C) - s.C))
      linarith
    · have hN := key hp hlt
      have := near_optimal_of_short (f := fun B => kaaCost A s.S B)
        (q := fun H => ((s.Sᵀ * s.S) * (H * A * Hᵀ)).trace) hn
        (fun H t => kaaCost_add_C hA _ _ _ _) (fun H => trace_gram_nonneg hpsd _ _) ha0 hs.alphaC.1
        hη0.le hgC hRC hN (hgC2 _ _ hs.S hs.C) hRC2 hB
      refine this.trans ?_
      have : η * (RC / a0 + gC) ≤ η * κ := mul_le_mul_of_nonneg_left (by rw [hκ]; linarith) hη0.le
      linarith
  · obtain ⟨lam, hl⟩ := KAAState.updateWeights_post hs.good h
    have hp := KAAState.updateWeights_progress hd hk hA hB hAB ha0 hLS hb0 hb1 hb2 hb3 hbt hs h
    rw [← hc] at hp
    refine ⟨hs.weights hd hk h0 h1 hl, hl.C, ?_, fun hlt => ⟨fun W hW => ?_, fun B hB => ?_⟩⟩
    · have := mul_nonneg hc0.le (frobSq_nonneg
        (simplexProjectRows (s.S - s.alphaS • kaaGradS A s.S s.C) - s.S))
      linarith
    · have hN := key hp hlt
      have := near_optimal_of_short (f := fun W => kaaCost A W s.C)
        (q := fun H => ((Hᵀ * H) * (s.C * A * s.Cᵀ)).trace) hk
        (fun H t => kaaCost_add_S hA _ _ _ _) (fun H => trace_gram_nonneg hpsd _ _) ha0 hs.alphaS.1
        hη0.le hgS hRS hN (hgS2 _ _ hs.S hs.C) hRS2 hW
      refine this.trans ?_
      have : η * (RS / a0 + gS) ≤ η * κ := mul_le_mul_of_nonneg_left (by rw [hκ]; linarith) hη0.le
      linarith
    · have hN := key hp hlt
      rw [← hs.good.Kmat] at hN
      rw [hl.S, kaaCost_add_S hA]
      have h3 := (abs_le.1 (abs_inner_le hη0.le hgS hN (hgS2 _ _ hs.S hB))).1
      have hlam0 := (hl.pos hd.sigmaOne hd.sigmaTwo).le
      have hlam1 := hl.le hd.sigmaOne hd.sigmaTwo
      have h4 := trace_gram_nonneg hpsd
        (simplexProjectRows (s.S - s.alphaS • kaaGradS s.Kmat s.S s.C) - s.S) B
      have h5 := mul_nonneg (sq_nonneg lam) h4
      have h6 : -(η * gS) ≤ lam * inner
          (simplexProjectRows (s.S - s.alphaS • kaaGradS s.Kmat s.S s.C) - s.S) (kaaGradS A s.S B) := by
        have h7 : lam * -(η * gS) ≤ lam * inner
          (simplexProjectRows (s.S - s.alphaS • kaaGradS s.Kmat s.S s.C) - s.S) (kaaGradS A s.S B) :=
          mul_le_mul_of_nonneg_left h3 hlam0
        have h8 : lam * (η * gS) ≤ 1 * (η * gS) :=
          mul_le_mul_of_nonneg_right hlam1 (mul_nonneg hη0.le hgS)
        linarith
      have h9 : η * gS ≤ η * κ := mul_le_mul_of_nonneg_left (by rw [hκ]; linarith) hη0.le
      linarith

/-! ### Complete loops -/

/-- Each enabled factor is optimal up to `ε` given the other. -/
def KAAState.NearOptimal (A : Matrix (Fin n) (Fin n) K) (ε : K) (ud uw : Bool)
    (s : KAAState n k K) : Prop :=
  (ud = true → ∀ B, RowStochastic B → kaaCost A s.S s.C ≤ kaaCost A s.S B + ε) ∧
  (uw = true → ∀ W, RowStochastic W → kaaCost A s.S s.C ≤ kaaCost A W s.C + ε)

theorem kaa_iteration_near {cfg : LSConfig K} {A : Matrix (Fin n) (Fin n) K} {ε a0 a1 tol : K}
    (hε : 0 < ε) (hc : KAAConst cfg A k ε a0 a1 tol) {delta : K} {require ud uw : Bool} {t : K}
    (ht : t ≤ tol) :
    ∀ (s : KAAState n k K) c r, s.Steady A a0 a1 → s.evaluateCost delta = (s, c) →
      runPhases (KAAState.evaluateCost delta) require c
        ((if ud then [KAAState.updateDictionary cfg delta] else []) ++
        (if uw then [KAAState.updateWeights cfg delta] else [])) s c = Py.ok r →
      r.1.Steady A a0 a1 ∧ r.1.evaluateCost delta = (r.1, r.2) ∧ r.2 ≤ c ∧
        (c - r.2 < t → r.1.NearOptimal A (ε + ε) ud uw) := by
  intro s c r hs hcs h
  have hcost : ∀ x : KAAState n k K, x.Steady A a0 a1 → (x.evaluateCost delta).1.S = x.S ∧
      (x.evaluateCost delta).1.C = x.C ∧ (x.evaluateCost delta).2 = kaaCost A x.S x.C := by
    intro x hx
    rw [KAAState.evaluateCost_eq _ _ hx.good.alpha, hx.good.Kmat]
    exact ⟨rfl, rfl, rfl⟩
  have hidem : ∀ x : KAAState n k K, (x.evaluateCost delta).1.evaluateCost delta =
      ((x.evaluateCost delta).1, (x.evaluateCost delta).2) :=
    fun x => KAAState.evaluateCost_idem delta x
  have hc0 : c = kaaCost A s.S s.C := by
    have := (hcost s hs).2.2
    rw [hcs] at this
    exact this
  cases ud <;> cases uw
  · simp only [Bool.false_eq_true, if_false, List.append_nil, runPhases, Py.ok.injEq] at h
    subst h
    exact ⟨hs, hcs, le_rfl, fun _ => ⟨by simp, by simp⟩⟩
  · simp only [Bool.false_eq_true, if_false, if_true, List.nil_append, runPhases] at h
    obtain ⟨s', hs', h⟩ := Py.bind_eq_ok.1 h
    split_ifs at h
    obtain rfl := Py.ok.inj h
    obtain ⟨hst, hC, hle, hnear⟩ := hc.weights delta s s' hs hs'
    obtain ⟨e1, e2, e3⟩ := hcost s' hst
    refine ⟨hst.cost delta, hidem s', by simp only; rw [e3, hc0]; exact hle, fun hlt => ⟨by simp, fun _ W hW => ?_⟩⟩
    simp only at hlt ⊢
    rw [e3, hc0] at hlt
    have := (hnear (hlt.trans_le ht)).1 W hW
    rw [e1, e2, hC]
    rw [hC] at hle
    linarith
  · simp only [Bool.false_eq_true, if_false, if_true, List.append_nil, runPhases] at h
    obtain ⟨s', hs', h⟩ := Py.bind_eq_ok.1 h
    split_ifs at h
    obtain rfl := Py.ok.inj h
    obtain ⟨hst, hS, hle, hnear⟩ := hc.dictionary delta s s' hs hs'
    obtain ⟨e1, e2, e3⟩ := hcost s' hst
    refine ⟨hst.cost delta, hidem s', by simp only; rw [e3, hc0]; exact hle, fun hlt => ⟨fun _ B hB => ?_, by simp⟩⟩
    simp only at hlt ⊢
    rw [e3, hc0] at hlt
    have := hnear (hlt.trans_le ht) B hB
    rw [e1, e2, hS]
    rw [hS] at hle
    linarith
  · simp only [if_true, List.cons_append, List.nil_append, runPhases] at h
    obtain ⟨s', hs', h⟩ := Py.bind_eq_ok.1 h
    split_ifs at h
    obtain ⟨s'', hs'', h⟩ := Py.bind_eq_ok.1 h
    split_ifs at h
    obtain rfl := Py.ok.inj h
    obtain ⟨hst, hS, hle, hnear⟩ := hc.dictionary delta s s' hs hs'
    obtain ⟨e1, e2, e3⟩ := hcost s' hst
    obtain ⟨hst2, hC2, hle2, hnear2⟩ := hc.weights delta _ s'' (hst.cost delta) hs''
    obtain ⟨f1, f2, f3⟩ := hcost s'' hst2
    rw [e1, e2] at hle2 hnear2
    rw [e2] at hC2
    refine ⟨hst2.cost delta, hidem s'', by simp only; rw [f3, hc0]; exact hle2.trans hle,
      fun hlt => ⟨fun _ B hB => ?_, fun _ W hW => ?_⟩⟩
    · simp only at hlt ⊢
      rw [f3, hc0] at hlt
      have h1 := hnear (by linarith) B hB
      have h2 := (hnear2 (by linarith)).2 B hB
      rw [f1, f2]
      rw [hS] at h2
      linarith
    · simp only at hlt ⊢
      rw [f3, hc0] at hlt
      have h2 := (hnear2 (by linarith)).1 W hW
      rw [f1, f2, hC2]
      rw [hC2] at hle2
      linarith

/-- A small tolerance and enough iterations give factors that are optimal up to `ε` given each
other, whatever the start. -/
theorem kaaIterate_near_optimal [Archimedean K] {cfg : LSConfig K} (hd : cfg.Descends)
    (hk : 1 ≤ k) (hn : 1 ≤ n) {A : Matrix (Fin n) (Fin n) K} (hA : Aᵀ = A)
    (hpsd : ∀ v : Fin n → K, 0 ≤ ∑ i, ∑ j, v i * A i j * v j) {E : K} (hE : 0 ≤ E)
    (hAE : ∀ i j, |A i j| ≤ E) (hf : cfg.Floor (max 1 cfg.alphaMax * (E * ((n : K) ^ 2 + k))))
    {ε : K} (hε : 0 < ε) :
    ∃ tol : K, 0 < tol ∧ ∀ t, 0 < t → t ≤ tol → ∃ M : ℕ, ∀ (delta : K) (require ud uw : Bool)
      (maxIter : ℕ) (s : KAAState n k K) (r : IterResult (KAAState n k K) K), M ≤ maxIter →
      s.Ready A → s.alphaS = 1 → s.alphaC = 1 →
      kaaIterate cfg delta require t maxIter ud uw s = Py.ok r →
      r.state.NearOptimal A ε ud uw := by
  obtain ⟨tol, htol, hc⟩ := exists_kaaConst hd hk hn hA hpsd (half_pos hε)
    (a0 := min 1 cfg.alphaMin) (a1 := max 1 cfg.alphaMax) (lt_min one_pos hd.alphaMin)
    (lt_max_of_lt_left one_pos) (min_le_right _ _) (le_max_right _ _) hE hAE hf
  obtain ⟨B, hB⟩ := kaaCost_bound A k
  refine ⟨tol, htol, fun t ht0 ht => ?_⟩
  obtain ⟨M, hM⟩ := exists_nat_gt (2 * B / t)
  refine ⟨M, fun delta require ud uw maxIter s r hmax hs h1 h2 h => ?_⟩
  have hsteady : s.Steady A (min 1 cfg.alphaMin) (max 1 cfg.alphaMax) :=
    ⟨hs.good, hs.S, hs.C, by rw [h1]; exact ⟨min_le_left _ _, le_max_left _ _⟩,
      by rw [h2]; exact ⟨min_le_left _ _, le_max_left _ _⟩, hs.memS, hs.memC⟩
  have := iterate_near (evalCost := KAAState.evaluateCost delta) (require := require) (tol := t)
    (Near := KAAState.NearOptimal A (ε / 2 + ε / 2) ud uw)
    (kaa_iteration_near (half_pos hε) hc (delta := delta) (require := require) (ud := ud)
      (uw := uw) ht)
    (KAAState.evaluateCost_idem delta) (fun x hx => hx.cost delta) (B := B)
    (fun x c hx hxc => by
      have e : (x.evaluateCost delta).2 = c := by rw [hxc]
      rw [KAAState.evaluateCost_eq _ _ hx.good.alpha, hx.good.Kmat] at e
      rw [← e]
      exact hB _ _ hx.S hx.C)
    (maxIter := maxIter) (by
      rw [div_lt_iff₀ ht0] at hM
      refine hM.trans_le (mul_le_mul_of_nonneg_right ?_ ht0.le)
      exact_mod_cast hmax) hsteady h
  rwa [add_halves] at this

/-- The same for `_kernel_aa`. -/
theorem kernelAASquare_near_optimal [Archimedean K] {cfg : LSConfig K} (hcfg : cfg.Descends)
    (hmem : cfg.memory = 1) (hk : 1 ≤ k) (hn : 1 ≤ n) {A : Matrix (Fin n) (Fin n) K} (hA : Aᵀ = A)
    (hpsd : ∀ v : Fin n → K, 0 ≤ ∑ i, ∑ j, v i * A i j * v j) {E : K}
    (hAE : ∀ i j, |A i j| ≤ E) (hf : cfg.Floor (max 1 cfg.alphaMax * (E * ((n : K) ^ 2 + k))))
    {ε : K} (hε : 0 < ε) :
    ∃ tol : K, 0 < tol ∧ ∀ t, 0 < t → t ≤ tol → ∃ M : ℕ, ∀ m : ℕ, M ≤ m → ∀ {env : Env K},
      env.rng.Lawful → ∀ (obj : KAAObj env.rng), obj.ls = cfg →
      obj.nComponents = .int k → obj.tolerance = .real t → obj.maxIterations = .int m →
      ∀ (dictionary weights : Option (Arr2 K)) (kw : InitKwargs) (ud uw : Bool),
      ((obj.init = some "custom" ∨ ud = false) →
        ∀ C, dictionary = some C → RowStochastic C.val) →
      ((obj.init = some "custom" ∨ uw = false) →
        ∀ W, weights = some W → RowStochastic W.val) →
      ∀ res, kernelAASquare env obj A dictionary weights ud uw kw = Py.ok res →
      ∃ (S : Matrix (Fin n) (Fin k) K) (C : Matrix (Fin k) (Fin n) K),
        res.1.S = some (Arr2.of S) ∧ res.1.C = some (Arr2.of C) ∧ res.2.cost = kaaCost A S C ∧
        RowStochastic S ∧ RowStochastic C ∧
        (ud = false → uw = true → dictionary = some (Arr2.of C)) ∧
        (ud = true → ∀ B, RowStochastic B → kaaCost A S C ≤ kaaCost A S B + ε) ∧
        (uw = true → ∀ W, RowStochastic W → kaaCost A S C ≤ kaaCost A W C + ε) := by
  obtain ⟨tol, htol, key⟩ := kaaIterate_near_optimal (cfg := cfg) (k := k) hcfg hk hn hA hpsd
    ((abs_nonneg _).trans (hAE ⟨0, hn⟩ ⟨0, hn⟩)) hAE hf hε
  refine ⟨tol, htol, fun t ht0 ht => ?_⟩
  obtain ⟨M, hM⟩ := key t ht0 ht
  refine ⟨M, fun m hm env hR obj hls hc htl hmi dictionary weights kw ud uw hd hw res hres => ?_⟩
  obtain ⟨⟨k', m', t'⟩, start, r, hp, hs, hr, rfl⟩ := kernelAASquare_eq_ok hres
  obtain ⟨-, e1, e2, -, -, -⟩ := checkParams_ok hp
  have e3 := checkParams_tolerance hp
  rw [hc] at e1
  rw [hmi] at e2
  rw [htl] at e3
  simp only [defaultComponents, NumArg.int.injEq, Nat.cast_inj] at e1 e2
  simp only [NumArg.real.injEq, reduceCtorEq, false_and, exists_false, or_false] at e3
  subst e1 e2 e3
  simp only at hr hs
  rw [hls] at hr
  have hS := kaaStart_weights hR hk hw hs
  have hC := kaaStart_dictionary_stochastic hR hn hd hs
  obtain ⟨n1, n2⟩ := hM _ _ _ _ _ _ _ hm (kaa_ready_initial (A := A) hmem hS hC) rfl rfl hr
  have hg := KAAState.initializeWorkspace_good cfg A start.1.2 start.1.1
  have hsafe : cfg.Safe := Or.inl ⟨hcfg.sigmaOne.le, hcfg.sigmaTwo.le⟩
  refine ⟨r.state.S, r.state.C, rfl, rfl, kaaIterate_cost hg hr,
    kaaIterate_S_stochastic hsafe hk hg hS zero_le_one hr,
    kaaIterate_C_stochastic hsafe hn hg hC zero_le_one hr, fun hud huw => ?_, n1, n2⟩
  subst hud huw
  exact (kaaStart_dictionary hs).trans
    (congrArg (fun M => some (Arr2.of M)) (kaaIterate_C_kept hg hr).symm)

end Reor
