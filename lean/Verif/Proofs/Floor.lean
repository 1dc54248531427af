import Verif.Proofs.ConvergeGPNH

/-!
Line searches with a step floor: descent when the floor is small compared with the curvature.
-/

namespace Reor

set_option linter.unusedSectionVars false

open scoped BigOperators Matrix
open Spec

variable {K : Type} [Field K] [LinearOrder K] [IsStrictOrderedRing K]
variable {n k T D : ℕ}

/-- The conditions on the settings, with a step floor that suits curvature `L`. -/
structure LSConfig.Suits (cfg : LSConfig K) (L : K) : Prop where
  sigmaOne : 0 < cfg.sigmaOne
  sigmaTwo : cfg.sigmaTwo < 1
  gamma0 : 0 ≤ cfg.gamma
  gamma1 : cfg.gamma < 1
  alphaMin : 0 < cfg.alphaMin
  alphaMax : cfg.alphaMin ≤ cfg.alphaMax
  one : 1 ≤ cfg.alphaMax
  floor0 : 0 ≤ cfg.stepSizeTolerance
  floor1 : cfg.stepSizeTolerance ≤ cfg.sigmaOne
  floor2 : 2 * cfg.stepSizeTolerance * (cfg.alphaMax * L) ≤ 1 - cfg.gamma

/-- A line search along a quadratic succeeds and does not increase the cost. -/
theorem lineSearch_quadratic_floor [Archimedean K] {σ : Type} {cfg : LSConfig K}
    {trial : σ → K → σ × K} {L : K} (hc : cfg.Suits L) (hre : Retriable trial) {m0 : K} {s : σ}
    {f0 δ q N alpha : K}
    (hquad : ∀ lam, (trial s lam).2 = f0 + lam * δ + lam ^ 2 * q) (ha : 0 < alpha)
    (ha1 : alpha ≤ cfg.alphaMax)
    (hδ : N + alpha * δ ≤ 0) (hN : 0 ≤ N) (hL : 0 ≤ L) (hq : q ≤ L * N) :
    ∃ r, lineSearch cfg trial [m0] s f0 δ = Py.ok r ∧ r.cost ≤ f0 := by
  obtain ⟨l, hl, hlA⟩ := exists_lstar hc.gamma1 (mul_nonneg ha.le hL)
  obtain ⟨M, hM⟩ := exists_pow_shrink_le hc.sigmaTwo hl
  have harm : ∀ l, l * (alpha * L) ≤ 1 - cfg.gamma → ∀ lam, 0 < lam → lam ≤ 1 → lam ≤ l →
      (trial s lam).2 ≤ f0 + cfg.gamma * δ * lam := by
    intro l hlA lam h0 _ hl'
    rw [hquad]
    exact armijo_of_quadratic hq hL ha hδ hN h0.le
      ((mul_le_mul_of_nonneg_right hl' (mul_nonneg ha.le hL)).trans hlA)
  obtain ⟨r, hr⟩ := lineSearch_terminates_armijo' hc.sigmaOne hc.sigmaTwo hre (mem := [m0])
    (by simp) (harm l hlA) M hM
  refine ⟨r, hr, ?_⟩
  have hd := lineSearch_descends' hc.sigmaOne hc.sigmaTwo hre
    (harm (2 * cfg.stepSizeTolerance) (le_trans (mul_le_mul_of_nonneg_left
      (mul_le_mul_of_nonneg_right ha1 hL) (by linarith [hc.floor0])) hc.floor2)) hc.floor1
    (by linarith) hr
  obtain ⟨hp, -⟩ := lineSearch_spec hre hr
  have hneg := slope_nonpos ha hδ hN
  have : cfg.gamma * δ * r.stepSize ≤ 0 :=
    mul_nonpos_of_nonpos_of_nonneg (mul_nonpos_of_nonneg_of_nonpos hc.gamma0 hneg)
      (hp.pos_sigma hc.sigmaOne).le
  linarith

/-! ### KernelAA -/

namespace KAAState

theorem updateWeights_descends_floor [Archimedean K] {cfg : LSConfig K} {L : K} (hc : cfg.Suits L)
    (hk : 1 ≤ k) {B : K} (hB : 0 ≤ B) (hL : B * k ≤ L)
    {delta : K} {A : Matrix (Fin n) (Fin n) K} (hA : Aᵀ = A) (hAB : ∀ i j, |A i j| ≤ B)
    {s : KAAState n k K} (hg : s.Good A) (hS : RowStochastic s.S) (hC : RowStochastic s.C)
    (ha : 0 < s.alphaS) (ha1 : s.alphaS ≤ cfg.alphaMax) {m0 : K} (hm : s.fSMem = [m0]) :
    ∃ s', s.updateWeights cfg delta = Py.ok s' ∧ kaaCost A s'.S s'.C ≤ kaaCost A s.S s.C := by
  set d := simplexProjectRows (s.S - s.alphaS • kaaGradS s.Kmat s.S s.C) - s.S with hd
  have hslope := projected_slope (G := kaaGradS s.Kmat s.S s.C) hk hS s.alphaS
  rw [← hd] at hslope
  have hL0 : 0 ≤ L := le_trans (by positivity) hL
  obtain ⟨r, hr, hle⟩ := lineSearch_quadratic_floor hc
    (weightsTrial_retriable (n := n) (k := k) (K := K)) (m0 := m0) (s := s.weightsStart)
    (f0 := kaaCost A s.S s.C) (δ := inner d (kaaGradS s.Kmat s.S s.C))
    (q := ((dᵀ * d) * (s.C * A * s.Cᵀ)).trace) (fun lam => by
      rw [weightsTrial_cost hg, ← hd, kaaCost_add_S hA, hg.Kmat]) ha ha1 hslope (frobSq_nonneg _)
    hL0 ((kaa_curvature_S hB hAB hC d).trans
      (mul_le_mul_of_nonneg_right hL (frobSq_nonneg _)))
  have hup : ∃ s', s.updateWeights cfg delta = Py.ok s' := by
    rw [updateWeights_eq hg, hm, ← hd, hr]
    exact ⟨_, rfl⟩
  obtain ⟨s', hs'⟩ := hup
  refine ⟨s', hs', ?_⟩
  have hs2 := hs'
  rw [updateWeights_eq hg, hm, ← hd, hr] at hs2
  simp only [Py.ok_bind, Py.ok.injEq] at hs2
  obtain ⟨-, -, -, he, -⟩ := lineSearch_spec weightsTrial_retriable hr
  have hcost : (weightsTrial s.weightsStart r.stepSize).2 = r.cost := congrArg Prod.snd he
  have hstate : (weightsTrial s.weightsStart r.stepSize).1 = r.state := congrArg Prod.fst he
  rw [weightsTrial_cost hg, ← hd] at hcost
  have e1 : s'.S = r.state.S := by
    rw [← hs2]; unfold updateWeightsGradient; by_cases hdel : delta > 0 <;> simp [hdel]
  have e2 : s'.C = r.state.C := by
    rw [← hs2]; unfold updateWeightsGradient; by_cases hdel : delta > 0 <;> simp [hdel]
  rw [e1, e2, ← hstate]
  refine le_trans (le_of_eq ?_) hle
  rw [← hcost]
  rfl

theorem updateDictionaryCore_descends_floor [Archimedean K] {cfg : LSConfig K} {L : K}
    (hc : cfg.Suits L) (hn : 1 ≤ n) {B : K} (hB : 0 ≤ B) (hL : B * (n : K) ^ 2 ≤ L)
    {delta : K} {A : Matrix (Fin n) (Fin n) K} (hA : Aᵀ = A) (hAB : ∀ i j, |A i j| ≤ B)
    {s : KAAState n k K} (hg : s.Good A) (hS : RowStochastic s.S) (hC : RowStochastic s.C)
    (ha : 0 < s.alphaC) (ha1 : s.alphaC ≤ cfg.alphaMax) {m0 : K} (hm : s.fCMem = [m0]) :
    ∃ s', s.updateDictionaryCore cfg delta = Py.ok s' ∧
      kaaCost A s'.S s'.C ≤ kaaCost A s.S s.C := by
  set d := simplexProjectRows (s.C - s.alphaC • kaaGradC s.Kmat s.S s.C) - s.C with hd
  have hslope := projected_slope (G := kaaGradC s.Kmat s.S s.C) hn hC s.alphaC
  rw [← hd] at hslope
  have hL0 : 0 ≤ L := le_trans (by positivity) hL
  obtain ⟨r, hr, hle⟩ := lineSearch_quadratic_floor hc
    (dictionaryTrial_retriable (n := n) (k := k) delta) (m0 := m0) (s := s.dictStart)
    (f0 := kaaCost A s.S s.C) (δ := inner d (kaaGradC s.Kmat s.S s.C))
    (q := ((s.Sᵀ * s.S) * (d * A * dᵀ)).trace) (fun lam => by
      rw [dictionaryTrial_cost hg, ← hd, kaaCost_add_C hA, hg.Kmat]) ha ha1 hslope
    (frobSq_nonneg _) hL0 ((kaa_curvature_C hB hAB hS d).trans
      (mul_le_mul_of_nonneg_right hL (frobSq_nonneg _)))
  have hup : ∃ s', s.updateDictionaryCore cfg delta = Py.ok s' := by
    rw [updateDictionaryCore_eq hg, hm, ← hd, hr]
    exact ⟨_, rfl⟩
  obtain ⟨s', hs'⟩ := hup
  refine ⟨s', hs', ?_⟩
  have hs2 := hs'
  rw [updateDictionaryCore_eq hg, hm, ← hd, hr] at hs2
  simp only [Py.ok_bind, Py.ok.injEq] at hs2
  obtain ⟨-, -, -, he, -⟩ := lineSearch_spec (dictionaryTrial_retriable delta) hr
  have hcost : (dictionaryTrial delta s.dictStart r.stepSize).2 = r.cost := congrArg Prod.snd he
  have hstate : (dictionaryTrial delta s.dictStart r.stepSize).1 = r.state := congrArg Prod.fst he
  rw [dictionaryTrial_cost hg, ← hd] at hcost
  rw [dictionaryTrial_eq _ _ (by exact hg.alpha)] at hstate
  have e1 : s'.S = r.state.S := by
    rw [← hs2]; unfold updateDictionaryGradient; by_cases hdel : delta > 0 <;> simp [hdel]
  have e2 : s'.C = r.state.C := by
    rw [← hs2]; unfold updateDictionaryGradient; by_cases hdel : delta > 0 <;> simp [hdel]
  rw [e1, e2, ← hstate]
  refine le_trans (le_of_eq ?_) hle
  rw [← hcost]
  rfl

/-- A state of a fit with bounded step scales. -/
structure Bounded (cfg : LSConfig K) (A : Matrix (Fin n) (Fin n) K) (s : KAAState n k K) :
    Prop where
  ready : s.Ready A
  alphaS : s.alphaS ≤ cfg.alphaMax
  alphaC : s.alphaC ≤ cfg.alphaMax

end KAAState

theorem kaa_bounded_phases [Archimedean K] {cfg : LSConfig K} {L : K} (hc : cfg.Suits L)
    (hk : 1 ≤ k) (hn : 1 ≤ n) {B : K} (hB : 0 ≤ B) {delta : K} (hdel : delta ≤ 0)
    {A : Matrix (Fin n) (Fin n) K} (hA : Aᵀ = A) (hAB : ∀ i j, |A i j| ≤ B) {ud uw : Bool}
    (hLS : uw = true → B * k ≤ L) (hLC : ud = true → B * (n : K) ^ 2 ≤ L) :
    ∀ p ∈ (if ud then [KAAState.updateDictionary (n := n) (k := k) cfg delta] else []) ++
       (if uw then [KAAState.updateWeights cfg delta] else []),
      ∀ s, s.Bounded cfg A → ∃ s', p s = Py.ok s' ∧ s'.Bounded cfg A ∧
        (s'.evaluateCost delta).2 ≤ (s.evaluateCost delta).2 := by
  intro p hp s hb
  have hs := hb.ready
  obtain ⟨mS, hmS⟩ := hs.memS
  obtain ⟨mC, hmC⟩ := hs.memC
  rcases kaa_mem_phases hp with ⟨hu, rfl⟩ | ⟨hu, rfl⟩
  · obtain ⟨s', h, hle⟩ := KAAState.updateDictionaryCore_descends_floor hc hn hB (hLC hu)
      (delta := delta) hA hAB hs.good hs.S hs.C hs.alphaC hb.alphaC hmC
    have h' : s.updateDictionary cfg delta = Py.ok s' := by
      unfold KAAState.updateDictionary
      rw [h]
      simp [not_lt.2 hdel]
    obtain ⟨lam, hl⟩ := KAAState.updateDictionary_post hs.good h'
    have hg' := hl.good hs.good
    obtain ⟨b, q, -, hbq⟩ := hl.alpha
    refine ⟨s', h', ⟨⟨hg', by rw [hl.S]; exact hs.S, ?_, by rw [hl.alphaS]; exact hs.alphaS, ?_,
      ⟨mS, by rw [hl.fSMem, hmS]⟩, ⟨_, by rw [hl.fCMem, hmC]; rfl⟩⟩,
      by rw [hl.alphaS]; exact hb.alphaS, ?_⟩, ?_⟩
    · rw [hl.C]
      exact rowStochastic_step hs.C (projectRows_rowStochastic hn _)
        (hl.pos hc.sigmaOne hc.sigmaTwo).le (hl.le hc.sigmaOne hc.sigmaTwo)
    · rw [hbq]; exact nextSpgAlpha_pos hc.alphaMin hc.alphaMax
    · rw [hbq]; exact (nextSpgAlpha_range hc.alphaMax).2
    · rw [KAAState.evaluateCost_eq _ _ hg'.alpha, KAAState.evaluateCost_eq _ _ hs.good.alpha,
        hg'.Kmat, hs.good.Kmat]
      exact hle
  · obtain ⟨s', h, hle⟩ := KAAState.updateWeights_descends_floor hc hk hB (hLS hu)
      (delta := delta) hA hAB hs.good hs.S hs.C hs.alphaS hb.alphaS hmS
    obtain ⟨lam, hl⟩ := KAAState.updateWeights_post hs.good h
    have hg' := hl.good hs.good
    obtain ⟨b, q, -, hbq⟩ := hl.alpha
    refine ⟨s', h, ⟨⟨hg', ?_, by rw [hl.C]; exact hs.C, ?_, by rw [hl.alphaC]; exact hs.alphaC,
      ⟨_, by rw [hl.fSMem, hmS]; rfl⟩, ⟨mC, by rw [hl.fCMem, hmC]⟩⟩, ?_,
      by rw [hl.alphaC]; exact hb.alphaC⟩, ?_⟩
    · rw [hl.S]
      exact rowStochastic_step hs.S (projectRows_rowStochastic hk _)
        (hl.pos hc.sigmaOne hc.sigmaTwo).le (hl.le hc.sigmaOne hc.sigmaTwo)
    · rw [hbq]; exact nextSpgAlpha_pos hc.alphaMin hc.alphaMax
    · rw [hbq]; exact (nextSpgAlpha_range hc.alphaMax).2
    · rw [KAAState.evaluateCost_eq _ _ hg'.alpha, KAAState.evaluateCost_eq _ _ hs.good.alpha,
        hg'.Kmat, hs.good.Kmat]
      exact hle

theorem kaaIterate_succeeds_floor [Archimedean K] {cfg : LSConfig K} {L : K} (hc : cfg.Suits L)
    (hmem : cfg.memory = 1) (hk : 1 ≤ k) (hn : 1 ≤ n) {B : K} (hB : 0 ≤ B) {delta : K}
    (hdel : delta ≤ 0)
    {A : Matrix (Fin n) (Fin n) K} (hA : Aᵀ = A) (hAB : ∀ i j, |A i j| ≤ B) {require : Bool}
    {tol : K} {maxIter : ℕ} (hm : 0 < maxIter) {ud uw : Bool}
    (hLS : uw = true → B * k ≤ L) (hLC : ud = true → B * (n : K) ^ 2 ≤ L)
    {S : Matrix (Fin n) (Fin k) K} (hS : RowStochastic S) {C : Matrix (Fin k) (Fin n) K}
    (hC : RowStochastic C) :
    ∃ r, kaaIterate cfg delta require tol maxIter ud uw
      (KAAState.initializeWorkspace cfg A S C) = Py.ok r := by
  obtain ⟨r, hr, -⟩ := iterate_ok (evalCost := KAAState.evaluateCost delta)
    (KAAState.evaluateCost_idem delta) (require := require) (tol := tol)
    (Inv := KAAState.Bounded cfg A) (fun s h => by
      have hr := h.ready
      rw [KAAState.evaluateCost_eq _ _ hr.good.alpha]
      exact ⟨⟨⟨hr.good.Kmat, hr.good.traceK, hr.good.alpha, rfl⟩, hr.S, hr.C, hr.alphaS, hr.alphaC,
        hr.memS, hr.memC⟩, h.alphaS, h.alphaC⟩)
    (kaa_bounded_phases hc hk hn hB hdel hA hAB hLS hLC)
    (s := KAAState.initializeWorkspace cfg A S C)
    ⟨kaa_ready_initial hmem hS hC, hc.one, hc.one⟩ hm
  exact ⟨r, hr⟩

/-! ### GPNHConvexCoding -/

theorem lipS_le (eps : K) (hT : 0 < T) {W : Matrix (Fin T) (Fin k) K} (hW : RowStochastic W) :
    GPNHState.lipS eps W D ≤ 1 / (D : K) + |eps| * (2 * k / ((k : K) * ((k : K) - 1) * (D : K))) := by
  have hT' : (0 : K) < T := by exact_mod_cast hT
  unfold GPNHState.lipS
  refine add_le_add ?_ le_rfl
  rcases Nat.eq_zero_or_pos D with h | h
  · simp [h]
  · have hD' : (0 : K) < D := by exact_mod_cast h
    rw [div_le_div_iff₀ (by positivity) hD']
    have := frobSq_rowStochastic hW
    nlinarith

/-- A state of a fit to `X` of bounded cost and step scales. -/
structure GPNHState.Bounded (cfg : LSConfig K) (X : Matrix (Fin T) (Fin D) K) (eps c0 : K)
    (ud : Bool) (S0 : Matrix (Fin k) (Fin D) K) (s : GPNHState T D k K) : Prop where
  ready : s.Ready
  data : s.X = X
  cost : gpnhCost eps X s.Gamma s.S ≤ c0
  fixed : ud = false → s.S = S0
  alphaS : s.alphaS ≤ cfg.alphaMax
  alphaGamma : s.alphaGamma ≤ cfg.alphaMax

theorem gpnh_bounded_phases [Archimedean K] {cfg : LSConfig K} {L : K} (hc : cfg.Suits L)
    (hk : 1 ≤ k) (hT : 0 < T) {eps c0 : K} {X : Matrix (Fin T) (Fin D) K}
    {S0 : Matrix (Fin k) (Fin D) K} {ud uw : Bool} {R : K}
    (hR : ∀ (W : Matrix (Fin T) (Fin k) K) (S : Matrix (Fin k) (Fin D) K), RowStochastic W →
      gpnhCost eps X W S ≤ c0 → (ud = false → S = S0) → frobSq S ≤ R)
    (hLW : uw = true → R / ((D : K) * (T : K)) ≤ L)
    (hLS : ud = true →
      1 / (D : K) + |eps| * (2 * k / ((k : K) * ((k : K) - 1) * (D : K))) ≤ L) :
    ∀ p ∈ (if ud then [GPNHState.updateDictionary (T := T) (D := D) (k := k) cfg eps] else []) ++
       (if uw then [GPNHState.updateWeights cfg eps] else []),
      ∀ s, s.Bounded cfg X eps c0 ud S0 → ∃ s', p s = Py.ok s' ∧ s'.Bounded cfg X eps c0 ud S0 ∧
        s'.evaluateCost eps ≤ s.evaluateCost eps := by
  intro p hp s hb
  have hs := hb.ready
  obtain ⟨mS, hmS⟩ := hs.memS
  obtain ⟨mG, hmG⟩ := hs.memG
  have hscale : ∀ {a l : K}, 0 < a → a ≤ cfg.alphaMax → 0 ≤ l → l ≤ L →
      2 * cfg.stepSizeTolerance * (a * l) ≤ 1 - cfg.gamma := by
    intro a l h0 h1 h2 h3
    refine le_trans (mul_le_mul_of_nonneg_left ?_ (by linarith [hc.floor0])) hc.floor2
    exact mul_le_mul h1 h3 h2 (h0.le.trans h1)
  rcases mem_phases hp with ⟨hu, rfl⟩ | ⟨hu, rfl⟩
  · obtain ⟨s', h⟩ := GPNHState.updateDictionary_terminates_armijo hc.sigmaOne hc.sigmaTwo hc.gamma1
      (eps := eps) hs.alphaS (by rw [hmS]; simp)
    have hdesc := GPNHState.updateDictionary_descends hc.sigmaOne hc.sigmaTwo hc.gamma0 hc.floor1
      hs.alphaS hmS (hscale hs.alphaS hb.alphaS (GPNHState.lipS_nonneg eps s.Gamma)
        ((lipS_le eps hT hs.stoch).trans (hLS hu))) h
    obtain ⟨lam, hl⟩ := GPNHState.updateDictionary_post h
    obtain ⟨b, q, -, hbq⟩ := hl.alpha
    refine ⟨s', h, ⟨⟨hl.SSt, by rw [hl.Gamma]; exact hs.stoch, ?_,
      by rw [hl.alphaGamma]; exact hs.alphaGamma, ⟨_, by rw [hl.fSMem, hmS]; rfl⟩,
      ⟨mG, by rw [hl.fGammaMem, hmG]⟩⟩, by rw [hl.X]; exact hb.data, ?_,
      fun h => by rw [h] at hu; simp at hu, ?_, by rw [hl.alphaGamma]; exact hb.alphaGamma⟩, ?_⟩
    · rw [hbq]; exact nextSpgAlpha_pos hc.alphaMin hc.alphaMax
    · rw [hl.X, hb.data] at hdesc
      exact hdesc.trans hb.cost
    · rw [hbq]; exact (nextSpgAlpha_range hc.alphaMax).2
    · rw [GPNHState.evaluateCost_eq _ _ hl.SSt, GPNHState.evaluateCost_eq _ _ hs.SSt]
      exact hdesc
  · obtain ⟨s', h⟩ := GPNHState.updateWeights_terminates_armijo hc.sigmaOne hc.sigmaTwo hc.gamma1 hk
      (eps := eps) hs.stoch hs.alphaGamma (by rw [hmG]; simp)
    have hlip : GPNHState.lipW s.S T ≤ L := by
      refine le_trans ?_ (hLW hu)
      unfold GPNHState.lipW
      exact div_le_div_of_nonneg_right (hR _ _ hs.stoch hb.cost hb.fixed) (by positivity)
    have hdesc := GPNHState.updateWeights_descends hc.sigmaOne hc.sigmaTwo hc.gamma0 hc.floor1 hk
      hs.stoch hs.alphaGamma hmG
      (hscale hs.alphaGamma hb.alphaGamma (GPNHState.lipW_nonneg s.S) hlip) h
    obtain ⟨lam, hl⟩ := GPNHState.updateWeights_post h
    obtain ⟨b, q, -, hbq⟩ := hl.alpha
    refine ⟨s', h, ⟨⟨by rw [hl.SSt, hl.S], ?_, by rw [hl.alphaS]; exact hs.alphaS, ?_,
      ⟨mS, by rw [hl.fSMem, hmS]⟩, ⟨_, by rw [hl.fGammaMem, hmG]; rfl⟩⟩,
      by rw [hl.X]; exact hb.data, ?_, fun h => by rw [hl.S]; exact hb.fixed h,
      by rw [hl.alphaS]; exact hb.alphaS, ?_⟩, ?_⟩
    · rw [hl.Gamma]
      exact rowStochastic_step hs.stoch (projectRows_rowStochastic hk _)
        (hl.pos hc.sigmaOne hc.sigmaTwo).le (hl.le hc.sigmaOne hc.sigmaTwo)
    · rw [hbq]; exact nextSpgAlpha_pos hc.alphaMin hc.alphaMax
    · rw [hl.X, hb.data] at hdesc
      exact hdesc.trans hb.cost
    · rw [hbq]; exact (nextSpgAlpha_range hc.alphaMax).2
    · rw [GPNHState.evaluateCost_eq _ _ (by rw [hl.SSt, hl.S]),
        GPNHState.evaluateCost_eq _ _ hs.SSt]
      exact hdesc

theorem gpnhIterate_succeeds_floor [Archimedean K] {cfg : LSConfig K} {L : K} (hc : cfg.Suits L)
    (hmem : cfg.memory = 1) (hk : 1 ≤ k) {eps : K} {X : Matrix (Fin T) (Fin D) K}
    {S0 : Matrix (Fin k) (Fin D) K} {W0 : Matrix (Fin T) (Fin k) K} (hW0 : RowStochastic W0)
    {ud uw : Bool} {R : K}
    (hR : ∀ (W : Matrix (Fin T) (Fin k) K) (S : Matrix (Fin k) (Fin D) K), RowStochastic W →
      gpnhCost eps X W S ≤ gpnhCost eps X W0 S0 → (ud = false → S = S0) → frobSq S ≤ R)
    (hLW : uw = true → R / ((D : K) * (T : K)) ≤ L)
    (hLS : ud = true →
      1 / (D : K) + |eps| * (2 * k / ((k : K) * ((k : K) - 1) * (D : K))) ≤ L)
    {require : Bool} {tol : K} {maxIter : ℕ} (hm : 0 < maxIter) (hDT : D * T ≠ 0) :
    ∃ r, gpnhIterate cfg eps require tol maxIter ud uw
      (GPNHState.initializeWorkspace cfg X W0 S0) = Py.ok r := by
  have hT : 0 < T := Nat.pos_of_ne_zero fun h => hDT (by simp [h])
  obtain ⟨r, hr, -⟩ := iterate_ok (evalCost := fun s : GPNHState T D k K => (s, s.evaluateCost eps))
    (fun _ => rfl) (require := require) (tol := tol)
    (Inv := GPNHState.Bounded cfg X eps (gpnhCost eps X W0 S0) ud S0) (fun _ h => h)
    (gpnh_bounded_phases hc hk hT hR hLW hLS)
    (s := GPNHState.initializeWorkspace cfg X W0 S0)
    ⟨ready_initial hmem hW0 S0, rfl, le_rfl, fun _ => rfl, hc.one, hc.one⟩ hm
  exact ⟨r, gpnhIterate_eq_ok.2 ⟨hDT, hr⟩⟩

/-! ### A line search that only ever halves -/

theorem lineSearch_halves {σ : Type} {cfg : LSConfig K} {trial : σ → K → σ × K}
    (hre : Retriable trial) {δ f0 m0 : K} {s : σ}
    {f : K → K} (hf : ∀ lam, (trial s lam).2 = f lam) (J : ℕ)
    (hrej : ∀ j ≤ J, f0 + cfg.gamma * δ * (1 / 2) ^ j < f ((1 / 2) ^ j))
    (hhalf : ∀ j ≤ J, nextSpgStepLength ((1 / 2) ^ j) δ f0 (f ((1 / 2) ^ j)) cfg.sigmaOne
      cfg.sigmaTwo = (1 / 2) ^ (j + 1))
    (hbig : ∀ j ≤ J, cfg.stepSizeTolerance ≤ (1 / 2) ^ j)
    (hsmall : (1 / 2) ^ (J + 1) < cfg.stepSizeTolerance) :
    ∃ n, lineSearch cfg trial [m0] s f0 δ = Py.ok ⟨[f0], (1 / 2) ^ (J + 1),
      (trial s ((1 / 2) ^ (J + 1))).1, f ((1 / 2) ^ (J + 1)), n⟩ := by
  have key : ∀ m j, j + m = J → ∀ (x : σ) (n : ℕ), (∀ b, trial x b = trial s b) → ∃ n',
      backtrack cfg trial f0 δ f0 ((1 / 2) ^ j) x (f ((1 / 2) ^ j)) n =
        some ((1 / 2) ^ (J + 1), (trial s ((1 / 2) ^ (J + 1))).1, f ((1 / 2) ^ (J + 1)), n') := by
    intro m
    induction m with
    | zero =>
      intro j hj x n hx
      obtain rfl : j = J := by omega
      rw [backtrack_unfold, if_pos (hrej j le_rfl)]
      simp only [hhalf j le_rfl, hx, hf]
      rw [if_pos (by rw [abs_of_pos (by positivity)]; exact hsmall)]
      exact ⟨n + 1, rfl⟩
    | succ m ih =>
      intro j hj x n hx
      rw [backtrack_unfold, if_pos (hrej j (by omega))]
      simp only [hhalf j (by omega), hx, hf]
      rw [if_neg (by rw [abs_of_pos (by positivity)]; exact not_lt.2 (hbig (j + 1) (by omega)))]
      exact ih (j + 1) (by omega) _ _ (fun b => by rw [hre])
  obtain ⟨n, h⟩ := key J 0 (by simp) (trial s 1).1 0 (fun b => by rw [hre])
  refine ⟨n, ?_⟩
  rw [lineSearch_eq_ok]
  refine ⟨by simp, rfl, f0, rfl, ?_⟩
  rw [pow_zero] at h
  rw [hf]
  exact h

end Reor
