import Verif.Proofs.Stationary
import Verif.Proofs.Stopping

/-!
Guaranteed progress of the updates, and what it says about the factors when a fit stops.
-/

namespace Reor

set_option linter.unusedSectionVars false

open scoped BigOperators Matrix
open Spec

variable {K : Type} [Field K] [LinearOrder K] [IsStrictOrderedRing K]

/-! ### Line searches do not end with very short steps -/

section LineSearch

variable {σ : Type}

theorem backtrack_step_ge {cfg : LSConfig K} {trial : σ → K → σ × K} {Inv : σ → Prop}
    {fMax δ f0 : K} (h1 : 0 < cfg.sigmaOne) (h2 : cfg.sigmaTwo < 1)
    (hInv : ∀ s lam, Inv s → Inv (trial s lam).1)
    {b : K} (harm : ∀ s lam, Inv s → 0 < lam → lam ≤ 1 → lam ≤ 2 * b →
      (trial s lam).2 ≤ fMax + cfg.gamma * δ * lam)
    (hb1 : b ≤ cfg.sigmaOne)
    (step : K) (s : σ) (c : K) (n : ℕ) (r : K × σ × K × ℕ)
    (hr : backtrack cfg trial fMax δ f0 step s c n = some r)
    (hpos : 0 < step) (hle : step ≤ 1) (hge : b ≤ step) (hs : Inv s)
    (htr : ∃ s0, Inv s0 ∧ trial s0 step = (s, c)) : b ≤ r.1 := by
  have key := backtrack.partial_correctness cfg trial fMax δ f0
    (motive := fun step s c n r => 0 < step → step ≤ 1 → b ≤ step → Inv s →
      (∃ s0, Inv s0 ∧ trial s0 step = (s, c)) → b ≤ r.1)
    (by
      intro bt ih step s c n r hr hpos hle hgeb hs htr
      simp only at hr
      have hge := nextStep_ge (lam := step) (δ := δ) (f0 := f0) (f1 := c) (s1 := cfg.sigmaOne)
        (s2 := cfg.sigmaTwo)
      have hbig : c > fMax + cfg.gamma * δ * step → b ≤ nextSpgStepLength step δ f0 c cfg.sigmaOne
          cfg.sigmaTwo := by
        intro hc
        have : 2 * b < step := by
          by_contra hcon
          obtain ⟨s0, hs0, hst⟩ := htr
          have := harm s0 step hs0 hpos hle (not_lt.mp hcon)
          rw [hst] at this
          exact absurd hc (not_lt.mpr this)
        exact (le_min hb1 (by linarith)).trans hge
      split_ifs at hr with hc htol
      · simp only [Option.some.injEq] at hr
        subst hr
        exact hbig hc
      · have hp := nextStep_pos (δ := δ) (f0 := f0) (f1 := c) (s2 := cfg.sigmaTwo) hpos h1
        have hl := nextStep_lt (δ := δ) (f0 := f0) (f1 := c) (s1 := cfg.sigmaOne) hpos h2
        exact ih _ _ _ _ r hr hp (hl.le.trans hle) (hbig hc) (hInv _ _ hs) ⟨s, hs, rfl⟩
      · simp only [Option.some.injEq] at hr
        subst hr
        exact hgeb)
    step s c n r hr
  exact key hpos hle hge hs htr

/-- With one remembered cost, a line search along a quadratic lowers the cost by a fixed multiple of
the squared length of the direction. -/
theorem lineSearch_progress {cfg : LSConfig K} {trial : σ → K → σ × K}
    (h1 : 0 < cfg.sigmaOne) (h2 : cfg.sigmaTwo < 1) (hg0 : 0 ≤ cfg.gamma)
    (hre : Retriable trial) {m0 : K} {s : σ} {f0 δ q N L alpha top b : K}
    (hquad : ∀ lam, (trial s lam).2 = f0 + lam * δ + lam ^ 2 * q) (ha : 0 < alpha)
    (htop : alpha ≤ top) (hδ : N + alpha * δ ≤ 0) (hN : 0 ≤ N) (hL : 0 ≤ L) (hq : q ≤ L * N)
    (hb0 : 0 < b) (hb1 : b ≤ 1) (hb2 : b ≤ cfg.sigmaOne)
    (hb3 : 2 * b * (top * L) ≤ 1 - cfg.gamma) (hbt : cfg.stepSizeTolerance ≤ b) {r : LSResult σ K}
    (hr : lineSearch cfg trial [m0] s f0 δ = Py.ok r) :
    r.cost ≤ f0 - cfg.gamma * b / top * N := by
  have htop0 : 0 < top := ha.trans_le htop
  have harm : ∀ lam, 0 < lam → lam ≤ 1 → lam ≤ 2 * b →
      (trial s lam).2 ≤ f0 + cfg.gamma * δ * lam := by
    intro lam h0 _ hl'
    rw [hquad]
    refine armijo_of_quadratic hq hL ha hδ hN h0.le (le_trans ?_ hb3)
    exact mul_le_mul hl' (mul_le_mul_of_nonneg_right htop hL) (mul_nonneg ha.le hL)
      (by linarith)
  have hd := lineSearch_descends' h1 h2 hre harm (hbt.trans hb2) (by linarith) hr
  have hge : b ≤ r.stepSize := by
    obtain ⟨hne, hmem, fMax, hM, hb⟩ := lineSearch_eq_ok.1 hr
    have : fMax = f0 := by
      simp [foldMax, maxStep] at hM
      exact hM.symm
    subst this
    exact backtrack_step_ge (Inv := fun x => ∀ b, trial x b = trial s b) h1 h2
      (fun x lam hx b => by rw [hre, hx])
      (fun x lam hx h3 h4 h5 => by rw [hx]; exact harm lam h3 h4 h5) hb2 _ _ _ _ _ hb one_pos le_rfl
      hb1 (fun b => by rw [hre]) ⟨s, fun _ => rfl, rfl⟩
  have hneg := slope_nonpos ha hδ hN
  have h3 : top * -δ ≥ N := by
    have : alpha * -δ ≤ top * -δ := mul_le_mul_of_nonneg_right htop (by linarith)
    linarith
  have h4 : N / top ≤ -δ := by rw [div_le_iff₀ htop0]; linarith
  have h5 : cfg.gamma * b * (N / top) ≤ cfg.gamma * r.stepSize * -δ :=
    mul_le_mul (mul_le_mul_of_nonneg_left hge hg0) h4 (div_nonneg hN htop0.le)
      (mul_nonneg hg0 (hb0.le.trans hge))
  have e1 : cfg.gamma * b / top * N = cfg.gamma * b * (N / top) := by ring
  have e2 : cfg.gamma * r.stepSize * -δ = -(cfg.gamma * δ * r.stepSize) := by ring
  rw [e1]
  linarith

/-- A step floor that is small compared with `M`, a bound for step scale times curvature. -/
structure LSConfig.Floor (cfg : LSConfig K) (M : K) : Prop where
  one : cfg.stepSizeTolerance ≤ 1
  sigma : cfg.stepSizeTolerance ≤ cfg.sigmaOne
  curvature : 2 * cfg.stepSizeTolerance * M ≤ 1 - cfg.gamma

theorem LSConfig.Floor.of_zero {cfg : LSConfig K} (ht : cfg.stepSizeTolerance = 0)
    (h1 : 0 < cfg.sigmaOne) (hg1 : cfg.gamma < 1) (M : K) : cfg.Floor M :=
  ⟨by rw [ht]; exact zero_le_one, by rw [ht]; exact h1.le, by rw [ht]; linarith⟩

theorem LSConfig.Floor.mono {cfg : LSConfig K} (h0 : 0 ≤ cfg.stepSizeTolerance) {M N : K}
    (h : cfg.Floor M) (hN : N ≤ M) : cfg.Floor N :=
  ⟨h.one, h.sigma, (mul_le_mul_of_nonneg_left hN (by linarith)).trans h.curvature⟩

/-- An admissible lower bound for the steps. -/
theorem exists_step_bound {cfg : LSConfig K} (h1 : 0 < cfg.sigmaOne) (hg1 : cfg.gamma < 1) {M : K}
    (hM : 0 ≤ M) (hf : cfg.Floor M) : ∃ b, 0 < b ∧ b ≤ 1 ∧ b ≤ cfg.sigmaOne ∧
      2 * b * M ≤ 1 - cfg.gamma ∧ cfg.stepSizeTolerance ≤ b := by
  set b := min (min 1 cfg.sigmaOne) ((1 - cfg.gamma) / (2 * M + 1)) with hb
  have hb0 : 0 < b := lt_min (lt_min one_pos h1) (div_pos (by linarith) (by linarith))
  have hb1 : b ≤ 1 := (min_le_left _ _).trans (min_le_left _ _)
  have hb2 : b ≤ cfg.sigmaOne := (min_le_left _ _).trans (min_le_right _ _)
  have hb3 : 2 * b * M ≤ 1 - cfg.gamma := by
    have h3 : b ≤ (1 - cfg.gamma) / (2 * M + 1) := min_le_right _ _
    rw [le_div_iff₀ (by linarith)] at h3
    linarith
  refine ⟨max b cfg.stepSizeTolerance, lt_max_of_lt_left hb0, max_le hb1 hf.one,
    max_le hb2 hf.sigma, ?_, le_max_right _ _⟩
  rcases le_total b cfg.stepSizeTolerance with h | h
  · rw [max_eq_right h]; exact hf.curvature
  · rw [max_eq_left h]; exact hb3

end LineSearch

/-! ### Bounds on matrices -/

section Bounds

variable {m n p : ℕ}

theorem frobSq_add_le (A B : Matrix (Fin m) (Fin n) K) :
    frobSq (A + B) ≤ 2 * frobSq A + 2 * frobSq B := by
  unfold frobSq
  rw [Finset.mul_sum, Finset.mul_sum, ← Finset.sum_add_distrib]
  refine Finset.sum_le_sum fun i _ => ?_
  rw [Finset.mul_sum, Finset.mul_sum, ← Finset.sum_add_distrib]
  refine Finset.sum_le_sum fun j _ => ?_
  rw [Matrix.add_apply]
  nlinarith [sq_nonneg (A i j - B i j)]

theorem frobSq_rowStochastic {A : Matrix (Fin m) (Fin n) K} (hA : RowStochastic A) :
    frobSq A ≤ m := by
  unfold frobSq
  have : ∀ i ∈ Finset.univ, ∑ j, A i j ^ 2 ≤ (1 : K) := by
    intro i _
    rw [← (hA i).2]
    refine Finset.sum_le_sum fun j _ => ?_
    have h0 := (hA i).1 j
    have h1 : A i j ≤ 1 := by
      rw [← (hA i).2]
      exact Finset.single_le_sum (f := fun j => A i j) (fun j _ => (hA i).1 j) (Finset.mem_univ j)
    simp only at h0 h1 ⊢
    nlinarith
  refine (Finset.sum_le_sum this).trans (le_of_eq ?_)
  simp

theorem frobSq_mul_le_of {A : Matrix (Fin m) (Fin p) K} {B : Matrix (Fin p) (Fin n) K} {a b : K}
    (hA : frobSq A ≤ a) (hB : frobSq B ≤ b) : frobSq (A * B) ≤ a * b :=
  (frobSq_mul_le A B).trans
    (mul_le_mul hA hB (frobSq_nonneg _) ((frobSq_nonneg _).trans hA))

theorem abs_inner_le {A B : Matrix (Fin m) (Fin n) K} {a b : K} (ha : 0 ≤ a) (hb : 0 ≤ b)
    (hA : frobSq A ≤ a ^ 2) (hB : frobSq B ≤ b ^ 2) : |inner A B| ≤ a * b := by
  refine abs_le_of_sq_le_sq ?_ (mul_nonneg ha hb)
  refine (inner_sq_le A B).trans ?_
  rw [mul_pow]
  exact mul_le_mul hA hB (frobSq_nonneg _) (sq_nonneg _)

/-- A bound for a quadratic form. -/
theorem le_of_sq_le_mul {x N M : K} (hN : 0 ≤ N) (hM : 0 ≤ M) (h : x ^ 2 ≤ N * N * M) :
    x ≤ (M + 1) * N := by
  refine (le_abs_self x).trans (abs_le_of_sq_le_sq (h.trans ?_) (by positivity))
  have : M ≤ (M + 1) ^ 2 := by nlinarith
  calc N * N * M ≤ N * N * (M + 1) ^ 2 := mul_le_mul_of_nonneg_left this (by positivity)
    _ = _ := by ring

/-- A short projected step means that the point is nearly optimal for a convex quadratic. -/
theorem near_optimal_of_short {f q : Matrix (Fin m) (Fin n) K → K}
    {A G : Matrix (Fin m) (Fin n) K} (hn : 1 ≤ n)
    (hf : ∀ H t, f (A + t • H) = f A + t * inner H G + t ^ 2 * q H) (hq : ∀ H, 0 ≤ q H)
    {alpha a0 η g R : K} (ha0 : 0 < a0) (ha : a0 ≤ alpha) (hη : 0 ≤ η) (hg : 0 ≤ g) (hR : 0 ≤ R)
    (hP : frobSq (simplexProjectRows (A - alpha • G) - A) ≤ η ^ 2) (hG : frobSq G ≤ g ^ 2)
    (hdiam : ∀ B C : Matrix (Fin m) (Fin n) K, RowStochastic B → RowStochastic C →
      frobSq (B - C) ≤ R ^ 2)
    {B : Matrix (Fin m) (Fin n) K} (hB : RowStochastic B) :
    f A ≤ f B + η * (R / a0 + g) := by
  set P := simplexProjectRows (A - alpha • G) with hPdef
  have hPs : RowStochastic P := projectRows_rowStochastic hn _
  have ha' : 0 < alpha := ha0.trans_le ha
  have h1 := projectRows_vi hn (A - alpha • G) B hB
  rw [← hPdef] at h1
  have e1 : inner (A - alpha • G - P) (B - P) =
      -inner (P - A) (B - P) - alpha * inner (B - P) G := by
    have : A - alpha • G - P = -(P - A) - alpha • G := by abel
    rw [this, inner_sub_left, inner_neg_left, inner_smul_left, inner_comm G]
  rw [e1] at h1
  have h2 := (abs_le.1 (abs_inner_le hη hR hP (hdiam B P hB hPs))).2
  have h3 := (abs_le.1 (abs_inner_le hη hg hP hG)).1
  have h4 : -(η * R) / alpha ≤ inner (B - P) G := by
    rw [div_le_iff₀ ha']; linarith
  have h5 : -(η * R / a0) ≤ -(η * R) / alpha := by
    rw [neg_div]
    exact neg_le_neg (div_le_div_of_nonneg_left (mul_nonneg hη hR) ha0 ha)
  have e2 : inner (B - A) G = inner (B - P) G + inner (P - A) G := by
    rw [← inner_add_left]; congr 1; abel
  have h6 := hf (B - A) 1
  rw [one_smul, add_sub_cancel] at h6
  have := hq (B - A)
  have e3 : η * (R / a0 + g) = η * R / a0 + η * g := by ring
  rw [h6, e3]
  linarith

end Bounds

/-! ### The outer loop -/

section Loop

variable {σ : Type} {evalCost : σ → σ × K} {require : Bool} {tol : K} {phases : List (σ → Py σ)}

/-- A loop whose iterations either lower the cost by the tolerance or end nearly optimal. -/
theorem iterateLoop_near {Inv Near : σ → Prop}
    (hiter : ∀ s c r, Inv s → evalCost s = (s, c) →
      runPhases evalCost require c phases s c = Py.ok r →
      Inv r.1 ∧ evalCost r.1 = (r.1, r.2) ∧ r.2 ≤ c ∧ (c - r.2 < tol → Near r.1)) :
    ∀ {is : List ℕ} {s : σ} {c : K} {last : Option ℕ} {tr : List K} {r : IterResult σ K},
      Inv s → evalCost s = (s, c) →
      iterateLoop evalCost require tol phases is s c last tr = Py.ok r →
      Inv r.state ∧ evalCost r.state = (r.state, r.cost) ∧
        (Near r.state ∨ is.length * tol ≤ c - r.cost)
  | [], s, c, last, tr, r, hs, hc, h => by
    cases last with
    | none => simp [iterateLoop] at h
    | some n =>
      simp only [iterateLoop, Py.ok.injEq] at h
      subst h
      exact ⟨hs, hc, Or.inr (by simp)⟩
  | i :: is, s, c, last, tr, r, hs, hc, h => by
    simp only [iterateLoop] at h
    obtain ⟨q, hq, h⟩ := Py.bind_eq_ok.1 h
    obtain ⟨hi, he, hle, hnear⟩ := hiter s c q hs hc hq
    have habs : |q.2 - c| = c - q.2 := by rw [abs_of_nonpos (by linarith)]; ring
    rw [habs] at h
    split_ifs at h with ht
    · obtain rfl := Py.ok.inj h
      exact ⟨hi, he, Or.inl (hnear ht)⟩
    · obtain ⟨h1, h2, h3⟩ := iterateLoop_near hiter hi he h
      refine ⟨h1, h2, h3.imp_right fun h3 => ?_⟩
      push_cast [List.length_cons]
      linarith

/-- With a cost that stays within a range, enough iterations end nearly optimal. -/
theorem iterate_near {Inv Near : σ → Prop}
    (hiter : ∀ s c r, Inv s → evalCost s = (s, c) →
      runPhases evalCost require c phases s c = Py.ok r →
      Inv r.1 ∧ evalCost r.1 = (r.1, r.2) ∧ r.2 ≤ c ∧ (c - r.2 < tol → Near r.1))
    (hid : ∀ s, evalCost (evalCost s).1 = evalCost s) (he : ∀ s, Inv s → Inv (evalCost s).1)
    {B : K} (hB : ∀ s c, Inv s → evalCost s = (s, c) → |c| ≤ B) {maxIter : ℕ}
    (hmax : 2 * B < maxIter * tol) {s : σ} (hs : Inv s) {r : IterResult σ K}
    (h : iterate evalCost require tol maxIter phases s = Py.ok r) : Near r.state := by
  unfold iterate at h
  have hc : evalCost (evalCost s).1 = ((evalCost s).1, (evalCost s).2) := hid s
  obtain ⟨h1, h2, h3⟩ := iterateLoop_near hiter (he s hs) hc h
  rcases h3 with h3 | h3
  · exact h3
  · exfalso
    have h4 := abs_le.1 (hB _ _ (he s hs) hc)
    have h5 := abs_le.1 (hB _ _ h1 h2)
    rw [List.length_range] at h3
    linarith [h4.2, h5.1]

end Loop

/-- Bounds of the step scale. -/
theorem nextSpgAlpha_range {beta sksk aMin aMax : K} (h1 : aMin ≤ aMax) :
    aMin ≤ nextSpgAlpha beta sksk aMin aMax ∧ nextSpgAlpha beta sksk aMin aMax ≤ aMax := by
  unfold nextSpgAlpha
  split_ifs
  · exact ⟨h1, le_rfl⟩
  · exact ⟨le_min h1 (le_max_left _ _), min_le_left _ _⟩

end Reor
