import Verif.Proofs.GPNH

/-!
Properties C09 and C10 for the backtracking loop shared by all the line searches, whatever the
estimator (`trial s step` = "move to `old + step * increment`, refresh caches, evaluate the cost").
The instances for the line searches of each class are in the files of the classes.
-/

namespace Reor

set_option linter.unusedSectionVars false

open Spec

variable {K : Type} [Field K] [LinearOrder K] [IsStrictOrderedRing K] {σ : Type}

/-- C09.  A line search ends after at most `N + 1` rounds, where `N` depends only on `sigma_two` and
`step_size_tolerance`, for any cost function whatever. -/
theorem C09_line_search_terminates (cfg : LSConfig K) (h1 : 0 < cfg.sigmaOne) (N : ℕ)
    (hN : max cfg.sigmaTwo (1 / 2) ^ (N + 1) < cfg.stepSizeTolerance)
    (trial : σ → K → σ × K) (mem : List K) (hmem : mem ≠ []) (s : σ) (f0 slope : K) :
    ∃ r, lineSearch cfg trial mem s f0 slope = Py.ok r ∧ r.rounds ≤ N + 1 :=
  lineSearch_terminates h1 hmem N hN

/-- C09.  Such a bound exists as soon as `step_size_tolerance > 0` and `sigma_two < 1`, and it
does not depend on the cost function, the state or the history. -/
theorem C09_line_search_bound_exists [Archimedean K] (cfg : LSConfig K) (h1 : 0 < cfg.sigmaOne)
    (h2 : cfg.sigmaTwo < 1) (ht : 0 < cfg.stepSizeTolerance) :
    ∃ N : ℕ, ∀ (trial : σ → K → σ × K) (mem : List K), mem ≠ [] → ∀ (s : σ) (f0 slope : K),
      ∃ r, lineSearch cfg trial mem s f0 slope = Py.ok r ∧ r.rounds ≤ N := by
  obtain ⟨N, hN⟩ := exists_pow_shrink_le (K := K) h2 (x := cfg.stepSizeTolerance / 2) (by linarith)
  refine ⟨N + 1, fun trial mem hmem s f0 slope => ?_⟩
  refine lineSearch_terminates h1 hmem N ?_
  have h3 : shrink cfg.sigmaTwo ^ (N + 1) ≤ shrink cfg.sigmaTwo ^ N :=
    pow_le_pow_of_le_one (shrink_pos _).le (shrink_lt_one h2).le (Nat.le_succ N)
  linarith

/-- C09.  `line_search_memory = 0` makes every line search fail with IndexError. -/
theorem C09_zero_memory_fails (cfg : LSConfig K) (trial : σ → K → σ × K) (s : σ) (f0 slope : K) :
    lineSearch cfg trial [] s f0 slope = Py.raise .indexError := rfl

/-- The settings of the estimators. -/
def demoLS : LSConfig ℚ :=
  { memory := 1, gamma := 1/10000, alphaMin := 1/1000, alphaMax := 1, sigmaOne := 1/10
    sigmaTwo := 9/10, stepSizeTolerance := 1/10000000000 }

example : max demoLS.sigmaTwo (1 / 2) ^ (219 + 1) < demoLS.stepSizeTolerance := by
  norm_num [demoLS]

example : 0 < demoLS.sigmaOne ∧ demoLS.sigmaTwo < 1 ∧ 0 < demoLS.stepSizeTolerance := by
  norm_num [demoLS]

/-- C10, missing: the range `0 < step ≤ 1` is proved only under the conditions of `StepBounds` on the
settings and the slope; see `C10_step_range_fails` and `C10_step_le_one_iff`.  What a finished line
search guarantees, for any settings: the iterate is that of a trial with the final step; the memory is
the previous one with the oldest cost dropped and the current one appended; the cost is at most the
largest remembered cost plus `gamma * slope * step`, or the step is below the tolerance. -/
theorem C10_line_search_result_partial (cfg : LSConfig K)
    (trial : σ → K → σ × K) (hre : ∀ s a b, trial (trial s a).1 b = trial s b)
    (mem : List K) (s : σ) (f0 slope : K) (r : LSResult σ K)
    (hr : lineSearch cfg trial mem s f0 slope = Py.ok r) :
    StepBounds cfg.gamma cfg.sigmaOne cfg.sigmaTwo slope r.stepSize ∧
    r.mem = mem.tail ++ [f0] ∧ trial s r.stepSize = (r.state, r.cost) ∧
    ((∃ fMax ∈ r.mem, (∀ f ∈ r.mem, f ≤ fMax) ∧
      r.cost ≤ fMax + cfg.gamma * slope * r.stepSize) ∨ |r.stepSize| < cfg.stepSizeTolerance) := by
  obtain ⟨a, c, -, d, e⟩ := lineSearch_spec hre hr
  refine ⟨a.bounds, c, d, ?_⟩
  rw [c]
  exact e

/-- C10.  With `0 < sigma_one` and `sigma_two ≤ 1`, or with a negative slope and `gamma ≤ 1/2`
whatever the safeguards, the final step is positive and at most 1. -/
theorem C10_step_range (cfg : LSConfig K) (trial : σ → K → σ × K) (mem : List K) (s : σ)
    (f0 slope : K)
    (hcfg : (0 < cfg.sigmaOne ∧ cfg.sigmaTwo ≤ 1) ∨ (slope < 0 ∧ cfg.gamma ≤ 1 / 2))
    (r : LSResult σ K) (hr : lineSearch cfg trial mem s f0 slope = Py.ok r) :
    0 < r.stepSize ∧ r.stepSize ≤ 1 := by
  have h := lineSearch_range hr
  rcases hcfg with ⟨h1, h2⟩ | ⟨h1, h2⟩
  · exact ⟨h.pos_sigma h1, h.le_one (Or.inl h1.le) (Or.inl h2)⟩
  · exact ⟨h.pos_slope h1 (h2.trans (by norm_num)),
      h.le_one (Or.inr ⟨h1.le, h2.trans (by norm_num)⟩) (Or.inr ⟨h1.le, h2⟩)⟩

/-- C10, the exact settings for which the step stays below 1: with `0 ≤ sigma_one`, every line search
along every direction with slope at most 0, whatever the costs of the trials, ends with a step of at
most 1 if and only if `sigma_two ≤ 1`, or `gamma ≤ 1/2`, or no interpolated step can pass the
safeguards above 1. -/
theorem C10_step_le_one_iff (cfg : LSConfig K) (h1 : 0 ≤ cfg.sigmaOne) :
    (∀ (trial : Unit → K → Unit × K) (mem : List K) (f0 slope : K) (r : LSResult Unit K),
      slope ≤ 0 → lineSearch cfg trial mem () f0 slope = Py.ok r → r.stepSize ≤ 1) ↔
    (cfg.sigmaTwo ≤ 1 ∨ cfg.gamma ≤ 1 / 2 ∨ cfg.sigmaTwo < cfg.sigmaOne ∨
      (cfg.gamma < 1 ∧ 1 / (2 * (1 - cfg.gamma)) ≤ cfg.sigmaOne)) :=
  step_le_one_iff h1

/-- With the default `gamma`, `sigma_two = 10` is harmless; with `gamma = 0.95` it is not. -/
example : SafeSteps demoLS.gamma demoLS.alphaMax demoLS.sigmaOne 10 ∧
    ¬ SafeSteps (95 / 100) demoLS.alphaMax demoLS.sigmaOne 10 := by
  norm_num [SafeSteps, demoLS]

/-- C10 is false for settings that the constructors accept: with `sigma_two = 10`, `gamma = 0.95` and
`step_size_tolerance = 100` the search along the parabola `t²/10 - t` ends with the step 5. -/
theorem C10_step_range_fails : ∃ (cfg : LSConfig ℚ) (trial : Unit → ℚ → Unit × ℚ)
    (r : LSResult Unit ℚ), (∀ t, (trial () t).2 = t ^ 2 / 10 - t) ∧
    lineSearch cfg trial [0] () 0 (-1) = Py.ok r ∧ r.stepSize = 5 := by
  refine ⟨⟨1, 95/100, 1/1000, 1, 1/10, 10, 100⟩, fun _ t => ((), t ^ 2 / 10 - t),
    ⟨[0], 5, (), -5/2, 1⟩, fun _ => rfl, ?_, rfl⟩
  rw [lineSearch_eq_ok]
  refine ⟨by simp, rfl, 0, rfl, ?_⟩
  rw [backtrack_unfold]
  norm_num [nextSpgStepLength, abs_of_pos]

/-- C10.  If the full step gives sufficient decrease with respect to some remembered cost, the step
is exactly 1. -/
theorem C10_full_step (cfg : LSConfig K) (trial : σ → K → σ × K) (mem : List K) (s : σ)
    (f0 slope fRef : K) (r : LSResult σ K) (hM : fRef ∈ mem.tail ++ [f0])
    (hacc : (trial s 1).2 ≤ fRef + cfg.gamma * slope)
    (hr : lineSearch cfg trial mem s f0 slope = Py.ok r) : r.stepSize = 1 :=
  lineSearch_full hM (by simpa using hacc) hr

/-- C10.  The full step is rejected when it is not acceptable. -/
theorem C10_not_full_step (cfg : LSConfig K) (h2 : cfg.sigmaTwo < 1) (h1 : 0 < cfg.sigmaOne)
    (trial : σ → K → σ × K) (mem : List K) (s : σ)
    (f0 slope : K) (r : LSResult σ K)
    (hacc : ∀ fRef ∈ mem.tail ++ [f0], fRef + cfg.gamma * slope < (trial s 1).2)
    (hr : lineSearch cfg trial mem s f0 slope = Py.ok r) : r.stepSize < 1 := by
  obtain ⟨hne, hmem, M, hM, hb⟩ := lineSearch_eq_ok.1 hr
  obtain ⟨M', h3, h4, -⟩ := foldMax_spec (mem.tail ++ [f0]) (by simp)
  rw [hM] at h3
  simp only [Option.some.injEq] at h3
  subst h3
  have h5 := hacc _ h4
  rw [backtrack_unfold, if_pos (by simpa using h5)] at hb
  simp only at hb
  have hlt := nextStep_lt (δ := slope) (f0 := f0) (f1 := (trial s 1).2) (s1 := cfg.sigmaOne)
    (one_pos (α := K)) h2
  have hpos := nextStep_pos (δ := slope) (f0 := f0) (f1 := (trial s 1).2) (s2 := cfg.sigmaTwo)
    (one_pos (α := K)) h1
  split_ifs at hb with hc
  · simp only [Option.some.injEq, Prod.mk.injEq] at hb
    rw [← hb.1]; exact hlt
  · have hp := backtrack_post (Inv := fun _ => True) h1 h2 (fun _ _ _ _ _ => trivial) _ _ _ _ _ hb
      hpos hlt.le trivial ⟨_, trivial, rfl⟩
    exact lt_of_le_of_lt hp.le hlt

/-- The cost `(x - 1)²` searched from `x = 0` along the direction `4`: the full step (cost 9) is
refused, the parabola through the data gives the exact minimiser `x = 1`. -/
def demoTrial (s : ℚ × ℚ) (step : ℚ) : (ℚ × ℚ) × ℚ := ((s.1, s.1 + step * 4), (s.1 + step * 4 - 1) ^ 2)

example : ∃ r, lineSearch demoLS demoTrial [0] (0, 0) 1 (-8) = Py.ok r ∧ r.stepSize = 1 / 4 ∧
    r.state = (0, 1) ∧ r.cost = 0 := by
  refine ⟨⟨[1], 1/4, (0, 1), 0, 1⟩, ?_, rfl, rfl, rfl⟩
  rw [lineSearch_eq_ok]
  refine ⟨by simp, rfl, 1, rfl, ?_⟩
  rw [backtrack_unfold]
  norm_num [demoLS, demoTrial, nextSpgStepLength, abs_of_pos]
  rw [backtrack_unfold]
  norm_num [demoLS, demoTrial]

example : ∀ s a b, demoTrial (demoTrial s a).1 b = demoTrial s b := by
  intro s a b; rfl

/-- The floor `step_size_tolerance > 0` is needed in C09: without it, and with a cost that jumps up
everywhere except at the start, the line search runs forever. -/
theorem C09_floor_needed (cfg : LSConfig K) (ht : cfg.stepSizeTolerance = 0) (m0 : K) (s : σ) :
    lineSearch cfg (fun s _ => (s, (1 : K))) [m0] s 0 0 = Py.diverge := by
  cases h : lineSearch cfg (fun s _ => (s, (1 : K))) [m0] s 0 0 with
  | diverge => rfl
  | raise e => exact absurd (lineSearch_no_raise h).1 (by simp)
  | ok r =>
    exfalso
    obtain ⟨-, -, -, d, e⟩ := lineSearch_spec (fun _ _ _ => rfl) h
    have hc : r.cost = 1 := (congrArg Prod.snd d).symm
    rcases e with ⟨f, hf, -, he⟩ | he
    · simp at hf
      subst hf
      rw [hc] at he
      norm_num at he
    · rw [ht] at he
      exact absurd he (not_lt.mpr (abs_nonneg _))

/-- C09, whatever the safeguards `sigma_one`, `sigma_two`: along a direction that does not increase the
cost to first order a line search ends after at most `N + 1` rounds, where `N` depends only on `gamma`
and `step_size_tolerance`; such an `N` exists for `gamma < 1/2`. -/
theorem C09_line_search_terminates_slope (cfg : LSConfig K) (hg : cfg.gamma < 1) (N : ℕ)
    (hN : max (1 / 2) (1 / (2 * (1 - cfg.gamma))) ^ (N + 1) < cfg.stepSizeTolerance)
    (trial : σ → K → σ × K) (mem : List K) (hmem : mem ≠ []) (s : σ) (f0 slope : K)
    (hslope : slope ≤ 0) :
    ∃ r, lineSearch cfg trial mem s f0 slope = Py.ok r ∧ r.rounds ≤ N + 1 :=
  lineSearch_terminates_slope hmem hslope hg N hN

/-- With the default `gamma` at most 34 rounds are made: far fewer than the bound of
`C09_line_search_terminates`. -/
example : max (1 / 2) (1 / (2 * (1 - demoLS.gamma))) ^ (33 + 1) < demoLS.stepSizeTolerance := by
  norm_num [demoLS]

/-- The condition `sigma_two < 1` (or `gamma < 1/2`) is needed in C09: with `gamma = 0.95`,
`sigma_two = 10` and any step floor up to 1 there is a cost for which the step alternates between 1
and 2 forever. -/
theorem C09_no_contraction_diverges (tol : ℚ) (ht : tol ≤ 1) :
    ∃ trial : Unit → ℚ → Unit × ℚ,
      lineSearch ⟨1, 95 / 100, 1 / 1000, 1, 1 / 10, 10, tol⟩ trial [0] () 0 (-1) = Py.diverge := by
  refine ⟨fun _ t => ((), if t = 1 then -3 / 4 else 20), ?_⟩
  cases h : lineSearch ⟨1, 95 / 100, 1 / 1000, 1, 1 / 10, 10, tol⟩
    (fun _ t => ((), if t = 1 then -3 / 4 else 20)) [0] () (0 : ℚ) (-1) with
  | diverge => rfl
  | raise e => exact absurd (lineSearch_no_raise h).1 (by simp)
  | ok r =>
    exfalso
    obtain ⟨-, -, M, hM, hb⟩ := lineSearch_eq_ok.1 h
    have : M = 0 := by
      simp [foldMax, maxStep] at hM
      exact hM.symm
    subst this
    exact backtrack_cycle (by norm_num) (by norm_num) (by norm_num) (by norm_num)
      (by norm_num) (by norm_num) ht _ _ _ _ _ hb (Or.inl ⟨rfl, by norm_num⟩)

end Reor
