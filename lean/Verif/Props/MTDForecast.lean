import Verif.Props.MTDFit
import Verif.Proofs.MTDForecast

/-!
Properties C41, C42 for `MTDConvexCoding`: forecasts.
-/

namespace Reor

set_option linter.unusedSectionVars false

open scoped BigOperators Matrix
open Spec

variable {K : Type} [Field K] [LinearOrder K] [IsStrictOrderedRing K]
variable {T D k p : ℕ}

/-! ### C41: the recursion -/

/-- C41.  The rows of the weights up to any sample have exactly one continuation by the recursion. -/
theorem C41_mtd_continuation (lags : Fin p → ℕ) (hlag : ∀ i, 1 ≤ lags i) (w : Fin p → K)
    (A : Fin p → Matrix (Fin k) (Fin k) K) (W : Matrix (Fin T) (Fin k) K) (t : Fin T) :
    ∃! q, ContinuesMTD lags w A W t q := by
  refine ⟨mtdOrbit lags w A (t + 1) (rowSeq W), ⟨?_, ?_⟩, ?_⟩
  · intro n hn
    rw [mtdOrbit_history _ _ _ _ _ _ (by have : (n : ℕ) ≤ t := hn; omega)]
    funext j
    simp [rowSeq, n.2]
  · exact mtdOrbit_follows lags w A (t + 1) (by omega) hlag _
  · intro q ⟨h1, h2⟩
    refine followsMTD_unique lags w A (t + 1) (by omega) hlag ?_ h2
      (mtdOrbit_follows lags w A (t + 1) (by omega) hlag _)
    intro n hn
    rw [mtdOrbit_history _ _ _ _ _ _ hn, h1 ⟨n, by omega⟩ (by show n ≤ (t : ℕ); omega)]
    funext j
    simp [rowSeq, show n < T by omega]

theorem mtdForecastRow_continues (hp : 1 ≤ p) {lags : Fin p → ℕ} (hlag : ∀ i, 1 ≤ lags i)
    (w : Fin p → K) (A : Fin p → Matrix (Fin k) (Fin k) K) (W : Matrix (Fin T) (Fin k) K)
    (horizon : ℤ) (t : Fin T) (ht : ∀ i, lags i ≤ t + 1) {q : ℕ → Fin k → K}
    (hq : ContinuesMTD lags w A W t q) :
    mtdForecastRow lags w A W horizon t = some (q (t + horizon.toNat)) := by
  have hm := topLag_pos hp hlag
  have hsup : Finset.univ.sup lags ≤ (t : ℕ) + 1 := Finset.sup_le fun i _ => ht i
  have := mtdForecastRow_eq hp hlag w A W horizon t hsup
    (q := fun a => q (t + 1 - Finset.univ.sup lags + a)) ?_ ?_
  · rw [this]
    congr 2
    omega
  · intro a ha
    rw [hq.1 ⟨t + 1 - Finset.univ.sup lags + a, by omega⟩
      (by show t + 1 - Finset.univ.sup lags + a ≤ (t : ℕ); omega)]
    funext j
    simp [rowSeq, show t + 1 - Finset.univ.sup lags + a < T by omega]
  · intro n hn
    simp only
    rw [hq.2 _ (by omega)]
    unfold mtdStep
    funext j
    refine Finset.sum_congr rfl fun i _ => ?_
    have h1 : lags i ≤ Finset.univ.sup lags := Finset.le_sup (Finset.mem_univ i)
    have h2 : t + 1 - Finset.univ.sup lags + n - lags i =
      t + 1 - Finset.univ.sup lags + (n - lags i) := by omega
    rw [h2]

/-- C41.  `predict(data, horizon)` transforms the data with the dictionary `S`, order weights `w` and
transition matrices `A` of the model, and returns for every sample `t` with enough history the value
of the recursion `horizon` steps after `t`, mapped through the dictionary.  Samples with less history
are NaN (except for horizon zero); a negative horizon makes no step. -/
theorem C41_mtd_forecast {env : Env K} (obj : MTDObj env.rng p) (hlag : ∀ i, 1 ≤ obj.lags i)
    (data : Arr2 K) (horizon : ℤ) (obj' : MTDObj env.rng p) (F : NanRows K)
    (h : mtdPredict env obj data horizon = Py.ok (obj', F)) :
    ∃ (T0 k : ℕ) (W0 : Matrix (Fin T0) (Fin k) K) (W : Matrix (Fin data.rows) (Fin k) K)
      (S : Matrix (Fin k) (Fin data.cols) K) (w : Fin p → K)
      (A : Fin p → Matrix (Fin k) (Fin k) K) (info : FitInfo K)
      (out : Fin data.rows → Option (Fin data.cols → K)),
      obj.vars = some ⟨T0, data.cols, k, W0, S, w, A⟩ ∧
      mtdTransform env obj data = Py.ok (obj', some (Arr2.of W), info) ∧
      F = ⟨data.rows, data.cols, out⟩ ∧
      (horizon = 0 → ∀ t, out t = some fun d => ∑ j, W t j * S j d) ∧
      (horizon ≠ 0 → ∀ t : Fin data.rows, (∀ i, obj.lags i ≤ t + 1) →
        ∀ q, ContinuesMTD obj.lags w A W t q → out t = some fun d => ∑ j, q (t + horizon.toNat) j * S j d) ∧
      (horizon ≠ 0 → ∀ t : Fin data.rows, (∃ i, (t : ℕ) + 1 < obj.lags i) → out t = none) := by
  obtain ⟨o, G, info, v, ho, hv, hres⟩ := mtdPredict_eq_ok h
  obtain ⟨T0, k, W0, W, S, w, A, hk, hp, e1, e2, e3, -⟩ := mtdTransform_facts ho
  simp only [Prod.mk.injEq] at hres
  obtain ⟨rfl, rfl⟩ := hres
  rw [hv, Option.some.injEq] at e2
  subst e2
  subst e3
  by_cases h0 : horizon = 0
  · refine ⟨T0, k, W0, W, S, w, A, info, fun t => some fun d => ∑ j, W t j * S j d, e1, ho, ?_,
      fun _ _ => rfl, fun hh => absurd h0 hh, fun hh => absurd h0 hh⟩
    unfold mtdForecast
    rw [if_pos h0]
    rfl
  · refine ⟨T0, k, W0, W, S, w, A, info,
      fun t => (mtdForecastRow obj.lags w A W horizon t).map fun v => Matrix.vecMul v S, e1, ho, ?_,
      fun hh => absurd hh h0, fun _ t ht q hq => ?_, fun _ t ht => ?_⟩
    · unfold mtdForecast
      rw [if_neg h0]
      rfl
    · exact congrArg (Option.map fun v => Matrix.vecMul v S)
        (mtdForecastRow_continues hp hlag w A W horizon t ht hq)
    · obtain ⟨i, hi⟩ := ht
      exact congrArg (Option.map fun v => Matrix.vecMul v S) (mtdForecastRow_nan w A W horizon t
        (lt_of_lt_of_le hi (Finset.le_sup (f := obj.lags) (Finset.mem_univ i))))

/-! ### C42: forecast weights -/

/-- C42, the recursion.  Continuing stochastic weights with stochastic parameters gives stochastic
weights at every later time. -/
theorem C42_mtd_continuation_stochastic (lags : Fin p → ℕ) (hlag : ∀ i, 1 ≤ lags i) (w : Fin p → K)
    (hw : IsProb w) (A : Fin p → Matrix (Fin k) (Fin k) K) (hA : ∀ i, ColStochastic (A i))
    (W : Matrix (Fin T) (Fin k) K) (hW : RowStochastic W) (t : Fin T) (q : ℕ → Fin k → K)
    (hq : ContinuesMTD lags w A W t q) (n : ℕ) : IsProb (q n) := by
  refine followsMTD_isProb lags hw hA (t + 1) (by omega) hlag ?_ hq.2 n
  intro n hn
  rw [hq.1 ⟨n, by omega⟩ (by show n ≤ (t : ℕ); omega)]
  exact hW _

/-- C42; missing: settings with which the step can leave `[0, 1]` (`C42_mtd_forecast_fails`), and
supplied arrays with negative entries.  After a fit, every forecast that is not NaN is a convex
combination of the rows of the dictionary held by the object, for every dataset and horizon. -/
theorem C42_mtd_forecast_in_hull_partial {env : Env K} (hR : env.rng.Lawful)
    (obj : MTDObj env.rng p) (hlag : ∀ i, 1 ≤ obj.lags i)
    (h1 : SafeSteps obj.ls.gamma obj.ls.alphaMax obj.ls.sigmaOne
      obj.ls.sigmaTwo)
    (train : Arr2 K) (args : MTDArgs K) (fl : MTDFlags) (kw : InitKwargs)
    (hsup : SuppliedStochastic obj.init args fl)
    (obj1 : MTDObj env.rng p) (G : Option (Arr2 K)) (info : FitInfo K)
    (hfit : mtdFitTransform env obj train args fl kw = Py.ok (obj1, G, info))
    (data : Arr2 K) (horizon : ℤ) (obj2 : MTDObj env.rng p) (F : NanRows K)
    (h : mtdPredict env obj1 data horizon = Py.ok (obj2, F)) :
    ∃ (k : ℕ) (S : Matrix (Fin k) (Fin data.cols) K)
      (out : Fin data.rows → Option (Fin data.cols → K)),
      obj1.dictionary_ = some (Arr2.of S) ∧ F = ⟨data.rows, data.cols, out⟩ ∧
      ∀ t x, out t = some x → ∃ v : Fin k → K, IsProb v ∧ ∀ d, x d = ∑ j, v j * S j d := by
  obtain ⟨k1, W1, S1, w1, A1, -, hv1, hd1, hW1, hw1, hA1⟩ := C38_mtd_fit_stochastic_partial hR obj h1
    train args fl kw hsup obj1 G info hfit
  have hset : obj1.lags = obj.lags ∧ obj1.ls = obj.ls := by
    obtain ⟨o, i, ho, hres⟩ := mtdFitTransform_eq_ok hfit
    obtain ⟨q, start, r, -, -, -, hoi⟩ := mtdConvexCoding_eq_ok ho
    simp only [Prod.mk.injEq] at hres hoi
    obtain ⟨rfl, -, -⟩ := hres
    obtain ⟨rfl, -⟩ := hoi
    exact ⟨rfl, rfl⟩
  obtain ⟨T0, k, W0, W, S, w, A, info2, out, e1, e2, e3, hz, hn, hnan⟩ := C41_mtd_forecast obj1
    (by rw [hset.1]; exact hlag) data horizon obj2 F h
  obtain ⟨_, _, _, W', _, _, _, -, -, e1', -, e4, hW⟩ := mtdTransform_facts e2
  rw [e1] at e1'
  simp only [Option.some.injEq, MTDVars.mk.injEq, true_and] at e1'
  obtain ⟨rfl, rfl, e1'⟩ := e1'
  simp only [Option.some.injEq, Arr2.of, Arr2.mk.injEq, true_and, heq_eq_eq] at e4
  subst e4
  have hW := hW hR (by rw [hset.2]; exact h1)
  rw [hv1] at e1
  simp only [Option.some.injEq, MTDVars.mk.injEq] at e1
  obtain ⟨-, hD, rfl, -, hS, hw, hA⟩ := e1
  subst hw
  cases eq_of_heq hA
  refine ⟨_, S, out, ?_, e3, ?_⟩
  · rw [hd1]
    simp only [Option.some.injEq, Arr2.of, Arr2.mk.injEq, true_and]
    exact ⟨hD, hS⟩
  · intro t x hx
    by_cases h0 : horizon = 0
    · rw [hz h0 t, Option.some.injEq] at hx
      subst hx
      exact ⟨W t, hW t, fun _ => rfl⟩
    · by_cases ht : ∀ i, obj1.lags i ≤ t + 1
      · obtain ⟨q, hq, -⟩ := C41_mtd_continuation obj1.lags (by rw [hset.1]; exact hlag) w1 A1 W t
        rw [hn h0 t ht q hq, Option.some.injEq] at hx
        subst hx
        exact ⟨q (t + horizon.toNat), C42_mtd_continuation_stochastic obj1.lags
          (by rw [hset.1]; exact hlag) w1 hw1 A1 hA1 W hW t q hq _, fun _ => rfl⟩
      · push Not at ht
        obtain ⟨i, hi⟩ := ht
        rw [hnan h0 t ⟨i, hi⟩] at hx
        simp at hx

/-- The hypotheses of C41 and C42 are met: the demo model can be fitted and then makes forecasts for
every horizon. -/
example (horizon : ℤ) : ∃ obj1 G info obj2 F,
    mtdFitTransform demoEnv mtdDemoObj demoData {} {} {} = Py.ok (obj1, G, info) ∧
    mtdPredict demoEnv obj1 demoData horizon = Py.ok (obj2, F) := by
  obtain ⟨⟨o, G, i⟩, h⟩ := mtdDemo_fit
  obtain ⟨k, W, S, w, A, -, hv, -, -, hw, hA⟩ := C38_mtd_fit_stochastic_partial demoRng_lawful
    mtdDemoObj (by norm_num [SafeSteps, mtdDemoObj, demoLS]) demoData {} {}
    {} mtdDemo_supplied o G i h
  obtain ⟨hf, hk⟩ : (o.lags = mtdDemoObj.lags ∧ o.ls = mtdDemoObj.ls ∧ o.init = none ∧
      o.nComponents = .int 2 ∧ o.maxIterations = .int 4 ∧ o.tolerance = .real (1/1000)) ∧
      o.vars.map MTDVars.k = some 2 := by
    obtain ⟨o', i', ho, hres⟩ := mtdFitTransform_eq_ok h
    obtain ⟨q, st, r, hq, -, -, hoi⟩ := mtdConvexCoding_eq_ok ho
    have hk : q.1 = 2 := by
      have h2 := (checkParams_ok hq).2.1
      simp only [mtdDemoObj, defaultComponents, NumArg.int.injEq] at h2
      omega
    simp only [Prod.mk.injEq] at hres hoi
    obtain ⟨rfl, -, -⟩ := hres
    obtain ⟨rfl, -⟩ := hoi
    exact ⟨⟨rfl, rfl, rfl, rfl, rfl, rfl⟩, congrArg some hk⟩
  rw [hv] at hk
  simp only [Option.map_some, Option.some.injEq] at hk
  subst hk
  obtain ⟨f1, f2, f3, f4, f5, f6⟩ := hf
  obtain ⟨⟨o2, G2, i2⟩, h2⟩ := C61_mtd_transform_returns demoRng_lawful demoRng_uniform_pos o
    (by norm_num) (by rw [f1]; exact mtdDemo_lags)
    (by rw [f2]; norm_num [mtdDemoObj, demoLS]) (by rw [f2]; norm_num [mtdDemoObj, demoLS])
    (by rw [f2]; norm_num [mtdDemoObj, demoLS]) (by rw [f2]; norm_num [mtdDemoObj, demoLS])
    (by rw [f2]; rfl)
    (by rw [f2]; norm_num [mtdDemoObj, demoLS])
    (by rw [f2]; norm_num [mtdDemoObj, demoLS]) (by rw [f2]; rfl) (Or.inl f3) demoData
    (by norm_num [demoData, Arr2.of])
    (by rw [f1]; show (3 : ℕ) ≠ Finset.univ.sup ![1, 2]; decide)
    (by
      rw [f4, f5, f6]
      exact ⟨⟨2, rfl, by norm_num⟩, ⟨4, rfl, by norm_num⟩, Or.inr ⟨_, rfl, by norm_num⟩⟩)
    f4 _ W S w A hv hw hA
  obtain ⟨T0, k, W0, W, S, w, A, -, -, -, e2, -⟩ := mtdTransform_facts h2
  refine ⟨o, G, i, o2, mtdForecast o.lags ⟨_, _, _, W, S, w, A⟩ horizon, h, ?_⟩
  unfold mtdPredict
  rw [h2, Py.ok_bind]
  simp only [e2]
  rfl

end Reor
