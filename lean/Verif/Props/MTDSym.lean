import Verif.Proofs.MTDSym
import Verif.Props.MTDForecast
import Verif.Props.GPNHSym

/-!
Symmetries of MTD convex coding: rotating and translating the data, and relabelling the components
and the lags.
-/

namespace Reor

set_option linter.unusedSectionVars false

open scoped BigOperators Matrix
open Spec

variable {K : Type} [Field K] [LinearOrder K] [IsStrictOrderedRing K]
variable {T D k p : ℕ}

/-! ### C94: rotations and translations -/

/-- C94.  If the data are rotated by `Q` and translated by `b`, and so is the dictionary supplied (if
any), then the fit ends in the same way: the same exception, or the same weights, order weights,
transition matrices, cost, history, number of iterations and generator state, and the dictionary
found is rotated and translated too.  For starts other than random dictionaries. -/
theorem C94_mtd_rigid_motion {env : Env K} (hR : env.rng.Lawful) (obj : MTDObj env.rng p)
    (X Y : Matrix (Fin T) (Fin D) K) (Q : Matrix (Fin D) (Fin D) K) (hQ : Q * Qᵀ = 1) (b : Fin D → K)
    (hY : ∀ t d, Y t d = (X * Q) t d + b d) (args : MTDArgs K) (dictionary' : Option (Arr2 K))
    (hd : (args.dictionary = none ∧ dictionary' = none) ∨
      ∃ (m : ℕ) (C C' : Matrix (Fin m) (Fin D) K), args.dictionary = some (Arr2.of C) ∧
        dictionary' = some (Arr2.of C') ∧ ∀ a d, C' a d = (C * Q) a d + b d)
    (fl : MTDFlags) (kw : InitKwargs)
    (hinit : obj.init = some "custom" ∨ obj.init = some "furthest_sum" ∨
      fl.updateDictionary = false)
    (hw : (obj.init = some "custom" ∨ fl.updateWeights = false) →
      ∀ W, args.weights = some W → ∀ i, ∑ a, W.val i a = 1) :
    (mtdConvexCoding env obj (Arr2.of X) args fl kw = Py.diverge ∧
      mtdConvexCoding env obj (Arr2.of Y) { args with dictionary := dictionary' } fl kw =
        Py.diverge) ∨
    (∃ e, mtdConvexCoding env obj (Arr2.of X) args fl kw = Py.raise e ∧
      mtdConvexCoding env obj (Arr2.of Y) { args with dictionary := dictionary' } fl kw =
        Py.raise e) ∨
    ∃ (o : MTDObj env.rng p) (k : ℕ) (W : Matrix (Fin T) (Fin k) K) (S S' : Matrix (Fin k) (Fin D) K)
      (w : Fin p → K) (A : Fin p → Matrix (Fin k) (Fin k) K) (info : FitInfo K),
      mtdConvexCoding env obj (Arr2.of X) args fl kw =
        Py.ok ({ o with vars := some ⟨T, D, k, W, S, w, A⟩ }, info) ∧
      mtdConvexCoding env obj (Arr2.of Y) { args with dictionary := dictionary' } fl kw =
        Py.ok ({ o with vars := some ⟨T, D, k, W, S', w, A⟩ }, info) ∧
      (∀ a d, S' a d = (S * Q) a d + b d) ∧ (b = 0 ∨ ∀ t, ∑ a, W t a = 1) := by
  have := mtdConvexCoding_moved hR obj hQ (moved_one_iff.2 hY) args hd fl kw hinit hw
  revert this
  cases mtdConvexCoding env obj (Arr2.of X) args fl kw <;>
    cases mtdConvexCoding env obj (Arr2.of Y) { args with dictionary := dictionary' } fl kw <;>
    intro this <;> simp only [PyRel] at this
  · rename_i r r'
    obtain ⟨hl, k, h2, ⟨S, W, w, A⟩, ⟨S', W', w', A'⟩, hv, h1, ⟨eS, eW, ew, eA⟩, hs⟩ := this
    have eW' : W' = W := eW
    have ew' : w' = w := funext ew
    have eA' : A' = A := by
      funext i a b
      exact eA i a b
    subst eW' ew' eA'
    refine Or.inr (Or.inr ⟨r.1, k, W', S, S', w', A', r.2, ?_, ?_, moved_one_iff.1 eS, hs⟩)
    · rw [← hv]
    · rw [hl] at h1
      rw [← h1, ← h2]
  · subst this
    exact Or.inr (Or.inl ⟨_, rfl, rfl⟩)
  · exact Or.inl ⟨rfl, rfl⟩

/-- C94.  `transform` of moved data by the model with the moved dictionary: the same weights, cost and
history, or the same exception, whatever `init`. -/
theorem C94_mtd_transform_rigid_motion {env : Env K} (hR : env.rng.Lawful) (obj : MTDObj env.rng p)
    (X Y : Matrix (Fin T) (Fin D) K) (Q : Matrix (Fin D) (Fin D) K) (hQ : Q * Qᵀ = 1) (b : Fin D → K)
    (hY : ∀ t d, Y t d = (X * Q) t d + b d) (T₀ : ℕ) (W₀ : Matrix (Fin T₀) (Fin k) K)
    (S S' : Matrix (Fin k) (Fin D) K) (hS : ∀ a d, S' a d = (S * Q) a d + b d) (w : Fin p → K)
    (A : Fin p → Matrix (Fin k) (Fin k) K) :
    (mtdTransform env { obj with vars := some ⟨T₀, D, k, W₀, S', w, A⟩ } (Arr2.of Y) >>=
      fun r => Py.ok r.2) =
    (mtdTransform env { obj with vars := some ⟨T₀, D, k, W₀, S, w, A⟩ } (Arr2.of X) >>=
      fun r => Py.ok r.2) := by
  have e : ∀ (v : Option (MTDVars p K)) (data : Arr2 K) (a : MTDArgs K) (fl : MTDFlags),
      mtdConvexCoding env { obj with vars := v } data a fl {} =
        mtdConvexCoding env obj data a fl {} := fun _ _ _ _ => rfl
  unfold mtdTransform
  simp only [e]
  rcases C94_mtd_rigid_motion hR obj X Y Q hQ b hY
    ⟨some (Arr2.of S), none, some (Arr1.of w), some (Arr3.of A)⟩ (some (Arr2.of S'))
    (Or.inr ⟨k, S, S', rfl, rfl, hS⟩) ⟨false, true, false⟩ {} (Or.inr (Or.inr rfl))
    (fun _ W hW => by simp at hW) with ⟨h1, h2⟩ | ⟨e, h1, h2⟩ |
      ⟨o, k, W, S, S', w, A, info, h1, h2, -⟩
  all_goals
    simp only [MTDObj.transformArgs, MTDVars.SArr]
    rw [h1, h2]
    try rfl

theorem followsMTD_sums (lags : Fin p → ℕ) {w : Fin p → K} (hw : ∑ i, w i = 1)
    {A : Fin p → Matrix (Fin k) (Fin k) K} (hA : ∀ i j, ∑ l, A i l j = 1) (m : ℕ) (hm : 1 ≤ m)
    (hl : ∀ i, 1 ≤ lags i) {q : ℕ → Fin k → K} (h0 : ∀ n, n < m → ∑ a, q n a = 1)
    (hq : FollowsMTD lags w A m q) (n : ℕ) : ∑ a, q n a = 1 := by
  induction n using Nat.strong_induction_on with
  | _ n ih =>
    by_cases hn : n < m
    · exact h0 n hn
    · rw [hq n (by omega)]
      unfold mtdStep
      rw [Finset.sum_comm]
      have : ∀ i, ∑ j, w i * ∑ l, A i j l * q (n - lags i) l = w i := by
        intro i
        rw [← Finset.mul_sum, Finset.sum_comm]
        simp only [← Finset.sum_mul, hA, one_mul]
        rw [ih _ (by have := hl i; omega), mul_one]
      simp only [this]
      exact hw

/-- The rows of a forecast have sum 1. -/
theorem mtdForecastRow_sum (hp : 1 ≤ p) {lags : Fin p → ℕ} (hl : ∀ i, 1 ≤ lags i) {w : Fin p → K}
    (hw : ∑ i, w i = 1) {A : Fin p → Matrix (Fin k) (Fin k) K} (hA : ∀ i j, ∑ l, A i l j = 1)
    {W : Matrix (Fin T) (Fin k) K} (hW : ∀ t, ∑ a, W t a = 1) (horizon : ℤ) (t : Fin T)
    {v : Fin k → K} (h : mtdForecastRow lags w A W horizon t = some v) : ∑ a, v a = 1 := by
  by_cases ht : ∀ i, lags i ≤ t + 1
  · obtain ⟨q, hq, -⟩ := C41_mtd_continuation lags hl w A W t
    rw [mtdForecastRow_continues hp hl w A W horizon t ht hq] at h
    rw [← Option.some.inj h]
    refine followsMTD_sums lags hw hA (t + 1) (by omega) hl (fun n hn => ?_) hq.2 _
    rw [hq.1 ⟨n, by omega⟩ (by show n ≤ (t : ℕ); omega)]
    exact hW _
  · push Not at ht
    obtain ⟨i, hi⟩ := ht
    rw [mtdForecastRow_nan w A W horizon t
      (lt_of_lt_of_le hi (Finset.le_sup (f := lags) (Finset.mem_univ i)))] at h
    simp at h

theorem vecMul_moved {Q : Matrix (Fin D) (Fin D) K} {b : Fin D → K} {S S' : Matrix (Fin k) (Fin D) K}
    (hS : ∀ a d, S' a d = (S * Q) a d + b d) {v : Fin k → K} (hv : b = 0 ∨ ∑ a, v a = 1) (d : Fin D) :
    Matrix.vecMul v S' d = Matrix.vecMul (Matrix.vecMul v S) Q d + b d := by
  rw [Matrix.vecMul_vecMul]
  simp only [Matrix.vecMul, dotProduct, hS, mul_add, Finset.sum_add_distrib, ← Finset.sum_mul]
  rcases hv with rfl | hv
  · simp
  · rw [hv, one_mul]

/-- C94.  Forecasts move with the data: `predict` of moved data by the moved model raises the same
exception or gives, row by row, the moved forecasts (and NaN in the same rows). -/
theorem C94_mtd_predict_rigid_motion {env : Env K} (hR : env.rng.Lawful) (obj : MTDObj env.rng p)
    (hlag : ∀ i, 1 ≤ obj.lags i)
    (X Y : Matrix (Fin T) (Fin D) K) (Q : Matrix (Fin D) (Fin D) K) (hQ : Q * Qᵀ = 1) (b : Fin D → K)
    (hY : ∀ t d, Y t d = (X * Q) t d + b d) (T₀ : ℕ) (W₀ : Matrix (Fin T₀) (Fin k) K)
    (S S' : Matrix (Fin k) (Fin D) K) (hS : ∀ a d, S' a d = (S * Q) a d + b d)
    (w : Fin p → K) (hw : ∑ i, w i = 1) (A : Fin p → Matrix (Fin k) (Fin k) K)
    (hA : ∀ i j, ∑ l, A i l j = 1) (horizon : ℤ) :
    (mtdPredict env { obj with vars := some ⟨T₀, D, k, W₀, S, w, A⟩ } (Arr2.of X) horizon =
        Py.diverge ∧
      mtdPredict env { obj with vars := some ⟨T₀, D, k, W₀, S', w, A⟩ } (Arr2.of Y) horizon =
        Py.diverge) ∨
    (∃ e, mtdPredict env { obj with vars := some ⟨T₀, D, k, W₀, S, w, A⟩ } (Arr2.of X) horizon =
        Py.raise e ∧
      mtdPredict env { obj with vars := some ⟨T₀, D, k, W₀, S', w, A⟩ } (Arr2.of Y) horizon =
        Py.raise e) ∨
    ∃ (o o' : MTDObj env.rng p) (P : Fin T → Option (Fin D → K)),
      mtdPredict env { obj with vars := some ⟨T₀, D, k, W₀, S, w, A⟩ } (Arr2.of X) horizon =
        Py.ok (o, ⟨T, D, P⟩) ∧
      mtdPredict env { obj with vars := some ⟨T₀, D, k, W₀, S', w, A⟩ } (Arr2.of Y) horizon =
        Py.ok (o', ⟨T, D, fun t => (P t).map fun v d => Matrix.vecMul v Q d + b d⟩) := by
  have e : ∀ (v : Option (MTDVars p K)) (data : Arr2 K) (a : MTDArgs K) (fl : MTDFlags),
      mtdConvexCoding env { obj with vars := v } data a fl {} =
        mtdConvexCoding env obj data a fl {} := fun _ _ _ _ => rfl
  rcases C94_mtd_rigid_motion hR obj X Y Q hQ b hY
    ⟨some (Arr2.of S), none, some (Arr1.of w), some (Arr3.of A)⟩ (some (Arr2.of S'))
    (Or.inr ⟨k, S, S', rfl, rfl, hS⟩) ⟨false, true, false⟩ {} (Or.inr (Or.inr rfl))
    (fun _ W hW => by simp at hW) with ⟨h1, h2⟩ | ⟨e', h1, h2⟩ |
      ⟨o, k₁, W, S₁, S₁', w₁, A₁, info, h1, h2, h3, h4⟩
  · refine Or.inl ⟨?_, ?_⟩
    all_goals
      unfold mtdPredict mtdTransform
      simp only [e, MTDObj.transformArgs, MTDVars.SArr]
      first | rw [h1]; rfl | rw [h2]; rfl
  · refine Or.inr (Or.inl ⟨e', ?_, ?_⟩)
    all_goals
      unfold mtdPredict mtdTransform
      simp only [e, MTDObj.transformArgs, MTDVars.SArr]
      first | rw [h1]; rfl | rw [h2]; rfl
  · have t1 : mtdTransform env { obj with vars := some ⟨T₀, D, k, W₀, S, w, A⟩ } (Arr2.of X) =
        Py.ok ({ o with vars := some ⟨T, D, k₁, W, S₁, w₁, A₁⟩ }, some (Arr2.of W), info) := by
      unfold mtdTransform
      simp only [e, MTDObj.transformArgs, MTDVars.SArr]
      rw [h1]
      rfl
    have t2 : mtdTransform env { obj with vars := some ⟨T₀, D, k, W₀, S', w, A⟩ } (Arr2.of Y) =
        Py.ok ({ o with vars := some ⟨T, D, k₁, W, S₁', w₁, A₁⟩ }, some (Arr2.of W), info) := by
      unfold mtdTransform
      simp only [e, MTDObj.transformArgs, MTDVars.SArr]
      rw [h2]
      rfl
    have hp : 1 ≤ p := by
      obtain ⟨-, -, -, -, -, -, -, -, hp, -⟩ := mtdTransform_facts t1
      exact hp
    have f1 : (⟨T₀, D, k, W₀, S, w, A⟩ : MTDVars p K) = ⟨T₀, D, k, W₀, S, w₁, A⟩ ∧ k₁ = k := by
      obtain ⟨⟨T1, k1, W1, W2, S1, w1, A1, e1, e2⟩, -⟩ := C23_mtd_transform_keeps_model _ _ _ _ _ t1
      simp only [Option.some.injEq] at e1 e2
      have a1 := congrArg MTDVars.orderWeights e1
      have a2 := congrArg MTDVars.orderWeights e2
      have b1 := congrArg MTDVars.k e1
      have b2 := congrArg MTDVars.k e2
      simp only at a1 a2 b1 b2
      exact ⟨by rw [a1, a2], by rw [b1, b2]⟩
    obtain ⟨f1, rfl⟩ := f1
    have ew : w = w₁ := congrArg MTDVars.orderWeights f1
    subst ew
    have eA : A = A₁ := by
      obtain ⟨⟨T1, k1, W1, W2, S1, w1, A1, e1, e2⟩, -⟩ := C23_mtd_transform_keeps_model _ _ _ _ _ t1
      simp only [Option.some.injEq, MTDVars.mk.injEq] at e1 e2
      obtain ⟨rfl, -, rfl, -, -, -, e1⟩ := e1
      obtain ⟨-, -, -, -, -, -, e2⟩ := e2
      exact (eq_of_heq e1).trans (eq_of_heq e2).symm
    subst eA
    have hW : b = 0 ∨ ∀ t, ∑ a, W t a = 1 := h4
    refine Or.inr (Or.inr ⟨{ o with vars := some ⟨T, D, k₁, W, S₁, w, A⟩ },
      { o with vars := some ⟨T, D, k₁, W, S₁', w, A⟩ }, fun t =>
        (if horizon = 0 then some (W t) else mtdForecastRow obj.lags w A W horizon t).map
          fun v => Matrix.vecMul v S₁, ?_, ?_⟩)
    · unfold mtdPredict
      rw [t1, Py.ok_bind]
      simp only [Py.pure_eq, mtdForecast]
      split_ifs <;> rfl
    · unfold mtdPredict
      rw [t2, Py.ok_bind]
      simp only [Py.pure_eq, mtdForecast]
      have key : ∀ x : Fin T → Option (Fin k₁ → K),
          (∀ t v, x t = some v → b = 0 ∨ ∑ a, v a = 1) →
          dotRows x S₁' = ⟨T, D, fun t => ((x t).map fun v => Matrix.vecMul v S₁).map
            fun v d => Matrix.vecMul v Q d + b d⟩ := by
        intro x hx
        unfold dotRows
        congr 1
        funext t
        cases hxt : x t with
        | none => rfl
        | some v =>
          exact congrArg some (funext fun d => vecMul_moved h3 (hx t v hxt) d)
      split_ifs
      · rw [key]
        intro t v hv
        rw [← Option.some.inj hv]
        exact hW.imp id fun h => h t
      · rw [key]
        intro t v hv
        exact hW.imp id fun h => mtdForecastRow_sum hp hlag hw hA h horizon t hv

/-- C94.  Random starts are different: they scale random numbers with the mean modulus of the data, so
the start of a fit of translated data is not the translated start. -/
theorem C94_mtd_random_start_fails (sqrt : ℚ → ℚ) (p : ℕ) :
    ∃ (X Y : Matrix (Fin 2) (Fin 1) ℚ) (s s' : _),
      (∀ t d, Y t d = X t d + 1) ∧
      mtdStart ⟨demoRng, sqrt⟩ X 2 p none {} {} {} (demoRng.ofSeed 3) = Py.ok s ∧
      mtdStart ⟨demoRng, sqrt⟩ Y 2 p none {} {} {} (demoRng.ofSeed 3) = Py.ok s' ∧
      ¬ ∀ a d, s'.1.1 a d = s.1.1 a d + 1 := by
  obtain ⟨s, hs⟩ := mtdStart_random_ok (env := ⟨demoRng, sqrt⟩) demoRng_uniform_pos
    (data := (!![0; 1] : Matrix (Fin 2) (Fin 1) ℚ)) (by norm_num) (k := 2) (by norm_num) p
    (init := none) (Or.inl rfl) (args := {}) (g := demoRng.ofSeed 3)
  obtain ⟨s', hs'⟩ := mtdStart_random_ok (env := ⟨demoRng, sqrt⟩) demoRng_uniform_pos
    (data := (!![1; 2] : Matrix (Fin 2) (Fin 1) ℚ)) (by norm_num) (k := 2) (by norm_num) p
    (init := none) (Or.inl rfl) (args := {}) (g := demoRng.ofSeed 3)
  have key : ∀ (X : Matrix (Fin 2) (Fin 1) ℚ) s,
      mtdStart ⟨demoRng, sqrt⟩ X 2 p none {} {} {} (demoRng.ofSeed 3) = Py.ok s →
      s.1.1 0 0 = 0 := by
    intro X s h
    unfold mtdStart at h
    rw [if_neg (by simp)] at h
    obtain ⟨d, hd, h⟩ := Py.bind_eq_ok.1 h
    obtain ⟨w, -, h⟩ := Py.bind_eq_ok.1 h
    obtain ⟨a, -, h⟩ := Py.bind_eq_ok.1 h
    simp only [Py.pure_eq, Py.ok.injEq] at h
    subst h
    unfold mtdStartDictionary mtdInitDictionary gpnhInitDictionary gpnhInitDictionaryRandom at hd
    simp only [Option.getD_none, if_true] at hd
    rw [if_neg (by norm_num)] at hd
    simp only [Py.ok.injEq] at hd
    subst hd
    change (_ : ℚ) * (demoRng.randn 2 1 (demoRng.ofSeed 3)).1 0 0 = (0 : ℚ)
    simp [demoRng]
  refine ⟨_, _, s, s', ?_, hs, hs', fun h => ?_⟩
  · intro t d
    fin_cases t <;> fin_cases d <;> norm_num
  · have := h 0 0
    rw [key _ _ hs, key _ _ hs'] at this
    norm_num at this

/-! ### C95: relabelling -/

/-- C95.  With a custom start, relabelling the components and listing the lags in another order
relabels weights, dictionary, order weights and transition matrices and changes nothing else: the
same exception, or the same cost, history and number of iterations. -/
theorem C95_mtd_relabel {env : Env K} (obj : MTDObj env.rng p) (hinit : obj.init = some "custom")
    (ρ : Equiv.Perm (Fin k)) (σ : Equiv.Perm (Fin p)) (lags' : Fin p → ℕ)
    (hl : ∀ i, lags' (σ i) = obj.lags i) (X : Matrix (Fin T) (Fin D) K)
    (W W' : Matrix (Fin T) (Fin k) K) (hW : ∀ t a, W' t (ρ a) = W t a)
    (S S' : Matrix (Fin k) (Fin D) K) (hS : ∀ a d, S' (ρ a) d = S a d)
    (w w' : Fin p → K) (hw : ∀ i, w' (σ i) = w i) (A A' : Fin p → Matrix (Fin k) (Fin k) K)
    (hA : ∀ i a b, A' (σ i) (ρ a) (ρ b) = A i a b) (fl : MTDFlags) (kw : InitKwargs) :
    (mtdConvexCoding env obj (Arr2.of X) ⟨some (Arr2.of S), some (Arr2.of W), some (Arr1.of w),
        some (Arr3.of A)⟩ fl kw = Py.diverge ∧
      mtdConvexCoding env { obj with lags := lags' } (Arr2.of X) ⟨some (Arr2.of S'),
        some (Arr2.of W'), some (Arr1.of w'), some (Arr3.of A')⟩ fl kw = Py.diverge) ∨
    (∃ e, mtdConvexCoding env obj (Arr2.of X) ⟨some (Arr2.of S), some (Arr2.of W),
        some (Arr1.of w), some (Arr3.of A)⟩ fl kw = Py.raise e ∧
      mtdConvexCoding env { obj with lags := lags' } (Arr2.of X) ⟨some (Arr2.of S'),
        some (Arr2.of W'), some (Arr1.of w'), some (Arr3.of A')⟩ fl kw = Py.raise e) ∨
    ∃ (o : MTDObj env.rng p) (W₁ W₁' : Matrix (Fin T) (Fin k) K) (S₁ S₁' : Matrix (Fin k) (Fin D) K)
      (w₁ w₁' : Fin p → K) (A₁ A₁' : Fin p → Matrix (Fin k) (Fin k) K) (info : FitInfo K),
      mtdConvexCoding env obj (Arr2.of X) ⟨some (Arr2.of S), some (Arr2.of W), some (Arr1.of w),
        some (Arr3.of A)⟩ fl kw =
        Py.ok ({ o with lags := obj.lags, vars := some ⟨T, D, k, W₁, S₁, w₁, A₁⟩ }, info) ∧
      mtdConvexCoding env { obj with lags := lags' } (Arr2.of X) ⟨some (Arr2.of S'),
        some (Arr2.of W'), some (Arr1.of w'), some (Arr3.of A')⟩ fl kw =
        Py.ok ({ o with lags := lags', vars := some ⟨T, D, k, W₁', S₁', w₁', A₁'⟩ }, info) ∧
      (∀ t a, W₁' t (ρ a) = W₁ t a) ∧ (∀ a d, S₁' (ρ a) d = S₁ a d) ∧
      (∀ i, w₁' (σ i) = w₁ i) ∧ ∀ i a b, A₁' (σ i) (ρ a) (ρ b) = A₁ i a b := by
  have := mtdConvexCoding_relabel obj hinit ρ σ hl X hW hS hw hA fl kw
  revert this
  cases mtdConvexCoding env obj (Arr2.of X) ⟨some (Arr2.of S), some (Arr2.of W), some (Arr1.of w),
        some (Arr3.of A)⟩ fl kw <;>
    cases mtdConvexCoding env { obj with lags := lags' } (Arr2.of X) ⟨some (Arr2.of S'),
        some (Arr2.of W'), some (Arr1.of w'), some (Arr3.of A')⟩ fl kw <;>
    intro this <;> simp only [PyRel] at this
  · rename_i r r'
    obtain ⟨hl1, hl2, h2, ⟨S₁, W₁, w₁, A₁⟩, ⟨S₁', W₁', w₁', A₁'⟩, hv, h1, ⟨eS, eW, ew, eA⟩, -⟩ := this
    refine Or.inr (Or.inr ⟨r.1, W₁, W₁', S₁, S₁', w₁, w₁', A₁, A₁', r.2, ?_, ?_,
      submatrix_eq_iff.1 eW, fun a d => ?_, ew, eA⟩)
    · rw [← hv, ← hl1]
    · rw [hl2] at h1
      rw [← h1, ← h2]
    · have := congrFun (congrFun eS a) d
      rw [moveRows_apply, Matrix.mul_one] at this
      simpa using this
  · subst this
    exact Or.inr (Or.inl ⟨_, rfl, rfl⟩)
  · exact Or.inl ⟨rfl, rfl⟩

/-! ### Examples -/

/-- Transition matrices of the examples, one for each of two lags. -/
def demoStartA : Fin 2 → Matrix (Fin 2) (Fin 2) ℚ := ![!![1, 1/3; 0, 2/3], !![1/2, 1/5; 1/2, 4/5]]

theorem demoStartA_colStochastic (i : Fin 2) : ColStochastic (demoStartA i) := by
  intro j
  refine ⟨fun l => ?_, ?_⟩
  · fin_cases i <;> fin_cases j <;> fin_cases l <;> norm_num [demoStartA]
  · fin_cases i <;> fin_cases j <;> norm_num [demoStartA, Fin.sum_univ_two]

theorem demoOrderWeights_isProb : IsProb (![1/4, 3/4] : Fin 2 → ℚ) :=
  ⟨by intro i; fin_cases i <;> norm_num, by norm_num [Fin.sum_univ_two]⟩

/-- A fit from a custom start with the settings of the examples returns. -/
theorem demo_custom_mtd (X : Matrix (Fin 3) (Fin 2) ℚ) (S : Matrix (Fin 2) (Fin 2) ℚ) :
    ∃ res, mtdConvexCoding demoEnv { mtdDemoObj with init := some "custom" } (Arr2.of X)
      ⟨some (Arr2.of S), some (Arr2.of demoStartW), some (Arr1.of ![1/4, 3/4]),
        some (Arr3.of demoStartA)⟩ {} {} = Py.ok res := by
  have hs : mtdStart demoEnv X 2 2 (some "custom")
      ⟨some (Arr2.of S), some (Arr2.of demoStartW), some (Arr1.of ![1/4, 3/4]),
        some (Arr3.of demoStartA)⟩ {} {} mtdDemoObj.randomState =
        Py.ok ((S, demoStartW, ![1/4, 3/4], demoStartA), mtdDemoObj.randomState) := by
    have h1 : ∀ i, iscloseOne (∑ j, demoStartW i j) := by
      intro i
      rw [(demoStartW_rowStochastic i).2]
      norm_num [iscloseOne]
    unfold mtdStart mtdCheckInitWeights mtdCheckInitDictionary
    rw [if_pos rfl]
    simp only
    rw [gpnhCheckInitWeights_of, gpnhCheckInitDictionary_of,
      if_neg (show ¬ ((3 : ℕ) = 0 ∨ (2 : ℕ) = 0) by norm_num),
      if_neg (show ¬ ((2 : ℕ) = 0 ∨ (2 : ℕ) = 0) by norm_num), if_pos h1,
      mtdCheckInitOrderWeights_of demoOrderWeights_isProb,
      mtdCheckInitTransitionMatrices_of demoStartA_colStochastic]
    rfl
  have hp : checkParams (defaultComponents mtdDemoObj.nComponents 2) mtdDemoObj.maxIterations
      mtdDemoObj.tolerance = Py.ok (2, 4, 1/1000) := by
    simp [checkParams, mtdDemoObj, defaultComponents]
  obtain ⟨r, hr⟩ := mtdSolve_succeeds (c := mtdDemoObj.config) mtdDemo_lags
    (by norm_num [MTDObj.config, mtdDemoObj, demoLS])
    (by norm_num [MTDObj.config, mtdDemoObj, demoLS])
    (by norm_num [MTDObj.config, mtdDemoObj, demoLS])
    (by norm_num [MTDObj.config, mtdDemoObj, demoLS]) rfl
    (by norm_num [MTDObj.config, mtdDemoObj, demoLS])
    (by norm_num [MTDObj.config, mtdDemoObj, demoLS]) rfl (by norm_num) (by norm_num)
    (D := 2) (T := 3) (by norm_num)
    (by show (3 : ℕ) ≠ Finset.univ.sup ![1, 2]; decide) (fl := {})
    (require := mtdDemoObj.require) (tol := 1/1000) (maxIter := 4) (by norm_num) (X := X)
    (pt := (S, demoStartW, ![1/4, 3/4], demoStartA)) demoStartW_rowStochastic
    demoOrderWeights_isProb demoStartA_colStochastic
  exact ⟨_, mtdConvexCoding_of_steps (env := demoEnv)
    (obj := { mtdDemoObj with init := some "custom" }) (data := Arr2.of X) (q := (2, 4, 1/1000))
    (start := ((S, demoStartW, ![1/4, 3/4], demoStartA), mtdDemoObj.randomState)) hp hs hr⟩

theorem demoRotation : (!![0, 1; -1, 0] : Matrix (Fin 2) (Fin 2) ℚ) *
    (!![0, 1; -1, 0] : Matrix (Fin 2) (Fin 2) ℚ)ᵀ = 1 := by
  ext i j
  fin_cases i <;> fin_cases j <;>
    norm_num [Matrix.mul_apply, Fin.sum_univ_two, Matrix.transpose_apply, Matrix.one_apply]

/-- C94 for that fit, turned by a right angle and moved. -/
example : ∃ (o : MTDObj demoEnv.rng 2) (info : FitInfo ℚ),
    mtdConvexCoding demoEnv { mtdDemoObj with init := some "custom" }
      (Arr2.of (!![3, 8; 0, 10; 5, 6] : Matrix (Fin 3) (Fin 2) ℚ))
      ⟨some (Arr2.of (!![4, 7; 3, 9] : Matrix (Fin 2) (Fin 2) ℚ)), some (Arr2.of demoStartW),
        some (Arr1.of ![1/4, 3/4]), some (Arr3.of demoStartA)⟩ {} {} = Py.ok (o, info) := by
  obtain ⟨res, hres⟩ := demo_custom_mtd !![1, 2; 3, 5; -1, 0] !![0, 1; 2, 2]
  rcases C94_mtd_rigid_motion demoRng_lawful { mtdDemoObj with init := some "custom" }
    (!![1, 2; 3, 5; -1, 0] : Matrix (Fin 3) (Fin 2) ℚ) !![3, 8; 0, 10; 5, 6] !![0, 1; -1, 0]
    demoRotation ![5, 7]
    (by
      intro i j
      fin_cases i <;> fin_cases j <;> norm_num [Matrix.mul_apply, Fin.sum_univ_two])
    ⟨some (Arr2.of !![0, 1; 2, 2]), some (Arr2.of demoStartW), some (Arr1.of ![1/4, 3/4]),
      some (Arr3.of demoStartA)⟩ (some (Arr2.of !![4, 7; 3, 9]))
    (Or.inr ⟨2, !![0, 1; 2, 2], !![4, 7; 3, 9], rfl, rfl, by
      intro i j
      fin_cases i <;> fin_cases j <;> norm_num [Matrix.mul_apply, Fin.sum_univ_two]⟩)
    {} {} (Or.inl rfl)
    (fun _ W hW => by
      have := Option.some.inj hW
      subst this
      exact fun i => (demoStartW_rowStochastic i).2) with
    ⟨h, -⟩ | ⟨e, h, -⟩ | ⟨o, k, W, S, S', w, A, info, -, h, -⟩
  · rw [hres] at h
    simp at h
  · rw [hres] at h
    simp at h
  · exact ⟨_, info, h⟩

/-- C94 for forecasts of moved data: the demo model makes them for every horizon. -/
example (W0 : Matrix (Fin 5) (Fin 2) ℚ) (horizon : ℤ) :
    ∃ (o o' : MTDObj demoEnv.rng 2) (P : Fin 3 → Option (Fin 2 → ℚ)),
    mtdPredict demoEnv
      { mtdDemoObj with vars := some ⟨5, 2, 2, W0, !![0, 1; 2, 2], ![1/4, 3/4], demoStartA⟩ }
      (Arr2.of (!![1, 2; 3, 5; -1, 0] : Matrix (Fin 3) (Fin 2) ℚ)) horizon = Py.ok (o, ⟨3, 2, P⟩) ∧
    mtdPredict demoEnv
      { mtdDemoObj with vars := some ⟨5, 2, 2, W0, !![4, 7; 3, 9], ![1/4, 3/4], demoStartA⟩ }
      (Arr2.of (!![3, 8; 0, 10; 5, 6] : Matrix (Fin 3) (Fin 2) ℚ)) horizon =
        Py.ok (o', ⟨3, 2, fun t => (P t).map fun v => ![5 - v 1, 7 + v 0]⟩) := by
  obtain ⟨⟨o, G, i⟩, h⟩ := C61_mtd_transform_returns demoRng_lawful demoRng_uniform_pos
    { mtdDemoObj with vars := some ⟨5, 2, 2, W0, !![0, 1; 2, 2], ![1/4, 3/4], demoStartA⟩ }
    (by norm_num) mtdDemo_lags
    (by norm_num [mtdDemoObj, demoLS]) (by norm_num [mtdDemoObj, demoLS])
    (by norm_num [mtdDemoObj, demoLS]) (by norm_num [mtdDemoObj, demoLS]) rfl
    (by norm_num [mtdDemoObj, demoLS])
    (by norm_num [mtdDemoObj, demoLS]) rfl (Or.inl rfl)
    (Arr2.of (!![1, 2; 3, 5; -1, 0] : Matrix (Fin 3) (Fin 2) ℚ)) (by norm_num [Arr2.of])
    (by show (3 : ℕ) ≠ Finset.univ.sup ![1, 2]; decide)
    ⟨⟨2, rfl, by norm_num⟩, ⟨4, rfl, by norm_num⟩, Or.inr ⟨_, rfl, by norm_num⟩⟩
    (k := 2) rfl 5 W0 !![0, 1; 2, 2] _ _ rfl demoOrderWeights_isProb demoStartA_colStochastic
  have hne : ∃ r, mtdPredict demoEnv
      { mtdDemoObj with vars := some ⟨5, 2, 2, W0, !![0, 1; 2, 2], ![1/4, 3/4], demoStartA⟩ }
      (Arr2.of (!![1, 2; 3, 5; -1, 0] : Matrix (Fin 3) (Fin 2) ℚ)) horizon = Py.ok r := by
    obtain ⟨T0, k, W0, W, S, w, A, -, -, -, e2, -⟩ := mtdTransform_facts h
    refine ⟨(o, mtdForecast ![1, 2] ⟨_, _, _, W, S, w, A⟩ horizon), ?_⟩
    unfold mtdPredict
    rw [h, Py.ok_bind]
    simp only [e2]
    rfl
  obtain ⟨r, hr⟩ := hne
  rcases C94_mtd_predict_rigid_motion demoRng_lawful mtdDemoObj mtdDemo_lags
    (!![1, 2; 3, 5; -1, 0] : Matrix (Fin 3) (Fin 2) ℚ) !![3, 8; 0, 10; 5, 6] !![0, 1; -1, 0]
    demoRotation ![5, 7]
    (by
      intro i j
      fin_cases i <;> fin_cases j <;> norm_num [Matrix.mul_apply, Fin.sum_univ_two])
    5 W0 !![0, 1; 2, 2] !![4, 7; 3, 9]
    (by
      intro i j
      fin_cases i <;> fin_cases j <;> norm_num [Matrix.mul_apply, Fin.sum_univ_two])
    ![1/4, 3/4] demoOrderWeights_isProb.2 demoStartA (fun i j => (demoStartA_colStochastic i j).2)
    horizon with ⟨h, -⟩ | ⟨e, h, -⟩ | ⟨o, o', P, h1, h2⟩
  · rw [hr] at h
    simp at h
  · rw [hr] at h
    simp at h
  · refine ⟨o, o', P, h1, ?_⟩
    rw [h2]
    congr 4
    funext t
    congr 1
    funext v d
    fin_cases d <;> norm_num [Matrix.vecMul, dotProduct, Fin.sum_univ_two] <;> ring

/-- C95 for the custom fit: the two components exchanged, and the two lags. -/
example : ∃ (o : MTDObj demoEnv.rng 2) (info : FitInfo ℚ),
    mtdConvexCoding demoEnv { mtdDemoObj with init := some "custom", lags := ![2, 1] }
      (Arr2.of (!![1, 2; 3, 5; -1, 0] : Matrix (Fin 3) (Fin 2) ℚ))
      ⟨some (Arr2.of (!![2, 2; 0, 1] : Matrix (Fin 2) (Fin 2) ℚ)),
        some (Arr2.of (!![1/2, 1/2; 3/4, 1/4; 0, 1] : Matrix (Fin 3) (Fin 2) ℚ)),
        some (Arr1.of ![3/4, 1/4]),
        some (Arr3.of ![!![4/5, 1/2; 1/5, 1/2], !![2/3, 0; 1/3, 1]])⟩ {} {} = Py.ok (o, info) := by
  obtain ⟨res, hres⟩ := demo_custom_mtd !![1, 2; 3, 5; -1, 0] !![0, 1; 2, 2]
  rcases C95_mtd_relabel { mtdDemoObj with init := some "custom" } rfl (Equiv.swap 0 1)
    (Equiv.swap 0 1) ![2, 1] (by intro i; fin_cases i <;> rfl)
    (!![1, 2; 3, 5; -1, 0] : Matrix (Fin 3) (Fin 2) ℚ) demoStartW
    !![1/2, 1/2; 3/4, 1/4; 0, 1] (by intro i j; fin_cases i <;> fin_cases j <;> rfl)
    !![0, 1; 2, 2] !![2, 2; 0, 1] (by intro i j; fin_cases i <;> fin_cases j <;> rfl)
    ![1/4, 3/4] ![3/4, 1/4] (by intro i; fin_cases i <;> rfl)
    demoStartA ![!![4/5, 1/2; 1/5, 1/2], !![2/3, 0; 1/3, 1]]
    (by intro i a b; fin_cases i <;> fin_cases a <;> fin_cases b <;> rfl) {} {}
    with ⟨h, -⟩ | ⟨e, h, -⟩ | ⟨o, W₁, W₁', S₁, S₁', w₁, w₁', A₁, A₁', info, -, h, -⟩
  · rw [hres] at h
    simp at h
  · rw [hres] at h
    simp at h
  · exact ⟨_, info, h⟩

end Reor
