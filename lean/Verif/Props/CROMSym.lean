import Verif.Props.GPNHSym
import Verif.Props.MTDSym
import Verif.Props.GPNHCROM

/-!
GPNH-CROM of rotated, reflected and translated data.
-/

namespace Reor

set_option linter.unusedSectionVars false

open scoped BigOperators Matrix
open Spec

variable {K : Type} [Field K] [LinearOrder K] [IsStrictOrderedRing K]
variable {T D k p : ℕ}

/-! ### C114: GPNH-CROM moves with the data -/

/-- C114.  A fit of rotated, reflected and translated data (from given or furthest-sum starts): the same
exception, or the same weights, order weights, transition matrices, costs, history and draws, with the
dictionary moved like the data. -/
theorem C114_crom_rigid_motion {env : Env K} (hR : env.rng.Lawful) (obj : CROMObj env.rng p)
    (X Y : Matrix (Fin T) (Fin D) K) (Q : Matrix (Fin D) (Fin D) K) (hQ : Q * Qᵀ = 1) (b : Fin D → K)
    (hY : ∀ t d, Y t d = (X * Q) t d + b d) (dictionary dictionary' weights : Option (Arr2 K))
    (hd : (dictionary = none ∧ dictionary' = none) ∨ ∃ (m : ℕ) (C C' : Matrix (Fin m) (Fin D) K),
      dictionary = some (Arr2.of C) ∧ dictionary' = some (Arr2.of C') ∧
        ∀ a d, C' a d = (C * Q) a d + b d)
    (kw : InitKwargs) (ud uw : Bool)
    (hinit : obj.base.init = some "custom" ∨ obj.base.init = some "furthest_sum" ∨
      (ud = false ∧ uw = true))
    (hw : (obj.base.init = some "custom" ∨ uw = false) →
      ∀ W, weights = some W → ∀ i, ∑ a, W.val i a = 1) :
    (cromFitTransform env obj (Arr2.of X) dictionary weights kw ud uw = Py.diverge ∧
      cromFitTransform env obj (Arr2.of Y) dictionary' weights kw ud uw = Py.diverge) ∨
    (∃ e, cromFitTransform env obj (Arr2.of X) dictionary weights kw ud uw = Py.raise e ∧
      cromFitTransform env obj (Arr2.of Y) dictionary' weights kw ud uw = Py.raise e) ∨
    ∃ (o : CROMObj env.rng p) (k : ℕ) (S S' : Matrix (Fin k) (Fin D) K) (G : Option (Arr2 K))
      (info : FitInfo K),
      cromFitTransform env obj (Arr2.of X) dictionary weights kw ud uw =
        Py.ok ({ o with base := { o.base with
          S := some (Arr2.of S), dictionary_ := some (Arr2.of S) } }, G, info) ∧
      cromFitTransform env obj (Arr2.of Y) dictionary' weights kw ud uw =
        Py.ok ({ o with base := { o.base with
          S := some (Arr2.of S'), dictionary_ := some (Arr2.of S') } }, G, info) ∧
      ∀ a d, S' a d = (S * Q) a d + b d := by
  unfold cromFitTransform gpnhFitTransform
  rcases C84_gpnh_rigid_motion hR obj.base X Y Q hQ b hY dictionary dictionary' weights hd ud uw kw
    hinit hw with ⟨h1, h2⟩ | ⟨e, h1, h2⟩ | ⟨o, k, S, S', info, h1, h2, h3⟩
  · rw [h1, h2]
    exact Or.inl ⟨rfl, rfl⟩
  · rw [h1, h2]
    exact Or.inr (Or.inl ⟨e, rfl, rfl⟩)
  · rw [h1, h2]
    simp only [Py.ok_bind, Py.pure_eq, Option.map_some]
    cases hc : checkParams o.nComponents o.maxIterations o.tolerance with
    | diverge => exact Or.inl ⟨rfl, rfl⟩
    | raise e => exact Or.inr (Or.inl ⟨e, rfl, rfl⟩)
    | ok q =>
      simp only [Py.ok_bind]
      cases hG : o.Gamma with
      | none => exact Or.inr (Or.inl ⟨_, rfl, rfl⟩)
      | some G =>
        simp only
        cases hf : cromFitParameters env.rng obj.config o.require q.2.2 q.2.1 G.val o.randomState with
        | diverge => exact Or.inl ⟨rfl, rfl⟩
        | raise e => exact Or.inr (Or.inl ⟨e, rfl, rfl⟩)
        | ok f =>
          refine Or.inr (Or.inr ⟨⟨{ o with
              nComponents_ := some k, cost_ := some info.cost, nIter_ := some info.nIter,
              randomState := f.2 }, obj.lags,
            some ⟨G.cols, f.1.state.orderWeights, f.1.state.transitionMatrices⟩⟩, k, S, S', some G,
            info, ?_, ?_, h3⟩)
          · simp only [Py.ok_bind, hG]
            rfl
          · simp only [Py.ok_bind, hG]
            rfl

theorem crom_forecast_moved {lags : Fin p → ℕ} (hlag : ∀ i, 1 ≤ lags i) {k₁ : ℕ}
    {W : Matrix (Fin T) (Fin k₁) K} {Q : Matrix (Fin D) (Fin D) K} {b : Fin D → K}
    {S S' : Matrix (Fin k₁) (Fin D) K} (hS : ∀ a d, S' a d = (S * Q) a d + b d) (hW : SumsW b W)
    {w : Fin p → K} (hw : ∑ i, w i = 1) {A : Fin p → Matrix (Fin k) (Fin k) K}
    (hA : ∀ i j, ∑ l, A i l j = 1) (horizon : ℤ) :
    (∃ e, cromForecast lags (some ⟨k, w, A⟩) (some (Arr2.of S)) (Arr2.of W) horizon = Py.raise e ∧
      cromForecast lags (some ⟨k, w, A⟩) (some (Arr2.of S')) (Arr2.of W) horizon = Py.raise e) ∨
    ∃ P : Fin T → Option (Fin D → K),
      cromForecast lags (some ⟨k, w, A⟩) (some (Arr2.of S)) (Arr2.of W) horizon = Py.ok ⟨T, D, P⟩ ∧
      cromForecast lags (some ⟨k, w, A⟩) (some (Arr2.of S')) (Arr2.of W) horizon =
        Py.ok ⟨T, D, fun t => (P t).map fun v d => Matrix.vecMul v Q d + b d⟩ := by
  unfold cromForecast
  simp only
  split_ifs with c1 c2
  · exact Or.inl ⟨_, rfl, rfl⟩
  · change k₁ = k at c2
    subst c2
    have key : ∀ x : Fin T → Option (Fin k₁ → K),
        (∀ t v, x t = some v → b = 0 ∨ ∑ a, v a = 1) →
        dotRows x S' = ⟨T, D, fun t => ((x t).map fun v => Matrix.vecMul v S).map
          fun v d => Matrix.vecMul v Q d + b d⟩ := by
      intro x hx
      unfold dotRows
      congr 1
      funext t
      cases hxt : x t with
      | none => rfl
      | some v => exact congrArg some (funext fun d => vecMul_moved hS (hx t v hxt) d)
    refine Or.inr ⟨fun t => (cromForecastWeights lags w A W horizon t).map
      fun v => Matrix.vecMul v S, ?_, ?_⟩
    · unfold cromInverseTransform
      exact dif_pos rfl
    · unfold cromInverseTransform
      refine (dif_pos rfl).trans (congrArg Py.ok (key _ fun t v hv => ?_))
      unfold cromForecastWeights at hv
      by_cases c : horizon = 0
      · have hv := (congrFun (if_pos c) t).symm.trans hv
        rw [← Option.some.inj hv]
        exact hW.imp id fun h => h t
      · have hv := (congrFun (if_neg c) t).symm.trans hv
        have hp : 1 ≤ p := by
          rcases Nat.eq_zero_or_pos p with rfl | h
          · exact absurd ⟨c, rfl⟩ c1
          · exact h
        exact hW.imp id fun h => mtdForecastRow_sum hp hlag hw hA h horizon t hv
  · exact Or.inl ⟨_, rfl, rfl⟩

/-- C114.  `predict` of moved data by the model with the moved dictionary: the same exception, or the
predictions moved like the data. -/
theorem C114_crom_predict_rigid_motion {env : Env K} (hR : env.rng.Lawful) (obj : CROMObj env.rng p)
    (hlag : ∀ i, 1 ≤ obj.lags i)
    (X Y : Matrix (Fin T) (Fin D) K) (Q : Matrix (Fin D) (Fin D) K) (hQ : Q * Qᵀ = 1) (b : Fin D → K)
    (hY : ∀ t d, Y t d = (X * Q) t d + b d)
    (S S' : Matrix (Fin k) (Fin D) K) (hS : ∀ a d, S' a d = (S * Q) a d + b d)
    (w : Fin p → K) (hw : ∑ i, w i = 1) (A : Fin p → Matrix (Fin k) (Fin k) K)
    (hA : ∀ i j, ∑ l, A i l j = 1) (hv : obj.vars = some ⟨k, w, A⟩) (horizon : ℤ) :
    (cromPredict env { obj with base := { obj.base with S := some (Arr2.of S) } } (Arr2.of X) horizon =
        Py.diverge ∧
      cromPredict env { obj with base := { obj.base with S := some (Arr2.of S') } } (Arr2.of Y) horizon =
        Py.diverge) ∨
    (∃ e, cromPredict env { obj with base := { obj.base with S := some (Arr2.of S) } } (Arr2.of X) horizon =
        Py.raise e ∧
      cromPredict env { obj with base := { obj.base with S := some (Arr2.of S') } } (Arr2.of Y) horizon =
        Py.raise e) ∨
    ∃ (o o' : CROMObj env.rng p) (P : Fin T → Option (Fin D → K)),
      cromPredict env { obj with base := { obj.base with S := some (Arr2.of S) } } (Arr2.of X) horizon =
        Py.ok (o, ⟨T, D, P⟩) ∧
      cromPredict env { obj with base := { obj.base with S := some (Arr2.of S') } } (Arr2.of Y) horizon =
        Py.ok (o', ⟨T, D, fun t => (P t).map fun v d => Matrix.vecMul v Q d + b d⟩) := by
  have e : ∀ (M : Option (Arr2 K)) (data : Arr2 K) (d : Option (Arr2 K)),
      gpnhConvexCoding env { obj.base with S := M } data d none false true {} =
        gpnhConvexCoding env obj.base data d none false true {} := fun _ _ _ => rfl
  have key := gpnhConvexCoding_moved hR obj.base hQ (moved_one_iff.2 hY)
    (d := some (Arr2.of S)) (d' := some (Arr2.of S')) (Or.inr ⟨k, S, S', rfl, rfl, hS⟩) none false true {}
    (Or.inr (Or.inr ⟨rfl, rfl⟩)) (fun _ W hW => by simp at hW)
  unfold cromPredict cromTransform gpnhTransform
  simp only [e]
  cases h1 : gpnhConvexCoding env obj.base (Arr2.of X) (some (Arr2.of S)) none false true {} with
  | diverge =>
    rw [h1] at key
    cases h2 : gpnhConvexCoding env obj.base (Arr2.of Y) (some (Arr2.of S')) none false true {} with
    | diverge => exact Or.inl ⟨rfl, rfl⟩
    | _ => rw [h2] at key; exact key.elim
  | raise x =>
    rw [h1] at key
    cases h2 : gpnhConvexCoding env obj.base (Arr2.of Y) (some (Arr2.of S')) none false true {} with
    | raise x' =>
      rw [h2] at key
      obtain rfl : x = x' := key
      exact Or.inr (Or.inl ⟨x, rfl, rfl⟩)
    | _ => rw [h2] at key; exact key.elim
  | ok r =>
    rw [h1] at key
    cases h2 : gpnhConvexCoding env obj.base (Arr2.of Y) (some (Arr2.of S')) none false true {} with
    | ok r' =>
      rw [h2] at key
      obtain ⟨k₁, h3, W, W', S₁, S₁', hG, hS₁, h4, hW, hm, hsum⟩ := key
      obtain rfl : W' = W := hW
      simp only [Py.ok_bind, Py.pure_eq, h4, hG, hS₁, hv]
      rcases crom_forecast_moved (lags := obj.lags) hlag (moved_one_iff.1 hm) hsum hw hA horizon with
        ⟨e, a1, a2⟩ | ⟨P, a1, a2⟩
      · rw [a1, a2]
        exact Or.inr (Or.inl ⟨e, rfl, rfl⟩)
      · rw [a1, a2]
        exact Or.inr (Or.inr ⟨_, _, P, rfl, rfl⟩)
    | _ => rw [h2] at key; exact key.elim

/-! ### Examples -/

/-- A fit of the coding with stochastic weights is followed by a fit of the parameters that returns. -/
theorem crom_fit_of_coding [Archimedean K] {env : Env K} (hR : env.rng.Lawful)
    (hpos : ∀ m n g i j, 0 < (env.rng.uniform m n g).1 i j)
    (obj : CROMObj env.rng p) (hp : 1 ≤ p) (hlag : ∀ i, 1 ≤ obj.lags i)
    (h1 : 0 < obj.base.ls.sigmaOne) (h2 : obj.base.ls.sigmaTwo < 1)
    (hg0 : 0 ≤ obj.base.ls.gamma) (hg1 : obj.base.ls.gamma < 1)
    (ht : obj.base.ls.stepSizeTolerance = 0)
    (ha0 : 0 < obj.base.ls.alphaMin) (ha1 : obj.base.ls.alphaMin ≤ obj.base.ls.alphaMax)
    (hmem : obj.base.ls.memory = 1) (data : Arr2 K) (hdata : data.rows ≠ 0)
    (hT : data.rows ≠ obj.config.maxLag) (dictionary weights : Option (Arr2 K)) (kw : InitKwargs)
    {o : GPNHObj env.rng} {G : Option (Arr2 K)} {i : FitInfo K}
    (ho : gpnhFitTransform env obj.base data dictionary weights kw = Py.ok (o, G, i))
    (hsto : ∀ W, G = some W → RowStochastic W.val) :
    ∃ res, cromFitTransform env obj data dictionary weights kw = Py.ok res := by
  have ho' := ho
  obtain ⟨o1, i1, ho1, hres⟩ := gpnhFitTransform_eq_ok ho
  obtain ⟨q1, start, r1, hq1, hst, hr1, hoi⟩ := gpnhConvexCoding_eq_ok ho1
  obtain ⟨-, -, -, hk, hm, -⟩ := checkParams_ok hq1
  simp only [Prod.mk.injEq] at hres hoi
  obtain ⟨rfl, rfl, rfl⟩ := hres
  obtain ⟨rfl, rfl⟩ := hoi
  have hW : RowStochastic r1.state.Gamma := hsto _ rfl
  obtain ⟨w, hw⟩ := mtdDrawOrderWeights_succeeds hpos p start.2
  obtain ⟨A, hA⟩ := mtdDrawTransitionMatrices_succeeds hpos hk p w.2
  obtain ⟨r, hr⟩ := cromSolve_succeeds (c := obj.config) hlag h1 h2 hg0 hg1 ht ha0 ha1 hmem hk hp
    hdata hT (require := obj.base.require) (tol := q1.2.2) hm hW
    (mtdDrawOrderWeights_ok hR hp hw) (mtdDrawTransitionMatrices_ok hR hk hA)
  have hr' : cromSolve obj.config obj.base.require q1.2.2 q1.2.1 r1.state.Gamma w.1 A.1 =
    Py.ok r := hr
  have hf : cromFitParameters env.rng obj.config obj.base.require q1.2.2 q1.2.1 r1.state.Gamma
      start.2 = Py.ok (r, A.2) := by
    unfold cromFitParameters
    rw [hw, Py.ok_bind, hA, Py.ok_bind, hr', Py.ok_bind]
    rfl
  unfold cromFitTransform
  rw [ho', Py.ok_bind]
  simp only [hq1, Py.ok_bind]
  exact ⟨_, Py.bind_eq_ok.2 ⟨_, hf, rfl⟩⟩

/-- A model with a start of one's own. -/
def cromCustomObj : CROMObj demoEnv.rng 2 :=
  { base := { demoObj with init := some "custom" }, lags := ![1, 2] }

theorem cromCustom_fit : ∃ res, cromFitTransform demoEnv cromCustomObj
    (Arr2.of (!![1, 2; 3, 5; -1, 0] : Matrix (Fin 3) (Fin 2) ℚ))
    (some (Arr2.of (!![0, 1; 2, 2] : Matrix (Fin 2) (Fin 2) ℚ))) (some (Arr2.of demoStartW)) {} =
      Py.ok res := by
  obtain ⟨res, hres⟩ := demo_custom_gpnh !![1, 2; 3, 5; -1, 0] !![0, 1; 2, 2] demoStartW
    demoStartW_rowStochastic
  have ho : ∃ o G i, gpnhFitTransform demoEnv { demoObj with init := some "custom" }
      (Arr2.of (!![1, 2; 3, 5; -1, 0] : Matrix (Fin 3) (Fin 2) ℚ))
      (some (Arr2.of (!![0, 1; 2, 2] : Matrix (Fin 2) (Fin 2) ℚ))) (some (Arr2.of demoStartW)) {} =
      Py.ok (o, G, i) := by
    unfold gpnhFitTransform
    rw [hres]
    exact ⟨_, _, _, rfl⟩
  obtain ⟨o, G, i, ho⟩ := ho
  obtain ⟨W', hG, hGo, -, hW⟩ := C17_gpnh_fit_weights_stochastic_partial demoRng_lawful
    { demoObj with init := some "custom" }
    (LSConfig.safe_of_sigma (by norm_num [demoObj, demoLS]) (by norm_num [demoObj, demoLS])) _ _ _ {}
    (fun _ W hW => by
      have := Option.some.inj hW
      subst this
      exact demoStartW_rowStochastic) o G i ho
  refine crom_fit_of_coding demoRng_lawful demoRng_uniform_pos cromCustomObj (by norm_num)
    (by intro i; fin_cases i <;> decide)
    (by norm_num [cromCustomObj, demoObj, demoLS]) (by norm_num [cromCustomObj, demoObj, demoLS])
    (by norm_num [cromCustomObj, demoObj, demoLS]) (by norm_num [cromCustomObj, demoObj, demoLS]) rfl
    (by norm_num [cromCustomObj, demoObj, demoLS]) (by norm_num [cromCustomObj, demoObj, demoLS]) rfl
    _ (by norm_num [Arr2.of]) (by show (3 : ℕ) ≠ Finset.univ.sup ![1, 2]; decide) _ _ {} ho ?_
  intro W h
  rw [hG] at h
  obtain rfl := Option.some.inj h
  exact hW

/-- C114 for that fit, turned by a right angle and moved. -/
example : ∃ (o : CROMObj demoEnv.rng 2) (G : Option (Arr2 ℚ)) (info : FitInfo ℚ),
    cromFitTransform demoEnv cromCustomObj
      (Arr2.of (!![3, 8; 0, 10; 5, 6] : Matrix (Fin 3) (Fin 2) ℚ))
      (some (Arr2.of (!![4, 7; 3, 9] : Matrix (Fin 2) (Fin 2) ℚ)))
      (some (Arr2.of demoStartW)) {} = Py.ok (o, G, info) := by
  obtain ⟨res, hres⟩ := cromCustom_fit
  rcases C114_crom_rigid_motion demoRng_lawful cromCustomObj
    (!![1, 2; 3, 5; -1, 0] : Matrix (Fin 3) (Fin 2) ℚ) !![3, 8; 0, 10; 5, 6] !![0, 1; -1, 0]
    demoRotation ![5, 7]
    (by
      intro i j
      fin_cases i <;> fin_cases j <;> norm_num [Matrix.mul_apply, Fin.sum_univ_two])
    (some (Arr2.of !![0, 1; 2, 2])) (some (Arr2.of !![4, 7; 3, 9])) (some (Arr2.of demoStartW))
    (Or.inr ⟨2, !![0, 1; 2, 2], !![4, 7; 3, 9], rfl, rfl, by
      intro i j
      fin_cases i <;> fin_cases j <;> norm_num [Matrix.mul_apply, Fin.sum_univ_two]⟩)
    {} true true (Or.inl rfl)
    (fun _ W hW => by
      have := Option.some.inj hW
      subst this
      exact fun i => (demoStartW_rowStochastic i).2) with
    ⟨h, -⟩ | ⟨e, h, -⟩ | ⟨o, k, S, S', G, info, -, h, -⟩
  · rw [hres] at h
    simp at h
  · rw [hres] at h
    simp at h
  · exact ⟨_, G, info, h⟩

/-- Settings with a dictionary given. -/
def cromDemoBase (S : Matrix (Fin 2) (Fin 2) ℚ) : GPNHObj demoEnv.rng :=
  { demoObj with nComponents := .int 2, S := some (Arr2.of S) }

/-- C114 for predictions: those of the turned and moved data, by a model of two lags that has been
given a dictionary. -/
example (horizon : ℤ) : ∃ (o o' : CROMObj demoEnv.rng 2) (P : Fin 3 → Option (Fin 2 → ℚ)),
    cromPredict demoEnv
      { base := cromDemoBase !![0, 1; 2, 2]
        lags := ![1, 2], vars := some ⟨2, ![1/4, 3/4], demoStartA⟩ }
      (Arr2.of (!![1, 2; 3, 5; -1, 0] : Matrix (Fin 3) (Fin 2) ℚ)) horizon = Py.ok (o, ⟨3, 2, P⟩) ∧
    cromPredict demoEnv
      { base := cromDemoBase !![4, 7; 3, 9]
        lags := ![1, 2], vars := some ⟨2, ![1/4, 3/4], demoStartA⟩ }
      (Arr2.of (!![3, 8; 0, 10; 5, 6] : Matrix (Fin 3) (Fin 2) ℚ)) horizon =
        Py.ok (o', ⟨3, 2, fun t => (P t).map fun v => ![5 - v 1, 7 + v 0]⟩) := by
  have hne : ∃ r, cromPredict demoEnv
      { base := cromDemoBase !![0, 1; 2, 2]
        lags := ![1, 2], vars := some ⟨2, ![1/4, 3/4], demoStartA⟩ }
      (Arr2.of (!![1, 2; 3, 5; -1, 0] : Matrix (Fin 3) (Fin 2) ℚ)) horizon = Py.ok r := by
    obtain ⟨⟨o2, G2, i2⟩, h2⟩ := C21_gpnh_transform_returns demoRng_lawful demoRng_uniform_pos
      (cromDemoBase !![0, 1; 2, 2])
      (by norm_num [cromDemoBase, demoObj, demoLS]) (by norm_num [cromDemoBase, demoObj, demoLS])
      (by norm_num [cromDemoBase, demoObj, demoLS]) (by norm_num [cromDemoBase, demoObj, demoLS]) rfl
      (by norm_num [cromDemoBase, demoObj, demoLS]) (by norm_num [cromDemoBase, demoObj, demoLS]) rfl
      (Or.inl rfl)
      (Arr2.of (!![1, 2; 3, 5; -1, 0] : Matrix (Fin 3) (Fin 2) ℚ)) (by norm_num [Arr2.of])
      ⟨⟨2, rfl, by norm_num⟩, ⟨4, rfl, by norm_num⟩, Or.inr ⟨_, rfl, by norm_num⟩⟩
      (k := 2) rfl !![0, 1; 2, 2] rfl
    have hct : cromTransform demoEnv
        { base := cromDemoBase !![0, 1; 2, 2]
          lags := ![1, 2], vars := some ⟨2, ![1/4, 3/4], demoStartA⟩ }
        (Arr2.of (!![1, 2; 3, 5; -1, 0] : Matrix (Fin 3) (Fin 2) ℚ)) =
        Py.ok (⟨o2, ![1, 2], some ⟨2, ![1/4, 3/4], demoStartA⟩⟩, G2, i2) := by
      unfold cromTransform
      rw [h2]
      rfl
    obtain ⟨k', W', S', rfl, e1, e2⟩ := cromTransform_shape hct
    obtain rfl : 2 = k' := congrArg Arr2.rows (Option.some.inj e1)
    unfold cromPredict
    rw [hct, Py.ok_bind]
    have e2 : o2.S = some (Arr2.of S') := e2
    unfold cromForecast cromInverseTransform
    simp only [e2]
    rw [if_neg (by simp), dif_pos (show (Arr2.of W').cols = 2 from rfl),
      dif_pos (show (Arr2.of S').rows = 2 from rfl)]
    exact ⟨_, rfl⟩
  obtain ⟨r, hr⟩ := hne
  rcases C114_crom_predict_rigid_motion demoRng_lawful
    { base := { demoObj with nComponents := .int 2 }, lags := ![1, 2]
      vars := some ⟨2, ![1/4, 3/4], demoStartA⟩ }
    mtdDemo_lags
    (!![1, 2; 3, 5; -1, 0] : Matrix (Fin 3) (Fin 2) ℚ) !![3, 8; 0, 10; 5, 6] !![0, 1; -1, 0]
    demoRotation ![5, 7]
    (by
      intro i j
      fin_cases i <;> fin_cases j <;> norm_num [Matrix.mul_apply, Fin.sum_univ_two])
    !![0, 1; 2, 2] !![4, 7; 3, 9]
    (by
      intro i j
      fin_cases i <;> fin_cases j <;> norm_num [Matrix.mul_apply, Fin.sum_univ_two])
    ![1/4, 3/4] demoOrderWeights_isProb.2 demoStartA (fun i j => (demoStartA_colStochastic i j).2) rfl
    horizon with ⟨h, -⟩ | ⟨e, h, -⟩ | ⟨o, o', P, h1, h2⟩
  · exact absurd (hr.symm.trans h) (by simp)
  · exact absurd (hr.symm.trans h) (by simp)
  · refine ⟨o, o', P, h1, h2.trans ?_⟩
    congr 4
    funext t
    congr 1
    funext v d
    fin_cases d <;> norm_num [Matrix.vecMul, dotProduct, Fin.sum_univ_two] <;> ring

end Reor
