import Verif.Proofs.GPNHSym
import Verif.Props.GPNH

/-!
Symmetries of GPNH convex coding: rotating and translating the data, and relabelling the samples and
the dictionary elements.
-/

namespace Reor

set_option linter.unusedSectionVars false

open scoped BigOperators Matrix
open Spec

variable {K : Type} [Field K] [LinearOrder K] [IsStrictOrderedRing K]
variable {T D k : ℕ}

/-! ### C17: row sums -/

/-- C17.  Whatever the line search settings and the flags, the rows of the weights of a fit have sum
exactly 1, provided those supplied by the caller have. -/
theorem C17_gpnh_row_sums {env : Env K} (hR : env.rng.Lawful) (obj : GPNHObj env.rng)
    (data : Arr2 K) (dictionary weights : Option (Arr2 K)) (kw : InitKwargs) (ud uw : Bool)
    (hw : (obj.init = some "custom" ∨ uw = false) →
      ∀ W, weights = some W → ∀ i, ∑ a, W.val i a = 1)
    (obj' : GPNHObj env.rng) (G : Option (Arr2 K)) (info : FitInfo K)
    (h : gpnhFitTransform env obj data dictionary weights kw ud uw = Py.ok (obj', G, info)) :
    ∃ (k : ℕ) (W : Matrix (Fin data.rows) (Fin k) K),
      G = some (Arr2.of W) ∧ ∀ i, ∑ a, W i a = 1 := by
  obtain ⟨o, i, ho, hres⟩ := gpnhFitTransform_eq_ok h
  obtain ⟨p, start, r, hp, hst, hr, hoi⟩ := gpnhConvexCoding_eq_ok ho
  simp only [Prod.mk.injEq] at hres hoi
  obtain ⟨rfl, rfl⟩ := hoi
  obtain ⟨-, rfl, -⟩ := hres
  have hk := (checkParams_ok hp).2.2.2.1
  refine ⟨p.1, r.state.Gamma, rfl, ?_⟩
  refine iterate_inv (Inv := fun s => ∀ i, ∑ a, s.Gamma i a = 1) (fun _ h => h) ?_
    (gpnhStart_weights_sums hR hk hw hst) (gpnhIterate_eq_ok.1 hr).2
  intro q hq s s' hs hss
  rcases mem_phases hq with ⟨-, rfl⟩ | ⟨-, rfl⟩
  · obtain ⟨lam, hl⟩ := GPNHState.updateDictionary_post hss
    rw [hl.Gamma]
    exact hs
  · obtain ⟨lam, hl⟩ := GPNHState.updateWeights_post hss
    rw [hl.Gamma]
    exact move_sum hs (projectedStep_sum hs _) lam

/-! ### C84: rotations and translations -/

/-- C84.  If the data are rotated by `Q` and translated by `b`, and so is the dictionary supplied (if
any), then the fit ends in the same way: the same exception, or the same weights, cost, history,
number of iterations and generator state, and the dictionary found is rotated and translated too.
For starts other than random dictionaries. -/
theorem C84_gpnh_rigid_motion {env : Env K} (hR : env.rng.Lawful) (obj : GPNHObj env.rng)
    (X Y : Matrix (Fin T) (Fin D) K) (Q : Matrix (Fin D) (Fin D) K) (hQ : Q * Qᵀ = 1) (b : Fin D → K)
    (hY : ∀ t d, Y t d = (X * Q) t d + b d) (dictionary dictionary' weights : Option (Arr2 K))
    (hd : (dictionary = none ∧ dictionary' = none) ∨ ∃ (m : ℕ) (C C' : Matrix (Fin m) (Fin D) K),
      dictionary = some (Arr2.of C) ∧ dictionary' = some (Arr2.of C') ∧
        ∀ a d, C' a d = (C * Q) a d + b d)
    (ud uw : Bool) (kw : InitKwargs)
    (hinit : obj.init = some "custom" ∨ obj.init = some "furthest_sum" ∨ (ud = false ∧ uw = true))
    (hw : (obj.init = some "custom" ∨ uw = false) →
      ∀ W, weights = some W → ∀ i, ∑ a, W.val i a = 1) :
    (gpnhConvexCoding env obj (Arr2.of X) dictionary weights ud uw kw = Py.diverge ∧
      gpnhConvexCoding env obj (Arr2.of Y) dictionary' weights ud uw kw = Py.diverge) ∨
    (∃ e, gpnhConvexCoding env obj (Arr2.of X) dictionary weights ud uw kw = Py.raise e ∧
      gpnhConvexCoding env obj (Arr2.of Y) dictionary' weights ud uw kw = Py.raise e) ∨
    ∃ (o : GPNHObj env.rng) (k : ℕ) (S S' : Matrix (Fin k) (Fin D) K) (info : FitInfo K),
      gpnhConvexCoding env obj (Arr2.of X) dictionary weights ud uw kw =
        Py.ok ({ o with S := some (Arr2.of S) }, info) ∧
      gpnhConvexCoding env obj (Arr2.of Y) dictionary' weights ud uw kw =
        Py.ok ({ o with S := some (Arr2.of S') }, info) ∧
      ∀ a d, S' a d = (S * Q) a d + b d := by
  have := gpnhConvexCoding_moved hR obj hQ (moved_one_iff.2 hY) hd weights ud uw kw hinit hw
  revert this
  cases gpnhConvexCoding env obj (Arr2.of X) dictionary weights ud uw kw <;>
    cases gpnhConvexCoding env obj (Arr2.of Y) dictionary' weights ud uw kw <;>
    intro this <;> simp only [PyRel] at this
  · rename_i r r'
    obtain ⟨k, h2, W, W', S, S', hG, hS, h1, hW, hm, -⟩ := this
    have hW' : W' = W := hW
    subst hW'
    refine Or.inr (Or.inr ⟨r.1, k, S, S', r.2, ?_, ?_, moved_one_iff.1 hm⟩)
    · rw [← hS]
    · rw [← hG] at h1
      rw [← h1, ← h2]
  · subst this
    exact Or.inr (Or.inl ⟨_, rfl, rfl⟩)
  · exact Or.inl ⟨rfl, rfl⟩

/-- C84.  `transform` of moved data by the model with the moved dictionary: the same weights, cost and
history, or the same exception, whatever `init`. -/
theorem C84_gpnh_transform_rigid_motion {env : Env K} (hR : env.rng.Lawful) (obj : GPNHObj env.rng)
    (X Y : Matrix (Fin T) (Fin D) K) (Q : Matrix (Fin D) (Fin D) K) (hQ : Q * Qᵀ = 1) (b : Fin D → K)
    (hY : ∀ t d, Y t d = (X * Q) t d + b d) (S S' : Matrix (Fin k) (Fin D) K)
    (hS : ∀ a d, S' a d = (S * Q) a d + b d) :
    (gpnhTransform env { obj with S := some (Arr2.of S') } (Arr2.of Y) >>= fun r => Py.ok r.2) =
      (gpnhTransform env { obj with S := some (Arr2.of S) } (Arr2.of X) >>= fun r => Py.ok r.2) := by
  have e : ∀ (M : Option (Arr2 K)) (data : Arr2 K) (d : Option (Arr2 K)),
      gpnhConvexCoding env { obj with S := M } data d none false true {} =
        gpnhConvexCoding env obj data d none false true {} := fun _ _ _ => rfl
  unfold gpnhTransform
  simp only [e]
  rcases C84_gpnh_rigid_motion hR obj X Y Q hQ b hY (some (Arr2.of S)) (some (Arr2.of S')) none
    (Or.inr ⟨k, S, S', rfl, rfl, hS⟩) false true {} (Or.inr (Or.inr ⟨rfl, rfl⟩))
    (fun _ W hW => by simp at hW) with ⟨h1, h2⟩ | ⟨e, h1, h2⟩ | ⟨o, k, S, S', info, h1, h2, -⟩
  · rw [h1, h2]
  · rw [h1, h2]
  · rw [h1, h2]
    rfl

/-- C84.  The model that the moved data lead to reconstructs the moved reconstructions. -/
theorem C84_gpnh_reconstruction_moves (W : Matrix (Fin T) (Fin k) K) (hW : ∀ t, ∑ a, W t a = 1)
    (Q : Matrix (Fin D) (Fin D) K) (b : Fin D → K) (S S' : Matrix (Fin k) (Fin D) K)
    (hS : ∀ a d, S' a d = (S * Q) a d + b d) {env : Env K} (obj : GPNHObj env.rng) :
    ∃ R R' : Matrix (Fin T) (Fin D) K,
      gpnhInverseTransform env { obj with S := some (Arr2.of S) } (Arr2.of W) =
        Py.ok (Arr2.of R) ∧
      gpnhInverseTransform env { obj with S := some (Arr2.of S') } (Arr2.of W) =
        Py.ok (Arr2.of R') ∧
      ∀ t d, R' t d = (R * Q) t d + b d := by
  refine ⟨W * S, W * S', dif_pos rfl, dif_pos rfl, fun t d => ?_⟩
  rw [Matrix.mul_apply, Matrix.mul_assoc, Matrix.mul_apply]
  simp only [hS, mul_add, Finset.sum_add_distrib, ← Finset.sum_mul, hW, one_mul]

/-- C84.  Random starts are different: they scale random numbers with the mean modulus of the data, so
the start of a fit of translated data is not the translated start. -/
theorem C84_gpnh_random_start_fails (sqrt : ℚ → ℚ) :
    ∃ (X Y : Matrix (Fin 2) (Fin 1) ℚ) (s s' : _),
      (∀ t d, Y t d = X t d + 1) ∧
      gpnhStart ⟨demoRng, sqrt⟩ X 2 none none none true true {} (demoRng.ofSeed 3) = Py.ok s ∧
      gpnhStart ⟨demoRng, sqrt⟩ Y 2 none none none true true {} (demoRng.ofSeed 3) = Py.ok s' ∧
      ¬ ∀ a d, s'.1.1 a d = s.1.1 a d + 1 := by
  obtain ⟨s, hs⟩ := gpnhStart_random_ok (env := ⟨demoRng, sqrt⟩) demoRng_uniform_pos
    (data := (!![0; 1] : Matrix (Fin 2) (Fin 1) ℚ)) (by norm_num) (k := 2) (by norm_num)
    (init := none) (Or.inl rfl) (dictionary := none) (weights := none) (g := demoRng.ofSeed 3)
  obtain ⟨s', hs'⟩ := gpnhStart_random_ok (env := ⟨demoRng, sqrt⟩) demoRng_uniform_pos
    (data := (!![1; 2] : Matrix (Fin 2) (Fin 1) ℚ)) (by norm_num) (k := 2) (by norm_num)
    (init := none) (Or.inl rfl) (dictionary := none) (weights := none) (g := demoRng.ofSeed 3)
  have key : ∀ (X : Matrix (Fin 2) (Fin 1) ℚ) s,
      gpnhStart ⟨demoRng, sqrt⟩ X 2 none none none true true {} (demoRng.ofSeed 3) = Py.ok s →
      s.1.1 0 0 = 0 := by
    intro X s h
    unfold gpnhStart at h
    rw [if_neg (by simp), if_neg (by simp), if_neg (by simp)] at h
    unfold gpnhInitBoth at h
    obtain ⟨d, hd, h⟩ := Py.bind_eq_ok.1 h
    obtain ⟨w, -, h⟩ := Py.bind_eq_ok.1 h
    simp only [Py.pure_eq, Py.ok.injEq] at h
    subst h
    unfold gpnhInitDictionary gpnhInitDictionaryRandom at hd
    simp only [Option.getD_none, Option.getD_some, if_true] at hd
    rw [if_neg (by norm_num)] at hd
    simp only [Py.ok.injEq] at hd
    subst hd
    change (_ : ℚ) * (demoRng.randn 2 1 (demoRng.ofSeed 3)).1 0 0 = (0 : ℚ)
    simp [demoRng]
  refine ⟨_, _, s, s', ?_, hs, hs', fun h => ?_⟩
  · intro t d
    fin_cases t <;> fin_cases d <;> norm_num
  · have := h 0 0
    rw [key _ _ hs, key _ _ hs'] at this
    norm_num at this

/-! ### C85: relabelling -/

/-- C85.  With a custom start, relabelling the samples and the dictionary elements relabels the
weights and the dictionary and changes nothing else: the same exception, or the same cost, history
and number of iterations. -/
theorem C85_gpnh_relabel {env : Env K} (obj : GPNHObj env.rng) (hinit : obj.init = some "custom")
    (π : Equiv.Perm (Fin T)) (ρ : Equiv.Perm (Fin k))
    (X X' : Matrix (Fin T) (Fin D) K) (hX : ∀ t d, X' (π t) d = X t d)
    (W W' : Matrix (Fin T) (Fin k) K) (hW : ∀ t a, W' (π t) (ρ a) = W t a)
    (S S' : Matrix (Fin k) (Fin D) K) (hS : ∀ a d, S' (ρ a) d = S a d) (ud uw : Bool)
    (kw : InitKwargs) :
    (gpnhConvexCoding env obj (Arr2.of X) (some (Arr2.of S)) (some (Arr2.of W)) ud uw kw =
        Py.diverge ∧
      gpnhConvexCoding env obj (Arr2.of X') (some (Arr2.of S')) (some (Arr2.of W')) ud uw kw =
        Py.diverge) ∨
    (∃ e, gpnhConvexCoding env obj (Arr2.of X) (some (Arr2.of S)) (some (Arr2.of W)) ud uw kw =
        Py.raise e ∧
      gpnhConvexCoding env obj (Arr2.of X') (some (Arr2.of S')) (some (Arr2.of W')) ud uw kw =
        Py.raise e) ∨
    ∃ (o : GPNHObj env.rng) (W₁ W₁' : Matrix (Fin T) (Fin k) K) (S₁ S₁' : Matrix (Fin k) (Fin D) K)
      (info : FitInfo K),
      gpnhConvexCoding env obj (Arr2.of X) (some (Arr2.of S)) (some (Arr2.of W)) ud uw kw =
        Py.ok ({ o with Gamma := some (Arr2.of W₁), S := some (Arr2.of S₁) }, info) ∧
      gpnhConvexCoding env obj (Arr2.of X') (some (Arr2.of S')) (some (Arr2.of W')) ud uw kw =
        Py.ok ({ o with Gamma := some (Arr2.of W₁'), S := some (Arr2.of S₁') }, info) ∧
      (∀ t a, W₁' (π t) (ρ a) = W₁ t a) ∧ ∀ a d, S₁' (ρ a) d = S₁ a d := by
  have := gpnhConvexCoding_relabel obj hinit π ρ hX hW hS ud uw kw
  revert this
  cases gpnhConvexCoding env obj (Arr2.of X) (some (Arr2.of S)) (some (Arr2.of W)) ud uw kw <;>
    cases gpnhConvexCoding env obj (Arr2.of X') (some (Arr2.of S')) (some (Arr2.of W')) ud uw kw <;>
    intro this <;> simp only [PyRel] at this
  · rename_i r r'
    obtain ⟨h2, W₁, W₁', S₁, S₁', hG, hS, h1, hW, hm, -⟩ := this
    refine Or.inr (Or.inr ⟨r.1, W₁, W₁', S₁, S₁', r.2, ?_, ?_, submatrix_eq_iff.1 hW, fun a d => ?_⟩)
    · rw [← hS, ← hG]
    · rw [← h1, ← h2]
    · have := congrFun (congrFun hm a) d
      rw [moveRows_apply, Matrix.mul_one] at this
      simpa using this
  · subst this
    exact Or.inr (Or.inl ⟨_, rfl, rfl⟩)
  · exact Or.inl ⟨rfl, rfl⟩

/-! ### Examples -/

/-- C84 for the transform of the examples: the points turned by a right angle and moved. -/
example : ∃ (G : Option (Arr2 ℚ)) (info : FitInfo ℚ) (o o' : GPNHObj demoEnv.rng),
    gpnhTransform demoEnv
      { demoObj with S := some (Arr2.of (!![0, 1; 2, 2] : Matrix (Fin 2) (Fin 2) ℚ)) } demoData =
        Py.ok (o, G, info) ∧
    gpnhTransform demoEnv
      { demoObj with S := some (Arr2.of (!![4, 7; 3, 9] : Matrix (Fin 2) (Fin 2) ℚ)) }
      (Arr2.of (!![3, 8; 0, 10; 5, 6] : Matrix (Fin 3) (Fin 2) ℚ)) = Py.ok (o', G, info) := by
  obtain ⟨⟨o, G, info⟩, h⟩ := demo_transform
  refine ⟨G, info, o, ?_⟩
  have e := C84_gpnh_transform_rigid_motion demoRng_lawful demoObj
    (!![1, 2; 3, 5; -1, 0] : Matrix (Fin 3) (Fin 2) ℚ) !![3, 8; 0, 10; 5, 6] !![0, 1; -1, 0] ?_
    ![5, 7] ?_ !![0, 1; 2, 2] !![4, 7; 3, 9] ?_
  · have h' : gpnhTransform demoEnv
      { demoObj with S := some (Arr2.of (!![0, 1; 2, 2] : Matrix (Fin 2) (Fin 2) ℚ)) }
        (Arr2.of (!![1, 2; 3, 5; -1, 0] : Matrix (Fin 3) (Fin 2) ℚ)) = Py.ok (o, G, info) := h
    rw [h'] at e
    simp only [Py.ok_bind] at e
    obtain ⟨⟨o', r⟩, ho, hr⟩ := Py.bind_eq_ok.1 e
    simp only [Py.ok.injEq] at hr
    subst hr
    exact ⟨o', h, ho⟩
  · ext i j
    fin_cases i <;> fin_cases j <;>
      norm_num [Matrix.mul_apply, Fin.sum_univ_two, Matrix.transpose_apply, Matrix.one_apply]
  · intro i j
    fin_cases i <;> fin_cases j <;> norm_num [Matrix.mul_apply, Fin.sum_univ_two]
  · intro i j
    fin_cases i <;> fin_cases j <;> norm_num [Matrix.mul_apply, Fin.sum_univ_two]

/-- Weights of the custom start of the examples. -/
def demoStartW : Matrix (Fin 3) (Fin 2) ℚ := !![1/2, 1/2; 1/4, 3/4; 1, 0]

theorem demoStartW_rowStochastic : RowStochastic demoStartW := by
  intro i
  refine ⟨fun j => ?_, ?_⟩
  · fin_cases i <;> fin_cases j <;> norm_num [demoStartW]
  · fin_cases i <;> norm_num [demoStartW, Fin.sum_univ_two]

/-- A fit from a custom start with the settings of the examples returns. -/
theorem demo_custom_gpnh (X : Matrix (Fin 3) (Fin 2) ℚ) (S : Matrix (Fin 2) (Fin 2) ℚ)
    (W : Matrix (Fin 3) (Fin 2) ℚ) (hW : RowStochastic W) :
    ∃ res, gpnhConvexCoding demoEnv { demoObj with init := some "custom" } (Arr2.of X)
      (some (Arr2.of S)) (some (Arr2.of W)) true true {} = Py.ok res := by
  have hs : gpnhStart demoEnv X 2 (some "custom") (some (Arr2.of S)) (some (Arr2.of W)) true
      true {} demoObj.randomState = Py.ok ((S, W), demoObj.randomState) := by
    have h1 : ∀ i, iscloseOne (∑ j, W i j) := by
      intro i
      rw [(hW i).2]
      norm_num [iscloseOne]
    unfold gpnhStart
    rw [if_pos rfl, gpnhCheckInitWeights_of, gpnhCheckInitDictionary_of,
      if_neg (show ¬ ((3 : ℕ) = 0 ∨ (2 : ℕ) = 0) by norm_num),
      if_neg (show ¬ ((2 : ℕ) = 0 ∨ (2 : ℕ) = 0) by norm_num), if_pos h1]
    rfl
  have hp : checkParams (defaultComponents demoObj.nComponents 2) demoObj.maxIterations
      demoObj.tolerance = Py.ok (2, 4, 1/1000) := by
    simp [checkParams, demoObj, defaultComponents]
  have hm : demoObj.ls.memory = 1 := rfl
  obtain ⟨r, hr⟩ := gpnhIterate_succeeds (cfg := demoObj.ls) (by norm_num [demoObj, demoLS])
    (by norm_num [demoObj, demoLS]) (by norm_num [demoObj, demoLS]) (by norm_num [demoObj, demoLS])
    rfl (by norm_num [demoObj, demoLS]) (by norm_num [demoObj, demoLS]) (by norm_num)
    (by norm_num) (D := 2) (T := 3) (by norm_num)
    (eps := demoObj.epsilonStates) (require := demoObj.require) (tol := 1/1000) (maxIter := 4)
    (ud := true) (uw := true) (ready_initial (X := X) hm hW S)
  exact ⟨_, gpnhConvexCoding_of_steps (env := demoEnv)
    (obj := { demoObj with init := some "custom" }) (data := Arr2.of X) (p := (2, 4, 1/1000))
    (start := ((S, W), demoObj.randomState)) hp hs hr⟩

/-- C84 for that fit, turned by a right angle and moved. -/
example : ∃ (o : GPNHObj demoEnv.rng) (info : FitInfo ℚ),
    gpnhConvexCoding demoEnv { demoObj with init := some "custom" }
      (Arr2.of (!![3, 8; 0, 10; 5, 6] : Matrix (Fin 3) (Fin 2) ℚ))
      (some (Arr2.of (!![4, 7; 3, 9] : Matrix (Fin 2) (Fin 2) ℚ)))
      (some (Arr2.of demoStartW)) true true {} = Py.ok (o, info) := by
  obtain ⟨res, hres⟩ := demo_custom_gpnh !![1, 2; 3, 5; -1, 0] !![0, 1; 2, 2] demoStartW
    demoStartW_rowStochastic
  rcases C84_gpnh_rigid_motion demoRng_lawful { demoObj with init := some "custom" }
    (!![1, 2; 3, 5; -1, 0] : Matrix (Fin 3) (Fin 2) ℚ) !![3, 8; 0, 10; 5, 6] !![0, 1; -1, 0]
    (by
      ext i j
      fin_cases i <;> fin_cases j <;>
        norm_num [Matrix.mul_apply, Fin.sum_univ_two, Matrix.transpose_apply, Matrix.one_apply])
    ![5, 7]
    (by
      intro i j
      fin_cases i <;> fin_cases j <;> norm_num [Matrix.mul_apply, Fin.sum_univ_two])
    (some (Arr2.of !![0, 1; 2, 2])) (some (Arr2.of !![4, 7; 3, 9])) (some (Arr2.of demoStartW))
    (Or.inr ⟨2, !![0, 1; 2, 2], !![4, 7; 3, 9], rfl, rfl, by
      intro i j
      fin_cases i <;> fin_cases j <;> norm_num [Matrix.mul_apply, Fin.sum_univ_two]⟩)
    true true {} (Or.inl rfl)
    (fun _ W hW => by
      have := Option.some.inj hW
      subst this
      exact fun i => (demoStartW_rowStochastic i).2) with
    ⟨h, -⟩ | ⟨e, h, -⟩ | ⟨o, k, S, S', info, -, h, -⟩
  · rw [hres] at h
    simp at h
  · rw [hres] at h
    simp at h
  · exact ⟨_, info, h⟩

/-- C85 for that fit: samples 0 and 2 and the two elements exchanged. -/
example : ∃ (o : GPNHObj demoEnv.rng) (info : FitInfo ℚ),
    gpnhConvexCoding demoEnv { demoObj with init := some "custom" }
      (Arr2.of (!![-1, 0; 3, 5; 1, 2] : Matrix (Fin 3) (Fin 2) ℚ))
      (some (Arr2.of (!![2, 2; 0, 1] : Matrix (Fin 2) (Fin 2) ℚ)))
      (some (Arr2.of (!![0, 1; 3/4, 1/4; 1/2, 1/2] : Matrix (Fin 3) (Fin 2) ℚ))) true true {} =
        Py.ok (o, info) := by
  obtain ⟨res, hres⟩ := demo_custom_gpnh !![1, 2; 3, 5; -1, 0] !![0, 1; 2, 2] demoStartW
    demoStartW_rowStochastic
  rcases C85_gpnh_relabel { demoObj with init := some "custom" } rfl (Equiv.swap 0 2)
    (Equiv.swap 0 1) (!![1, 2; 3, 5; -1, 0] : Matrix (Fin 3) (Fin 2) ℚ) !![-1, 0; 3, 5; 1, 2]
    (by intro i j; fin_cases i <;> fin_cases j <;> rfl) demoStartW
    !![0, 1; 3/4, 1/4; 1/2, 1/2] (by intro i j; fin_cases i <;> fin_cases j <;> rfl)
    !![0, 1; 2, 2] !![2, 2; 0, 1] (by intro i j; fin_cases i <;> fin_cases j <;> rfl) true true {}
    with ⟨h, -⟩ | ⟨e, h, -⟩ | ⟨o, W₁, W₁', S₁, S₁', info, -, h, -⟩
  · rw [hres] at h
    simp at h
  · rw [hres] at h
    simp at h
  · exact ⟨_, info, h⟩

end Reor
