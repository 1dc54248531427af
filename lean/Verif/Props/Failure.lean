import Verif.Proofs.Failure
import Verif.Proofs.Draws
import Verif.Props.Demo
import Verif.Props.GPNH
import Verif.Props.KernelAA
import Verif.Props.MTDFit
import Verif.Props.GPNHCROM
import Verif.Props.FEMBV

/-!
C100: what a call that ends in an exception leaves behind.  The settings and everything reported by
the last successful fit stay; the fitted arrays are either all old or all new (GPNH and MTD convex
coding, kernel archetypal analysis); later fits do not depend on what was left.
-/

namespace Reor

set_option linter.unusedSectionVars false

open scoped BigOperators Matrix
open Spec

variable {K : Type} [Field K] [LinearOrder K] [IsStrictOrderedRing K]

/-! ### GPNH convex coding -/

section GPNH

variable {env : Env K} {obj o : GPNHObj env.rng} {data : Arr2 K}
  {dictionary weights : Option (Arr2 K)} {kw : InitKwargs} {ud uw : Bool} {e : PyErr}

/-- C100.  The functions that keep the object at an exception have the outcomes of those of the other
model files. -/
theorem C100_gpnh_outcomes (obj : GPNHObj env.rng) (data : Arr2 K)
    (dictionary weights : Option (Arr2 K)) (kw : InitKwargs) (ud uw : Bool) :
    (gpnhFitTransformF env obj data dictionary weights kw ud uw).toPy =
      gpnhFitTransform env obj data dictionary weights kw ud uw ∧
    (gpnhTransformF env obj data).toPy = gpnhTransform env obj data :=
  ⟨gpnhFitTransformF_toPy _ _ _ _ _ _ _, gpnhTransformF_toPy _ _⟩

/-- C100.  A failed fit of GPNH convex coding keeps all settings and all reports of the last
successful fit.  The weights and the dictionary are either both those from before the call, or both
those of the failed iteration; in that case the exception comes from the iteration: `popleft` on an
empty deque with `line_search_memory` 0, a cost increase with
`require_monotonic_cost_decrease`, or the division by the empty data. -/
theorem C100_gpnh_failed_fit
    (h : gpnhFitTransformF env obj data dictionary weights kw ud uw = Run.raise e o) :
    o = { obj with
      nComponents := o.nComponents, randomState := o.randomState, Gamma := o.Gamma, S := o.S } ∧
    (obj.nComponents ≠ .none → o.nComponents = obj.nComponents) ∧
    (obj.nComponents = .none → o.nComponents = .int data.cols) ∧
    ((o.Gamma = obj.Gamma ∧ o.S = obj.S ∧ e ≠ .runtimeError ∧ e ≠ .zeroDivisionError) ∨
      ∃ (k : ℕ) (G : Matrix (Fin data.rows) (Fin k) K) (S : Matrix (Fin k) (Fin data.cols) K),
        o.nComponents = .int k ∧ 1 ≤ k ∧ o.Gamma = some (Arr2.of G) ∧ o.S = some (Arr2.of S) ∧
        ((e = .zeroDivisionError ∧ data.cols * data.rows = 0) ∨
          (e = .indexError ∧ obj.ls.memory = 0) ∨ (e = .runtimeError ∧ obj.require = true)) ∧
        (ud = false → uw = true → dictionary = some (Arr2.of S)) ∧
        (ud = true → uw = false → weights = some (Arr2.of G))) := by
  obtain ⟨h1, h2, h3⟩ := gpnhConvexCodingF_failed (gpnhFitTransformF_raise h)
  refine ⟨h1, fun hn => by rw [h2, defaultComponents_some hn], fun hn => by rw [h2, hn]; rfl, h3⟩

/-- C100.  With settings in the usual range a failed fit does not leave weights that are not
stochastic: if there were none before, or stochastic ones, the same holds after it. -/
theorem C100_gpnh_failed_weights (hR : env.rng.Lawful)
    (hls : SafeSteps obj.ls.gamma obj.ls.alphaMax obj.ls.sigmaOne obj.ls.sigmaTwo)
    (hw : (obj.init = some "custom" ∨ uw = false) → ∀ W, weights = some W → RowStochastic W.val)
    (h : gpnhFitTransformF env obj data dictionary weights kw ud uw = Run.raise e o)
    (hold : ∀ W, obj.Gamma = some W → RowStochastic W.val) :
    ∀ W, o.Gamma = some W → RowStochastic W.val := by
  intro W hW
  rcases gpnhConvexCodingF_failed_stochastic hR hls hw (gpnhFitTransformF_raise h) with h | ⟨G, hG, hs⟩
  · exact hold W (h ▸ hW)
  · rw [hG] at hW
    obtain rfl := Option.some.inj hW
    exact hs

/-- C100.  A failed `transform` of GPNH convex coding keeps the dictionary, the settings and the
reports; only the weights and the state of the generator (and `n_components`, if it was None) can
change. -/
theorem C100_gpnh_failed_transform (h : gpnhTransformF env obj data = Run.raise e o) :
    o = { obj with
      nComponents := o.nComponents, randomState := o.randomState, Gamma := o.Gamma } ∧
    (obj.nComponents ≠ .none → o.nComponents = obj.nComponents) ∧
    (o.Gamma = obj.Gamma ∨ ∃ (k : ℕ) (G : Matrix (Fin data.rows) (Fin k) K),
      o.Gamma = some (Arr2.of G) ∧ o.nComponents = .int k) := by
  obtain ⟨h1, h2, h3⟩ := gpnhConvexCodingF_failed (gpnhTransformF_raise h)
  have hS : o.S = obj.S := by
    rcases h3 with ⟨-, h, -⟩ | ⟨k, G, S, -, -, -, hS, -, h, -⟩
    · exact h
    · rw [hS, h rfl rfl]
  refine ⟨by rw [hS] at h1; exact h1, fun hn => by rw [h2, defaultComponents_some hn], ?_⟩
  rcases h3 with ⟨h, -⟩ | ⟨k, G, S, hk, -, hG, -⟩
  · exact Or.inl h
  · exact Or.inr ⟨k, G, hG, hk⟩

/-- C100.  A fit does not depend on the arrays and reports in the object. -/
theorem C100_gpnh_fit_forgets (obj : GPNHObj env.rng) (data : Arr2 K)
    (dictionary weights : Option (Arr2 K)) (kw : InitKwargs) (ud uw : Bool)
    (Gamma S dictionary_ : Option (Arr2 K)) (nComponents_ nIter_ : Option ℕ) (cost_ : Option K) :
    gpnhFitTransform env
      { obj with
        Gamma := Gamma, S := S, dictionary_ := dictionary_, nComponents_ := nComponents_,
        nIter_ := nIter_, cost_ := cost_ } data dictionary weights kw ud uw =
    gpnhFitTransform env obj data dictionary weights kw ud uw := by
  simp only [gpnhFitTransform, gpnhConvexCoding, Py.bind_assoc]
  rfl

/-- C100.  After a failed fit any other fit goes as on an object that has not been fitted, with the
number of components and the generator as they are now. -/
theorem C100_gpnh_fit_after_failure
    (h : gpnhFitTransformF env obj data dictionary weights kw ud uw = Run.raise e o)
    (data' : Arr2 K) (dictionary' weights' : Option (Arr2 K)) (kw' : InitKwargs) (ud' uw' : Bool) :
    gpnhFitTransform env o data' dictionary' weights' kw' ud' uw' =
      gpnhFitTransform env
        { obj with nComponents := o.nComponents, randomState := o.randomState } data' dictionary'
        weights' kw' ud' uw' := by
  obtain ⟨h1, -, -⟩ := gpnhConvexCodingF_failed (gpnhFitTransformF_raise h)
  rw [h1]
  exact C100_gpnh_fit_forgets { obj with nComponents := o.nComponents, randomState := o.randomState }
    data' dictionary' weights' kw' ud' uw' o.Gamma o.S obj.dictionary_ obj.nComponents_ obj.nIter_
    obj.cost_

/-- C100.  With `init='custom'` a fit that failed fails in the same way when it is tried again, and
leaves the same object. -/
theorem C100_gpnh_retry_custom (hinit : obj.init = some "custom")
    (h : gpnhFitTransformF env obj data dictionary weights kw ud uw = Run.raise e o) :
    gpnhFitTransformF env o data dictionary weights kw ud uw = Run.raise e o := by
  unfold gpnhFitTransformF
  rw [gpnhConvexCodingF_again hinit (gpnhFitTransformF_raise h)]
  rfl

end GPNH

/-! ### Kernel archetypal analysis -/

section KAA

variable {env : Env K} {obj o : KAAObj env.rng} {kernel : Arr2 K}
  {dictionary weights : Option (Arr2 K)} {kw : InitKwargs} {ud uw : Bool} {e : PyErr}

/-- C100.  As C100_gpnh_outcomes, for kernel archetypal analysis. -/
theorem C100_kaa_outcomes (obj : KAAObj env.rng) (kernel : Arr2 K)
    (dictionary weights : Option (Arr2 K)) (kw : InitKwargs) (ud uw : Bool) :
    (kaaFitTransformF env obj kernel dictionary weights kw ud uw).toPy =
      kaaFitTransform env obj kernel dictionary weights kw ud uw ∧
    (kaaTransformF env obj kernel).toPy = kaaTransform env obj kernel :=
  ⟨kaaFitTransformF_toPy _ _ _ _ _ _ _, kaaTransformF_toPy _ _⟩

/-- C100.  A kernel that is not square leaves the object as it was.  After any other failed fit of
kernel archetypal analysis the settings and reports are the old ones, and weights, dictionary and
kernel are either all old or all those of the failed iteration; the iteration fails with
`line_search_memory` 0 or with a cost increase under `require_monotonic_cost_decrease`. -/
theorem C100_kaa_failed_fit
    (h : kaaFitTransformF env obj kernel dictionary weights kw ud uw = Run.raise e o) :
    o = { obj with
      nComponents := o.nComponents, randomState := o.randomState, Kmat := o.Kmat, S := o.S,
      C := o.C } ∧
    (kernel.cols ≠ kernel.rows → o = obj ∧ e = .valueError) ∧
    (obj.nComponents ≠ .none → o.nComponents = obj.nComponents) ∧
    (∀ s, obj.randomState = .seed s → o.randomState = .seed s) ∧
    ((o.S = obj.S ∧ o.C = obj.C ∧ o.Kmat = obj.Kmat ∧ e ≠ .runtimeError) ∨
      ∃ (k : ℕ) (S : Matrix (Fin kernel.rows) (Fin k) K) (C : Matrix (Fin k) (Fin kernel.rows) K),
        o.nComponents = .int k ∧ 1 ≤ k ∧ o.S = some (Arr2.of S) ∧ o.C = some (Arr2.of C) ∧
        o.Kmat = some kernel ∧
        ((e = .indexError ∧ obj.ls.memory = 0) ∨ (e = .runtimeError ∧ obj.require = true)) ∧
        (ud = false → uw = true → dictionary = some (Arr2.of C)) ∧
        (ud = true → uw = false → weights = some (Arr2.of S))) := by
  have hF := kaaFitTransformF_raise h
  obtain ⟨h1, h2, h3, h4⟩ := kernelAAF_failed hF
  refine ⟨h1, h2, fun hn => ?_, fun s hs => ?_, h4⟩
  · by_cases hsq : kernel.cols = kernel.rows
    · rw [h3 hsq, defaultComponents_some hn]
    · rw [(h2 hsq).1]
  · exact kernelAAF_failed_seed hF hs

/-- C100.  With settings in the usual range a failed fit does not leave weights or a dictionary that
are not stochastic. -/
theorem C100_kaa_failed_stochastic (hR : env.rng.Lawful)
    (hls : SafeSteps obj.ls.gamma obj.ls.alphaMax obj.ls.sigmaOne obj.ls.sigmaTwo)
    (h : kaaFitTransformF env obj kernel dictionary weights kw ud uw = Run.raise e o) :
    (((obj.init = some "custom" ∨ uw = false) → ∀ W, weights = some W → RowStochastic W.val) →
      (∀ W, obj.S = some W → RowStochastic W.val) → ∀ W, o.S = some W → RowStochastic W.val) ∧
    (1 ≤ kernel.rows →
      ((obj.init = some "custom" ∨ ud = false) → ∀ C, dictionary = some C → RowStochastic C.val) →
      (∀ C, obj.C = some C → RowStochastic C.val) → ∀ C, o.C = some C → RowStochastic C.val) := by
  obtain ⟨h1, h2⟩ := kernelAAF_failed_stochastic hR hls (kaaFitTransformF_raise h)
  refine ⟨fun hw hold W hW => ?_, fun hn hd hold C hC => ?_⟩
  · rcases h1 hw with h | ⟨G, hG, hs⟩
    · exact hold W (h ▸ hW)
    · rw [hG] at hW
      obtain rfl := Option.some.inj hW
      exact hs
  · rcases h2 hn hd with h | ⟨G, hG, hs⟩
    · exact hold C (h ▸ hC)
    · rw [hG] at hC
      obtain rfl := Option.some.inj hC
      exact hs

/-- C100.  A failed `transform` of kernel archetypal analysis keeps the dictionary, the settings and
the reports. -/
theorem C100_kaa_failed_transform (h : kaaTransformF env obj kernel = Run.raise e o) :
    o = { obj with
      nComponents := o.nComponents, randomState := o.randomState, Kmat := o.Kmat, S := o.S } ∧
    (obj.nComponents ≠ .none → o.nComponents = obj.nComponents) := by
  obtain ⟨h1, h2, h3, h4⟩ := kernelAAF_failed (kaaTransformF_raise h)
  have hC : o.C = obj.C := by
    rcases h4 with ⟨-, h, -⟩ | ⟨k, S, C, -, -, -, hC, -, -, h, -⟩
    · exact h
    · rw [hC, h rfl rfl]
  refine ⟨by rw [hC] at h1; exact h1, fun hn => ?_⟩
  by_cases hsq : kernel.cols = kernel.rows
  · rw [h3 hsq, defaultComponents_some hn]
  · rw [(h2 hsq).1]

/-- C100.  A fit does not depend on the arrays and reports in the object. -/
theorem C100_kaa_fit_forgets (obj : KAAObj env.rng) (kernel : Arr2 K)
    (dictionary weights : Option (Arr2 K)) (kw : InitKwargs) (ud uw : Bool)
    (Kmat S C dictionary_ : Option (Arr2 K)) (nComponents_ nIter_ : Option ℕ) (cost_ : Option K) :
    kaaFitTransform env
      { obj with
        Kmat := Kmat, S := S, C := C, dictionary_ := dictionary_, nComponents_ := nComponents_,
        nIter_ := nIter_, cost_ := cost_ } kernel dictionary weights kw ud uw =
    kaaFitTransform env obj kernel dictionary weights kw ud uw := by
  unfold kaaFitTransform kernelAA
  split_ifs with hsq
  · simp only [kernelAASquare, Py.bind_assoc]
    rfl
  · rfl

/-- C100.  After a failed fit any other fit goes as on an object that has not been fitted, with the
number of components and the generator as they are now. -/
theorem C100_kaa_fit_after_failure
    (h : kaaFitTransformF env obj kernel dictionary weights kw ud uw = Run.raise e o)
    (kernel' : Arr2 K) (dictionary' weights' : Option (Arr2 K)) (kw' : InitKwargs)
    (ud' uw' : Bool) :
    kaaFitTransform env o kernel' dictionary' weights' kw' ud' uw' =
      kaaFitTransform env
        { obj with nComponents := o.nComponents, randomState := o.randomState } kernel' dictionary'
        weights' kw' ud' uw' := by
  obtain ⟨h1, -, -⟩ := kernelAAF_failed (kaaFitTransformF_raise h)
  rw [h1]
  exact C100_kaa_fit_forgets { obj with nComponents := o.nComponents, randomState := o.randomState }
    kernel' dictionary' weights' kw' ud' uw' o.Kmat o.S o.C obj.dictionary_ obj.nComponents_
    obj.nIter_ obj.cost_

/-- C100.  With `init='custom'`, or with an integer as `random_state`, a fit that failed fails in the
same way when it is tried again, and leaves the same object. -/
theorem C100_kaa_retry (hinit : obj.init = some "custom" ∨ ∃ s, obj.randomState = .seed s)
    (h : kaaFitTransformF env obj kernel dictionary weights kw ud uw = Run.raise e o) :
    kaaFitTransformF env o kernel dictionary weights kw ud uw = Run.raise e o := by
  unfold kaaFitTransformF
  rw [kernelAAF_again hinit (kaaFitTransformF_raise h)]
  rfl

end KAA

/-! ### MTD convex coding -/

section MTD

variable {env : Env K} {p : ℕ} {obj o : MTDObj env.rng p} {data : Arr2 K} {args : MTDArgs K}
  {fl : MTDFlags} {kw : InitKwargs} {e : PyErr}

/-- C100.  As C100_gpnh_outcomes, for MTD convex coding. -/
theorem C100_mtd_outcomes (obj : MTDObj env.rng p) (data : Arr2 K) (args : MTDArgs K)
    (fl : MTDFlags) (kw : InitKwargs) :
    (mtdFitTransformF env obj data args fl kw).toPy = mtdFitTransform env obj data args fl kw ∧
    (mtdTransformF env obj data).toPy = mtdTransform env obj data :=
  ⟨mtdFitTransformF_toPy _ _ _ _ _, mtdTransformF_toPy _ _⟩

/-- C100.  A failed fit of MTD convex coding keeps the settings and the reports; weights, dictionary,
order weights and transition matrices are all old or all those of the failed iteration, and what is
not updated is what the caller supplied.  With an empty list of lags the arrays are replaced
although no iteration starts. -/
theorem C100_mtd_failed_fit (h : mtdFitTransformF env obj data args fl kw = Run.raise e o) :
    o = { obj with nComponents := o.nComponents, randomState := o.randomState, vars := o.vars } ∧
    (obj.nComponents ≠ .none → o.nComponents = obj.nComponents) ∧
    ((o.vars = obj.vars ∧ e ≠ .runtimeError ∧ e ≠ .zeroDivisionError) ∨
      ∃ (k : ℕ) (G : Matrix (Fin data.rows) (Fin k) K) (S : Matrix (Fin k) (Fin data.cols) K)
        (w : Fin p → K) (A : Fin p → Matrix (Fin k) (Fin k) K),
        o.nComponents = .int k ∧ 1 ≤ k ∧ o.vars = some ⟨data.rows, data.cols, k, G, S, w, A⟩ ∧
        ((e = .valueError ∧ p = 0) ∨ e = .zeroDivisionError ∨ e = .nonFinite ∨ e = .indexError ∨
          e = .runtimeError) ∧
        (fl.updateDictionary = false → args.dictionary = some (Arr2.of S)) ∧
        (fl.updateWeights = false → args.weights = some (Arr2.of G)) ∧
        (fl.updateParameters = false → args.orderWeights = some (Arr1.of w) ∧
          args.transitionMatrices = some (Arr3.of A))) := by
  obtain ⟨h1, h2, h3⟩ := mtdConvexCodingF_failed (mtdFitTransformF_raise h)
  exact ⟨h1, fun hn => by rw [h2, defaultComponents_some hn], h3⟩

/-- C100.  With settings in the usual range a failed fit from a drawn start does not leave weights or
parameters that are not stochastic. -/
theorem C100_mtd_failed_stochastic (hR : env.rng.Lawful) (hp : 1 ≤ p)
    (hls : SafeSteps obj.ls.gamma obj.ls.alphaMax obj.ls.sigmaOne obj.ls.sigmaTwo)
    (hinit : obj.init ≠ some "custom")
    (hf : fl.updateWeights = true ∧ fl.updateParameters = true)
    (h : mtdFitTransformF env obj data args fl kw = Run.raise e o)
    (hold : ∀ v, obj.vars = some v → RowStochastic v.Gamma ∧ IsProb v.orderWeights ∧
      ∀ i, ColStochastic (v.transitionMatrices i)) :
    ∀ v, o.vars = some v → RowStochastic v.Gamma ∧ IsProb v.orderWeights ∧
      ∀ i, ColStochastic (v.transitionMatrices i) := by
  intro v hv
  rcases mtdConvexCodingF_failed_stochastic hR hp hls hinit (mtdFitTransformF_raise h) with
    h | ⟨v', hv', h1, h2⟩
  · exact hold v (h ▸ hv)
  · rw [hv'] at hv
    obtain rfl := Option.some.inj hv
    exact ⟨h1 hf.1, h2 hf.2⟩

/-- C100.  A failed `transform` of MTD convex coding keeps the settings, the reports and, of the
fitted arrays, dictionary, order weights and transition matrices. -/
theorem C100_mtd_failed_transform (h : mtdTransformF env obj data = Run.raise e o) :
    o = { obj with nComponents := o.nComponents, randomState := o.randomState, vars := o.vars } ∧
    (obj.nComponents ≠ .none → o.nComponents = obj.nComponents) ∧
    (o.vars = obj.vars ∨ ∃ v v', obj.vars = some v ∧ o.vars = some v' ∧ v'.T = data.rows ∧
      v'.SArr = v.SArr ∧ v'.orderWeights = v.orderWeights ∧
      Arr3.of v'.transitionMatrices = Arr3.of v.transitionMatrices) := by
  obtain ⟨h1, h2, h3⟩ := mtdConvexCodingF_failed (mtdTransformF_raise h)
  refine ⟨h1, fun hn => by rw [h2, defaultComponents_some hn], ?_⟩
  rcases h3 with ⟨h, -⟩ | ⟨k, G, S, w, A, -, -, hv, -, hS, -, hP⟩
  · exact Or.inl h
  · right
    have hS := hS rfl
    obtain ⟨hw, hA⟩ := hP rfl
    cases hobj : obj.vars with
    | none => simp [MTDObj.transformArgs, hobj] at hS
    | some v =>
      simp only [MTDObj.transformArgs, hobj, Option.some.injEq] at hS hw hA
      refine ⟨v, _, rfl, hv, rfl, hS.symm, ?_, hA.symm⟩
      have := eq_of_heq (Arr1.mk.inj hw).2
      exact this.symm

/-- C100.  A fit does not depend on the arrays and reports in the object. -/
theorem C100_mtd_fit_forgets (obj : MTDObj env.rng p) (data : Arr2 K) (args : MTDArgs K)
    (fl : MTDFlags) (kw : InitKwargs) (vars : Option (MTDVars p K)) (dictionary_ : Option (Arr2 K))
    (nComponents_ nIter_ : Option ℕ) (cost_ : Option K) :
    mtdFitTransform env
      { obj with
        vars := vars, dictionary_ := dictionary_, nComponents_ := nComponents_,
        nIter_ := nIter_, cost_ := cost_ } data args fl kw =
    mtdFitTransform env obj data args fl kw := by
  simp only [mtdFitTransform, mtdConvexCoding, Py.bind_assoc]
  rfl

/-- C100.  After a failed fit any other fit goes as on an object that has not been fitted, with the
number of components and the generator as they are now. -/
theorem C100_mtd_fit_after_failure (h : mtdFitTransformF env obj data args fl kw = Run.raise e o)
    (data' : Arr2 K) (args' : MTDArgs K) (fl' : MTDFlags) (kw' : InitKwargs) :
    mtdFitTransform env o data' args' fl' kw' =
      mtdFitTransform env
        { obj with nComponents := o.nComponents, randomState := o.randomState } data' args' fl'
        kw' := by
  obtain ⟨h1, -, -⟩ := mtdConvexCodingF_failed (mtdFitTransformF_raise h)
  rw [h1]
  exact C100_mtd_fit_forgets { obj with nComponents := o.nComponents, randomState := o.randomState }
    data' args' fl' kw' o.vars obj.dictionary_ obj.nComponents_ obj.nIter_ obj.cost_

/-- C100.  With `init='custom'` a fit that failed fails in the same way when it is tried again, and
leaves the same object. -/
theorem C100_mtd_retry_custom (hinit : obj.init = some "custom")
    (h : mtdFitTransformF env obj data args fl kw = Run.raise e o) :
    mtdFitTransformF env o data args fl kw = Run.raise e o := by
  unfold mtdFitTransformF
  rw [mtdConvexCodingF_again hinit (mtdFitTransformF_raise h)]
  rfl

end MTD

/-! ### GPNH convex coding with a Markov chain -/

section CROM

variable {env : Env K} {p : ℕ} {obj o : CROMObj env.rng p} {data : Arr2 K}
  {dictionary weights : Option (Arr2 K)} {kw : InitKwargs} {ud uw : Bool} {e : PyErr}

/-- C100.  As C100_gpnh_outcomes, for GPNH convex coding with a Markov chain. -/
theorem C100_crom_outcomes (obj : CROMObj env.rng p) (data : Arr2 K)
    (dictionary weights : Option (Arr2 K)) (kw : InitKwargs) (ud uw : Bool) :
    (cromFitTransformF env obj data dictionary weights kw ud uw).toPy =
      cromFitTransform env obj data dictionary weights kw ud uw ∧
    (cromTransformF env obj data).toPy = cromTransform env obj data :=
  ⟨cromFitTransformF_toPy _ _ _ _ _ _ _, cromTransformF_toPy _ _⟩

/-- C100.  A failed fit of GPNH convex coding with a Markov chain either fails in the coding, and then
keeps the parameters of the chain; or it fails in the fit of the parameters, and then coding and
reports are those of a successful fit of the coding to the new data, while the parameters are the
unfinished ones, for the new number of components. -/
theorem C100_crom_failed_fit
    (h : cromFitTransformF env obj data dictionary weights kw ud uw = Run.raise e o)
    (he : e ≠ .nonFinite) :
    o.lags = obj.lags ∧
    ((o.vars = obj.vars ∧
        gpnhFitTransformF env obj.base data dictionary weights kw ud uw = Run.raise e o.base) ∨
      ∃ b W info v, gpnhFitTransform env obj.base data dictionary weights kw ud uw =
          Py.ok (b, some W, info) ∧
        o.base = { b with randomState := o.base.randomState } ∧
        o.vars = some v ∧ v.k = W.cols) := by
  rcases cromFitTransformF_raise h with ⟨b, hb, rfl⟩ | ⟨r, G, q, hr, hG, hq, h⟩
  · exact ⟨rfl, Or.inl ⟨rfl, hb⟩⟩
  · rcases cromFitParametersF_raise h with ⟨-, h⟩ | ⟨w, A, hw, hA, s, hs, rfl⟩
    · exact absurd h he
    · refine ⟨rfl, Or.inr ⟨r.1, G, r.2.2, _, ?_, rfl, rfl, rfl⟩⟩
      rw [hr, gpnhFitTransform_weights hr, hG]

/-- C100.  The parameters that the failed fit of the chain leaves are stochastic, for settings in the
usual range. -/
theorem C100_crom_failed_stochastic (hR : env.rng.Lawful) (hp : 1 ≤ p)
    (hls : SafeSteps obj.base.ls.gamma obj.base.ls.alphaMax obj.base.ls.sigmaOne
      obj.base.ls.sigmaTwo)
    (h : cromFitTransformF env obj data dictionary weights kw ud uw = Run.raise e o)
    (hold : ∀ v, obj.vars = some v → IsProb v.orderWeights ∧
      ∀ i, ColStochastic (v.transitionMatrices i)) :
    ∀ v, o.vars = some v → IsProb v.orderWeights ∧ ∀ i, ColStochastic (v.transitionMatrices i) := by
  intro v hv
  rcases cromFitTransformF_raise h with ⟨b, hb, rfl⟩ | ⟨r, G, q, hr, hG, hq, h⟩
  · exact hold v hv
  · rcases cromFitParametersF_raise h with ⟨rfl, -⟩ | ⟨w, A, hw, hA, s, hs, rfl⟩
    · exact hold v hv
    · obtain rfl := Option.some.inj hv
      obtain ⟨⟨hk, -⟩, hl⟩ := gpnhFitTransform_keeps hr hG
      exact cromSolveF_left_stochastic (by rw [CROMObj.config, hl]; exact hls) hk hp
        (mtdDrawOrderWeights_ok hR hp hw) (mtdDrawTransitionMatrices_ok hR hk hA) hs

/-- C100.  A failed `transform` keeps the parameters of the chain; on the coding it does what the
`transform` of the coding does. -/
theorem C100_crom_failed_transform (h : cromTransformF env obj data = Run.raise e o) :
    o = { obj with base := o.base } ∧ gpnhTransformF env obj.base data = Run.raise e o.base := by
  obtain ⟨b, hb, rfl⟩ := cromTransformF_raise h
  exact ⟨rfl, hb⟩

/-- C100.  With 0 among the lags (and more samples than the largest lag) every fit fails, but only
after the coding has been fitted: dictionary, weights and reports are the new ones. -/
theorem C100_crom_zero_lag (hpos : ∀ m n g i j, 0 < (env.rng.uniform m n g).1 i j)
    (hlag : ∃ i, obj.lags i = 0) (hT : ∀ i, obj.lags i < data.rows)
    {b : GPNHObj env.rng} {W : Option (Arr2 K)} {info : FitInfo K}
    (hb : gpnhFitTransform env obj.base data dictionary weights kw ud uw = Py.ok (b, W, info)) :
    ∃ o, cromFitTransformF env obj data dictionary weights kw ud uw = Run.raise .valueError o ∧
      o.base = { b with randomState := o.base.randomState } := by
  obtain ⟨G, q, hG, hF⟩ := cromFitTransformF_of_fit hb
  obtain ⟨⟨hk, hrows⟩, -⟩ := gpnhFitTransform_keeps hb hG
  obtain ⟨i, hi⟩ := hlag
  have hp : 1 ≤ p := Nat.one_le_iff_ne_zero.2 (fun h => by subst h; exact i.elim0)
  obtain ⟨w, hw⟩ := mtdDrawOrderWeights_succeeds hpos p b.randomState
  obtain ⟨A, hA⟩ := mtdDrawTransitionMatrices_succeeds hpos hk p w.2
  have hmax : (CROMObj.config { obj with base := b }).maxLag < G.rows := by
    rw [hrows]
    exact (Finset.sup_lt_iff (by rw [Nat.bot_eq_zero]; exact (Nat.zero_le _).trans_lt (hT i))).2
      (fun j _ => hT j)
  have hsolve : cromSolveF (CROMObj.config { obj with base := b }) b.require q.2.2 q.2.1 G.val w.1
      A.1 = Run.raise .valueError (CROMState.initializeWorkspace
        (CROMObj.config { obj with base := b }) G.val w.1 A.1) := by
    unfold cromSolveF
    rw [if_neg (by omega), if_pos ⟨⟨i, hi⟩, hmax⟩]
  refine ⟨CROMObj.withState
    ({ obj with base := { b with randomState := A.2 } } : CROMObj env.rng p)
    (CROMState.initializeWorkspace (CROMObj.config { obj with base := b }) G.val w.1 A.1), ?_, rfl⟩
  · rw [hF]
    unfold cromFitParametersF
    simp only
    rw [hw]
    change (Run.lift _ (mtdDrawTransitionMatrices env.rng G.cols p w.2) >>= _) >>= _ = _
    rw [hA]
    change (Run.within _ (cromSolveF _ _ _ _ _ _ _) >>= _) >>= _ = _
    erw [hsolve]
    rfl

end CROM

/-! ### FEM-BV-k-means -/

section FEM

variable {R : Rng K} {solver : LPSolver K} {obj o : FEMKMeansObj R} {data : Arr2 K}
  {args : FEMArgs K} {e : PyErr}

/-- C100.  As C100_gpnh_outcomes, for FEM-BV-k-means. -/
theorem C100_fem_outcomes (solver : LPSolver K) (obj : FEMKMeansObj R) (data : Arr2 K)
    (args : FEMArgs K) :
    (femKMeansFitTransformF R solver obj data args).toPy =
      femKMeansFitTransform R solver obj data args ∧
    (femKMeansTransformF R solver obj data).toPy = femKMeansTransform R solver obj data :=
  ⟨femKMeansFitTransformF_toPy _ _ _ _ _, femKMeansTransformF_toPy _ _ _ _⟩

/-- C100.  A failed fit of FEM-BV-k-means keeps all settings and all reports of the last successful
fit.  The centres and the affiliations are those from before the call; or the centres are the new
ones but the affiliations still the old ones; or both are new.  What is new has the shape for the
new data. -/
theorem C100_fem_failed_fit
    (h : femKMeansFitTransformF R solver obj data args = Run.raise e o) :
    o = { obj with
      nComponents := o.nComponents, randomState := o.randomState, Gamma := o.Gamma,
      Theta := o.Theta } ∧
    (obj.nComponents ≠ .none → o.nComponents = obj.nComponents) ∧
    (obj.nComponents = .none → o.nComponents = .int data.cols) ∧
    ((o.Gamma = obj.Gamma ∧ o.Theta = obj.Theta ∧ e ≠ .runtimeError) ∨
      ∃ (k : ℕ) (Theta : Matrix (Fin k) (Fin data.cols) K),
        o.nComponents = .int k ∧ 1 ≤ k ∧ o.Theta = some (Arr2.of Theta) ∧
        ((o.Gamma = obj.Gamma ∧ e ≠ .runtimeError) ∨
          ∃ G : Matrix (Fin data.rows) (Fin k) K, o.Gamma = some (Arr2.of G))) ∧
    (args.init = some "custom" → args.updateParameters = false → ∀ P, args.parameters = some P →
      o.Theta = obj.Theta ∨ o.Theta = some P) ∧
    (args.init = some "custom" → args.updateWeights = false → ∀ W, args.weights = some W →
      o.Gamma = obj.Gamma ∨ o.Gamma = some W) := by
  rcases femKMeansRunF_raise (femKMeansFitTransformF_raise h) with ⟨hp, rfl⟩ | ⟨q, hq, h⟩
  · refine ⟨rfl, defaultComponents_some, fun hn => by simp only [hn]; rfl, Or.inl ⟨rfl, rfl, ?_⟩,
      fun _ _ _ _ => Or.inl rfl, fun _ _ _ _ => Or.inl rfl⟩
    rw [checkParams_raise hp]
    simp
  have hk := (checkParams_ok hq).2.1
  have hk1 := (checkParams_ok hq).2.2.2.1
  rcases h with ⟨hi, rfl⟩ | ⟨theta, ht, h⟩
  · refine ⟨rfl, defaultComponents_some, fun hn => by simp only [hn]; rfl, Or.inl ⟨rfl, rfl, ?_⟩,
      fun _ _ _ _ => Or.inl rfl, fun _ _ _ _ => Or.inl rfl⟩
    rintro rfl
    exact kmeansInit_ne_runtime hi
  have hT : args.init = some "custom" → ∀ P, args.parameters = some P →
      some (Arr2.of theta.1) = some P := by
    intro hc P hP
    rw [hc, hP] at ht
    rw [kmeansInit_is_given ht]
  rcases h with ⟨hi, rfl⟩ | ⟨gamma, hg, h⟩
  · refine ⟨rfl, defaultComponents_some, fun hn => by simp only [hn]; rfl,
      Or.inr ⟨q.1, theta.1, hk, hk1, rfl, Or.inl ⟨rfl, ?_⟩⟩,
      fun hc _ P hP => Or.inr (hT hc P hP), fun _ _ _ _ => Or.inl rfl⟩
    rintro rfl
    exact femInitWeights_ne_runtime hi
  have hG : args.init = some "custom" → ∀ W, args.weights = some W →
      some (Arr2.of gamma.1) = some W := by
    intro hc W hW
    rw [hc, hW] at hg
    rw [femInitWeights_is_given hg]
  rcases h with ⟨-, rfl⟩ | ⟨tv, con, -, -, s, hs, rfl⟩
  · exact ⟨rfl, defaultComponents_some, fun hn => by simp only [hn]; rfl,
      Or.inr ⟨q.1, theta.1, hk, hk1, rfl, Or.inr ⟨gamma.1, rfl⟩⟩,
      fun hc _ P hP => Or.inr (hT hc P hP), fun hc _ W hW => Or.inr (hG hc W hW)⟩
  · obtain ⟨h1, h2⟩ := femIterateF_left hs
    refine ⟨rfl, defaultComponents_some, fun hn => by simp only [hn]; rfl,
      Or.inr ⟨q.1, s.params, hk, hk1, rfl, Or.inr ⟨s.Gamma, rfl⟩⟩,
      fun hc hu P hP => Or.inr ?_, fun hc hu W hW => Or.inr ?_⟩
    · simp only [h1 hu]
      exact hT hc P hP
    · simp only [h2 hu]
      exact hG hc W hW

/-- C100.  A failed `transform` of FEM-BV-k-means keeps settings and reports, but not always the
fitted centres: it starts with drawing new ones from the new data, and when it fails later on the
object has these. -/
theorem C100_fem_failed_transform (h : femKMeansTransformF R solver obj data = Run.raise e o) :
    o = { obj with
      nComponents := o.nComponents, randomState := o.randomState, Gamma := o.Gamma,
      Theta := o.Theta } ∧
    ((o.Gamma = obj.Gamma ∧ o.Theta = obj.Theta) ∨
      ∃ (k : ℕ) (rows : Fin k → Fin data.rows), o.nComponents = .int k ∧ 1 ≤ k ∧
        o.Theta = some (Arr2.of fun j => data.val (rows j))) := by
  rcases femKMeansRunF_raise (femKMeansTransformF_raise h) with ⟨hp, rfl⟩ | ⟨q, hq, h⟩
  · exact ⟨rfl, Or.inl ⟨rfl, rfl⟩⟩
  have hk := (checkParams_ok hq).2.1
  have hk1 := (checkParams_ok hq).2.2.2.1
  rcases h with ⟨hi, rfl⟩ | ⟨theta, ht, h⟩
  · exact ⟨rfl, Or.inl ⟨rfl, rfl⟩⟩
  obtain ⟨rows, hrows⟩ := kmeansRandom_rows
    (show kmeansRandom R data.val q.1 obj.randomState = Py.ok theta from ht)
  rcases h with ⟨-, rfl⟩ | ⟨gamma, hg, h⟩
  · exact ⟨rfl, Or.inr ⟨q.1, rows, hk, hk1, by rw [hrows]⟩⟩
  rcases h with ⟨-, rfl⟩ | ⟨tv, con, -, -, s, hs, rfl⟩
  · exact ⟨rfl, Or.inr ⟨q.1, rows, hk, hk1, by rw [hrows]⟩⟩
  · exact ⟨rfl, Or.inr ⟨q.1, rows, hk, hk1, by
      simp only [(femIterateF_left hs).1 rfl]; exact congrArg some (congrArg Arr2.of hrows)⟩⟩

/-- C100.  Centres that are accepted replace the old ones even if the weights handed over with them
are then rejected: the fit raises a ValueError, and the object has the new centres beside the old
affiliations, also if these belong to another number of components. -/
theorem C100_fem_half_done {k : ℕ} (hk : obj.nComponents = .int k)
    (hv : ValidParams obj.nComponents obj.maxIterations obj.tolerance)
    {P W : Arr2 K} (hP : P.rows = k ∧ P.cols = data.cols) (hD : data.cols ≠ 0)
    (hW : ¬ (W.rows = data.rows ∧ W.cols = k))
    (hinit : args.init = some "custom") (hparams : args.parameters = some P)
    (hweights : args.weights = some W) :
    femKMeansFitTransformF R solver obj data args =
      Run.raise .valueError { obj with Theta := some P } := by
  obtain ⟨q, hq, hc, -, hk1, -⟩ := checkParams_valid hv
  have hkq : q.1 = k := by
    have := hc.symm.trans hk
    simpa using this
  have hne : obj.nComponents ≠ .none := by rw [hk]; simp
  have hdef : defaultComponents obj.nComponents data.cols = obj.nComponents :=
    defaultComponents_some hne
  have hth : kmeansInit R data.val q.1 args.parameters args.init obj.randomState =
      Py.ok (P.cast (hP.1.trans hkq.symm) hP.2, obj.randomState) := by
    unfold kmeansInit
    rw [if_pos hinit, hparams]
    have hca : checkArray (some P) = Py.ok P := by
      unfold checkArray
      simp only
      rw [if_neg]
      rw [hP.1, hP.2, ← hkq]
      omega
    have hcs : checkArrayShape P q.1 data.cols =
        Py.ok (P.cast (hP.1.trans hkq.symm) hP.2) := by
      unfold checkArrayShape
      rw [dif_pos ⟨hP.1.trans hkq.symm, hP.2⟩]
    simp only [kmeansCheckParameters, hca, hcs, Py.ok_bind, Py.pure_eq]
  have hgw : femInitWeights R data.rows q.1 args.weights args.init obj.randomState =
      Py.raise .valueError := by
    unfold femInitWeights
    rw [if_pos hinit, hweights]
    simp only [femCheckInitWeights]
    cases hca : checkArray (some W) with
    | diverge => simp [checkArray] at hca; split at hca <;> simp at hca
    | raise e => rw [checkArray_raise hca]; rfl
    | ok A =>
      obtain ⟨hA, -, -⟩ := checkArray_ok hca
      obtain rfl := Option.some.inj hA
      have hcs : checkArrayShape W data.rows q.1 = Py.raise .valueError := by
        unfold checkArrayShape
        rw [dif_neg (by rw [hkq]; exact hW)]
      simp only [Py.ok_bind, hcs]
      rfl
  unfold femKMeansFitTransformF femKMeansRunF
  simp only
  rw [hdef, hq]
  change (Run.lift _ (kmeansInit R data.val q.1 args.parameters args.init obj.randomState) >>= _) >>= _
    = _
  rw [hth]
  change (Run.lift _ (femInitWeights R data.rows q.1 args.weights args.init obj.randomState) >>= _) >>=
    _ = _
  rw [hgw]
  change Run.raise _ _ = _
  rw [Arr2.of_cast_shape]

/-- C100.  A fit does not depend on the arrays and reports in the object. -/
theorem C100_fem_fit_forgets (solver : LPSolver K) (obj : FEMKMeansObj R) (data : Arr2 K)
    (args : FEMArgs K) (Gamma Theta : Option (Arr2 K)) (nComponents_ nIter_ : Option ℕ)
    (cost_ : Option K) :
    femKMeansFitTransform R solver
      { obj with
        Gamma := Gamma, Theta := Theta, nComponents_ := nComponents_, nIter_ := nIter_,
        cost_ := cost_ } data args =
    femKMeansFitTransform R solver obj data args := by
  simp only [femKMeansFitTransform, femKMeansRun, Py.bind_assoc]
  rfl

/-- C100.  After a failed fit any other fit goes as on an object that has not been fitted, with the
number of components and the generator as they are now. -/
theorem C100_fem_fit_after_failure
    (h : femKMeansFitTransformF R solver obj data args = Run.raise e o)
    (solver' : LPSolver K) (data' : Arr2 K) (args' : FEMArgs K) :
    femKMeansFitTransform R solver' o data' args' =
      femKMeansFitTransform R solver'
        { obj with nComponents := o.nComponents, randomState := o.randomState } data' args' := by
  obtain ⟨h1, -⟩ := C100_fem_failed_fit h
  rw [h1]
  exact C100_fem_fit_forgets solver'
    { obj with nComponents := o.nComponents, randomState := o.randomState } data' args' o.Gamma
    o.Theta obj.nComponents_ obj.nIter_ obj.cost_

end FEM

/-! ### Cases -/

/-- A fit that fails before anything is drawn: no component asked for. -/
example : gpnhFitTransformF demoEnv { demoObj with nComponents := .int 0 } demoData none none {} true
    true = Run.raise .valueError { demoObj with nComponents := .int 0 } := rfl

/-- A `transform` with a dictionary for another number of features. -/
example : gpnhTransformF demoEnv { demoObj with S := some (Arr2.of demoS) }
    (Arr2.of (!![1; 2; 3] : Matrix (Fin 3) (Fin 1) ℚ)) =
      Run.raise .valueError { demoObj with S := some (Arr2.of demoS) } := by
  obtain ⟨q, hq, hc, -⟩ := checkParams_valid (c := demoObj.nComponents) (m := demoObj.maxIterations)
    (t := demoObj.tolerance)
    ⟨⟨2, rfl, by norm_num⟩, ⟨_, rfl, by norm_num⟩, Or.inr ⟨_, rfl, by norm_num⟩⟩
  have h2 : q.1 = 2 := by
    have h : (NumArg.int 2 : NumArg ℚ) = .int q.1 := hc
    simp only [NumArg.int.injEq] at h
    omega
  have hi : gpnhStartF demoEnv (!![1; 2; 3] : Matrix (Fin 3) (Fin 1) ℚ) q.1 demoObj.init
      (some (Arr2.of demoS)) none false true {} demoObj.randomState =
        Run.raise .valueError demoObj.randomState := by
    rw [h2]
    rfl
  unfold gpnhTransformF gpnhConvexCodingF
  simp only
  have hd : defaultComponents demoObj.nComponents
      (Arr2.of (!![1; 2; 3] : Matrix (Fin 3) (Fin 1) ℚ)).cols = demoObj.nComponents := rfl
  rw [hd, hq]
  change (Run.within _ (gpnhStartF demoEnv (!![1; 2; 3] : Matrix (Fin 3) (Fin 1) ℚ) q.1 demoObj.init
      (some (Arr2.of demoS)) none false true {} demoObj.randomState) >>= _) >>= _ = _
  rw [hi]
  rfl

/-- A kernel that is not square. -/
example : kaaFitTransformF demoEnv demoKAA (Arr2.of (!![1, 2] : Matrix (Fin 1) (Fin 2) ℚ)) none none
    {} true true = Run.raise .valueError demoKAA := rfl

/-- MTD convex coding with no components. -/
example : mtdFitTransformF demoEnv { mtdDemoObj with nComponents := .int 0 } demoData {} {} {} =
    Run.raise .valueError { mtdDemoObj with nComponents := .int 0 } := rfl

/-- C100_crom_zero_lag at work: the fit with lag 0 fails, and the object has the new dictionary. -/
example : ∃ o, cromFitTransformF demoEnv { base := demoObj, lags := ![0] } demoData none none {} true
    true = Run.raise .valueError o ∧ o.base.dictionary_.isSome ∧ o.base.cost_.isSome := by
  obtain ⟨⟨b, W, info⟩, hb⟩ := demo_fit
  obtain ⟨o, ho, hbase⟩ := C100_crom_zero_lag (obj := { base := demoObj, lags := ![0] })
    demoRng_uniform_pos ⟨0, rfl⟩ (by intro i; fin_cases i; decide) hb
  obtain ⟨o', info', ho', hr⟩ := gpnhFitTransform_eq_ok hb
  obtain ⟨_, start, it, -, -, -, hc⟩ := gpnhConvexCoding_eq_ok ho'
  simp only [Prod.mk.injEq] at hc hr
  obtain ⟨rfl, -, -⟩ := hr
  obtain ⟨rfl, rfl⟩ := hc
  refine ⟨o, ho, ?_, ?_⟩ <;> rw [hbase] <;> rfl

/-- C100_fem_half_done at work: old affiliations for two components and three samples, new centres for
two features. -/
example (solver : LPSolver ℝ) :
    femKMeansFitTransformF demoRngReal solver
      { demoFEM with Gamma := some (Arr2.of (!![1, 0; 0, 1; 0, 1] : Matrix (Fin 3) (Fin 2) ℝ)) }
      (Arr2.of (!![0, 1; 2, 3] : Matrix (Fin 2) (Fin 2) ℝ))
      { parameters := some (Arr2.of (!![0, 1; 2, 2] : Matrix (Fin 2) (Fin 2) ℝ))
        weights := some (Arr2.of (!![1, 0] : Matrix (Fin 1) (Fin 2) ℝ)), init := some "custom" } =
      Run.raise .valueError
        { demoFEM with
          Gamma := some (Arr2.of (!![1, 0; 0, 1; 0, 1] : Matrix (Fin 3) (Fin 2) ℝ))
          Theta := some (Arr2.of (!![0, 1; 2, 2] : Matrix (Fin 2) (Fin 2) ℝ)) } :=
  C100_fem_half_done (k := 2) rfl
    ⟨⟨2, rfl, by norm_num⟩, ⟨5, rfl, by norm_num⟩, Or.inr ⟨1 / 100, rfl, by norm_num⟩⟩
    ⟨rfl, rfl⟩ (by simp [Arr2.of]) (by simp [Arr2.of]) rfl rfl rfl

/-- A `transform` of fewer samples than components fails before centres are drawn. -/
example (solver : LPSolver ℝ) (Theta : Arr2 ℝ) :
    femKMeansTransformF demoRngReal solver { demoFEM with Theta := some Theta }
      (Arr2.of (!![7] : Matrix (Fin 1) (Fin 1) ℝ)) =
    Run.raise .valueError { demoFEM with Theta := some Theta } := by
  obtain ⟨q, hq, hc, -⟩ := checkParams_valid (c := demoFEM.nComponents) (m := demoFEM.maxIterations)
    (t := demoFEM.tolerance)
    ⟨⟨2, rfl, by norm_num⟩, ⟨5, rfl, by norm_num⟩, Or.inr ⟨1 / 100, rfl, by norm_num⟩⟩
  have h2 : q.1 = 2 := by
    have h : (NumArg.int 2 : NumArg ℝ) = .int q.1 := hc
    simp only [NumArg.int.injEq] at h
    omega
  have hi : kmeansInit demoRngReal (!![7] : Matrix (Fin 1) (Fin 1) ℝ) q.1 none none demoFEM.randomState =
      Py.raise .valueError := by
    rw [h2]
    rfl
  unfold femKMeansTransformF femKMeansRunF
  simp only
  have hd : defaultComponents demoFEM.nComponents (Arr2.of (!![7] : Matrix (Fin 1) (Fin 1) ℝ)).cols =
      demoFEM.nComponents := rfl
  rw [hd, hq]
  change (Run.lift _ (kmeansInit demoRngReal (!![7] : Matrix (Fin 1) (Fin 1) ℝ) q.1 none none
    demoFEM.randomState) >>= _) >>= _ = _
  rw [hi]
  rfl

end Reor
