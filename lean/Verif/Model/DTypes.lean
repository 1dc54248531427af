import Mathlib.Algebra.Order.Floor.Defs
import Verif.Model.KernelAA
import Verif.Model.GPNHCROM

/-!
The dtypes of the numpy arrays in src/reor/archetypal_analysis.py, src/reor/gpnh_convex_coding.py,
src/reor/mtd_convex_coding.py and src/reor/gpnh_convex_coding_crom.py.

The other model files have exact numbers only.  Here every array also has a dtype, floating point or
integer, and the functions follow what numpy does with it: the dtype of a product, the check made by
an operation that writes into an existing array, and the truncation of a number assigned to an
element of an integer array.  Values are still exact: neither the rounding of floating point numbers
nor the overflow of integers is represented.  Only dtype failures that happen in the lines cited are
added; everything else is done by the definitions of the other files.
-/

namespace Reor

open scoped BigOperators Matrix

variable {K : Type} [Field K] [LinearOrder K]

/-- The dtype of an array: a signed integer type or a floating point type. -/
inductive DType where
  | int
  | float
  deriving DecidableEq, Repr

/-- The dtype of a sum or product of two arrays. -/
def DType.join : DType → DType → DType
  | .int, .int => .int
  | _, _ => .float

/-- The check numpy makes before `target += value` and `target -= value`: a floating point result
cannot be written into an integer array (UFuncTypeError, a TypeError). -/
def inPlace (target value : DType) : Py Unit :=
  match target, value with
  | .int, .float => Py.raise .typeError
  | _, _ => Py.ok ()

/-- `A.dot(B, out=C)`: the dtype of `out` must be that of the product, otherwise ValueError. -/
def dotOut (value out : DType) : Py Unit :=
  if value = out then Py.ok () else Py.raise .valueError

/-- A floating point number written to an element of an integer array: rounded towards zero. -/
def truncateInt [FloorRing K] (x : K) : K := if 0 ≤ x then ((⌊x⌋ : ℤ) : K) else ((⌈x⌉ : ℤ) : K)

/-- A number written to an element of an array. -/
def DType.store [FloorRing K] (t : DType) (x : K) : K :=
  match t with
  | .int => truncateInt x
  | .float => x

/-- A phase of the outer loop that is preceded by checks of dtypes. -/
def guardPhase {σ : Type} (check : Py Unit) (phase : σ → Py σ) (s : σ) : Py σ := do
  let _ ← check
  phase s

/-! ### Kernel archetypal analysis -/

/-- The dtypes of `self.K`, `self.S` and `self.C`. -/
structure KAATypes where
  Kmat : DType
  S : DType
  C : DType

/-- The dtype of `self.CK` after `self.CK = diag_alpha.dot(self.CK)`,
src/reor/archetypal_analysis.py lines 386-390 and 561-564. -/
def kaaCKType (delta : K) (t : KAATypes) : DType :=
  if delta > 0 then .float else t.C.join t.Kmat

/-- The dtypes in the first call of `_evaluate_cost`, src/reor/archetypal_analysis.py lines 275-284.
`StS`, `CK` and `CKCt` have been allocated by `_initialize_workspace` (lines 295-298) as the plain
products. -/
def kaaCostTypes (delta : K) (t : KAATypes) : Py Unit := do
  let StS := t.S.join t.S
  let CK := t.C.join t.Kmat
  let CKCt := CK.join t.C
  let _ ← dotOut (t.S.join t.S) StS
  let _ ← dotOut (t.C.join t.Kmat) CK
  let _ ← if delta > 0 then dotOut (DType.float.join CK) CK else Py.ok ()
  let _ ← dotOut (CK.join t.C) CKCt
  if delta > 0 then dotOut (CKCt.join .float) CKCt else Py.ok ()

/-- The dtypes in `_update_dictionary`, src/reor/archetypal_analysis.py lines 559-576 with 420-428 and
430-449: the gradient (line 425) and the full step (line 449).  `incr_C` (line 572) is floating point
as `alpha_C` is. -/
def kaaDictionaryTypes (delta : K) (t : KAATypes) : Py Unit := do
  let CK := kaaCKType delta t
  let gradC := t.S.join t.Kmat
  let _ ← inPlace gradC ((t.S.join t.S).join CK)
  inPlace t.C .float

/-- The dtypes in `_update_weights`, src/reor/archetypal_analysis.py lines 386-400 with 325-334 and
337-356: the gradient (line 334) and the full step (line 356). -/
def kaaWeightsTypes (delta : K) (t : KAATypes) : Py Unit := do
  let CKCt := if delta > 0 then DType.float else (kaaCKType delta t).join t.C
  let gradS := if delta > 0 then DType.float else t.Kmat.join t.C
  let _ ← inPlace gradS (t.S.join CKCt)
  inPlace t.S .float

/-- `_iterate`, src/reor/archetypal_analysis.py lines 625-671, with dtypes.  A floating point array
stays one, and an update that returns had floating point arrays to write to, so the dtypes do not
change during the loop. -/
def kaaIterateT {n k : ℕ} (cfg : LSConfig K) (delta : K) (require : Bool) (tolerance : K)
    (maxIterations : ℕ) (updateDictionary updateWeights : Bool) (t : KAATypes)
    (s : KAAState n k K) : Py (IterResult (KAAState n k K) K) := do
  let _ ← kaaCostTypes delta t
  iterate (KAAState.evaluateCost delta) require tolerance maxIterations
    ((if updateDictionary then
        [guardPhase (kaaDictionaryTypes delta t) (KAAState.updateDictionary cfg delta)] else []) ++
     (if updateWeights then
        [guardPhase (kaaWeightsTypes delta t) (KAAState.updateWeights cfg delta)] else [])) s

/-- The dtype of the dictionary made by `_initialize_kernel_aa_dictionary`,
src/reor/archetypal_analysis.py lines 82-83 (`dtype=kernel.dtype`) and 41-48 (a random stochastic
matrix). -/
def kaaDictionaryType (init : Option String) (kernel : DType) : DType :=
  if init.getD "furthest_sum" = "furthest_sum" then kernel else .float

/-- The dtypes at the starting point, src/reor/archetypal_analysis.py lines 699-724: the caller's
arrays are copied with their dtype, random weights are floating point. -/
def kaaStartTypes (init : Option String) (kernel dictionary weights : DType)
    (updateDictionary updateWeights : Bool) : KAATypes :=
  if init = some "custom" then ⟨kernel, weights, dictionary⟩
  else if updateDictionary = false ∧ updateWeights = true then ⟨kernel, .float, dictionary⟩
  else if updateDictionary = true ∧ updateWeights = false then
    ⟨kernel, weights, kaaDictionaryType init kernel⟩
  else ⟨kernel, .float, kaaDictionaryType init kernel⟩

/-- The dtypes of the arguments of a fit: the data or the kernel, and the optional starting
factors. -/
structure ArgTypes where
  data : DType
  dictionary : DType := .float
  weights : DType := .float

/-- `_kernel_aa` after the shape of the kernel has been checked, src/reor/archetypal_analysis.py
lines 684-733, with dtypes. -/
def kernelAASquareT (env : Env K) (obj : KAAObj env.rng) (t : ArgTypes) {n : ℕ}
    (kernel : Matrix (Fin n) (Fin n) K) (dictionary weights : Option (Arr2 K))
    (updateDictionary updateWeights : Bool) (kw : InitKwargs) :
    Py (KAAObj env.rng × FitInfo K) := do
  let obj := { obj with nComponents := defaultComponents obj.nComponents n }
  let p ← checkParams obj.nComponents obj.maxIterations obj.tolerance
  let start ← kaaStart env kernel p.1 obj.init dictionary weights updateDictionary updateWeights
    kw obj.randomState.start
  let s := KAAState.initializeWorkspace obj.ls kernel start.1.2 start.1.1
  let r ← kaaIterateT obj.ls obj.delta obj.require p.2.2 p.2.1 updateDictionary updateWeights
    (kaaStartTypes obj.init t.data t.dictionary t.weights updateDictionary updateWeights) s
  let warned := decide (r.nIter = p.2.1 ∧ p.2.2 > 0)
  pure ({ obj with
      randomState := obj.randomState.after start.2
      Kmat := some (Arr2.of kernel)
      S := some (Arr2.of r.state.S)
      C := some (Arr2.of r.state.C) },
    { cost := r.cost, nIter := r.nIter, warned := warned, trace := r.trace })

/-- `_kernel_aa`, src/reor/archetypal_analysis.py lines 673-733, with dtypes. -/
def kernelAAT (env : Env K) (obj : KAAObj env.rng) (t : ArgTypes) (kernel : Arr2 K)
    (dictionary weights : Option (Arr2 K)) (updateDictionary updateWeights : Bool)
    (kw : InitKwargs) : Py (KAAObj env.rng × FitInfo K) :=
  if h : kernel.cols = kernel.rows then
    kernelAASquareT env obj t (kernel.cast rfl h) dictionary weights updateDictionary updateWeights
      kw
  else Py.raise .valueError

/-- `fit_transform`, src/reor/archetypal_analysis.py lines 735-767, with dtypes. -/
def kaaFitTransformT (env : Env K) (obj : KAAObj env.rng) (t : ArgTypes) (kernel : Arr2 K)
    (dictionary weights : Option (Arr2 K)) (kw : InitKwargs)
    (updateDictionary updateWeights : Bool := true) :
    Py (KAAObj env.rng × Option (Arr2 K) × FitInfo K) := do
  let r ← kernelAAT env obj t kernel dictionary weights updateDictionary updateWeights kw
  pure (kaaFinish r)

/-- `transform`, src/reor/archetypal_analysis.py lines 784-803, with dtypes; `t.dictionary` is the
dtype of `self.C`. -/
def kaaTransformT (env : Env K) (obj : KAAObj env.rng) (t : ArgTypes) (kernel : Arr2 K) :
    Py (KAAObj env.rng × Option (Arr2 K) × FitInfo K) := do
  let r ← kernelAAT env obj t kernel obj.C none false true {}
  pure (r.1, r.1.S, r.2)

/-- The dtype of the kernel used by `ArchetypalAnalysis`, src/reor/archetypal_analysis.py
lines 908-911, 935-938 and 965-968: that of `data.dot(data.T)`, or the one the caller's function
gives its result. -/
def aaKernelType (kernelFunc : Option DType) (data : DType) : DType :=
  match kernelFunc with
  | none => data.join data
  | some t => t

/-- `ArchetypalAnalysis.fit_transform`, src/reor/archetypal_analysis.py lines 913-949, with dtypes.
`kernelFuncType` is the dtype of the result of the caller's kernel function. -/
def aaFitTransformT (env : Env K) (obj : KAAObj env.rng)
    (kernelFunc : Option (Arr2 K → Py (Arr2 K))) (kernelFuncType : Option DType) (t : ArgTypes)
    (data : Arr2 K) (dictionary weights : Option (Arr2 K)) (kw : InitKwargs)
    (updateDictionary updateWeights : Bool := true) :
    Py (KAAObj env.rng × Option (Arr2 K) × FitInfo K) := do
  let kernel ← aaKernel kernelFunc data
  let r ← kernelAAT env obj { t with data := aaKernelType kernelFuncType t.data } kernel dictionary
    weights updateDictionary updateWeights kw
  pure (kaaFinish r)

/-! ### GPNH convex coding -/

/-- The dtypes of `self.Gamma` and `self.S`.  That of `self.X` is not needed: every term it enters is
multiplied by a floating point number. -/
structure GPNHTypes where
  Gamma : DType
  S : DType

/-- The dtypes in `_update_dictionary`, src/reor/gpnh_convex_coding.py lines 391-403 with 323-348 and
350-368 (and src/reor/mtd_convex_coding.py lines 382-407, 409-427, 450-462): for one component the
gradient starts as `np.zeros_like(self.S)` (line 327) and both terms added to it (lines 347-348) are
floating point; otherwise it is floating point; line 368 is the full step. -/
def gpnhDictionaryTypes (k : ℕ) (t : GPNHTypes) : Py Unit := do
  let gradS := if k = 1 then t.S else DType.float
  let _ ← inPlace gradS .float
  let _ ← inPlace gradS .float
  inPlace t.S .float

/-- The dtypes in `_update_weights`, src/reor/gpnh_convex_coding.py lines 476-488 with 421-435 and
437-455: the gradient starts as `np.zeros_like(self.Gamma)` (line 424), two floating point terms are
added (lines 434-435), line 455 is the full step. -/
def gpnhWeightsTypes (t : GPNHTypes) : Py Unit := do
  let gradGamma := t.Gamma
  let _ ← inPlace gradGamma .float
  let _ ← inPlace gradGamma .float
  inPlace t.Gamma .float

/-- `_iterate`, src/reor/gpnh_convex_coding.py lines 506-552, with dtypes. -/
def gpnhIterateT {T D k : ℕ} (cfg : LSConfig K) (eps : K) (require : Bool) (tolerance : K)
    (maxIterations : ℕ) (updateDictionary updateWeights : Bool) (t : GPNHTypes)
    (s : GPNHState T D k K) : Py (IterResult (GPNHState T D k K) K) :=
  if D * T = 0 then Py.raise .zeroDivisionError
  else
    iterate (fun s => (s, s.evaluateCost eps)) require tolerance maxIterations
      ((if updateDictionary then
          [guardPhase (gpnhDictionaryTypes k t) (GPNHState.updateDictionary cfg eps)] else []) ++
       (if updateWeights then
          [guardPhase (gpnhWeightsTypes t) (GPNHState.updateWeights cfg eps)] else [])) s

/-- The dtype of the dictionary made by `_initialize_gpnh_convex_coding_dictionary`,
src/reor/gpnh_convex_coding.py lines 73-74 (`dtype=kernel.dtype` with `kernel = data.dot(data.T)`) and
44-45 (a random number times `avg`); src/reor/mtd_convex_coding.py lines 50-90 is a textual copy. -/
def gpnhDictionaryType (init : Option String) (data : DType) : DType :=
  if init.getD "random" = "furthest_sum" then data.join data else .float

/-- The dtypes at the starting point, src/reor/gpnh_convex_coding.py lines 574-598. -/
def gpnhStartTypes (init : Option String) (t : ArgTypes) (updateDictionary updateWeights : Bool) :
    GPNHTypes :=
  if init = some "custom" then ⟨t.weights, t.dictionary⟩
  else if updateDictionary = false ∧ updateWeights = true then ⟨.float, t.dictionary⟩
  else if updateDictionary = true ∧ updateWeights = false then
    ⟨t.weights, gpnhDictionaryType init t.data⟩
  else ⟨.float, gpnhDictionaryType init t.data⟩

/-- `_gpnh_convex_coding`, src/reor/gpnh_convex_coding.py lines 554-610, with dtypes. -/
def gpnhConvexCodingT (env : Env K) (obj : GPNHObj env.rng) (t : ArgTypes) (data : Arr2 K)
    (dictionary weights : Option (Arr2 K)) (updateDictionary updateWeights : Bool)
    (kw : InitKwargs) : Py (GPNHObj env.rng × FitInfo K) := do
  let obj := { obj with nComponents := defaultComponents obj.nComponents data.cols }
  let p ← checkParams obj.nComponents obj.maxIterations obj.tolerance
  let start ← gpnhStart env data.val p.1 obj.init dictionary weights updateDictionary updateWeights
    kw obj.randomState
  let s := GPNHState.initializeWorkspace obj.ls data.val start.1.2 start.1.1
  let r ← gpnhIterateT obj.ls obj.epsilonStates obj.require p.2.2 p.2.1 updateDictionary
    updateWeights (gpnhStartTypes obj.init t updateDictionary updateWeights) s
  let warned := decide (r.nIter = p.2.1 ∧ p.2.2 > 0)
  pure ({ obj with
      randomState := start.2
      Gamma := some (Arr2.of r.state.Gamma)
      S := some (Arr2.of r.state.S) },
    { cost := r.cost, nIter := r.nIter, warned := warned, trace := r.trace })

/-- `fit_transform`, src/reor/gpnh_convex_coding.py lines 612-644, with dtypes. -/
def gpnhFitTransformT (env : Env K) (obj : GPNHObj env.rng) (t : ArgTypes) (data : Arr2 K)
    (dictionary weights : Option (Arr2 K)) (kw : InitKwargs)
    (updateDictionary updateWeights : Bool := true) :
    Py (GPNHObj env.rng × Option (Arr2 K) × FitInfo K) := do
  let r ← gpnhConvexCodingT env obj t data dictionary weights updateDictionary updateWeights kw
  let obj := { r.1 with
    nComponents_ := r.1.S.map (fun S => S.rows)
    cost_ := some r.2.cost
    dictionary_ := r.1.S
    nIter_ := some r.2.nIter }
  pure (obj, obj.Gamma, r.2)

/-- `transform`, src/reor/gpnh_convex_coding.py lines 661-680, with dtypes; `t.dictionary` is the dtype
of `self.S`. -/
def gpnhTransformT (env : Env K) (obj : GPNHObj env.rng) (t : ArgTypes) (data : Arr2 K) :
    Py (GPNHObj env.rng × Option (Arr2 K) × FitInfo K) := do
  let r ← gpnhConvexCodingT env obj t data obj.S none false true {}
  pure (r.1, r.1.Gamma, r.2)

/-! ### Convex coding with a mixture transition model -/

/-- The dtypes of the four variables of `MTDConvexCoding`. -/
structure MTDTypes extends GPNHTypes where
  orderWeights : DType
  transitionMatrices : DType

/-- The dtypes in `_update_predicted_weights`, src/reor/mtd_convex_coding.py lines 317-328: `Z` has the
dtype of `Gamma`, and every lag adds to it. -/
def mtdPredictedWeightsTypes (p : ℕ) (t : MTDTypes) : Py Unit :=
  if p = 0 then Py.ok ()
  else inPlace t.Gamma (t.orderWeights.join (t.Gamma.join t.transitionMatrices))

/-- The dtypes in `_update_weights`, src/reor/mtd_convex_coding.py lines 553-565 with 480-530: the
gradient starts as `np.zeros_like(self.Gamma)` and every term is multiplied by a floating point
normalisation. -/
def mtdWeightsTypes (t : MTDTypes) : Py Unit := gpnhWeightsTypes t.toGPNHTypes

/-- The dtypes in `_update_parameters`, src/reor/mtd_convex_coding.py lines 654-676 with 317-328 and
605-627: the increments are floating point as `alpha_parameters` is; lines 626-627 are the full
step.  (Assigning to the elements of the gradients, lines 596-603, never fails.) -/
def mtdParametersTypes (p : ℕ) (t : MTDTypes) : Py Unit := do
  let _ ← mtdPredictedWeightsTypes p t
  let _ ← inPlace t.orderWeights .float
  inPlace t.transitionMatrices .float

/-- `_iterate`, src/reor/mtd_convex_coding.py lines 702-756, with dtypes. -/
def mtdIterateT {T D k p : ℕ} (c : MTDConfig p K) (require : Bool) (tolerance : K)
    (maxIterations : ℕ) (fl : MTDFlags) (t : MTDTypes) (s : MTDState T D k p K) :
    Py (IterResult (MTDState T D k p K) K) :=
  if D * T = 0 then Py.raise .zeroDivisionError
  else if k ≠ 1 ∧ T = c.maxLag then Py.raise .nonFinite
  else
    iterate (fun s => (s, s.evaluateCost c)) require tolerance maxIterations
      ((if fl.updateDictionary then
          [guardPhase (gpnhDictionaryTypes k t.toGPNHTypes) (MTDState.updateDictionary c)]
          else []) ++
       (if fl.updateWeights then
          [guardPhase (mtdWeightsTypes t) (MTDState.updateWeights c)] else []) ++
       (if fl.updateParameters then
          [guardPhase (mtdParametersTypes p t) (MTDState.updateParameters c)] else [])) s

/-- The dtypes of the arguments of a fit. -/
structure MTDArgTypes extends ArgTypes where
  orderWeights : DType := .float
  transitionMatrices : DType := .float

/-- The dtypes at the starting point, src/reor/mtd_convex_coding.py lines 780-825.  The random
transition matrices are stored with the dtype of the data (lines 109-110). -/
def mtdStartTypes (init : Option String) (t : MTDArgTypes) (fl : MTDFlags) : MTDTypes :=
  if init = some "custom" then
    ⟨⟨t.weights, t.dictionary⟩, t.orderWeights, t.transitionMatrices⟩
  else
    ⟨⟨if fl.updateWeights then .float else t.weights,
      if fl.updateDictionary then gpnhDictionaryType init t.data else t.dictionary⟩,
      if fl.updateParameters then .float else t.orderWeights,
      if fl.updateParameters then t.data else t.transitionMatrices⟩

/-- The starting point as it is stored, src/reor/mtd_convex_coding.py lines 780-825 with 109-113: that
of `mtdStart`, the drawn transition matrices having been assigned to an array with the dtype of the
data. -/
def mtdStartT [FloorRing K] (env : Env K) {T D : ℕ} (t : DType) (data : Matrix (Fin T) (Fin D) K)
    (k p : ℕ) (init : Option String) (args : MTDArgs K) (fl : MTDFlags) (kw : InitKwargs)
    (g : env.rng.G) : Py (MTDPoint T D k p K × env.rng.G) := do
  let start ← mtdStart env data k p init args fl kw g
  if init = some "custom" ∨ fl.updateParameters = false then pure start
  else
    pure ((start.1.1, start.1.2.1, start.1.2.2.1,
      fun i a b => t.store (start.1.2.2.2 i a b)), start.2)

/-- `self._initialize_workspace()` and `self._iterate(...)`, src/reor/mtd_convex_coding.py
lines 827-832, with dtypes. -/
def mtdSolveT {T D k p : ℕ} (c : MTDConfig p K) (require : Bool) (tolerance : K)
    (maxIterations : ℕ) (fl : MTDFlags) (t : MTDTypes) (X : Matrix (Fin T) (Fin D) K)
    (pt : MTDPoint T D k p K) : Py (IterResult (MTDState T D k p K) K) :=
  if p = 0 then Py.raise .valueError
  else do
    let _ ← mtdPredictedWeightsTypes p t
    mtdIterateT c require tolerance maxIterations fl t
      (MTDState.initializeWorkspace c X pt.2.1 pt.1 pt.2.2.1 pt.2.2.2)

/-- `_mtd_convex_coding`, src/reor/mtd_convex_coding.py lines 758-838, with dtypes. -/
def mtdConvexCodingT [FloorRing K] (env : Env K) {p : ℕ} (obj : MTDObj env.rng p) (t : MTDArgTypes)
    (data : Arr2 K) (args : MTDArgs K) (fl : MTDFlags) (kw : InitKwargs) :
    Py (MTDObj env.rng p × FitInfo K) := do
  let obj := { obj with nComponents := defaultComponents obj.nComponents data.cols }
  let q ← checkParams obj.nComponents obj.maxIterations obj.tolerance
  let start ← mtdStartT env t.data data.val q.1 p obj.init args fl kw obj.randomState
  let r ← mtdSolveT obj.config obj.require q.2.2 q.2.1 fl (mtdStartTypes obj.init t fl) data.val
    start.1
  let warned := decide (r.nIter = q.2.1 ∧ q.2.2 > 0)
  pure ({ obj with
      randomState := start.2
      vars := some
        { T := data.rows, D := data.cols, k := q.1
          Gamma := r.state.Gamma
          S := r.state.S
          orderWeights := r.state.orderWeights
          transitionMatrices := r.state.transitionMatrices } },
    { cost := r.cost, nIter := r.nIter, warned := warned, trace := r.trace })

/-- `fit_transform`, src/reor/mtd_convex_coding.py lines 840-872, with dtypes. -/
def mtdFitTransformT [FloorRing K] (env : Env K) {p : ℕ} (obj : MTDObj env.rng p) (t : MTDArgTypes)
    (data : Arr2 K) (args : MTDArgs K) (fl : MTDFlags) (kw : InitKwargs) :
    Py (MTDObj env.rng p × Option (Arr2 K) × FitInfo K) := do
  let r ← mtdConvexCodingT env obj t data args fl kw
  let obj := { r.1 with
    nComponents_ := r.1.vars.map (fun v => v.k)
    cost_ := some r.2.cost
    dictionary_ := r.1.vars.map MTDVars.SArr
    nIter_ := some r.2.nIter }
  pure (obj, obj.vars.map MTDVars.GammaArr, r.2)

/-! ### The two-step estimator -/

/-- The dtypes in `_update_predicted_weights` and `_update_parameters`,
src/reor/gpnh_convex_coding_crom.py lines 127-138, 228-250 and 200-201; `order_weights` is a floating
point array (line 287). -/
def cromParametersTypes (Gamma transitionMatrices : DType) : Py Unit := do
  let _ ← inPlace Gamma .float
  let _ ← inPlace DType.float .float
  inPlace transitionMatrices .float

/-- The loop of `_fit_parameters`, src/reor/gpnh_convex_coding_crom.py lines 297-325, with dtypes. -/
def cromSolveT {T k p : ℕ} (c : CROMConfig p K) (require : Bool) (tolerance : K)
    (maxIterations : ℕ) (tGamma tA : DType) (Gamma : Matrix (Fin T) (Fin k) K)
    (orderWeights : Fin p → K) (transitionMatrices : Fin p → Matrix (Fin k) (Fin k) K) :
    Py (IterResult (CROMState T k p K) K) :=
  if p = 0 then Py.raise .valueError
  else if (∃ i, c.lags i = 0) ∧ c.maxLag < T then Py.raise .valueError
  else do
    let _ ← inPlace tGamma .float
    if k ≠ 1 ∧ T = c.maxLag then Py.raise .nonFinite
    else
      iterate (fun s => (s, s.evaluateFitResidual c)) require tolerance maxIterations
        [guardPhase (cromParametersTypes tGamma tA) (CROMState.updateParameters c)]
        (CROMState.initializeWorkspace c Gamma orderWeights transitionMatrices)

/-- `_fit_parameters`, src/reor/gpnh_convex_coding_crom.py lines 276-325, with dtypes: the matrices
are stored with the dtype of the data (lines 290-291). -/
def cromFitParametersT [FloorRing K] (R : Rng K) {T k p : ℕ} (c : CROMConfig p K) (require : Bool)
    (tolerance : K) (maxIterations : ℕ) (tX tGamma : DType) (Gamma : Matrix (Fin T) (Fin k) K)
    (g : R.G) : Py (IterResult (CROMState T k p K) K × R.G) := do
  let w ← mtdDrawOrderWeights R p g
  let A ← mtdDrawTransitionMatrices R k p w.2
  let r ← cromSolveT c require tolerance maxIterations tGamma tX Gamma w.1
    (fun i a b => tX.store (A.1 i a b))
  pure (r, A.2)

/-- `fit_transform`, src/reor/gpnh_convex_coding_crom.py lines 327-352, with dtypes. -/
def cromFitTransformT [FloorRing K] (env : Env K) {p : ℕ} (obj : CROMObj env.rng p) (t : ArgTypes)
    (data : Arr2 K) (dictionary weights : Option (Arr2 K)) (kw : InitKwargs)
    (updateDictionary updateWeights : Bool := true) :
    Py (CROMObj env.rng p × Option (Arr2 K) × FitInfo K) := do
  let r ← gpnhFitTransformT env obj.base t data dictionary weights kw updateDictionary updateWeights
  let q ← checkParams r.1.nComponents r.1.maxIterations r.1.tolerance
  match r.1.Gamma with
  | none => Py.raise .typeError
  | some G => do
    let f ← cromFitParametersT env.rng obj.config r.1.require q.2.2 q.2.1 t.data
      (gpnhStartTypes obj.base.init t updateDictionary updateWeights).Gamma G.val r.1.randomState
    pure ({ base := { r.1 with randomState := f.2 }
            lags := obj.lags
            vars := some
              { k := G.cols
                orderWeights := f.1.state.orderWeights
                transitionMatrices := f.1.state.transitionMatrices } },
      some G, r.2.2)

end Reor
