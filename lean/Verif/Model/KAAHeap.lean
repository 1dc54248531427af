import Verif.Model.KernelAA
import Verif.Model.GPNHHeap

/-!
`src/reor/archetypal_analysis.py` with arrays in memory: the same functions as in
`Verif.Model.KernelAA`, statement by statement, keeping apart new arrays (`assign`), in-place changes
(`augment`) and names.  Arrays held only in local variables are values.
-/

namespace Reor

open scoped BigOperators Matrix

variable {K : Type} [Field K] [LinearOrder K]

/-- The array attributes of a `KernelAA` object, src/reor/archetypal_analysis.py lines 237-260
(`alpha_old` is set and never read or written again). -/
inductive KAAAttr where
  | Kmat | S | C | alpha | CK | CKCt | CKS | StS
  | COld | gradC | deltaGradC | incrC
  | alphaOld | gradAlpha | deltaGradAlpha | incrAlpha
  | SOld | gradS | deltaGradS | incrS
  deriving DecidableEq

/-- Their shapes, for `n` samples and `k` components.  Vectors are single rows; `incr_alpha` has the
shape it gets when it is first assigned (line 601). -/
def kaaShape (n k : ℕ) : KAAAttr → ℕ × ℕ
  | .Kmat => (n, n)
  | .S | .SOld | .gradS | .deltaGradS | .incrS => (n, k)
  | .C | .CK | .COld | .gradC | .deltaGradC | .incrC => (k, n)
  | .CKCt | .CKS | .StS | .incrAlpha => (k, k)
  | .alpha | .alphaOld | .gradAlpha | .deltaGradAlpha => (1, k)

/-- The scalar attributes, src/reor/archetypal_analysis.py lines 242 and 262-270. -/
structure KAAScalars (K : Type) where
  traceK : K
  alphaC : K
  alphaS : K
  alphaAlpha : K
  fSMem : List K
  fCMem : List K
  fAlphaMem : List K

/-- A `KernelAA` object during a fit. -/
abbrev KAAMem (K : Type) := HState KAAAttr (KAAScalars K) K

/-- A vector as a single row. -/
def rowVec {k : ℕ} (v : Fin k → K) : Matrix (Fin 1) (Fin k) K := Matrix.of fun _ j => v j

namespace KAAMem

/-- The values of the attributes used by `Verif.Model.KernelAA`, read from memory. -/
def rd (n k : ℕ) (s : KAAMem K) : KAAState n k K :=
  { Kmat := s.val (kaaShape n k) .Kmat
    S := s.val (kaaShape n k) .S
    C := s.val (kaaShape n k) .C
    alpha := s.val (kaaShape n k) .alpha (0 : Fin 1)
    traceK := s.rest.traceK
    CK := s.val (kaaShape n k) .CK
    CKCt := s.val (kaaShape n k) .CKCt
    CKS := s.val (kaaShape n k) .CKS
    StS := s.val (kaaShape n k) .StS
    COld := s.val (kaaShape n k) .COld
    gradC := s.val (kaaShape n k) .gradC
    incrC := s.val (kaaShape n k) .incrC
    gradAlpha := s.val (kaaShape n k) .gradAlpha (0 : Fin 1)
    incrAlpha := s.val (kaaShape n k) .incrAlpha
    SOld := s.val (kaaShape n k) .SOld
    gradS := s.val (kaaShape n k) .gradS
    incrS := s.val (kaaShape n k) .incrS
    alphaC := s.rest.alphaC
    alphaS := s.rest.alphaS
    alphaAlpha := s.rest.alphaAlpha
    fSMem := s.rest.fSMem
    fCMem := s.rest.fCMem
    fAlphaMem := s.rest.fAlphaMem }

/-- `self.delta_grad_C`, `self.delta_grad_S` and `self.delta_grad_alpha`. -/
def deltaGradC (n k : ℕ) (s : KAAMem K) : Matrix (Fin k) (Fin n) K :=
  s.val (kaaShape n k) .deltaGradC

@[inherit_doc deltaGradC]
def deltaGradS (n k : ℕ) (s : KAAMem K) : Matrix (Fin n) (Fin k) K :=
  s.val (kaaShape n k) .deltaGradS

@[inherit_doc deltaGradC]
def deltaGradAlpha (n k : ℕ) (s : KAAMem K) : Fin k → K :=
  s.val (kaaShape n k) .deltaGradAlpha (0 : Fin 1)

variable (n k : ℕ)

/-- Lines 722-724 of `_kernel_aa` and `_initialize_workspace`, src/reor/archetypal_analysis.py
lines 289-323.  `kernel`, `weights`, `dictionary` are addresses; the attributes not assigned yet are
taken to name the kernel. -/
def initializeWorkspace (cfg : LSConfig K) (h : Heap K) (kernel weights dictionary : ℕ) : KAAMem K :=
  let s : KAAMem K :=
    { addr := fun _ => kernel
      rest :=
        { traceK := 0, alphaC := 1, alphaS := 1, alphaAlpha := 1
          fSMem := List.replicate cfg.memory 0
          fCMem := List.replicate cfg.memory 0
          fAlphaMem := List.replicate cfg.memory 0 }
      heap := h }
  let s := s.assign .Kmat ((s.heap.cell kernel).at n n)
  let s := s.assign .S ((s.heap.cell weights).at n k)
  let s := s.assign .C ((s.heap.cell dictionary).at k n)
  let s := s.assign .alpha (rowVec fun _ : Fin k => (1 : K))
  let s : KAAMem K := { s with rest := { s.rest with traceK := (rd n k s).Kmat.trace } }
  let s := s.assign .CK ((rd n k s).C * (rd n k s).Kmat)
  let s := s.assign .CKCt ((rd n k s).CK * (rd n k s).Cᵀ)
  let s := s.assign .CKS ((rd n k s).CK * (rd n k s).S)
  let s := s.assign .StS ((rd n k s).Sᵀ * (rd n k s).S)
  let s := s.assign .COld (rd n k s).C
  let s := s.assign .gradC (0 : Matrix (Fin k) (Fin n) K)
  let s := s.assign .deltaGradC (0 : Matrix (Fin k) (Fin n) K)
  let s := s.assign .incrC (0 : Matrix (Fin k) (Fin n) K)
  let s := s.assign .alphaOld (rowVec (rd n k s).alpha)
  let s := s.assign .gradAlpha (rowVec fun _ : Fin k => (0 : K))
  let s := s.assign .deltaGradAlpha (rowVec fun _ : Fin k => (0 : K))
  let s := s.assign .incrAlpha (0 : Matrix (Fin k) (Fin k) K)
  let s := s.assign .SOld (rd n k s).S
  let s := s.assign .gradS (0 : Matrix (Fin n) (Fin k) K)
  let s := s.assign .deltaGradS (0 : Matrix (Fin n) (Fin k) K)
  s.assign .incrS (0 : Matrix (Fin n) (Fin k) K)

/-- Refresh `CK` and `CKCt` in new arrays, src/reor/archetypal_analysis.py lines 386-394 (and
451-459, 474-480, 561-568). -/
def refreshCK (delta : K) (s : KAAMem K) : KAAMem K :=
  let s := s.assign .CK ((rd n k s).C * (rd n k s).Kmat)
  let s := if delta > 0 then s.assign .CK ((rd n k s).diagAlpha * (rd n k s).CK) else s
  let s := s.assign .CKCt ((rd n k s).CK * (rd n k s).Cᵀ)
  if delta > 0 then s.assign .CKCt ((rd n k s).CKCt * (rd n k s).diagAlpha) else s

/-- `_evaluate_cost`, src/reor/archetypal_analysis.py lines 272-287: the products go into the arrays
of `StS`, `CK` and `CKCt` (`out=`). -/
def evaluateCost (delta : K) (s : KAAMem K) : KAAMem K × K :=
  let s := s.augment .StS ((rd n k s).Sᵀ * (rd n k s).S)
  let s := s.augment .CK ((rd n k s).C * (rd n k s).Kmat)
  let s := if delta > 0 then s.augment .CK ((rd n k s).diagAlpha * (rd n k s).CK) else s
  let s := s.augment .CKCt ((rd n k s).CK * (rd n k s).Cᵀ)
  let s := if delta > 0 then s.augment .CKCt ((rd n k s).CKCt * (rd n k s).diagAlpha) else s
  (s, ((rd n k s).StS * (rd n k s).CKCt).trace - 2 * ((rd n k s).S * (rd n k s).CK).trace +
    (rd n k s).Kmat.trace)

/-- `_update_weights_gradient`, src/reor/archetypal_analysis.py lines 325-334. -/
def updateWeightsGradient (delta : K) (s : KAAMem K) : KAAMem K :=
  let s := s.assign .gradS ((rd n k s).Kmatᵀ * ((-2 : K) • (rd n k s).Cᵀ))
  let s := if delta > 0 then s.assign .gradS ((rd n k s).gradS * (rd n k s).diagAlpha) else s
  s.augment .gradS ((rd n k s).gradS + (rd n k s).S * ((2 : K) • (rd n k s).CKCt))

/-- The full step, src/reor/archetypal_analysis.py lines 354-359. -/
def weightsFirst (s : KAAMem K) : KAAMem K × K :=
  let s := s.augment .S ((rd n k s).S + (rd n k s).incrS)
  let s := s.assign .StS ((rd n k s).Sᵀ * (rd n k s).S)
  (s, (rd n k s).cachedCost)

/-- A shorter step, src/reor/archetypal_analysis.py lines 372-377. -/
def weightsTrial (s : KAAMem K) (step : K) : KAAMem K × K :=
  let s := s.assign .S ((rd n k s).SOld + step • (rd n k s).incrS)
  let s := s.assign .StS ((rd n k s).Sᵀ * (rd n k s).S)
  (s, (rd n k s).cachedCost)

/-- `_weights_line_search`, src/reor/archetypal_analysis.py lines 337-381. -/
def weightsLineSearch (cfg : LSConfig K) (s : KAAMem K) : HPy K (KAAMem K × K) := do
  let currentCost := (rd n k s).cachedCost
  let s := s.assign .SOld (rd n k s).S
  let incrNorm := mulSum (rd n k s).incrS (rd n k s).gradS
  let r ← hLineSearch cfg (weightsFirst n k) (weightsTrial n k) s.rest.fSMem s currentCost incrNorm
  pure ({ r.state with rest := { r.state.rest with fSMem := r.mem } }, r.stepSize)

/-- First part of `_update_weights`, src/reor/archetypal_analysis.py lines 386-400. -/
def prepareWeights (delta : K) (s : KAAMem K) : KAAMem K :=
  let s := refreshCK n k delta s
  let s := updateWeightsGradient n k delta s
  let s := s.assign .incrS ((rd n k s).S - (rd n k s).alphaS • (rd n k s).gradS)
  let s := s.augment .incrS (simplexProjectRows (rd n k s).incrS)
  s.augment .incrS ((rd n k s).incrS - (rd n k s).S)

/-- Last part of `_update_weights`, src/reor/archetypal_analysis.py lines 404-416. -/
def finishWeights (cfg : LSConfig K) (delta : K) (s : KAAMem K) (stepSize : K) : KAAMem K :=
  let s := s.assign .deltaGradS (rd n k s).gradS
  let s := updateWeightsGradient n k delta s
  let s := s.assign .deltaGradS ((rd n k s).gradS - deltaGradS n k s)
  let sksk := stepSize ^ 2 * mulSum (rd n k s).incrS (rd n k s).incrS
  let beta := stepSize * mulSum (rd n k s).incrS (deltaGradS n k s)
  { s with rest := { s.rest with alphaS := nextSpgAlpha beta sksk cfg.alphaMin cfg.alphaMax } }

/-- `_update_weights`, src/reor/archetypal_analysis.py lines 383-418. -/
def updateWeights (cfg : LSConfig K) (delta : K) (s : KAAMem K) : HPy K (KAAMem K) := do
  let s := prepareWeights n k delta s
  let r ← weightsLineSearch n k cfg s
  pure (finishWeights n k cfg delta r.1 r.2)

/-- `_update_dictionary_gradient`, src/reor/archetypal_analysis.py lines 420-428. -/
def updateDictionaryGradient (delta : K) (s : KAAMem K) : KAAMem K :=
  let s := s.assign .gradC ((rd n k s).Sᵀ * ((-2 : K) • (rd n k s).Kmatᵀ))
  let s := s.augment .gradC ((rd n k s).gradC + (2 : K) • ((rd n k s).StS * (rd n k s).CK))
  if delta > 0 then s.assign .gradC ((rd n k s).diagAlpha * (rd n k s).gradC) else s

/-- The full step, src/reor/archetypal_analysis.py lines 449-462. -/
def dictionaryFirst (delta : K) (s : KAAMem K) : KAAMem K × K :=
  let s := s.augment .C ((rd n k s).C + (rd n k s).incrC)
  let s := refreshCK n k delta s
  (s, (rd n k s).cachedCost)

/-- A shorter step, src/reor/archetypal_analysis.py lines 472-483. -/
def dictionaryTrial (delta : K) (s : KAAMem K) (step : K) : KAAMem K × K :=
  let s := s.assign .C ((rd n k s).COld + step • (rd n k s).incrC)
  let s := refreshCK n k delta s
  (s, (rd n k s).cachedCost)

/-- `_dictionary_line_search`, src/reor/archetypal_analysis.py lines 430-488. -/
def dictionaryLineSearch (cfg : LSConfig K) (delta : K) (s : KAAMem K) : HPy K (KAAMem K × K) := do
  let currentCost := (rd n k s).cachedCost
  let s := s.assign .COld (rd n k s).C
  let incrNorm := mulSum (rd n k s).incrC (rd n k s).gradC
  let r ← hLineSearch cfg (dictionaryFirst n k delta) (dictionaryTrial n k delta) s.rest.fCMem s
    currentCost incrNorm
  pure ({ r.state with rest := { r.state.rest with fCMem := r.mem } }, r.stepSize)

/-- `_update_scale_factors_gradient`, src/reor/archetypal_analysis.py lines 490-500: `grad_alpha` is the
diagonal of a local array, which has no other name afterwards. -/
def updateScaleFactorsGradient (s : KAAMem K) : KAAMem K :=
  let tmp := (2 : K) • ((rd n k s).diagAlpha * (rd n k s).CKCtᵀ)
  let tmp := (rd n k s).StS * tmp
  let tmp := tmp + (-2 : K) • (rd n k s).CKSᵀ
  s.assign .gradAlpha (rowVec fun i => tmp i i)

/-- `_scale_factors_line_search`, src/reor/archetypal_analysis.py lines 502-554: works on local
arrays. -/
def scaleFactorsLineSearch (cfg : LSConfig K) (s : KAAMem K) : HPy K (KAAMem K × K) := do
  let t := rd n k s
  let d := t.diagAlpha
  let currentCost := t.scaleCost d
  let incrNorm : K := ∑ i, ∑ j, t.incrAlpha i j * t.gradAlpha j
  let trial : Matrix (Fin k) (Fin k) K → K → Matrix (Fin k) (Fin k) K × K := fun _ step =>
    (d + step • t.incrAlpha, t.scaleCost (d + step • t.incrAlpha))
  let r ← HPy.lift s.heap (lineSearch cfg trial s.rest.fAlphaMem d currentCost incrNorm)
  pure ({ s with rest := { s.rest with fAlphaMem := r.mem } }, r.stepSize)

/-- First part of what `_update_dictionary` does for `delta > 0`, src/reor/archetypal_analysis.py
lines 592-605. -/
def prepareScaleFactors (delta : K) (s : KAAMem K) : KAAMem K :=
  let d := (rd n k s).diagAlpha
  let s := s.assign .CK ((rd n k s).C * (rd n k s).Kmat)
  let s := s.assign .CKS ((rd n k s).CK * (rd n k s).S)
  let s := s.assign .CKCt ((rd n k s).CK * (rd n k s).Cᵀ)
  let s := updateScaleFactorsGradient n k s
  let s := s.assign .incrAlpha (Matrix.of fun i j =>
    d i j - (rd n k s).alphaAlpha * (rd n k s).gradAlpha j)
  let s := s.assign .incrAlpha (Matrix.of fun i j => min ((rd n k s).incrAlpha i j) (1 - delta))
  let s := s.assign .incrAlpha (Matrix.of fun i j => max ((rd n k s).incrAlpha i j) (1 + delta))
  s.augment .incrAlpha ((rd n k s).incrAlpha - d)

/-- Last part of what `_update_dictionary` does for `delta > 0`, src/reor/archetypal_analysis.py
lines 609-621. -/
def finishScaleFactors (cfg : LSConfig K) (s : KAAMem K) (stepSize : K) : KAAMem K :=
  let s := s.assign .deltaGradAlpha (rowVec (rd n k s).gradAlpha)
  let s := updateScaleFactorsGradient n k s
  let s := s.assign .deltaGradAlpha
    (rowVec fun j => (rd n k s).gradAlpha j - deltaGradAlpha n k s j)
  let sksk := stepSize ^ 2 * mulSum (rd n k s).incrAlpha (rd n k s).incrAlpha
  let beta := stepSize * ∑ i, ∑ j, (rd n k s).incrAlpha i j * deltaGradAlpha n k s j
  { s with rest := { s.rest with alphaAlpha := nextSpgAlpha beta sksk cfg.alphaMin cfg.alphaMax } }

/-- The part of `_update_dictionary` executed for `delta > 0`, src/reor/archetypal_analysis.py
lines 592-621. -/
def updateScaleFactors (cfg : LSConfig K) (delta : K) (s : KAAMem K) : HPy K (KAAMem K) := do
  let s := prepareScaleFactors n k delta s
  let r ← scaleFactorsLineSearch n k cfg s
  pure (finishScaleFactors n k cfg r.1 r.2)

/-- First part of `_update_dictionary`, src/reor/archetypal_analysis.py lines 559-574. -/
def prepareDictionary (delta : K) (s : KAAMem K) : KAAMem K :=
  let s := s.assign .StS ((rd n k s).Sᵀ * (rd n k s).S)
  let s := refreshCK n k delta s
  let s := updateDictionaryGradient n k delta s
  let s := s.assign .incrC ((rd n k s).C - (rd n k s).alphaC • (rd n k s).gradC)
  let s := s.augment .incrC (simplexProjectRows (rd n k s).incrC)
  s.augment .incrC ((rd n k s).incrC - (rd n k s).C)

/-- The part of `_update_dictionary` after the line search and before the scale factors,
src/reor/archetypal_analysis.py lines 578-590. -/
def finishDictionary (cfg : LSConfig K) (delta : K) (s : KAAMem K) (stepSize : K) : KAAMem K :=
  let s := s.assign .deltaGradC (rd n k s).gradC
  let s := updateDictionaryGradient n k delta s
  let s := s.assign .deltaGradC ((rd n k s).gradC - deltaGradC n k s)
  let sksk := stepSize ^ 2 * mulSum (rd n k s).incrC (rd n k s).incrC
  let beta := stepSize * mulSum (rd n k s).incrC (deltaGradC n k s)
  { s with rest := { s.rest with alphaC := nextSpgAlpha beta sksk cfg.alphaMin cfg.alphaMax } }

/-- `_update_dictionary` up to the scale factors, src/reor/archetypal_analysis.py lines 559-590. -/
def updateDictionaryCore (cfg : LSConfig K) (delta : K) (s : KAAMem K) : HPy K (KAAMem K) := do
  let s := prepareDictionary n k delta s
  let r ← dictionaryLineSearch n k cfg delta s
  pure (finishDictionary n k cfg delta r.1 r.2)

/-- `_update_dictionary`, src/reor/archetypal_analysis.py lines 556-623. -/
def updateDictionary (cfg : LSConfig K) (delta : K) (s : KAAMem K) : HPy K (KAAMem K) := do
  let s ← updateDictionaryCore n k cfg delta s
  if delta > 0 then updateScaleFactors n k cfg delta s else pure s

/-- `_iterate`, src/reor/archetypal_analysis.py lines 625-671. -/
def iterate (cfg : LSConfig K) (delta : K) (require : Bool) (tolerance : K) (maxIterations : ℕ)
    (updateDict updateWts : Bool) (s : KAAMem K) : HPy K (IterResult (KAAMem K) K) :=
  hIterate (evaluateCost n k delta) require tolerance maxIterations
    ((if updateDict then [updateDictionary n k cfg delta] else []) ++
     (if updateWts then [updateWeights n k cfg delta] else [])) s

end KAAMem

/-! ### The estimator -/

/-- A `KernelAA` object between calls: like `KAAObj`, with the addresses of its arrays. -/
structure KAAHObj (R : Rng K) where
  nComponents : NumArg K
  delta : K
  init : Option String
  tolerance : NumArg K
  maxIterations : NumArg K
  randomState : RandomArg R
  ls : LSConfig K
  require : Bool
  Kmat : Option ℕ := none
  S : Option ℕ := none
  C : Option ℕ := none
  nComponents_ : Option ℕ := none
  cost_ : Option K := none
  dictionary_ : Option ℕ := none
  nIter_ : Option ℕ := none

/-- The object with the values of its arrays. -/
def KAAHObj.deref {R : Rng K} (obj : KAAHObj R) (h : Heap K) : KAAObj R :=
  { nComponents := obj.nComponents, delta := obj.delta, init := obj.init
    tolerance := obj.tolerance, maxIterations := obj.maxIterations, randomState := obj.randomState
    ls := obj.ls, require := obj.require
    Kmat := obj.Kmat.map h.cell
    S := obj.S.map h.cell
    C := obj.C.map h.cell
    nComponents_ := obj.nComponents_, cost_ := obj.cost_
    dictionary_ := obj.dictionary_.map h.cell
    nIter_ := obj.nIter_ }

/-- The starting point chosen by `_kernel_aa`, src/reor/archetypal_analysis.py lines 699-720: the
caller's arrays, or new ones. -/
def hKaaStart (env : Env K) (h : Heap K) {n : ℕ} (kernel : Matrix (Fin n) (Fin n) K) (k : ℕ)
    (init : Option String) (dictionary weights : Option ℕ)
    (updateDictionary updateWeights : Bool) (kw : InitKwargs) (g : env.rng.G) :
    HPy K ((Heap K × ℕ × ℕ) × env.rng.G) :=
  if init = some "custom" then do
    let _ ← HPy.lift h (kaaCheckInitWeights (weights.map h.cell) n k)
    let _ ← HPy.lift h (kaaCheckInitDictionary (dictionary.map h.cell) k n)
    pure ((h, argAddr dictionary, argAddr weights), g)
  else if updateDictionary = false ∧ updateWeights = true then do
    let _ ← HPy.lift h (kaaCheckInitDictionary (dictionary.map h.cell) k n)
    let w ← HPy.lift h (kaaInitWeights env n k init kw g)
    pure ((h.alloc (Arr2.of w.1), argAddr dictionary, h.next), w.2)
  else if updateDictionary = true ∧ updateWeights = false then do
    let _ ← HPy.lift h (kaaCheckInitWeights (weights.map h.cell) n k)
    let d ← HPy.lift h (kaaInitDictionary env kernel k init kw g)
    pure ((h.alloc (Arr2.of d.1), h.next, argAddr weights), d.2)
  else do
    let r ← HPy.lift h (kaaInitBoth env kernel k init kw g)
    pure (((h.alloc (Arr2.of r.1.1)).alloc (Arr2.of r.1.2), h.next, h.next + 1), r.2)

/-- `_kernel_aa`, src/reor/archetypal_analysis.py lines 673-733.  `kernel`, `dictionary`, `weights`
are the addresses of the arguments. -/
def hKernelAA (env : Env K) (h : Heap K) (obj : KAAHObj env.rng) (kernel : ℕ)
    (dictionary weights : Option ℕ) (updateDictionary updateWeights : Bool) (kw : InitKwargs) :
    HPy K (Heap K × KAAHObj env.rng × FitInfo K) :=
  let n := (h.cell kernel).rows
  if hc : (h.cell kernel).cols = (h.cell kernel).rows then do
    let obj := { obj with nComponents := defaultComponents obj.nComponents n }
    let p ← HPy.lift h (checkParams obj.nComponents obj.maxIterations obj.tolerance)
    let start ← hKaaStart env h ((h.cell kernel).cast rfl hc) p.1 obj.init dictionary weights
      updateDictionary updateWeights kw obj.randomState.start
    let s := KAAMem.initializeWorkspace n p.1 obj.ls start.1.1 kernel start.1.2.2 start.1.2.1
    let r ← KAAMem.iterate n p.1 obj.ls obj.delta obj.require p.2.2 p.2.1 updateDictionary
      updateWeights s
    let warned := decide (r.nIter = p.2.1 ∧ p.2.2 > 0)
    pure (r.state.heap,
      { obj with
        randomState := obj.randomState.after start.2
        Kmat := some (r.state.addr .Kmat)
        S := some (r.state.addr .S)
        C := some (r.state.addr .C) },
      { cost := r.cost, nIter := r.nIter, warned := warned, trace := r.trace })
  else HPy.raise .valueError h

/-- The attributes set by `fit_transform` and the returned weights, src/reor/archetypal_analysis.py
lines 757-767: `self.dictionary_ = self.C` is a second name, and `self.S` itself is returned. -/
def hKaaFinish {R : Rng K} (r : Heap K × KAAHObj R × FitInfo K) :
    Heap K × KAAHObj R × Option ℕ × FitInfo K :=
  let obj := { r.2.1 with
    nComponents_ := r.2.1.C.map (fun a => (r.1.cell a).rows)
    cost_ := some r.2.2.cost
    dictionary_ := r.2.1.C
    nIter_ := some r.2.2.nIter }
  (r.1, obj, obj.S, r.2.2)

/-- `fit_transform`, src/reor/archetypal_analysis.py lines 735-767. -/
def hKaaFitTransform (env : Env K) (h : Heap K) (obj : KAAHObj env.rng) (kernel : ℕ)
    (dictionary weights : Option ℕ) (kw : InitKwargs)
    (updateDictionary updateWeights : Bool := true) :
    HPy K (Heap K × KAAHObj env.rng × Option ℕ × FitInfo K) := do
  let r ← hKernelAA env h obj kernel dictionary weights updateDictionary updateWeights kw
  pure (hKaaFinish r)

/-- `transform`, src/reor/archetypal_analysis.py lines 784-803. -/
def hKaaTransform (env : Env K) (h : Heap K) (obj : KAAHObj env.rng) (kernel : ℕ) :
    HPy K (Heap K × KAAHObj env.rng × Option ℕ × FitInfo K) := do
  let r ← hKernelAA env h obj kernel obj.C none false true {}
  pure (r.1, r.2.1, r.2.1.S, r.2.2)

/-- The kernel used by `ArchetypalAnalysis`, src/reor/archetypal_analysis.py lines 935-938 and 965-968:
the new array `data.dot(data.T)`, or what the caller's function returns (which may be an array the
caller keeps). -/
def hAaKernel (kernelFunc : Option (Heap K → ℕ → HPy K (Heap K × ℕ))) (h : Heap K) (data : ℕ) :
    HPy K (Heap K × ℕ) :=
  match kernelFunc with
  | none => HPy.ok (h.alloc (Arr2.of ((h.cell data).val * (h.cell data).valᵀ)), h.next)
  | some f => f h data

/-- `ArchetypalAnalysis.fit_transform`, src/reor/archetypal_analysis.py lines 913-949. -/
def hAaFitTransform (env : Env K) (h : Heap K) (obj : KAAHObj env.rng)
    (kernelFunc : Option (Heap K → ℕ → HPy K (Heap K × ℕ))) (data : ℕ)
    (dictionary weights : Option ℕ) (kw : InitKwargs)
    (updateDictionary updateWeights : Bool := true) :
    HPy K (Heap K × KAAHObj env.rng × Option ℕ × FitInfo K) := do
  let kernel ← hAaKernel kernelFunc h data
  let r ← hKernelAA env kernel.1 obj kernel.2 dictionary weights updateDictionary updateWeights kw
  pure (hKaaFinish r)

/-- `ArchetypalAnalysis.transform`, src/reor/archetypal_analysis.py lines 951-973. -/
def hAaTransform (env : Env K) (h : Heap K) (obj : KAAHObj env.rng)
    (kernelFunc : Option (Heap K → ℕ → HPy K (Heap K × ℕ))) (data : ℕ) :
    HPy K (Heap K × KAAHObj env.rng × Option ℕ × FitInfo K) := do
  let kernel ← hAaKernel kernelFunc h data
  let r ← hKernelAA env kernel.1 obj kernel.2 obj.C none false true {}
  pure (r.1, r.2.1, r.2.1.S, r.2.2)

end Reor
