import Verif.Model.GPNH
import Verif.Model.KernelAA
import Verif.Model.MTD
import Verif.Model.GPNHCROM
import Verif.Model.FEMBV

/-!
What a failed call leaves behind.  The other model files return an exception without the object it
was raised on; here the same functions are written once more, recording at each exception the state
of the object (of the solver, of the random generator) at that point.

As everywhere in the model `PyErr.nonFinite` is not an exception; the state recorded with it has no
meaning.
-/

namespace Reor

open scoped BigOperators Matrix

/-- Outcome of code that works on an object of type `σ`; an exception leaves the object as it is at
that point. -/
inductive Run (σ α : Type) where
  | ok (a : α)
  | raise (e : PyErr) (s : σ)
  | diverge

namespace Run

variable {σ τ α β : Type}

/-- Sequencing. -/
def bind (x : Run σ α) (f : α → Run σ β) : Run σ β :=
  match x with
  | ok a => f a
  | raise e s => raise e s
  | diverge => diverge

instance : Monad (Run σ) where
  pure := ok
  bind := bind

/-- Code that does not change the object `s` before it raises an exception. -/
def lift (s : σ) : Py α → Run σ α
  | .ok a => ok a
  | .raise e => raise e s
  | .diverge => diverge

/-- Code that works on a part of the object: `f` puts the part back. -/
def within (f : σ → τ) : Run σ α → Run τ α
  | ok a => ok a
  | raise e s => raise e (f s)
  | diverge => diverge

/-- The outcome without the object. -/
def toPy : Run σ α → Py α
  | ok a => .ok a
  | raise e _ => .raise e
  | diverge => .diverge

end Run

variable {K : Type} [Field K] [LinearOrder K]

/-! ### The loop -/

/-- One iteration, e.g. src/reor/gpnh_convex_coding.py lines 524-536. -/
def runPhasesF {σ : Type} (evalCost : σ → σ × K) (require : Bool) (oldCost : K) :
    List (σ → Run σ σ) → σ → K → Run σ (σ × K)
  | [], s, newCost => Run.ok (s, newCost)
  | p :: ps, s, _ => do
    let s ← p s
    let r := evalCost s
    if r.2 > oldCost ∧ require = true then Run.raise .runtimeError r.1
    else runPhasesF evalCost require oldCost ps r.1 r.2

/-- The loop of `_iterate`, e.g. src/reor/gpnh_convex_coding.py lines 519-552. -/
def iterateLoopF {σ : Type} (evalCost : σ → σ × K) (require : Bool) (tolerance : K)
    (phases : List (σ → Run σ σ)) :
    List ℕ → σ → K → Option ℕ → List K → Run σ (IterResult σ K)
  | [], s, newCost, last, trace =>
    match last with
    | none => Run.raise .unboundLocalError s
    | some n => Run.ok ⟨s, newCost, n, trace⟩
  | i :: is, s, newCost, _, trace => do
    let oldCost := newCost
    let r ← runPhasesF evalCost require oldCost phases s newCost
    let costDelta := r.2 - oldCost
    if |costDelta| < tolerance then Run.ok ⟨r.1, r.2, i, trace ++ [r.2]⟩
    else iterateLoopF evalCost require tolerance phases is r.1 r.2 (some i) (trace ++ [r.2])

/-- `_iterate`, e.g. src/reor/gpnh_convex_coding.py lines 516-552. -/
def iterateF {σ : Type} (evalCost : σ → σ × K) (require : Bool) (tolerance : K) (maxIterations : ℕ)
    (phases : List (σ → Run σ σ)) (s : σ) : Run σ (IterResult σ K) :=
  let r := evalCost s
  iterateLoopF evalCost require tolerance phases (List.range maxIterations) r.1 r.2 none []

/-! ### The choice of samples by FurthestSum -/

/-- `furthestSumRows` with the generator: the start index is drawn before anything can fail but the
draw itself, src/reor/gpnh_convex_coding.py lines 56-70, src/reor/archetypal_analysis.py
lines 66-80. -/
def furthestSumRowsF (env : Env K) {n : ℕ} (kernel : Matrix (Fin n) (Fin n) K) (k : ℕ)
    (kw : InitKwargs) (g : env.rng.G) : Run env.rng.G ((Fin k → Fin n) × env.rng.G) := do
  let start ← Run.lift g (drawStart env n kw g)
  let D ← Run.lift start.2 (dissimilarities env.sqrt kernel)
  let selected ← Run.lift start.2
    (furthestSum D k start.1 (kw.exclude.getD []) (kw.nExtraSteps.getD 10))
  let rows ← Run.lift start.2 (rowIndices n k selected)
  pure (rows, start.2)

/-! ### GPNH convex coding -/

/-- `_initialize_gpnh_convex_coding_dictionary`, src/reor/gpnh_convex_coding.py lines 90-111.  The
random dictionary raises nothing; an unknown `init` is rejected before anything is drawn. -/
def gpnhInitDictionaryF (env : Env K) {T D : ℕ} (data : Matrix (Fin T) (Fin D) K) (k : ℕ)
    (init : Option String) (kw : InitKwargs) (g : env.rng.G) :
    Run env.rng.G (Matrix (Fin k) (Fin D) K × env.rng.G) :=
  let init := init.getD "random"
  if init = "random" then Run.lift g (gpnhInitDictionaryRandom env data k g)
  else if init = "furthest_sum" then do
    let r ← furthestSumRowsF env (data * dataᵀ) k kw g
    pure ((fun i => data (r.1 i)), r.2)
  else Run.raise .valueError g

/-- `_initialize_gpnh_convex_coding`, src/reor/gpnh_convex_coding.py lines 128-140; the initialiser of
the weights (lines 114-125) raises only before it draws. -/
def gpnhInitBothF (env : Env K) {T D : ℕ} (data : Matrix (Fin T) (Fin D) K) (k : ℕ)
    (init : Option String) (kw : InitKwargs) (g : env.rng.G) :
    Run env.rng.G ((Matrix (Fin k) (Fin D) K × Matrix (Fin T) (Fin k) K) × env.rng.G) := do
  let init := some (init.getD "random")
  let d ← gpnhInitDictionaryF env data k init kw g
  let w ← Run.lift d.2 (gpnhInitWeights env T k init {} d.2)
  pure ((d.1, w.1), w.2)

/-- The starting point, src/reor/gpnh_convex_coding.py lines 574-594. -/
def gpnhStartF (env : Env K) {T D : ℕ} (data : Matrix (Fin T) (Fin D) K) (k : ℕ)
    (init : Option String) (dictionary weights : Option (Arr2 K))
    (updateDictionary updateWeights : Bool) (kw : InitKwargs) (g : env.rng.G) :
    Run env.rng.G ((Matrix (Fin k) (Fin D) K × Matrix (Fin T) (Fin k) K) × env.rng.G) :=
  if init = some "custom" then do
    let w ← Run.lift g (gpnhCheckInitWeights weights T k)
    let d ← Run.lift g (gpnhCheckInitDictionary dictionary k D)
    pure ((d, w), g)
  else if updateDictionary = false ∧ updateWeights = true then do
    let d ← Run.lift g (gpnhCheckInitDictionary dictionary k D)
    let w ← Run.lift g (gpnhInitWeights env T k init kw g)
    pure ((d, w.1), w.2)
  else if updateDictionary = true ∧ updateWeights = false then do
    let w ← Run.lift g (gpnhCheckInitWeights weights T k)
    let d ← gpnhInitDictionaryF env data k init kw g
    pure ((d.1, w), d.2)
  else gpnhInitBothF env data k init kw g

namespace GPNHState

variable {T D k : ℕ}

/-- `_update_dictionary`, src/reor/gpnh_convex_coding.py lines 391-419.  The only exception is that of
`popleft` on an empty deque in the line search (line 357), when the dictionary has not moved yet. -/
def updateDictionaryF (cfg : LSConfig K) (eps : K) (s : GPNHState T D k K) :
    Run (GPNHState T D k K) (GPNHState T D k K) :=
  let s' := s.prepareDictionary eps
  Run.lift { s' with SOld := s'.S } (s.updateDictionary cfg eps)

/-- `_update_weights`, src/reor/gpnh_convex_coding.py lines 476-504; as above (line 444). -/
def updateWeightsF (cfg : LSConfig K) (eps : K) (s : GPNHState T D k K) :
    Run (GPNHState T D k K) (GPNHState T D k K) :=
  let s' := s.prepareWeights
  Run.lift { s' with GammaOld := s'.Gamma } (s.updateWeights cfg eps)

end GPNHState

/-- `_iterate`, src/reor/gpnh_convex_coding.py lines 506-552. -/
def gpnhIterateF {T D k : ℕ} (cfg : LSConfig K) (eps : K) (require : Bool) (tolerance : K)
    (maxIterations : ℕ) (updateDictionary updateWeights : Bool) (s : GPNHState T D k K) :
    Run (GPNHState T D k K) (IterResult (GPNHState T D k K) K) :=
  if D * T = 0 then Run.raise .zeroDivisionError s
  else
    iterateF (fun s => (s, s.evaluateCost eps)) require tolerance maxIterations
      ((if updateDictionary then [GPNHState.updateDictionaryF cfg eps] else []) ++
       (if updateWeights then [GPNHState.updateWeightsF cfg eps] else [])) s

/-- The attributes set during a fit, put into the object. -/
def GPNHObj.withState {R : Rng K} {T D k : ℕ} (obj : GPNHObj R) (s : GPNHState T D k K) :
    GPNHObj R :=
  { obj with Gamma := some (Arr2.of s.Gamma), S := some (Arr2.of s.S) }

/-- `_gpnh_convex_coding`, src/reor/gpnh_convex_coding.py lines 554-610. -/
def gpnhConvexCodingF (env : Env K) (obj : GPNHObj env.rng) (data : Arr2 K)
    (dictionary weights : Option (Arr2 K)) (updateDictionary updateWeights : Bool)
    (kw : InitKwargs) : Run (GPNHObj env.rng) (GPNHObj env.rng × FitInfo K) := do
  let obj := { obj with nComponents := defaultComponents obj.nComponents data.cols }
  let p ← Run.lift obj (checkParams obj.nComponents obj.maxIterations obj.tolerance)
  let start ← Run.within (fun g => { obj with randomState := g })
    (gpnhStartF env data.val p.1 obj.init dictionary weights updateDictionary updateWeights kw
      obj.randomState)
  let obj := { obj with randomState := start.2 }
  let s := GPNHState.initializeWorkspace obj.ls data.val start.1.2 start.1.1
  let r ← Run.within obj.withState
    (gpnhIterateF obj.ls obj.epsilonStates obj.require p.2.2 p.2.1 updateDictionary updateWeights s)
  let warned := decide (r.nIter = p.2.1 ∧ p.2.2 > 0)
  pure (obj.withState r.state,
    { cost := r.cost, nIter := r.nIter, warned := warned, trace := r.trace })

/-- `fit_transform`, src/reor/gpnh_convex_coding.py lines 612-644. -/
def gpnhFitTransformF (env : Env K) (obj : GPNHObj env.rng) (data : Arr2 K)
    (dictionary weights : Option (Arr2 K)) (kw : InitKwargs)
    (updateDictionary updateWeights : Bool := true) :
    Run (GPNHObj env.rng) (GPNHObj env.rng × Option (Arr2 K) × FitInfo K) := do
  let r ← gpnhConvexCodingF env obj data dictionary weights updateDictionary updateWeights kw
  let obj := { r.1 with
    nComponents_ := r.1.S.map (fun S => S.rows)
    cost_ := some r.2.cost
    dictionary_ := r.1.S
    nIter_ := some r.2.nIter }
  pure (obj, obj.Gamma, r.2)

/-- `transform`, src/reor/gpnh_convex_coding.py lines 661-680. -/
def gpnhTransformF (env : Env K) (obj : GPNHObj env.rng) (data : Arr2 K) :
    Run (GPNHObj env.rng) (GPNHObj env.rng × Option (Arr2 K) × FitInfo K) := do
  let r ← gpnhConvexCodingF env obj data obj.S none false true {}
  pure (r.1, r.1.Gamma, r.2)

/-! ### Kernel archetypal analysis -/

/-- `_initialize_kernel_aa_dictionary`, src/reor/archetypal_analysis.py lines 90-111. -/
def kaaInitDictionaryF (env : Env K) {n : ℕ} (kernel : Matrix (Fin n) (Fin n) K) (k : ℕ)
    (init : Option String) (kw : InitKwargs) (g : env.rng.G) :
    Run env.rng.G (Matrix (Fin k) (Fin n) K × env.rng.G) :=
  let init := init.getD "furthest_sum"
  if init = "furthest_sum" then do
    let r ← furthestSumRowsF env kernel k kw g
    pure ((fun i j => if j = r.1 i then 1 else 0), r.2)
  else if init = "random" then Run.lift g (kaaInitDictionaryRandom env n k g)
  else Run.raise .valueError g

/-- `_initialize_kernel_aa`, src/reor/archetypal_analysis.py lines 128-141: the keyword arguments are
rejected by the initialiser of the weights (lines 114-125), after the dictionary has been drawn. -/
def kaaInitBothF (env : Env K) {n : ℕ} (kernel : Matrix (Fin n) (Fin n) K) (k : ℕ)
    (init : Option String) (kw : InitKwargs) (g : env.rng.G) :
    Run env.rng.G ((Matrix (Fin k) (Fin n) K × Matrix (Fin n) (Fin k) K) × env.rng.G) := do
  let init := some (init.getD "furthest_sum")
  let d ← kaaInitDictionaryF env kernel k init kw g
  let w ← Run.lift d.2 (kaaInitWeights env n k init kw d.2)
  pure ((d.1, w.1), w.2)

/-- The starting point, src/reor/archetypal_analysis.py lines 699-720. -/
def kaaStartF (env : Env K) {n : ℕ} (kernel : Matrix (Fin n) (Fin n) K) (k : ℕ)
    (init : Option String) (dictionary weights : Option (Arr2 K))
    (updateDictionary updateWeights : Bool) (kw : InitKwargs) (g : env.rng.G) :
    Run env.rng.G ((Matrix (Fin k) (Fin n) K × Matrix (Fin n) (Fin k) K) × env.rng.G) :=
  if init = some "custom" then do
    let w ← Run.lift g (kaaCheckInitWeights weights n k)
    let d ← Run.lift g (kaaCheckInitDictionary dictionary k n)
    pure ((d, w), g)
  else if updateDictionary = false ∧ updateWeights = true then do
    let d ← Run.lift g (kaaCheckInitDictionary dictionary k n)
    let w ← Run.lift g (kaaInitWeights env n k init kw g)
    pure ((d, w.1), w.2)
  else if updateDictionary = true ∧ updateWeights = false then do
    let w ← Run.lift g (kaaCheckInitWeights weights n k)
    let d ← kaaInitDictionaryF env kernel k init kw g
    pure ((d.1, w), d.2)
  else kaaInitBothF env kernel k init kw g

namespace KAAState

variable {n k : ℕ}

/-- `_update_weights`, src/reor/archetypal_analysis.py lines 383-418; the only exception is that of
`popleft` on an empty deque (line 345). -/
def updateWeightsF (cfg : LSConfig K) (delta : K) (s : KAAState n k K) :
    Run (KAAState n k K) (KAAState n k K) :=
  let s' := s.prepareWeights delta
  Run.lift { s' with SOld := s'.S } (s.updateWeights cfg delta)

/-- `_update_dictionary`, src/reor/archetypal_analysis.py lines 556-623; the deque of the dictionary
(line 438) fails before the dictionary moves, that of the scale factors (line 516) after. -/
def updateDictionaryF (cfg : LSConfig K) (delta : K) (s : KAAState n k K) :
    Run (KAAState n k K) (KAAState n k K) := do
  let s' := s.prepareDictionary delta
  let s ← Run.lift { s' with COld := s'.C } (s.updateDictionaryCore cfg delta)
  if delta > 0 then Run.lift (s.prepareScaleFactors delta) (s.updateScaleFactors cfg delta)
  else pure s

end KAAState

/-- `_iterate`, src/reor/archetypal_analysis.py lines 625-671. -/
def kaaIterateF {n k : ℕ} (cfg : LSConfig K) (delta : K) (require : Bool) (tolerance : K)
    (maxIterations : ℕ) (updateDictionary updateWeights : Bool) (s : KAAState n k K) :
    Run (KAAState n k K) (IterResult (KAAState n k K) K) :=
  iterateF (KAAState.evaluateCost delta) require tolerance maxIterations
    ((if updateDictionary then [KAAState.updateDictionaryF cfg delta] else []) ++
     (if updateWeights then [KAAState.updateWeightsF cfg delta] else [])) s

/-- The attributes set during a fit, put into the object. -/
def KAAObj.withState {R : Rng K} {n k : ℕ} (obj : KAAObj R) (kernel : Matrix (Fin n) (Fin n) K)
    (s : KAAState n k K) : KAAObj R :=
  { obj with
    Kmat := some (Arr2.of kernel), S := some (Arr2.of s.S), C := some (Arr2.of s.C) }

/-- `_kernel_aa` after the shape check, src/reor/archetypal_analysis.py lines 684-733. -/
def kernelAASquareF (env : Env K) (obj : KAAObj env.rng) {n : ℕ} (kernel : Matrix (Fin n) (Fin n) K)
    (dictionary weights : Option (Arr2 K)) (updateDictionary updateWeights : Bool)
    (kw : InitKwargs) : Run (KAAObj env.rng) (KAAObj env.rng × FitInfo K) := do
  let obj := { obj with nComponents := defaultComponents obj.nComponents n }
  let p ← Run.lift obj (checkParams obj.nComponents obj.maxIterations obj.tolerance)
  let start ← Run.within (fun g => { obj with randomState := obj.randomState.after g })
    (kaaStartF env kernel p.1 obj.init dictionary weights updateDictionary updateWeights kw
      obj.randomState.start)
  let obj := { obj with randomState := obj.randomState.after start.2 }
  let s := KAAState.initializeWorkspace obj.ls kernel start.1.2 start.1.1
  let r ← Run.within (obj.withState kernel)
    (kaaIterateF obj.ls obj.delta obj.require p.2.2 p.2.1 updateDictionary updateWeights s)
  let warned := decide (r.nIter = p.2.1 ∧ p.2.2 > 0)
  pure (obj.withState kernel r.state,
    { cost := r.cost, nIter := r.nIter, warned := warned, trace := r.trace })

/-- `_kernel_aa`, src/reor/archetypal_analysis.py lines 673-733. -/
def kernelAAF (env : Env K) (obj : KAAObj env.rng) (kernel : Arr2 K)
    (dictionary weights : Option (Arr2 K)) (updateDictionary updateWeights : Bool)
    (kw : InitKwargs) : Run (KAAObj env.rng) (KAAObj env.rng × FitInfo K) :=
  if h : kernel.cols = kernel.rows then
    kernelAASquareF env obj (kernel.cast rfl h) dictionary weights updateDictionary updateWeights kw
  else Run.raise .valueError obj

/-- `fit_transform`, src/reor/archetypal_analysis.py lines 735-767. -/
def kaaFitTransformF (env : Env K) (obj : KAAObj env.rng) (kernel : Arr2 K)
    (dictionary weights : Option (Arr2 K)) (kw : InitKwargs)
    (updateDictionary updateWeights : Bool := true) :
    Run (KAAObj env.rng) (KAAObj env.rng × Option (Arr2 K) × FitInfo K) := do
  let r ← kernelAAF env obj kernel dictionary weights updateDictionary updateWeights kw
  pure (kaaFinish r)

/-- `transform`, src/reor/archetypal_analysis.py lines 784-803. -/
def kaaTransformF (env : Env K) (obj : KAAObj env.rng) (kernel : Arr2 K) :
    Run (KAAObj env.rng) (KAAObj env.rng × Option (Arr2 K) × FitInfo K) := do
  let r ← kernelAAF env obj kernel obj.C none false true {}
  pure (r.1, r.1.S, r.2)

/-! ### MTD convex coding -/

/-- The dictionary of the starting point, src/reor/mtd_convex_coding.py lines 792-798. -/
def mtdStartDictionaryF (env : Env K) {T D : ℕ} (data : Matrix (Fin T) (Fin D) K) (k : ℕ)
    (init : Option String) (args : MTDArgs K) (fl : MTDFlags) (kw : InitKwargs) (g : env.rng.G) :
    Run env.rng.G (Matrix (Fin k) (Fin D) K × env.rng.G) :=
  if fl.updateDictionary then gpnhInitDictionaryF env data k init kw g
  else do
    let d ← Run.lift g (mtdCheckInitDictionary args.dictionary k D)
    pure (d, g)

/-- The starting point, src/reor/mtd_convex_coding.py lines 780-819.  The initialisers of weights
and parameters raise only before they draw. -/
def mtdStartF (env : Env K) {T D : ℕ} (data : Matrix (Fin T) (Fin D) K) (k p : ℕ)
    (init : Option String) (args : MTDArgs K) (fl : MTDFlags) (kw : InitKwargs) (g : env.rng.G) :
    Run env.rng.G (MTDPoint T D k p K × env.rng.G) :=
  if init = some "custom" then Run.lift g (mtdStart env data k p init args fl kw g)
  else do
    let d ← mtdStartDictionaryF env data k init args fl kw g
    let w ← Run.lift d.2 (mtdStartWeights env T k init args fl kw d.2)
    let a ← Run.lift w.2 (mtdStartParameters env k p init args fl kw w.2)
    pure ((d.1, w.1, a.1.1, a.1.2), a.2)

namespace MTDState

variable {T D k p : ℕ}

/-- `_update_dictionary`, src/reor/mtd_convex_coding.py lines 450-478; the only exception is that of
`popleft` on an empty deque (line 416). -/
def updateDictionaryF (c : MTDConfig p K) (s : MTDState T D k p K) :
    Run (MTDState T D k p K) (MTDState T D k p K) :=
  let s' := s.prepareDictionary c
  Run.lift { s' with SOld := s'.S } (s.updateDictionary c)

/-- `_update_weights`, src/reor/mtd_convex_coding.py lines 553-581; as above (line 519). -/
def updateWeightsF (c : MTDConfig p K) (s : MTDState T D k p K) :
    Run (MTDState T D k p K) (MTDState T D k p K) :=
  let s' := s.prepareWeights c
  Run.lift { s' with GammaOld := s'.Gamma } (s.updateWeights c)

/-- `_update_parameters`, src/reor/mtd_convex_coding.py lines 654-700; as above (line 613). -/
def updateParametersF (c : MTDConfig p K) (s : MTDState T D k p K) :
    Run (MTDState T D k p K) (MTDState T D k p K) :=
  let s' := s.prepareParameters c
  Run.lift
    { s' with orderWeightsOld := s'.orderWeights, transitionMatricesOld := s'.transitionMatrices }
    (s.updateParameters c)

end MTDState

/-- `_iterate`, src/reor/mtd_convex_coding.py lines 702-756. -/
def mtdIterateF {T D k p : ℕ} (c : MTDConfig p K) (require : Bool) (tolerance : K)
    (maxIterations : ℕ) (updateDictionary updateWeights updateParameters : Bool)
    (s : MTDState T D k p K) : Run (MTDState T D k p K) (IterResult (MTDState T D k p K) K) :=
  if D * T = 0 then Run.raise .zeroDivisionError s
  else if k ≠ 1 ∧ T = c.maxLag then Run.raise .nonFinite s
  else
    iterateF (fun s => (s, s.evaluateCost c)) require tolerance maxIterations
      ((if updateDictionary then [MTDState.updateDictionaryF c] else []) ++
       (if updateWeights then [MTDState.updateWeightsF c] else []) ++
       (if updateParameters then [MTDState.updateParametersF c] else [])) s

/-- `_initialize_workspace` and `_iterate`, src/reor/mtd_convex_coding.py lines 827-832; the arrays of
the starting point are attributes already (lines 821-825). -/
def mtdSolveF {T D k p : ℕ} (c : MTDConfig p K) (require : Bool) (tolerance : K) (maxIterations : ℕ)
    (fl : MTDFlags) (X : Matrix (Fin T) (Fin D) K) (pt : MTDPoint T D k p K) :
    Run (MTDState T D k p K) (IterResult (MTDState T D k p K) K) :=
  let s := MTDState.initializeWorkspace c X pt.2.1 pt.1 pt.2.2.1 pt.2.2.2
  if p = 0 then Run.raise .valueError s
  else
    mtdIterateF c require tolerance maxIterations fl.updateDictionary fl.updateWeights
      fl.updateParameters s

/-- The attributes set during a fit, put into the object. -/
def MTDObj.withState {R : Rng K} {T D k p : ℕ} (obj : MTDObj R p) (s : MTDState T D k p K) :
    MTDObj R p :=
  { obj with
    vars := some
      { T := T, D := D, k := k
        Gamma := s.Gamma
        S := s.S
        orderWeights := s.orderWeights
        transitionMatrices := s.transitionMatrices } }

/-- `_mtd_convex_coding`, src/reor/mtd_convex_coding.py lines 758-838. -/
def mtdConvexCodingF (env : Env K) {p : ℕ} (obj : MTDObj env.rng p) (data : Arr2 K)
    (args : MTDArgs K) (fl : MTDFlags) (kw : InitKwargs) :
    Run (MTDObj env.rng p) (MTDObj env.rng p × FitInfo K) := do
  let obj := { obj with nComponents := defaultComponents obj.nComponents data.cols }
  let q ← Run.lift obj (checkParams obj.nComponents obj.maxIterations obj.tolerance)
  let start ← Run.within (fun g => { obj with randomState := g })
    (mtdStartF env data.val q.1 p obj.init args fl kw obj.randomState)
  let obj := { obj with randomState := start.2 }
  let r ← Run.within obj.withState
    (mtdSolveF obj.config obj.require q.2.2 q.2.1 fl data.val start.1)
  let warned := decide (r.nIter = q.2.1 ∧ q.2.2 > 0)
  pure (obj.withState r.state,
    { cost := r.cost, nIter := r.nIter, warned := warned, trace := r.trace })

/-- `fit_transform`, src/reor/mtd_convex_coding.py lines 840-872. -/
def mtdFitTransformF (env : Env K) {p : ℕ} (obj : MTDObj env.rng p) (data : Arr2 K)
    (args : MTDArgs K) (fl : MTDFlags) (kw : InitKwargs) :
    Run (MTDObj env.rng p) (MTDObj env.rng p × Option (Arr2 K) × FitInfo K) := do
  let r ← mtdConvexCodingF env obj data args fl kw
  let obj := { r.1 with
    nComponents_ := r.1.vars.map (fun v => v.k)
    cost_ := some r.2.cost
    dictionary_ := r.1.vars.map MTDVars.SArr
    nIter_ := some r.2.nIter }
  pure (obj, obj.vars.map MTDVars.GammaArr, r.2)

/-- `transform`, src/reor/mtd_convex_coding.py lines 889-911. -/
def mtdTransformF (env : Env K) {p : ℕ} (obj : MTDObj env.rng p) (data : Arr2 K) :
    Run (MTDObj env.rng p) (MTDObj env.rng p × Option (Arr2 K) × FitInfo K) := do
  let r ← mtdConvexCodingF env obj data obj.transformArgs
    { updateDictionary := false, updateWeights := true, updateParameters := false } {}
  pure (r.1, r.1.vars.map MTDVars.GammaArr, r.2)

/-! ### GPNH convex coding with a Markov chain for the weights -/

namespace CROMState

variable {T k p : ℕ}

/-- `_update_parameters`, src/reor/gpnh_convex_coding_crom.py lines 228-274; the only exception is
that of `popleft` on an empty deque (line 187). -/
def updateParametersF (c : CROMConfig p K) (s : CROMState T k p K) :
    Run (CROMState T k p K) (CROMState T k p K) :=
  let s' := s.prepareParameters c
  Run.lift
    { s' with orderWeightsOld := s'.orderWeights, transitionMatricesOld := s'.transitionMatrices }
    (s.updateParameters c)

end CROMState

/-- The loop of `_fit_parameters`, src/reor/gpnh_convex_coding_crom.py lines 297-325; the drawn
parameters are attributes already (lines 287-295). -/
def cromSolveF {T k p : ℕ} (c : CROMConfig p K) (require : Bool) (tolerance : K)
    (maxIterations : ℕ) (Gamma : Matrix (Fin T) (Fin k) K) (orderWeights : Fin p → K)
    (transitionMatrices : Fin p → Matrix (Fin k) (Fin k) K) :
    Run (CROMState T k p K) (IterResult (CROMState T k p K) K) :=
  let s := CROMState.initializeWorkspace c Gamma orderWeights transitionMatrices
  if p = 0 then Run.raise .valueError s
  else if (∃ i, c.lags i = 0) ∧ c.maxLag < T then Run.raise .valueError s
  else if k ≠ 1 ∧ T = c.maxLag then Run.raise .nonFinite s
  else
    iterateF (fun s => (s, s.evaluateFitResidual c)) require tolerance maxIterations
      [CROMState.updateParametersF c] s

/-- The parameters set during a fit, put into the object. -/
def CROMObj.withState {R : Rng K} {T k p : ℕ} (obj : CROMObj R p) (s : CROMState T k p K) :
    CROMObj R p :=
  { obj with
    vars := some
      { k := k, orderWeights := s.orderWeights, transitionMatrices := s.transitionMatrices } }

/-- `_fit_parameters`, src/reor/gpnh_convex_coding_crom.py lines 276-325, for an object whose coding
has been fitted with weights `G`; the draws raise nothing. -/
def cromFitParametersF (R : Rng K) {p : ℕ} (obj : CROMObj R p) (G : Arr2 K) (tolerance : K)
    (maxIterations : ℕ) : Run (CROMObj R p) (CROMObj R p) := do
  let w ← Run.lift obj (mtdDrawOrderWeights R p obj.base.randomState)
  let A ← Run.lift obj (mtdDrawTransitionMatrices R G.cols p w.2)
  let obj := { obj with base := { obj.base with randomState := A.2 } }
  let f ← Run.within obj.withState
    (cromSolveF obj.config obj.base.require tolerance maxIterations G.val w.1 A.1)
  pure (obj.withState f.state)

/-- `fit_transform`, src/reor/gpnh_convex_coding_crom.py lines 327-352. -/
def cromFitTransformF (env : Env K) {p : ℕ} (obj : CROMObj env.rng p) (data : Arr2 K)
    (dictionary weights : Option (Arr2 K)) (kw : InitKwargs)
    (updateDictionary updateWeights : Bool := true) :
    Run (CROMObj env.rng p) (CROMObj env.rng p × Option (Arr2 K) × FitInfo K) := do
  let r ← Run.within (fun b => { obj with base := b })
    (gpnhFitTransformF env obj.base data dictionary weights kw updateDictionary updateWeights)
  let obj := { obj with base := r.1 }
  let q ← Run.lift obj (checkParams r.1.nComponents r.1.maxIterations r.1.tolerance)
  match r.1.Gamma with
  | none => Run.raise .typeError obj
  | some G => do
    let o ← cromFitParametersF env.rng obj G q.2.2 q.2.1
    pure (o, some G, r.2.2)

/-- `transform`, inherited: src/reor/gpnh_convex_coding.py lines 661-680. -/
def cromTransformF (env : Env K) {p : ℕ} (obj : CROMObj env.rng p) (data : Arr2 K) :
    Run (CROMObj env.rng p) (CROMObj env.rng p × Option (Arr2 K) × FitInfo K) := do
  let r ← Run.within (fun b => { obj with base := b }) (gpnhTransformF env obj.base data)
  pure ({ obj with base := r.1 }, r.2)

/-! ### FEM-BV-k-means -/

section FEM

variable {P : Type} {T k : ℕ}

/-- The parameters part of an iteration, src/reor/fembv.py lines 268-277. -/
def femParametersPhaseF (comp : FEMComp P T k K) (require : Bool) (tolerance : K) (nIter : ℕ)
    (s : FEMState P T k K) (oldCost : K) : Run (FEMState P T k K) (FEMState P T k K × K) := do
  let s ← Run.lift s (s.updateParameters comp)
  let r := s.evaluateCost comp
  let _ ← Run.lift r.1 (femCheck require tolerance nIter oldCost r.2)
  pure r

/-- The weights part of an iteration, src/reor/fembv.py lines 279-288.  The solver fails before the
weights are assigned. -/
def femWeightsPhaseF {e : ℕ} (comp : FEMComp P T k K) (solver : LPSolver K)
    (con : Option (FEMConstraints (k * T + e) K)) (require : Bool) (tolerance : K) (nIter : ℕ)
    (s : FEMState P T k K) (oldCost : K) :
    Run (FEMState P T k K) ((FEMState P T k K × K) × Bool) := do
  let q ← Run.lift (s.evaluateDistance comp) (s.updateWeights comp solver con)
  let r := q.1.evaluateCost comp
  let _ ← Run.lift r.1 (femCheck require tolerance nIter oldCost r.2)
  pure (r, q.2)

/-- One iteration, src/reor/fembv.py lines 266-288. -/
def femStepF {e : ℕ} (comp : FEMComp P T k K) (solver : LPSolver K)
    (con : Option (FEMConstraints (k * T + e) K)) (require : Bool) (tolerance : K)
    (updateParameters updateWeights : Bool) (nIter : ℕ) (s : FEMState P T k K) (oldCost : K) :
    Run (FEMState P T k K) ((FEMState P T k K × K) × Bool) := do
  let r ← (match updateParameters with
    | true => femParametersPhaseF comp require tolerance nIter s oldCost
    | false => Run.ok (s, oldCost))
  match updateWeights with
    | true => femWeightsPhaseF comp solver con require tolerance nIter r.1 oldCost
    | false => Run.ok (r, false)

/-- The loop of `_iterate`, src/reor/fembv.py lines 263-304. -/
def femLoopF {e : ℕ} (comp : FEMComp P T k K) (solver : LPSolver K)
    (con : Option (FEMConstraints (k * T + e) K)) (require : Bool) (tolerance : K)
    (updateParameters updateWeights : Bool) :
    List ℕ → FEMState P T k K → K → Option ℕ → List K → ℕ →
      Run (FEMState P T k K) (FEMResult P T k K)
  | [], s, newCost, last, trace, failures =>
    match last with
    | none => Run.raise .unboundLocalError s
    | some n => Run.ok ⟨s, newCost, n, trace, failures⟩
  | i :: is, s, newCost, _, trace, failures => do
    let oldCost := newCost
    let r ← femStepF comp solver con require tolerance updateParameters updateWeights i s oldCost
    let costDelta := r.1.2 - oldCost
    let failures := failures + (if r.2 then 1 else 0)
    if |costDelta| < tolerance then Run.ok ⟨r.1.1, r.1.2, i, trace ++ [r.1.2], failures⟩
    else
      femLoopF comp solver con require tolerance updateParameters updateWeights is r.1.1 r.1.2
        (some i) (trace ++ [r.1.2]) failures

/-- `_iterate`, src/reor/fembv.py lines 250-304. -/
def femIterateF {e : ℕ} (comp : FEMComp P T k K) (solver : LPSolver K)
    (con : Option (FEMConstraints (k * T + e) K)) (require : Bool) (tolerance : K)
    (maxIterations : ℕ) (updateParameters updateWeights : Bool) (s : FEMState P T k K) :
    Run (FEMState P T k K) (FEMResult P T k K) :=
  let r := s.evaluateCost comp
  femLoopF comp solver con require tolerance updateParameters updateWeights
    (List.range maxIterations) r.1 r.2 none [] 0

end FEM

/-- The attributes set during a fit, put into the object. -/
def FEMKMeansObj.withState {R : Rng K} {T D k : ℕ} (obj : FEMKMeansObj R)
    (s : FEMState (Matrix (Fin k) (Fin D) K) T k K) : FEMKMeansObj R :=
  { obj with Gamma := some (Arr2.of s.Gamma), Theta := some (Arr2.of s.params) }

/-- `_fembv_fit` of `FEMBVKMeans`, src/reor/fembv.py lines 306-335 with `_initialize` (lines
192-205): the centres become an attribute before the weights are looked at, the weights before the
constraints are set up.  The initialisers themselves raise only before they draw. -/
def femKMeansRunF (R : Rng K) (solver : LPSolver K) (obj : FEMKMeansObj R) (data : Arr2 K)
    (args : FEMArgs K) : Run (FEMKMeansObj R) (FEMKMeansObj R × FEMInfo K) := do
  let obj := { obj with nComponents := defaultComponents obj.nComponents data.cols }
  let p ← Run.lift obj (checkParams obj.nComponents obj.maxIterations obj.tolerance)
  let theta ← Run.lift obj (kmeansInit R data.val p.1 args.parameters args.init obj.randomState)
  let obj := { obj with randomState := theta.2, Theta := some (Arr2.of theta.1) }
  let gamma ← Run.lift obj
    (femInitWeights R data.rows p.1 args.weights args.init obj.randomState)
  let obj := { obj with randomState := gamma.2, Gamma := some (Arr2.of gamma.1) }
  let tv ← Run.lift obj (maxTvConstraint obj.maxTvNorm)
  let con ← Run.lift obj (femConstraints tv p.1 data.rows)
  let comp := kmeansComp p.1 data.val
  let s : FEMState _ data.rows p.1 K :=
    { Gamma := gamma.1, params := theta.1, distanceMatrix := comp.distance theta.1 }
  let r ← Run.within obj.withState
    (femIterateF comp solver con obj.require p.2.2 p.2.1 args.updateParameters
      args.updateWeights s)
  let warned := decide (r.nIter = p.2.1 ∧ p.2.2 > 0)
  pure (obj.withState r.state,
    { cost := r.cost, nIter := r.nIter, warned := warned, trace := r.trace,
      failures := r.failures })

/-- `fit_transform`, src/reor/fembv.py lines 337-366. -/
def femKMeansFitTransformF (R : Rng K) (solver : LPSolver K) (obj : FEMKMeansObj R)
    (data : Arr2 K) (args : FEMArgs K) :
    Run (FEMKMeansObj R) (FEMKMeansObj R × Option (Arr2 K) × FEMInfo K) := do
  let r ← femKMeansRunF R solver obj data args
  let obj := { r.1 with
    nComponents_ := r.1.Gamma.map (fun G => G.cols)
    cost_ := some r.2.cost
    nIter_ := some r.2.nIter }
  pure (obj, obj.Gamma, r.2)

/-- `transform`, src/reor/fembv.py lines 383-400. -/
def femKMeansTransformF (R : Rng K) (solver : LPSolver K) (obj : FEMKMeansObj R)
    (data : Arr2 K) : Run (FEMKMeansObj R) (FEMKMeansObj R × Option (Arr2 K) × FEMInfo K) := do
  let r ← femKMeansRunF R solver obj data { updateParameters := false, updateWeights := true }
  pure (r.1, r.1.Gamma, r.2)

end Reor
