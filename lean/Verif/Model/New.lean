import Verif.Model.GPNHCROM
import Verif.Model.KernelAA
import Verif.Model.FEMBV

/-!
Model of the constructors of the estimators with a line search and of `FEMBVKMeans`.

Keyword arguments are a dictionary of names with integers, other numbers or truth values.  Strings,
`None` and arrays among the solver settings are not modelled; the generator passed as `random_state`
is taken as given (`check_random_state`, where it is called, has accepted it), and `verbose` is left
out.
-/

namespace Reor

variable {K : Type} [Field K] [LinearOrder K]

/-- A value among the keyword arguments. -/
inductive KwVal (K : Type) where
  | int (z : ℤ)
  | real (x : K)
  | bool (b : Bool)

/-- The dictionary of the keyword arguments. -/
abbrev Kwargs (K : Type) := List (String × KwVal K)

/-- `kwargs.get(name, default)`. -/
def Kwargs.get (kw : Kwargs K) (name : String) (default : KwVal K) : KwVal K :=
  (kw.lookup name).getD default

/-- The value in arithmetic: `True` and `False` count as 1 and 0. -/
def KwVal.toNumber : KwVal K → K
  | .int z => z
  | .real x => x
  | .bool b => if b then 1 else 0

/-- The value in a condition. -/
def KwVal.truth : KwVal K → Bool
  | .int z => decide (z ≠ 0)
  | .real x => decide (x ≠ 0)
  | .bool b => b

/-- `deque([0.0] * m, maxlen=m)`, src/reor/gpnh_convex_coding.py lines 258-261 (and the same lines of
the other estimators): a list cannot be multiplied by a float (TypeError), and `maxlen` must not be
negative (ValueError).  The result is the length of the memory. -/
def solverMemory : KwVal K → Py ℕ
  | .int z => if z < 0 then Py.raise .valueError else Py.ok z.toNat
  | .real _ => Py.raise .typeError
  | .bool b => Py.ok (if b then 1 else 0)

/-- The settings of the line search, src/reor/gpnh_convex_coding.py lines 226-232
(src/reor/archetypal_analysis.py lines 226-232 and src/reor/mtd_convex_coding.py lines 215-221 are
the same), together with the memories built from them. -/
def solverSettings (kw : Kwargs K) : Py (LSConfig K) := do
  let m ← solverMemory (kw.get "line_search_memory" (.int 1))
  pure
    { memory := m
      gamma := (kw.get "gamma" (.real (1 / 10 ^ 4))).toNumber
      alphaMin := (kw.get "alpha_min" (.real (1 / 10 ^ 3))).toNumber
      alphaMax := (kw.get "alpha_max" (.real (10 ^ 3))).toNumber
      sigmaOne := (kw.get "sigma_one" (.real (1 / 10))).toNumber
      sigmaTwo := (kw.get "sigma_two" (.real (9 / 10))).toNumber
      stepSizeTolerance := (kw.get "step_size_tolerance" (.real (1 / 10 ^ 12))).toNumber }

/-- `GPNHConvexCoding.__init__`, src/reor/gpnh_convex_coding.py lines 215-261. -/
def gpnhNew {R : Rng K} (g : R.G) (nComponents : NumArg K) (kw : Kwargs K := [])
    (epsilonStates : K := 0) (init : Option String := none)
    (tolerance : NumArg K := .real (1 / 10 ^ 6)) (maxIterations : NumArg K := .int 1000) :
    Py (GPNHObj R) := do
  let ls ← solverSettings kw
  pure
    { nComponents := nComponents, epsilonStates := epsilonStates, init := init
      tolerance := tolerance, maxIterations := maxIterations, randomState := g, ls := ls
      require := (kw.get "require_monotonic_cost_decrease" (.bool true)).truth }

/-- `KernelAA.__init__`, src/reor/archetypal_analysis.py lines 218-270, and so
`ArchetypalAnalysis.__init__` (lines 908-911) apart from `kernel_func`.  All settings are keyword
arguments here; those which are not settings of the line search are written as arguments. -/
def kaaInit {R : Rng K} (nComponents : NumArg K) (kw : Kwargs K := []) (delta : K := 0)
    (init : Option String := none) (tolerance : NumArg K := .real (1 / 10 ^ 4))
    (maxIterations : NumArg K := .int 1000) (randomState : RandomArg R) :
    Py (KAAObj R) := do
  let obj ← kaaNew
    { nComponents := nComponents, delta := delta, init := init, tolerance := tolerance
      maxIterations := maxIterations, randomState := randomState
      ls := ⟨0, 0, 0, 0, 0, 0, 0⟩, require := true }
  let ls ← solverSettings kw
  pure { obj with
    ls := ls, require := (kw.get "require_monotonic_cost_decrease" (.bool true)).truth }

/-- `MTDConvexCoding.__init__`, src/reor/mtd_convex_coding.py lines 192-268. -/
def mtdNew {R : Rng K} (g : R.G) (nComponents : NumArg K) (lags : Option (List (NumArg K)) := none)
    (kw : Kwargs K := []) (epsilonStates epsilonWeights : K := 0) (init : Option String := none)
    (tolerance : NumArg K := .real (1 / 10 ^ 6)) (maxIterations : NumArg K := .int 1000) :
    Py (Σ p, MTDObj R p) := do
  let l ← mtdLags lags
  let ls ← solverSettings kw
  pure ⟨l.length,
    { nComponents := nComponents, lags := l.get, epsilonStates := epsilonStates
      epsilonWeights := epsilonWeights, init := init, tolerance := tolerance
      maxIterations := maxIterations, randomState := g, ls := ls
      require := (kw.get "require_monotonic_cost_decrease" (.bool true)).truth }⟩

/-- The argument `lags` of `GPNHConvexCodingCROM`: nothing, an array of non-negative integers, or
something without an attribute `size`, such as a list or a tuple. -/
inductive LagsArg where
  | none
  | array (l : List ℕ)
  | sequence (l : List ℕ)

/-- `self.lags` and `self.lags.size`, src/reor/gpnh_convex_coding_crom.py lines 77-82. -/
def cromLags : LagsArg → Py (List ℕ)
  | .none => Py.ok [1]
  | .array l => Py.ok l
  | .sequence _ => Py.raise .attributeError

/-- `GPNHConvexCodingCROM.__init__`, src/reor/gpnh_convex_coding_crom.py lines 74-100. -/
def cromNew {R : Rng K} (g : R.G) (nComponents : NumArg K) (lags : LagsArg := .none)
    (kw : Kwargs K := []) (epsilonStates : K := 0) (init : Option String := none)
    (tolerance : NumArg K := .real (1 / 10 ^ 6)) (maxIterations : NumArg K := .int 1000) :
    Py (Σ p, CROMObj R p) := do
  let base ← gpnhNew g nComponents kw epsilonStates init tolerance maxIterations
  let l ← cromLags lags
  let _ ← cromCheckConstructor nComponents
  pure ⟨l.length, { base := base, lags := l.get }⟩

/-- `FEMBVKMeans.__init__`, src/reor/fembv_kmeans.py lines 125-135 and src/reor/fembv.py lines 45-68;
nothing is checked. -/
def femKMeansNew {R : Rng K} (g : R.G) (nComponents maxTvNorm : NumArg K) (kw : Kwargs K := [])
    (init : Option String := some "random") (maxIterations : NumArg K := .int 500)
    (tolerance : NumArg K := .real (1 / 10 ^ 4)) : FEMKMeansObj R :=
  { nComponents := nComponents, maxTvNorm := maxTvNorm, init := init
    maxIterations := maxIterations, tolerance := tolerance, randomState := g
    require := (kw.get "require_monotonic_cost_decrease" (.bool false)).truth }

end Reor
