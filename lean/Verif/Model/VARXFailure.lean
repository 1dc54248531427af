import Verif.Model.Failure
import Verif.Model.VARX

/-!
What a failed fit of `FEMBVVARX` leaves behind, as Model/Failure.lean does for the other classes.
The attributes followed are those of `FEMVARXObj`; the list `self.models` of local models and the
copies of the data (`self.X`, `self.u`) are not.
-/

namespace Reor

open scoped BigOperators Matrix

section Loop

variable {K : Type} [Field K] [LinearOrder K] [IsStrictOrderedRing K] {P : Type} {T k : ℕ}

/-- The parameters part of an iteration, src/reor/fembv.py lines 268-277, with an update `upd` that
can fail halfway. -/
def femParametersPhaseU (comp : FEMComp P T k K) (upd : Matrix (Fin T) (Fin k) K → P → Run P P)
    (require : Bool) (tolerance : K) (nIter : ℕ)
    (s : FEMState P T k K) (oldCost : K) : Run (FEMState P T k K) (FEMState P T k K × K) := do
  let p ← Run.within (fun p => { s with params := p }) (upd s.Gamma s.params)
  let r := ({ s with params := p } : FEMState P T k K).evaluateCost comp
  let _ ← Run.lift r.1 (femCheck require tolerance nIter oldCost r.2)
  pure r

/-- One iteration, src/reor/fembv.py lines 266-288. -/
def femStepU {e : ℕ} (comp : FEMComp P T k K) (upd : Matrix (Fin T) (Fin k) K → P → Run P P)
    (solver : LPSolver K)
    (con : Option (FEMConstraints (k * T + e) K)) (require : Bool) (tolerance : K)
    (updateParameters updateWeights : Bool) (nIter : ℕ) (s : FEMState P T k K) (oldCost : K) :
    Run (FEMState P T k K) ((FEMState P T k K × K) × Bool) := do
  let r ← (match updateParameters with
    | true => femParametersPhaseU comp upd require tolerance nIter s oldCost
    | false => Run.ok (s, oldCost))
  match updateWeights with
    | true => femWeightsPhaseF comp solver con require tolerance nIter r.1 oldCost
    | false => Run.ok (r, false)

/-- The loop of `_iterate`, src/reor/fembv.py lines 263-304. -/
def femLoopU {e : ℕ} (comp : FEMComp P T k K) (upd : Matrix (Fin T) (Fin k) K → P → Run P P)
    (solver : LPSolver K)
    (con : Option (FEMConstraints (k * T + e) K)) (require : Bool) (tolerance : K)
    (updateParameters updateWeights : Bool) :
    List ℕ → FEMState P T k K → K → Option ℕ → List K → ℕ →
      Run (FEMState P T k K) (FEMResult P T k K)
  | [], s, newCost, last, trace, failures =>
    match last with
    | none => Run.raise .unboundLocalError s
    | some n => Run.ok ⟨s, newCost, n, trace, failures⟩
  | i :: is, s, newCost, _, trace, failures => do
    let oldCost := newCost
    let r ← femStepU comp upd solver con require tolerance updateParameters updateWeights i s oldCost
    let costDelta := r.1.2 - oldCost
    let failures := failures + (if r.2 then 1 else 0)
    if |costDelta| < tolerance then Run.ok ⟨r.1.1, r.1.2, i, trace ++ [r.1.2], failures⟩
    else
      femLoopU comp upd solver con require tolerance updateParameters updateWeights is r.1.1 r.1.2
        (some i) (trace ++ [r.1.2]) failures

/-- `_iterate`, src/reor/fembv.py lines 250-304. -/
def femIterateU {e : ℕ} (comp : FEMComp P T k K) (upd : Matrix (Fin T) (Fin k) K → P → Run P P)
    (solver : LPSolver K)
    (con : Option (FEMConstraints (k * T + e) K)) (require : Bool) (tolerance : K)
    (maxIterations : ℕ) (updateParameters updateWeights : Bool) (s : FEMState P T k K) :
    Run (FEMState P T k K) (FEMResult P T k K) :=
  let r := s.evaluateCost comp
  femLoopU comp upd solver con require tolerance updateParameters updateWeights
    (List.range maxIterations) r.1 r.2 none [] 0

end Loop

/-- The local model of component `i` has been fitted again: its coefficients go into the arrays,
src/reor/fembv_varx.py lines 362-368. -/
noncomputable def VARXParams.assign {k D E : ℕ} {models : Fin k → VARXModel D E} {L : ℕ}
    (p : VARXParams models L) (i : Fin k) (f : VARXFit (models i)) : VARXParams models L where
  fits := Function.update p.fits i f
  mu := Function.update p.mu i f.mu
  A := Function.update p.A i fun l =>
    if h : (l : ℕ) < (models i).p then f.A ⟨l, h⟩ else p.A i l
  B0 := fun r => if r = i then f.B0 else p.B0 r

/-- The loop of `_update_parameters`, src/reor/fembv_varx.py lines 353-368: one component after the
other.  A fit that raises leaves the arrays as they are then. -/
noncomputable def varxUpdateLoopF {T k D E : ℕ} {models : Fin k → VARXModel D E} {L : ℕ}
    (lstsq : LstSq) (Gamma : Matrix (Fin T) (Fin k) ℝ) :
    List (Fin k) → VARXParams models L → Run (VARXParams models L) (VARXParams models L)
  | [], p => Run.ok p
  | i :: is, p => do
    let f ← Run.lift p ((models i).fit lstsq (some (varxWeights Gamma i (models i).p)))
    varxUpdateLoopF lstsq Gamma is (p.assign i f)

/-- `_update_parameters`, src/reor/fembv_varx.py lines 347-368. -/
noncomputable def varxUpdateF {T k D E : ℕ} {models : Fin k → VARXModel D E} {L : ℕ}
    (lstsq : LstSq) (Gamma : Matrix (Fin T) (Fin k) ℝ) (p : VARXParams models L) :
    Run (VARXParams models L) (VARXParams models L) :=
  varxUpdateLoopF lstsq Gamma (List.finRange k) p

/-- The local models and their first fits, src/reor/fembv_varx.py lines 330-345. -/
noncomputable def varxLocalModels (mem : Memory) (lstsq : LstSq) {n D k : ℕ}
    (X : Matrix (Fin n) (Fin D) ℝ) (memory : Fin k → ℤ) (L : ℤ) (u : Option (Arr2 ℝ)) :
    Py (VARXStart k D (exogCols u)) := do
  let models ← varxModels mem X memory L u
  let fits ← pyPi fun i => (models i).fit lstsq none
  let _ ← varxCheckShapes models L.toNat (n - L.toNat)
  pure ⟨L.toNat, models, ⟨fits, fun _ _ => 0, fun _ _ _ _ => 0, fun _ _ _ => 0⟩⟩

/-- The arrays of zeros that replace the coefficients, src/reor/fembv_varx.py lines 320-328: `self.A`
only with a positive memory, `self.B0` only with external factors. -/
noncomputable def FEMVARXObj.zeroed {R : Rng ℝ} (obj : FEMVARXObj R) (k D : ℕ) (L : ℤ)
    (u : Option (Arr2 ℝ)) : FEMVARXObj R :=
  { obj with
    mu := some (Arr2.of (0 : Matrix (Fin k) (Fin D) ℝ))
    A := if L.toNat > 0 then some ⟨k, L.toNat, D, D, fun _ _ => 0⟩ else obj.A
    B0 := if u.isSome then
        some (Arr3.of fun _ : Fin k => (0 : Matrix (Fin D) (Fin (exogCols u)) ℝ))
      else obj.B0 }

/-- The attributes set during the iteration, put into the object. -/
noncomputable def FEMVARXObj.withState {R : Rng ℝ} (obj : FEMVARXObj R) {T k D E L : ℕ}
    {models : Fin k → VARXModel D E} (hasExog : Bool)
    (s : FEMState (VARXParams models L) T k ℝ) : FEMVARXObj R :=
  { obj with
    Gamma := some (Arr2.of s.Gamma)
    mu := some (Arr2.of s.params.mu)
    A := if L > 0 then some ⟨_, _, _, _, s.params.A⟩ else obj.A
    B0 := if hasExog then some (Arr3.of s.params.B0) else obj.B0 }

/-- The run after the components are set up: `_initialize_weights` and `_iterate`,
src/reor/fembv.py lines 204-205 and 325-335.  The weights become an attribute before the constraints
are set up. -/
noncomputable def femVARXIterateF (R : Rng ℝ) (solver : LPSolver ℝ) (lstsq : LstSq)
    (obj : FEMVARXObj R) (n k : ℕ) (maxIterations : ℕ) (tolerance : ℝ) (args : FEMVARXArgs)
    {D E : ℕ} (start : VARXStart k D E) :
    Run (FEMVARXObj R) (FEMResult (VARXParams start.models start.L) (n - start.L) k ℝ × R.G) := do
  let gamma ← Run.lift obj
    (femInitWeights R (n - start.L) k args.weights args.init obj.randomState)
  let obj := { obj with randomState := gamma.2, Gamma := some (Arr2.of gamma.1) }
  let tv ← Run.lift obj (maxTvConstraint obj.maxTvNorm)
  let con ← Run.lift obj (femConstraints tv k (n - start.L))
  let comp := varxComp start.models start.L (n - start.L) lstsq
  let r ← Run.within (obj.withState args.externalFactors.isSome)
    (femIterateU comp (varxUpdateF lstsq) solver con obj.require tolerance maxIterations
      args.updateParameters args.updateWeights
      ⟨gamma.1, start.params, comp.distance start.params⟩)
  pure (r, gamma.2)

/-- `_fembv_fit` of `FEMBVVARX`, src/reor/fembv.py lines 306-335: external factors are looked at
before, the local models set up after the old coefficients are overwritten. -/
noncomputable def femVARXRunF (R : Rng ℝ) (solver : LPSolver ℝ) (lstsq : LstSq) (mem : Memory)
    (obj : FEMVARXObj R) (data : Arr2 ℝ) (args : FEMVARXArgs) :
    Run (FEMVARXObj R) (FEMVARXObj R × FEMInfo ℝ) := do
  let obj := { obj with nComponents := defaultComponents obj.nComponents data.cols }
  let p ← Run.lift obj (checkParams obj.nComponents obj.maxIterations obj.tolerance)
  if h : p.1 = obj.memory.length then do
    let _ ← Run.lift obj (varxCheckExog data.rows args.externalFactors)
    let obj := obj.zeroed p.1 data.cols (maxMemory obj.memory) args.externalFactors
    let start ← Run.lift obj
      (varxLocalModels mem lstsq data.val (fun i : Fin p.1 => obj.memory.get (Fin.cast h i))
        (maxMemory obj.memory) args.externalFactors)
    let r ← femVARXIterateF R solver lstsq obj data.rows p.1 p.2.1 p.2.2 args start
    let warned := decide (r.1.nIter = p.2.1 ∧ p.2.2 > 0)
    pure ({ obj with randomState := r.2 }.withState args.externalFactors.isSome r.1.state,
      { cost := r.1.cost, nIter := r.1.nIter, warned := warned, trace := r.1.trace,
        failures := r.1.failures })
  else Run.raise .indexError obj

/-- `fit_transform`, src/reor/fembv.py lines 337-366. -/
noncomputable def femVARXFitTransformF (R : Rng ℝ) (solver : LPSolver ℝ) (lstsq : LstSq)
    (mem : Memory) (obj : FEMVARXObj R) (data : Arr2 ℝ) (args : FEMVARXArgs) :
    Run (FEMVARXObj R) (FEMVARXObj R × Option (Arr2 ℝ) × FEMInfo ℝ) := do
  let r ← femVARXRunF R solver lstsq mem obj data args
  let obj := { r.1 with
    nComponents_ := r.1.Gamma.map (fun G => G.cols)
    cost_ := some r.2.cost
    nIter_ := some r.2.nIter }
  pure (obj, obj.Gamma, r.2)

/-- `transform`, src/reor/fembv.py lines 383-400. -/
noncomputable def femVARXTransformF (R : Rng ℝ) (solver : LPSolver ℝ) (lstsq : LstSq)
    (mem : Memory) (obj : FEMVARXObj R) (data : Arr2 ℝ) :
    Run (FEMVARXObj R) (FEMVARXObj R × Option (Arr2 ℝ) × FEMInfo ℝ) := do
  let r ← femVARXRunF R solver lstsq mem obj data
    { updateParameters := false, updateWeights := true }
  pure (r.1, r.1.Gamma, r.2)

end Reor
