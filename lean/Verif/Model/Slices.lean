import Verif.Model.GPNHCROM

/-!
The functions of `GPNHConvexCodingCROM` that cut arrays at the lags, for arbitrary integer lags (the
constructor does not look at them).  Arrays are lists of rows here, and slices, indices and in-place
addition follow Python and numpy in all cases.  The models in `GPNHCROM.lean` and `MTD.lean` are written
for non-negative lags; `Props/Slices.lean` proves that they agree with this one where lags are positive.
-/

namespace Reor

open scoped BigOperators Matrix

variable {α K : Type}

/-- Where a slice of `n` rows begins or ends if `i` is given. -/
def sliceIndex (n : ℕ) (i : ℤ) : ℕ := if i < 0 then (i + n).toNat else min i.toNat n

/-- `l[a:b]`. -/
def pySlice (l : List α) (a b : ℤ) : List α :=
  (l.take (sliceIndex l.length b)).drop (sliceIndex l.length a)

/-- `l[i]`, with the IndexError. -/
def pyIndex (l : List α) (i : ℤ) : Py α :=
  if i < 0 ∧ i + l.length < 0 then Py.raise .indexError
  else match l[(if i < 0 then i + l.length else i).toNat]? with
    | some a => Py.ok a
    | none => Py.raise .indexError

/-- `l[i] = v`, with the IndexError. -/
def pySetIndex (l : List α) (i : ℤ) (v : α) : Py (List α) :=
  if i < 0 ∧ i + l.length < 0 then Py.raise .indexError
  else
    let j := (if i < 0 then i + l.length else i).toNat
    if j < l.length then Py.ok (l.set j v) else Py.raise .indexError

section

variable [Field K] {k p : ℕ}

/-- `Z[a:] += E`: a single row is added to all rows, any other number of rows must fit. -/
def addRowsFrom (Z : List (Fin k → K)) (a : ℤ) (E : List (Fin k → K)) : Py (List (Fin k → K)) :=
  let lo := sliceIndex Z.length a
  if E.length = Z.length - lo then Py.ok (Z.take lo ++ List.zipWith (· + ·) (Z.drop lo) E)
  else match E with
    | [e] => Py.ok (Z.take lo ++ (Z.drop lo).map (· + e))
    | _ => Py.raise .valueError

/-- The loop in `_update_predicted_weights`, src/reor/gpnh_convex_coding_crom.py lines 134-138. -/
def predictedLoop (maxLag : ℤ) (lags : Fin p → ℤ) (orderWeights : Fin p → K)
    (transitionMatrices : Fin p → Matrix (Fin k) (Fin k) K) (Gamma : List (Fin k → K)) :
    List (Fin p) → List (Fin k → K) → Py (List (Fin k → K))
  | [], Z => Py.ok Z
  | i :: is, Z => do
    let Z ← addRowsFrom Z maxLag ((pySlice Gamma (maxLag - lags i) (-lags i)).map fun g =>
      orderWeights i • (transitionMatrices i).mulVec g)
    predictedLoop maxLag lags orderWeights transitionMatrices Gamma is Z

/-- `_update_predicted_weights`, src/reor/gpnh_convex_coding_crom.py lines 127-138, and
src/reor/mtd_convex_coding.py lines 317-328.  The maximum of no lags is a ValueError. -/
def predictedWeightsZ (lags : Fin p → ℤ) (orderWeights : Fin p → K)
    (transitionMatrices : Fin p → Matrix (Fin k) (Fin k) K) (Gamma : List (Fin k → K)) :
    Py (List (Fin k → K)) :=
  match (List.ofFn lags).max? with
  | none => Py.raise .valueError
  | some maxLag =>
    let lo := sliceIndex Gamma.length maxLag
    predictedLoop maxLag lags orderWeights transitionMatrices Gamma (List.finRange p)
      (Gamma.take lo ++ (List.replicate Gamma.length 0).drop lo)

/-- The loop in `predict_next_step_weights`, src/reor/gpnh_convex_coding_crom.py lines 403-406; `none` is
a row of NaN. -/
def nextLoopZ (lags : Fin p → ℤ) (orderWeights : Fin p → K)
    (transitionMatrices : Fin p → Matrix (Fin k) (Fin k) K) (window : List (Option (Fin k → K))) :
    List (Fin p) → Option (Fin k → K) → Py (Option (Fin k → K))
  | [], acc => Py.ok acc
  | i :: is, acc => do
    let x ← pyIndex window (-lags i)
    nextLoopZ lags orderWeights transitionMatrices window is
      (Option.map₂ (· + ·) acc (x.map fun x => orderWeights i • (transitionMatrices i).mulVec x))

/-- `predict_next_step_weights`, src/reor/gpnh_convex_coding_crom.py lines 392-408. -/
def nextWeightsZ (maxLag : ℤ) (lags : Fin p → ℤ) (orderWeights : Fin p → K)
    (transitionMatrices : Fin p → Matrix (Fin k) (Fin k) K) (window : List (Option (Fin k → K))) :
    Py (Option (Fin k → K)) :=
  if (window.length : ℤ) < maxLag then Py.ok none
  else nextLoopZ lags orderWeights transitionMatrices window (List.finRange p) (some 0)

/-- The loop `for lead in range(horizon)`, src/reor/gpnh_convex_coding_crom.py lines 419-423. -/
def leadLoopZ (maxLag : ℤ) (lags : Fin p → ℤ) (orderWeights : Fin p → K)
    (transitionMatrices : Fin p → Matrix (Fin k) (Fin k) K) : ℕ → List (Option (Fin k → K)) →
    Py (List (Option (Fin k → K)))
  | 0, window => Py.ok window
  | h + 1, window => do
    let next ← nextWeightsZ maxLag lags orderWeights transitionMatrices window
    let window ← pySetIndex (rollLeft window) (-1) next
    leadLoopZ maxLag lags orderWeights transitionMatrices h window

/-- The loop over the samples, src/reor/gpnh_convex_coding_crom.py lines 417-424. -/
def rowLoopZ (maxLag : ℤ) (lags : Fin p → ℤ) (orderWeights : Fin p → K)
    (transitionMatrices : Fin p → Matrix (Fin k) (Fin k) K) (initialWeights : List (Fin k → K))
    (horizon : ℕ) : List ℤ → List (Option (Fin k → K)) → Py (List (Option (Fin k → K)))
  | [], out => Py.ok out
  | i :: is, out => do
    let window ← leadLoopZ maxLag lags orderWeights transitionMatrices horizon
      ((pySlice initialWeights (i - maxLag + 1) (i + 1)).map some)
    let last ← pyIndex window (-1)
    let out ← pySetIndex out i last
    rowLoopZ maxLag lags orderWeights transitionMatrices initialWeights horizon is out

/-- The weights that `predict` gives to `inverse_transform`, src/reor/gpnh_convex_coding_crom.py lines
389-424, and src/reor/mtd_convex_coding.py lines 929-964. -/
def forecastZ (lags : Fin p → ℤ) (orderWeights : Fin p → K)
    (transitionMatrices : Fin p → Matrix (Fin k) (Fin k) K) (initialWeights : List (Fin k → K))
    (horizon : ℤ) : Py (List (Option (Fin k → K))) :=
  if horizon = 0 then Py.ok (initialWeights.map some)
  else match (List.ofFn lags).max? with
    | none => Py.raise .valueError
    | some maxLag =>
      let n := initialWeights.length
      let lo := sliceIndex n (maxLag - 1)
      rowLoopZ maxLag lags orderWeights transitionMatrices initialWeights horizon.toNat
        ((List.range (n - (maxLag - 1)).toNat).map fun (r : ℕ) => maxLag - 1 + (r : ℤ))
        (List.replicate lo none ++ List.replicate (n - lo) (some 0))

end

end Reor
