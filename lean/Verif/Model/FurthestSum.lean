import Mathlib.Algebra.Order.Field.Basic
import Mathlib.Data.List.Sort
import Verif.Model.Py

/-!
Model of `src/reor/furthest_sum.py`.

The dissimilarity matrix is given by its shape and an entry function; all accesses of the code
either have indices inside the shape or raise, and the model checks the only ones (`start_index`)
that can be outside.
-/

namespace Reor

variable {K : Type} [Field K] [LinearOrder K]

/-- A two-dimensional array: shape and entries. -/
structure DMat (K : Type) where
  rows : ℕ
  cols : ℕ
  get : ℤ → ℤ → K

/-- `_update_distance_sums`, src/reor/furthest_sum.py lines 11-14. -/
def updateDistanceSums (D : DMat K) (newIndex : ℤ) (q : List (ℤ × K)) : List (ℤ × K) :=
  q.map fun qi => (qi.1, qi.2 + D.get newIndex qi.1)

/-- `_get_furthest_index`, src/reor/furthest_sum.py lines 17-20: a stable sort by value, then
`pop(-1)` (IndexError on an empty list).  Returns the index and the remaining, sorted, list. -/
def getFurthestIndex (q : List (ℤ × K)) : Py (ℤ × List (ℤ × K)) :=
  let q := q.mergeSort (fun a b => decide (a.2 ≤ b.2))
  match q.getLast? with
  | none => Py.raise .indexError
  | some x => Py.ok (x.1, q.dropLast)

/-- `is_valid_candidate`, src/reor/furthest_sum.py lines 77-90. -/
def isValidCandidate (selected exclude : List ℤ) (index : ℤ) : Bool :=
  !(selected.contains index) && !(exclude.contains index)

/-- The loop filling `q`, src/reor/furthest_sum.py lines 92-97.  `q` has been allocated with
`capacity` slots; writing past the end is an IndexError. `D[i, start_index]` is an IndexError if
`start_index` is below `-cols` (it cannot be above: line 61). -/
def fillCandidates (D : DMat K) (selected exclude : List ℤ) (startIndex : ℤ) (capacity : ℕ) :
    List ℤ → List (ℤ × K) → Py (List (ℤ × K))
  | [], q => Py.ok q
  | i :: is, q =>
    if isValidCandidate selected exclude i then
      if startIndex < -(D.cols : ℤ) then Py.raise .indexError
      else if q.length < capacity then
        let col := if startIndex < 0 then startIndex + D.cols else startIndex
        fillCandidates D selected exclude startIndex capacity is (q ++ [(i, D.get i col)])
      else Py.raise .indexError
    else fillCandidates D selected exclude startIndex capacity is q

/-- The greedy loop, src/reor/furthest_sum.py lines 99-101, over the positions still to fill. -/
def selectLoop (D : DMat K) : List ℕ → List ℤ → List (ℤ × K) → Py (List ℤ × List (ℤ × K))
  | [], selected, q => Py.ok (selected, q)
  | i :: is, selected, q => do
    let r ← getFurthestIndex q
    let selected := selected.set i r.1
    let q := updateDistanceSums D r.1 r.2
    selectLoop D is selected q

/-- One round of the replacement loop, src/reor/furthest_sum.py lines 104-121. -/
def replaceStep (D : DMat K) (nComponents : ℕ) (i : ℕ) (selected : List ℤ) (q : List (ℤ × K)) :
    Py (List ℤ × List (ℤ × K)) := do
  let updateIndex := i % nComponents
  let indexToReplace := selected.getD updateIndex 0
  let q := q.map fun qi => (qi.1, qi.2 - D.get qi.1 indexToReplace)
  let qi := selected.foldl
    (fun acc index => if index ≠ indexToReplace then acc + D.get indexToReplace index else acc) 0
  let q := q ++ [(indexToReplace, qi)]
  let r ← getFurthestIndex q
  let selected := selected.set updateIndex r.1
  let q := updateDistanceSums D r.1 r.2
  pure (selected, q)

/-- The replacement loop, src/reor/furthest_sum.py lines 103-121. -/
def replaceLoop (D : DMat K) (nComponents : ℕ) :
    List ℕ → List ℤ → List (ℤ × K) → Py (List ℤ × List (ℤ × K))
  | [], selected, q => Py.ok (selected, q)
  | i :: is, selected, q => do
    let r ← replaceStep D nComponents i selected q
    replaceLoop D nComponents is r.1 r.2

/-- `_furthest_sum_impl`, src/reor/furthest_sum.py lines 23-123.  `exclude=None` is the empty
list.  A negative `n_components` fails in `np.full`.  If fewer candidates than slots were found the
remaining `None` entries would make the sort fail with a TypeError; that does not happen
(`length_candidates_ge` in Proofs/FurthestSum). -/
def furthestSumImpl (D : DMat K) (nComponents startIndex : ℤ) (exclude : List ℤ)
    (extraSteps : ℤ) : Py (List ℤ) :=
  if nComponents = 0 then Py.ok [] else
  let nSamples : ℤ := D.rows
  let nExcluded : ℤ := exclude.length
  if startIndex ≥ nSamples then Py.raise .valueError
  else if exclude.contains startIndex then Py.raise .valueError
  else if nExcluded < nSamples ∧ nComponents > nSamples - nExcluded then Py.raise .valueError
  else if nComponents < 0 then Py.raise .valueError
  else do
    let n := nComponents.toNat
    let selected := List.replicate n startIndex
    let capacity := (nSamples - nExcluded - 1).toNat
    let indices : List ℤ := (List.range D.rows).map fun (i : ℕ) => (i : ℤ)
    let q ← fillCandidates D selected exclude startIndex capacity indices []
    if q.length < capacity then Py.raise .typeError else
    let r ← selectLoop D (List.range' 1 (n - 1)) selected q
    let r ← replaceLoop D n (List.range extraSteps.toNat) r.1 r.2
    pure r.1

/-- `furthest_sum`, src/reor/furthest_sum.py lines 126-161. -/
def furthestSum (D : DMat K) (nComponents startIndex : ℤ) (exclude : List ℤ)
    (extraSteps : ℤ) : Py (List ℤ) :=
  if D.rows ≠ D.cols then Py.raise .valueError
  else furthestSumImpl D nComponents startIndex exclude extraSteps

end Reor
