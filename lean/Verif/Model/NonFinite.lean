import Verif.Model.SimplexProjection

/-!
The simplex projection of vectors with infinite or NaN entries,
src/reor/simplex_projection.py lines 9-22.  Finite values are exact and no operation overflows.
-/

namespace Reor

variable {K : Type} [Field K] [LinearOrder K]

/-- A floating point number. -/
inductive Flt (K : Type) where
  | nan
  | ninf
  | fin (x : K)
  | pinf
  deriving DecidableEq

namespace Flt

/-- `a + b`. -/
def add : Flt K → Flt K → Flt K
  | nan, _ => nan
  | _, nan => nan
  | pinf, ninf => nan
  | ninf, pinf => nan
  | pinf, _ => pinf
  | _, pinf => pinf
  | ninf, _ => ninf
  | _, ninf => ninf
  | fin x, fin y => fin (x + y)

/-- `-a`. -/
def neg : Flt K → Flt K
  | nan => nan
  | ninf => pinf
  | fin x => fin (-x)
  | pinf => ninf

/-- `a - b`. -/
def sub (a b : Flt K) : Flt K := add a (neg b)

/-- `a / m` for a positive number `m`. -/
def divBy : Flt K → K → Flt K
  | fin x, m => fin (x / m)
  | a, _ => a

/-- `a >= b`: false as soon as one of the two is NaN. -/
def ge : Flt K → Flt K → Bool
  | nan, _ => false
  | _, nan => false
  | pinf, _ => true
  | _, ninf => true
  | fin x, fin y => decide (y ≤ x)
  | _, _ => false

/-- `np.fmax(a, b)`: a NaN loses against anything. -/
def fmax (a b : Flt K) : Flt K :=
  if a = nan then b
  else if b = nan then a
  else if ge a b then a else b

/-- The order of `np.sort`: NaN comes last. -/
def sortLe (a b : Flt K) : Bool := decide (b = nan) || ge b a

/-- `l.sum()`. -/
def sum (l : List (Flt K)) : Flt K := l.foldr add (fin 0)

end Flt

/-- The loop of `simplex_project_vector`, src/reor/simplex_projection.py lines 17-20, see
`simplexThresholdLoop`.  The slice has `n - 1 - i ≥ 1` entries. -/
def fltThresholdLoop (sortedX : List (Flt K)) : List Int → Flt K → Flt K
  | [], tHat => tHat
  | i :: is, _ =>
    let m : Int := sortedX.length - 1 - i
    let tHat := ((Flt.sum (pyLast sortedX m.toNat)).sub (.fin 1)).divBy (m : K)
    if tHat.ge (pyGet sortedX i (.fin 0)) then tHat else fltThresholdLoop sortedX is tHat

/-- `t_hat` after the loop, src/reor/simplex_projection.py lines 12-20. -/
def fltThreshold {n : ℕ} (x : Fin n → Flt K) : Flt K :=
  let sortedX := (List.ofFn x).mergeSort Flt.sortLe
  let size : Int := sortedX.length
  fltThresholdLoop sortedX (pyRangeDown (size - 2) (-2)) (.fin 0)

/-- `simplex_project_vector`, src/reor/simplex_projection.py lines 9-22, of floating point numbers. -/
def fltProjectVector {n : ℕ} (x : Fin n → Flt K) : Fin n → Flt K :=
  let tHat := fltThreshold x
  fun i => Flt.fmax ((x i).sub tHat) (.fin 0)

end Reor
