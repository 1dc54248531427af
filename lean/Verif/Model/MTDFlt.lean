import Verif.Model.CROMFlt
import Verif.Model.MTD

/-!
The updates of the weights and of the parameters in src/reor/mtd_convex_coding.py lines 480-700 with
NaN and infinite values; see Model/NonFinite.lean.  The data and the dictionary are finite, the lags are
positive.  The cost is an argument.
-/

namespace Reor

open scoped Matrix

variable {K : Type} [Field K] [LinearOrder K] {T D k p : ℕ}

/-- `A[r]` for a row that exists. -/
def fltRow (A : Fin T → Fin k → Flt K) (r : ℕ) : Fin k → Flt K :=
  if h : r < T then A ⟨r, h⟩ else fun _ => .fin 0

/-- `self.Z`, src/reor/mtd_convex_coding.py lines 317-328. -/
def mtdFltPredicted (c : MTDConfig p K) (G : Fin T → Fin k → Flt K) (q : FltParams k p K)
    (t : Fin T) (j : Fin k) : Flt K :=
  if (t : ℕ) < c.maxLag then G t j
  else (List.finRange p).foldl (fun Z i => Z.add ((q.w i).mul
    (Flt.total fun l => (fltRow G (c.maxLag - c.lags i + ((t : ℕ) - c.maxLag)) l).mul (q.A i j l))))
    (.fin 0)

/-- `self.Gamma - self.Z`. -/
def mtdFltResidual (c : MTDConfig p K) (G : Fin T → Fin k → Flt K) (q : FltParams k p K)
    (t : Fin T) (j : Fin k) : Flt K := (G t j).sub (mtdFltPredicted c G q t j)

/-- `x * self.epsilon_weights * normalization` with `normalization = 1.0 / (self.n_components *
(n_samples - max_lag))`, src/reor/mtd_convex_coding.py lines 487-499 and 588-602. -/
def mtdFltScale (c : MTDConfig p K) (T k : ℕ) (x : K) : Flt K :=
  ((Flt.fin x).mul (.fin c.epsilonWeights)).mul
    (Flt.fin ((k : K) * ((T : K) - (c.maxLag : K)))).inv

/-- `_weights_penalty_gradient`, src/reor/mtd_convex_coding.py lines 480-499. -/
def mtdFltPenaltyGrad (c : MTDConfig p K) (G : Fin T → Fin k → Flt K) (q : FltParams k p K)
    (t : Fin T) (j : Fin k) : Flt K :=
  let grad := (List.finRange p).foldl (fun g i =>
    if (t : ℕ) < T - c.lags i then
      g.add (((mtdFltScale c T k (-2)).mul (q.w i)).mul (Flt.total fun l =>
        (fltRow (mtdFltResidual c G q) (c.lags i + t) l).mul (q.A i l j)))
    else g) (.fin 0)
  if c.maxLag ≤ t then grad.add ((mtdFltScale c T k 2).mul (mtdFltResidual c G q t j)) else grad

/-- `_update_weights_gradient`, src/reor/mtd_convex_coding.py lines 501-510. -/
def mtdFltWeightsGrad (c : MTDConfig p K) (X : Matrix (Fin T) (Fin D) K)
    (S : Matrix (Fin k) (Fin D) K) (q : FltParams k p K) (G : Fin T → Fin k → Flt K)
    (t : Fin T) (j : Fin k) : Flt K :=
  let normalization : K := 1 / ((D : K) * (T : K))
  ((mtdFltPenaltyGrad c G q t j).add
    ((Flt.fin (-2 * normalization)).mul (.fin ((X * Sᵀ) t j)))).add
    ((Flt.fin (2 * normalization)).mul (Flt.total fun l => (G t l).mul (.fin ((S * Sᵀ) l j))))

/-- `_update_parameters_gradient`, src/reor/mtd_convex_coding.py lines 583-603. -/
def mtdFltParametersGrad (c : MTDConfig p K) (G : Fin T → Fin k → Flt K) (q : FltParams k p K) :
    FltParams k p K :=
  let residual (r : Fin (T - c.maxLag)) := fltRow (mtdFltResidual c G q) (c.maxLag + r)
  let lagged (i : Fin p) (r : Fin (T - c.maxLag)) := fltRow G (c.maxLag - c.lags i + r)
  { w := fun i => (mtdFltScale c T k (-2)).mul (Flt.total fun r => Flt.total fun l =>
      (Flt.total fun j => (residual r j).mul (q.A i j l)).mul (lagged i r l))
    A := fun i a b => ((mtdFltScale c T k (-2)).mul (q.w i)).mul
      (Flt.total fun r => (residual r a).mul (lagged i r b)) }

/-- The `while` loop of the line searches, src/reor/mtd_convex_coding.py lines 536-549 and 634-650. -/
def fltSearch {P : Type} (ls : LSConfig K) (trial : Flt K → P) (evaluate : P → Flt K)
    (fMax incrNorm current step : Flt K) (q : P) (next : Flt K) : Option (Flt K × P) :=
  if next.gt (fMax.add (((Flt.fin ls.gamma).mul incrNorm).mul step)) then
    let step' := fltStepLength step incrNorm current next ls.sigmaOne ls.sigmaTwo
    let q' := trial step'
    if (Flt.fin ls.stepSizeTolerance).gt step'.abs then some (step', q')
    else fltSearch ls trial evaluate fMax incrNorm current step' q' (evaluate q')
  else some (step, q)
partial_fixpoint

/-- A line search, src/reor/mtd_convex_coding.py lines 512-551 and 605-652. -/
def fltLineSearch {P : Type} (ls : LSConfig K) (trial : Flt K → P) (evaluate : P → Flt K)
    (mem : List (Flt K)) (current incrNorm : Flt K) : Py (Flt K × P × List (Flt K)) :=
  match mem with
  | [] => Py.raise .indexError
  | _ :: rest =>
    let mem := rest ++ [current]
    match mem.foldl fltMaxStep none with
    | none => Py.raise .typeError
    | some fMax =>
      match fltSearch ls trial evaluate fMax incrNorm current (.fin 1) (trial (.fin 1))
          (evaluate (trial (.fin 1))) with
      | none => Py.diverge
      | some (step, q) => Py.ok (step, q, mem)

/-- What an update of the weights leaves behind. -/
structure FltWeights (T k : ℕ) (K : Type) where
  G : Fin T → Fin k → Flt K
  alpha : Flt K
  mem : List (Flt K)

/-- `_update_weights`, src/reor/mtd_convex_coding.py lines 553-581. -/
def mtdFltUpdateWeights (c : MTDConfig p K) (X : Matrix (Fin T) (Fin D) K)
    (S : Matrix (Fin k) (Fin D) K) (q : FltParams k p K)
    (evaluate : (Fin T → Fin k → Flt K) → Flt K) (s : FltWeights T k K) : Py (FltWeights T k K) := do
  let g := mtdFltWeightsGrad c X S q s.G
  let incr : Fin T → Fin k → Flt K := fun t j =>
    (fltProjectVector (fun l => (s.G t l).sub (s.alpha.mul (g t l))) j).sub (s.G t j)
  let pairing (a b : Fin T → Fin k → Flt K) : Flt K :=
    Flt.total fun t => Flt.total fun j => (a t j).mul (b t j)
  let r ← fltLineSearch c.ls (fun step t j => (s.G t j).add (step.mul (incr t j))) evaluate s.mem
    (evaluate s.G) (pairing incr g)
  let g' := mtdFltWeightsGrad c X S q r.2.1
  let sksk := (r.1.mul r.1).mul (pairing incr incr)
  let beta := r.1.mul (pairing incr fun t j => (g' t j).sub (g t j))
  pure ⟨r.2.1, fltAlpha beta sksk c.ls.alphaMin c.ls.alphaMax, r.2.2⟩

/-- `_update_parameters`, src/reor/mtd_convex_coding.py lines 654-700. -/
def mtdFltUpdateParameters (c : MTDConfig p K) (G : Fin T → Fin k → Flt K)
    (evaluate : FltParams k p K → Flt K) (s : FltFit k p K) : Py (FltFit k p K) := do
  let g := mtdFltParametersGrad c G s.q
  let incr := s.q.increment s.alpha g
  let r ← fltLineSearch c.ls (fun step => s.q.move step incr) evaluate s.mem (evaluate s.q)
    (incr.pairing g)
  let g' := mtdFltParametersGrad c G r.2.1
  let delta : FltParams k p K :=
    ⟨fun i => (g'.w i).sub (g.w i), fun i a b => (g'.A i a b).sub (g.A i a b)⟩
  let sksk := (r.1.mul r.1).mul (incr.pairing incr)
  let beta := r.1.mul (incr.pairing delta)
  pure ⟨r.2.1, fltAlpha beta sksk c.ls.alphaMin c.ls.alphaMax, r.2.2⟩

end Reor
