import Verif.Model.NonFinite
import Verif.Model.GPNHCROM

/-!
The fit of the parameters of the reduced order model, src/reor/gpnh_convex_coding_crom.py
lines 126-325, with NaN and infinite values; see Model/NonFinite.lean.  The weights are finite.
-/

namespace Reor

variable {K : Type} [Field K] [LinearOrder K]

namespace Flt

/-- `inf * x`. -/
def infMul (x : K) : Flt K := if x = 0 then nan else if 0 < x then pinf else ninf

/-- `a * b`. -/
def mul : Flt K → Flt K → Flt K
  | nan, _ => nan
  | _, nan => nan
  | fin x, fin y => fin (x * y)
  | fin x, pinf => infMul x
  | fin x, ninf => neg (infMul x)
  | pinf, fin y => infMul y
  | ninf, fin y => neg (infMul y)
  | pinf, pinf => pinf
  | ninf, ninf => pinf
  | _, _ => ninf

/-- `1.0 / a`; zeros have no sign here. -/
def inv : Flt K → Flt K
  | nan => nan
  | fin x => if x = 0 then pinf else fin (1 / x)
  | _ => fin 0

/-- `a / b`. -/
def div (a b : Flt K) : Flt K :=
  match a, b with
  | fin x, fin y => if y = 0 then infMul x else fin (x / y)
  | a, b => mul a (inv b)

/-- `a > b`. -/
def gt (a b : Flt K) : Bool := ge a b && !ge b a

/-- `abs(a)`. -/
def abs (a : Flt K) : Flt K := if gt (fin 0) a then neg a else a

/-- Python's `max(a, b)`: the second argument only if it is greater. -/
def pyMax (a b : Flt K) : Flt K := if gt b a then b else a

/-- Python's `min(a, b)`. -/
def pyMin (a b : Flt K) : Flt K := if gt a b then b else a

/-- The sum of the entries of an array. -/
def total {n : ℕ} (v : Fin n → Flt K) : Flt K := sum (List.ofFn v)

end Flt

/-- `get_next_spg_step_length`, src/reor/spg.py lines 5-18. -/
def fltStepLength (step delta fOld fNew : Flt K) (sigmaOne sigmaTwo : K) : Flt K :=
  let tmp := (((Flt.fin (-(1 / 2))).mul (step.mul step)).mul delta).div
    ((fNew.sub fOld).sub (step.mul delta))
  if tmp.ge (.fin sigmaOne) && ((Flt.fin sigmaTwo).mul step).ge tmp then tmp
  else (Flt.fin (1 / 2)).mul step

/-- `get_next_spg_alpha`, src/reor/spg.py lines 21-27. -/
def fltAlpha (beta sksk : Flt K) (alphaMin alphaMax : K) : Flt K :=
  if (Flt.fin 0).ge beta then .fin alphaMax
  else (Flt.fin alphaMax).pyMin ((Flt.fin alphaMin).pyMax (sksk.div beta))

/-- The two arrays that are fitted. -/
structure FltParams (k p : ℕ) (K : Type) where
  w : Fin p → Flt K
  A : Fin p → Fin k → Fin k → Flt K

namespace FltParams

variable {T k p : ℕ}

/-- `a + step * b`. -/
def move (a : FltParams k p K) (step : Flt K) (b : FltParams k p K) : FltParams k p K :=
  ⟨fun i => (a.w i).add (step.mul (b.w i)), fun i r s => (a.A i r s).add (step.mul (b.A i r s))⟩

/-- `(a.w * b.w).sum() + (a.A * b.A).sum()`. -/
def pairing (a b : FltParams k p K) : Flt K :=
  (Flt.total fun i => (a.w i).mul (b.w i)).add
    (Flt.total fun i => Flt.total fun r => Flt.total fun s => (a.A i r s).mul (b.A i r s))

/-- `self.Gamma[max_lag - lag:-lag]`. -/
def lagged (c : CROMConfig p K) (G : Matrix (Fin T) (Fin k) K) (i : Fin p)
    (r : Fin (T - c.maxLag)) (l : Fin k) : Flt K := .fin (rowAt G (c.maxLag - c.lags i + r) l)

/-- `self.Z[max_lag:]`, src/reor/gpnh_convex_coding_crom.py lines 127-138. -/
def predicted (c : CROMConfig p K) (G : Matrix (Fin T) (Fin k) K) (q : FltParams k p K)
    (r : Fin (T - c.maxLag)) (j : Fin k) : Flt K :=
  (List.finRange p).foldl (fun Z i => Z.add ((q.w i).mul
    (Flt.total fun l => (lagged c G i r l).mul (q.A i j l)))) (.fin 0)

/-- `self.Gamma[max_lag:] - self.Z[max_lag:]`. -/
def residual (c : CROMConfig p K) (G : Matrix (Fin T) (Fin k) K) (q : FltParams k p K)
    (r : Fin (T - c.maxLag)) (j : Fin k) : Flt K :=
  (Flt.fin (rowAt G (c.maxLag + r) j)).sub (q.predicted c G r j)

/-- `1.0 / (self.n_components * (n_samples - max_lag))`, src/reor/gpnh_convex_coding_crom.py
lines 151 and 162. -/
def normalization (c : CROMConfig p K) (T k : ℕ) : Flt K :=
  (Flt.fin ((k : K) * ((T : K) - (c.maxLag : K)))).inv

/-- `_evaluate_fit_residual`, src/reor/gpnh_convex_coding_crom.py lines 140-155. -/
def cost (c : CROMConfig p K) (G : Matrix (Fin T) (Fin k) K) (q : FltParams k p K) : Flt K :=
  if k = 1 then .fin 0
  else (normalization c T k).mul ((Flt.fin 0).add (Flt.total fun r => Flt.total fun j =>
    (q.residual c G r j).mul (q.residual c G r j)))

/-- `_update_parameters_gradient`, src/reor/gpnh_convex_coding_crom.py lines 157-177. -/
def grad (c : CROMConfig p K) (G : Matrix (Fin T) (Fin k) K) (q : FltParams k p K) :
    FltParams k p K :=
  let scale := (Flt.fin (-2)).mul (normalization c T k)
  { w := fun i => scale.mul (Flt.total fun r => Flt.total fun l =>
      (Flt.total fun j => (q.residual c G r j).mul (q.A i j l)).mul (lagged c G i r l))
    A := fun i a b => (scale.mul (q.w i)).mul
      (Flt.total fun r => (q.residual c G r a).mul (lagged c G i r b)) }

/-- The increments, src/reor/gpnh_convex_coding_crom.py lines 234-248. -/
def increment (q : FltParams k p K) (alpha : Flt K) (g : FltParams k p K) : FltParams k p K :=
  { w := fun i => (fltProjectVector (fun l => (q.w l).sub (alpha.mul (g.w l))) i).sub (q.w i)
    A := fun i a b => (fltProjectVector (fun r => (q.A i r b).sub (alpha.mul (g.A i r b))) a).sub
      (q.A i a b) }

end FltParams

/-- The `while` loop of `_parameters_line_search`, src/reor/gpnh_convex_coding_crom.py
lines 208-224. -/
def fltBacktrack {T k p : ℕ} (c : CROMConfig p K) (G : Matrix (Fin T) (Fin k) K)
    (old incr : FltParams k p K) (fMax incrNorm current : Flt K) (step : Flt K)
    (q : FltParams k p K) (next : Flt K) : Option (Flt K × FltParams k p K) :=
  if next.gt (fMax.add (((Flt.fin c.ls.gamma).mul incrNorm).mul step)) then
    let step' := fltStepLength step incrNorm current next c.ls.sigmaOne c.ls.sigmaTwo
    let q' := old.move step' incr
    if (Flt.fin c.ls.stepSizeTolerance).gt step'.abs then some (step', q')
    else fltBacktrack c G old incr fMax incrNorm current step' q' (q'.cost c G)
  else some (step, q)
partial_fixpoint

/-- `if f_max is None or f >= f_max: f_max = f`. -/
def fltMaxStep (fMax : Option (Flt K)) (f : Flt K) : Option (Flt K) :=
  match fMax with
  | none => some f
  | some m => if f.ge m then some f else some m

/-- What an update leaves behind. -/
structure FltFit (k p : ℕ) (K : Type) where
  q : FltParams k p K
  alpha : Flt K
  mem : List (Flt K)

/-- `_update_parameters` with `_parameters_line_search`, src/reor/gpnh_convex_coding_crom.py
lines 179-274. -/
def fltUpdate {T k p : ℕ} (c : CROMConfig p K) (G : Matrix (Fin T) (Fin k) K) (s : FltFit k p K) :
    Py (FltFit k p K) :=
  let g := s.q.grad c G
  let incr := s.q.increment s.alpha g
  let current := s.q.cost c G
  match s.mem with
  | [] => Py.raise .indexError
  | _ :: rest =>
    let mem := rest ++ [current]
    match mem.foldl fltMaxStep none with
    | none => Py.raise .typeError
    | some fMax =>
      let incrNorm := incr.pairing g
      let q := s.q.move (.fin 1) incr
      match fltBacktrack c G s.q incr fMax incrNorm current (.fin 1) q (q.cost c G) with
      | none => Py.diverge
      | some (step, q) =>
        let g' := q.grad c G
        let delta : FltParams k p K :=
          ⟨fun i => (g'.w i).sub (g.w i), fun i a b => (g'.A i a b).sub (g.A i a b)⟩
        let sksk := (step.mul step).mul (incr.pairing incr)
        let beta := step.mul (incr.pairing delta)
        Py.ok ⟨q, fltAlpha beta sksk c.ls.alphaMin c.ls.alphaMax, mem⟩

/-- The loop, src/reor/gpnh_convex_coding_crom.py lines 302-325. -/
def fltFitLoop {T k p : ℕ} (c : CROMConfig p K) (G : Matrix (Fin T) (Fin k) K) (require : Bool)
    (tolerance : K) : ℕ → FltFit k p K → Flt K → Py (FltFit k p K)
  | 0, s, _ => Py.ok s
  | n + 1, s, old => do
    let s ← fltUpdate c G s
    let new := s.q.cost c G
    if new.gt old && require then Py.raise .runtimeError
    else if (Flt.fin tolerance).gt (new.sub old).abs then Py.ok s
    else fltFitLoop c G require tolerance n s new

/-- `_fit_parameters` after the draws, src/reor/gpnh_convex_coding_crom.py lines 297-325; see
`cromSolve` for the failures at the beginning. -/
def fltSolve {T k p : ℕ} (c : CROMConfig p K) (G : Matrix (Fin T) (Fin k) K) (require : Bool)
    (tolerance : K) (maxIterations : ℕ) (w : Fin p → K) (A : Fin p → Matrix (Fin k) (Fin k) K) :
    Py (FltFit k p K) :=
  if p = 0 then Py.raise .valueError
  else if (∃ i, c.lags i = 0) ∧ c.maxLag < T then Py.raise .valueError
  else
    let q : FltParams k p K := ⟨fun i => .fin (w i), fun i a b => .fin (A i a b)⟩
    fltFitLoop c G require tolerance maxIterations
      ⟨q, .fin 1, List.replicate c.ls.memory (.fin 0)⟩ (q.cost c G)

end Reor
