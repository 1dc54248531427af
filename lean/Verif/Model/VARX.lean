import Verif.Model.FEMBV
import Verif.Model.MTD
import Mathlib.Analysis.Real.Sqrt
import Mathlib.LinearAlgebra.Matrix.NonsingularInverse

/-!
Model of `src/reor/fembv_varx.py`.  The least-squares routine and the linear programming solver are
parameters; so is the content of freshly allocated memory.  Everything is over the real numbers.
-/

namespace Reor

open scoped BigOperators

/-! ### Lagged regressors -/

section Lags

variable {K : Type}

/-- `x[L - i:-i]` for `1 <= i <= L`, and `x[L:]` for `i = 0`. -/
def lagRows {n w : ℕ} (L : ℕ) (x : Matrix (Fin n) (Fin w) K) (i : ℕ) :
    Matrix (Fin (n - L)) (Fin w) K :=
  fun t => x ⟨t + (L - i), by have := t.2; omega⟩

/-- `z[:, c:c + w] = block`. -/
def setCols {m N w : ℕ} (z : Matrix (Fin m) (Fin N) K) (c : ℕ) (block : Matrix (Fin m) (Fin w) K) :
    Matrix (Fin m) (Fin N) K :=
  fun t j => if h : c ≤ j ∧ (j : ℕ) < c + w then block t ⟨j - c, by omega⟩ else z t j

/-- The loop `for i in lags: z[:, c:c + w] = x[L - i:-i]; c += w`. -/
def writeLags {n w N : ℕ} (L : ℕ) (x : Matrix (Fin n) (Fin w) K) :
    List ℕ → Matrix (Fin (n - L)) (Fin N) K × ℕ → Matrix (Fin (n - L)) (Fin N) K × ℕ
  | [], r => r
  | i :: is, r => writeLags L x is (setCols r.1 r.2 (lagRows L x i), r.2 + w)

/-- `range(1, p + 1)`. -/
def lagRange (p : ℕ) : List ℕ := (List.range p).map fun i => i + 1

end Lags

/-! ### `FEMBVVARXLocalLinearModel` -/

/-- Content of freshly allocated arrays. -/
abbrev Memory : Type := (m n : ℕ) → Matrix (Fin m) (Fin n) ℝ

/-- `np.linalg.lstsq(a, b, rcond=None)[0]`. -/
abbrev LstSq : Type := (m n r : ℕ) → Matrix (Fin m) (Fin n) ℝ → Matrix (Fin m) (Fin r) ℝ →
  Py (Matrix (Fin n) (Fin r) ℝ)

/-- The part of a local model that the constructor sets and `fit` does not change.  Without external
factors `E = 0` and `s = 0`. -/
structure VARXModel (D E : ℕ) where
  n : ℕ
  p : ℕ
  s : ℕ
  y : Matrix (Fin n) (Fin D) ℝ
  u : Matrix (Fin n) (Fin E) ℝ
  z : Matrix (Fin (n - max p s)) (Fin (1 + p * D + E * (1 + s))) ℝ

/-- `z[:, 0] = 1.0`. -/
def firstColumnOnes {m N : ℕ} (z : Matrix (Fin m) (Fin N) ℝ) : Matrix (Fin m) (Fin N) ℝ :=
  fun t j => if (j : ℕ) = 0 then 1 else z t j

/-- `self._z`, src/reor/fembv_varx.py lines 69-88 (all writes of the last lines have width 0 if there
are no external factors). -/
def varxRegressors (mem : Memory) {n D E : ℕ} (p s : ℕ) (y : Matrix (Fin n) (Fin D) ℝ)
    (u : Matrix (Fin n) (Fin E) ℝ) :
    Matrix (Fin (n - max p s)) (Fin (1 + p * D + E * (1 + s))) ℝ :=
  let L := max p s
  let z := firstColumnOnes (mem (n - L) (1 + p * D + E * (1 + s)))
  let r := writeLags L y (lagRange p) (z, 1)
  let r := writeLags L u (lagRange s) r
  setCols r.1 r.2 (lagRows L u 0)

/-- The checks of `p` and `s`, src/reor/fembv_varx.py lines 21-22 and 51-53. -/
def varxOrder : NumArg ℝ → Py ℕ
  | .int z => if z < 0 then Py.raise .valueError else Py.ok z.toNat
  | _ => Py.raise .valueError

/-- Number of columns of the external factors. -/
def exogCols : Option (Arr2 ℝ) → ℕ
  | none => 0
  | some u => u.cols

/-- Allocation of the regressors, src/reor/fembv_varx.py lines 69-90: fewer samples than the
presample are a ValueError (negative dimensions). -/
def varxAlloc (mem : Memory) {n D E : ℕ} (p s : ℕ) (y : Matrix (Fin n) (Fin D) ℝ)
    (u : Matrix (Fin n) (Fin E) ℝ) : Py (VARXModel D E) :=
  if n < max p s then Py.raise .valueError
  else Py.ok ⟨n, p, s, y, u, varxRegressors mem p s y u⟩

/-- The constructor with external factors, src/reor/fembv_varx.py lines 39-61. -/
def varxExog (mem : Memory) {n D : ℕ} (y : Matrix (Fin n) (Fin D) ℝ) (p : ℕ) (u : Arr2 ℝ)
    (s : NumArg ℝ) : Py (VARXModel D u.cols) := do
  let _ ← checkArray (some u)
  if h : u.rows = n then do
    let s ← varxOrder s
    varxAlloc mem p s y (u.cast h rfl)
  else Py.raise .valueError

/-- The rest of the constructor, src/reor/fembv_varx.py lines 39-90. -/
def varxExternal (mem : Memory) {n D : ℕ} (y : Matrix (Fin n) (Fin D) ℝ) (p : ℕ) (s : NumArg ℝ) :
    (u : Option (Arr2 ℝ)) → Py (VARXModel D (exogCols u))
  | none => varxAlloc (E := 0) mem p 0 y fun _ e => e.elim0
  | some u => varxExog mem y p u s

/-- The constructor of `FEMBVVARXLocalLinearModel`, src/reor/fembv_varx.py lines 20-90. -/
def varxModel (mem : Memory) {n D : ℕ} (y : Matrix (Fin n) (Fin D) ℝ) (p : NumArg ℝ)
    (u : Option (Arr2 ℝ)) (s : NumArg ℝ) : Py (VARXModel D (exogCols u)) := do
  let p ← varxOrder p
  let _ ← checkArray (some (Arr2.of y))
  varxExternal mem y p s u

/-- The part of a local model that `fit` changes.  `none` stands for a covariance matrix that is not
finite. -/
structure VARXFit {D E : ℕ} (m : VARXModel D E) where
  residuals : Matrix (Fin m.n) (Fin D) ℝ
  mu : Fin D → ℝ
  A : Fin m.p → Matrix (Fin D) (Fin D) ℝ
  B : Fin m.s → Matrix (Fin D) (Fin E) ℝ
  B0 : Matrix (Fin D) (Fin E) ℝ
  sigmaU : Option (Matrix (Fin D) (Fin D) ℝ)
  sigmaUInv : Option (Matrix (Fin D) (Fin D) ℝ)

section Fit

variable {D E : ℕ} (m : VARXModel D E)

/-- `presample_length`. -/
abbrev VARXModel.presample : ℕ := max m.p m.s

/-- Number of columns of the regressors. -/
abbrev VARXModel.nCols : ℕ := 1 + m.p * D + E * (1 + m.s)

/-- `self._y[presample_length:]`. -/
def VARXModel.target : Matrix (Fin (m.n - m.presample)) (Fin D) ℝ := lagRows m.presample m.y 0

/-- `self.residuals` after lines 112-113 of src/reor/fembv_varx.py; the entries before the presample
length keep the zeros of the constructor. -/
def VARXModel.residuals (params : Matrix (Fin m.nCols) (Fin D) ℝ) : Matrix (Fin m.n) (Fin D) ℝ :=
  fun t d =>
    if h : m.presample ≤ t then
      let t' : Fin (m.n - m.presample) := ⟨t - m.presample, by have := t.2; omega⟩
      m.target t' d - (m.z * params) t' d
    else 0

theorem mul_add_lt {a b i j : ℕ} (hi : i < a) (hj : j < b) : i * b + j < a * b := by
  have : i * b + b ≤ a * b := by
    rw [← Nat.succ_mul]
    exact Nat.mul_le_mul_right b hi
  omega

/-- `self.mu`, src/reor/fembv_varx.py line 115. -/
def VARXModel.readMu (params : Matrix (Fin m.nCols) (Fin D) ℝ) : Fin D → ℝ :=
  params ⟨0, by unfold VARXModel.nCols; omega⟩

/-- `self.A`, src/reor/fembv_varx.py lines 117-120: entry `(i, r, c)` of the reshaped array is entry
`(i * n_features + r, c)` of the slice; then the last two axes are swapped. -/
def VARXModel.readA (params : Matrix (Fin m.nCols) (Fin D) ℝ) :
    Fin m.p → Matrix (Fin D) (Fin D) ℝ :=
  fun i a b => params ⟨1 + (i * D + b), by
    have := mul_add_lt i.2 b.2
    unfold VARXModel.nCols
    omega⟩ a

/-- `self.B`, src/reor/fembv_varx.py lines 124-130. -/
def VARXModel.readB (params : Matrix (Fin m.nCols) (Fin D) ℝ) :
    Fin m.s → Matrix (Fin D) (Fin E) ℝ :=
  fun i a b => params ⟨1 + D * m.p + (i * E + b), by
    have := mul_add_lt i.2 b.2
    have h1 : E * (1 + m.s) = m.s * E + E := by ring
    have h2 : D * m.p = m.p * D := Nat.mul_comm _ _
    unfold VARXModel.nCols
    omega⟩ a

/-- `self.B0`, src/reor/fembv_varx.py lines 132-133. -/
def VARXModel.readB0 (params : Matrix (Fin m.nCols) (Fin D) ℝ) : Matrix (Fin D) (Fin E) ℝ :=
  fun a b => params ⟨1 + D * m.p + m.s * E + b, by
    have h1 : E * (1 + m.s) = m.s * E + E := by ring
    have h2 : D * m.p = m.p * D := Nat.mul_comm _ _
    have := b.2
    unfold VARXModel.nCols
    omega⟩ a

/-- Division by the degrees of freedom, src/reor/fembv_varx.py lines 135-147; dividing by 0 gives an
array that is not finite (and not an exception). -/
noncomputable def covariance {l D : ℕ} (r : Matrix (Fin l) (Fin D) ℝ) (df : ℝ) :
    Option (Matrix (Fin D) (Fin D) ℝ) :=
  if df = 0 then none else some fun a b => (r.transpose * r) a b / df

/-- `np.linalg.inv`, src/reor/fembv_varx.py line 149: LinAlgError for a singular matrix, no exception
for one that is not finite. -/
noncomputable def npInv {D : ℕ} :
    Option (Matrix (Fin D) (Fin D) ℝ) → Py (Option (Matrix (Fin D) (Fin D) ℝ))
  | none => Py.ok none
  | some S => if S.det = 0 then Py.raise .linAlgError else Py.ok (some S⁻¹)

/-- The rows of the residuals past the presample. -/
def VARXModel.tailResiduals (params : Matrix (Fin m.nCols) (Fin D) ℝ) :
    Matrix (Fin (m.n - m.presample)) (Fin D) ℝ :=
  lagRows m.presample (m.residuals params) 0

/-- Assembly of the result from the parameters and the covariance, src/reor/fembv_varx.py
lines 112-149. -/
noncomputable def VARXModel.finish (params : Matrix (Fin m.nCols) (Fin D) ℝ)
    (sigma : Option (Matrix (Fin D) (Fin D) ℝ)) : Py (VARXFit m) := do
  let inv ← npInv sigma
  pure
    { residuals := m.residuals params
      mu := m.readMu params
      A := m.readA params
      B := m.readB params
      B0 := m.readB0 params
      sigmaU := sigma
      sigmaUInv := inv }

/-- `fit()`, src/reor/fembv_varx.py lines 92-149. -/
noncomputable def VARXModel.fitPlain (lstsq : LstSq) : Py (VARXFit m) := do
  let params ← lstsq _ _ _ m.z m.target
  let df : ℝ := (m.n : ℝ) - m.presample - m.p * D - 1 - E * (1 + m.s)
  m.finish params (covariance (m.tailResiduals params) df)

/-- `w[:, np.newaxis] * a`. -/
def scaleRows {l c : ℕ} (w : Fin l → ℝ) (a : Matrix (Fin l) (Fin c) ℝ) :
    Matrix (Fin l) (Fin c) ℝ := fun t j => w t * a t j

/-- `weights[presample_length:]`. -/
def VARXModel.tailWeights (weights : Fin m.n → ℝ) : Fin (m.n - m.presample) → ℝ :=
  fun t => weights ⟨t + m.presample, by have := t.2; omega⟩

/-- `fit(weights)` with the right number of weights, src/reor/fembv_varx.py lines 92-149.  The square
root of a negative weight is not a number. -/
noncomputable def VARXModel.fitWeighted (lstsq : LstSq) (weights : Fin m.n → ℝ) :
    Py (VARXFit m) :=
  if ∃ t, m.tailWeights weights t < 0 then Py.raise .nonFinite
  else do
    let w : Fin (m.n - m.presample) → ℝ := fun t => Real.sqrt (m.tailWeights weights t)
    let params ← lstsq _ _ _ (scaleRows w m.z) (scaleRows w m.target)
    let df : ℝ := ∑ t, m.tailWeights weights t - 1
    m.finish params (covariance (scaleRows w (m.tailResiduals params)) df)

/-- `fit(weights)`, src/reor/fembv_varx.py lines 92-149: the shape of the weights is checked. -/
noncomputable def VARXModel.fit (lstsq : LstSq) (weights : Option (Σ l : ℕ, Fin l → ℝ)) :
    Py (VARXFit m) :=
  match weights with
  | none => m.fitPlain lstsq
  | some w =>
    if h : m.n = w.1 then m.fitWeighted lstsq fun t => w.2 (Fin.cast h t)
    else Py.raise .valueError

end Fit

/-! ### `FEMBVVARX` -/

/-- The `memory` argument. -/
inductive MemoryArg where
  | none
  | int (z : ℤ)
  | list (l : List ℤ)
  | other

/-- `np.full((n_components,), z, dtype='i8')`. -/
def npFullInt (nComponents : NumArg ℝ) (z : ℤ) : Py (List ℤ) :=
  match nComponents with
  | .int c => if c < 0 then Py.raise .valueError else Py.ok (List.replicate c.toNat z)
  | _ => Py.raise .typeError

/-- `self.memory.shape == (n_components,)`. -/
def memoryShape (nComponents : NumArg ℝ) (l : ℕ) : Prop :=
  match nComponents with
  | .int c => (l : ℤ) = c
  | .real x => (l : ℝ) = x
  | _ => False

/-- `self.memory` as set by the constructor, src/reor/fembv_varx.py lines 258-276.  (The entries of a
list are integers in the model; `np.asarray` would truncate other numbers.) -/
noncomputable def varxMemory (nComponents : NumArg ℝ) : MemoryArg → Py (List ℤ)
  | .none => npFullInt nComponents 0
  | .int z => if z < 0 then Py.raise .valueError else npFullInt nComponents z
  | .list l => by
    classical exact if memoryShape nComponents l.length then Py.ok l else Py.raise .valueError
  | .other => Py.raise .valueError

/-- One value after the other, for `for i in range(k)`. -/
def pyPi : {k : ℕ} → {β : Fin k → Type} → ((i : Fin k) → Py (β i)) → Py ((i : Fin k) → β i)
  | 0, _, _ => Py.ok fun i => i.elim0
  | _ + 1, _, f => do
    let a ← f 0
    let r ← pyPi fun i => f i.succ
    pure (Fin.cons a r)

/-- The fitted local models and the coefficients reported by `FEMBVVARX`, for `k` components and
maximal memory `L`. -/
structure VARXParams {k D E : ℕ} (models : Fin k → VARXModel D E) (L : ℕ) where
  fits : (i : Fin k) → VARXFit (models i)
  mu : Fin k → Fin D → ℝ
  A : Fin k → Fin L → Matrix (Fin D) (Fin D) ℝ
  B0 : Fin k → Matrix (Fin D) (Fin E) ℝ

/-- Rows of `X[c:]`. -/
def dropRows {n D : ℕ} (X : Matrix (Fin n) (Fin D) ℝ) (c : ℕ) : Matrix (Fin (n - c)) (Fin D) ℝ :=
  fun t => X ⟨t + c, by have := t.2; omega⟩

/-- `np.max(self.memory)` for a list that is not empty. -/
def maxMemory (memory : List ℤ) : ℤ := memory.max?.getD 0

/-- Squared residual of sample `row` in the metric `np.eye(n_features)`; the samples asked for always
exist (see `varxCheckShapes`). -/
noncomputable def sqResidual {D E : ℕ} {m : VARXModel D E} (f : VARXFit m) (row : ℕ) : ℝ :=
  if h : row < m.n then
    ∑ j, ∑ l, f.residuals ⟨row, h⟩ j * (1 : Matrix (Fin D) (Fin D) ℝ) j l * f.residuals ⟨row, h⟩ l
  else 0

/-- `_evaluate_distance_matrix`, src/reor/fembv_varx.py lines 287-295: a single residual is broadcast
over the samples. -/
noncomputable def varxDistance {k D E : ℕ} {models : Fin k → VARXModel D E} {L : ℕ} (T : ℕ)
    (p : VARXParams models L) : Matrix (Fin T) (Fin k) ℝ :=
  fun t i => if (models i).n - L = T then sqResidual (p.fits i) (t + L) else sqResidual (p.fits i) L

/-- The assignment in line 291 of src/reor/fembv_varx.py: the residuals past the maximal memory must
fill a column of the distance matrix or be a single one. -/
def varxCheckShapes {k D E : ℕ} (models : Fin k → VARXModel D E) (L T : ℕ) : Py Unit :=
  if ∀ i, (models i).n - L = T ∨ (models i).n - L = 1 then Py.ok () else Py.raise .valueError

/-- Weights of component `i`, src/reor/fembv_varx.py lines 355-358, shape
`(n_samples - presample_length + memory[i],)` where `n_samples - presample_length` is the number of
rows of `Gamma`. -/
def varxWeights {T k : ℕ} (Gamma : Matrix (Fin T) (Fin k) ℝ) (i : Fin k) (memory : ℕ) :
    Σ l : ℕ, Fin l → ℝ :=
  ⟨T + memory, fun t =>
    if h : memory ≤ t then Gamma ⟨t - memory, by have := t.2; omega⟩ i else 1⟩

/-- `_update_parameters`, src/reor/fembv_varx.py lines 347-368.  (The models have memory
`self.memory[i]`.) -/
noncomputable def varxUpdate {T k D E : ℕ} {models : Fin k → VARXModel D E} {L : ℕ} (lstsq : LstSq)
    (Gamma : Matrix (Fin T) (Fin k) ℝ) (p : VARXParams models L) : Py (VARXParams models L) := do
  let fits ← pyPi fun i => (models i).fit lstsq (some (varxWeights Gamma i (models i).p))
  pure
    { fits := fits
      mu := fun i => (fits i).mu
      A := fun i l => if h : (l : ℕ) < (models i).p then (fits i).A ⟨l, h⟩ else p.A i l
      B0 := fun i => (fits i).B0 }

/-- The FEM-BV-VARX component model. -/
noncomputable def varxComp {k D E : ℕ} (models : Fin k → VARXModel D E) (L T : ℕ) (lstsq : LstSq) :
    FEMComp (VARXParams models L) T k ℝ :=
  ⟨varxDistance T, varxUpdate lstsq⟩

/-- The external factors, src/reor/fembv_varx.py lines 301-316. -/
def varxCheckExog (n : ℕ) : Option (Arr2 ℝ) → Py Unit
  | none => Py.ok ()
  | some u => do
    let _ ← checkArray (some u)
    if u.rows = n then Py.ok () else Py.raise .valueError

/-- The local models of `_initialize_components`, src/reor/fembv_varx.py lines 330-334. -/
def varxModels (mem : Memory) {n D k : ℕ} (X : Matrix (Fin n) (Fin D) ℝ) (memory : Fin k → ℤ)
    (L : ℤ) (u : Option (Arr2 ℝ)) : Py (Fin k → VARXModel D (exogCols u)) :=
  pyPi fun i => varxModel mem (dropRows X (L - memory i).toNat) (.int (memory i)) u (.int 0)

/-- Result of `_initialize_components`. -/
structure VARXStart (k D E : ℕ) where
  L : ℕ
  models : Fin k → VARXModel D E
  params : VARXParams models L

/-- `_initialize_components`, src/reor/fembv_varx.py lines 297-345; `parameters` and `init` are not
looked at. -/
noncomputable def varxInit (mem : Memory) (lstsq : LstSq) {n D k : ℕ} (X : Matrix (Fin n) (Fin D) ℝ)
    (memory : Fin k → ℤ) (L : ℤ) (u : Option (Arr2 ℝ)) : Py (VARXStart k D (exogCols u)) := do
  let _ ← varxCheckExog n u
  let models ← varxModels mem X memory L u
  let fits ← pyPi fun i => (models i).fit lstsq none
  let _ ← varxCheckShapes models L.toNat (n - L.toNat)
  pure ⟨L.toNat, models, ⟨fits, fun _ _ => 0, fun _ _ _ _ => 0, fun _ _ _ => 0⟩⟩

/-- A four-dimensional array. -/
structure Arr4 (K : Type) where
  size : ℕ
  lags : ℕ
  rows : ℕ
  cols : ℕ
  val : Fin size → Fin lags → Matrix (Fin rows) (Fin cols) K

/-- A `FEMBVVARX` object, src/reor/fembv.py lines 45-68 and src/reor/fembv_varx.py lines 250-285. -/
structure FEMVARXObj (R : Rng ℝ) where
  nComponents : NumArg ℝ
  maxTvNorm : NumArg ℝ
  memory : List ℤ
  maxIterations : NumArg ℝ
  tolerance : NumArg ℝ
  randomState : R.G
  require : Bool
  Gamma : Option (Arr2 ℝ) := none
  mu : Option (Arr2 ℝ) := none
  A : Option (Arr4 ℝ) := none
  B0 : Option (Arr3 ℝ) := none
  nComponents_ : Option ℕ := none
  cost_ : Option ℝ := none
  nIter_ : Option ℕ := none

/-- Arguments of `_fembv_fit` besides the data, with the keyword argument `external_factors`. -/
structure FEMVARXArgs where
  parameters : Option (Arr2 ℝ) := none
  weights : Option (Arr2 ℝ) := none
  init : Option String := none
  updateParameters : Bool := true
  updateWeights : Bool := true
  externalFactors : Option (Arr2 ℝ) := none

/-- The run after the components are set up: `_initialize_weights` and `_iterate`,
src/reor/fembv.py lines 204-205 and 325-335. -/
noncomputable def femVARXIterate (R : Rng ℝ) (solver : LPSolver ℝ) (lstsq : LstSq)
    (obj : FEMVARXObj R) (n k : ℕ) (maxIterations : ℕ) (tolerance : ℝ) (args : FEMVARXArgs)
    {D E : ℕ} (start : VARXStart k D E) :
    Py (FEMResult (VARXParams start.models start.L) (n - start.L) k ℝ × R.G) := do
  let gamma ← femInitWeights R (n - start.L) k args.weights args.init obj.randomState
  let tv ← maxTvConstraint obj.maxTvNorm
  let con ← femConstraints tv k (n - start.L)
  let comp := varxComp start.models start.L (n - start.L) lstsq
  let r ← femIterate comp solver con obj.require tolerance maxIterations args.updateParameters
    args.updateWeights ⟨gamma.1, start.params, comp.distance start.params⟩
  pure (r, gamma.2)

/-- `_fembv_fit` of `FEMBVVARX`, src/reor/fembv.py lines 306-335.  The constructor makes the memory
as long as the number of components; other lengths, which it excludes, stand as an IndexError.
`self.A` is only touched if the maximal memory is positive, `self.B0` only with external factors. -/
noncomputable def femVARXRun (R : Rng ℝ) (solver : LPSolver ℝ) (lstsq : LstSq) (mem : Memory)
    (obj : FEMVARXObj R) (data : Arr2 ℝ) (args : FEMVARXArgs) :
    Py (FEMVARXObj R × FEMInfo ℝ) := do
  let obj := { obj with nComponents := defaultComponents obj.nComponents data.cols }
  let p ← checkParams obj.nComponents obj.maxIterations obj.tolerance
  if h : p.1 = obj.memory.length then do
    let start ← varxInit mem lstsq data.val (fun i : Fin p.1 => obj.memory.get (Fin.cast h i))
      (maxMemory obj.memory) args.externalFactors
    let r ← femVARXIterate R solver lstsq obj data.rows p.1 p.2.1 p.2.2 args start
    let warned := decide (r.1.nIter = p.2.1 ∧ p.2.2 > 0)
    pure ({ obj with
        randomState := r.2
        Gamma := some (Arr2.of r.1.state.Gamma)
        mu := some (Arr2.of r.1.state.params.mu)
        A := if start.L > 0 then some ⟨_, _, _, _, r.1.state.params.A⟩ else obj.A
        B0 := if args.externalFactors.isSome then some (Arr3.of r.1.state.params.B0) else obj.B0 },
      { cost := r.1.cost, nIter := r.1.nIter, warned := warned, trace := r.1.trace,
        failures := r.1.failures })
  else Py.raise .indexError

/-- `fit_transform`, src/reor/fembv.py lines 337-366 (`fit`, lines 368-381, without the return
value). -/
noncomputable def femVARXFitTransform (R : Rng ℝ) (solver : LPSolver ℝ) (lstsq : LstSq)
    (mem : Memory) (obj : FEMVARXObj R) (data : Arr2 ℝ) (args : FEMVARXArgs) :
    Py (FEMVARXObj R × Option (Arr2 ℝ) × FEMInfo ℝ) := do
  let r ← femVARXRun R solver lstsq mem obj data args
  let obj := { r.1 with
    nComponents_ := r.1.Gamma.map (fun G => G.cols)
    cost_ := some r.2.cost
    nIter_ := some r.2.nIter }
  pure (obj, obj.Gamma, r.2)

/-- `transform`, src/reor/fembv.py lines 383-400; external factors cannot be given. -/
noncomputable def femVARXTransform (R : Rng ℝ) (solver : LPSolver ℝ) (lstsq : LstSq) (mem : Memory)
    (obj : FEMVARXObj R) (data : Arr2 ℝ) : Py (FEMVARXObj R × Option (Arr2 ℝ) × FEMInfo ℝ) := do
  let r ← femVARXRun R solver lstsq mem obj data { updateParameters := false, updateWeights := true }
  pure (r.1, r.1.Gamma, r.2)

end Reor
