import Verif.Model.VARX

/-!
Model of `src/reor/pwvarx.py`.  The clustering and the classification are scikit-learn's and enter as
parameters, and so does the least-squares routine.  The orders `p` and `s` are natural numbers here
(negative orders, which the constructor does not reject, are not modelled).  Everything is over the
real numbers; the truncation of the residuals for integer data is in Model/DTypesFEM.lean.
-/

namespace Reor

open scoped BigOperators

/-- A one- or two-dimensional array. -/
inductive PWArr where
  | vec (n : ℕ) (x : Fin n → ℝ)
  | mat (a : Arr2 ℝ)

/-- The array with a column axis, src/reor/pwvarx.py lines 67-78. -/
def PWArr.matrix : PWArr → Arr2 ℝ
  | .vec n x => ⟨n, 1, fun t _ => x t⟩
  | .mat a => a

/-- `exog[L - i:-i]` as the right side of an assignment to `m` rows, src/reor/pwvarx.py lines 95-96:
a single row is repeated, any other number of rows than `m` is a ValueError. -/
def exogBlock (m L : ℕ) (u : Arr2 ℝ) (i : ℕ) : Py (Matrix (Fin m) (Fin u.cols) ℝ) :=
  if h : u.rows - L = m then Py.ok fun t => lagRows L u.val i (Fin.cast h.symm t)
  else if h : u.rows - L = 1 then Py.ok fun _ => lagRows L u.val i (Fin.cast h.symm 0)
  else Py.raise .valueError

/-- The loop over the lags of the exogenous variables, src/reor/pwvarx.py lines 94-97. -/
def writeExog {N : ℕ} (m L : ℕ) (u : Arr2 ℝ) :
    List ℕ → Matrix (Fin m) (Fin N) ℝ × ℕ → Py (Matrix (Fin m) (Fin N) ℝ × ℕ)
  | [], r => Py.ok r
  | i :: is, r => do
    let block ← exogBlock m L u i
    writeExog m L u is (setCols r.1 r.2 block, r.2 + u.cols)

/-- Lines 93-97 of src/reor/pwvarx.py (for `s = 0` there are no lags to write). -/
def stackExog {N : ℕ} (m L s : ℕ) (exog : Option (Arr2 ℝ)) (r : Matrix (Fin m) (Fin N) ℝ × ℕ) :
    Py (Matrix (Fin m) (Fin N) ℝ × ℕ) :=
  match exog with
  | none => Py.ok r
  | some u => if s > 0 then writeExog m L u (lagRange s) r else Py.ok r

/-- `_stack_predictors`, src/reor/pwvarx.py lines 63-99: fewer samples than the presample are a
ValueError (negative dimensions). -/
def stackPredictors (p s : ℕ) (endog : Arr2 ℝ) (exog : Option (Arr2 ℝ)) :
    Py (Matrix (Fin (endog.rows - max p s)) (Fin (p * endog.cols + s * exogCols exog)) ℝ) :=
  if endog.rows < max p s then Py.raise .valueError
  else do
    let r ← stackExog (endog.rows - max p s) (max p s) s exog
      (writeLags (max p s) endog.val (lagRange p) (0, 0))
    pure r.1

/-- `np.hstack([a, b])` of two-dimensional arrays with the same number of rows. -/
def hstack {m a b : ℕ} (x : Matrix (Fin m) (Fin a) ℝ) (y : Matrix (Fin m) (Fin b) ℝ) :
    Matrix (Fin m) (Fin (a + b)) ℝ :=
  fun t j => if h : (j : ℕ) < a then x t ⟨j, h⟩ else y t ⟨j - a, by have := j.2; omega⟩

/-- scikit-learn's clustering and classification as used here.  Clustering returns an integer for each
row; `predict` does not change the classifier. -/
structure PWLib where
  /-- clustering objects -/
  Clusterer : Type
  /-- `KMeans(n_clusters=n)` -/
  newKMeans : NumArg ℝ → Clusterer
  /-- `clusterer.fit_predict(z)` -/
  fitPredict : Clusterer → (z : Arr2 ℝ) → Py (Clusterer × (Fin z.rows → ℤ))
  /-- classifier objects -/
  Classifier : Type
  /-- `SVC()` -/
  newSVC : Classifier
  /-- `classifier.fit(x, labels)` -/
  fit : Classifier → (x : Arr2 ℝ) → (Fin x.rows → ℤ) → Py Classifier
  /-- `classifier.predict(x)` -/
  predict : Classifier → (x : Arr2 ℝ) → Py (Fin x.rows → ℤ)

/-- An array of covariance matrices, `none` where one is not finite. -/
structure SigmaArr where
  size : ℕ
  dim : ℕ
  val : Fin size → Option (Matrix (Fin dim) (Fin dim) ℝ)

/-- A `ClusterPWVARX` object, src/reor/pwvarx.py lines 47-61. -/
structure PWObj (lib : PWLib) where
  nComponents : NumArg ℝ
  p : ℕ
  s : ℕ := 0
  includeTrend : Bool := true
  clusterer : Option lib.Clusterer := none
  classifier : Option lib.Classifier := none
  mu : Option (Arr2 ℝ) := none
  A : Option (Arr4 ℝ) := none
  B : Option (Arr4 ℝ) := none
  sigmaU : Option SigmaArr := none
  residuals : Option (Arr2 ℝ) := none
  clusterLabels_ : Option (Σ m : ℕ, Fin m → ℤ) := none

/-! ### `_fit_var_model` -/

/-- The rows selected by `labels == k`. -/
def maskRows {m : ℕ} (labels : Fin m → ℤ) (k : ℕ) : List (Fin m) :=
  (List.finRange m).filter fun t => decide (labels t = k)

/-- `a[mask]`. -/
def takeRows {m w : ℕ} (a : Matrix (Fin m) (Fin w) ℝ) (rows : List (Fin m)) :
    Matrix (Fin rows.length) (Fin w) ℝ := fun r => a (rows.get r)

/-- `a[mask] = b`. -/
def putRows {m w : ℕ} (a : Matrix (Fin m) (Fin w) ℝ) (rows : List (Fin m))
    (b : Matrix (Fin rows.length) (Fin w) ℝ) : Matrix (Fin m) (Fin w) ℝ :=
  fun t => if h : rows.idxOf t < rows.length then b ⟨rows.idxOf t, h⟩ else a t

/-- Number of columns for the trend. -/
def trendCols (trend : Bool) : ℕ := if trend then 1 else 0

/-- The matrix `X` of lines 139-143 of src/reor/pwvarx.py. -/
def pwDesign {c N : ℕ} : (trend : Bool) → Matrix (Fin c) (Fin N) ℝ →
    Matrix (Fin c) (Fin (trendCols trend + N)) ℝ
  | true, x => hstack (fun _ _ => 1) x
  | false, x => fun t j => x t (Fin.cast (Nat.zero_add N) j)

/-- The arrays that the loop over the components fills. -/
structure PWState (K m D p s E : ℕ) where
  mu : Matrix (Fin K) (Fin D) ℝ
  A : Fin K → Fin p → Matrix (Fin D) (Fin D) ℝ
  B : Fin K → Fin s → Matrix (Fin D) (Fin E) ℝ
  sigmaU : Fin K → Option (Matrix (Fin D) (Fin D) ℝ)
  residuals : Matrix (Fin m) (Fin D) ℝ

section Fit

variable {K m D p s E : ℕ} {trend : Bool}

/-- Lines 148-150 of src/reor/pwvarx.py: `params[0]` if there is a trend. -/
def pwReadMu (params : Matrix (Fin (trendCols trend + (p * D + s * E))) (Fin D) ℝ) :
    Option (Fin D → ℝ) :=
  if h : trend = true then some (params ⟨0, by simp [h, trendCols]⟩) else none

/-- Lines 152-156 of src/reor/pwvarx.py: entry `(i, r, c)` of the reshaped array is entry
`(i * n_endog + r, c)` of the slice; then the last two axes are swapped. -/
def pwReadA (params : Matrix (Fin (trendCols trend + (p * D + s * E))) (Fin D) ℝ) :
    Fin p → Matrix (Fin D) (Fin D) ℝ :=
  fun i a b => params ⟨trendCols trend + (i * D + b), by have := mul_add_lt i.2 b.2; omega⟩ a

/-- Lines 158-161 of src/reor/pwvarx.py. -/
def pwReadB (params : Matrix (Fin (trendCols trend + (p * D + s * E))) (Fin D) ℝ) :
    Fin s → Matrix (Fin D) (Fin E) ℝ :=
  fun i a b => params ⟨trendCols trend + D * p + (i * E + b), by
    have := mul_add_lt i.2 b.2
    have := Nat.mul_comm D p
    omega⟩ a

/-- One pass of the loop of `_fit_var_model`, src/reor/pwvarx.py lines 134-172. -/
noncomputable def pwStep (lstsq : LstSq) (trend : Bool) (y : Matrix (Fin m) (Fin D) ℝ)
    (x : Matrix (Fin m) (Fin (p * D + s * E)) ℝ) (labels : Fin m → ℤ)
    (st : PWState K m D p s E) (k : Fin K) : Py (PWState K m D p s E) := do
  let rows := maskRows labels k
  let Y := takeRows y rows
  let X := pwDesign trend (takeRows x rows)
  let params ← lstsq _ _ _ X Y
  let residuals := putRows st.residuals rows (Y - X * params)
  let df : ℝ := (rows.length : ℝ) - p * D - trendCols trend - E * s
  pure
    { mu := Function.update st.mu k ((pwReadMu params).getD (st.mu k))
      A := Function.update st.A k (pwReadA params)
      B := Function.update st.B k (pwReadB params)
      sigmaU := Function.update st.sigmaU k (covariance (takeRows residuals rows) df)
      residuals := residuals }

/-- The loop of `_fit_var_model`, src/reor/pwvarx.py line 132. -/
noncomputable def pwLoop (lstsq : LstSq) (trend : Bool) (y : Matrix (Fin m) (Fin D) ℝ)
    (x : Matrix (Fin m) (Fin (p * D + s * E)) ℝ) (labels : Fin m → ℤ) :
    List (Fin K) → PWState K m D p s E → Py (PWState K m D p s E)
  | [], st => Py.ok st
  | k :: ks, st => do
    let st ← pwStep lstsq trend y x labels st k
    pwLoop lstsq trend y x labels ks st

end Fit

/-- `self.n_components` as the size of an array, src/reor/pwvarx.py lines 115, 118, 130. -/
def pwSize : NumArg ℝ → Py ℕ
  | .int z => if z < 0 then Py.raise .valueError else Py.ok z.toNat
  | _ => Py.raise .typeError

section Methods

variable {lib : PWLib}

/-- `_fit_var_model`, src/reor/pwvarx.py lines 110-172.  (`x` has `p * n_endog + s * n_exog` columns,
so `n_lagged_exog` is `s * n_exog`.)  Attributes that are not assigned keep their values. -/
noncomputable def PWObj.fitVarModel (lstsq : LstSq) (obj : PWObj lib) {m D E : ℕ}
    (y : Matrix (Fin m) (Fin D) ℝ) (x : Matrix (Fin m) (Fin (obj.p * D + obj.s * E)) ℝ)
    (labels : Fin m → ℤ) : Py (PWObj lib) := do
  let K ← pwSize obj.nComponents
  let st ← pwLoop lstsq obj.includeTrend y x labels (List.finRange K)
    ⟨0, fun _ _ => 0, fun _ _ => 0, fun _ => some 0, 0⟩
  pure { obj with
    mu := if obj.includeTrend then some (Arr2.of st.mu) else obj.mu
    A := if obj.p > 0 then some ⟨_, _, _, _, st.A⟩ else obj.A
    B := if obj.s * E > 0 then some ⟨_, _, _, _, st.B⟩ else obj.B
    sigmaU := some ⟨_, _, st.sigmaU⟩
    residuals := some (Arr2.of st.residuals) }

/-- `_cluster` and the classification, src/reor/pwvarx.py lines 101-108 and 209-213: the clusterer and
the classifier are made at the first fit and kept. -/
def PWObj.classify (obj : PWObj lib) {m N D : ℕ} (x : Matrix (Fin m) (Fin N) ℝ)
    (y : Matrix (Fin m) (Fin D) ℝ) : Py (PWObj lib × (Fin m → ℤ)) := do
  let c ← lib.fitPredict (obj.clusterer.getD (lib.newKMeans obj.nComponents)) (Arr2.of (hstack x y))
  let f ← lib.fit (obj.classifier.getD lib.newSVC) (Arr2.of x) c.2
  let labels ← lib.predict f (Arr2.of x)
  pure ({ obj with
    clusterer := some c.1
    classifier := some f
    clusterLabels_ := some ⟨m, c.2⟩ }, labels)

/-- The arrays that `np.hstack` joins must have the same number of axes, src/reor/pwvarx.py lines
193-203 and 103: `y` has three if the data are two-dimensional with one column. -/
def checkAxes : PWArr → Py Unit
  | .vec _ _ => Py.ok ()
  | .mat a => if a.cols = 1 then Py.raise .valueError else Py.ok ()

/-- `fit_transform`, src/reor/pwvarx.py lines 174-217 (`fit`, lines 219-233, without the labels). -/
noncomputable def PWObj.fitTransform (lstsq : LstSq) (obj : PWObj lib) (endog : PWArr)
    (exog : Option PWArr) : Py (PWObj lib × Σ m : ℕ, Fin m → ℤ) := do
  let data := endog.matrix
  let y := lagRows (max obj.p obj.s) data.val 0
  let x ← stackPredictors obj.p obj.s data (exog.map PWArr.matrix)
  let _ ← checkAxes endog
  let r ← obj.classify x y
  let obj' ← PWObj.fitVarModel lstsq
    { obj with clusterer := r.1.clusterer, classifier := r.1.classifier,
               clusterLabels_ := r.1.clusterLabels_ } y x r.2
  pure (obj', ⟨_, r.2⟩)

/-- `transform`, src/reor/pwvarx.py lines 235-251. -/
def PWObj.transform (obj : PWObj lib) (endog : PWArr) (exog : Option PWArr) :
    Py (Σ m : ℕ, Fin m → ℤ) := do
  let x ← stackPredictors obj.p obj.s endog.matrix (exog.map PWArr.matrix)
  match obj.classifier with
  | none => Py.raise .attributeError
  | some f => do
    let labels ← lib.predict f (Arr2.of x)
    pure ⟨_, labels⟩

end Methods

end Reor
