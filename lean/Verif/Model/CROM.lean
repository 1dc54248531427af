import Verif.Model.Arrays

/-!
Model of `src/reor/crom.py`: reduced order models from k-means clusters with Markov transitions.
The clustering itself is scikit-learn's `KMeans`, which is outside the repository: it enters as the
parameter `KMeansLib`.
-/

namespace Reor

open scoped BigOperators

variable {K : Type}

/-- scikit-learn's `KMeans` as used by crom.py: its objects, what their methods return, and the
objects as the methods leave them.  `X` stands for the data arguments (the array and the sample
weights).  Draws from the global random state are part of the functions. -/
structure KMeansLib (K : Type) where
  /-- fitted or unfitted `KMeans` objects -/
  Obj : Type
  /-- keyword arguments forwarded to the constructor -/
  Kwargs : Type
  /-- optional sample weights -/
  Weights : Type
  /-- `KMeans(n_clusters=n, **kwargs)` -/
  new : NumArg K → Kwargs → Obj
  /-- `km.fit(X, sample_weight=w)` -/
  fit : Obj → Arr2 K → Weights → Py Obj
  /-- `km.fit_predict(X, sample_weight=w)` -/
  fitPredict : Obj → Arr2 K → Weights → Py (Obj × List ℕ)
  /-- `km.fit_transform(X, sample_weight=w)` -/
  fitTransform : Obj → Arr2 K → Weights → Py (Obj × Arr2 K)
  /-- `km.predict(X, sample_weight=w)` -/
  predict : Obj → Arr2 K → Weights → Py (List ℕ)
  /-- `km.transform(X)` -/
  transform : Obj → Arr2 K → Py (Arr2 K)
  /-- `km.cluster_centers_` -/
  centers : Obj → Arr2 K
  /-- `km.labels_` -/
  labels : Obj → List ℕ
  /-- `km.inertia_` -/
  inertia : Obj → K
  /-- `km.n_iter_` -/
  nIter : Obj → ℕ

/-- What scikit-learn documents: fitting needs a positive integer number of clusters and gives that
many centres; labels are cluster numbers, one per sample; fitting again keeps the number of
clusters. -/
structure KMeansLib.Lawful (lib : KMeansLib K) : Prop where
  fit_clusters : ∀ n kw X w km, lib.fit (lib.new n kw) X w = Py.ok km →
    ∃ z : ℤ, n = .int z ∧ 1 ≤ z ∧ ((lib.centers km).rows : ℤ) = z
  fit_length : ∀ km X w km', lib.fit km X w = Py.ok km' → (lib.labels km').length = X.rows
  fit_labels : ∀ km X w km', lib.fit km X w = Py.ok km' →
    ∀ l ∈ lib.labels km', l < (lib.centers km').rows
  refit_predict : ∀ km X w r, lib.fitPredict km X w = Py.ok r →
    (lib.centers r.1).rows = (lib.centers km).rows
  refit_transform : ∀ km X w r, lib.fitTransform km X w = Py.ok r →
    (lib.centers r.1).rows = (lib.centers km).rows
  predict_length : ∀ km X w l, lib.predict km X w = Py.ok l → l.length = X.rows
  predict_labels : ∀ km X w l, lib.predict km X w = Py.ok l → ∀ i ∈ l, i < (lib.centers km).rows

/-! ### Arithmetic with NaN -/

/-- A floating point product: `none` is NaN, which is also what `0 * NaN` gives. -/
def nanMul [Mul K] (x y : Option K) : Option K := Option.map₂ (· * ·) x y

/-- A floating point sum: one NaN term makes it NaN. -/
def nanSum [AddCommMonoid K] {n : ℕ} (f : Fin n → Option K) : Option K :=
  if ∃ i, (f i).isNone then none else some (∑ i, (f i).getD 0)

/-- `A.dot(B)` of two-dimensional arrays with NaN entries; the inner dimensions must agree. -/
def nanDot [NonUnitalNonAssocSemiring K] (A B : Arr2 (Option K)) : Py (Arr2 (Option K)) :=
  if h : A.cols = B.rows then
    Py.ok ⟨A.rows, B.cols, fun i j => nanSum fun l => nanMul (A.val i l) (B.val (Fin.cast h l) j)⟩
  else Py.raise .valueError

/-! ### The transition matrix -/

/-- `np.array(labels == j, dtype='i8')`, src/reor/crom.py lines 53 and 55. -/
def indicator (labels : List ℕ) (j : ℕ) : List ℕ := labels.map fun l => if l = j then 1 else 0

/-- `n_jk / n_k` for numpy integers: 0/0 is NaN.  (`n_jk <= n_k`, so there is no infinity.) -/
def countRatio [DivisionRing K] (a b : ℕ) : Option K := if b = 0 then none else some (a / b)

/-- `transition_matrix[j, k]`, src/reor/crom.py lines 50-58. -/
def transitionEntry [DivisionRing K] (labels : List ℕ) (j k : ℕ) : Option K :=
  let Tj := indicator labels j
  let Tk := indicator labels k
  let n_jk := (List.zipWith (· * ·) Tj.tail Tk.dropLast).sum
  let n_k := Tk.dropLast.sum
  countRatio n_jk n_k

/-- `kmeans_markov_crom`, src/reor/crom.py lines 12-60. -/
def kmeansMarkovCrom [DivisionRing K] (lib : KMeansLib K) (X : Arr2 K) (nClusters : NumArg K)
    (sampleWeight : lib.Weights) (kwargs : lib.Kwargs) : Py (lib.Obj × Arr2 (Option K)) := do
  let kmeans ← lib.fit (lib.new nClusters kwargs) X sampleWeight
  let labels := lib.labels kmeans
  let n := (lib.centers kmeans).rows
  pure (kmeans, ⟨n, n, fun j k => transitionEntry labels j k⟩)

/-! ### The estimator -/

/-- The attributes set by `fit`, src/reor/crom.py lines 126-131. -/
structure KMCromFitted (lib : KMeansLib K) where
  clusterCenters : Arr2 K
  labels : List ℕ
  inertia : K
  nIter : ℕ
  kmeans : lib.Obj
  transitionMatrix : Arr2 (Option K)

/-- A `KMeansMarkovCROM` object, src/reor/crom.py lines 101-103; `fitted` is `none` until `fit` has
set its attributes. -/
structure KMCrom (lib : KMeansLib K) where
  nClusters : NumArg K
  kwargs : lib.Kwargs
  fitted : Option (KMCromFitted lib) := none

variable {lib : KMeansLib K}

/-- `fit`, src/reor/crom.py lines 105-133. -/
def KMCrom.fit [DivisionRing K] (obj : KMCrom lib) (X : Arr2 K) (sampleWeight : lib.Weights) :
    Py (KMCrom lib) := do
  let r ← kmeansMarkovCrom lib X obj.nClusters sampleWeight obj.kwargs
  pure { obj with
    fitted := some
      { clusterCenters := lib.centers r.1
        labels := lib.labels r.1
        inertia := lib.inertia r.1
        nIter := lib.nIter r.1
        kmeans := r.1
        transitionMatrix := r.2 } }

/-- Access to an attribute that only `fit` sets. -/
def KMCrom.getFitted (obj : KMCrom lib) : Py (KMCromFitted lib) :=
  match obj.fitted with
  | none => Py.raise .attributeError
  | some f => Py.ok f

/-- `fit_predict`, src/reor/crom.py lines 135-153: it fits the inner k-means object. -/
def KMCrom.fitPredict (obj : KMCrom lib) (X : Arr2 K) (sampleWeight : lib.Weights) :
    Py (KMCrom lib × List ℕ) := do
  let f ← obj.getFitted
  let r ← lib.fitPredict f.kmeans X sampleWeight
  pure ({ obj with fitted := some { f with kmeans := r.1 } }, r.2)

/-- `fit_transform`, src/reor/crom.py lines 155-173: it fits the inner k-means object. -/
def KMCrom.fitTransform (obj : KMCrom lib) (X : Arr2 K) (sampleWeight : lib.Weights) :
    Py (KMCrom lib × Arr2 K) := do
  let f ← obj.getFitted
  let r ← lib.fitTransform f.kmeans X sampleWeight
  pure ({ obj with fitted := some { f with kmeans := r.1 } }, r.2)

/-- `transform`, src/reor/crom.py lines 222-236. -/
def KMCrom.transform (obj : KMCrom lib) (X : Arr2 K) : Py (Arr2 K) := do
  let f ← obj.getFitted
  lib.transform f.kmeans X

/-- The number of columns in `np.zeros((n_samples, n_clusters))`, src/reor/crom.py lines 207-210:
only a non-negative integer will do. -/
def clusterCount (n : NumArg K) : Py ℕ :=
  match n with
  | .int z => if z < 0 then Py.raise .valueError else Py.ok z.toNat
  | _ => Py.raise .typeError

/-- One-hot rows, src/reor/crom.py lines 210-212. -/
def oneHot [Zero K] [One K] (labels : List ℕ) (n : ℕ) : Arr2 (Option K) :=
  ⟨labels.length, n, fun i j => some (if labels.get i = j then 1 else 0)⟩

/-- The transpose of an array. -/
def Arr2.transpose {α : Type} (A : Arr2 α) : Arr2 α := ⟨A.cols, A.rows, fun i j => A.val j i⟩

/-- The loop `for m in range(1, horizon + 1)`, src/reor/crom.py lines 217-218. -/
def propagate [NonUnitalNonAssocSemiring K] (T : Arr2 (Option K)) :
    ℕ → Arr2 (Option K) → Py (Arr2 (Option K))
  | 0, labels => Py.ok labels
  | h + 1, labels => do
    let labels ← nanDot labels T.transpose
    propagate T h labels

/-- `predict`, src/reor/crom.py lines 175-220.  A negative horizon makes no step. -/
def KMCrom.predict [Semiring K] (obj : KMCrom lib) (X : Arr2 K) (sampleWeight : lib.Weights)
    (horizon : ℤ) : Py (Arr2 (Option K)) := do
  let f ← obj.getFitted
  let initialLabels ← lib.predict f.kmeans X sampleWeight
  let n ← clusterCount obj.nClusters
  let labels := oneHot initialLabels n
  if horizon = 0 then Py.ok labels
  else propagate f.transitionMatrix horizon.toNat labels

/-- Objects a program can hold: constructed, then used through the methods above. -/
inductive KMCrom.Reachable [DivisionRing K] : KMCrom lib → Prop
  | new (n kw) : Reachable ⟨n, kw, none⟩
  | fit {obj obj' X w} : Reachable obj → obj.fit X w = Py.ok obj' → Reachable obj'
  | fitPredict {obj r X w} : Reachable obj → obj.fitPredict X w = Py.ok r → Reachable r.1
  | fitTransform {obj r X w} : Reachable obj → obj.fitTransform X w = Py.ok r → Reachable r.1

end Reor
