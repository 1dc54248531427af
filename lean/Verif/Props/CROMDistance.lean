import Verif.Props.CROM
import Mathlib.Tactic.FinCases

/-!
C99: distances and nearest centres of `KMeansMarkovCROM`.
-/

set_option linter.unusedSectionVars false

namespace Reor

open scoped BigOperators
open Spec

variable {K : Type} [Field K] [LinearOrder K] [IsStrictOrderedRing K] {lib : KMeansLib K}

/-! ### Specification -/

/-- `D` holds the Euclidean distances of the rows of `X` to the rows of `C`. -/
def IsDistances (D X C : Arr2 K) : Prop :=
  ∃ (n k d : ℕ) (x : Matrix (Fin n) (Fin d) K) (c : Matrix (Fin k) (Fin d) K)
    (δ : Matrix (Fin n) (Fin k) K), X = Arr2.of x ∧ C = Arr2.of c ∧ D = Arr2.of δ ∧
    ∀ t j, 0 ≤ δ t j ∧ δ t j ^ 2 = ∑ i, (x t i - c j i) ^ 2

/-- `labels` names for every row of `X` a row of `C` than which none is nearer. -/
def NearestLabels (labels : List ℕ) (X C : Arr2 K) : Prop :=
  ∃ (n k d : ℕ) (x : Matrix (Fin n) (Fin d) K) (c : Matrix (Fin k) (Fin d) K),
    X = Arr2.of x ∧ C = Arr2.of c ∧
    ∀ (t : Fin n) (j : Fin k), labels[(t : ℕ)]? = some (j : ℕ) →
      ∀ i, ∑ l, (x t l - c j l) ^ 2 ≤ ∑ l, (x t l - c i l) ^ 2

/-- What scikit-learn documents of `transform`, `fit_transform` and `predict`, in exact arithmetic. -/
structure KMeansLib.Metric (lib : KMeansLib K) : Prop where
  transform_distances : ∀ km X D, lib.transform km X = Py.ok D → IsDistances D X (lib.centers km)
  fitTransform_distances : ∀ km X w r, lib.fitTransform km X w = Py.ok r →
    IsDistances r.2 X (lib.centers r.1)
  predict_nearest : ∀ km X w l, lib.predict km X w = Py.ok l → NearestLabels l X (lib.centers km)

theorem Arr2.of_eq {m n m' n' : ℕ} {A : Matrix (Fin m) (Fin n) K} {B : Matrix (Fin m') (Fin n') K}
    (h : Arr2.of A = Arr2.of B) : m = m' ∧ n = n' ∧ HEq A B := by
  simpa only [Arr2.of, Arr2.mk.injEq] using h

/-! ### C99 -/

/-- C99.  Right after `fit`, `transform` gives the distances to `cluster_centers_`. -/
theorem C99_transform_distances (hm : lib.Metric) {obj obj' : KMCrom lib} {X Y D : Arr2 K}
    {w : lib.Weights} (h : obj.fit X w = Py.ok obj') (ht : obj'.transform Y = Py.ok D) :
    ∃ f, obj'.fitted = some f ∧ IsDistances D Y f.clusterCenters := by
  obtain ⟨km, -, rfl⟩ := KMCrom.fit_eq_ok h
  exact ⟨fittedOf km, rfl, hm.transform_distances _ _ _ ht⟩

/-- C99.  Right after `fit`, `predict` for the present gives all probability to a nearest of the
`cluster_centers_`. -/
theorem C99_predict_nearest (hl : lib.Lawful) (hm : lib.Metric) {obj obj' : KMCrom lib}
    (hr : obj.Reachable) {X Y : Arr2 K} {w w' : lib.Weights} {P : Arr2 (Option K)}
    (h : obj.fit X w = Py.ok obj') (hp : obj'.predict Y w' 0 = Py.ok P) :
    ∃ (f : KMCromFitted lib) (n k d : ℕ) (y : Matrix (Fin n) (Fin d) K)
      (c : Matrix (Fin k) (Fin d) K) (near : Fin n → Fin k),
      obj'.fitted = some f ∧ Y = Arr2.of y ∧ f.clusterCenters = Arr2.of c ∧
      P = ⟨n, k, fun t j => some (if j = near t then 1 else 0)⟩ ∧
      ∀ t i, ∑ l, (y t l - c (near t) l) ^ 2 ≤ ∑ l, (y t l - c i l) ^ 2 := by
  have hr' : obj'.Reachable := .fit hr h
  obtain ⟨km, -, rfl⟩ := KMCrom.fit_eq_ok h
  have hp' := hp
  unfold KMCrom.predict at hp'
  obtain ⟨f, hf, hp'⟩ := Py.bind_eq_ok.1 hp'
  obtain ⟨labels, hlab, -⟩ := Py.bind_eq_ok.1 hp'
  rw [KMCrom.getFitted_eq_ok] at hf
  obtain rfl := Option.some.inj hf
  obtain ⟨n, k, d, y, c, rfl, hc, hnear⟩ := hm.predict_nearest _ _ _ _ hlab
  have hlen : labels.length = n := hl.predict_length _ _ _ _ hlab
  have hlt : ∀ l ∈ labels, l < k := by
    have := hl.predict_labels _ _ _ _ hlab
    rw [hc] at this
    exact this
  obtain ⟨n', hn', -, -, hpred⟩ := KMCrom.predict_eq hl hr' rfl hlab 0
  obtain ⟨m, -, hm1, -, hm2, -⟩ := hr'.coherent hl _ rfl
  have hk : n' = k := by
    have h1 : (m : ℤ) = n' := NumArg.int.inj (hm1.symm.trans hn')
    rw [hc] at hm2
    have h3 : k = m := hm2
    omega
  subst hk
  subst hlen
  refine ⟨fittedOf km, _, _, _, y, c, fun t => ⟨labels.get t, hlt _ (List.get_mem _ _)⟩, rfl, rfl,
    hc, ?_, fun t i => hnear t _ (by simp) i⟩
  have := hp.symm.trans hpred
  rw [show propagate _ 0 (oneHot labels n') = Py.ok (oneHot labels n' : Arr2 (Option K)) from rfl]
    at this
  rw [Py.ok.inj this]
  unfold oneHot
  congr 1
  funext t j
  simp only [Fin.ext_iff, eq_comm]

/-- C99.  `fit_transform` returns the distances to the centres it has just found, which are those of
the inner k-means object and not `cluster_centers_`. -/
theorem C99_fit_transform_distances (hm : lib.Metric) {obj : KMCrom lib} {X : Arr2 K}
    {w : lib.Weights} {r : KMCrom lib × Arr2 K} (h : obj.fitTransform X w = Py.ok r) :
    ∃ f f', obj.fitted = some f ∧ r.1.fitted = some f' ∧ f'.clusterCenters = f.clusterCenters ∧
      IsDistances r.2 X (lib.centers f'.kmeans) := by
  obtain ⟨f, q, hf, hq, rfl⟩ := KMCrom.fitTransform_eq_ok h
  exact ⟨f, { f with kmeans := q.1 }, hf, rfl, rfl, hm.fitTransform_distances _ _ _ _ hq⟩

/-- C99.  On every object, refitted or not, `transform` and `predict` for the present agree: a cluster
with probability 1 has a smallest distance in its row. -/
theorem C99_transform_predict_agree (hl : lib.Lawful) (hm : lib.Metric) {obj : KMCrom lib}
    (hr : obj.Reachable) {X D : Arr2 K} {w : lib.Weights} {P : Arr2 (Option K)}
    (ht : obj.transform X = Py.ok D) (hp : obj.predict X w 0 = Py.ok P) :
    ∃ (n k : ℕ) (δ : Matrix (Fin n) (Fin k) K) (near : Fin n → Fin k), D = Arr2.of δ ∧
      P = ⟨n, k, fun t j => some (if j = near t then 1 else 0)⟩ ∧ ∀ t i, δ t (near t) ≤ δ t i := by
  unfold KMCrom.transform at ht
  obtain ⟨f, hf, ht⟩ := Py.bind_eq_ok.1 ht
  rw [KMCrom.getFitted_eq_ok] at hf
  have hp' := hp
  unfold KMCrom.predict at hp'
  obtain ⟨f', hf', hp'⟩ := Py.bind_eq_ok.1 hp'
  rw [KMCrom.getFitted_eq_ok, hf] at hf'
  obtain rfl := Option.some.inj hf'
  obtain ⟨labels, hlab, -⟩ := Py.bind_eq_ok.1 hp'
  obtain ⟨n, k, d, x, c, δ, rfl, hc, rfl, hδ⟩ := hm.transform_distances _ _ _ ht
  obtain ⟨n₂, k₂, d₂, x₂, c₂, hx₂, hc₂, hnear⟩ := hm.predict_nearest _ _ _ _ hlab
  obtain ⟨rfl, rfl, hx⟩ := Arr2.of_eq hx₂
  obtain ⟨rfl, -, hcc⟩ := Arr2.of_eq (hc.symm.trans hc₂)
  obtain rfl := eq_of_heq hx
  obtain rfl := eq_of_heq hcc
  have hlen : labels.length = n := hl.predict_length _ _ _ _ hlab
  have hlt : ∀ l ∈ labels, l < k := by
    have := hl.predict_labels _ _ _ _ hlab
    rw [hc] at this
    exact this
  obtain ⟨n', hn', -, -, hpred⟩ := KMCrom.predict_eq hl hr hf hlab 0
  obtain ⟨m, -, hm1, -, hm2, -⟩ := hr.coherent hl _ hf
  have hk : n' = k := by
    have h1 : (m : ℤ) = n' := NumArg.int.inj (hm1.symm.trans hn')
    rw [hc] at hm2
    have h3 : k = m := hm2
    omega
  subst hk
  subst hlen
  refine ⟨_, _, δ, fun t => ⟨labels.get t, hlt _ (List.get_mem _ _)⟩, rfl, ?_, fun t i => ?_⟩
  · have := hp.symm.trans hpred
    rw [show propagate _ 0 (oneHot labels n') = Py.ok (oneHot labels n' : Arr2 (Option K)) from rfl]
      at this
    rw [Py.ok.inj this]
    unfold oneHot
    congr 1
    funext t j
    simp only [Fin.ext_iff, eq_comm]
  · have h1 := hnear t ⟨labels.get t, hlt _ (List.get_mem _ _)⟩ (by simp) i
    rw [← (hδ t _).2, ← (hδ t _).2] at h1
    exact le_of_sq_le_sq h1 (hδ t i).1

/-! ### A clustering with two centres on a line -/

/-- The number in row `t` of an array with one column. -/
def lineValue (X : Arr2 ℚ) (t : Fin X.rows) : ℚ := if h : 0 < X.cols then X.val t ⟨0, h⟩ else 0

/-- A centre of a pair. -/
def lineCentre (c : ℚ × ℚ) (j : Fin 2) : ℚ := if j = 0 then c.1 else c.2

/-- Distances to two centres. -/
def lineDistances (c : ℚ × ℚ) (X : Arr2 ℚ) : Py (Arr2 ℚ) :=
  if X.cols = 1 then Py.ok ⟨X.rows, 2, fun t j => |lineValue X t - lineCentre c j|⟩
  else Py.raise .valueError

/-- The nearer of two centres. -/
def lineLabels (c : ℚ × ℚ) (X : Arr2 ℚ) : Py (List ℕ) :=
  if X.cols = 1 then Py.ok ((List.finRange X.rows).map fun t =>
    if |lineValue X t - c.1| ≤ |lineValue X t - c.2| then 0 else 1)
  else Py.raise .valueError

/-- Whether two clusters are asked for. -/
def isTwo : NumArg ℚ → Bool
  | .int z => z == 2
  | _ => false

/-- The first two samples are the centres (where k-means stays if the others sit on them). -/
def lineFit (n : NumArg ℚ) (X : Arr2 ℚ) : Py (NumArg ℚ × (ℚ × ℚ) × List ℕ) :=
  if h : isTwo n = true ∧ 1 < X.rows then do
    let c := (lineValue X ⟨0, by omega⟩, lineValue X ⟨1, h.2⟩)
    let l ← lineLabels c X
    pure (n, c, l)
  else Py.raise .valueError

/-- A clustering library of this kind. -/
def lineKM : KMeansLib ℚ where
  Obj := NumArg ℚ × (ℚ × ℚ) × List ℕ
  Kwargs := Unit
  Weights := Unit
  new := fun n _ => (n, (0, 0), [])
  fit := fun km X _ => lineFit km.1 X
  fitPredict := fun km X _ => do
    let r ← lineFit km.1 X
    pure (r, r.2.2)
  fitTransform := fun km X _ => do
    let r ← lineFit km.1 X
    let D ← lineDistances r.2.1 X
    pure (r, D)
  predict := fun km X _ => lineLabels km.2.1 X
  transform := fun km X => lineDistances km.2.1 X
  centers := fun km => Arr2.of (fun j _ => lineCentre km.2.1 j : Matrix (Fin 2) (Fin 1) ℚ)
  labels := fun km => km.2.2
  inertia := fun _ => 0
  nIter := fun _ => 1

theorem lineLabels_eq_ok {c : ℚ × ℚ} {X : Arr2 ℚ} {l : List ℕ} (h : lineLabels c X = Py.ok l) :
    X.cols = 1 ∧ l.length = X.rows ∧ (∀ i ∈ l, i < 2) ∧
    ∀ t : Fin X.rows, l[(t : ℕ)]? =
      some (if |lineValue X t - c.1| ≤ |lineValue X t - c.2| then 0 else 1) := by
  unfold lineLabels at h
  split_ifs at h with hc
  obtain rfl := Py.ok.inj h
  refine ⟨hc, by simp, ?_, fun t => by simp⟩
  intro i hi
  obtain ⟨t, -, rfl⟩ := List.mem_map.1 hi
  split_ifs <;> omega

theorem lineFit_eq_ok {n : NumArg ℚ} {X : Arr2 ℚ} {r : NumArg ℚ × (ℚ × ℚ) × List ℕ}
    (h : lineFit n X = Py.ok r) : n = .int 2 ∧ lineLabels r.2.1 X = Py.ok r.2.2 := by
  unfold lineFit at h
  split_ifs at h with hc
  obtain ⟨l, hl, h⟩ := Py.bind_eq_ok.1 h
  obtain rfl := Py.ok.inj h
  refine ⟨?_, hl⟩
  have h2 := hc.1
  cases n with
  | int z => exact congrArg NumArg.int (by simpa [isTwo] using h2)
  | none => exact absurd h2 (by simp [isTwo])
  | real x => exact absurd h2 (by simp [isTwo])
  | other => exact absurd h2 (by simp [isTwo])

theorem lineKM_lawful : lineKM.Lawful where
  fit_clusters := fun n _ X _ km h => ⟨2, (lineFit_eq_ok h).1, by norm_num, rfl⟩
  fit_length := fun km X _ km' h => (lineLabels_eq_ok (lineFit_eq_ok h).2).2.1
  fit_labels := fun km X _ km' h => (lineLabels_eq_ok (lineFit_eq_ok h).2).2.2.1
  refit_predict := fun _ _ _ _ _ => rfl
  refit_transform := fun _ _ _ _ _ => rfl
  predict_length := fun _ _ _ _ h => (lineLabels_eq_ok h).2.1
  predict_labels := fun _ _ _ _ h => (lineLabels_eq_ok h).2.2.1

theorem lineDistances_spec {c : ℚ × ℚ} {X D : Arr2 ℚ} (h : lineDistances c X = Py.ok D) :
    IsDistances D X (Arr2.of (fun j _ => lineCentre c j : Matrix (Fin 2) (Fin 1) ℚ)) := by
  unfold lineDistances at h
  split_ifs at h with hc
  obtain rfl := Py.ok.inj h
  obtain ⟨n, d, x⟩ := X
  simp only at hc
  subst hc
  refine ⟨n, 2, 1, x, _, _, rfl, rfl, rfl, fun t j => ⟨abs_nonneg _, ?_⟩⟩
  rw [sq_abs, Fin.sum_univ_one]
  rfl

theorem lineKM_metric : lineKM.Metric where
  transform_distances := fun _ _ _ h => lineDistances_spec h
  fitTransform_distances := by
    intro km X w r h
    obtain ⟨q, hq, h⟩ := Py.bind_eq_ok.1 h
    obtain ⟨D, hD, h⟩ := Py.bind_eq_ok.1 h
    obtain rfl := Py.ok.inj h
    exact lineDistances_spec hD
  predict_nearest := by
    intro km X w l h
    obtain ⟨hc, -, -, hl⟩ := lineLabels_eq_ok h
    obtain ⟨n, d, x⟩ := X
    simp only at hc
    subst hc
    refine ⟨n, 2, 1, x, _, rfl, rfl, fun t j hj i => ?_⟩
    rw [hl t] at hj
    have hx : lineValue ⟨n, 1, x⟩ t = x t 0 := rfl
    rw [hx] at hj
    simp only [Fin.sum_univ_one]
    rw [← sq_abs (x t 0 - _), ← sq_abs (x t 0 - lineCentre _ i)]
    refine pow_le_pow_left₀ (abs_nonneg _) ?_ 2
    split_ifs at hj with hle
    · have : j = 0 := Fin.ext (Option.some.inj hj).symm
      subst this
      fin_cases i
      · exact le_rfl
      · exact hle
    · have : j = 1 := Fin.ext (Option.some.inj hj).symm
      subst this
      fin_cases i
      · exact (not_le.1 hle).le
      · exact le_rfl

/-- A model with two clusters. -/
def lineCrom : KMCrom lineKM := ⟨.int 2, (), none⟩

theorem lineFit_column (a b : ℚ) (l : List ℚ) :
    ∃ labels, lineFit (.int 2) (column (a :: b :: l)) = Py.ok (.int 2, (a, b), labels) := by
  unfold lineFit
  rw [dif_pos ⟨rfl, by simp [column]⟩]
  refine ⟨_, Py.bind_eq_ok.2 ⟨_, if_pos rfl, rfl⟩⟩

theorem lineCrom_fit (a b : ℚ) (l : List ℚ) : ∃ (obj : KMCrom lineKM) (f : KMCromFitted lineKM),
    lineCrom.fit (column (a :: b :: l)) () = Py.ok obj ∧ obj.nClusters = .int 2 ∧
    obj.fitted = some f ∧ f.kmeans.1 = .int 2 ∧ f.kmeans.2.1 = (a, b) ∧
    f.clusterCenters = Arr2.of (fun j _ => lineCentre (a, b) j : Matrix (Fin 2) (Fin 1) ℚ) := by
  obtain ⟨labels, h⟩ := lineFit_column a b l
  exact ⟨_, _, KMCrom.fit_of_ok (lib := lineKM) (obj := lineCrom) h, rfl, rfl, rfl, rfl, rfl⟩

theorem lineDistances_column (c : ℚ × ℚ) (l : List ℚ) : lineDistances c (column l) =
    Py.ok (Arr2.of fun t (j : Fin 2) => |lineValue (column l) t - lineCentre c j|) := if_pos rfl

theorem lineLabels_column (c : ℚ × ℚ) (l : List ℚ) : ∃ labels, lineLabels c (column l) =
    Py.ok labels := ⟨_, if_pos rfl⟩

/-- C99, the limit.  After `fit_predict` on other data `transform` no longer gives distances to
`cluster_centers_`: fitted to 0, 10 and refitted to 4, 10 the model has centres 0 and 10 on record but
puts a sample at 4 at distance 0 from the first. -/
theorem C99_stale_distances :
    ∃ (obj : KMCrom lineKM) (r : KMCrom lineKM × List ℕ) (f : KMCromFitted lineKM) (D : Arr2 ℚ),
      lineCrom.fit (column [0, 10]) () = Py.ok obj ∧
      obj.fitPredict (column [4, 10]) () = Py.ok r ∧ r.1.fitted = some f ∧
      r.1.transform (column [4]) = Py.ok D ∧ ¬ IsDistances D (column [4]) f.clusterCenters := by
  obtain ⟨obj, f, h1, -, h2, h3, h4, h5⟩ := lineCrom_fit 0 10 []
  obtain ⟨labels, h⟩ := lineFit_column 4 10 []
  have hq : lineKM.fitPredict f.kmeans (column [4, 10]) () =
      Py.ok ((.int 2, (4, 10), labels), labels) := by
    change (lineFit f.kmeans.1 (column [4, 10]) >>= _) = _
    rw [h3, h]
    rfl
  have hfp : obj.fitPredict (column [4, 10]) () = Py.ok ({ obj with fitted := some { f with
      kmeans := (.int 2, (4, 10), labels) } }, labels) := by
    unfold KMCrom.fitPredict
    exact Py.bind_eq_ok.2 ⟨f, KMCrom.getFitted_eq_ok.2 h2, Py.bind_eq_ok.2 ⟨_, hq, rfl⟩⟩
  refine ⟨obj, _, { f with kmeans := (.int 2, (4, 10), labels) }, _, h1, hfp, rfl,
    Py.bind_eq_ok.2 ⟨_, rfl, lineDistances_column (4, 10) [4]⟩, ?_⟩
  rintro ⟨n, k, d, x, c, δ, hx, hc, hD, hδ⟩
  rw [h5] at hc
  obtain ⟨rfl, rfl, hcc⟩ := Arr2.of_eq hc
  obtain rfl := eq_of_heq hcc
  obtain ⟨rfl, -, hxx⟩ := Arr2.of_eq (A := (column [4]).val) hx
  obtain rfl := eq_of_heq hxx
  obtain ⟨-, -, hdd⟩ := Arr2.of_eq hD
  obtain rfl := eq_of_heq hdd
  have h0 : |(4 : ℚ) - 4| ^ 2 = ∑ _ : Fin 1, ((4 : ℚ) - 0) ^ 2 := (hδ (0 : Fin 1) 0).2
  norm_num at h0

/-- C99 at work: transform and predict on the example, fitted to 0 and 10, for a sample at 4. -/
example : ∃ (obj : KMCrom lineKM) (D : Arr2 ℚ) (P : Arr2 (Option ℚ)),
    lineCrom.fit (column [0, 10]) () = Py.ok obj ∧ obj.transform (column [4]) = Py.ok D ∧
    obj.predict (column [4]) () 0 = Py.ok P ∧
    ∃ (n k : ℕ) (δ : Matrix (Fin n) (Fin k) ℚ) (near : Fin n → Fin k), D = Arr2.of δ ∧
      P = ⟨n, k, fun t j => some (if j = near t then 1 else 0)⟩ ∧ ∀ t i, δ t (near t) ≤ δ t i := by
  obtain ⟨obj, f, h1, hn, h2, -, -, -⟩ := lineCrom_fit 0 10 []
  have ht : obj.transform (column [4]) = Py.ok _ :=
    Py.bind_eq_ok.2 ⟨f, KMCrom.getFitted_eq_ok.2 h2, lineDistances_column f.kmeans.2.1 [4]⟩
  obtain ⟨labels, hlab⟩ := lineLabels_column f.kmeans.2.1 [4]
  have hp : obj.predict (column [4]) () 0 = Py.ok _ :=
    Py.bind_eq_ok.2 ⟨f, KMCrom.getFitted_eq_ok.2 h2, Py.bind_eq_ok.2 ⟨labels, hlab,
      Py.bind_eq_ok.2 ⟨2, by rw [hn]; rfl, if_pos rfl⟩⟩⟩
  exact ⟨obj, _, _, h1, ht, hp, C99_transform_predict_agree lineKM_lawful lineKM_metric
    (.fit (.new _ _) h1) ht hp⟩

example : ∃ (obj : KMCrom lineKM) (f : KMCromFitted lineKM) (D : Arr2 ℚ),
    lineCrom.fit (column [0, 10]) () = Py.ok obj ∧ obj.fitted = some f ∧
    obj.transform (column [4]) = Py.ok D ∧ IsDistances D (column [4]) f.clusterCenters := by
  obtain ⟨obj, f, h1, hn, h2, -, -, -⟩ := lineCrom_fit 0 10 []
  have ht : obj.transform (column [4]) = Py.ok _ :=
    Py.bind_eq_ok.2 ⟨f, KMCrom.getFitted_eq_ok.2 h2, lineDistances_column f.kmeans.2.1 [4]⟩
  obtain ⟨f', hf', hD⟩ := C99_transform_distances lineKM_metric h1 ht
  exact ⟨obj, f', _, h1, hf', ht, hD⟩

end Reor
