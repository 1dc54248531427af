import Verif.Proofs.CROM
import Mathlib.Data.Matrix.Mul
import Mathlib.Algebra.BigOperators.Field
import Mathlib.Tactic.Linarith
import Mathlib.Tactic.NormNum
import Mathlib.Tactic.IntervalCases

/-!
Properties of `src/reor/crom.py` (C45, C46, C65, C66).
-/

set_option linter.unusedSectionVars false

namespace Reor

open scoped BigOperators
open Spec

variable {K : Type} [Field K] [LinearOrder K] [IsStrictOrderedRing K] {lib : KMeansLib K}

/-! ### A concrete clustering for the examples -/

/-- Two groups of samples: those whose first feature is above 5, and the others (which is the k-means
clustering of the data used below); with more clusters the ones in between stay empty. -/
def demoLabels (n : ℕ) (X : Arr2 ℚ) : List ℕ :=
  (List.finRange X.rows).map fun i =>
    if h : 0 < X.cols then (if 5 < X.val i ⟨0, h⟩ then n - 1 else 0) else 0

/-- The number of clusters an object of the example library was built with. -/
def demoCount : NumArg ℚ → ℕ
  | .int z => z.toNat
  | _ => 0

/-- Labels of `X`, or an exception if the number of clusters is not a positive integer. -/
def demoAssign (n : NumArg ℚ) (X : Arr2 ℚ) : Py (List ℕ) :=
  if 0 < demoCount n then Py.ok (demoLabels (demoCount n) X) else Py.raise .valueError

/-- A clustering library following `demoLabels`. -/
def demoKM : KMeansLib ℚ where
  Obj := NumArg ℚ × List ℕ
  Kwargs := Unit
  Weights := Unit
  new := fun n _ => (n, [])
  fit := fun km X _ => do
    let l ← demoAssign km.1 X
    pure (km.1, l)
  fitPredict := fun km X _ => do
    let l ← demoAssign km.1 X
    pure ((km.1, l), l)
  fitTransform := fun km X _ => do
    let l ← demoAssign km.1 X
    pure ((km.1, l), ⟨X.rows, demoCount km.1, fun _ _ => 0⟩)
  predict := fun km X _ => demoAssign km.1 X
  transform := fun km X => Py.ok ⟨X.rows, demoCount km.1, fun _ _ => 0⟩
  centers := fun km => ⟨demoCount km.1, 1, fun i _ => (i : ℕ)⟩
  labels := fun km => km.2
  inertia := fun _ => 0
  nIter := fun _ => 1

theorem demoAssign_eq_ok {n : NumArg ℚ} {X : Arr2 ℚ} {l : List ℕ} (h : demoAssign n X = Py.ok l) :
    0 < demoCount n ∧ l = demoLabels (demoCount n) X := by
  unfold demoAssign at h
  by_cases hn : 0 < demoCount n
  · rw [if_pos hn] at h
    exact ⟨hn, (Py.ok.inj h).symm⟩
  · rw [if_neg hn] at h
    cases h

theorem demoLabels_lt {n : ℕ} (hn : 0 < n) (X : Arr2 ℚ) : ∀ l ∈ demoLabels n X, l < n := by
  intro l hl
  unfold demoLabels at hl
  obtain ⟨i, -, rfl⟩ := List.mem_map.1 hl
  split
  · split <;> omega
  · exact hn

theorem demoKM_lawful : demoKM.Lawful where
  fit_clusters := by
    intro n kw X w km h
    obtain ⟨l, hl, hr⟩ := Py.bind_eq_ok.1 h
    have hr' := Py.ok.inj hr
    subst hr'
    have h1 : 0 < demoCount n := (demoAssign_eq_ok hl).1
    have h2 : ∃ z : ℤ, n = .int z ∧ 1 ≤ z ∧ (demoCount n : ℤ) = z := by
      cases n with
      | int z =>
        refine ⟨z, rfl, ?_⟩
        unfold demoCount at h1 ⊢
        simp only at h1 ⊢
        omega
      | none => exact absurd h1 (lt_irrefl 0)
      | real x => exact absurd h1 (lt_irrefl 0)
      | other => exact absurd h1 (lt_irrefl 0)
    exact h2
  fit_length := by
    intro km X w km' h
    obtain ⟨l, hl, hr⟩ := Py.bind_eq_ok.1 h
    have hr' := Py.ok.inj hr
    subst hr'
    obtain ⟨-, rfl⟩ := demoAssign_eq_ok hl
    change (demoLabels _ X).length = _
    simp [demoLabels]
  fit_labels := by
    intro km X w km' h
    obtain ⟨l, hl, hr⟩ := Py.bind_eq_ok.1 h
    have hr' := Py.ok.inj hr
    subst hr'
    obtain ⟨h1, rfl⟩ := demoAssign_eq_ok hl
    exact demoLabels_lt h1 X
  refit_predict := by
    intro km X w r h
    obtain ⟨l, hl, hr⟩ := Py.bind_eq_ok.1 h
    have hr' := Py.ok.inj hr
    subst hr'
    rfl
  refit_transform := by
    intro km X w r h
    obtain ⟨l, hl, hr⟩ := Py.bind_eq_ok.1 h
    have hr' := Py.ok.inj hr
    subst hr'
    rfl
  predict_length := by
    intro km X w l h
    obtain ⟨-, rfl⟩ := demoAssign_eq_ok h
    simp [demoLabels]
  predict_labels := by
    intro km X w l h
    obtain ⟨h1, rfl⟩ := demoAssign_eq_ok h
    exact demoLabels_lt h1 X

/-- One column of data. -/
def column (l : List ℚ) : Arr2 ℚ := ⟨l.length, 1, fun i _ => l.get i⟩

theorem demoLabels_column (n : ℕ) (l : List ℚ) :
    demoLabels n (column l) = l.map fun x => if 5 < x then n - 1 else 0 := by
  unfold demoLabels column
  refine List.ext_getElem (by simp) ?_
  intro i h1 h2
  simp

/-- A model with two clusters. -/
def demoCrom : KMCrom demoKM := ⟨.int 2, (), none⟩

/-- The same fitted to a series of labels. -/
def demoCromFitted (l : List ℚ) : KMCrom demoKM :=
  ⟨.int 2, (), some (fittedOf (lib := demoKM)
    ((.int 2, l.map fun x => if 5 < x then 1 else 0) : NumArg ℚ × List ℕ))⟩

theorem demoCrom_fit (l : List ℚ) :
    demoCrom.fit (column l) () = Py.ok (demoCromFitted l) := by
  refine (KMCrom.fit_of_ok (km := ((.int 2, l.map fun x => if 5 < x then 1 else 0) :
    NumArg ℚ × List ℕ)) ?_).trans rfl
  change (demoAssign (.int 2) (column l) >>= _) = _
  unfold demoAssign
  rw [if_pos (by decide), Py.ok_bind, demoLabels_column]
  rfl

theorem demoCromFitted_reachable (l : List ℚ) : (demoCromFitted l).Reachable :=
  KMCrom.Reachable.fit (KMCrom.Reachable.new _ _) (demoCrom_fit l)

theorem demoCrom_labels (l : List ℚ) (n : NumArg ℚ) (hn : demoCount n = 2) (q : List ℕ) :
    demoKM.predict (n, q) (column l) () = Py.ok (l.map fun x => if 5 < x then 1 else 0) := by
  change demoAssign n (column l) = _
  unfold demoAssign
  rw [hn, if_pos (by decide), demoLabels_column]

/-! ### C45 -/

/-- C45: `transition_matrix[j, k]` is the fraction of the visits to cluster `k` before the last
sample that are followed by cluster `j`, and NaN if there is no such visit; there is one row and one
column per cluster and one label per sample. -/
theorem C45_transition_fractions (hl : lib.Lawful) {obj obj' : KMCrom lib} {X : Arr2 K}
    {w : lib.Weights} (h : obj.fit X w = Py.ok obj') :
    ∃ f, obj'.fitted = some f ∧ f.labels.length = X.rows ∧
      f.transitionMatrix.rows = f.clusterCenters.rows ∧
      f.transitionMatrix.cols = f.clusterCenters.rows ∧
      ∀ j k, f.transitionMatrix.val j k =
        if visits f.labels k = 0 then none
        else some ((moves f.labels k j : K) / (visits f.labels k : K)) := by
  obtain ⟨km, hkm, rfl⟩ := KMCrom.fit_eq_ok h
  exact ⟨fittedOf km, rfl, hl.fit_length _ _ _ _ hkm, rfl, rfl,
    fun j k => transitionEntry_eq _ _ _⟩

example : ∃ f, (demoCromFitted [0, 0, 10, 0]).fitted = some f ∧
    f.labels.length = 4 ∧ f.transitionMatrix.rows = f.clusterCenters.rows ∧
    f.transitionMatrix.cols = f.clusterCenters.rows ∧
    ∀ j k, f.transitionMatrix.val j k =
      if visits f.labels k = 0 then none
      else some ((moves f.labels k j : ℚ) / (visits f.labels k : ℚ)) :=
  C45_transition_fractions demoKM_lawful (demoCrom_fit [0, 0, 10, 0])

/-- C45: the column of every cluster visited before the last sample is a probability vector, the
column of every other cluster is NaN. -/
theorem C45_columns (hl : lib.Lawful) {obj obj' : KMCrom lib} {X : Arr2 K}
    {w : lib.Weights} (h : obj.fit X w = Py.ok obj') :
    ∃ f, obj'.fitted = some f ∧ ∀ k : Fin f.transitionMatrix.cols,
      (0 < visits f.labels k → ∃ p : Fin f.transitionMatrix.rows → K, IsProb p ∧
        ∀ j, f.transitionMatrix.val j k = some (p j)) ∧
      (visits f.labels k = 0 → ∀ j, f.transitionMatrix.val j k = none) := by
  obtain ⟨km, hkm, rfl⟩ := KMCrom.fit_eq_ok h
  refine ⟨fittedOf km, rfl, fun k => ⟨fun hv => ?_, fun hv j => ?_⟩⟩
  · refine ⟨fun j => (moves (lib.labels km) k j : K) / (visits (lib.labels km) k : K), ⟨?_, ?_⟩, ?_⟩
    · intro j
      exact div_nonneg (Nat.cast_nonneg _) (Nat.cast_nonneg _)
    · have hs := sum_moves (lib.labels km) (lib.centers km).rows k (hl.fit_labels _ _ _ _ hkm)
      rw [← Finset.sum_div, ← Nat.cast_sum]
      have hv' : ((visits (lib.labels km) k : ℕ) : K) ≠ 0 := by
        have h0 : visits (lib.labels km) k ≠ 0 := hv.ne'
        exact_mod_cast h0
      refine (congrArg (fun z : ℕ => (z : K) / (visits (lib.labels km) k : K)) hs).trans ?_
      exact div_self hv'
    · intro j
      refine (transitionEntry_eq _ _ _).trans ?_
      unfold countRatio
      exact if_neg hv.ne'
  · refine (transitionEntry_eq _ _ _).trans ?_
    unfold countRatio
    exact if_pos hv

/-- Both kinds of columns occur: of the labels 0, 0, 1 cluster 0 is visited twice before the last
sample, cluster 1 only by the last sample. -/
example : visits [0, 0, 1] 0 = 2 ∧ moves [0, 0, 1] 0 1 = 1 ∧ visits [0, 0, 1] 1 = 0 := by decide

/-! ### C46 -/

/-- C46, partial: if every cluster was visited before the last sample of the data last fitted, then
`predict(X, horizon=h)` succeeds whenever the clustering can label `X`, has one row per sample, and
row `i` is the distribution after `h` steps of the Markov chain with the fitted transition
probabilities started from the label of sample `i`; it is a probability vector.  Without the
hypothesis on the visits the claim is false: see `C46_not_distribution`. -/
theorem C46_predict_distribution_partial (hl : lib.Lawful) {obj : KMCrom lib} (hr : obj.Reachable)
    {f : KMCromFitted lib} (hf : obj.fitted = some f) {X : Arr2 K} {w : lib.Weights}
    {labels : List ℕ} (hp : lib.predict f.kmeans X w = Py.ok labels)
    (hv : ∀ k : ℕ, k < f.transitionMatrix.cols → 0 < visits f.labels k) (h : ℕ) :
    ∃ (n : ℕ) (M : Matrix (Fin n) (Fin n) K) (start : Fin X.rows → Fin n)
      (P : Matrix (Fin X.rows) (Fin n) K),
      obj.nClusters = .int n ∧
      (∀ j k, M j k = (moves f.labels k j : K) / (visits f.labels k : K)) ∧
      (∀ i : Fin X.rows, labels[i]? = some (start i : ℕ)) ∧
      obj.predict X w h = Py.ok ⟨X.rows, n, fun i j => some (P i j)⟩ ∧
      (∀ i, (fun j => P i j) = chain M (start i) h) ∧ RowStochastic P := by
  obtain ⟨n, -, hn', hT, -, -⟩ := hr.coherent hl f hf
  obtain ⟨n', hn, hlab, hlab', hpred⟩ := KMCrom.predict_eq hl hr hf hp h
  have hnn : n = n' := by
    have := hn'.symm.trans hn
    simpa using this
  subst hnn
  have hlen := hl.predict_length _ _ _ _ hp
  rw [hT] at hv
  obtain ⟨r, c, x⟩ := X
  have hlen' : labels.length = r := hlen
  subst hlen'
  let M : Matrix (Fin n) (Fin n) K :=
    fun j k => (moves f.labels k j : K) / (visits f.labels k : K)
  let start : Fin labels.length → Fin n :=
    fun i => ⟨labels.get i, hlab' _ (List.get_mem _ _)⟩
  have hM : ColStochastic M := by
    intro k
    constructor
    · intro j
      exact div_nonneg (Nat.cast_nonneg _) (Nat.cast_nonneg _)
    · have hs := sum_moves f.labels n k hlab
      have hv' : ((visits f.labels k : ℕ) : K) ≠ 0 := by
        have h0 : visits f.labels k ≠ 0 := (hv k k.2).ne'
        exact_mod_cast h0
      change ∑ j : Fin n, (moves f.labels k j : K) / (visits f.labels k : K) = 1
      rw [← Finset.sum_div, ← Nat.cast_sum, hs, div_self hv']
  have hTM : (fun j k => transitionEntry f.labels j k : Matrix (Fin n) (Fin n) (Option K)) =
      fun j k => some (M j k) := by
    funext j k
    refine (transitionEntry_eq _ _ _).trans ?_
    unfold countRatio
    exact if_neg (hv k k.2).ne'
  refine ⟨n, M, start, fun i j => chain M (start i) h j, hn, fun j k => rfl, ?_, ?_, fun i => rfl,
    fun i => chain_isProb hM (start i) h⟩
  · intro i
    exact List.getElem?_eq_getElem i.2
  · rw [hpred]
    have e := propagate_some M start h 0
    rw [oneHot_eq labels n hlab' M]
    have e2 : (⟨n, n, fun j k => transitionEntry f.labels j k⟩ : Arr2 (Option K)) =
        ⟨n, n, fun i j => some (M i j)⟩ := by rw [hTM]
    rw [e2]
    refine e.trans ?_
    rw [Nat.zero_add]

/-- The hypotheses hold for a fitted model: labels 0, 0, 1, 0. -/
example : ∃ (n : ℕ) (M : Matrix (Fin n) (Fin n) ℚ) (start : Fin 2 → Fin n)
    (P : Matrix (Fin 2) (Fin n) ℚ),
    (demoCromFitted [0, 0, 10, 0]).nClusters = .int n ∧
    (∀ j k, M j k = (moves [0, 0, 1, 0] k j : ℚ) / (visits [0, 0, 1, 0] k : ℚ)) ∧
    (∀ i : Fin 2, ([1, 0] : List ℕ)[i]? = some (start i : ℕ)) ∧
    (demoCromFitted [0, 0, 10, 0]).predict (column [10, 0]) () (3 : ℕ) =
      Py.ok ⟨2, n, fun i j => some (P i j)⟩ ∧
    (∀ i, (fun j => P i j) = chain M (start i) 3) ∧ RowStochastic P := by
  have hlabels : (([0, 0, 10, 0] : List ℚ).map fun x => if 5 < x then 1 else 0) = [0, 0, 1, 0] := by
    norm_num
  have hlabels' : (([10, 0] : List ℚ).map fun x => if 5 < x then 1 else 0) = [1, 0] := by
    norm_num
  have hp := demoCrom_labels [10, 0] (.int 2) rfl
    (([0, 0, 10, 0] : List ℚ).map fun x => if 5 < x then 1 else 0)
  rw [hlabels'] at hp
  have := C46_predict_distribution_partial demoKM_lawful (demoCromFitted_reachable [0, 0, 10, 0])
    rfl hp (by
      intro k hk
      change 0 < visits (([0, 0, 10, 0] : List ℚ).map fun x => if 5 < x then 1 else 0) k
      rw [hlabels]
      have hk2 : k < 2 := hk
      interval_cases k <;> decide) 3
  rw [← hlabels]
  exact this

/-- C46: horizons compose: the prediction for `h₁ + h₂` is the prediction for `h₁` followed by `h₂`
steps of the fitted chain. -/
theorem C46_horizons_compose_partial (hl : lib.Lawful) {obj : KMCrom lib} (hr : obj.Reachable)
    {f : KMCromFitted lib} (hf : obj.fitted = some f) {X : Arr2 K} {w : lib.Weights}
    {labels : List ℕ} (hp : lib.predict f.kmeans X w = Py.ok labels)
    (hv : ∀ k : ℕ, k < f.transitionMatrix.cols → 0 < visits f.labels k) (h₁ h₂ : ℕ) :
    ∃ (n : ℕ) (M : Matrix (Fin n) (Fin n) K) (P Q : Matrix (Fin X.rows) (Fin n) K),
      (∀ j k, M j k = (moves f.labels k j : K) / (visits f.labels k : K)) ∧
      obj.predict X w h₁ = Py.ok ⟨X.rows, n, fun i j => some (P i j)⟩ ∧
      obj.predict X w ((h₁ + h₂ : ℕ) : ℤ) = Py.ok ⟨X.rows, n, fun i j => some (Q i j)⟩ ∧
      ∀ i, (fun j => Q i j) = (M ^ h₂).mulVec (fun j => P i j) := by
  obtain ⟨n, M, start, P, hn, hM, hs, hP, hPc, -⟩ :=
    C46_predict_distribution_partial hl hr hf hp hv h₁
  obtain ⟨n', M', start', Q, hn', hM', hs', hQ, hQc, -⟩ :=
    C46_predict_distribution_partial hl hr hf hp hv (h₁ + h₂)
  have hnn : n = n' := by
    have := hn.symm.trans hn'
    simpa using this
  subst hnn
  have hMM : M' = M := by
    ext j k
    rw [hM', hM]
  have hss : start' = start := by
    funext i
    have := (hs' i).symm.trans (hs i)
    exact Fin.ext (Option.some.inj this)
  subst hMM hss
  refine ⟨n, M', P, Q, hM, hP, hQ, fun i => ?_⟩
  rw [hQc, hPc]
  clear hPc hQc hP hQ
  induction h₂ with
  | zero => simp
  | succ h ih =>
    rw [show h₁ + (h + 1) = h₁ + h + 1 by omega, pow_succ', ← Matrix.mulVec_mulVec, ← ih]
    rfl

/-- C46 (where it fails): if some cluster was not visited before the last sample, every prediction
with a positive horizon consists of NaN only, for all samples. -/
theorem C46_unvisited_nan (hl : lib.Lawful) {obj : KMCrom lib} (hr : obj.Reachable)
    {f : KMCromFitted lib} (hf : obj.fitted = some f) {X : Arr2 K} {w : lib.Weights}
    {labels : List ℕ} (hp : lib.predict f.kmeans X w = Py.ok labels)
    {k : ℕ} (hk : k < f.transitionMatrix.cols) (hv : visits f.labels k = 0) (h : ℕ) (hh : 0 < h) :
    ∃ n : ℕ, obj.nClusters = .int n ∧
      obj.predict X w h = Py.ok ⟨X.rows, n, fun _ _ => none⟩ := by
  obtain ⟨n, -, hn', hT, -, -⟩ := hr.coherent hl f hf
  obtain ⟨n', hn, hlab, hlab', hpred⟩ := KMCrom.predict_eq hl hr hf hp h
  have hnn : n = n' := by
    have := hn'.symm.trans hn
    simpa using this
  subst hnn
  rw [hT] at hk
  refine ⟨n, hn, ?_⟩
  rw [hpred, ← hl.predict_length _ _ _ _ hp]
  obtain ⟨h', rfl⟩ : ∃ h', h = h' + 1 := ⟨h - 1, by omega⟩
  refine propagate_nan _ (⟨k, hk⟩ : Fin n) (fun j => ?_) h' _
  refine (transitionEntry_eq _ _ _).trans ?_
  unfold countRatio
  exact if_pos hv

/-- C46 fails: two clusters, of which the second occurs only as the last sample of the training
data; predicting one step from a sample of the first cluster gives NaN. -/
theorem C46_not_distribution :
    ∃ (obj : KMCrom demoKM) (l : List ℚ), demoCrom.fit (column l) () = Py.ok obj ∧
      obj.predict (column [0]) () 1 = Py.ok ⟨1, 2, fun _ _ => none⟩ := by
  refine ⟨demoCromFitted [0, 0, 10], [0, 0, 10], demoCrom_fit _, ?_⟩
  have hlabels : (([0, 0, 10] : List ℚ).map fun x => if 5 < x then 1 else 0) = [0, 0, 1] := by
    norm_num
  obtain ⟨n, hn, hP⟩ := C46_unvisited_nan demoKM_lawful (demoCromFitted_reachable [0, 0, 10]) rfl
    (demoCrom_labels [0] (.int 2) rfl _) (k := 1) (by decide)
    (by
      change visits (([0, 0, 10] : List ℚ).map fun x => if 5 < x then 1 else 0) 1 = 0
      rw [hlabels]
      decide) 1 one_pos
  have hn2 : n = 2 := by
    have : (NumArg.int 2 : NumArg ℚ) = .int n := hn
    have := NumArg.int.inj this
    omega
  subst hn2
  exact hP

/-- C46: with horizon zero the rows are the one-hot labels, whether or not all clusters were
visited; a negative horizon gives the same. -/
theorem C46_labels (hl : lib.Lawful) {obj : KMCrom lib} (hr : obj.Reachable)
    {f : KMCromFitted lib} (hf : obj.fitted = some f) {X : Arr2 K} {w : lib.Weights}
    {labels : List ℕ} (hp : lib.predict f.kmeans X w = Py.ok labels) {horizon : ℤ}
    (hh : horizon ≤ 0) :
    ∃ (n : ℕ) (P : Matrix (Fin X.rows) (Fin n) K), obj.nClusters = .int n ∧
      obj.predict X w horizon = Py.ok ⟨X.rows, n, fun i j => some (P i j)⟩ ∧
      ∀ i j, P i j = if labels[i]? = some (j : ℕ) then 1 else 0 := by
  obtain ⟨n, hn, -, hlab', hpred⟩ := KMCrom.predict_eq hl hr hf hp 0
  have hlen := hl.predict_length _ _ _ _ hp
  obtain ⟨r, c, x⟩ := X
  have hlen' : labels.length = r := hlen
  subst hlen'
  have hneg : obj.predict (⟨labels.length, c, x⟩ : Arr2 K) w horizon =
      obj.predict (⟨labels.length, c, x⟩ : Arr2 K) w (0 : ℕ) := by
    unfold KMCrom.predict
    have hT : horizon.toNat = 0 := by omega
    rw [hT]
    have h0 : ((0 : ℕ) : ℤ) = 0 := rfl
    rw [h0]
    simp only [propagate, ite_self, if_true]
  refine ⟨n, fun i j => if labels[i]? = some (j : ℕ) then 1 else 0, hn, ?_, fun i j => rfl⟩
  rw [hneg, hpred]
  unfold propagate oneHot
  congr 2
  funext i j
  simp

example : ∃ (n : ℕ) (P : Matrix (Fin 1) (Fin n) ℚ), (demoCromFitted [0, 0, 10]).nClusters = .int n ∧
    (demoCromFitted [0, 0, 10]).predict (column [0]) () 0 = Py.ok ⟨1, n, fun i j => some (P i j)⟩ ∧
    ∀ i j, P i j =
      if ([0].map fun x : ℚ => if 5 < x then 1 else 0)[(i : ℕ)]? = some (j : ℕ) then 1 else 0 :=
  C46_labels demoKM_lawful (demoCromFitted_reachable [0, 0, 10]) rfl
    (demoCrom_labels [0] (.int 2) rfl _) (le_refl 0)

/-! ### C65: fitting again through `fit_predict` and `fit_transform` -/

/-- C65: `fit_predict` refits only the inner k-means object; the transition matrix, labels, centres
and inertia remain those of the last `fit`, whatever the new data. -/
theorem C65_fit_predict_keeps_transitions {obj : KMCrom lib} {X : Arr2 K} {w : lib.Weights}
    {r : KMCrom lib × List ℕ} (h : obj.fitPredict X w = Py.ok r) :
    ∃ f f', obj.fitted = some f ∧ r.1.fitted = some f' ∧
      lib.fitPredict f.kmeans X w = Py.ok (f'.kmeans, r.2) ∧
      f'.transitionMatrix = f.transitionMatrix ∧ f'.labels = f.labels ∧
      f'.clusterCenters = f.clusterCenters ∧ f'.inertia = f.inertia ∧ f'.nIter = f.nIter := by
  obtain ⟨f, q, hf, hq, rfl⟩ := KMCrom.fitPredict_eq_ok h
  exact ⟨f, { f with kmeans := q.1 }, hf, rfl, hq, rfl, rfl, rfl, rfl, rfl⟩

/-- C65: so does `fit_transform`. -/
theorem C65_fit_transform_keeps_transitions {obj : KMCrom lib} {X : Arr2 K} {w : lib.Weights}
    {r : KMCrom lib × Arr2 K} (h : obj.fitTransform X w = Py.ok r) :
    ∃ f f', obj.fitted = some f ∧ r.1.fitted = some f' ∧
      lib.fitTransform f.kmeans X w = Py.ok (f'.kmeans, r.2) ∧
      f'.transitionMatrix = f.transitionMatrix ∧ f'.labels = f.labels ∧
      f'.clusterCenters = f.clusterCenters ∧ f'.inertia = f.inertia ∧ f'.nIter = f.nIter := by
  obtain ⟨f, q, hf, hq, rfl⟩ := KMCrom.fitTransform_eq_ok h
  exact ⟨f, { f with kmeans := q.1 }, hf, rfl, hq, rfl, rfl, rfl, rfl, rfl⟩

/-- C65: on an object that was never fitted every method other than `fit` raises AttributeError,
including `fit_predict` and `fit_transform`. -/
theorem C65_needs_fit (n : NumArg K) (kw : lib.Kwargs) (X : Arr2 K) (w : lib.Weights) (h : ℤ) :
    let obj : KMCrom lib := ⟨n, kw, none⟩
    obj.fitPredict X w = Py.raise .attributeError ∧
      obj.fitTransform X w = Py.raise .attributeError ∧
      obj.transform X = Py.raise .attributeError ∧
      obj.predict X w h = Py.raise .attributeError :=
  ⟨rfl, rfl, rfl, rfl⟩

/-- C65: the stale matrix is not that of the new data: after `fit` on labels 0, 0, 1, 0 and
`fit_predict` on labels 0, 1, 0, 1 the object keeps probability 1/2 for staying in cluster 0, while
fitting the new data gives 0. -/
theorem C65_stale_transitions :
    ∃ (obj : KMCrom demoKM) (r : KMCrom demoKM × List ℕ) (obj' : KMCrom demoKM) (X Y : Arr2 ℚ)
      (f f' : KMCromFitted demoKM),
      demoCrom.fit X () = Py.ok obj ∧ obj.fitPredict Y () = Py.ok r ∧
      demoCrom.fit Y () = Py.ok obj' ∧ r.1.fitted = some f ∧ obj'.fitted = some f' ∧
      (∃ (h0 : 0 < f.transitionMatrix.rows) (h1 : 0 < f.transitionMatrix.cols),
        f.transitionMatrix.val ⟨0, h0⟩ ⟨0, h1⟩ = some (1 / 2)) ∧
      (∃ (h0 : 0 < f'.transitionMatrix.rows) (h1 : 0 < f'.transitionMatrix.cols),
        f'.transitionMatrix.val ⟨0, h0⟩ ⟨0, h1⟩ = some 0) := by
  have hX : (([0, 0, 10, 0] : List ℚ).map fun x => if 5 < x then 1 else 0) = [0, 0, 1, 0] := by
    norm_num
  have hY : (([0, 10, 0, 10] : List ℚ).map fun x => if 5 < x then 1 else 0) = [0, 1, 0, 1] := by
    norm_num
  have hq : demoKM.fitPredict ((.int 2, ([0, 0, 10, 0] : List ℚ).map fun x => if 5 < x then 1 else 0) :
      NumArg ℚ × List ℕ) (column [0, 10, 0, 10]) () =
      Py.ok (((.int 2, [0, 1, 0, 1]) : NumArg ℚ × List ℕ), [0, 1, 0, 1]) := by
    change (demoAssign (.int 2) (column [0, 10, 0, 10]) >>= _) = _
    unfold demoAssign
    rw [if_pos (by decide), Py.ok_bind, demoLabels_column]
    norm_num [show demoCount (.int 2) = 2 from rfl]
  have hr : (demoCromFitted [0, 0, 10, 0]).fitPredict (column [0, 10, 0, 10]) () =
      Py.ok (⟨.int 2, (), some { fittedOf (lib := demoKM)
        ((.int 2, ([0, 0, 10, 0] : List ℚ).map fun x => if 5 < x then 1 else 0) :
          NumArg ℚ × List ℕ) with kmeans := ((.int 2, [0, 1, 0, 1]) : NumArg ℚ × List ℕ) }⟩,
        [0, 1, 0, 1]) := by
    unfold KMCrom.fitPredict
    refine Py.bind_eq_ok.2 ⟨_, rfl, Py.bind_eq_ok.2 ⟨_, hq, rfl⟩⟩
  refine ⟨_, _, _, column [0, 0, 10, 0], column [0, 10, 0, 10], _, _, demoCrom_fit _, hr,
    demoCrom_fit _, rfl, rfl, ⟨by decide, by decide, ?_⟩, ⟨by decide, by decide, ?_⟩⟩
  · change (transitionEntry (([0, 0, 10, 0] : List ℚ).map fun x => if 5 < x then 1 else 0) 0 0 :
      Option ℚ) = _
    rw [hX, transitionEntry_eq, show moves [0, 0, 1, 0] 0 0 = 1 by decide,
      show visits [0, 0, 1, 0] 0 = 2 by decide]
    unfold countRatio
    norm_num
  · change (transitionEntry (([0, 10, 0, 10] : List ℚ).map fun x => if 5 < x then 1 else 0) 0 0 :
      Option ℚ) = _
    rw [hY, transitionEntry_eq, show moves [0, 1, 0, 1] 0 0 = 0 by decide,
      show visits [0, 1, 0, 1] 0 = 2 by decide]
    unfold countRatio
    norm_num

/-! ### C66: the number of clusters has no default -/

/-- C66: `fit` succeeds only if the number of clusters is a positive integer; in particular never
with None, which the documentation says means 2. -/
theorem C66_clusters_required (hl : lib.Lawful) {obj obj' : KMCrom lib} {X : Arr2 K}
    {w : lib.Weights} (h : obj.fit X w = Py.ok obj') :
    ∃ z : ℤ, obj.nClusters = .int z ∧ 1 ≤ z := by
  obtain ⟨km, hkm, -⟩ := KMCrom.fit_eq_ok h
  obtain ⟨z, hz, h1, -⟩ := hl.fit_clusters _ _ _ _ _ hkm
  exact ⟨z, hz, h1⟩

example : ∃ z : ℤ, demoCrom.nClusters = .int z ∧ 1 ≤ z :=
  C66_clusters_required demoKM_lawful (demoCrom_fit [0, 0, 10])

end Reor
