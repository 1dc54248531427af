import Verif.Proofs.FEMHeap
import Verif.Props.Heap
import Verif.Props.HeapMTD
import Verif.Props.FEMBV

/-!
C60 for FEM-BV-k-means: the estimator does not modify the arrays it is given, and does not depend on
what `np.empty` finds in memory.
-/

set_option linter.unusedSectionVars false

namespace Reor

open scoped BigOperators Matrix

variable {K : Type} [Field K] [LinearOrder K] [IsStrictOrderedRing K]

/-! ### Specification -/

/-- Values of what a `FEMBVKMeans` call returns. -/
def femView {R : Rng K} (h : Heap K) (r : FEMHObj R × Option ℕ × FEMInfo K) :
    FEMKMeansObj R × Option (Arr2 K) × FEMInfo K := (r.1.deref h, r.2.1.map h.cell, r.2.2)

/-- The arrays passed as arguments exist. -/
def FEMHArgs.Exist (h : Heap K) (a : FEMHArgs) : Prop :=
  Exists h a.parameters ∧ Exists h a.weights

/-- What a call does: see the theorems below. -/
def FEMCall (R : Rng K) (h : Heap K) (r : Heap K × FEMHObj R × Option ℕ × FEMInfo K)
    (r' : FEMKMeansObj R × Option (Arr2 K) × FEMInfo K) : Prop :=
  Untouched h r.1 ∧ femView r.1 r.2 = r' ∧
    ∃ a b, r.2.1.Gamma = some a ∧ r.2.1.Theta = some b ∧ r.2.2.1 = some a ∧ a ≠ b ∧ h.next ≤ a ∧
      h.next ≤ b ∧ a < r.1.next ∧ b < r.1.next

theorem hFemKMeansFitTransform_rel (R : Rng K) (solver : LPSolver K)
    (empty : (T k : ℕ) → Matrix (Fin T) (Fin k) K) (h : Heap K) (obj : FEMHObj R) {data : ℕ}
    (hdata : data < h.next) {args : FEMHArgs} (ha : args.Exist h) :
    HRel h h.next (FEMCall R h) (hFemKMeansFitTransform R solver empty h obj data args)
      (femKMeansFitTransform R solver (obj.deref h) (h.cell data) (args.deref h)) := by
  unfold hFemKMeansFitTransform femKMeansFitTransform
  refine (hFemKMeansRun_rel R solver empty h obj hdata args ha.1 ha.2).bind fun r r' hr => ?_
  obtain ⟨hk, he, hi, a, b, ha, hb, hne, h1, h2, h3, h4⟩ := hr
  refine ⟨hk, ?_, a, b, ha, hb, ha, hne, h1, h2, h3, h4⟩
  rw [← he]
  unfold femView FEMHObj.deref
  simp only [hi, ha, hb, Option.map_some]

theorem hFemKMeansTransform_rel (R : Rng K) (solver : LPSolver K)
    (empty : (T k : ℕ) → Matrix (Fin T) (Fin k) K) (h : Heap K) (obj : FEMHObj R) {data : ℕ}
    (hdata : data < h.next) :
    HRel h h.next (FEMCall R h) (hFemKMeansTransform R solver empty h obj data)
      (femKMeansTransform R solver (obj.deref h) (h.cell data)) := by
  unfold hFemKMeansTransform femKMeansTransform
  refine (hFemKMeansRun_rel R solver empty h obj hdata
    { updateParameters := false, updateWeights := true } (fun _ e => by cases e)
    (fun _ e => by cases e)).bind fun r r' hr => ?_
  obtain ⟨hk, he, hi, a, b, ha, hb, hne, h1, h2, h3, h4⟩ := hr
  refine ⟨hk, ?_, a, b, ha, hb, ha, hne, h1, h2, h3, h4⟩
  rw [← he]
  unfold femView
  rw [hi]
  rfl

/-! ### Properties -/

/-- C60.  `FEMBVKMeans.fit_transform` leaves every array that exists when it is called (the data,
initial parameters and weights, arrays of the object from earlier calls, anything else) unchanged,
whether it returns or raises. -/
theorem C60_fembv_kmeans_fit_transform (R : Rng K) (solver : LPSolver K)
    (empty : (T k : ℕ) → Matrix (Fin T) (Fin k) K) (h : Heap K) (obj : FEMHObj R) {data : ℕ}
    (hdata : data < h.next) {args : FEMHArgs} (ha : args.Exist h) :
    Harmless h (hFemKMeansFitTransform R solver empty h obj data args) :=
  (hFemKMeansFitTransform_rel R solver empty h obj hdata ha).harmless fun _ _ hr => hr.1

/-- C60.  The same for `transform`: the parameters of the earlier fit are replaced in the object (C51),
but the array that held them is not changed. -/
theorem C60_fembv_kmeans_transform (R : Rng K) (solver : LPSolver K)
    (empty : (T k : ℕ) → Matrix (Fin T) (Fin k) K) (h : Heap K) (obj : FEMHObj R) {data : ℕ}
    (hdata : data < h.next) : Harmless h (hFemKMeansTransform R solver empty h obj data) :=
  (hFemKMeansTransform_rel R solver empty h obj hdata).harmless fun _ _ hr => hr.1

/-- C60.  The in-place code computes what the code on values computes, so the other theorems about
FEM-BV-k-means speak about it. -/
theorem C60_fembv_kmeans_values (R : Rng K) (solver : LPSolver K)
    (empty : (T k : ℕ) → Matrix (Fin T) (Fin k) K) (h : Heap K) (obj : FEMHObj R) {data : ℕ}
    (hdata : data < h.next) {args : FEMHArgs} (ha : args.Exist h) :
    (hFemKMeansFitTransform R solver empty h obj data args).view femView =
      femKMeansFitTransform R solver (obj.deref h) (h.cell data) (args.deref h) ∧
    (hFemKMeansTransform R solver empty h obj data).view femView =
      femKMeansTransform R solver (obj.deref h) (h.cell data) :=
  ⟨(hFemKMeansFitTransform_rel R solver empty h obj hdata ha).view fun _ _ hr => hr.2.1,
    (hFemKMeansTransform_rel R solver empty h obj hdata).view fun _ _ hr => hr.2.1⟩

/-- C60.  The distance matrix is made by `np.empty`; no call depends on what that finds in memory. -/
theorem C60_fembv_kmeans_uninitialised (R : Rng K) (solver : LPSolver K)
    (empty empty' : (T k : ℕ) → Matrix (Fin T) (Fin k) K) (h : Heap K) (obj : FEMHObj R) {data : ℕ}
    (hdata : data < h.next) {args : FEMHArgs} (ha : args.Exist h) :
    (hFemKMeansFitTransform R solver empty h obj data args).view femView =
      (hFemKMeansFitTransform R solver empty' h obj data args).view femView ∧
    (hFemKMeansTransform R solver empty h obj data).view femView =
      (hFemKMeansTransform R solver empty' h obj data).view femView := by
  obtain ⟨h1, h2⟩ := C60_fembv_kmeans_values R solver empty h obj hdata ha
  obtain ⟨h3, h4⟩ := C60_fembv_kmeans_values R solver empty' h obj hdata ha
  exact ⟨h1.trans h3.symm, h2.trans h4.symm⟩

/-- C60.  The weights and parameters after a fit are two new arrays: later changes to them by the
caller do not reach the data or a custom start.  The returned weights are the object's own array. -/
theorem C60_fembv_kmeans_fit_transform_fresh (R : Rng K) (solver : LPSolver K)
    (empty : (T k : ℕ) → Matrix (Fin T) (Fin k) K) (h : Heap K) (obj : FEMHObj R) {data : ℕ}
    (hdata : data < h.next) {args : FEMHArgs} (ha : args.Exist h) {h' : Heap K} {obj' : FEMHObj R}
    {G : Option ℕ} {info : FEMInfo K}
    (hr : hFemKMeansFitTransform R solver empty h obj data args = HPy.ok (h', obj', G, info)) :
    ∃ a b, G = some a ∧ obj'.Gamma = some a ∧ obj'.Theta = some b ∧ a ≠ b ∧ h.next ≤ a ∧
      h.next ≤ b ∧ a < h'.next ∧ b < h'.next := by
  obtain ⟨_, -, -, -, a, b, h1, h2, h3, h4, h5, h6, h7, h8⟩ :=
    (hFemKMeansFitTransform_rel R solver empty h obj hdata ha).of_ok hr
  exact ⟨a, b, h3, h1, h2, h4, h5, h6, h7, h8⟩

/-- C60.  The same for `transform`: the weights returned by an earlier fit or transform stay the
caller's. -/
theorem C60_fembv_kmeans_transform_fresh (R : Rng K) (solver : LPSolver K)
    (empty : (T k : ℕ) → Matrix (Fin T) (Fin k) K) (h : Heap K) (obj : FEMHObj R) {data : ℕ}
    (hdata : data < h.next) {h' : Heap K} {obj' : FEMHObj R}
    {G : Option ℕ} {info : FEMInfo K}
    (hr : hFemKMeansTransform R solver empty h obj data = HPy.ok (h', obj', G, info)) :
    (∀ c, obj.Gamma = some c → c < h.next → h'.cell c = h.cell c) ∧
    (∀ c, obj.Theta = some c → c < h.next → h'.cell c = h.cell c) ∧
    ∃ a b, G = some a ∧ obj'.Gamma = some a ∧ obj'.Theta = some b ∧ a ≠ b ∧ h.next ≤ a ∧
      h.next ≤ b ∧ a < h'.next ∧ b < h'.next := by
  obtain ⟨_, -, hu, -, a, b, h1, h2, h3, h4, h5, h6, h7, h8⟩ :=
    (hFemKMeansTransform_rel R solver empty h obj hdata).of_ok hr
  exact ⟨fun c _ hc => hu.2 c hc, fun c _ hc => hu.2 c hc, a, b, h3, h1, h2, h4, h5, h6, h7, h8⟩

/-- A caller using one `FEMBVKMeans` object: calls with any existing arrays, new arrays of the caller's
own, and any change of the object's settings; a call that raises may leave the object in any state. -/
inductive FEMHistory (R : Rng K) (solver : LPSolver K)
    (empty : (T k : ℕ) → Matrix (Fin T) (Fin k) K) :
    Heap K → FEMHObj R → Heap K → FEMHObj R → Prop
  | start (h obj) : FEMHistory R solver empty h obj h obj
  | fit {h obj h1 obj1} (data : ℕ) (args : FEMHArgs) {h2 obj2 G info} :
      FEMHistory R solver empty h obj h1 obj1 → data < h1.next → args.Exist h1 →
      hFemKMeansFitTransform R solver empty h1 obj1 data args = HPy.ok (h2, obj2, G, info) →
      FEMHistory R solver empty h obj h2 obj2
  | transform {h obj h1 obj1} (data : ℕ) {h2 obj2 G info} :
      FEMHistory R solver empty h obj h1 obj1 → data < h1.next →
      hFemKMeansTransform R solver empty h1 obj1 data = HPy.ok (h2, obj2, G, info) →
      FEMHistory R solver empty h obj h2 obj2
  | fitRaises {h obj h1 obj1} (data : ℕ) (args : FEMHArgs) {e h2} (obj2 : FEMHObj R) :
      FEMHistory R solver empty h obj h1 obj1 → data < h1.next → args.Exist h1 →
      hFemKMeansFitTransform R solver empty h1 obj1 data args = HPy.raise e h2 →
      FEMHistory R solver empty h obj h2 obj2
  | transformRaises {h obj h1 obj1} (data : ℕ) {e h2} (obj2 : FEMHObj R) :
      FEMHistory R solver empty h obj h1 obj1 → data < h1.next →
      hFemKMeansTransform R solver empty h1 obj1 data = HPy.raise e h2 →
      FEMHistory R solver empty h obj h2 obj2
  | alloc {h obj h1 obj1} (A : Arr2 K) : FEMHistory R solver empty h obj h1 obj1 →
      FEMHistory R solver empty h obj (h1.alloc A) obj1
  | setParams {h obj h1 obj1} (obj2 : FEMHObj R) : FEMHistory R solver empty h obj h1 obj1 →
      FEMHistory R solver empty h obj h1 obj2

/-- C60.  Over any history of calls on a `FEMBVKMeans` object, no array existing at the beginning is
modified. -/
theorem C60_fembv_kmeans_history {R : Rng K} {solver : LPSolver K}
    {empty : (T k : ℕ) → Matrix (Fin T) (Fin k) K} {h h' : Heap K} {obj obj' : FEMHObj R}
    (H : FEMHistory R solver empty h obj h' obj') : Untouched h h' := by
  induction H with
  | start => exact ⟨le_rfl, fun _ _ => rfl⟩
  | fit data args _ hdata ha hr ih =>
    exact ih.trans ((C60_fembv_kmeans_fit_transform R solver empty _ _ hdata ha).1 _ hr)
  | transform data _ hdata hr ih =>
    exact ih.trans ((C60_fembv_kmeans_transform R solver empty _ _ hdata).1 _ hr)
  | fitRaises data args obj2 _ hdata ha hr ih =>
    exact ih.trans ((C60_fembv_kmeans_fit_transform R solver empty _ _ hdata ha).2 _ _ hr)
  | transformRaises data obj2 _ hdata hr ih =>
    exact ih.trans ((C60_fembv_kmeans_transform R solver empty _ _ hdata).2 _ _ hr)
  | @alloc h1 _ A _ ih => exact ih.trans (Untouched.alloc h1 A)
  | setParams obj2 _ ih => exact ih

/-! ### A concrete case -/

/-- Memory with the three samples. -/
noncomputable def femDemoHeap : Heap ℝ := ⟨1, fun _ => demoFEMData⟩

/-- The object of the example. -/
noncomputable def femDemoHObj : FEMHObj demoRngReal where
  nComponents := .int 2
  maxTvNorm := .real (1 / 2)
  init := none
  maxIterations := .int 5
  tolerance := .real (1 / 100)
  randomState := (0 : ℕ)
  require := true

/-- C60 at work: `transform` of the example returns two new arrays and leaves the data; a second
call does not change the weights returned by the first. -/
example (empty : (T k : ℕ) → Matrix (Fin T) (Fin k) ℝ) : ∃ (solver : LPSolver ℝ) (h' : Heap ℝ)
    (obj' : FEMHObj demoRngReal) (a : ℕ) (info : FEMInfo ℝ),
    hFemKMeansTransform demoRngReal solver empty femDemoHeap femDemoHObj 0 =
      HPy.ok (h', obj', some a, info) ∧ h'.cell 0 = demoFEMData ∧ 1 ≤ a ∧
    ∀ h2 obj2 G info2, hFemKMeansTransform demoRngReal solver empty h' obj' 0 =
      HPy.ok (h2, obj2, G, info2) → h2.cell a = h'.cell a ∧ G ≠ some a := by
  obtain ⟨solver, hs⟩ := exists_exact_solver (K := ℝ)
  obtain ⟨⟨o, i⟩, h⟩ := demoFEM_transform hs
  have h' : femKMeansTransform demoRngReal solver demoFEM demoFEMData =
      Py.ok (o, o.Gamma, i) := Py.bind_eq_ok.2 ⟨_, h, rfl⟩
  have hd : 0 < femDemoHeap.next := by change 0 < 1; decide
  have hv := (C60_fembv_kmeans_values demoRngReal solver empty femDemoHeap femDemoHObj hd
    (args := {}) ⟨exists_none _, exists_none _⟩).2
  obtain ⟨⟨h1, obj1, G, info⟩, hr, -⟩ := HPy.ok_of_view (hv.trans h')
  have hu := (C60_fembv_kmeans_transform demoRngReal solver empty femDemoHeap femDemoHObj hd).1 _ hr
  obtain ⟨-, -, a, b, rfl, ha, -, -, h5, -, h7, -⟩ :=
    C60_fembv_kmeans_transform_fresh demoRngReal solver empty femDemoHeap femDemoHObj hd hr
  refine ⟨solver, h1, obj1, a, info, hr, hu.2 0 hd, h5, fun h2 obj2 G info2 hr2 => ?_⟩
  obtain ⟨hG, -, a2, -, rfl, -, -, -, h5', -⟩ :=
    C60_fembv_kmeans_transform_fresh demoRngReal solver empty h1 obj1
      (lt_of_lt_of_le hd hu.1) hr2
  refine ⟨hG a ha h7, fun e => ?_⟩
  rw [Option.some.inj e] at h5'
  exact absurd h5' (not_le.2 h7)

/-- A history: the call above, a new array, other settings. -/
example (empty : (T k : ℕ) → Matrix (Fin T) (Fin k) ℝ) : ∃ (solver : LPSolver ℝ) (h' : Heap ℝ)
    (obj' : FEMHObj demoRngReal),
    FEMHistory demoRngReal solver empty femDemoHeap femDemoHObj h'
      { obj' with tolerance := .int 0 } ∧ h'.cell 0 = demoFEMData := by
  obtain ⟨solver, hs⟩ := exists_exact_solver (K := ℝ)
  obtain ⟨⟨o, i⟩, h⟩ := demoFEM_transform hs
  have h' : femKMeansTransform demoRngReal solver demoFEM demoFEMData =
      Py.ok (o, o.Gamma, i) := Py.bind_eq_ok.2 ⟨_, h, rfl⟩
  have hd : 0 < femDemoHeap.next := by change 0 < 1; decide
  have hv := (C60_fembv_kmeans_values demoRngReal solver empty femDemoHeap femDemoHObj hd
    (args := {}) ⟨exists_none _, exists_none _⟩).2
  obtain ⟨⟨h1, obj1, G, info⟩, hr, -⟩ := HPy.ok_of_view (hv.trans h')
  have H := (((FEMHistory.start (R := demoRngReal) (solver := solver) (empty := empty) femDemoHeap
    femDemoHObj).transform 0 hd hr).alloc demoFEMData).setParams { obj1 with tolerance := .int 0 }
  exact ⟨solver, _, obj1, H, (C60_fembv_kmeans_history H).2 0 hd⟩

end Reor
