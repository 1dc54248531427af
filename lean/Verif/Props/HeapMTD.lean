import Verif.Proofs.MTDHeapFit
import Verif.Props.Heap
import Verif.Props.MTDFit

/-!
C60 for `MTDConvexCoding`: the estimator does not modify the arrays it is given.
-/

set_option linter.unusedSectionVars false

namespace Reor

open scoped BigOperators Matrix

variable {K : Type} [Field K] [LinearOrder K] [IsStrictOrderedRing K] {p : ℕ}

/-! ### Specification -/

/-- Values of what an `MTDConvexCoding` call returns. -/
def mtdView {R : Rng K} (h : Heap K) (r : MTDHObj R p × Option ℕ × FitInfo K) :
    MTDObj R p × Option (Arr2 K) × FitInfo K := (r.1.deref h, r.2.1.map h.cell, r.2.2)

/-- The optional arguments are arrays of `h`, when they are not `None`. -/
def MTDHArgs.Exist (h : Heap K) (a : MTDHArgs) : Prop :=
  Exists h a.dictionary ∧ Exists h a.weights ∧ Exists h a.orderWeights ∧
    Exists h (a.transitionMatrices.map Ref3.addr)

/-- An array of `m` rows and `n` columns. -/
def Shaped (h : Heap K) (a m n : ℕ) : Prop := a < h.next ∧ (h.cell a).rows = m ∧ (h.cell a).cols = n

/-- The arrays of the object exist, and those of the last fit have the shapes they should have. -/
def MTDHObj.Live {R : Rng K} (h : Heap K) (obj : MTDHObj R p) : Prop :=
  (∀ v, obj.vars = some v → Shaped h v.Gamma v.T v.k ∧ Shaped h v.S v.k v.D ∧
    Shaped h v.orderWeights 1 p ∧ Shaped h v.transitionMatrices (p * v.k) v.k) ∧
  Exists h obj.dictionary_

/-! ### Calls -/

theorem Arr2.eq_of_at {A : Arr2 K} {m n : ℕ} (h1 : A.rows = m) (h2 : A.cols = n) :
    A = Arr2.of (A.at m n) := by
  subst h1 h2
  exact (congrArg Arr2.of (Arr2.at_of A.val)).symm

theorem Arr2.asArr1_eq {A : Arr2 K} {n : ℕ} (h : A.cols = n) :
    A.asArr1 = Arr1.of (ofRow (A.at 1 n)) := by
  subst h
  rfl

theorem shaped_of_eq {h : Heap K} {a m n : ℕ} {M : Matrix (Fin m) (Fin n) K} (ha : a < h.next)
    (e : h.cell a = Arr2.of M) : Shaped h a m n := ⟨ha, by rw [e]; rfl, by rw [e]; rfl⟩

theorem Shaped.mono {h h' : Heap K} {a m n : ℕ} (hs : Shaped h a m n) (hu : Untouched h h') :
    Shaped h' a m n :=
  ⟨lt_of_lt_of_le hs.1 hu.1, by rw [hu.2 a hs.1]; exact hs.2.1, by rw [hu.2 a hs.1]; exact hs.2.2⟩

theorem MTDHObj.Live.mono {R : Rng K} {h h' : Heap K} {obj : MTDHObj R p} (hl : obj.Live h)
    (hu : Untouched h h') : obj.Live h' :=
  ⟨fun v hv => ⟨(hl.1 v hv).1.mono hu, (hl.1 v hv).2.1.mono hu, (hl.1 v hv).2.2.1.mono hu,
    (hl.1 v hv).2.2.2.mono hu⟩, hl.2.mono hu.1⟩

theorem exists_none (h : Heap K) : Exists h none := fun _ e => by cases e

theorem MTDHObj.Live.transformArgs {R : Rng K} {h : Heap K} {obj : MTDHObj R p} (hl : obj.Live h) :
    obj.transformArgs.deref h = (obj.deref h).transformArgs ∧ obj.transformArgs.Exist h := by
  unfold MTDHObj.transformArgs MTDObj.transformArgs MTDHObj.deref
  cases hv : obj.vars with
  | none =>
    exact ⟨rfl, ⟨exists_none h, exists_none h, exists_none h, exists_none h⟩⟩
  | some v =>
    obtain ⟨-, hS, hO, hA⟩ := hl.1 v hv
    refine ⟨?_, ⟨fun _ e => ?_, fun _ e => by (cases e), fun _ e => ?_, fun _ e => ?_⟩⟩
    · simp only [MTDHArgs.deref, Option.map_some, Option.map_none, MTDRefs.deref, MTDVars.SArr]
      rw [← Arr2.eq_of_at hS.2.1 hS.2.2, Arr2.asArr1_eq hO.2.2]
      rfl
    · cases e
      exact hS.1
    · cases e
      exact hO.1
    · cases e
      exact hA.1

/-- What a call does: see the theorems below. -/
def MTDCall (env : Env K) (h : Heap K) (r : Heap K × MTDHObj env.rng p × Option ℕ × FitInfo K)
    (r' : MTDObj env.rng p × Option (Arr2 K) × FitInfo K) : Prop :=
  Untouched h r.1 ∧ mtdView r.1 r.2 = r' ∧
    ∃ v, r.2.1.vars = some v ∧ r.2.2.1 = some v.Gamma ∧
      [v.Gamma, v.S, v.orderWeights, v.transitionMatrices].Nodup ∧
      (∀ x ∈ [v.Gamma, v.S, v.orderWeights, v.transitionMatrices], h.next ≤ x) ∧
      Shaped r.1 v.Gamma v.T v.k ∧ Shaped r.1 v.S v.k v.D ∧
      Shaped r.1 v.orderWeights 1 p ∧ Shaped r.1 v.transitionMatrices (p * v.k) v.k

theorem MTDCallRel.call {env : Env K} {h : Heap K} {r : Heap K × MTDHObj env.rng p × FitInfo K}
    {r' : MTDObj env.rng p × FitInfo K} (hr : MTDCallRel env h r r') :
    ∃ v, r.2.1.vars = some v ∧
      [v.Gamma, v.S, v.orderWeights, v.transitionMatrices].Nodup ∧
      (∀ x ∈ [v.Gamma, v.S, v.orderWeights, v.transitionMatrices], h.next ≤ x) ∧
      (Shaped r.1 v.Gamma v.T v.k ∧ Shaped r.1 v.S v.k v.D ∧
        Shaped r.1 v.orderWeights 1 p ∧ Shaped r.1 v.transitionMatrices (p * v.k) v.k) := by
  obtain ⟨-, -, -, v, hv, hn, hx, c1, c2, c3, c4⟩ := hr
  refine ⟨v, hv, hn, fun x h => (hx x h).1, shaped_of_eq (hx _ ?_).2 c1, shaped_of_eq (hx _ ?_).2 c2,
    shaped_of_eq (hx _ ?_).2 c3, shaped_of_eq (hx _ ?_).2 c4⟩ <;> simp

theorem hMtdFitTransform_rel (env : Env K) (h : Heap K) (obj : MTDHObj env.rng p) {data : ℕ}
    (hdata : data < h.next) {args : MTDHArgs} (ha : args.Exist h) (ho : Exists h obj.dictionary_)
    (fl : MTDFlags) (kw : InitKwargs) :
    HRel h h.next (MTDCall env h) (hMtdFitTransform env h obj data args fl kw)
      (mtdFitTransform env (obj.deref h) (h.cell data) (args.deref h) fl kw) := by
  unfold hMtdFitTransform mtdFitTransform
  refine (hMtdConvexCoding_rel env h obj hdata ha ho fl kw).bind fun r r' hr => ?_
  obtain ⟨v, hv, hn, hf, hs⟩ := hr.call
  refine ⟨hr.1, ?_, v, hv, congrArg (Option.map MTDRefs.Gamma) hv, hn, hf, hs⟩
  obtain ⟨-, he, hi, -⟩ := hr
  rw [← he, ← hi]
  unfold mtdView MTDHObj.deref
  simp only [hv, Option.map_some]
  rw [Arr2.eq_of_at hs.1.2.1 hs.1.2.2, Arr2.eq_of_at hs.2.1.2.1 hs.2.1.2.2]
  rfl

theorem hMtdTransform_rel (env : Env K) (h : Heap K) (obj : MTDHObj env.rng p) {data : ℕ}
    (hdata : data < h.next) (hl : obj.Live h) :
    HRel h h.next (MTDCall env h) (hMtdTransform env h obj data)
      (mtdTransform env (obj.deref h) (h.cell data)) := by
  unfold hMtdTransform mtdTransform
  rw [← hl.transformArgs.1]
  refine (hMtdConvexCoding_rel env h obj hdata hl.transformArgs.2 hl.2 _ {}).bind fun r r' hr => ?_
  obtain ⟨v, hv, hn, hf, hs⟩ := hr.call
  refine ⟨hr.1, ?_, v, hv, congrArg (Option.map MTDRefs.Gamma) hv, hn, hf, hs⟩
  obtain ⟨-, he, hi, -⟩ := hr
  rw [← he, ← hi]
  unfold mtdView MTDHObj.deref
  simp only [hv, Option.map_some]
  rw [Arr2.eq_of_at hs.1.2.1 hs.1.2.2]
  rfl

/-! ### C60 -/

/-- C60.  `MTDConvexCoding.fit_transform` leaves every array that exists when it is called (the data,
a custom dictionary, weights, order weights and transition matrices, arrays of the object from earlier
calls, anything else) unchanged, whether it returns or raises. -/
theorem C60_mtd_fit_transform (env : Env K) (h : Heap K) (obj : MTDHObj env.rng p) {data : ℕ}
    (hdata : data < h.next) {args : MTDHArgs} (ha : args.Exist h) (ho : Exists h obj.dictionary_)
    (fl : MTDFlags) (kw : InitKwargs) :
    Harmless h (hMtdFitTransform env h obj data args fl kw) :=
  (hMtdFitTransform_rel env h obj hdata ha ho fl kw).harmless fun _ _ hr => hr.1

/-- C60.  The same for `transform`; in particular the dictionary, order weights and transition
matrices learnt earlier are unchanged. -/
theorem C60_mtd_transform (env : Env K) (h : Heap K) (obj : MTDHObj env.rng p) {data : ℕ}
    (hdata : data < h.next) (hl : obj.Live h) : Harmless h (hMtdTransform env h obj data) :=
  (hMtdTransform_rel env h obj hdata hl).harmless fun _ _ hr => hr.1

/-- C60.  The in-place code computes what the code on values computes, so the other theorems about
`MTDConvexCoding` speak about it. -/
theorem C60_mtd_values (env : Env K) (h : Heap K) (obj : MTDHObj env.rng p) {data : ℕ}
    (hdata : data < h.next) {args : MTDHArgs} (ha : args.Exist h) (hl : obj.Live h) (fl : MTDFlags)
    (kw : InitKwargs) :
    (hMtdFitTransform env h obj data args fl kw).view mtdView =
      mtdFitTransform env (obj.deref h) (h.cell data) (args.deref h) fl kw ∧
    (hMtdTransform env h obj data).view mtdView = mtdTransform env (obj.deref h) (h.cell data) :=
  ⟨(hMtdFitTransform_rel env h obj hdata ha hl.2 fl kw).view fun _ _ hr => hr.2.1,
    (hMtdTransform_rel env h obj hdata hl).view fun _ _ hr => hr.2.1⟩

/-- C60.  Weights, dictionary, order weights and transition matrices after a fit are four new arrays:
later changes to them by the caller do not reach the data or a custom start.  The returned weights are
the object's own array. -/
theorem C60_mtd_fit_transform_fresh (env : Env K) (h : Heap K) (obj : MTDHObj env.rng p) {data : ℕ}
    (hdata : data < h.next) {args : MTDHArgs} (ha : args.Exist h) (ho : Exists h obj.dictionary_)
    (fl : MTDFlags) (kw : InitKwargs) {h' : Heap K} {obj' : MTDHObj env.rng p} {G : Option ℕ}
    {info : FitInfo K}
    (hr : hMtdFitTransform env h obj data args fl kw = HPy.ok (h', obj', G, info)) :
    ∃ v, obj'.vars = some v ∧ G = some v.Gamma ∧ obj'.dictionary_ = some v.S ∧
      [v.Gamma, v.S, v.orderWeights, v.transitionMatrices].Nodup ∧
      (∀ x ∈ [v.Gamma, v.S, v.orderWeights, v.transitionMatrices], h.next ≤ x) ∧ obj'.Live h' := by
  obtain ⟨_, -, -, -, v, hv, hG, hn, hf, hs⟩ :=
    (hMtdFitTransform_rel env h obj hdata ha ho fl kw).of_ok hr
  have hd : obj'.dictionary_ = some v.S := by
    unfold hMtdFitTransform at hr
    obtain ⟨r, -, e⟩ := HPy.bind_eq_ok.1 hr
    cases e
    exact congrArg (Option.map MTDRefs.S) hv
  have hv' : obj'.vars = some v := hv
  refine ⟨v, hv, hG, hd, hn, hf, ⟨fun w hw => ?_, exists_of_eq hd hs.2.1.1⟩⟩
  rw [hv'] at hw
  cases hw
  exact hs

theorem hMtdConvexCoding_dictionary {env : Env K} {h : Heap K} {obj : MTDHObj env.rng p} {data : ℕ}
    {args : MTDHArgs} {fl : MTDFlags} {kw : InitKwargs}
    {r : Heap K × MTDHObj env.rng p × FitInfo K}
    (hr : hMtdConvexCoding env h obj data args fl kw = HPy.ok r) :
    r.2.1.dictionary_ = obj.dictionary_ := by
  unfold hMtdConvexCoding at hr
  obtain ⟨q, -, hr⟩ := HPy.bind_eq_ok.1 hr
  obtain ⟨st, -, hr⟩ := HPy.bind_eq_ok.1 hr
  obtain ⟨t, -, hr⟩ := HPy.bind_eq_ok.1 hr
  cases hr
  rfl

/-- C60.  `transform` gives the object new arrays for dictionary, order weights and transition
matrices, equal to the old ones, and leaves `dictionary_` where it was with the contents it had. -/
theorem C60_mtd_transform_fresh (env : Env K) (h : Heap K) (obj : MTDHObj env.rng p) {data : ℕ}
    (hdata : data < h.next) (hl : obj.Live h) {h' : Heap K} {obj' : MTDHObj env.rng p}
    {G : Option ℕ} {info : FitInfo K}
    (hr : hMtdTransform env h obj data = HPy.ok (h', obj', G, info)) :
    obj'.dictionary_ = obj.dictionary_ ∧
    (∀ d, obj.dictionary_ = some d → h'.cell d = h.cell d) ∧ obj'.Live h' ∧
    ∃ u v, obj.vars = some u ∧ obj'.vars = some v ∧ G = some v.Gamma ∧
      [v.Gamma, v.S, v.orderWeights, v.transitionMatrices].Nodup ∧
      (∀ x ∈ [v.Gamma, v.S, v.orderWeights, v.transitionMatrices], h.next ≤ x) ∧
      v.k = u.k ∧ h'.cell v.S = h.cell u.S ∧
      ofRow ((h'.cell v.orderWeights).at 1 p) = ofRow ((h.cell u.orderWeights).at 1 p) ∧
      unstack ((h'.cell v.transitionMatrices).at (p * u.k) u.k) =
        unstack ((h.cell u.transitionMatrices).at (p * u.k) u.k) := by
  obtain ⟨res, hres, hu, hv, v, hv', hG, hn, hf, hs⟩ :=
    (hMtdTransform_rel env h obj hdata hl).of_ok hr
  have hdict : obj'.dictionary_ = obj.dictionary_ := by
    unfold hMtdTransform at hr
    obtain ⟨r, hr', e⟩ := HPy.bind_eq_ok.1 hr
    cases e
    exact hMtdConvexCoding_dictionary hr'
  obtain ⟨⟨T0, k, W0, W, S, w, A, e1, e2⟩, -⟩ :=
    C23_mtd_transform_keeps_model (obj.deref h) _ res.1 res.2.1 res.2.2 hres
  change obj'.vars = some v at hv'
  refine ⟨hdict, fun d hd => hu.2 d (hl.2 d hd), ⟨fun w hw => ?_, ?_⟩, ?_⟩
  · rw [hv'] at hw
    cases hw
    exact hs
  · rw [hdict]
    exact hl.2.mono hu.1
  have e2' : (obj'.deref h').vars = some ⟨(h.cell data).rows, (h.cell data).cols, k, W, S, w, A⟩ := by
    rw [show obj'.deref h' = res.1 from congrArg Prod.fst hv]
    exact e2
  unfold MTDHObj.deref at e1 e2'
  simp only [hv', Option.map_some, Option.some.injEq] at e2'
  cases hc : obj.vars with
  | none => simp only [hc, Option.map_none] at e1; cases e1
  | some u =>
    simp only [hc, Option.map_some, Option.some.injEq] at e1
    have hsu := hl.1 u hc
    refine ⟨u, v, rfl, hv', hG, hn, hf, ?_⟩
    obtain ⟨T1, D1, k1, a1, b1, c1, d1⟩ := u
    obtain ⟨T2, D2, k2, a2, b2, c2, d2⟩ := v
    unfold MTDRefs.deref at e1 e2'
    simp only [MTDVars.mk.injEq] at e1 e2'
    obtain ⟨rfl, rfl, rfl, e11, e12, e13, e14⟩ := e1
    obtain ⟨rfl, rfl, rfl, e21, e22, e23, e24⟩ := e2'
    refine ⟨rfl, ?_, ?_, ?_⟩
    · change h'.cell b2 = h.cell b1
      rw [Arr2.eq_of_at hsu.2.1.2.1 hsu.2.1.2.2, Arr2.eq_of_at hs.2.1.2.1 hs.2.1.2.2]
      exact congrArg Arr2.of (eq_of_heq (e22.trans e12.symm))
    · exact e23.trans e13.symm
    · exact eq_of_heq (e24.trans e14.symm)

/-- A caller using one `MTDConvexCoding` object: calls with any existing arrays, new arrays of the
caller's own, changes of parameters, and calls that raise (after which the object may hold any existing
arrays). -/
inductive MTDHistory (env : Env K) : Heap K → MTDHObj env.rng p → Heap K → MTDHObj env.rng p → Prop
  | start (h obj) : MTDHistory env h obj h obj
  | fit {h obj h1 obj1} (data : ℕ) (args : MTDHArgs) (fl : MTDFlags) (kw : InitKwargs)
      {h2 obj2 G info} : MTDHistory env h obj h1 obj1 → data < h1.next → args.Exist h1 →
      hMtdFitTransform env h1 obj1 data args fl kw = HPy.ok (h2, obj2, G, info) →
      MTDHistory env h obj h2 obj2
  | transform {h obj h1 obj1} (data : ℕ) {h2 obj2 G info} : MTDHistory env h obj h1 obj1 →
      data < h1.next → hMtdTransform env h1 obj1 data = HPy.ok (h2, obj2, G, info) →
      MTDHistory env h obj h2 obj2
  | fitRaises {h obj h1 obj1} (data : ℕ) (args : MTDHArgs) (fl : MTDFlags) (kw : InitKwargs) {e h2}
      (obj2 : MTDHObj env.rng p) : MTDHistory env h obj h1 obj1 → data < h1.next → args.Exist h1 →
      hMtdFitTransform env h1 obj1 data args fl kw = HPy.raise e h2 → obj2.Live h2 →
      MTDHistory env h obj h2 obj2
  | transformRaises {h obj h1 obj1} (data : ℕ) {e h2} (obj2 : MTDHObj env.rng p) :
      MTDHistory env h obj h1 obj1 → data < h1.next →
      hMtdTransform env h1 obj1 data = HPy.raise e h2 → obj2.Live h2 →
      MTDHistory env h obj h2 obj2
  | alloc {h obj h1 obj1} (A : Arr2 K) : MTDHistory env h obj h1 obj1 →
      MTDHistory env h obj (h1.alloc A) obj1
  | setParams {h obj h1 obj1} (obj2 : MTDHObj env.rng p) : MTDHistory env h obj h1 obj1 →
      obj2.vars = obj1.vars → obj2.dictionary_ = obj1.dictionary_ → MTDHistory env h obj h1 obj2

/-- C60.  Over any history of calls on an `MTDConvexCoding` object, no array existing at the beginning
is modified. -/
theorem C60_mtd_history {env : Env K} {h h' : Heap K} {obj obj' : MTDHObj env.rng p}
    (hl : obj.Live h) (H : MTDHistory env h obj h' obj') : Untouched h h' := by
  suffices hh : Untouched h h' ∧ obj'.Live h' from hh.1
  induction H with
  | start => exact ⟨⟨le_rfl, fun _ _ => rfl⟩, hl⟩
  | fit data args fl kw _ hdata ha hr ih =>
    obtain ⟨_, -, -, -, -, -, l⟩ := C60_mtd_fit_transform_fresh env _ _ hdata ha ih.2.2 fl kw hr
    exact ⟨ih.1.trans ((C60_mtd_fit_transform env _ _ hdata ha ih.2.2 fl kw).1 _ hr), l⟩
  | transform data _ hdata hr ih =>
    obtain ⟨-, -, l, -⟩ := C60_mtd_transform_fresh env _ _ hdata ih.2 hr
    exact ⟨ih.1.trans ((C60_mtd_transform env _ _ hdata ih.2).1 _ hr), l⟩
  | fitRaises data args fl kw obj2 _ hdata ha hr l ih =>
    exact ⟨ih.1.trans ((C60_mtd_fit_transform env _ _ hdata ha ih.2.2 fl kw).2 _ _ hr), l⟩
  | transformRaises data obj2 _ hdata hr l ih =>
    exact ⟨ih.1.trans ((C60_mtd_transform env _ _ hdata ih.2).2 _ _ hr), l⟩
  | @alloc h1 _ A _ ih =>
    have u' := Untouched.alloc h1 A
    exact ⟨ih.1.trans u', ih.2.mono u'⟩
  | setParams obj2 _ h3 h4 ih =>
    refine ⟨ih.1, ?_⟩
    unfold MTDHObj.Live
    rw [h3, h4]
    exact ih.2

/-! ### Examples -/

/-- The data of the examples in memory. -/
def mtdDemoHeap : Heap ℚ := ⟨1, fun _ => demoData⟩

/-- The unfitted model of the examples. -/
def mtdDemoHObj : MTDHObj demoEnv.rng 2 :=
  { nComponents := mtdDemoObj.nComponents, lags := mtdDemoObj.lags
    epsilonStates := mtdDemoObj.epsilonStates, epsilonWeights := mtdDemoObj.epsilonWeights
    init := mtdDemoObj.init, tolerance := mtdDemoObj.tolerance
    maxIterations := mtdDemoObj.maxIterations, randomState := mtdDemoObj.randomState
    ls := mtdDemoObj.ls, require := mtdDemoObj.require }

theorem mtdDemoHObj_live : mtdDemoHObj.Live mtdDemoHeap :=
  ⟨fun _ e => by (cases e), exists_none _⟩

theorem mtdDemo_args : ({} : MTDHArgs).Exist mtdDemoHeap :=
  ⟨exists_none _, exists_none _, exists_none _, exists_none _⟩

/-- C60 at work: a fit returns, with the data as they were and four new arrays. -/
theorem mtdDemo_heap_fit : ∃ h' obj' v info,
    hMtdFitTransform demoEnv mtdDemoHeap mtdDemoHObj 0 {} {} {} =
      HPy.ok (h', obj', some v.Gamma, info) ∧ obj'.vars = some v ∧
    h'.cell 0 = demoData ∧ 1 ≤ v.Gamma ∧ 1 ≤ v.transitionMatrices ∧ v.S ≠ v.Gamma := by
  obtain ⟨res, h⟩ := mtdDemo_fit
  have hv := (C60_mtd_values demoEnv mtdDemoHeap mtdDemoHObj (data := 0) (by decide) mtdDemo_args
    mtdDemoHObj_live {} {}).1
  obtain ⟨⟨h', obj', G, info⟩, hr, -⟩ := HPy.ok_of_view (hv.trans h)
  have hu := (C60_mtd_fit_transform demoEnv mtdDemoHeap mtdDemoHObj (data := 0) (by decide)
    mtdDemo_args mtdDemoHObj_live.2 {} {}).1 _ hr
  obtain ⟨v, hv, rfl, -, hn, hf, -⟩ := C60_mtd_fit_transform_fresh demoEnv mtdDemoHeap mtdDemoHObj
    (data := 0) (by decide) mtdDemo_args mtdDemoHObj_live.2 {} {} hr
  refine ⟨h', obj', v, info, hr, hv, hu.2 0 (by decide), hf _ (by simp), hf _ (by simp), ?_⟩
  intro e
  simp [e] at hn

/-- A history: the fit above, a new array, and other parameters. -/
example : ∃ (h' : Heap ℚ) (obj' : MTDHObj demoEnv.rng 2),
    MTDHistory demoEnv mtdDemoHeap mtdDemoHObj h' { obj' with init := none } ∧
    h'.cell 0 = demoData := by
  obtain ⟨h', obj', v, info, hr, -⟩ := mtdDemo_heap_fit
  have H := (((MTDHistory.start mtdDemoHeap mtdDemoHObj).fit 0 {} {} {} (by decide)
    mtdDemo_args hr).alloc (Arr2.of demoW)).setParams { obj' with init := none } rfl rfl
  have hu := C60_mtd_history mtdDemoHObj_live H
  exact ⟨_, _, H, hu.2 0 (by decide)⟩

/-- A fitted model in memory: the data, and the four arrays of the model. -/
def mtdFittedHeap (S : Matrix (Fin 2) (Fin demoData.cols) ℚ) (W0 : Matrix (Fin 5) (Fin 2) ℚ) :
    Heap ℚ :=
  ⟨5, fun a => if a = 0 then demoData else if a = 1 then Arr2.of W0 else if a = 2 then Arr2.of S
    else if a = 3 then Arr2.of (asRow ![1/2, 1/2])
    else Arr2.of (stack (fun _ : Fin 2 => (1 : Matrix (Fin 2) (Fin 2) ℚ)))⟩

/-- The object holding them. -/
def mtdFittedHObj : MTDHObj demoEnv.rng 2 :=
  { mtdDemoHObj with
    vars := some ⟨5, demoData.cols, 2, 1, 2, 3, 4⟩
    dictionary_ := some 2 }

theorem mtdFittedHObj_live (S : Matrix (Fin 2) (Fin demoData.cols) ℚ)
    (W0 : Matrix (Fin 5) (Fin 2) ℚ) : mtdFittedHObj.Live (mtdFittedHeap S W0) := by
  refine ⟨fun v hv => ?_, fun _ e => ?_⟩
  · cases hv
    exact ⟨⟨by change 1 < 5; decide, rfl, rfl⟩, ⟨by change 2 < 5; decide, rfl, rfl⟩,
      ⟨by change 3 < 5; decide, rfl, rfl⟩, ⟨by change 4 < 5; decide, rfl, rfl⟩⟩
  · cases e
    change 2 < 5
    decide

/-- C60 at work: `transform` of a fitted model returns, and the model's dictionary is as it was. -/
example (S : Matrix (Fin 2) (Fin demoData.cols) ℚ) (W0 : Matrix (Fin 5) (Fin 2) ℚ) :
    ∃ h' obj' v info, hMtdTransform demoEnv (mtdFittedHeap S W0) mtdFittedHObj 0 =
      HPy.ok (h', obj', some v.Gamma, info) ∧ obj'.vars = some v ∧ h'.cell 2 = Arr2.of S ∧
      h'.cell v.S = Arr2.of S ∧ 5 ≤ v.S := by
  have hl := mtdFittedHObj_live S W0
  have hd : 0 < (mtdFittedHeap S W0).next := by change 0 < 5; decide
  obtain ⟨res, h⟩ := C61_mtd_transform_returns demoRng_lawful demoRng_uniform_pos
    { mtdDemoObj with
      vars := some ⟨5, demoData.cols, 2, W0, S, ![1/2, 1/2], fun _ => 1⟩
      dictionary_ := some (Arr2.of S) }
    (by norm_num) mtdDemo_lags
    (by norm_num [mtdDemoObj, demoLS]) (by norm_num [mtdDemoObj, demoLS])
    (by norm_num [mtdDemoObj, demoLS]) (by norm_num [mtdDemoObj, demoLS]) rfl
    (by norm_num [mtdDemoObj, demoLS])
    (by norm_num [mtdDemoObj, demoLS]) rfl (Or.inl rfl) demoData (by norm_num [demoData, Arr2.of])
    (by show (3 : ℕ) ≠ Finset.univ.sup ![1, 2]; decide)
    ⟨⟨2, rfl, by norm_num⟩, ⟨4, rfl, by norm_num⟩, Or.inr ⟨_, rfl, by norm_num⟩⟩
    (k := 2) rfl 5 W0 S _ _ rfl
    ⟨by intro i; fin_cases i <;> norm_num, by norm_num [Fin.sum_univ_two]⟩
    (fun _ j => ⟨by intro i; fin_cases i <;> fin_cases j <;> norm_num,
      by rw [Fin.sum_univ_two]; fin_cases j <;> norm_num [Matrix.one_apply]⟩)
  have e : mtdFittedHObj.deref (mtdFittedHeap S W0) = { mtdDemoObj with
      vars := some ⟨5, demoData.cols, 2, W0, S, ![1/2, 1/2], fun _ => 1⟩
      dictionary_ := some (Arr2.of S) } := by
    have e1 : MTDRefs.deref 2 (mtdFittedHeap S W0) ⟨5, demoData.cols, 2, 1, 2, 3, 4⟩ =
        ⟨5, demoData.cols, 2, W0, S, ![1/2, 1/2], fun _ => 1⟩ := by
      unfold MTDRefs.deref
      have c1 : (mtdFittedHeap S W0).cell 1 = Arr2.of W0 := rfl
      have c2 : (mtdFittedHeap S W0).cell 2 = Arr2.of S := rfl
      have c3 : (mtdFittedHeap S W0).cell 3 = Arr2.of (asRow ![1/2, 1/2]) := rfl
      have c4 : (mtdFittedHeap S W0).cell 4 =
        Arr2.of (stack (fun _ : Fin 2 => (1 : Matrix (Fin 2) (Fin 2) ℚ))) := rfl
      simp only [c1, c2, c3, c4, Arr2.at_of, ofRow_asRow, unstack_stack]
    unfold MTDHObj.deref
    rw [show mtdFittedHObj.vars = some ⟨5, demoData.cols, 2, 1, 2, 3, 4⟩ from rfl, Option.map_some,
      e1]
    rfl
  have hv := (hMtdTransform_rel demoEnv (mtdFittedHeap S W0) mtdFittedHObj hd hl).view
    fun _ _ hr => hr.2.1
  rw [e] at hv
  obtain ⟨⟨h', obj', G, info⟩, hr, -⟩ := HPy.ok_of_view (hv.trans h)
  have hu := (C60_mtd_transform demoEnv _ _ hd hl).1 _ hr
  obtain ⟨-, -, -, u, v, hu', hv', rfl, -, hf, -, hS, -⟩ := C60_mtd_transform_fresh demoEnv _ _ hd hl hr
  cases hu'
  exact ⟨h', obj', v, info, hr, hv', hu.2 2 (by change 2 < 5; decide), hS, hf _ (by simp)⟩

/-- What the copy of the order weights is for: a second name for the caller's array, followed by the
full step of the line search, changes the caller's array. -/
example (h : Heap ℚ) (addr : MTDAttr → ℕ) (rest : MTDScalars ℚ) (a : ℕ)
    (M : Matrix (Fin 1) (Fin 2) ℚ) :
    (((⟨addr, rest, h⟩ : MTDMem ℚ).bindTo .orderWeights a).augment .orderWeights M).heap.cell a =
      Arr2.of M := by
  change Function.update h.cell (Function.update addr MTDAttr.orderWeights a MTDAttr.orderWeights)
    (Arr2.of M) a = _
  rw [Function.update_self, Function.update_self]

end Reor
