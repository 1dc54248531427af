import Verif.Proofs.KAAHeap
import Verif.Props.GPNH
import Verif.Props.KernelAA
import Verif.Props.Demo

/-!
C60: the estimators do not modify the arrays they are given.
-/

set_option linter.unusedSectionVars false

namespace Reor

open scoped BigOperators Matrix

variable {K : Type} [Field K] [LinearOrder K] [IsStrictOrderedRing K]

/-! ### Specification -/

/-- Every array of the memory `h` is still there in `h'`, with the same contents. -/
def Untouched (h h' : Heap K) : Prop := h.next ≤ h'.next ∧ ∀ a < h.next, h'.cell a = h.cell a

/-- The address, if any, is that of an existing array. -/
def Exists (h : Heap K) (a : Option ℕ) : Prop := ∀ x, a = some x → x < h.next

/-- A call that leaves all existing arrays as they are, however it ends. -/
def Harmless {α : Type} (h : Heap K) (x : HPy K (Heap K × α)) : Prop :=
  (∀ r, x = HPy.ok r → Untouched h r.1) ∧ ∀ e h', x = HPy.raise e h' → Untouched h h'

/-- The outcome of a call seen from outside: array results are replaced by their contents with
`f`. -/
def HPy.view {α β : Type} (f : Heap K → α → β) : HPy K (Heap K × α) → Py β
  | .ok r => Py.ok (f r.1 r.2)
  | .raise e _ => Py.raise e
  | .diverge => Py.diverge

/-- Values of what a `GPNHConvexCoding` call returns. -/
def gpnhView {R : Rng K} (h : Heap K) (r : GPNHHObj R × Option ℕ × FitInfo K) :
    GPNHObj R × Option (Arr2 K) × FitInfo K := (r.1.deref h, r.2.1.map h.cell, r.2.2)

/-- Values of what a `KernelAA` or `ArchetypalAnalysis` call returns. -/
def kaaView {R : Rng K} (h : Heap K) (r : KAAHObj R × Option ℕ × FitInfo K) :
    KAAObj R × Option (Arr2 K) × FitInfo K := (r.1.deref h, r.2.1.map h.cell, r.2.2)

theorem HRel.harmless {α β : Type} {h : Heap K} {P : Heap K × α → β → Prop} {x : HPy K (Heap K × α)}
    {y : Py β} (hr : HRel h h.next P x y) (hP : ∀ r b, P r b → Untouched h r.1) : Harmless h x := by
  cases x <;> cases y <;> simp only [HRel] at hr
  · exact ⟨fun r e => by cases e; exact hP _ _ hr, fun e h' e' => by cases e'⟩
  · exact ⟨fun r e => by (cases e), fun e h' e' => by cases e'; exact hr.2⟩
  · exact ⟨fun r e => by (cases e), fun e h' e' => by cases e'⟩

theorem HRel.view {α β : Type} {h : Heap K} {f : Heap K → α → β} {P : Heap K × α → β → Prop}
    {x : HPy K (Heap K × α)} {y : Py β} (hr : HRel h h.next P x y)
    (hP : ∀ r b, P r b → f r.1 r.2 = b) : x.view f = y := by
  cases x <;> cases y <;> simp only [HRel] at hr
  · exact congrArg Py.ok (hP _ _ hr)
  · exact congrArg Py.raise hr.1
  · rfl

theorem HRel.of_ok {α β : Type} {h : Heap K} {P : Heap K × α → β → Prop}
    {x : HPy K (Heap K × α)} {y : Py β} {r : Heap K × α} (hr : HRel h h.next P x y)
    (hx : x = HPy.ok r) : ∃ b, y = Py.ok b ∧ P r b := by
  subst hx
  cases y <;> simp only [HRel] at hr
  exact ⟨_, rfl, hr⟩

theorem Untouched.trans {h h1 h2 : Heap K} (a : Untouched h h1) (b : Untouched h1 h2) :
    Untouched h h2 :=
  ⟨a.1.trans b.1, fun x hx => (b.2 x (lt_of_lt_of_le hx a.1)).trans (a.2 x hx)⟩

theorem Exists.mono {h h1 : Heap K} {a : Option ℕ} (ha : Exists h a) (hk : h.next ≤ h1.next) :
    Exists h1 a := fun x e => lt_of_lt_of_le (ha x e) hk

theorem Untouched.alloc (h : Heap K) (A : Arr2 K) : Untouched h (h.alloc A) :=
  ⟨Nat.le_succ _, fun _ ha => Heap.cell_alloc_lt h A ha⟩

/-! ### GPNHConvexCoding -/

/-- What a call does: see the theorems below. -/
def GPNHCall (env : Env K) (h : Heap K) (r : Heap K × GPNHHObj env.rng × Option ℕ × FitInfo K)
    (r' : GPNHObj env.rng × Option (Arr2 K) × FitInfo K) : Prop :=
  Untouched h r.1 ∧ gpnhView r.1 r.2 = r' ∧
    ∃ a b, r.2.1.Gamma = some a ∧ r.2.1.S = some b ∧ r.2.2.1 = some a ∧ a ≠ b ∧ h.next ≤ a ∧
      h.next ≤ b ∧ a < r.1.next ∧ b < r.1.next

theorem hGpnhFitTransform_rel (env : Env K) (h : Heap K) (obj : GPNHHObj env.rng) {data : ℕ}
    (hdata : data < h.next) {dictionary weights : Option ℕ} (hd : Exists h dictionary)
    (hw : Exists h weights) (ho : Exists h obj.dictionary_) (kw : InitKwargs) (ud uw : Bool) :
    HRel h h.next (GPNHCall env h) (hGpnhFitTransform env h obj data dictionary weights kw ud uw)
      (gpnhFitTransform env (obj.deref h) (h.cell data) (dictionary.map h.cell)
        (weights.map h.cell) kw ud uw) := by
  unfold hGpnhFitTransform gpnhFitTransform
  refine (hGpnhConvexCoding_rel env h obj hdata hd hw ho ud uw kw).bind fun r r' hr => ?_
  obtain ⟨hk, he, hi, a, b, ha, hb, hne, h1, h2, h3, h4⟩ := hr
  refine ⟨hk, ?_, a, b, ha, hb, ha, hne, h1, h2, h3, h4⟩
  rw [← he]
  unfold gpnhView GPNHHObj.deref
  simp only [hi, ha, hb, Option.map_some]

theorem hGpnhTransform_rel (env : Env K) (h : Heap K) (obj : GPNHHObj env.rng) {data : ℕ}
    (hdata : data < h.next) (hS : Exists h obj.S) (ho : Exists h obj.dictionary_) :
    HRel h h.next (GPNHCall env h) (hGpnhTransform env h obj data)
      (gpnhTransform env (obj.deref h) (h.cell data)) := by
  unfold hGpnhTransform gpnhTransform
  refine (hGpnhConvexCoding_rel env h obj hdata hS (fun _ e => by cases e) ho false true {}).bind
    fun r r' hr => ?_
  obtain ⟨hk, he, hi, a, b, ha, hb, hne, h1, h2, h3, h4⟩ := hr
  refine ⟨hk, ?_, a, b, ha, hb, ha, hne, h1, h2, h3, h4⟩
  rw [← he]
  unfold gpnhView
  rw [hi]
  rfl

/-- C60.  `GPNHConvexCoding.fit_transform` leaves every array that exists when it is called (the data,
a custom dictionary and weights, arrays of the object from earlier calls, anything else) unchanged,
whether it returns or raises. -/
theorem C60_gpnh_fit_transform (env : Env K) (h : Heap K) (obj : GPNHHObj env.rng) {data : ℕ}
    (hdata : data < h.next) {dictionary weights : Option ℕ} (hd : Exists h dictionary)
    (hw : Exists h weights) (ho : Exists h obj.dictionary_) (kw : InitKwargs) (ud uw : Bool) :
    Harmless h (hGpnhFitTransform env h obj data dictionary weights kw ud uw) :=
  (hGpnhFitTransform_rel env h obj hdata hd hw ho kw ud uw).harmless fun _ _ hr => hr.1

/-- C60.  The same for `transform`; in particular the dictionary learnt earlier is unchanged. -/
theorem C60_gpnh_transform (env : Env K) (h : Heap K) (obj : GPNHHObj env.rng) {data : ℕ}
    (hdata : data < h.next) (hS : Exists h obj.S) (ho : Exists h obj.dictionary_) :
    Harmless h (hGpnhTransform env h obj data) :=
  (hGpnhTransform_rel env h obj hdata hS ho).harmless fun _ _ hr => hr.1

/-- C60.  The in-place code computes what the code on values computes, so the other theorems about
`GPNHConvexCoding` speak about it. -/
theorem C60_gpnh_values (env : Env K) (h : Heap K) (obj : GPNHHObj env.rng) {data : ℕ}
    (hdata : data < h.next) {dictionary weights : Option ℕ} (hd : Exists h dictionary)
    (hw : Exists h weights) (hS : Exists h obj.S) (ho : Exists h obj.dictionary_) (kw : InitKwargs)
    (ud uw : Bool) :
    (hGpnhFitTransform env h obj data dictionary weights kw ud uw).view gpnhView =
      gpnhFitTransform env (obj.deref h) (h.cell data) (dictionary.map h.cell)
        (weights.map h.cell) kw ud uw ∧
    (hGpnhTransform env h obj data).view gpnhView =
      gpnhTransform env (obj.deref h) (h.cell data) :=
  ⟨(hGpnhFitTransform_rel env h obj hdata hd hw ho kw ud uw).view fun _ _ hr => hr.2.1,
    (hGpnhTransform_rel env h obj hdata hS ho).view fun _ _ hr => hr.2.1⟩

/-- C60.  The weights and the dictionary after a fit are two new arrays: later changes to them by the
caller do not reach the data or a custom start.  The returned weights are the object's own array. -/
theorem C60_gpnh_fit_transform_fresh (env : Env K) (h : Heap K) (obj : GPNHHObj env.rng) {data : ℕ}
    (hdata : data < h.next) {dictionary weights : Option ℕ} (hd : Exists h dictionary)
    (hw : Exists h weights) (ho : Exists h obj.dictionary_) (kw : InitKwargs) (ud uw : Bool)
    {h' : Heap K} {obj' : GPNHHObj env.rng} {G : Option ℕ} {info : FitInfo K}
    (hr : hGpnhFitTransform env h obj data dictionary weights kw ud uw =
      HPy.ok (h', obj', G, info)) :
    ∃ a b, G = some a ∧ obj'.Gamma = some a ∧ obj'.S = some b ∧ a ≠ b ∧ h.next ≤ a ∧ h.next ≤ b ∧
      a < h'.next ∧ b < h'.next := by
  obtain ⟨_, -, -, -, a, b, h1, h2, h3, h4, h5, h6, h7, h8⟩ :=
    (hGpnhFitTransform_rel env h obj hdata hd hw ho kw ud uw).of_ok hr
  exact ⟨a, b, h3, h1, h2, h4, h5, h6, h7, h8⟩

theorem hGpnhConvexCoding_dictionary {env : Env K} {h : Heap K} {obj : GPNHHObj env.rng} {data : ℕ}
    {dictionary weights : Option ℕ} {ud uw : Bool} {kw : InitKwargs}
    {r : Heap K × GPNHHObj env.rng × FitInfo K}
    (hr : hGpnhConvexCoding env h obj data dictionary weights ud uw kw = HPy.ok r) :
    r.2.1.dictionary_ = obj.dictionary_ := by
  unfold hGpnhConvexCoding at hr
  obtain ⟨p, -, hr⟩ := HPy.bind_eq_ok.1 hr
  obtain ⟨st, -, hr⟩ := HPy.bind_eq_ok.1 hr
  obtain ⟨t, -, hr⟩ := HPy.bind_eq_ok.1 hr
  cases hr
  rfl

/-- C60.  `transform` gives the object a new dictionary array, equal to the old one, and leaves
`dictionary_` where it was with the contents it had. -/
theorem C60_gpnh_transform_fresh (env : Env K) (h : Heap K) (obj : GPNHHObj env.rng) {data : ℕ}
    (hdata : data < h.next) (hS : Exists h obj.S) (ho : Exists h obj.dictionary_)
    {h' : Heap K} {obj' : GPNHHObj env.rng} {G : Option ℕ} {info : FitInfo K}
    (hr : hGpnhTransform env h obj data = HPy.ok (h', obj', G, info)) :
    obj'.dictionary_ = obj.dictionary_ ∧
    (∀ d, obj.dictionary_ = some d → h'.cell d = h.cell d) ∧
    ∃ a b c, G = some a ∧ obj'.Gamma = some a ∧ obj'.S = some b ∧ a ≠ b ∧ h.next ≤ a ∧ h.next ≤ b ∧
      a < h'.next ∧ b < h'.next ∧ obj.S = some c ∧ h'.cell b = h.cell c := by
  have hrel := hGpnhTransform_rel env h obj hdata hS ho
  obtain ⟨res, hres, hu, hv, a, b, h1, h2, h3, h4, h5, h6, h7, h8⟩ := hrel.of_ok hr
  have hdict : obj'.dictionary_ = obj.dictionary_ := by
    unfold hGpnhTransform at hr
    obtain ⟨r, hr', e⟩ := HPy.bind_eq_ok.1 hr
    cases e
    exact hGpnhConvexCoding_dictionary hr'
  have hpure := C23_gpnh_transform_keeps_dictionary (obj.deref h) _ res.1 res.2.1 res.2.2 hres
  have hv1 : obj'.deref h' = res.1 := congrArg Prod.fst hv
  have hSv : obj'.S.map h'.cell = obj.S.map h.cell := by
    have := hpure.1
    rw [← hv1] at this
    exact this
  refine ⟨hdict, fun d hd => hu.2 d (ho d hd), ?_⟩
  change obj'.S = some b at h2
  rw [h2] at hSv
  cases hc : obj.S with
  | none => rw [hc] at hSv; cases hSv
  | some c =>
    rw [hc] at hSv
    exact ⟨a, b, c, h3, h1, h2, h4, h5, h6, h7, h8, rfl, Option.some.inj hSv⟩

/-- A caller using one `GPNHConvexCoding` object: calls with any existing arrays, new arrays of the
caller's own, changes of parameters, and calls that raise (after which the object may hold any existing
arrays). -/
inductive GPNHHistory (env : Env K) : Heap K → GPNHHObj env.rng → Heap K → GPNHHObj env.rng → Prop
  | start (h obj) : GPNHHistory env h obj h obj
  | fit {h obj h1 obj1} (data : ℕ) (dictionary weights : Option ℕ) (kw : InitKwargs) (ud uw : Bool)
      {h2 obj2 G info} : GPNHHistory env h obj h1 obj1 → data < h1.next → Exists h1 dictionary →
      Exists h1 weights →
      hGpnhFitTransform env h1 obj1 data dictionary weights kw ud uw =
        HPy.ok (h2, obj2, G, info) → GPNHHistory env h obj h2 obj2
  | transform {h obj h1 obj1} (data : ℕ) {h2 obj2 G info} : GPNHHistory env h obj h1 obj1 →
      data < h1.next → hGpnhTransform env h1 obj1 data = HPy.ok (h2, obj2, G, info) →
      GPNHHistory env h obj h2 obj2
  | fitRaises {h obj h1 obj1} (data : ℕ) (dictionary weights : Option ℕ) (kw : InitKwargs)
      (ud uw : Bool) {e h2} (obj2 : GPNHHObj env.rng) : GPNHHistory env h obj h1 obj1 →
      data < h1.next → Exists h1 dictionary → Exists h1 weights →
      hGpnhFitTransform env h1 obj1 data dictionary weights kw ud uw = HPy.raise e h2 →
      Exists h2 obj2.S → Exists h2 obj2.dictionary_ → GPNHHistory env h obj h2 obj2
  | transformRaises {h obj h1 obj1} (data : ℕ) {e h2} (obj2 : GPNHHObj env.rng) :
      GPNHHistory env h obj h1 obj1 → data < h1.next →
      hGpnhTransform env h1 obj1 data = HPy.raise e h2 →
      Exists h2 obj2.S → Exists h2 obj2.dictionary_ → GPNHHistory env h obj h2 obj2
  | alloc {h obj h1 obj1} (A : Arr2 K) : GPNHHistory env h obj h1 obj1 →
      GPNHHistory env h obj (h1.alloc A) obj1
  | setParams {h obj h1 obj1} (obj2 : GPNHHObj env.rng) : GPNHHistory env h obj h1 obj1 →
      obj2.S = obj1.S → obj2.dictionary_ = obj1.dictionary_ → GPNHHistory env h obj h1 obj2

/-- C60.  Over any history of calls on a `GPNHConvexCoding` object, no array existing at the beginning
is modified. -/
theorem C60_gpnh_history {env : Env K} {h h' : Heap K} {obj obj' : GPNHHObj env.rng}
    (hS : Exists h obj.S) (ho : Exists h obj.dictionary_) (H : GPNHHistory env h obj h' obj') :
    Untouched h h' := by
  suffices hh : Untouched h h' ∧ Exists h' obj'.S ∧ Exists h' obj'.dictionary_ from hh.1
  induction H with
  | start => exact ⟨⟨le_rfl, fun _ _ => rfl⟩, hS, ho⟩
  | fit data dictionary weights kw ud uw _ hdata hd hw hr ih =>
    obtain ⟨u, e1, e2⟩ := ih
    have c := (hGpnhFitTransform_rel env _ _ hdata hd hw e2 kw ud uw).of_ok hr
    obtain ⟨_, -, u', -, _, b, -, h2, -, -, -, -, -, h8⟩ := c
    unfold hGpnhFitTransform at hr
    obtain ⟨r, -, e⟩ := HPy.bind_eq_ok.1 hr
    cases e
    have : Exists r.1 r.2.1.S := fun x hx => by
      have h2' : r.2.1.S = some b := h2
      rw [h2'] at hx
      cases hx
      exact h8
    exact ⟨u.trans u', this, this⟩
  | transform data _ hdata hr ih =>
    obtain ⟨u, e1, e2⟩ := ih
    obtain ⟨hd, -, a, b, c, -, -, h2, -, -, -, -, h8, -⟩ :=
      C60_gpnh_transform_fresh env _ _ hdata e1 e2 hr
    have u' := (C60_gpnh_transform env _ _ hdata e1 e2).1 _ hr
    refine ⟨u.trans u', fun x hx => ?_, ?_⟩
    · rw [h2] at hx
      cases hx
      exact h8
    · rw [hd]
      exact e2.mono u'.1
  | fitRaises data dictionary weights kw ud uw obj2 _ hdata hd hw hr h3 h4 ih =>
    obtain ⟨u, e1, e2⟩ := ih
    exact ⟨u.trans ((C60_gpnh_fit_transform env _ _ hdata hd hw e2 kw ud uw).2 _ _ hr), h3, h4⟩
  | transformRaises data obj2 _ hdata hr h3 h4 ih =>
    obtain ⟨u, e1, e2⟩ := ih
    exact ⟨u.trans ((C60_gpnh_transform env _ _ hdata e1 e2).2 _ _ hr), h3, h4⟩
  | @alloc h1 _ A _ ih =>
    obtain ⟨u, e1, e2⟩ := ih
    have u' := Untouched.alloc h1 A
    exact ⟨u.trans u', e1.mono u'.1, e2.mono u'.1⟩
  | setParams obj2 _ h3 h4 ih =>
    obtain ⟨u, e1, e2⟩ := ih
    exact ⟨u, by rw [h3]; exact e1, by rw [h4]; exact e2⟩

/-! ### KernelAA -/

/-- What a call does: see the theorems below. -/
def KAACall (env : Env K) (h : Heap K) (r : Heap K × KAAHObj env.rng × Option ℕ × FitInfo K)
    (r' : KAAObj env.rng × Option (Arr2 K) × FitInfo K) : Prop :=
  Untouched h r.1 ∧ kaaView r.1 r.2 = r' ∧
    ∃ a b c, r.2.1.S = some a ∧ r.2.1.C = some b ∧ r.2.1.Kmat = some c ∧ r.2.2.1 = some a ∧
      a ≠ b ∧ a ≠ c ∧ b ≠ c ∧ h.next ≤ a ∧ h.next ≤ b ∧ h.next ≤ c ∧ a < r.1.next ∧ b < r.1.next ∧
      c < r.1.next

theorem hKaaFitTransform_rel (env : Env K) (h : Heap K) (obj : KAAHObj env.rng) {kernel : ℕ}
    (hdata : kernel < h.next) {dictionary weights : Option ℕ} (hd : Exists h dictionary)
    (hw : Exists h weights) (ho : Exists h obj.dictionary_) (kw : InitKwargs) (ud uw : Bool) :
    HRel h h.next (KAACall env h) (hKaaFitTransform env h obj kernel dictionary weights kw ud uw)
      (kaaFitTransform env (obj.deref h) (h.cell kernel) (dictionary.map h.cell)
        (weights.map h.cell) kw ud uw) := by
  unfold hKaaFitTransform kaaFitTransform
  refine (hKernelAA_rel env h obj hdata hd hw ho ud uw kw).bind fun r r' hr => ?_
  obtain ⟨hk, he, hi, a, b, c, ha, hb, hc, hne⟩ := hr
  refine ⟨hk, ?_, a, b, c, ha, hb, hc, ha, hne⟩
  unfold kaaFinish
  rw [← he]
  unfold kaaView KAAHObj.deref hKaaFinish
  simp only [hi, ha, hb, Option.map_some]

theorem hKaaTransform_rel (env : Env K) (h : Heap K) (obj : KAAHObj env.rng) {kernel : ℕ}
    (hdata : kernel < h.next) (hC : Exists h obj.C) (ho : Exists h obj.dictionary_) :
    HRel h h.next (KAACall env h) (hKaaTransform env h obj kernel)
      (kaaTransform env (obj.deref h) (h.cell kernel)) := by
  unfold hKaaTransform kaaTransform
  refine (hKernelAA_rel env h obj hdata hC (fun _ e => by cases e) ho false true {}).bind
    fun r r' hr => ?_
  obtain ⟨hk, he, hi, a, b, c, ha, hb, hc, hne⟩ := hr
  refine ⟨hk, ?_, a, b, c, ha, hb, hc, ha, hne⟩
  rw [← he]
  unfold kaaView
  rw [hi]
  rfl

/-- C60.  `KernelAA.fit_transform` leaves every array that exists when it is called unchanged, whether
it returns or raises. -/
theorem C60_kernel_aa_fit_transform (env : Env K) (h : Heap K) (obj : KAAHObj env.rng) {kernel : ℕ}
    (hdata : kernel < h.next) {dictionary weights : Option ℕ} (hd : Exists h dictionary)
    (hw : Exists h weights) (ho : Exists h obj.dictionary_) (kw : InitKwargs) (ud uw : Bool) :
    Harmless h (hKaaFitTransform env h obj kernel dictionary weights kw ud uw) :=
  (hKaaFitTransform_rel env h obj hdata hd hw ho kw ud uw).harmless fun _ _ hr => hr.1

/-- C60.  The same for `transform`. -/
theorem C60_kernel_aa_transform (env : Env K) (h : Heap K) (obj : KAAHObj env.rng) {kernel : ℕ}
    (hdata : kernel < h.next) (hC : Exists h obj.C) (ho : Exists h obj.dictionary_) :
    Harmless h (hKaaTransform env h obj kernel) :=
  (hKaaTransform_rel env h obj hdata hC ho).harmless fun _ _ hr => hr.1

/-- C60.  The in-place code computes what the code on values computes. -/
theorem C60_kernel_aa_values (env : Env K) (h : Heap K) (obj : KAAHObj env.rng) {kernel : ℕ}
    (hdata : kernel < h.next) {dictionary weights : Option ℕ} (hd : Exists h dictionary)
    (hw : Exists h weights) (hC : Exists h obj.C) (ho : Exists h obj.dictionary_) (kw : InitKwargs)
    (ud uw : Bool) :
    (hKaaFitTransform env h obj kernel dictionary weights kw ud uw).view kaaView =
      kaaFitTransform env (obj.deref h) (h.cell kernel) (dictionary.map h.cell)
        (weights.map h.cell) kw ud uw ∧
    (hKaaTransform env h obj kernel).view kaaView =
      kaaTransform env (obj.deref h) (h.cell kernel) :=
  ⟨(hKaaFitTransform_rel env h obj hdata hd hw ho kw ud uw).view fun _ _ hr => hr.2.1,
    (hKaaTransform_rel env h obj hdata hC ho).view fun _ _ hr => hr.2.1⟩

/-- C60.  The weights, the dictionary and the kernel held after a fit are three new arrays. -/
theorem C60_kernel_aa_fit_transform_fresh (env : Env K) (h : Heap K) (obj : KAAHObj env.rng)
    {kernel : ℕ} (hdata : kernel < h.next) {dictionary weights : Option ℕ}
    (hd : Exists h dictionary) (hw : Exists h weights) (ho : Exists h obj.dictionary_)
    (kw : InitKwargs) (ud uw : Bool)
    {h' : Heap K} {obj' : KAAHObj env.rng} {G : Option ℕ} {info : FitInfo K}
    (hr : hKaaFitTransform env h obj kernel dictionary weights kw ud uw =
      HPy.ok (h', obj', G, info)) :
    ∃ a b c, G = some a ∧ obj'.S = some a ∧ obj'.C = some b ∧ obj'.Kmat = some c ∧
      a ≠ b ∧ a ≠ c ∧ b ≠ c ∧ h.next ≤ a ∧ h.next ≤ b ∧ h.next ≤ c ∧ a < h'.next ∧ b < h'.next ∧
      c < h'.next := by
  obtain ⟨_, -, -, -, a, b, c, h1, h2, h3, h4, h5⟩ :=
    (hKaaFitTransform_rel env h obj hdata hd hw ho kw ud uw).of_ok hr
  exact ⟨a, b, c, h4, h1, h2, h3, h5⟩

theorem hKernelAA_dictionary {env : Env K} {h : Heap K} {obj : KAAHObj env.rng} {kernel : ℕ}
    {dictionary weights : Option ℕ} {ud uw : Bool} {kw : InitKwargs}
    {r : Heap K × KAAHObj env.rng × FitInfo K}
    (hr : hKernelAA env h obj kernel dictionary weights ud uw kw = HPy.ok r) :
    r.2.1.dictionary_ = obj.dictionary_ := by
  unfold hKernelAA at hr
  dsimp only at hr
  split at hr
  · obtain ⟨p, -, hr⟩ := HPy.bind_eq_ok.1 hr
    obtain ⟨st, -, hr⟩ := HPy.bind_eq_ok.1 hr
    obtain ⟨t, -, hr⟩ := HPy.bind_eq_ok.1 hr
    cases hr
    rfl
  · cases hr

/-- C60.  `transform` gives the object new arrays and leaves `dictionary_` where it was with the
contents it had. -/
theorem C60_kernel_aa_transform_fresh (env : Env K) (h : Heap K) (obj : KAAHObj env.rng)
    {kernel : ℕ} (hdata : kernel < h.next) (hC : Exists h obj.C) (ho : Exists h obj.dictionary_)
    {h' : Heap K} {obj' : KAAHObj env.rng} {G : Option ℕ} {info : FitInfo K}
    (hr : hKaaTransform env h obj kernel = HPy.ok (h', obj', G, info)) :
    obj'.dictionary_ = obj.dictionary_ ∧
    (∀ d, obj.dictionary_ = some d → h'.cell d = h.cell d) ∧
    ∃ a b c, G = some a ∧ obj'.S = some a ∧ obj'.C = some b ∧ obj'.Kmat = some c ∧
      a ≠ b ∧ a ≠ c ∧ b ≠ c ∧ h.next ≤ a ∧ h.next ≤ b ∧ h.next ≤ c ∧ a < h'.next ∧ b < h'.next ∧
      c < h'.next := by
  have hrel := hKaaTransform_rel env h obj hdata hC ho
  obtain ⟨res, hres, hu, hv, a, b, c, h1, h2, h3, h4, h5⟩ := hrel.of_ok hr
  have hdict : obj'.dictionary_ = obj.dictionary_ := by
    unfold hKaaTransform at hr
    obtain ⟨r, hr', e⟩ := HPy.bind_eq_ok.1 hr
    cases e
    exact hKernelAA_dictionary hr'
  exact ⟨hdict, fun d hd => hu.2 d (ho d hd), a, b, c, h4, h1, h2, h3, h5⟩

/-! ### ArchetypalAnalysis -/

/-- A kernel function given by the caller, on memory and on values: it may make new arrays, and may
return an array the caller holds, but modifies nothing. -/
def PoliteKernel (f : Heap K → ℕ → HPy K (Heap K × ℕ)) (f' : Arr2 K → Py (Arr2 K)) : Prop :=
  ∀ h a, a < h.next →
    HRel h h.next (fun r A => Untouched h r.1 ∧ r.2 < r.1.next ∧ r.1.cell r.2 = A) (f h a)
      (f' (h.cell a))

/-- Both are absent, or the two describe one function. -/
def KernelPair (f : Option (Heap K → ℕ → HPy K (Heap K × ℕ))) (f' : Option (Arr2 K → Py (Arr2 K))) :
    Prop :=
  match f, f' with
  | none, none => True
  | some f, some f' => PoliteKernel f f'
  | _, _ => False

theorem hAaKernel_rel {f : Option (Heap K → ℕ → HPy K (Heap K × ℕ))}
    {f' : Option (Arr2 K → Py (Arr2 K))} (hf : KernelPair f f') {h : Heap K} {data : ℕ}
    (hdata : data < h.next) :
    HRel h h.next (fun r A => Untouched h r.1 ∧ r.2 < r.1.next ∧ r.1.cell r.2 = A)
      (hAaKernel f h data) (aaKernel f' (h.cell data)) := by
  cases f <;> cases f' <;> simp only [KernelPair] at hf
  · exact ⟨Untouched.alloc _ _, Nat.lt_succ_self _, h.cell_alloc _⟩
  · exact hf h data hdata

theorem Heap.map_cell_of_untouched {h h1 : Heap K} (u : Untouched h h1) {a : Option ℕ}
    (ha : Exists h a) : a.map h1.cell = a.map h.cell := by
  cases a with
  | none => rfl
  | some x => exact congrArg some (u.2 x (ha x rfl))

/-- An object whose arrays exist. -/
def KAAHObj.Live {R : Rng K} (obj : KAAHObj R) (h : Heap K) : Prop :=
  Exists h obj.Kmat ∧ Exists h obj.S ∧ Exists h obj.C ∧ Exists h obj.dictionary_

theorem KAAHObj.deref_of_untouched {R : Rng K} {obj : KAAHObj R} {h h1 : Heap K}
    (hl : obj.Live h) (u : Untouched h h1) : obj.deref h1 = obj.deref h := by
  unfold KAAHObj.deref
  rw [Heap.map_cell_of_untouched u hl.1, Heap.map_cell_of_untouched u hl.2.1,
    Heap.map_cell_of_untouched u hl.2.2.1, Heap.map_cell_of_untouched u hl.2.2.2]

theorem HRel.weaken {α β : Type} {h h1 : Heap K} (u : Untouched h h1) {P Q : α → β → Prop}
    {x : HPy K α} {y : Py β} (hr : HRel h1 h1.next P x y) (hPQ : ∀ a b, P a b → Q a b) :
    HRel h h.next Q x y := by
  cases x <;> cases y <;> simp only [HRel] at hr ⊢
  · exact hPQ _ _ hr
  · exact ⟨hr.1, Untouched.trans u hr.2⟩

theorem KAACall.weaken {env : Env K} {h h1 : Heap K} (u : Untouched h h1)
    {r : Heap K × KAAHObj env.rng × Option ℕ × FitInfo K}
    {r' : KAAObj env.rng × Option (Arr2 K) × FitInfo K} (hr : KAACall env h1 r r') :
    KAACall env h r r' := by
  obtain ⟨hk, hv, a, b, c, h1', h2, h3, h4, n1, n2, n3, f1, f2, f3, l⟩ := hr
  exact ⟨u.trans hk, hv, a, b, c, h1', h2, h3, h4, n1, n2, n3, u.1.trans f1, u.1.trans f2,
    u.1.trans f3, l⟩

theorem hAaFitTransform_rel (env : Env K) (h : Heap K) (obj : KAAHObj env.rng)
    {f : Option (Heap K → ℕ → HPy K (Heap K × ℕ))} {f' : Option (Arr2 K → Py (Arr2 K))}
    (hf : KernelPair f f') {data : ℕ} (hdata : data < h.next) {dictionary weights : Option ℕ}
    (hd : Exists h dictionary) (hw : Exists h weights) (ho : obj.Live h) (kw : InitKwargs)
    (ud uw : Bool) :
    HRel h h.next (KAACall env h) (hAaFitTransform env h obj f data dictionary weights kw ud uw)
      (aaFitTransform env (obj.deref h) f' (h.cell data) (dictionary.map h.cell)
        (weights.map h.cell) kw ud uw) := by
  unfold hAaFitTransform aaFitTransform
  refine (hAaKernel_rel hf hdata).bind fun r A hr => ?_
  obtain ⟨u, hl, rfl⟩ := hr
  rw [← KAAHObj.deref_of_untouched ho u, ← Heap.map_cell_of_untouched u hd,
    ← Heap.map_cell_of_untouched u hw]
  exact (hKaaFitTransform_rel env r.1 obj hl (hd.mono u.1) (hw.mono u.1) (ho.2.2.2.mono u.1) kw ud
    uw).weaken u fun _ _ hr => hr.weaken u

theorem hAaTransform_rel (env : Env K) (h : Heap K) (obj : KAAHObj env.rng)
    {f : Option (Heap K → ℕ → HPy K (Heap K × ℕ))} {f' : Option (Arr2 K → Py (Arr2 K))}
    (hf : KernelPair f f') {data : ℕ} (hdata : data < h.next) (ho : obj.Live h) :
    HRel h h.next (KAACall env h) (hAaTransform env h obj f data)
      (aaTransform env (obj.deref h) f' (h.cell data)) := by
  unfold hAaTransform aaTransform
  refine (hAaKernel_rel hf hdata).bind fun r A hr => ?_
  obtain ⟨u, hl, rfl⟩ := hr
  rw [← KAAHObj.deref_of_untouched ho u]
  exact (hKaaTransform_rel env r.1 obj hl (ho.2.2.1.mono u.1) (ho.2.2.2.mono u.1)).weaken u
    fun _ _ hr => hr.weaken u

/-- C60.  `ArchetypalAnalysis.fit_transform` and `transform` leave every array that exists when they
are called unchanged, whatever kernel function is used, as long as the function itself modifies
nothing; this covers a function that returns the data array itself or any other array of the
caller's. -/
theorem C60_archetypal_analysis (env : Env K) (h : Heap K) (obj : KAAHObj env.rng)
    {f : Option (Heap K → ℕ → HPy K (Heap K × ℕ))} {f' : Option (Arr2 K → Py (Arr2 K))}
    (hf : KernelPair f f') {data : ℕ} (hdata : data < h.next) {dictionary weights : Option ℕ}
    (hd : Exists h dictionary) (hw : Exists h weights) (ho : obj.Live h) (kw : InitKwargs)
    (ud uw : Bool) :
    Harmless h (hAaFitTransform env h obj f data dictionary weights kw ud uw) ∧
    Harmless h (hAaTransform env h obj f data) :=
  ⟨(hAaFitTransform_rel env h obj hf hdata hd hw ho kw ud uw).harmless fun _ _ hr => hr.1,
    (hAaTransform_rel env h obj hf hdata ho).harmless fun _ _ hr => hr.1⟩

/-- C60.  The in-place code computes what the code on values computes. -/
theorem C60_archetypal_analysis_values (env : Env K) (h : Heap K) (obj : KAAHObj env.rng)
    {f : Option (Heap K → ℕ → HPy K (Heap K × ℕ))} {f' : Option (Arr2 K → Py (Arr2 K))}
    (hf : KernelPair f f') {data : ℕ} (hdata : data < h.next) {dictionary weights : Option ℕ}
    (hd : Exists h dictionary) (hw : Exists h weights) (ho : obj.Live h) (kw : InitKwargs)
    (ud uw : Bool) :
    (hAaFitTransform env h obj f data dictionary weights kw ud uw).view kaaView =
      aaFitTransform env (obj.deref h) f' (h.cell data) (dictionary.map h.cell)
        (weights.map h.cell) kw ud uw ∧
    (hAaTransform env h obj f data).view kaaView =
      aaTransform env (obj.deref h) f' (h.cell data) :=
  ⟨(hAaFitTransform_rel env h obj hf hdata hd hw ho kw ud uw).view fun _ _ hr => hr.2.1,
    (hAaTransform_rel env h obj hf hdata ho).view fun _ _ hr => hr.2.1⟩

/-- A caller using one `KernelAA` or `ArchetypalAnalysis` object. -/
inductive KAAHistory (env : Env K) : Heap K → KAAHObj env.rng → Heap K → KAAHObj env.rng → Prop
  | start (h obj) : KAAHistory env h obj h obj
  | fit {h obj h1 obj1} (kernel : ℕ) (dictionary weights : Option ℕ) (kw : InitKwargs)
      (ud uw : Bool) {h2 obj2 G info} : KAAHistory env h obj h1 obj1 → kernel < h1.next →
      Exists h1 dictionary → Exists h1 weights →
      hKaaFitTransform env h1 obj1 kernel dictionary weights kw ud uw =
        HPy.ok (h2, obj2, G, info) → KAAHistory env h obj h2 obj2
  | transform {h obj h1 obj1} (kernel : ℕ) {h2 obj2 G info} : KAAHistory env h obj h1 obj1 →
      kernel < h1.next → hKaaTransform env h1 obj1 kernel = HPy.ok (h2, obj2, G, info) →
      KAAHistory env h obj h2 obj2
  | aaFit {h obj h1 obj1} (f f' data) (dictionary weights : Option ℕ) (kw : InitKwargs)
      (ud uw : Bool) {h2 obj2 G info} : KAAHistory env h obj h1 obj1 → KernelPair f f' →
      data < h1.next → Exists h1 dictionary → Exists h1 weights →
      hAaFitTransform env h1 obj1 f data dictionary weights kw ud uw =
        HPy.ok (h2, obj2, G, info) → KAAHistory env h obj h2 obj2
  | aaTransform {h obj h1 obj1} (f f' data) {h2 obj2 G info} : KAAHistory env h obj h1 obj1 →
      KernelPair f f' → data < h1.next →
      hAaTransform env h1 obj1 f data = HPy.ok (h2, obj2, G, info) → KAAHistory env h obj h2 obj2
  | raises {h obj h1 obj1} {h2} (obj2 : KAAHObj env.rng) : KAAHistory env h obj h1 obj1 →
      ((∃ kernel dictionary weights kw ud uw e, kernel < h1.next ∧ Exists h1 dictionary ∧
          Exists h1 weights ∧
          hKaaFitTransform env h1 obj1 kernel dictionary weights kw ud uw = HPy.raise e h2) ∨
        (∃ kernel e, kernel < h1.next ∧ hKaaTransform env h1 obj1 kernel = HPy.raise e h2) ∨
        (∃ f f' data dictionary weights kw ud uw e, KernelPair f f' ∧ data < h1.next ∧
          Exists h1 dictionary ∧ Exists h1 weights ∧
          hAaFitTransform env h1 obj1 f data dictionary weights kw ud uw = HPy.raise e h2) ∨
        ∃ f f' data e, KernelPair f f' ∧ data < h1.next ∧
          hAaTransform env h1 obj1 f data = HPy.raise e h2) →
      obj2.Live h2 → KAAHistory env h obj h2 obj2
  | alloc {h obj h1 obj1} (A : Arr2 K) : KAAHistory env h obj h1 obj1 →
      KAAHistory env h obj (h1.alloc A) obj1
  | setParams {h obj h1 obj1} (obj2 : KAAHObj env.rng) : KAAHistory env h obj h1 obj1 →
      obj2.Kmat = obj1.Kmat → obj2.S = obj1.S → obj2.C = obj1.C →
      obj2.dictionary_ = obj1.dictionary_ → KAAHistory env h obj h1 obj2

theorem KAAHObj.Live.mono {R : Rng K} {obj : KAAHObj R} {h h1 : Heap K} (hl : obj.Live h)
    (hk : h.next ≤ h1.next) : obj.Live h1 :=
  ⟨hl.1.mono hk, hl.2.1.mono hk, hl.2.2.1.mono hk, hl.2.2.2.mono hk⟩

theorem exists_of_eq {h : Heap K} {a : Option ℕ} {x : ℕ} (e : a = some x) (hx : x < h.next) :
    Exists h a := fun y hy => by
  rw [e] at hy
  cases hy
  exact hx

theorem KAACall.live {env : Env K} {h : Heap K} {r : Heap K × KAAHObj env.rng × Option ℕ × FitInfo K}
    {r' : KAAObj env.rng × Option (Arr2 K) × FitInfo K} (hr : KAACall env h r r')
    (hd : Exists r.1 r.2.1.dictionary_) : r.2.1.Live r.1 := by
  obtain ⟨-, -, a, b, c, h1, h2, h3, -, -, -, -, -, -, -, l1, l2, l3⟩ := hr
  exact ⟨exists_of_eq h3 l3, exists_of_eq h1 l1, exists_of_eq h2 l2, hd⟩

theorem hKaaFitTransform_dictionary {env : Env K} {h : Heap K} {obj : KAAHObj env.rng} {kernel : ℕ}
    {dictionary weights : Option ℕ} {ud uw : Bool} {kw : InitKwargs}
    {r : Heap K × KAAHObj env.rng × Option ℕ × FitInfo K}
    (hr : hKaaFitTransform env h obj kernel dictionary weights kw ud uw = HPy.ok r) :
    r.2.1.dictionary_ = r.2.1.C := by
  unfold hKaaFitTransform at hr
  obtain ⟨t, -, e⟩ := HPy.bind_eq_ok.1 hr
  cases e
  rfl

theorem hKaaTransform_dictionary {env : Env K} {h : Heap K} {obj : KAAHObj env.rng} {kernel : ℕ}
    {r : Heap K × KAAHObj env.rng × Option ℕ × FitInfo K}
    (hr : hKaaTransform env h obj kernel = HPy.ok r) : r.2.1.dictionary_ = obj.dictionary_ := by
  unfold hKaaTransform at hr
  obtain ⟨t, ht, e⟩ := HPy.bind_eq_ok.1 hr
  cases e
  exact hKernelAA_dictionary ht

/-- C60.  Over any history of calls on a `KernelAA` or `ArchetypalAnalysis` object, no array existing
at the beginning is modified. -/
theorem C60_kernel_aa_history {env : Env K} {h h' : Heap K} {obj obj' : KAAHObj env.rng}
    (hl : obj.Live h) (H : KAAHistory env h obj h' obj') : Untouched h h' := by
  suffices hh : Untouched h h' ∧ obj'.Live h' from hh.1
  have fin : ∀ {h1 : Heap K} {r : Heap K × KAAHObj env.rng × Option ℕ × FitInfo K} {r'},
      KAACall env h1 r r' → r.2.1.dictionary_ = r.2.1.C → r.2.1.Live r.1 := by
    intro h1 r r' hr e
    refine hr.live ?_
    obtain ⟨-, -, a, b, c, -, h2, -, -, -, -, -, -, -, -, -, l2, -⟩ := hr
    rw [e]
    exact exists_of_eq h2 l2
  induction H with
  | start => exact ⟨⟨le_rfl, fun _ _ => rfl⟩, hl⟩
  | fit kernel dictionary weights kw ud uw _ hdata hd hw hr ih =>
    obtain ⟨u, e⟩ := ih
    obtain ⟨_, -, c⟩ := (hKaaFitTransform_rel env _ _ hdata hd hw e.2.2.2 kw ud uw).of_ok hr
    exact ⟨u.trans c.1, fin c (hKaaFitTransform_dictionary hr)⟩
  | transform kernel _ hdata hr ih =>
    obtain ⟨u, e⟩ := ih
    obtain ⟨_, -, c⟩ := (hKaaTransform_rel env _ _ hdata e.2.2.1 e.2.2.2).of_ok hr
    refine ⟨u.trans c.1, c.live ?_⟩
    rw [hKaaTransform_dictionary hr]
    exact e.2.2.2.mono c.1.1
  | aaFit f f' data dictionary weights kw ud uw _ hf hdata hd hw hr ih =>
    obtain ⟨u, e⟩ := ih
    obtain ⟨_, -, c⟩ := (hAaFitTransform_rel env _ _ hf hdata hd hw e kw ud uw).of_ok hr
    refine ⟨u.trans c.1, fin c ?_⟩
    unfold hAaFitTransform at hr
    obtain ⟨t, -, hr⟩ := HPy.bind_eq_ok.1 hr
    exact hKaaFitTransform_dictionary hr
  | aaTransform f f' data _ hf hdata hr ih =>
    obtain ⟨u, e⟩ := ih
    obtain ⟨_, -, c⟩ := (hAaTransform_rel env _ _ hf hdata e).of_ok hr
    refine ⟨u.trans c.1, c.live ?_⟩
    unfold hAaTransform at hr
    obtain ⟨t, -, hr⟩ := HPy.bind_eq_ok.1 hr
    have := hKaaTransform_dictionary hr
    dsimp only at this ⊢
    rw [this]
    exact e.2.2.2.mono c.1.1
  | raises obj2 _ hr hl2 ih =>
    obtain ⟨u, e⟩ := ih
    refine ⟨u.trans ?_, hl2⟩
    rcases hr with ⟨_, _, _, _, _, _, _, hk, hd, hw, hr⟩ | ⟨_, _, hk, hr⟩ |
      ⟨_, _, _, _, _, _, _, _, _, hf, hk, hd, hw, hr⟩ | ⟨_, _, _, _, hf, hk, hr⟩
    · exact (C60_kernel_aa_fit_transform env _ _ hk hd hw e.2.2.2 _ _ _).2 _ _ hr
    · exact (C60_kernel_aa_transform env _ _ hk e.2.2.1 e.2.2.2).2 _ _ hr
    · exact (C60_archetypal_analysis env _ _ hf hk hd hw e _ _ _).1.2 _ _ hr
    · exact ((hAaTransform_rel env _ _ hf hk e).harmless fun _ _ hr => hr.1).2 _ _ hr
  | @alloc h1 _ A _ ih =>
    obtain ⟨u, e⟩ := ih
    have u' := Untouched.alloc h1 A
    exact ⟨u.trans u', e.mono u'.1⟩
  | setParams obj2 _ h1 h2 h3 h4 ih =>
    obtain ⟨u, e⟩ := ih
    unfold KAAHObj.Live at e ⊢
    rw [h1, h2, h3, h4]
    exact ⟨u, e⟩

/-! ### Examples -/

theorem HPy.ok_of_view {α β : Type} {f : Heap K → α → β} {x : HPy K (Heap K × α)} {b : β}
    (h : x.view f = Py.ok b) : ∃ r, x = HPy.ok r ∧ f r.1 r.2 = b := by
  cases x <;> simp only [HPy.view] at h
  · exact ⟨_, rfl, Py.ok.inj h⟩
  · cases h
  · cases h

/-- Three arrays of a caller: the data, a dictionary, weights. -/
def demoHeap : Heap ℚ :=
  ⟨3, fun a => if a = 0 then Arr2.of (demoW * demoS) else if a = 1 then Arr2.of demoS
    else Arr2.of demoW⟩

/-- An unfitted estimator with `init='custom'`. -/
def demoHObj : GPNHHObj demoEnv.rng :=
  { nComponents := demoCustom.nComponents, epsilonStates := demoCustom.epsilonStates
    init := demoCustom.init, tolerance := demoCustom.tolerance
    maxIterations := demoCustom.maxIterations, randomState := demoCustom.randomState
    ls := demoCustom.ls, require := demoCustom.require }

/-- C60 at work: a fit from a custom start returns, with the caller's three arrays as they were and
weights that are a fourth array. -/
theorem demo_heap_fit : ∃ h' obj' a info,
    hGpnhFitTransform demoEnv demoHeap demoHObj 0 (some 1) (some 2) {} =
      HPy.ok (h', obj', some a, info) ∧
    h'.cell 0 = Arr2.of (demoW * demoS) ∧ h'.cell 1 = Arr2.of demoS ∧ h'.cell 2 = Arr2.of demoW ∧
    3 ≤ a := by
  have e1 : Exists demoHeap (some 1) := fun x hx => by cases hx; decide
  have e2 : Exists demoHeap (some 2) := fun x hx => by cases hx; decide
  have e0 : Exists demoHeap none := fun x hx => by cases hx
  obtain ⟨o, i, h⟩ := demo_custom_fit
  have hv := (C60_gpnh_values demoEnv demoHeap demoHObj (data := 0) (by decide) e1 e2 e0 e0 {} true
    true).1
  obtain ⟨⟨h', obj', G, info⟩, hr, -⟩ := HPy.ok_of_view (hv.trans h.1)
  have hu := (C60_gpnh_fit_transform demoEnv demoHeap demoHObj (data := 0) (by decide) e1 e2 e0 {} true
    true).1 _ hr
  obtain ⟨a, b, rfl, -, -, -, ha, -⟩ := C60_gpnh_fit_transform_fresh demoEnv demoHeap demoHObj
    (data := 0) (by decide) e1 e2 e0 {} true true hr
  exact ⟨h', obj', a, info, hr, hu.2 0 (by decide), hu.2 1 (by decide), hu.2 2 (by decide), ha⟩

/-- A kernel matrix and a dictionary in memory. -/
def demoKHeap : Heap ℚ :=
  ⟨2, fun a => if a = 0 then Arr2.of demoKernel else Arr2.of demoC⟩

/-- An estimator whose dictionary is the array 1. -/
def demoKHObj : KAAHObj demoEnv.rng :=
  { nComponents := demoKAA.nComponents, delta := demoKAA.delta, init := demoKAA.init
    tolerance := demoKAA.tolerance, maxIterations := demoKAA.maxIterations
    randomState := demoKAA.randomState, ls := demoKAA.ls, require := demoKAA.require
    C := some 1 }

/-- C60 at work: `KernelAA.transform` returns with the kernel and the dictionary as they were. -/
example : ∃ h' obj' a info, hKaaTransform demoEnv demoKHeap demoKHObj 0 =
      HPy.ok (h', obj', some a, info) ∧
    h'.cell 0 = Arr2.of demoKernel ∧ h'.cell 1 = Arr2.of demoC ∧ 2 ≤ a := by
  have e1 : Exists demoKHeap (some 1) := fun x hx => by cases hx; decide
  have e0 : Exists demoKHeap none := fun x hx => by cases hx
  obtain ⟨res, h⟩ := demo_kaa_transform
  have hv := (C60_kernel_aa_values demoEnv demoKHeap demoKHObj (kernel := 0) (by decide) e0 e0 e1 e0 {}
    true true).2
  obtain ⟨⟨h', obj', G, info⟩, hr, -⟩ := HPy.ok_of_view (hv.trans h)
  have hu := (C60_kernel_aa_transform demoEnv demoKHeap demoKHObj (kernel := 0) (by decide) e1 e0).1 _ hr
  obtain ⟨-, -, a, b, c, rfl, -, -, -, -, -, -, ha, -⟩ :=
    C60_kernel_aa_transform_fresh demoEnv demoKHeap demoKHObj (kernel := 0) (by decide) e1 e0 hr
  exact ⟨h', obj', a, info, hr, hu.2 0 (by decide), hu.2 1 (by decide), ha⟩

/-- A history: the fit above, a new array, and other parameters. -/
example : ∃ (h' : Heap ℚ) (obj' : GPNHHObj demoEnv.rng),
    GPNHHistory demoEnv demoHeap demoHObj h' { obj' with init := none } ∧
    h'.cell 1 = Arr2.of demoS := by
  obtain ⟨h', obj', a, info, hr, -⟩ := demo_heap_fit
  have H := (((GPNHHistory.start demoHeap demoHObj).fit 0 (some 1) (some 2) {} true true (by decide)
    (fun x hx => by cases hx; decide) (fun x hx => by cases hx; decide) hr).alloc
    (Arr2.of demoW)).setParams { obj' with init := none } rfl rfl
  have hu := C60_gpnh_history (fun x hx => by cases hx) (fun x hx => by cases hx) H
  exact ⟨_, _, H, hu.2 1 (by decide)⟩

/-- A kernel function that returns the data array itself is covered. -/
example : KernelPair (K := ℚ) (some fun h a => HPy.ok (h, a)) (some fun A => Py.ok A) :=
  fun _ _ ha => ⟨⟨le_rfl, fun _ _ => rfl⟩, ha, rfl⟩

/-- What the copies are for: an attribute that is a second name for the caller's array, followed by an
in-place update, changes the caller's array. -/
example (h : Heap ℚ) (addr : GPNHAttr → ℕ) (rest : GPNHScalars ℚ) (a : ℕ)
    (M : Matrix (Fin 2) (Fin 2) ℚ) :
    (((⟨addr, rest, h⟩ : GPNHMem ℚ).bindTo .S a).augment .S M).heap.cell a = Arr2.of M := by
  change Function.update h.cell (Function.update addr GPNHAttr.S a GPNHAttr.S) (Arr2.of M) a = _
  rw [Function.update_self, Function.update_self]

end Reor
