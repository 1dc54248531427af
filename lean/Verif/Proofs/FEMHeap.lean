import Verif.Model.FEMHeap
import Verif.Proofs.Heap
import Verif.Proofs.FEMBV
import Verif.Proofs.Failure
import Verif.Proofs.MTDHeap

/-!
`src/reor/fembv_kmeans.py` with arrays in memory does what the model on values does, and touches only
its own arrays.
-/

set_option linter.unusedSectionVars false

namespace Reor

open scoped BigOperators Matrix

/-! ### In-place changes while some attributes are not set yet -/

section Partial

variable {K : Type} {ι τ : Type} [DecidableEq ι] [Zero K] {shape : ι → ℕ × ℕ} {s : HState ι τ K}
  {h0 : Heap K} {n0 : ℕ} {A : ι → Prop}

theorem HState.Owns.augment_of (ho : s.Owns shape n0 A) {a : ι} (ha : A a)
    (M : Matrix (Fin (shape a).1) (Fin (shape a).2) K) : (s.augment a M).Owns shape n0 A := by
  refine ⟨fun b hb => ⟨(ho.1 b hb).1, ?_⟩, ho.2⟩
  change ((Function.update s.heap.cell (s.addr a) (Arr2.of M) (s.addr b)).rows = _ ∧
      (Function.update s.heap.cell (s.addr a) (Arr2.of M) (s.addr b)).cols = _)
  by_cases h : b = a
  · subst h
    rw [Function.update_self]
    exact ⟨rfl, rfl⟩
  · rw [Function.update_of_ne fun e => h (ho.2 b a hb e ha)]
    exact (ho.1 b hb).2

theorem HState.val_augment_self (a : ι) (M : Matrix (Fin (shape a).1) (Fin (shape a).2) K) :
    (s.augment a M).val shape a = M :=
  HState.val_of (Function.update_self ..)

theorem HState.val_augment_of (ho : s.Owns shape n0 A) {a b : ι} (ha : A a) (hb : A b) (h : b ≠ a)
    {m n : ℕ} (M : Matrix (Fin m) (Fin n) K) : (s.augment a M).val shape b = s.val shape b := by
  refine HState.val_congr ?_
  change Function.update s.heap.cell (s.addr a) _ (s.addr b) = _
  rw [Function.update_of_ne]
  exact fun e => h (ho.2 b a hb e ha)

theorem HState.keeps_augment_of (hk : h0.Keeps s.heap n0) (ho : s.Owns shape n0 A) {a : ι} (ha : A a)
    {m n : ℕ} (M : Matrix (Fin m) (Fin n) K) : h0.Keeps (s.augment a M).heap n0 := by
  refine ⟨hk.1, fun b hb => ?_⟩
  change Function.update s.heap.cell (s.addr a) _ b = _
  rw [Function.update_of_ne (lt_of_lt_of_le hb (ho.1 a ha).1).ne]
  exact hk.2 b hb

theorem HState.val_assign_self (hv : s.Valid) (a : ι)
    (M : Matrix (Fin (shape a).1) (Fin (shape a).2) K) : (s.assign a M).val shape a = M := by
  have := congrFun (HState.values_assign (shape := shape) hv a M) a
  rw [Function.update_self] at this
  exact this

theorem HState.val_assign_of (hv : s.Valid) {a b : ι} (h : b ≠ a)
    (M : Matrix (Fin (shape a).1) (Fin (shape a).2) K) :
    (s.assign a M).val shape b = s.val shape b := by
  have := congrFun (HState.values_assign (shape := shape) hv a M) b
  rw [Function.update_of_ne h] at this
  exact this

end Partial

variable {K : Type} [Field K] [LinearOrder K] [IsStrictOrderedRing K]

namespace FEMMem

variable {T D k : ℕ} {h0 : Heap K} {n0 : ℕ} {s : FEMMem K}

/-- The object in memory during a fit; the attributes in `A` have been set. -/
structure Part (T D k : ℕ) (h0 : Heap K) (n0 : ℕ) (A : FEMAttr → Prop) (s : FEMMem K) : Prop where
  valid : s.Valid
  owns : s.Owns (femShape T D k) n0 A
  keeps : h0.Keeps s.heap n0

theorem Part.assign {A : FEMAttr → Prop} (h : Part T D k h0 n0 A s) (a : FEMAttr)
    (M : Matrix (Fin (femShape T D k a).1) (Fin (femShape T D k a).2) K) :
    Part T D k h0 n0 (fun b => b = a ∨ A b) (s.assign a M) :=
  ⟨h.valid.assign a M, h.owns.assign h.valid h.keeps.1 a M, HState.keeps_assign h.keeps a M⟩

theorem Part.augment {A : FEMAttr → Prop} (h : Part T D k h0 n0 A s) {a : FEMAttr} (ha : A a)
    (M : Matrix (Fin (femShape T D k a).1) (Fin (femShape T D k a).2) K) :
    Part T D k h0 n0 A (s.augment a M) :=
  ⟨h.valid.augment a M, h.owns.augment_of ha M, HState.keeps_augment_of h.keeps h.owns ha M⟩

theorem Part.mono {A B : FEMAttr → Prop} (h : Part T D k h0 n0 A s) (hB : ∀ a, B a → A a) :
    Part T D k h0 n0 B s := ⟨h.valid, h.owns.mono hB, h.keeps⟩

/-- What the loop over the components does: it fills the listed columns. -/
theorem writeColumns {A : FEMAttr → Prop} (hX : A .X) (hT : A .Theta) (hd : A .distanceMatrix) :
    ∀ (l : List (Fin k)) (s : FEMMem K), Part T D k h0 n0 A s →
      Part T D k h0 n0 A (l.foldl (writeColumn T D k) s) ∧
      (l.foldl (writeColumn T D k) s).addr = s.addr ∧
      (l.foldl (writeColumn T D k) s).distanceMatrix T D k =
        (fun t i => if i ∈ l then kmeansDistance (s.X T D k) (s.Theta T D k) t i
          else s.distanceMatrix T D k t i) ∧
      ∀ b, A b → b ≠ .distanceMatrix →
        (l.foldl (writeColumn T D k) s).val (femShape T D k) b = s.val (femShape T D k) b
  | [], s, h => ⟨h, rfl, by funext t i; simp, fun _ _ _ => rfl⟩
  | j :: l, s, h => by
    have h1 : Part T D k h0 n0 A (writeColumn T D k s j) := h.augment hd _
    have hv : ∀ b, A b → b ≠ .distanceMatrix →
        (writeColumn T D k s j).val (femShape T D k) b = s.val (femShape T D k) b :=
      fun b hb hne => HState.val_augment_of h.owns hd hb hne _
    have hdm : (writeColumn T D k s j).distanceMatrix T D k =
        fun t i => if i = j then kmeansDistance (s.X T D k) (s.Theta T D k) t i
          else s.distanceMatrix T D k t i := by
      refine (HState.val_augment_self (shape := femShape T D k) FEMAttr.distanceMatrix _).trans ?_
      funext t i
      by_cases e : i = j
      · subst e
        simp [kmeansDistance]
      · simp [e]
    obtain ⟨i1, i2, i3, i4⟩ := writeColumns hX hT hd l (writeColumn T D k s j) h1
    refine ⟨i1, i2, ?_, fun b hb hne => (i4 b hb hne).trans (hv b hb hne)⟩
    rw [List.foldl_cons, i3, hdm]
    funext t i
    have e1 : (writeColumn T D k s j).X T D k = s.X T D k := hv .X hX (by decide)
    have e2 : (writeColumn T D k s j).Theta T D k = s.Theta T D k := hv .Theta hT (by decide)
    rw [e1, e2]
    by_cases h1 : i = j
    · simp [h1]
    · simp [h1]

theorem evaluateDistance_part {A : FEMAttr → Prop} (hX : A .X) (hT : A .Theta)
    (hd : A .distanceMatrix) (h : Part T D k h0 n0 A s) :
    Part T D k h0 n0 A (s.evaluateDistance T D k) ∧
      (s.evaluateDistance T D k).distanceMatrix T D k =
        kmeansDistance (s.X T D k) (s.Theta T D k) ∧
      ∀ b, A b → b ≠ .distanceMatrix →
        (s.evaluateDistance T D k).val (femShape T D k) b = s.val (femShape T D k) b := by
  obtain ⟨h1, -, h3, h4⟩ := writeColumns hX hT hd (List.finRange k) s h
  refine ⟨h1, ?_, h4⟩
  refine h3.trans ?_
  funext t i
  simp

/-! ### The iteration -/

/-- The object in memory has the data `Y` and the values `t`, in arrays of its own. -/
structure Sim (h0 : Heap K) (n0 : ℕ) (Y : Matrix (Fin T) (Fin D) K) (s : FEMMem K)
    (t : FEMState (Matrix (Fin k) (Fin D) K) T k K) : Prop where
  part : Part T D k h0 n0 (fun _ => True) s
  data : s.X T D k = Y
  eq : rd T D k s = t

variable {Y : Matrix (Fin T) (Fin D) K} {t : FEMState (Matrix (Fin k) (Fin D) K) T k K}

theorem Sim.keeps (h : Sim h0 n0 Y s t) : h0.Keeps s.heap n0 := h.part.keeps

theorem Sim.gamma (h : Sim h0 n0 Y s t) : s.Gamma T D k = t.Gamma := congrArg FEMState.Gamma h.eq
theorem Sim.theta (h : Sim h0 n0 Y s t) : s.Theta T D k = t.params := congrArg FEMState.params h.eq
theorem Sim.dist (h : Sim h0 n0 Y s t) : s.distanceMatrix T D k = t.distanceMatrix :=
  congrArg FEMState.distanceMatrix h.eq

theorem Sim.evaluateDistance (h : Sim h0 n0 Y s t) :
    Sim h0 n0 Y (s.evaluateDistance T D k) (t.evaluateDistance (kmeansComp k Y)) := by
  obtain ⟨h1, h2, h3⟩ := evaluateDistance_part trivial trivial trivial h.part
  refine ⟨h1, (h3 .X trivial (by decide)).trans h.data, ?_⟩
  have e1 : (s.evaluateDistance T D k).Gamma T D k = s.Gamma T D k := h3 .Gamma trivial (by decide)
  have e2 : (s.evaluateDistance T D k).Theta T D k = s.Theta T D k := h3 .Theta trivial (by decide)
  unfold rd
  rw [e1, e2, h2, h.data, h.theta, h.gamma]
  rfl

theorem Sim.evaluateCost (h : Sim h0 n0 Y s t) :
    Sim h0 n0 Y (s.evaluateCost T D k).1 (t.evaluateCost (kmeansComp k Y)).1 ∧
      (s.evaluateCost T D k).2 = (t.evaluateCost (kmeansComp k Y)).2 := by
  have h1 := h.evaluateDistance
  refine ⟨h1, ?_⟩
  change mulSum ((s.evaluateDistance T D k).Gamma T D k)
    ((s.evaluateDistance T D k).distanceMatrix T D k) = _
  rw [h1.gamma, h1.dist]
  rfl

theorem Sim.assign_Theta (h : Sim h0 n0 Y s t) {M N : Matrix (Fin k) (Fin D) K} (e : M = N) :
    Sim h0 n0 Y (s.assign .Theta M : FEMMem K) { t with params := N } := by
  have hn : ∀ b, b ≠ FEMAttr.Theta →
      (s.assign .Theta M).val (femShape T D k) b = s.val (femShape T D k) b := fun b hb =>
    HState.val_assign_of (shape := femShape T D k) (a := FEMAttr.Theta) h.part.valid hb M
  have hs : (s.assign .Theta M).val (femShape T D k) .Theta = M :=
    HState.val_assign_self (shape := femShape T D k) h.part.valid FEMAttr.Theta M
  refine ⟨(h.part.assign .Theta M).mono fun _ _ => Or.inr trivial, (hn .X (by decide)).trans h.data,
    ?_⟩
  · have e1 : FEMMem.Gamma T D k (s.assign .Theta M) = s.Gamma T D k := hn .Gamma (by decide)
    have e2 : FEMMem.Theta T D k (s.assign .Theta M) = M := hs
    have e3 : FEMMem.distanceMatrix T D k (s.assign .Theta M) = s.distanceMatrix T D k :=
      hn .distanceMatrix (by decide)
    unfold rd
    rw [e1, e2, e3, h.gamma, h.dist, e]

theorem Sim.assign_Gamma (h : Sim h0 n0 Y s t) {M N : Matrix (Fin T) (Fin k) K} (e : M = N) :
    Sim h0 n0 Y (s.assign .Gamma M : FEMMem K) { t with Gamma := N } := by
  have hn : ∀ b, b ≠ FEMAttr.Gamma →
      (s.assign .Gamma M).val (femShape T D k) b = s.val (femShape T D k) b := fun b hb =>
    HState.val_assign_of (shape := femShape T D k) (a := FEMAttr.Gamma) h.part.valid hb M
  have hs : (s.assign .Gamma M).val (femShape T D k) .Gamma = M :=
    HState.val_assign_self (shape := femShape T D k) h.part.valid FEMAttr.Gamma M
  refine ⟨(h.part.assign .Gamma M).mono fun _ _ => Or.inr trivial, (hn .X (by decide)).trans h.data,
    ?_⟩
  · have e1 : FEMMem.Gamma T D k (s.assign .Gamma M) = M := hs
    have e2 : FEMMem.Theta T D k (s.assign .Gamma M) = s.Theta T D k := hn .Theta (by decide)
    have e3 : FEMMem.distanceMatrix T D k (s.assign .Gamma M) = s.distanceMatrix T D k :=
      hn .distanceMatrix (by decide)
    unfold rd
    rw [e1, e2, e3, h.theta, h.dist, e]

theorem Sim.updateParameters (h : Sim h0 n0 Y s t) :
    HRel h0 n0 (Sim h0 n0 Y) (s.updateParameters T D k)
      (t.updateParameters (kmeansComp k Y)) := by
  unfold FEMMem.updateParameters FEMState.updateParameters
  extract_lets M1 s1 norm M2 s2
  have h1 : Sim h0 n0 Y s1 { t with params := fun i d => ∑ u, t.Gamma u i * Y u d } :=
    h.assign_Theta (by
      change (fun i d => ∑ u, s.Gamma T D k u i * s.X T D k u d) = _
      rw [h.gamma, h.data])
  have hn : norm = fun j => ∑ u, t.Gamma u j := by
    change (fun j => ∑ u, s1.Gamma T D k u j) = _
    rw [h1.gamma]
  change HRel h0 n0 _ _ (kmeansUpdate Y t.Gamma t.params >>= _)
  unfold kmeansUpdate
  simp only
  rw [hn]
  split_ifs with hz
  · exact ⟨rfl, h1.keeps⟩
  · have h2 : Sim h0 n0 Y s2
        { t with params := fun j d => (∑ u, t.Gamma u j * Y u d) / ∑ u, t.Gamma u j } :=
      h1.assign_Theta (by
        change (fun j d => s1.Theta T D k j d / norm j) = _
        rw [h1.theta, hn])
    exact h2.evaluateDistance

theorem Sim.updateWeights {e : ℕ} (solver : LPSolver K)
    (con : Option (FEMConstraints (k * T + e) K)) (h : Sim h0 n0 Y s t) :
    HRel h0 n0 (fun a b => Sim h0 n0 Y a.1 b.1 ∧ a.2 = b.2) (s.updateWeights T D k solver con)
      (t.updateWeights (kmeansComp k Y) solver con) := by
  unfold FEMMem.updateWeights FEMState.updateWeights
  split_ifs with hk
  · exact ⟨h, rfl⟩
  · have h1 := h.evaluateDistance
    simp only
    cases con with
    | none => exact ⟨rfl, h1.keeps⟩
    | some con =>
      simp only
      rw [h1.dist]
      cases solver (weightsProgram con (t.evaluateDistance (kmeansComp k Y)).distanceMatrix) with
      | value v => exact ⟨h1.assign_Gamma rfl, rfl⟩
      | failed => exact ⟨h1, rfl⟩
      | noValue => exact ⟨rfl, h1.keeps⟩
      | error e => exact ⟨rfl, h1.keeps⟩

theorem Sim.parametersPhase (require : Bool) (tol : K) (n : ℕ) (oldCost : K)
    (h : Sim h0 n0 Y s t) :
    HRel h0 n0 (fun a b => Sim h0 n0 Y a.1 b.1 ∧ a.2 = b.2)
      (s.parametersPhase T D k require tol n oldCost)
      (femParametersPhase (kmeansComp k Y) require tol n t oldCost) := by
  unfold FEMMem.parametersPhase femParametersPhase
  refine h.updateParameters.bind fun a b hab => ?_
  obtain ⟨h1, h2⟩ := hab.evaluateCost
  simp only
  rw [← h2]
  exact (HRel.lift h1.keeps _).bind fun _ _ _ => ⟨h1, h2⟩

theorem Sim.weightsPhase {e : ℕ} (solver : LPSolver K)
    (con : Option (FEMConstraints (k * T + e) K)) (require : Bool) (tol : K) (n : ℕ) (oldCost : K)
    (h : Sim h0 n0 Y s t) :
    HRel h0 n0 (fun a b => (Sim h0 n0 Y a.1.1 b.1.1 ∧ a.1.2 = b.1.2) ∧ a.2 = b.2)
      (s.weightsPhase T D k solver con require tol n oldCost)
      (femWeightsPhase (kmeansComp k Y) solver con require tol n t oldCost) := by
  unfold FEMMem.weightsPhase femWeightsPhase
  refine (h.updateWeights solver con).bind fun a b hab => ?_
  obtain ⟨h1, h2⟩ := hab.1.evaluateCost
  simp only
  rw [← h2]
  exact (HRel.lift h1.keeps _).bind fun _ _ _ => ⟨⟨h1, h2⟩, hab.2⟩

theorem Sim.step {e : ℕ} (solver : LPSolver K)
    (con : Option (FEMConstraints (k * T + e) K)) (require : Bool) (tol : K) (up uw : Bool) (n : ℕ)
    (oldCost : K) (h : Sim h0 n0 Y s t) :
    HRel h0 n0 (fun a b => (Sim h0 n0 Y a.1.1 b.1.1 ∧ a.1.2 = b.1.2) ∧ a.2 = b.2)
      (s.step T D k solver con require tol up uw n oldCost)
      (femStep (kmeansComp k Y) solver con require tol up uw n t oldCost) := by
  unfold FEMMem.step femStep
  have h1 : HRel h0 n0 (fun a b => Sim h0 n0 Y a.1 b.1 ∧ a.2 = b.2)
      (match up with
        | true => s.parametersPhase T D k require tol n oldCost
        | false => HPy.ok (s, oldCost))
      (match up with
        | true => femParametersPhase (kmeansComp k Y) require tol n t oldCost
        | false => Py.ok (t, oldCost)) := by
    cases up
    · exact ⟨h, rfl⟩
    · exact h.parametersPhase require tol n oldCost
  refine h1.bind fun a b hab => ?_
  cases uw
  · exact ⟨hab, rfl⟩
  · exact hab.1.weightsPhase solver con require tol n oldCost

/-- Related results of the iteration. -/
def ResultRel (h0 : Heap K) (n0 : ℕ) (Y : Matrix (Fin T) (Fin D) K) (r : FEMHResult K)
    (r' : FEMResult (Matrix (Fin k) (Fin D) K) T k K) : Prop :=
  Sim h0 n0 Y r.state r'.state ∧ r.cost = r'.cost ∧ r.nIter = r'.nIter ∧ r.trace = r'.trace ∧
    r.failures = r'.failures

theorem Sim.loop {e : ℕ} (solver : LPSolver K)
    (con : Option (FEMConstraints (k * T + e) K)) (require : Bool) (tol : K) (up uw : Bool) :
    ∀ (is : List ℕ) {s : FEMMem K} {t : FEMState (Matrix (Fin k) (Fin D) K) T k K} (c : K)
      (last : Option ℕ) (tr : List K) (f : ℕ), Sim h0 n0 Y s t →
      HRel h0 n0 (ResultRel h0 n0 Y)
        (FEMMem.loop T D k solver con require tol up uw is s c last tr f)
        (femLoop (kmeansComp k Y) solver con require tol up uw is t c last tr f)
  | [], s, t, c, last, tr, f, h => by
    cases last with
    | none => exact ⟨rfl, h.keeps⟩
    | some n => exact ⟨h, rfl, rfl, rfl, rfl⟩
  | i :: is, s, t, c, last, tr, f, h => by
    simp only [FEMMem.loop, femLoop]
    refine (h.step solver con require tol up uw i c).bind fun a b hab => ?_
    obtain ⟨⟨h1, h2⟩, h3⟩ := hab
    rw [← h2, ← h3]
    by_cases hc : |a.1.2 - c| < tol
    · rw [if_pos hc, if_pos hc]
      exact ⟨h1, rfl, rfl, rfl, rfl⟩
    · rw [if_neg hc, if_neg hc]
      exact Sim.loop solver con require tol up uw is _ _ _ _ h1

theorem Sim.iterate {e : ℕ} (solver : LPSolver K)
    (con : Option (FEMConstraints (k * T + e) K)) (require : Bool) (tol : K) (m : ℕ) (up uw : Bool)
    (h : Sim h0 n0 Y s t) :
    HRel h0 n0 (ResultRel h0 n0 Y) (s.iterate T D k solver con require tol m up uw)
      (femIterate (kmeansComp k Y) solver con require tol m up uw t) := by
  unfold FEMMem.iterate femIterate
  obtain ⟨h1, h2⟩ := h.evaluateCost
  simp only [← h2]
  exact h1.loop solver con require tol up uw _ _ _ _ _

/-! ### Initialisation -/

/-- The attributes set when the initial parameters have been chosen. -/
def NotGamma (a : FEMAttr) : Prop := a ≠ .Gamma

/-- The object after `_initialize_components`. -/
structure Start (h0 : Heap K) (n0 : ℕ) (Y : Matrix (Fin T) (Fin D) K) (s : FEMMem K)
    (P : Matrix (Fin k) (Fin D) K) : Prop where
  part : Part T D k h0 n0 NotGamma s
  data : s.X T D k = Y
  theta : s.Theta T D k = P
  dist : s.distanceMatrix T D k = kmeansDistance Y P

theorem initializeTheta_rel (R : Rng K) (parameters : Option ℕ) (hp : h0.Has parameters)
    (init : Option String) (g : R.G)
    (h : Part T D k h0 h0.next (fun a => a = .distanceMatrix ∨ a = .X) s) (hX : s.X T D k = Y) :
    HRel h0 h0.next
      (fun a b => Part T D k h0 h0.next NotGamma a.1 ∧ a.1.X T D k = Y ∧
        a.1.Theta T D k = b.1 ∧ a.2 = b.2)
      (s.initializeTheta R T D k parameters init g)
      (kmeansInit R Y k (parameters.map h0.cell) init g) := by
  have key : ∀ (M : Matrix (Fin k) (Fin D) K),
      Part T D k h0 h0.next NotGamma (s.assign .Theta M : FEMMem K) ∧
      FEMMem.X T D k (s.assign .Theta M) = Y ∧ FEMMem.Theta T D k (s.assign .Theta M) = M := by
    intro M
    refine ⟨(h.assign .Theta M).mono ?_, ?_, ?_⟩
    · intro a ha
      cases a
      · exact Or.inr (Or.inr rfl)
      · exact absurd rfl ha
      · exact Or.inl rfl
      · exact Or.inr (Or.inl rfl)
    · exact (HState.val_assign_of (shape := femShape T D k) (a := FEMAttr.Theta) h.valid
        (by decide) M).trans hX
    · exact HState.val_assign_self (shape := femShape T D k) h.valid FEMAttr.Theta M
  unfold initializeTheta kmeansInit
  by_cases hi : init = some "custom"
  · rw [if_pos hi, if_pos hi]
    cases parameters with
    | none =>
      simp only [Option.map_none]
      rw [hX]
      refine HRel.of_bind_pure ((HRel.lift h.keeps _).bind fun r r' hr => ?_)
      obtain ⟨rfl, -⟩ := hr
      obtain ⟨k1, k2, k3⟩ := key r.1
      exact ⟨k1, k2, k3, rfl⟩
    | some a =>
      simp only [Option.map_some]
      have hc : s.heap.cell a = h0.cell a := h.keeps.2 a (hp a rfl)
      rw [hc]
      refine (HRel.lift h.keeps _).bind fun r r' hr => ?_
      obtain ⟨rfl, hr'⟩ := hr
      obtain ⟨k1, k2, k3⟩ := key ((h0.cell a).at k D)
      refine ⟨k1, k2, k3.trans ?_, rfl⟩
      unfold kmeansCheckParameters at hr'
      obtain ⟨A, hA, hT⟩ := Py.bind_eq_ok.1 hr'
      have e : h0.cell a = Arr2.of r := by
        rw [← checkArrayShape_ok hT]
        exact Option.some.inj (checkArray_ok hA).1
      rw [e]
      exact Arr2.at_of r
  · rw [if_neg hi, if_neg hi]
    simp only
    rw [hX]
    refine HRel.of_bind_pure ((HRel.lift h.keeps _).bind fun r r' hr => ?_)
    obtain ⟨rfl, -⟩ := hr
    obtain ⟨k1, k2, k3⟩ := key r.1
    exact ⟨k1, k2, k3, rfl⟩

theorem initializeComponents_rel (R : Rng K) {h : Heap K} {data : ℕ} (hdata : data < h.next)
    (empty : Matrix (Fin T) (Fin k) K) (parameters : Option ℕ) (hp : h.Has parameters)
    (init : Option String) (g : R.G) :
    HRel h h.next (fun a b => Start h h.next ((h.cell data).at T D) a.1 b.1 ∧ a.2 = b.2)
      (FEMMem.initializeComponents R T D k empty parameters init g data ⟨fun _ => data, (), h⟩)
      (kmeansInit R ((h.cell data).at T D) k (parameters.map h.cell) init g) := by
  unfold FEMMem.initializeComponents
  extract_lets s1 s2
  have p0 : Part T D k h h.next (fun _ => False) (⟨fun _ => data, (), h⟩ : FEMMem K) :=
    ⟨fun _ => hdata, ⟨fun _ h => h.elim, fun _ _ h => h.elim⟩, h.keeps_refl le_rfl⟩
  have p1 := p0.assign .X ((h.cell data).at T D)
  have x1 : s1.X T D k = (h.cell data).at T D :=
    HState.val_assign_self (shape := femShape T D k) p0.valid FEMAttr.X _
  have p2 : Part T D k h h.next (fun a => a = .distanceMatrix ∨ a = .X) s2 :=
    (Part.assign p1 .distanceMatrix empty).mono fun a ha => ha.imp id Or.inl
  have x2 : s2.X T D k = (h.cell data).at T D :=
    (HState.val_assign_of (shape := femShape T D k) (a := FEMAttr.distanceMatrix) p1.valid
      (by decide) empty).trans x1
  refine HRel.of_bind_pure
    ((initializeTheta_rel R parameters hp init g p2 x2).bind fun r r' hr => ?_)
  obtain ⟨q1, q2, q3, q4⟩ := hr
  obtain ⟨e1, e2, e3⟩ := evaluateDistance_part (fun e => by cases e) (fun e => by cases e)
    (fun e => by cases e) q1
  refine ⟨⟨e1, ?_, ?_, ?_⟩, q4⟩
  · exact (e3 .X (fun e => by cases e) (by decide)).trans q2
  · exact (e3 .Theta (fun e => by cases e) (by decide)).trans q3
  · rw [← q2, ← q3]
    exact e2

theorem Start.initializeWeights (R : Rng K) {P : Matrix (Fin k) (Fin D) K}
    (h : Start h0 h0.next Y s P) (weights : Option ℕ) (hw : h0.Has weights) (init : Option String)
    (g : R.G) :
    HRel h0 h0.next
      (fun a b => Sim h0 h0.next Y a.1
        { Gamma := b.1, params := P, distanceMatrix := (kmeansComp k Y).distance P } ∧ a.2 = b.2)
      (s.initializeWeights R T k weights init g)
      (femInitWeights R T k (weights.map h0.cell) init g) := by
  have key : ∀ (M : Matrix (Fin T) (Fin k) K), Sim h0 h0.next Y (s.assign .Gamma M : FEMMem K)
      { Gamma := M, params := P, distanceMatrix := (kmeansComp k Y).distance P } := by
    intro M
    have hn : ∀ b, b ≠ FEMAttr.Gamma →
        (s.assign .Gamma M).val (femShape T D k) b = s.val (femShape T D k) b := fun b hb =>
      HState.val_assign_of (shape := femShape T D k) (a := FEMAttr.Gamma) h.part.valid hb M
    refine ⟨(h.part.assign .Gamma M).mono fun a _ => ?_, (hn .X (by decide)).trans h.data, ?_⟩
    · by_cases e : a = .Gamma
      · exact Or.inl e
      · exact Or.inr e
    · have e1 : FEMMem.Gamma T D k (s.assign .Gamma M) = M :=
        HState.val_assign_self (shape := femShape T D k) h.part.valid FEMAttr.Gamma M
      have e2 : FEMMem.Theta T D k (s.assign .Gamma M) = P :=
        (hn .Theta (by decide)).trans h.theta
      have e3 : FEMMem.distanceMatrix T D k (s.assign .Gamma M) = kmeansDistance Y P :=
        (hn .distanceMatrix (by decide)).trans h.dist
      unfold rd
      rw [e1, e2, e3]
      rfl
  unfold FEMMem.initializeWeights femInitWeights
  by_cases hi : init = some "custom"
  · rw [if_pos hi, if_pos hi]
    cases weights with
    | none =>
      simp only [Option.map_none]
      refine HRel.of_bind_pure ((HRel.lift h.part.keeps _).bind fun r r' hr => ?_)
      obtain ⟨rfl, -⟩ := hr
      exact ⟨key r.1, rfl⟩
    | some a =>
      simp only [Option.map_some]
      have hc : s.heap.cell a = h0.cell a := h.part.keeps.2 a (hw a rfl)
      rw [hc]
      refine (HRel.lift h.part.keeps _).bind fun r r' hr => ?_
      obtain ⟨rfl, hr'⟩ := hr
      unfold femCheckInitWeights at hr'
      obtain ⟨A, hA, hG⟩ := Py.bind_eq_ok.1 hr'
      obtain ⟨G', hG', hG⟩ := Py.bind_eq_ok.1 hG
      obtain ⟨_, -, hG⟩ := Py.bind_eq_ok.1 hG
      have e : h0.cell a = Arr2.of r := by
        rw [← Py.ok.inj hG, ← checkArrayShape_ok hG']
        exact Option.some.inj (checkArray_ok hA).1
      have e' : (h0.cell a).at T k = r := by
        rw [e]
        exact Arr2.at_of r
      rw [e']
      exact ⟨key r, rfl⟩
  · rw [if_neg hi, if_neg hi]
    simp only
    refine HRel.of_bind_pure ((HRel.lift h.part.keeps _).bind fun r r' hr => ?_)
    obtain ⟨rfl, -⟩ := hr
    exact ⟨key r.1, rfl⟩

end FEMMem

/-- What a fit does to memory: the arrays that were there are as before, the object has the values the
model on values computes, and its weights and parameters are new arrays. -/
def FEMCallRel (R : Rng K) (h : Heap K) (r : Heap K × FEMHObj R × FEMInfo K)
    (r' : FEMKMeansObj R × FEMInfo K) : Prop :=
  h.Keeps r.1 h.next ∧ r.2.1.deref r.1 = r'.1 ∧ r.2.2 = r'.2 ∧
    ∃ a b, r.2.1.Gamma = some a ∧ r.2.1.Theta = some b ∧ a ≠ b ∧ h.next ≤ a ∧ h.next ≤ b ∧
      a < r.1.next ∧ b < r.1.next

theorem hFemKMeansRun_rel (R : Rng K) (solver : LPSolver K)
    (empty : (T k : ℕ) → Matrix (Fin T) (Fin k) K) (h : Heap K) (obj : FEMHObj R) {data : ℕ}
    (hdata : data < h.next) (args : FEMHArgs) (hp : h.Has args.parameters)
    (hw : h.Has args.weights) :
    HRel h h.next (FEMCallRel R h) (hFemKMeansRun R solver empty h obj data args)
      (femKMeansRun R solver (obj.deref h) (h.cell data) (args.deref h)) := by
  have hv : (h.cell data).at (h.cell data).rows (h.cell data).cols = (h.cell data).val :=
    Arr2.at_of (h.cell data).val
  unfold hFemKMeansRun femKMeansRun
  refine (HRel.lift (h.keeps_refl le_rfl) _).bind fun p p' hp' => ?_
  obtain ⟨rfl, -⟩ := hp'
  have hI := FEMMem.initializeComponents_rel R (D := (h.cell data).cols) (k := p.1) hdata
    (empty (h.cell data).rows p.1) args.parameters hp args.init obj.randomState
  rw [hv] at hI
  refine hI.bind fun c c' hc => ?_
  obtain ⟨hc, hg⟩ := hc
  rw [hg]
  refine (hc.initializeWeights R args.weights hw args.init c'.2).bind fun w w' hw' => ?_
  obtain ⟨hs, hg'⟩ := hw'
  refine (HRel.lift hs.keeps _).bind fun tv tv' htv => ?_
  obtain ⟨rfl, -⟩ := htv
  refine (HRel.lift hs.keeps _).bind fun con con' hcon => ?_
  obtain ⟨rfl, -⟩ := hcon
  refine (hs.iterate solver con obj.require p.2.2 p.2.1 args.updateParameters
    args.updateWeights).bind fun r r' hr => ?_
  obtain ⟨h1, h2, h3, h4, h5⟩ := hr
  refine ⟨h1.keeps, ?_, ?_, r.state.addr .Gamma, r.state.addr .Theta, rfl, rfl, ?_,
    (h1.part.owns.1 _ trivial).1, (h1.part.owns.1 _ trivial).1, h1.part.valid _, h1.part.valid _⟩
  · unfold FEMHObj.deref
    simp only [Option.map_some, hg']
    have eG : r.state.heap.cell (r.state.addr .Gamma) = Arr2.of r'.state.Gamma :=
      (h1.part.owns.cell (a := FEMAttr.Gamma) trivial).trans (congrArg Arr2.of h1.gamma)
    have eS : r.state.heap.cell (r.state.addr .Theta) = Arr2.of r'.state.params :=
      (h1.part.owns.cell (a := FEMAttr.Theta) trivial).trans (congrArg Arr2.of h1.theta)
    rw [eG, eS]
  · simp only [h2, h3, h4, h5]
  · intro e
    cases h1.part.owns.2 _ _ trivial e trivial

end Reor
