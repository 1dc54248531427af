import Verif.Proofs.VARXInit

/-!
The FEM-BV-VARX fit: steps of a run, and the component model as an instance of the general descent.
-/

set_option linter.unusedSectionVars false

namespace Reor

open scoped BigOperators
open Spec

variable {mem : Memory} {lstsq : LstSq} {R : Rng ℝ} {solver : LPSolver ℝ}

/-! ### The steps of a run -/

section Run

variable {obj : FEMVARXObj R} {data : Arr2 ℝ} {args : FEMVARXArgs}

/-- The object and report after an iteration. -/
noncomputable def femVARXFinish (obj : FEMVARXObj R) (data : Arr2 ℝ) (args : FEMVARXArgs)
    (p : ℕ × ℕ × ℝ) {E : ℕ} (start : VARXStart p.1 data.cols E)
    (r : FEMResult (VARXParams start.models start.L) (data.rows - start.L) p.1 ℝ × R.G) :
    FEMVARXObj R × FEMInfo ℝ :=
  ({ obj with
      nComponents := defaultComponents obj.nComponents data.cols
      randomState := r.2
      Gamma := some (Arr2.of r.1.state.Gamma)
      mu := some (Arr2.of r.1.state.params.mu)
      A := if start.L > 0 then some ⟨_, _, _, _, r.1.state.params.A⟩ else obj.A
      B0 := if args.externalFactors.isSome then some (Arr3.of r.1.state.params.B0) else obj.B0 },
    { cost := r.1.cost, nIter := r.1.nIter, warned := decide (r.1.nIter = p.2.1 ∧ p.2.2 > 0),
      trace := r.1.trace, failures := r.1.failures })

theorem femVARXRun_eq_ok {out : FEMVARXObj R × FEMInfo ℝ}
    (h : femVARXRun R solver lstsq mem obj data args = Py.ok out) :
    ∃ (p : ℕ × ℕ × ℝ) (hl : p.1 = obj.memory.length)
      (start : VARXStart p.1 data.cols (exogCols args.externalFactors))
      (r : FEMResult (VARXParams start.models start.L) (data.rows - start.L) p.1 ℝ × R.G),
      checkParams (defaultComponents obj.nComponents data.cols) obj.maxIterations obj.tolerance =
        Py.ok p ∧
      varxInit mem lstsq data.val (fun i : Fin p.1 => obj.memory.get (Fin.cast hl i))
        (maxMemory obj.memory) args.externalFactors = Py.ok start ∧
      femVARXIterate R solver lstsq obj data.rows p.1 p.2.1 p.2.2 args start = Py.ok r ∧
      out = femVARXFinish obj data args p start r := by
  unfold femVARXRun at h
  obtain ⟨p, hp, h⟩ := Py.bind_eq_ok.1 h
  by_cases hl : p.1 = obj.memory.length
  · rw [dif_pos hl] at h
    obtain ⟨start, hst, h⟩ := Py.bind_eq_ok.1 h
    obtain ⟨r, hr, h⟩ := Py.bind_eq_ok.1 h
    exact ⟨p, hl, start, r, hp, hst, hr, (Py.ok.inj h).symm⟩
  · rw [dif_neg hl] at h
    simp at h

theorem femVARXIterate_eq_ok {n k maxIter : ℕ} {tol : ℝ} {D E : ℕ} {start : VARXStart k D E}
    {r : FEMResult (VARXParams start.models start.L) (n - start.L) k ℝ × R.G}
    (h : femVARXIterate R solver lstsq obj n k maxIter tol args start = Py.ok r) :
    ∃ gamma tv con,
      femInitWeights R (n - start.L) k args.weights args.init obj.randomState = Py.ok gamma ∧
      maxTvConstraint obj.maxTvNorm = Py.ok tv ∧ femConstraints tv k (n - start.L) = Py.ok con ∧
      femIterate (varxComp start.models start.L (n - start.L) lstsq) solver
        (e := auxParameters tv k (n - start.L)) con obj.require tol maxIter args.updateParameters
        args.updateWeights ⟨gamma.1, start.params, varxDistance (n - start.L) start.params⟩ =
        Py.ok r.1 ∧ r.2 = gamma.2 := by
  unfold femVARXIterate at h
  obtain ⟨gamma, hg, h⟩ := Py.bind_eq_ok.1 h
  obtain ⟨tv, htv, h⟩ := Py.bind_eq_ok.1 h
  obtain ⟨con, hcon, h⟩ := Py.bind_eq_ok.1 h
  obtain ⟨q, hq, h⟩ := Py.bind_eq_ok.1 h
  obtain rfl := Py.ok.inj h
  exact ⟨gamma, tv, con, hg, htv, hcon, hq, rfl⟩

/-- The errors of a run before the iteration starts. -/
theorem femVARXRun_raise_init {p : ℕ × ℕ × ℝ} (hp : checkParams
      (defaultComponents obj.nComponents data.cols) obj.maxIterations obj.tolerance = Py.ok p)
    (hl : p.1 = obj.memory.length) {e : PyErr}
    (hst : varxInit mem lstsq data.val (fun i : Fin p.1 => obj.memory.get (Fin.cast hl i))
        (maxMemory obj.memory) args.externalFactors = Py.raise e) :
    femVARXRun R solver lstsq mem obj data args = Py.raise e := by
  unfold femVARXRun
  simp only [hp, Py.ok_bind]
  rw [dif_pos hl, hst, Py.raise_bind]

theorem femVARXFitTransform_raise {e : PyErr}
    (h : femVARXRun R solver lstsq mem obj data args = Py.raise e) :
    femVARXFitTransform R solver lstsq mem obj data args = Py.raise e := by
  unfold femVARXFitTransform
  rw [h, Py.raise_bind]

theorem femVARXTransform_raise {e : PyErr}
    (h : femVARXRun R solver lstsq mem obj data
      { updateParameters := false, updateWeights := true } = Py.raise e) :
    femVARXTransform R solver lstsq mem obj data = Py.raise e := by
  unfold femVARXTransform
  rw [h, Py.raise_bind]

end Run

/-! ### Distances -/

section Comp

variable {k D E : ℕ} {models : Fin k → VARXModel D E} {L T : ℕ}

theorem sqResidual_eq {m : VARXModel D E} (f : VARXFit m) (t : Fin m.n) :
    sqResidual f t = ∑ d, f.residuals t d ^ 2 := by
  unfold sqResidual
  rw [dif_pos t.2]
  refine Finset.sum_congr rfl fun j _ => ?_
  rw [Finset.sum_eq_single j]
  · rw [Matrix.one_apply_eq]
    ring
  · intro b _ hb
    rw [Matrix.one_apply_ne hb.symm]
    ring
  · intro h
    exact absurd (Finset.mem_univ j) h

/-- Local models that all cover the same samples: the same order `L` in `y` and no lagged external
factors, and `T` samples past the presample. -/
structure VARXUniform (mem : Memory) (models : Fin k → VARXModel D E) (L T : ℕ) : Prop where
  made : ∀ i, (models i).Made mem
  p : ∀ i, (models i).p = L
  s : ∀ i, (models i).s = 0
  n : ∀ i, (models i).n = T + L

/-- Parameters whose local fits come from actual coefficients. -/
def VARXParams.Fitted (p : VARXParams models L) : Prop := ∀ i, ∃ params, (p.fits i).From params

theorem VARXUniform.presample (h : VARXUniform mem models L T) (i : Fin k) :
    (models i).presample = L := by
  unfold VARXModel.presample
  rw [h.p i, h.s i]
  exact max_eq_left (Nat.zero_le _)

theorem VARXUniform.row_lt (h : VARXUniform mem models L T) (i : Fin k) (t : Fin T) :
    (t : ℕ) + L < (models i).n := by
  rw [h.n i]
  have := t.2
  omega

/-- Entry of the distance matrix: the squared error of the prediction by component `i`. -/
theorem VARXUniform.distance (h : VARXUniform mem models L T) (p : VARXParams models L) (t : Fin T)
    (i : Fin k) : varxDistance T p t i =
      ∑ d, (p.fits i).residuals ⟨t + L, h.row_lt i t⟩ d ^ 2 := by
  unfold varxDistance
  rw [if_pos]
  · exact sqResidual_eq (p.fits i) ⟨t + L, h.row_lt i t⟩
  · rw [h.n i]
    omega

/-- The weights of component `i` past the presample. -/
theorem VARXUniform.weights (h : VARXUniform mem models L T) (G : Matrix (Fin T) (Fin k) ℝ)
    (i : Fin k) : (varxWeights G i (models i).p).1 = (models i).n := by
  rw [h.n i, h.p i]
  rfl

theorem varxWeights_eq {T k : ℕ} (G : Matrix (Fin T) (Fin k) ℝ) (i : Fin k) {q : ℕ}
    (t : Fin (varxWeights G i q).1) (t' : Fin T) (ht : (t : ℕ) = t' + q) :
    (varxWeights G i q).2 t = G t' i := by
  unfold varxWeights
  simp only
  rw [dif_pos (by omega)]
  congr 1
  apply Fin.ext
  simp only
  omega

/-- The objective of a weighted fit of component `i`, in terms of the residuals. -/
theorem VARXUniform.lsError (h : VARXUniform mem models L T) (i : Fin k) (w : Fin (models i).n → ℝ)
    (hw : ∀ t, 0 ≤ (models i).tailWeights w t)
    (params : Matrix (Fin (models i).nCols) (Fin D) ℝ) :
    lsError (scaleRows (fun t => Real.sqrt ((models i).tailWeights w t)) (models i).z)
      (scaleRows (fun t => Real.sqrt ((models i).tailWeights w t)) (models i).target) params =
    ∑ t : Fin T, w ⟨t + L, h.row_lt i t⟩ *
      ∑ d, (models i).residuals params ⟨t + L, h.row_lt i t⟩ d ^ 2 := by
  have hT : (models i).n - (models i).presample = T := by
    rw [h.presample i, h.n i]
    omega
  unfold Spec.lsError frobSq
  refine Fintype.sum_equiv (finCongr hT) _ _ fun t => ?_
  have hrow : (⟨(finCongr hT t : Fin T) + L, h.row_lt i _⟩ : Fin (models i).n) =
      ⟨t + (models i).presample, by have := t.2; omega⟩ := by
    apply Fin.ext
    have := h.presample i
    change (t : ℕ) + L = t + (models i).presample
    omega
  rw [hrow, Finset.mul_sum]
  refine Finset.sum_congr rfl fun d _ => ?_
  have hres : (models i).residuals params ⟨t + (models i).presample, by have := t.2; omega⟩ d =
      (models i).target t d - ((models i).z * params) t d := by
    unfold VARXModel.residuals
    rw [dif_pos (Nat.le_add_left _ _)]
    simp only [Nat.add_sub_cancel]
  rw [hres, Matrix.sub_apply, scaleRows_mul]
  change (Real.sqrt ((models i).tailWeights w t) * (models i).target t d - _) ^ 2 = _
  rw [← mul_sub, mul_pow, Real.sq_sqrt (hw t)]
  rfl

/-- The component model satisfies what the descent needs. -/
theorem VARXUniform.lawful (h : VARXUniform mem models L T) (hl : lstsq.Exact) (he : lstsq.Ends) :
    (varxComp models L T lstsq).Lawful VARXParams.Fitted
      (fun e => e = .nonFinite ∨ e = .linAlgError ∨ lstsq.Raised e) := by
  have hup : ∀ {G : Matrix (Fin T) (Fin k) ℝ} {p p' : VARXParams models L},
      varxUpdate lstsq G p = Py.ok p' →
      (∀ i, (models i).fit lstsq (some (varxWeights G i (models i).p)) = Py.ok (p'.fits i)) ∧
      p' = ⟨p'.fits, fun i => (p'.fits i).mu,
        fun i l => if h : (l : ℕ) < (models i).p then (p'.fits i).A ⟨l, h⟩ else p.A i l,
        fun i => (p'.fits i).B0⟩ := by
    intro G p p' hp
    unfold varxUpdate at hp
    obtain ⟨fits, hf, hp⟩ := Py.bind_eq_ok.1 hp
    obtain rfl := Py.ok.inj hp
    exact ⟨pyPi_eq_ok.1 hf, rfl⟩
  have hfit : ∀ (G : Matrix (Fin T) (Fin k) ℝ) (i : Fin k),
      ∃ w : Fin (models i).n → ℝ, (∀ t : Fin T, w ⟨t + L, h.row_lt i t⟩ = G t i) ∧
        (models i).fit lstsq (some (varxWeights G i (models i).p)) =
          (models i).fitWeighted lstsq w := by
    intro G i
    have hn := h.weights G i
    refine ⟨fun t => (varxWeights G i (models i).p).2 (Fin.cast hn.symm t), fun t => ?_, ?_⟩
    · refine varxWeights_eq G i _ t ?_
      change (t : ℕ) + L = t + (models i).p
      rw [h.p i]
    · unfold VARXModel.fit
      exact dif_pos hn.symm
  constructor
  · intro G p p' hp
    obtain ⟨h1, h2⟩ := hup hp
    change varxUpdate lstsq G p' = Py.ok p'
    unfold varxUpdate
    rw [pyPi_eq_ok.2 h1, Py.ok_bind]
    rw [h2]
    refine congrArg Py.ok ?_
    congr 1
    funext i l
    by_cases c : (l : ℕ) < (models i).p
    · simp only [dif_pos c]
    · simp only [dif_neg c]
  · intro G p p' hp i
    exact fit_from ((hup hp).1 i)
  · intro G p p' hG hp q hq
    obtain ⟨h1, -⟩ := hup hp
    unfold assignmentCost
    refine (le_of_eq Finset.sum_comm).trans (le_trans ?_ (le_of_eq Finset.sum_comm))
    refine Finset.sum_le_sum fun i _ => ?_
    obtain ⟨w, hw, hf⟩ := hfit G i
    have hf' := (h1 i)
    rw [hf] at hf'
    obtain ⟨hw0, params, hpar, hfrom⟩ := fitWeighted_eq_ok hf'
    obtain ⟨params', hfrom'⟩ := hq i
    have hle := hl _ _ _ _ _ _ hpar params'
    rw [h.lsError i w hw0, h.lsError i w hw0] at hle
    refine le_trans (le_of_eq ?_) (le_trans hle (le_of_eq ?_))
    · refine Finset.sum_congr rfl fun t _ => ?_
      rw [hw, ← hfrom.residuals]
      exact congrArg (fun x => G t i * x) (h.distance p' t i)
    · refine Finset.sum_congr rfl fun t _ => ?_
      rw [hw, ← hfrom'.residuals]
      exact congrArg (fun x => G t i * x) (h.distance q t i).symm
  · intro G p e hr
    have hr : varxUpdate lstsq G p = Py.raise e := hr
    unfold varxUpdate at hr
    rcases Py.bind_eq_raise.1 hr with hr | ⟨_, -, hr⟩
    · obtain ⟨i, hi⟩ := pyPi_raise hr
      obtain ⟨w, -, hf⟩ := hfit G i
      rw [hf] at hi
      exact fitWeighted_raise hi
    · simp at hr
  · intro G p hr
    have hr : varxUpdate lstsq G p = Py.diverge := hr
    unfold varxUpdate at hr
    rcases Py.bind_eq_diverge.1 hr with hr | ⟨_, -, hr⟩
    · obtain ⟨i, hi⟩ := pyPi_diverge hr
      obtain ⟨w, -, hf⟩ := hfit G i
      rw [hf] at hi
      exact fitWeighted_ne_diverge he hi
    · simp at hr

end Comp

/-! ### Equal memories -/

section Equal

theorem varxPrediction_congr {p s D E L : ℕ} (hp : p = L) (hs : s = 0) {mu mu' : Fin D → ℝ}
    {A : Fin p → Matrix (Fin D) (Fin D) ℝ} {B : Fin s → Matrix (Fin D) (Fin E) ℝ}
    {B0 B0' : Matrix (Fin D) (Fin E) ℝ} {A' : Fin L → Matrix (Fin D) (Fin D) ℝ} (hmu : mu = mu')
    (hA : ∀ l : Fin p, A l = A' ⟨l, hp ▸ l.2⟩) (hB0 : B0 = B0') (y : ℕ → Fin D → ℝ)
    (u : ℕ → Fin E → ℝ) (t : ℕ) :
    varxPrediction mu A B B0 y u t =
      varxPrediction (s := 0) mu' A' (fun i => i.elim0) B0' y u t := by
  subst hp hs hmu hB0
  have : A = A' := funext hA
  subst this
  funext d
  unfold varxPrediction
  simp

variable {n D k : ℕ} {X : Matrix (Fin n) (Fin D) ℝ} {memory : Fin k → ℤ} {L : ℤ}
  {u : Option (Arr2 ℝ)}

/-- With equal memories all local models cover the same samples, and no sample is dropped. -/
theorem varxInit_uniform {start : VARXStart k D (exogCols u)}
    (h : varxInit mem lstsq X memory L u = Py.ok start) (hk : 0 < k) (hL : ∀ i, memory i = L) :
    VARXUniform mem start.models start.L (n - start.L) ∧ start.params.Fitted ∧ start.L < n ∧
    (start.L : ℤ) = L ∧ 0 < D ∧
    ∀ i, varxModel mem (dropRows X 0) (.int L) u (.int 0) = Py.ok (start.models i) := by
  obtain ⟨h1, h2, h3, h4, h5, -⟩ := varxInit_sizes h (fun i => (hL i).le) ⟨⟨0, hk⟩, hL _⟩
  obtain ⟨-, hm, hf, -⟩ := varxInit_eq_ok h
  refine ⟨⟨fun i => VARXModel.made_of (hm i), fun i => ?_, fun i => (h5 i).2.2.1, fun i => ?_⟩,
    fun i => fit_from (hf i), h2, h4, h3, fun i => ?_⟩
  · have := (h5 i).2.1
    have := hL i
    omega
  · have := (h5 i).2.1
    have := hL i
    have := (h5 i).2.2.2.2
    omega
  · have := hm i
    have e : (L - memory i).toNat = 0 := by
      rw [hL i]
      simp
    rw [e, hL i] at this
    exact this

theorem rowSeq_dropRows (t : ℕ) : rowSeq (dropRows X 0) t = rowSeq X t := rfl

/-- The distances are the squared errors of the one-step predictions. -/
theorem VARXUniform.distance_prediction {models : Fin k → VARXModel D (exogCols u)} {L : ℕ}
    (h : VARXUniform mem models L (n - L))
    (hm : ∀ i, varxModel mem (dropRows X 0) (.int L) u (.int 0) = Py.ok (models i))
    (p : VARXParams models L) (hp : p.Fitted) (t : Fin (n - L)) (i : Fin k) :
    varxDistance (n - L) p t i = sqDist (rowSeq X (t + L))
      (varxPrediction (p.fits i).mu (p.fits i).A (p.fits i).B (p.fits i).B0 (rowSeq X) (exogSeq u)
        (t + L)) := by
  rw [h.distance p t i]
  obtain ⟨params, hfrom⟩ := hp i
  unfold sqDist
  refine Finset.sum_congr rfl fun d _ => ?_
  have ht := t.2
  have := from_residuals (hm i) hfrom (t + L) d (by rw [h.p i, h.s i]; simp) (by omega)
  rw [show rowSeq (dropRows X 0) = rowSeq X from rfl] at this
  rw [← this]
  unfold rowSeq
  rw [dif_pos (h.row_lt i t)]

/-- After an update the reported coefficients are those of the local fits. -/
theorem varxUpdate_reported {models : Fin k → VARXModel D (exogCols u)} {L T : ℕ}
    (h : VARXUniform mem models L T) {G : Matrix (Fin T) (Fin k) ℝ} {p p' : VARXParams models L}
    (hu : varxUpdate lstsq G p = Py.ok p') (i : Fin k) :
    (p'.fits i).mu = p'.mu i ∧ (∀ l : Fin (models i).p, (p'.fits i).A l =
      p'.A i ⟨l, h.p i ▸ l.2⟩) ∧ (p'.fits i).B0 = p'.B0 i := by
  unfold varxUpdate at hu
  obtain ⟨fits, -, hu⟩ := Py.bind_eq_ok.1 hu
  obtain rfl := Py.ok.inj hu
  refine ⟨rfl, fun l => ?_, rfl⟩
  simp only
  rw [dif_pos l.2]

end Equal

end Reor
