import Verif.Proofs.VARXMean
import Verif.Props.VARXSym

/-!
FEM-BV-VARX with memory 0 and without external factors is FEM-BV-k-means, unless the inverse of a
covariance matrix stops it.
-/

namespace Reor

set_option linter.unusedSectionVars false

open scoped BigOperators Matrix
open Spec

variable {R : Rng ℝ} {solver : LPSolver ℝ} {lstsq : LstSq} {mem : Memory}
variable {n D k : ℕ}

theorem varxModel_memory_zero (hn : 0 < n) (hD : 0 < D) (X : Matrix (Fin n) (Fin D) ℝ) (sa : NumArg ℝ) :
    varxModel mem X (.int 0) none sa = Py.ok (meanModel mem X) := by
  unfold varxModel varxExternal varxAlloc
  rw [show varxOrder (.int 0) = Py.ok 0 from rfl, Py.ok_bind, checkArray_of, if_neg (by omega),
    Py.ok_bind, if_neg (by omega)]
  rfl

/-! ### C112: memory 0 -/

/-- C112.  A local model of memory 0 without external factors, fitted with weights that are not
negative: LinAlgError exactly if the weights do not sum to 1 and the samples with positive weight lie in
a hyperplane; otherwise the intercept is the weighted mean, and the residuals are the deviations from
it. -/
theorem C112_local_weighted_fit (hl : lstsq.Exact) (htot : ∀ m n r a b, ∃ x, lstsq m n r a b = Py.ok x)
    (hn : 0 < n) (hD : 0 < D) (X : Matrix (Fin n) (Fin D) ℝ) (sa : NumArg ℝ) (w : Fin n → ℝ)
    (hw : ∀ t, 0 ≤ w t) :
    ∃ m : VARXModel D 0, varxModel mem X (.int 0) none sa = Py.ok m ∧
    (m.fit lstsq (some ⟨n, w⟩) = Py.raise .linAlgError ↔ ∑ t, w t ≠ 1 ∧ InHyperplane w X) ∧
    (¬(∑ t, w t ≠ 1 ∧ InHyperplane w X) → ∃ f, m.fit lstsq (some ⟨n, w⟩) = Py.ok f ∧ ∑ t, w t ≠ 0 ∧
      (∀ d, f.mu d = (∑ t, w t * X t d) / ∑ t, w t) ∧
      ∀ t d, t < n → rowSeq f.residuals t d = rowSeq X t d - f.mu d) := by
  refine ⟨meanModel mem X, varxModel_memory_zero hn hD X sa, ?_⟩
  have hfit : (meanModel mem X).fit lstsq (some ⟨n, w⟩) = (meanModel mem X).fitWeighted lstsq w := by
    unfold VARXModel.fit
    exact dif_pos (show (meanModel mem X).n = n from rfl)
  rw [hfit]
  rcases meanModel_fitWeighted (mem := mem) (X := X) hD hl htot hw with ⟨h, h1⟩ | ⟨f, h, h0, h1, h2, h3⟩
  · exact ⟨⟨fun _ => h1, fun _ => h⟩, fun h2 => absurd h1 h2⟩
  · refine ⟨⟨fun h4 => ?_, fun h4 => absurd h4 h1⟩, fun _ => ⟨f, h, h0, h2, fun t d ht => ?_⟩⟩
    · rw [h] at h4
      simp at h4
    · unfold rowSeq
      rw [dif_pos ht, dif_pos (show t < (meanModel mem X).n from ht)]
      exact h3 ⟨t, ht⟩ d

theorem maxMemory_replicate (k : ℕ) : maxMemory (List.replicate k 0) = 0 := by
  unfold maxMemory
  rw [List.max?_replicate]
  split_ifs <;> rfl

/-- The components at the start. -/
theorem varxInit_memory_zero (hl : lstsq.Exact) (htot : ∀ m n r a b, ∃ x, lstsq m n r a b = Py.ok x)
    (hn : 0 < n) (hD : 0 < D) (hk : 0 < k) (X : Matrix (Fin n) (Fin D) ℝ) :
    (varxInit mem lstsq X (fun _ : Fin k => 0) 0 none = Py.raise .linAlgError ∧ n ≠ 1 ∧
      InHyperplane (fun _ => 1) X) ∨
    ∃ p : VARXParams (fun _ : Fin k => meanModel mem X) 0,
      varxInit mem lstsq X (fun _ : Fin k => 0) 0 none = Py.ok ⟨0, fun _ => meanModel mem X, p⟩ ∧
      ¬(n ≠ 1 ∧ InHyperplane (fun _ => 1) X) ∧
      MeanStart mem X p (fun _ d => (∑ t, X t d) / n) ∧ p.mu = fun _ _ => 0 := by
  have hmodels : varxModels mem X (fun _ : Fin k => 0) 0 none = Py.ok fun _ => meanModel mem X := by
    unfold varxModels
    exact pyPi_eq_ok.2 fun i => varxModel_memory_zero hn hD X _
  have hinit : varxInit mem lstsq X (fun _ : Fin k => 0) 0 none =
      (pyPi fun _ : Fin k => (meanModel mem X).fit lstsq none) >>= fun fits =>
        Py.ok ⟨0, fun _ => meanModel mem X,
          ⟨fits, fun _ _ => 0, fun _ _ _ _ => 0, fun _ _ _ => 0⟩⟩ := by
    unfold varxInit
    rw [show varxCheckExog n none = Py.ok () from rfl, Py.ok_bind, hmodels]
    have hsh : varxCheckShapes (fun _ : Fin k => meanModel mem X) 0 n = Py.ok () :=
      if_pos fun _ => Or.inl rfl
    change (pyPi fun _ : Fin k => (meanModel mem X).fit lstsq none) >>= (fun fits =>
      varxCheckShapes (fun _ : Fin k => meanModel mem X) 0 n >>= fun _ =>
        Py.ok (⟨0, fun _ => meanModel mem X,
          ⟨fits, fun _ _ => 0, fun _ _ _ _ => 0, fun _ _ _ => 0⟩⟩ : VARXStart k D 0)) = _
    rw [hsh]
    rfl
  rcases meanModel_fitPlain (mem := mem) (X := X) hn hl htot with ⟨h, h1⟩ | ⟨f, h, h1, h2⟩
  · refine Or.inl ⟨?_, h1⟩
    obtain ⟨k, rfl⟩ := Nat.exists_eq_succ_of_ne_zero hk.ne'
    rw [hinit]
    unfold pyPi
    rw [h]
    rfl
  · refine Or.inr ⟨⟨fun _ => f, fun _ _ => 0, fun _ _ _ _ => 0, fun _ _ _ => 0⟩, ?_, h1,
      fun i t d => h2 t d, rfl⟩
    rw [hinit, pyPi_eq_ok.2 fun i => h]
    rfl

theorem LinOr.ok_left {α β γ : Type} {Q : β → γ → Prop} {a : α} {f : α → Py β} {y : Py γ}
    (h : LinOr Q (f a) y) : LinOr Q (Py.ok a >>= f) y := h

theorem LinOr.ok_right {α β γ : Type} {Q : β → γ → Prop} {a : α} {x : Py β} {f : α → Py γ}
    (h : LinOr Q x (f a)) : LinOr Q x (Py.ok a >>= f) := h

/-- Given weights: checked, and nothing is drawn. -/
theorem femInitWeights_given (T : ℕ) (W : Matrix (Fin T) (Fin k) ℝ) (g g' : R.G) :
    PyRel (fun a b => a.1 = W ∧ b.1 = W ∧ a.2 = g ∧ b.2 = g')
      (femInitWeights R T k (some (Arr2.of W)) (some "custom") g)
      (femInitWeights R T k (some (Arr2.of W)) (some "custom") g') := by
  unfold femInitWeights
  rw [if_pos rfl]
  simp only
  cases h : femCheckInitWeights (Arr2.of W) T k with
  | ok W' =>
    have : W' = W := by
      unfold femCheckInitWeights at h
      obtain ⟨A, hA, h⟩ := Py.bind_eq_ok.1 h
      obtain ⟨hA0, -⟩ := checkArray_ok hA
      obtain rfl := Option.some.inj hA0
      rw [checkArrayShape_of, Py.ok_bind] at h
      obtain ⟨_, -, h⟩ := Py.bind_eq_ok.1 h
      exact (Py.ok.inj h).symm
    exact PyRel.ok ⟨this, this, rfl, rfl⟩
  | raise e => exact rfl
  | diverge => exact trivial

theorem LinOr.congr_right {β γ : Type} {Q : β → γ → Prop} {x : Py β} {y y' : Py γ} (e : y = y')
    (h : LinOr Q x y') : LinOr Q x y := e ▸ h

/-- The iterations from given weights. -/
theorem varxIterate_kmeans (hD : 0 < D) (hl : lstsq.Exact)
    (htot : ∀ m n r a b, ∃ x, lstsq m n r a b = Py.ok x) {X : Matrix (Fin n) (Fin D) ℝ}
    {W : Matrix (Fin n) (Fin k) ℝ} (hW : ∀ t i, 0 ≤ W t i)
    {q : VARXParams (fun _ : Fin k => meanModel mem X) 0} {Theta : Matrix (Fin k) (Fin D) ℝ}
    (hq : MeanStart mem X q Theta) (obj : FEMVARXObj R) (up uw : Bool) (params : Option (Arr2 ℝ))
    (g' : R.G) (maxIter : ℕ) (tolerance : ℝ) :
    LinOr (fun r r' => FEMResult.Lin (fun p Theta =>
        if up then p.mu = Theta else p.mu = q.mu) r.1 r'.1 ∧ r.2 = obj.randomState ∧ r'.2 = g')
      (femVARXIterate R solver lstsq obj n k maxIter tolerance
        { parameters := params, weights := some (Arr2.of W), init := some "custom",
          updateParameters := up, updateWeights := uw } ⟨0, fun _ => meanModel mem X, q⟩)
      (femInitWeights R n k (some (Arr2.of W)) (some "custom") g' >>= fun gamma =>
        maxTvConstraint obj.maxTvNorm >>= fun tv =>
        femConstraints tv k n >>= fun con =>
        femIterate (kmeansComp k X) solver con obj.require tolerance maxIter up uw
          ⟨gamma.1, Theta, (kmeansComp k X).distance Theta⟩ >>= fun r => Py.ok (r, gamma.2)) := by
  unfold femVARXIterate
  refine LinOr.bind (Or.inr (femInitWeights_given n W obj.randomState g')) fun gamma gamma' hg => ?_
  refine LinOr.bind_same fun tv _ => LinOr.bind_same fun con _ => ?_
  obtain ⟨h1, h2, h3, h4⟩ := hg
  have hs : FEMState.Lin (MeanStart mem X) (⟨gamma.1, q, varxDistance n q⟩ : FEMState _ n k ℝ)
      ⟨gamma'.1, Theta, (kmeansComp k X).distance Theta⟩ := ⟨h1.trans h2.symm, h1 ▸ hW, hq⟩
  cases up with
  | true =>
    have hit := (meanCorr (mem := mem) (X := X) hD hl htot k).iterate hs solver con obj.require tolerance
      maxIter true uw
    refine hit.bind fun r r' hr => LinOr.ok ⟨⟨⟨hr.1.1, hr.1.2.1, ?_⟩, hr.2⟩, h3, h4⟩
    exact (hr.1.2.2 : MeanUpdated mem X _ _).2
  | false =>
    have hcorr : LinCorr (fun p Theta => MeanStart mem X p Theta ∧ p.mu = q.mu)
        (fun p Theta => MeanStart mem X p Theta ∧ p.mu = q.mu)
        (⟨varxDistance n, fun _ p => Py.ok p⟩ :
          FEMComp (VARXParams (fun _ : Fin k => meanModel mem X) 0) n k ℝ)
        ⟨(kmeansComp k X).distance, fun _ p => Py.ok p⟩ :=
      ⟨fun h => mean_distance h.1, fun h => h, fun _ _ h => LinOr.ok h⟩
    have hit := hcorr.iterate (s := ⟨gamma.1, q, varxDistance n q⟩)
      (s' := ⟨gamma'.1, Theta, (kmeansComp k X).distance Theta⟩) ⟨hs.1, hs.2.1, hs.2.2, rfl⟩ solver con
      obj.require tolerance maxIter false uw
    have e1 := femIterate_no_update (varxComp (fun _ : Fin k => meanModel mem X) 0 n lstsq)
      (fun _ p => Py.ok p) solver con obj.require tolerance maxIter uw ⟨gamma.1, q, varxDistance n q⟩
    have e2 := femIterate_no_update (kmeansComp k X) (fun _ p => Py.ok p) solver con obj.require tolerance
      maxIter uw ⟨gamma'.1, Theta, (kmeansComp k X).distance Theta⟩
    have hit := Eq.mpr (congrArg₂ (LinOr _) e1 e2) hit
    refine hit.bind fun r r' hr => LinOr.ok ⟨⟨⟨hr.1.1, hr.1.2.1, ?_⟩, hr.2⟩, h3, h4⟩
    exact (hr.1.2.2 : MeanStart mem X _ _ ∧ _).2

theorem kmeansInit_given (hk : 0 < k) (hD : 0 < D) (X : Matrix (Fin n) (Fin D) ℝ)
    (M : Matrix (Fin k) (Fin D) ℝ) (g : R.G) :
    kmeansInit R X k (some (Arr2.of M)) (some "custom") g = Py.ok (M, g) := by
  unfold kmeansInit kmeansCheckParameters
  rw [if_pos rfl]
  simp only
  rw [checkArray_of, if_neg (by omega), Py.ok_bind, checkArrayShape_of]
  rfl

/-- C112.  If there are two or more samples and all of them lie in a hyperplane (for instance: if there
are no more samples than features), a fit of FEM-BV-VARX with memory 0 is a LinAlgError, whatever the
other settings are. -/
theorem C112_hyperplane (hl : lstsq.Exact) (htot : ∀ m n r a b, ∃ x, lstsq m n r a b = Py.ok x)
    (hn : 2 ≤ n) (hD : 0 < D) (X : Matrix (Fin n) (Fin D) ℝ) (hX : InHyperplane (fun _ => 1) X)
    (obj : FEMVARXObj R) (hmem : obj.memory = List.replicate k 0)
    (hp : ValidParams (.int k) obj.maxIterations obj.tolerance) (hk : obj.nComponents = .int k)
    (args : FEMVARXArgs) (hu : args.externalFactors = none) :
    femVARXFitTransform R solver lstsq mem obj (Arr2.of X) args = Py.raise .linAlgError := by
  obtain ⟨p, hp, hpk, -, hk0, -⟩ := checkParams_valid hp
  have hpk : (k : ℤ) = p.1 := by simpa using hpk
  have hpk' : k = p.1 := by exact_mod_cast hpk
  obtain ⟨params, weights, init, up, uw, u⟩ := args
  simp only at hu
  subst hu
  unfold femVARXFitTransform femVARXRun
  rw [hk, hmem, show defaultComponents (.int (k : ℤ) : NumArg ℝ) (Arr2.of X).cols = .int k from rfl]
  simp only [hp, Py.ok_bind, maxMemory_replicate]
  rw [dif_pos (by rw [List.length_replicate, hpk'])]
  have hget : (fun i : Fin p.1 => (List.replicate k (0 : ℤ)).get (Fin.cast (by
      rw [List.length_replicate, hpk']) i)) = fun _ => 0 := by
    funext i
    simp
  rw [hget]
  rcases varxInit_memory_zero (k := p.1) (mem := mem) hl htot (by omega : 0 < n) hD hk0 X with
    ⟨h, -⟩ | ⟨q, -, h, -⟩
  · rw [show varxInit mem lstsq (Arr2.of X).val (fun _ : Fin p.1 => 0) 0 none =
      Py.raise .linAlgError from h]
    rfl
  · exact absurd ⟨by omega, hX⟩ h

/-- C112.  FEM-BV-VARX with memory 0 and without external factors, started from given weights that are
not negative, is a LinAlgError or has the same outcome as FEM-BV-k-means with the same settings,
started from the same weights with all centroids at the mean of the data: the same exception, or the
same weights, cost, history, number of iterations and failures of the solver; the intercepts are the
centroids (if parameters are updated; otherwise they are reported as 0). -/
theorem C112_kmeans (hl : lstsq.Exact) (htot : ∀ m n r a b, ∃ x, lstsq m n r a b = Py.ok x)
    (hn : 0 < n) (hD : 0 < D) (X : Matrix (Fin n) (Fin D) ℝ) (W : Matrix (Fin n) (Fin k) ℝ)
    (hW : ∀ t i, 0 ≤ W t i) (obj : FEMVARXObj R) (kobj : FEMKMeansObj R)
    (hmem : obj.memory = List.replicate k 0) (hk : obj.nComponents = .int k)
    (hk' : kobj.nComponents = .int k) (htv : kobj.maxTvNorm = obj.maxTvNorm)
    (hmi : kobj.maxIterations = obj.maxIterations) (htol : kobj.tolerance = obj.tolerance)
    (hreq : kobj.require = obj.require) (up uw : Bool) (params : Option (Arr2 ℝ)) :
    femVARXFitTransform R solver lstsq mem obj (Arr2.of X)
      { parameters := params, weights := some (Arr2.of W), init := some "custom",
        updateParameters := up, updateWeights := uw } = Py.raise .linAlgError ∨
    PyRel (fun r r' =>
        r.2 = r'.2 ∧ r.1.Gamma = r'.1.Gamma ∧ r.1.cost_ = r'.1.cost_ ∧ r.1.nIter_ = r'.1.nIter_ ∧
        r.1.nComponents_ = r'.1.nComponents_ ∧
        r.1.mu = (if up then r'.1.Theta else some (Arr2.of fun (_ : Fin k) (_ : Fin D) => 0)) ∧
        r.1.A = obj.A ∧ r.1.B0 = obj.B0 ∧ r.1.randomState = obj.randomState ∧
        r'.1.randomState = kobj.randomState)
      (femVARXFitTransform R solver lstsq mem obj (Arr2.of X)
        { parameters := params, weights := some (Arr2.of W), init := some "custom",
          updateParameters := up, updateWeights := uw })
      (femKMeansFitTransform R solver kobj (Arr2.of X)
        { parameters := some (Arr2.of fun (_ : Fin k) d => (∑ t, X t d) / n),
          weights := some (Arr2.of W), init := some "custom", updateParameters := up,
          updateWeights := uw }) := by
  obtain ⟨nc, tv, memory, mi, tol, rs, req, oG, omu, oA, oB0, on, oc, oi⟩ := obj
  obtain ⟨nc', tv', init', mi', tol', rs', req', oG', oT', on', oc', oi'⟩ := kobj
  simp only at hmem hk hk' htv hmi htol hreq
  subst hmem hk hk' htv hmi htol hreq
  unfold femVARXFitTransform femKMeansFitTransform
  refine LinOr.bind (P := fun r r' =>
        r.2 = r'.2 ∧ r.1.Gamma = r'.1.Gamma ∧
        r.1.mu = (if up then r'.1.Theta else some (Arr2.of fun (_ : Fin k) (_ : Fin D) => 0)) ∧
        r.1.A = oA ∧ r.1.B0 = oB0 ∧ r.1.randomState = rs ∧ r'.1.randomState = rs') ?_
    fun r r' hr => ?_
  · unfold femVARXRun femKMeansRun
    simp only [show defaultComponents (.int (k : ℤ) : NumArg ℝ) (Arr2.of X).cols = .int k from rfl,
      maxMemory_replicate]
    refine LinOr.bind_same fun p hp => ?_
    obtain ⟨-, hpk, -, hk0, -⟩ := checkParams_ok hp
    have hpk : (k : ℤ) = p.1 := by simpa using hpk
    have hpk' : k = p.1 := by exact_mod_cast hpk
    obtain ⟨p1, p2, p3⟩ := p
    simp only at hpk' hk0
    subst hpk'
    rw [dif_pos (by rw [List.length_replicate])]
    have hget : (fun i : Fin k => (List.replicate k (0 : ℤ)).get (Fin.cast (by
        rw [List.length_replicate]) i)) = fun _ => 0 := by
      funext i
      simp
    rw [hget]
    have hkinit : kmeansInit R (Arr2.of X).val k (some (Arr2.of fun (_ : Fin k) d => (∑ t, X t d) / n))
        (some "custom") rs' = Py.ok ((fun _ d => (∑ t, X t d) / n : Matrix (Fin k) (Fin D) ℝ), rs') := by
      exact kmeansInit_given hk0 hD X _ rs'
    rw [hkinit]
    refine LinOr.ok_right ?_
    rcases varxInit_memory_zero (k := k) (mem := mem) hl htot hn hD hk0 X with
      ⟨h, -⟩ | ⟨q, h, -, hq, hmu⟩
    · left
      rw [show varxInit mem lstsq (Arr2.of X).val (fun _ : Fin k => 0) 0 none =
        Py.raise .linAlgError from h]
      rfl
    · rw [show varxInit mem lstsq (Arr2.of X).val (fun _ : Fin k => 0) 0 none = Py.ok _ from h]
      refine LinOr.ok_left ?_
      have core := varxIterate_kmeans (solver := solver) hD hl htot hW hq
        ⟨.int k, tv', List.replicate k 0, mi', tol', rs, req', oG, omu, oA, oB0, on, oc, oi⟩ up uw params
        rs' p2 p3
      refine LinOr.congr_right ?_ (core.bind (g := fun r' => Py.ok
        ((⟨.int k, tv', init', mi', tol', r'.2, req', some (Arr2.of r'.1.state.Gamma),
          some (Arr2.of r'.1.state.params), on', oc', oi'⟩ : FEMKMeansObj R),
          (⟨r'.1.cost, r'.1.nIter, decide (r'.1.nIter = p2 ∧ p3 > 0), r'.1.trace,
            r'.1.failures⟩ : FEMInfo ℝ))) fun r r' hr => ?_)
      · simp only [Py.bind_assoc, Py.ok_bind]
        rfl
      · obtain ⟨⟨⟨h1, h2, h3⟩, h4, h5, h6, h7⟩, h8, h9⟩ := hr
        refine LinOr.ok ⟨?_, congrArg (fun G => some (Arr2.of G)) h1, ?_, rfl, rfl, h8, h9⟩
        · simp only [h4, h5, h6, h7]
        · cases up with
          | true => exact congrArg (fun M : Matrix (Fin k) (Fin D) ℝ => some (Arr2.of M)) h3
          | false => exact congrArg (fun M : Matrix (Fin k) (Fin D) ℝ => some (Arr2.of M)) (h3.trans hmu)
  · obtain ⟨h1, h2, h3, h4, h5, h6, h7⟩ := hr
    refine LinOr.ok ⟨?_, h2, ?_, ?_, ?_, h3, h4, h5, h6, h7⟩
    · simp only [h1, h2]
    · simp only [h1]
    · simp only [h1]
    · simp only [h2]

/-! ### Examples -/

section Demo

/-- Three samples of one feature. -/
def meanDemo : Matrix (Fin 3) (Fin 1) ℝ := fun t _ => t

/-- Not in a hyperplane, that is, not all equal. -/
theorem meanDemo_spread : ¬InHyperplane (fun _ => 1) meanDemo := by
  rintro ⟨v, hv, c, hc⟩
  have h0 := hc 0 one_ne_zero
  have h1 := hc 1 one_ne_zero
  simp only [Finset.univ_unique, Finset.sum_singleton, meanDemo] at h0 h1
  refine hv (funext fun i => ?_)
  rw [Subsingleton.elim i 0]
  norm_num at h0 h1
  change v 0 = 0
  rw [h1, ← h0]

/-- Weights 1/3: they sum to 1, and whatever the samples are, the fit returns. -/
example (hl : lstsq.Exact) (htot : ∀ m n r a b, ∃ x, lstsq m n r a b = Py.ok x) :
    ∃ m : VARXModel 1 0, varxModel mem (fun _ _ => 5 : Matrix (Fin 3) (Fin 1) ℝ) (.int 0) none (.int 0) =
        Py.ok m ∧
      (∃ f, m.fit lstsq (some ⟨3, fun _ => 1 / 3⟩) = Py.ok f ∧ f.mu 0 = 5) ∧
      m.fit lstsq (some ⟨3, fun _ => 1⟩) = Py.raise .linAlgError := by
  obtain ⟨m, hm, h1, h2⟩ := C112_local_weighted_fit (mem := mem) hl htot (n := 3) (D := 1) (by norm_num)
    (by norm_num) (fun _ _ => 5) (.int 0) (fun _ => 1 / 3) (fun _ => by norm_num)
  obtain ⟨m', hm', h1', h2'⟩ := C112_local_weighted_fit (mem := mem) hl htot (n := 3) (D := 1) (by norm_num)
    (by norm_num) (fun _ _ => 5) (.int 0) (fun _ => 1) (fun _ => by norm_num)
  rw [hm] at hm'
  obtain rfl := Py.ok.inj hm'
  obtain ⟨f, hf, -, hmu, -⟩ := h2 fun h => h.1 (by norm_num)
  refine ⟨m, hm, ⟨f, hf, ?_⟩, h1'.2 ⟨by norm_num, fun _ => 1, ?_, 5, fun t _ => by norm_num⟩⟩
  · rw [hmu]
    norm_num
  · exact fun h => one_ne_zero (congrFun h 0)

/-- Two components of memory 0. -/
noncomputable def meanDemoObj : FEMVARXObj demoRngReal := { demoVARX with memory := [0, 0] }

/-- The corresponding FEM-BV-k-means. -/
noncomputable def meanDemoKMeans : FEMKMeansObj demoRngReal where
  nComponents := .int 2
  maxTvNorm := .real 1
  init := none
  maxIterations := .int 1
  tolerance := .real (1 / 100)
  randomState := (0 : ℕ)
  require := true

/-- The fit of the example returns. -/
theorem meanDemo_fit (hs : solver.Exact) (htot : ∀ m n r a b, ∃ x, lstsq m n r a b = Py.ok x) :
    ∃ r, femVARXFitTransform demoRngReal solver lstsq mem meanDemoObj (Arr2.of meanDemo)
      { weights := some (Arr2.of demoVARXWeights), init := some "custom" } = Py.ok r := by
  have h : ∃ r, femVARXRun demoRngReal solver lstsq mem meanDemoObj (Arr2.of meanDemo)
      { weights := some (Arr2.of demoVARXWeights), init := some "custom" } = Py.ok r := by
    refine varx_run_once (L := 0) (models := fun _ => meanModel mem meanDemo) hs htot (by norm_num)
      (by norm_num) demoVARX_params demoVARX_tv rfl rfl rfl ?_ (if_pos fun i => Or.inl rfl)
      (fun _ => rfl) (fun _ params => ?_) rfl demoVARX_weights ?_
    · refine pyPi_eq_ok.2 fun i => ?_
      fin_cases i <;> exact varxModel_memory_zero (by norm_num) (by norm_num) meanDemo _
    · by_contra hc
      push Not at hc
      have e : ∀ t : Fin 3, (t : ℝ) - (meanModel mem meanDemo).readMu params 0 = 0 := fun t =>
        (meanModel_residuals params t 0).symm.trans (hc t)
      have e0 := e 0
      have e1 := e 1
      norm_num at e0 e1
      rw [e0] at e1
      norm_num at e1
    · intro t i
      simp only [demoVARXWeights]
      split_ifs <;> norm_num
  obtain ⟨r, hr⟩ := h
  unfold femVARXFitTransform
  rw [hr]
  exact ⟨_, rfl⟩

/-- So FEM-BV-k-means returns as well, with the same weights and cost, and the intercepts are the
centroids. -/
example : ∃ (solver : LPSolver ℝ) (lstsq : LstSq) (r : FEMVARXObj demoRngReal × Option (Arr2 ℝ) × FEMInfo ℝ)
    (r' : FEMKMeansObj demoRngReal × Option (Arr2 ℝ) × FEMInfo ℝ),
    femVARXFitTransform demoRngReal solver lstsq mem meanDemoObj (Arr2.of meanDemo)
      { weights := some (Arr2.of demoVARXWeights), init := some "custom" } = Py.ok r ∧
    femKMeansFitTransform demoRngReal solver meanDemoKMeans (Arr2.of meanDemo)
      { parameters := some (Arr2.of fun (_ : Fin 2) d => (∑ t, meanDemo t d) / (3 : ℕ)),
        weights := some (Arr2.of demoVARXWeights), init := some "custom" } = Py.ok r' ∧
    r.2 = r'.2 ∧ r.1.mu = r'.1.Theta := by
  obtain ⟨solver, lstsq, hs, hls, -, -, htot⟩ := exists_exact_tools
  obtain ⟨r, hr⟩ := meanDemo_fit (mem := mem) hs htot
  have h := C112_kmeans (R := demoRngReal) (solver := solver) (mem := mem) hls htot (by norm_num)
    (by norm_num) meanDemo demoVARXWeights (fun t i => by
      simp only [demoVARXWeights]
      split_ifs <;> norm_num) meanDemoObj meanDemoKMeans rfl rfl rfl rfl rfl rfl rfl true true none
  refine ⟨solver, lstsq, r, ?_⟩
  rw [hr] at h
  rcases h with h | h
  · simp at h
  · cases h' : femKMeansFitTransform demoRngReal solver meanDemoKMeans (Arr2.of meanDemo)
      { parameters := some (Arr2.of fun (_ : Fin 2) d => (∑ t, meanDemo t d) / (3 : ℕ)),
        weights := some (Arr2.of demoVARXWeights), init := some "custom" } with
    | ok r' =>
      rw [h'] at h
      exact ⟨r', hr, rfl, h.1, h.2.2.2.2.2.1⟩
    | raise e =>
      rw [h'] at h
      exact h.elim
    | diverge =>
      rw [h'] at h
      exact h.elim

/-- Two samples of two features lie in a line: the fit is a LinAlgError. -/
example (hl : lstsq.Exact) (htot : ∀ m n r a b, ∃ x, lstsq m n r a b = Py.ok x) (args : FEMVARXArgs)
    (hu : args.externalFactors = none) :
    femVARXFitTransform demoRngReal solver lstsq mem meanDemoObj
      (Arr2.of (1 : Matrix (Fin 2) (Fin 2) ℝ)) args = Py.raise .linAlgError := by
  refine C112_hyperplane (k := 2) hl htot le_rfl (by norm_num) 1 ⟨fun _ => 1, ?_, 1, fun t _ => ?_⟩
    meanDemoObj rfl (checkParams_ok demoVARX_params).1 rfl args hu
  · exact fun h => one_ne_zero (congrFun h 0)
  · change ∑ d, (1 : Matrix (Fin 2) (Fin 2) ℝ) t d * 1 = 1
    rw [Fin.sum_univ_two]
    fin_cases t
    · change (1 : Matrix (Fin 2) (Fin 2) ℝ) 0 0 * 1 + (1 : Matrix (Fin 2) (Fin 2) ℝ) 0 1 * 1 = 1
      simp
    · change (1 : Matrix (Fin 2) (Fin 2) ℝ) 1 0 * 1 + (1 : Matrix (Fin 2) (Fin 2) ℝ) 1 1 * 1 = 1
      simp

end Demo

end Reor
