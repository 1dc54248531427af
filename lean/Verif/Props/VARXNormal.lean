import Verif.Proofs.VARXNormal
import Verif.Props.VARX
import Verif.Props.VARXMean

/-!
Residuals of the local models of FEM-BV-VARX, and series which follow a relation exactly (C126).
-/

set_option linter.unusedSectionVars false

namespace Reor

open scoped BigOperators Matrix
open Spec

variable {R : Rng ℝ} {solver : LPSolver ℝ} {mem : Memory} {lstsq : LstSq} {n D k : ℕ}

/-! ### C126: normal equations -/

/-- The sums, weighted by `w`, of the products of residuals and regressors are zero. -/
structure VARXFit.Orthogonal {E : ℕ} {m : VARXModel D E} (f : VARXFit m) (w : Fin n → ℝ)
    (y : ℕ → Fin D → ℝ) (u : ℕ → Fin E → ℝ) : Prop where
  mean : ∀ d, (∑ t : Fin n, if max m.p m.s ≤ t then w t * rowSeq f.residuals t d else 0) = 0
  lags : ∀ d (i : Fin m.p) e, (∑ t : Fin n, if max m.p m.s ≤ t then
    w t * rowSeq f.residuals t d * y (t - (i + 1)) e else 0) = 0
  factorLags : ∀ d (i : Fin m.s) e, (∑ t : Fin n, if max m.p m.s ≤ t then
    w t * rowSeq f.residuals t d * u (t - (i + 1)) e else 0) = 0
  factors : ∀ d e, (∑ t : Fin n, if max m.p m.s ≤ t then
    w t * rowSeq f.residuals t d * u t e else 0) = 0

theorem orthogonal_of {E : ℕ} {m : VARXModel D E} (hm : m.Made mem) {w : Fin m.n → ℝ}
    (hw : ∀ t, 0 ≤ m.tailWeights w t) {params : Matrix (Fin m.nCols) (Fin D) ℝ}
    (h : ∀ x', lsError (scaleRows (fun t => Real.sqrt (m.tailWeights w t)) m.z)
        (scaleRows (fun t => Real.sqrt (m.tailWeights w t)) m.target) params ≤
      lsError (scaleRows (fun t => Real.sqrt (m.tailWeights w t)) m.z)
        (scaleRows (fun t => Real.sqrt (m.tailWeights w t)) m.target) x')
    {f : VARXFit m} (hf : f.From params) : f.Orthogonal w (rowSeq m.y) (rowSeq m.u) := by
  have hr : ∀ (t : Fin m.n) d, rowSeq f.residuals t d = m.residuals params t d := by
    intro t d
    rw [hf.residuals]
    unfold rowSeq
    rw [dif_pos t.2]
  have key := weighted_normal hm hw h
  refine ⟨fun d => ?_, fun d i e => ?_, fun d i e => ?_, fun d e => ?_⟩
  · refine Eq.trans (Finset.sum_congr rfl fun t _ => ?_) (key d 1 0 0 0)
    rw [hr]
    simp
  · refine Eq.trans (Finset.sum_congr rfl fun t _ => ?_)
      (key d 0 (fun i' e' => if i' = i then if e' = e then 1 else 0 else 0) 0 0)
    rw [hr, Finset.sum_eq_single i (fun i' _ hi => by simp [hi]) (by simp)]
    simp
  · refine Eq.trans (Finset.sum_congr rfl fun t _ => ?_)
      (key d 0 0 (fun i' e' => if i' = i then if e' = e then 1 else 0 else 0) 0)
    rw [hr, Finset.sum_eq_single i (fun i' _ hi => by simp [hi]) (by simp)]
    simp
  · refine Eq.trans (Finset.sum_congr rfl fun t _ => ?_)
      (key d 0 0 0 (fun e' => if e' = e then 1 else 0))
    rw [hr]
    simp

/-- C126.  If the least-squares routine returns minimisers, the weighted residuals of a weighted fit of a
local model sum to zero in every feature, and so do their products with every lag of every feature, with
every lag of every external factor, and with the current external factors. -/
theorem C126_weighted_residuals_orthogonal (hl : lstsq.Exact) {y : Matrix (Fin n) (Fin D) ℝ}
    {pa sa : NumArg ℝ} {u : Option (Arr2 ℝ)} {m : VARXModel D (exogCols u)}
    (hm : varxModel mem y pa u sa = Py.ok m) (w : Fin n → ℝ) {f : VARXFit m}
    (hf : m.fit lstsq (some ⟨n, w⟩) = Py.ok f) : f.Orthogonal w (rowSeq y) (exogSeq u) := by
  have hmade := VARXModel.made_of hm
  obtain ⟨p, s, U, rfl, hp, hn, hn0, -, hU, h0, h1⟩ := varxModel_eq_ok hm
  unfold VARXModel.fit at hf
  simp only [dite_true] at hf
  obtain ⟨hw, params, hpar, hfrom⟩ := fitWeighted_eq_ok hf
  rw [← hU]
  exact orthogonal_of hmade hw (hl _ _ _ _ _ _ hpar) hfrom

/-- C126.  The same for the fit without weights. -/
theorem C126_plain_residuals_orthogonal (hl : lstsq.Exact) {y : Matrix (Fin n) (Fin D) ℝ}
    {pa sa : NumArg ℝ} {u : Option (Arr2 ℝ)} {m : VARXModel D (exogCols u)}
    (hm : varxModel mem y pa u sa = Py.ok m) {f : VARXFit m}
    (hf : m.fit lstsq none = Py.ok f) : f.Orthogonal (fun _ : Fin n => 1) (rowSeq y) (exogSeq u) := by
  have hmade := VARXModel.made_of hm
  obtain ⟨p, s, U, rfl, hp, hn, hn0, -, hU, h0, h1⟩ := varxModel_eq_ok hm
  obtain ⟨params, hpar, hfrom⟩ := fitPlain_eq_ok hf
  rw [← hU]
  exact orthogonal_of hmade (fun _ => zero_le_one) (plain_least hmade (hl _ _ _ _ _ _ hpar)) hfrom

/-! ### C126: exact relations -/

/-- C126.  A weighted fit of a local model with weights that are not negative past the presample: a
LinAlgError exactly if those weights do not sum to 1 and some combination of the features is, wherever
the weight is not 0, an exact affine function of the regressors; otherwise it returns. -/
theorem C126_weighted_fit_fails (hl : lstsq.Exact) (htot : ∀ m n r a b, ∃ x, lstsq m n r a b = Py.ok x)
    {y : Matrix (Fin n) (Fin D) ℝ} {pa sa : NumArg ℝ} {u : Option (Arr2 ℝ)}
    {m : VARXModel D (exogCols u)} (hm : varxModel mem y pa u sa = Py.ok m) (w : Fin n → ℝ)
    (hw : ∀ t : Fin n, max m.p m.s ≤ t → 0 ≤ w t) :
    let bad := (∑ t : Fin n, if max m.p m.s ≤ t then w t else 0) ≠ 1 ∧
      ExactRelation (max m.p m.s) m.p m.s w (rowSeq y) (exogSeq u)
    (m.fit lstsq (some ⟨n, w⟩) = Py.raise .linAlgError ↔ bad) ∧
      ((∃ f, m.fit lstsq (some ⟨n, w⟩) = Py.ok f) ↔ ¬bad) := by
  have hmade := VARXModel.made_of hm
  obtain ⟨p, s, U, rfl, hp, hn, hn0, hD, hU, h0, h1⟩ := varxModel_eq_ok hm
  intro bad
  have hfit : (VARXModel.mk n p s y U (varxRegressors mem p s y U)).fit lstsq (some ⟨n, w⟩) =
      (VARXModel.mk n p s y U (varxRegressors mem p s y U)).fitWeighted lstsq w := dif_pos rfl
  have h := fitWeighted_or hl htot hmade hD (w := w) fun t => hw _ (Nat.le_add_left _ _)
  have hU' : rowSeq (VARXModel.mk n p s y U (varxRegressors mem p s y U)).u = exogSeq u := hU
  rw [hU'] at h
  rw [hfit]
  rcases h with ⟨h, hb⟩ | ⟨⟨f, h⟩, hb⟩
  · rw [h]
    exact ⟨⟨fun _ => hb, fun _ => rfl⟩, ⟨fun ⟨_, h2⟩ => by simp at h2, fun h2 => absurd hb h2⟩⟩
  · rw [h]
    exact ⟨⟨fun h2 => by simp at h2, fun h2 => absurd h2 hb⟩, ⟨fun _ => hb, fun _ => ⟨f, rfl⟩⟩⟩

/-- C126.  The same for the fit without weights, whose degrees of freedom are the number of samples past
the presample less the number of coefficients of one feature. -/
theorem C126_plain_fit_fails (hl : lstsq.Exact) (htot : ∀ m n r a b, ∃ x, lstsq m n r a b = Py.ok x)
    {y : Matrix (Fin n) (Fin D) ℝ} {pa sa : NumArg ℝ} {u : Option (Arr2 ℝ)}
    {m : VARXModel D (exogCols u)} (hm : varxModel mem y pa u sa = Py.ok m) :
    let bad := (n : ℝ) - (max m.p m.s : ℕ) ≠ 1 + m.p * D + (m.s + 1) * exogCols u ∧
      ExactRelation (max m.p m.s) m.p m.s (fun _ : Fin n => 1) (rowSeq y) (exogSeq u)
    (m.fit lstsq none = Py.raise .linAlgError ↔ bad) ∧
      ((∃ f, m.fit lstsq none = Py.ok f) ↔ ¬bad) := by
  have hmade := VARXModel.made_of hm
  obtain ⟨p, s, U, rfl, hp, hn, hn0, hD, hU, h0, h1⟩ := varxModel_eq_ok hm
  intro bad
  have h := fitPlain_or hl htot hmade hD
  have hU' : rowSeq (VARXModel.mk n p s y U (varxRegressors mem p s y U)).u = exogSeq u := hU
  rw [hU'] at h
  have hdf : ((n : ℝ) - (max p s : ℕ) - p * D - 1 - exogCols u * (1 + s) ≠ 0) =
      ((n : ℝ) - (max p s : ℕ) ≠ 1 + p * D + (s + 1) * exogCols u) := by
    refine propext (not_congr ?_)
    constructor <;> intro h <;> linarith
  have h : ((VARXModel.mk n p s y U (varxRegressors mem p s y U)).fitPlain lstsq =
      Py.raise .linAlgError ∧ ((n : ℝ) - (max p s : ℕ) - p * D - 1 - exogCols u * (1 + s) ≠ 0 ∧ _)) ∨
      ((∃ f, (VARXModel.mk n p s y U (varxRegressors mem p s y U)).fitPlain lstsq = Py.ok f) ∧
        ¬((n : ℝ) - (max p s : ℕ) - p * D - 1 - exogCols u * (1 + s) ≠ 0 ∧ _)) := h
  rw [hdf] at h
  change ((VARXModel.mk n p s y U (varxRegressors mem p s y U)).fitPlain lstsq = _ ↔ _) ∧
    ((∃ f, (VARXModel.mk n p s y U (varxRegressors mem p s y U)).fitPlain lstsq = _) ↔ _)
  rcases h with ⟨h, hb⟩ | ⟨⟨f, h⟩, hb⟩
  · rw [h]
    exact ⟨⟨fun _ => hb, fun _ => rfl⟩, ⟨fun ⟨_, h2⟩ => by simp at h2, fun h2 => absurd hb h2⟩⟩
  · rw [h]
    exact ⟨⟨fun h2 => by simp at h2, fun h2 => absurd h2 hb⟩, ⟨fun _ => hb, fun _ => ⟨f, rfl⟩⟩⟩

theorem rowSeq_drop (X : Matrix (Fin n) (Fin D) ℝ) (c t : ℕ) :
    rowSeq (dropRows X c) t = rowSeq X (t + c) := by
  unfold rowSeq
  by_cases h : t < n - c
  · rw [dif_pos h, dif_pos (by omega)]
    rfl
  · rw [dif_neg h, dif_neg (by omega)]

theorem varxInit_fit_fails {u : Option (Arr2 ℝ)} {X : Matrix (Fin n) (Fin D) ℝ} {memory : Fin k → ℤ}
    {L : ℤ} {models : Fin k → VARXModel D (exogCols u)} {e : PyErr} {c : Unit}
    (hc : varxCheckExog n u = Py.ok c) (hm : varxModels mem X memory L u = Py.ok models)
    (hf : pyPi (fun i => (models i).fit lstsq none) = Py.raise e) :
    varxInit mem lstsq X memory L u = Py.raise e := by
  unfold varxInit
  rw [hc, Py.ok_bind, hm, Py.ok_bind, hf]
  rfl

/-- C126.  FEM-BV-VARX without external factors: if some combination of the features is, from the
largest memory on, an exact affine function of as many lags as one of the components remembers (and the
samples are not exactly as many as the coefficients), the fit is a LinAlgError, whatever the other
settings and arguments are. -/
theorem C126_femvarx_exact_relation (hl : lstsq.Exact)
    (htot : ∀ m n r a b, ∃ x, lstsq m n r a b = Py.ok x) (hD : 0 < D)
    (X : Matrix (Fin n) (Fin D) ℝ) (obj : FEMVARXObj R)
    (hp : ValidParams (.int k) obj.maxIterations obj.tolerance) (hk : obj.nComponents = .int k)
    (hlen : obj.memory.length = k) (hmem : ∀ z ∈ obj.memory, 0 ≤ z) {L q : ℕ} (hLn : L < n)
    (hL : maxMemory obj.memory = L) (hq : (q : ℤ) ∈ obj.memory) (hdf : (n : ℤ) - L ≠ 1 + q * D)
    (hX : ExactRelation L q 0 (fun _ : Fin n => 1) (rowSeq X) (exogSeq none))
    (args : FEMVARXArgs) (hu : args.externalFactors = none) :
    femVARXFitTransform R solver lstsq mem obj (Arr2.of X) args = Py.raise .linAlgError := by
  obtain ⟨p, hp, hpk, -, hk0, -⟩ := checkParams_valid hp
  have hpk : (k : ℤ) = p.1 := by simpa using hpk
  have hpk' : k = p.1 := by exact_mod_cast hpk
  obtain ⟨params, weights, init, up, uw, u⟩ := args
  simp only at hu
  subst hu
  have hle : ∀ z ∈ obj.memory, z ≤ (L : ℤ) := by
    rw [← hL]
    exact (maxMemory_spec (List.ne_nil_of_mem hq)).2
  suffices h : varxInit mem lstsq X (fun i : Fin p.1 => obj.memory.get (Fin.cast (by omega) i)) L none =
      Py.raise .linAlgError by
    unfold femVARXFitTransform femVARXRun
    rw [hk, show defaultComponents (.int (k : ℤ) : NumArg ℝ) (Arr2.of X).cols = .int k from rfl]
    simp only [hp, Py.ok_bind, hL]
    rw [dif_pos (by omega)]
    rw [show varxInit mem lstsq (Arr2.of X).val
      (fun i : Fin p.1 => obj.memory.get (Fin.cast (by omega) i)) L none = Py.raise .linAlgError from h]
    rfl
  obtain ⟨j, hj⟩ := List.mem_iff_get.1 hq
  have hjp : j.1 < p.1 := by have := j.2; omega
  generalize hm : (fun i : Fin p.1 => obj.memory.get (Fin.cast (by omega) i)) = memory
  have hm0 : ∀ i, 0 ≤ memory i ∧ memory i ≤ L := by
    intro i
    rw [← hm]
    exact ⟨hmem _ (List.get_mem _ _), hle _ (List.get_mem _ _)⟩
  have hmj : memory ⟨j, hjp⟩ = q := by
    rw [← hm]
    exact hj
  have hmodels : varxModels mem X memory L none = Py.ok fun i =>
      plainModel mem (memory i).toNat (dropRows X ((L : ℤ) - memory i).toNat) := by
    refine pyPi_eq_ok.2 fun i => ?_
    have := hm0 i
    have e : memory i = ((memory i).toNat : ℤ) := by omega
    have h := varxModel_plain (mem := mem) (p := (memory i).toNat) (by omega : 0 < n - ((L : ℤ) - memory i).toNat)
      hD (by omega) (dropRows X ((L : ℤ) - memory i).toNat) (.int 0)
    rw [← e] at h
    exact h
  refine varxInit_fit_fails rfl hmodels ?_
  have hbad : ∀ i, _ := fun i => fitPlain_or (mem := mem) hl htot (VARXModel.made_of (varxModel_plain (mem := mem)
    (p := (memory i).toNat) (by have := hm0 i; omega : 0 < n - ((L : ℤ) - memory i).toNat) hD
    (by have := hm0 i; omega) (dropRows X ((L : ℤ) - memory i).toNat) (.int 0))) hD
  have hor : ∀ i, (plainModel mem (memory i).toNat (dropRows X ((L : ℤ) - memory i).toNat)).fit lstsq none =
      Py.raise .linAlgError ∨ ∃ f, (plainModel mem (memory i).toNat
        (dropRows X ((L : ℤ) - memory i).toNat)).fit lstsq none = Py.ok f ∧ i ≠ ⟨j, hjp⟩ := by
    intro i
    rcases hbad i with ⟨h, -⟩ | ⟨⟨f, h⟩, hb⟩
    · exact Or.inl h
    · refine Or.inr ⟨f, h, fun hi => hb ?_⟩
      have hiq : memory i = q := by rw [hi]; exact hmj
      have hqL : q ≤ L := by have := (hm0 i).2; omega
      rw [hiq]
      simp only [Int.toNat_natCast]
      have hdrop : ((L : ℤ) - q).toNat = L - q := by omega
      rw [hdrop]
      refine ⟨?_, ?_⟩
      · change ((n - (L - q) : ℕ) : ℝ) - (max q 0 : ℕ) - q * D - 1 - (0 : ℕ) * (1 + (0 : ℕ)) ≠ 0
        intro h
        apply hdf
        rw [Nat.max_zero, Nat.cast_sub (by omega), Nat.cast_sub hqL] at h
        have h2 : (n : ℝ) - L = 1 + q * D := by
          simp only [Nat.cast_zero, zero_mul] at h
          linarith
        exact_mod_cast h2
      · obtain ⟨v, hv, c, a, b, b0, h⟩ := hX
        have h2 : ∀ t : ℕ, q ≤ t → t < n - (L - q) → (∑ d, v d * rowSeq (dropRows X (L - q)) t d) =
            c + ∑ i : Fin q, ∑ e, a i e * rowSeq (dropRows X (L - q)) (t - (i + 1)) e + 0 + 0 := by
          intro t htq htn
          have h1 := h ⟨t + (L - q), by omega⟩ (show L ≤ (t : ℕ) + (L - q) by omega) one_ne_zero
          rw [show (∑ e : Fin (exogCols none), b0 e * exogSeq none (t + (L - q)) e) = 0 from
            Finset.sum_eq_zero fun e _ => e.elim0,
            show (∑ i : Fin 0, ∑ e : Fin (exogCols none), b i e *
              exogSeq none (t + (L - q) - (i + 1)) e) = 0 from
            Finset.sum_eq_zero fun i _ => i.elim0] at h1
          simp only [rowSeq_drop]
          rw [h1]
          refine congrArg (fun z => c + z + 0 + 0) (Finset.sum_congr rfl fun i _ =>
            Finset.sum_congr rfl fun e _ => ?_)
          have hi := i.2
          rw [show t - ((i : ℕ) + 1) + (L - q) = t + (L - q) - (i + 1) by omega]
        refine ⟨v, hv, c, a, fun i => i.elim0, fun e => e.elim0, fun t ht _ => ?_⟩
        exact h2 t (le_trans (le_max_left _ _) ht) t.2
  rcases pyPi_or hor with h | ⟨f, -, h⟩
  · exact h
  · exact absurd rfl (h ⟨j, hjp⟩)

/-- C126.  So a feature that is constant from the largest memory on is a LinAlgError, and so is one that
repeats itself with a period that one of the components remembers. -/
theorem C126_femvarx_periodic_feature (hl : lstsq.Exact)
    (htot : ∀ m n r a b, ∃ x, lstsq m n r a b = Py.ok x)
    (X : Matrix (Fin n) (Fin D) ℝ) (obj : FEMVARXObj R)
    (hp : ValidParams (.int k) obj.maxIterations obj.tolerance) (hk : obj.nComponents = .int k)
    (hlen : obj.memory.length = k) (hmem : ∀ z ∈ obj.memory, 0 ≤ z) {L q : ℕ} (hLn : L < n)
    (hL : maxMemory obj.memory = L) (hq : (q : ℤ) ∈ obj.memory) (hdf : (n : ℤ) - L ≠ 1 + q * D)
    (d : Fin D) (hX : (∃ c, ∀ t : Fin n, L ≤ t → X t d = c) ∨
      ∃ r, 0 < r ∧ r ≤ q ∧ ∀ s t : Fin n, L ≤ t → (s : ℕ) + r = t → X t d = X s d)
    (args : FEMVARXArgs) (hu : args.externalFactors = none) :
    femVARXFitTransform R solver lstsq mem obj (Arr2.of X) args = Py.raise .linAlgError := by
  refine C126_femvarx_exact_relation hl htot (Nat.pos_of_ne_zero fun h => by subst h; exact d.elim0) X obj
    hp hk hlen hmem hLn hL hq hdf ?_ args hu
  have hqL : q ≤ L := by
    have := (maxMemory_spec (List.ne_nil_of_mem hq)).2 _ hq
    omega
  have hv : ∀ t : Fin n, ∑ e, (if e = d then (1 : ℝ) else 0) * rowSeq X t e = X t d := by
    intro t
    rw [Finset.sum_eq_single d (fun e _ he => by simp [he]) (by simp), if_pos rfl, one_mul]
    unfold rowSeq
    rw [dif_pos t.2]
  refine ⟨fun e => if e = d then 1 else 0, fun h => one_ne_zero ((if_pos rfl).symm.trans (congrFun h d)), ?_⟩
  rcases hX with ⟨c, hX⟩ | ⟨r, hr0, hrq, hX⟩
  · refine ⟨c, 0, 0, 0, fun t ht _ => ?_⟩
    rw [hv, hX t ht]
    simp
  · refine ⟨0, fun i e => if (i : ℕ) + 1 = r then if e = d then 1 else 0 else 0, 0, 0, fun t ht _ => ?_⟩
    have ht2 := t.2
    rw [hv, hX ⟨t - r, by omega⟩ t ht (by simp only; omega),
      Finset.sum_eq_single (⟨r - 1, by omega⟩ : Fin q)]
    · simp only
      rw [Finset.sum_eq_single d (fun e _ he => by simp [he]) (by simp), if_pos (by omega), if_pos rfl]
      unfold rowSeq
      rw [dif_pos (by omega)]
      simp only [show (t : ℕ) - (r - 1 + 1) = t - r by omega]
      simp
    · intro i _ hi
      have : (i : ℕ) + 1 ≠ r := fun h => hi (Fin.ext (by simp only; omega))
      simp [this]
    · simp

/-! ### Examples -/

/-- The fits of the example of C53 have such residuals, with an external factor and uneven weights. -/
example : ∃ (lstsq : LstSq) (f : VARXFit (varxDemoModel mem)),
    (varxDemoModel mem).fit lstsq (some ⟨4, ![1, 1, 1/2, 1]⟩) = Py.ok f ∧
      f.Orthogonal (n := 4) ![1, 1, 1/2, 1] (rowSeq varxDemo) (rowSeq varxDemoU) := by
  obtain ⟨lstsq, hl, -, f, hf⟩ := varxDemo_fit mem
  exact ⟨lstsq, f, hf, C126_weighted_residuals_orthogonal hl (varxDemo_model mem) _ hf⟩

/-- Six samples that alternate. -/
def alternating : Matrix (Fin 6) (Fin 1) ℝ := fun t _ => if (t : ℕ) % 2 = 0 then 0 else 1

/-- Two components of memories 1 and 2. -/
noncomputable def alternatingObj : FEMVARXObj demoRngReal := { meanDemoObj with memory := [1, 2] }

/-- A series that alternates: the fit with memories 1 and 2 is a LinAlgError. -/
example (hl : lstsq.Exact) (htot : ∀ m n r a b, ∃ x, lstsq m n r a b = Py.ok x) (args : FEMVARXArgs)
    (hu : args.externalFactors = none) :
    femVARXFitTransform demoRngReal solver lstsq mem alternatingObj (Arr2.of alternating) args =
      Py.raise .linAlgError := by
  refine C126_femvarx_periodic_feature (k := 2) (L := 2) (q := 2) hl htot alternating alternatingObj
    (checkParams_ok demoVARX_params).1 rfl rfl (by simp [alternatingObj]) (by norm_num) rfl
    (by simp [alternatingObj]) (by norm_num) 0 (Or.inr ⟨2, by norm_num, le_rfl, fun s t _ h => ?_⟩) args hu
  unfold alternating
  rw [← h, Nat.add_mod_right]

end Reor
