import Verif.Props.VARX
import Verif.Props.FEMBV
import Verif.Proofs.FEMFrozen
import Verif.Proofs.GPNHFit
import Mathlib.Tactic.IntervalCases

/-!
Properties of FEM-BV-VARX (C22, C24, C55, C67-C71).
-/

set_option linter.unusedSectionVars false

namespace Reor

open scoped BigOperators
open Spec

variable {mem : Memory} {lstsq : LstSq} {R : Rng ℝ} {solver : LPSolver ℝ}

/-- The object's memory is one that the constructor accepts for its number of components. -/
def FEMVARXObj.Constructed (obj : FEMVARXObj R) : Prop :=
  ∃ arg, varxMemory obj.nComponents arg = Py.ok obj.memory

section Setup

variable {obj : FEMVARXObj R} {data : Arr2 ℝ} {args : FEMVARXArgs}

theorem varx_nComponents (hc : obj.Constructed) {D : ℕ} :
    defaultComponents obj.nComponents D = obj.nComponents := by
  obtain ⟨arg, h⟩ := hc
  cases hn : obj.nComponents with
  | none =>
    rw [hn] at h
    cases arg with
    | none => simp [varxMemory, npFullInt] at h
    | int z =>
      unfold varxMemory npFullInt at h
      simp only at h
      split_ifs at h
    | list l =>
      unfold varxMemory memoryShape at h
      simp at h
    | other => simp [varxMemory] at h
  | int z => rfl
  | real x => rfl
  | other => rfl

/-- Everything that is known when a run gets to its set-up. -/
theorem varx_setup (hc : obj.Constructed) {p : ℕ × ℕ × ℝ} (hp : checkParams
      (defaultComponents obj.nComponents data.cols) obj.maxIterations obj.tolerance = Py.ok p) :
    p.1 = obj.memory.length ∧ 0 < p.1 ∧ 0 < p.2.1 := by
  obtain ⟨-, h1, -, h2, h3, -⟩ := checkParams_ok hp
  rw [varx_nComponents hc] at h1
  obtain ⟨arg, h⟩ := hc
  exact ⟨(varxMemory_length h p.1 h1).symm, h2, h3⟩

theorem varx_max {k : ℕ} {memory : List ℤ} (hl : k = memory.length) (hk : 0 < k) :
    (∀ i : Fin k, memory.get (Fin.cast hl i) ≤ maxMemory memory) ∧
    ∃ i : Fin k, memory.get (Fin.cast hl i) = maxMemory memory := by
  have hne : memory ≠ [] := by
    intro h
    rw [h] at hl
    simp at hl
    omega
  obtain ⟨h1, h2⟩ := maxMemory_spec hne
  refine ⟨fun i => h2 _ (List.get_mem _ _), ?_⟩
  obtain ⟨i, hi⟩ := List.get_of_mem h1
  exact ⟨Fin.cast hl.symm i, hi⟩

end Setup

/-! ### C55: different memories -/

section Memories

variable {obj : FEMVARXObj R} {data : Arr2 ℝ} {args : FEMVARXArgs}

theorem varx_max_eq {memory : List ℤ} {b : ℤ} (hb : b ∈ memory) (hmax : ∀ c ∈ memory, c ≤ b) :
    maxMemory memory = b := by
  obtain ⟨h1, h2⟩ := maxMemory_spec (List.ne_nil_of_mem hb)
  exact le_antisymm (hmax _ h1) (h2 _ hb)

theorem varx_unequal_init {k : ℕ} {memory : List ℤ} (hl : k = memory.length) (hk : 0 < k)
    {n D : ℕ} {X : Matrix (Fin n) (Fin D) ℝ} {u : Option (Arr2 ℝ)} {a b : ℤ} (ha : a ∈ memory)
    (hb : b ∈ memory) (hmax : ∀ c ∈ memory, c ≤ b) (hab : a < b) (hn : (n : ℤ) + a ≠ 2 * b + 1)
    (start : VARXStart k D (exogCols u)) :
    varxInit mem lstsq X (fun i : Fin k => memory.get (Fin.cast hl i)) (maxMemory memory) u ≠
      Py.ok start := by
  intro hst
  obtain ⟨hle, hat⟩ := varx_max hl hk
  obtain ⟨-, -, -, -, -, h⟩ := varxInit_sizes hst hle hat
  have hL := varx_max_eq hb hmax
  obtain ⟨j, hj⟩ := List.get_of_mem ha
  have := h (Fin.cast hl.symm j)
  have e : memory.get (Fin.cast hl (Fin.cast hl.symm j)) = a := hj
  rw [e, hL] at this
  omega

/-- C55.  Component memories that are not all equal are rejected by the set-up of every fit: with `b` the
largest memory and `a < b` another one, the fit raises ValueError, or LinAlgError or an error of the
least-squares routine in one of the first local fits.  Left out is the one length where a single
residual is broadcast. -/
theorem C55_unequal_memories_rejected (he : lstsq.Ends) (hc : obj.Constructed) {a b : ℤ}
    (ha : a ∈ obj.memory) (hb : b ∈ obj.memory) (hmax : ∀ c ∈ obj.memory, c ≤ b) (hab : a < b)
    (hn : (data.rows : ℤ) + a ≠ 2 * b + 1) :
    ∃ e, femVARXFitTransform R solver lstsq mem obj data args = Py.raise e ∧
      (e = .valueError ∨ e = .linAlgError ∨ lstsq.Raised e) := by
  by_cases hv : ValidParams (defaultComponents obj.nComponents data.cols) obj.maxIterations
      obj.tolerance
  · obtain ⟨p, hp, -⟩ := checkParams_valid hv
    obtain ⟨hl, hk, -⟩ := varx_setup hc hp
    cases hst : varxInit mem lstsq data.val (fun i : Fin p.1 => obj.memory.get (Fin.cast hl i))
        (maxMemory obj.memory) args.externalFactors with
    | ok start => exact absurd hst (varx_unequal_init hl hk ha hb hmax hab hn start)
    | diverge => exact absurd hst (varxInit_ne_diverge he)
    | raise e =>
      exact ⟨e, femVARXFitTransform_raise (femVARXRun_raise_init hp hl hst), varxInit_raise hst⟩
  · refine ⟨_, femVARXFitTransform_raise (e := .valueError) ?_, Or.inl rfl⟩
    unfold femVARXRun
    simp only [checkParams_invalid hv, Py.raise_bind]

/-- C55.  If the first local fits go through, the error is the ValueError of the shapes. -/
theorem C55_unequal_memories_shape (he : lstsq.Ends) (hc : obj.Constructed) {a b : ℤ}
    (ha : a ∈ obj.memory) (hb : b ∈ obj.memory) (hmax : ∀ c ∈ obj.memory, c ≤ b) (hab : a < b)
    (hn : (data.rows : ℤ) + a ≠ 2 * b + 1)
    (hfit : ∀ c ∈ obj.memory, ∀ m, varxModel mem (dropRows data.val (b - c).toNat) (.int c)
      args.externalFactors (.int 0) = Py.ok m → ∃ f, m.fit lstsq none = Py.ok f) :
    femVARXFitTransform R solver lstsq mem obj data args = Py.raise .valueError := by
  refine femVARXFitTransform_raise ?_
  by_cases hv : ValidParams (defaultComponents obj.nComponents data.cols) obj.maxIterations
      obj.tolerance
  · obtain ⟨p, hp, -⟩ := checkParams_valid hv
    obtain ⟨hl, hk, -⟩ := varx_setup hc hp
    cases hst : varxInit mem lstsq data.val (fun i : Fin p.1 => obj.memory.get (Fin.cast hl i))
        (maxMemory obj.memory) args.externalFactors with
    | ok start => exact absurd hst (varx_unequal_init hl hk ha hb hmax hab hn start)
    | diverge => exact absurd hst (varxInit_ne_diverge he)
    | raise e =>
      rw [femVARXRun_raise_init hp hl hst]
      rcases varxInit_raise_cases hst with h | ⟨i, m, hm, h⟩
      · rw [h]
      · rw [varx_max_eq hb hmax] at hm
        obtain ⟨f, hf⟩ := hfit _ (List.get_mem _ _) m hm
        rw [hf] at h
        simp at h
  · unfold femVARXRun
    simp only [checkParams_invalid hv, Py.raise_bind]

/-- C55.  With external factors the set-up never gets as far as the fits: ValueError, for every length. -/
theorem C55_unequal_memories_exog (hc : obj.Constructed) {a b : ℤ}
    (ha : a ∈ obj.memory) (hb : b ∈ obj.memory) (hab : a ≠ b)
    (hu : args.externalFactors ≠ none) :
    femVARXFitTransform R solver lstsq mem obj data args = Py.raise .valueError := by
  refine femVARXFitTransform_raise ?_
  by_cases hv : ValidParams (defaultComponents obj.nComponents data.cols) obj.maxIterations
      obj.tolerance
  · obtain ⟨p, hp, -⟩ := checkParams_valid hv
    obtain ⟨hl, hk, -⟩ := varx_setup hc hp
    refine femVARXRun_raise_init hp hl ?_
    by_cases hall : ∀ i : Fin p.1, ∃ m, varxModel mem (dropRows data.val
        (maxMemory obj.memory - obj.memory.get (Fin.cast hl i)).toNat)
        (.int (obj.memory.get (Fin.cast hl i))) args.externalFactors (.int 0) = Py.ok m
    · exfalso
      obtain ⟨v, hv⟩ := Option.ne_none_iff_exists'.1 hu
      have key : ∀ c ∈ obj.memory, v.rows = data.rows - (maxMemory obj.memory - c).toNat ∧
          0 < v.rows := by
        intro c hc
        obtain ⟨i, hi⟩ := List.get_of_mem hc
        obtain ⟨m, hm⟩ := hall (Fin.cast hl.symm i)
        have hi' : obj.memory.get (Fin.cast hl (Fin.cast hl.symm i)) = c := hi
        obtain ⟨h1, -, -, -, h2, -, h3⟩ := varxInit_model (k := p.1) (L := maxMemory obj.memory)
          (memory := fun i => obj.memory.get (Fin.cast hl i)) hm
        simp only [hi'] at h1
        rw [h3 v hv, h1]
        exact ⟨rfl, by omega⟩
      obtain ⟨hm1, hm2⟩ := maxMemory_spec (List.ne_nil_of_mem ha)
      have h0 := key _ hm1
      have h1 := key _ ha
      have h2 := key _ hb
      have := hm2 _ ha
      have := hm2 _ hb
      omega
    · push Not at hall
      obtain ⟨i, hi⟩ := hall
      exact varxInit_no_model i hi
  · unfold femVARXRun
    simp only [checkParams_invalid hv, Py.raise_bind]

end Memories

/-! ### Runs with equal memories -/

/-- One-step forecast by a component with intercept `mu`, matrices `A` for the lags and `B0` for the
external factors `u`. -/
noncomputable def varxForecast {L n D : ℕ} (X : Matrix (Fin n) (Fin D) ℝ) (u : Option (Arr2 ℝ))
    (mu : Fin D → ℝ) (A : Fin L → Matrix (Fin D) (Fin D) ℝ) (B0 : Matrix (Fin D) (Fin (exogCols u)) ℝ)
    (t : ℕ) : Fin D → ℝ :=
  varxPrediction (s := 0) mu A (fun i => i.elim0) B0 (rowSeq X) (exogSeq u) t

section Equal

variable {obj obj' : FEMVARXObj R} {data : Arr2 ℝ} {args : FEMVARXArgs} {info : FEMInfo ℝ}

theorem varx_equal_max {memory : List ℤ} {L : ℤ} (hne : memory ≠ []) (hL : ∀ a ∈ memory, a = L) :
    maxMemory memory = L := hL _ (maxMemory_spec hne).1

theorem varx_memory_ne {k : ℕ} {memory : List ℤ} (hl : k = memory.length) (hk : 0 < k) :
    memory ≠ [] := by
  rintro rfl
  simp at hl
  omega

/-- What is known of a run that returns. -/
theorem varx_run_good (hs : solver.Exact) (hls : lstsq.Exact) (he : lstsq.Ends)
    (hc : obj.Constructed) {L : ℤ} (hL : ∀ a ∈ obj.memory, a = L)
    (h : femVARXRun R solver lstsq mem obj data args = Py.ok (obj', info)) :
    ∃ (p : ℕ × ℕ × ℝ) (start : VARXStart p.1 data.cols (exogCols args.externalFactors))
      (r : FEMResult (VARXParams start.models start.L) (data.rows - start.L) p.1 ℝ × R.G)
      (tv : Option ℝ) (gamma : Matrix (Fin (data.rows - start.L)) (Fin p.1) ℝ × R.G)
      (con : Option (FEMConstraints (p.1 * (data.rows - start.L) +
        auxParameters tv p.1 (data.rows - start.L)) ℝ)),
      checkParams (defaultComponents obj.nComponents data.cols) obj.maxIterations obj.tolerance =
        Py.ok p ∧ 0 < p.1 ∧
      VARXUniform mem start.models start.L (data.rows - start.L) ∧ start.L < data.rows ∧
      (start.L : ℤ) = L ∧
      (∀ i, varxModel mem (dropRows data.val 0) (.int start.L) args.externalFactors (.int 0) =
        Py.ok (start.models i)) ∧
      (∀ i, (start.models i).fit lstsq none = Py.ok (start.params.fits i)) ∧
      start.params.mu = (fun _ _ => 0) ∧ start.params.A = (fun _ _ _ _ => 0) ∧
      femInitWeights R (data.rows - start.L) p.1 args.weights args.init obj.randomState =
        Py.ok gamma ∧
      maxTvConstraint obj.maxTvNorm = Py.ok tv ∧
      femConstraints tv p.1 (data.rows - start.L) = Py.ok con ∧
      femIterate (varxComp start.models start.L (data.rows - start.L) lstsq) solver con obj.require
        p.2.2 p.2.1 args.updateParameters args.updateWeights
        ⟨gamma.1, start.params, varxDistance (data.rows - start.L) start.params⟩ = Py.ok r.1 ∧
      FEMGood tv (varxComp start.models start.L (data.rows - start.L) lstsq) VARXParams.Fitted
        args.updateParameters args.updateWeights r.1.state r.1.cost ∧
      r.1.failures = 0 ∧ r.1.trace.Pairwise (· ≥ ·) ∧
      (obj', info) = femVARXFinish obj data args p start r := by
  obtain ⟨p, hl, start, r, hp, hst, hr, hout⟩ := femVARXRun_eq_ok h
  obtain ⟨-, hk, hm⟩ := varx_setup hc hp
  have hmax := varx_equal_max (varx_memory_ne hl hk) hL
  rw [hmax] at hst
  obtain ⟨hU, hF, hlt, hLL, hD, hmod⟩ := varxInit_uniform hst hk fun i => hL _ (List.get_mem _ _)
  obtain ⟨-, -, hfit, -, hmu, hA, -⟩ := varxInit_eq_ok hst
  obtain ⟨gamma, tv, con, hg, htv, hcon, hit, -⟩ := femVARXIterate_eq_ok hr
  obtain ⟨h1, -, -⟩ := femIterate_good (hU.lawful hls he) hk hs (femConstraints_for hcon)
    (leastExist_real (maxTvConstraint_nonneg htv) _ _) obj.require p.2.2 args.updateParameters
    args.updateWeights hm ⟨gamma.1, start.params, varxDistance (data.rows - start.L) start.params⟩ hF
  obtain ⟨hgood, hf, ht⟩ := h1 r.1 hit
  rw [← hLL] at hmod
  exact ⟨p, start, r, tv, gamma, con, hp, hk, hU, hlt, hLL, hmod, hfit, hmu, hA, hg, htv, hcon, hit,
    hgood, hf, ht, hout⟩

/-- C67.  With equal memories, an exact linear-programming solver and a least-squares routine that
returns minimisers, the monotonicity error never occurs, whatever the data, external factors,
settings and start; no weights update fails, and the costs at the ends of the iterations do not
increase. -/
theorem C67_femvarx_costs_decrease (hs : solver.Exact) (hls : lstsq.Exact) (he : lstsq.Ends)
    (hr : ¬ lstsq.Raised .runtimeError) (hc : obj.Constructed) {L : ℤ}
    (hL : ∀ a ∈ obj.memory, a = L) :
    femVARXRun R solver lstsq mem obj data args ≠ Py.raise .runtimeError ∧
    ∀ obj' info, femVARXRun R solver lstsq mem obj data args = Py.ok (obj', info) →
      info.trace.Pairwise (· ≥ ·) ∧ info.failures = 0 := by
  constructor
  · intro h
    unfold femVARXRun at h
    rcases Py.bind_eq_raise.1 h with h | ⟨p, hp, h⟩
    · by_cases hv : ValidParams (defaultComponents obj.nComponents data.cols) obj.maxIterations
          obj.tolerance
      · obtain ⟨p, hp, -⟩ := checkParams_valid hv
        rw [hp] at h
        simp at h
      · rw [checkParams_invalid hv] at h
        simp at h
    obtain ⟨hl, hk, hm⟩ := varx_setup hc hp
    rw [dif_pos hl] at h
    rcases Py.bind_eq_raise.1 h with h | ⟨start, hst, h⟩
    · rcases varxInit_raise h with h | h | h
      · simp at h
      · simp at h
      · exact hr h
    rw [varx_equal_max (varx_memory_ne hl hk) hL] at hst
    obtain ⟨hU, hF, -⟩ := varxInit_uniform hst hk fun i => hL _ (List.get_mem _ _)
    rcases Py.bind_eq_raise.1 h with h | ⟨_, -, h⟩
    · unfold femVARXIterate at h
      rcases Py.bind_eq_raise.1 h with h | ⟨gamma, -, h⟩
      · exact femInitWeights_ne_runtime h
      rcases Py.bind_eq_raise.1 h with h | ⟨tv, htv, h⟩
      · cases hm : obj.maxTvNorm with
        | other => rw [hm] at h; simp [maxTvConstraint] at h
        | _ =>
          obtain ⟨tv, htv⟩ := maxTvConstraint_number (m := obj.maxTvNorm) (by simp [hm])
          rw [htv] at h
          simp at h
      rcases Py.bind_eq_raise.1 h with h | ⟨con, hcon, h⟩
      · exact femConstraints_ne_runtime h
      rcases Py.bind_eq_raise.1 h with h | ⟨_, -, h⟩
      · obtain ⟨-, h2, -⟩ := femIterate_good (hU.lawful hls he) hk hs (femConstraints_for hcon)
          (leastExist_real (maxTvConstraint_nonneg htv) _ _) obj.require p.2.2 args.updateParameters
          args.updateWeights hm
          ⟨gamma.1, start.params, varxDistance (data.rows - start.L) start.params⟩ hF
        rcases (h2 _ h).1 with h | h | h
        · simp at h
        · simp at h
        · exact hr h
      · simp at h
    · simp at h
  · intro obj' info h
    obtain ⟨p, start, r, tv, gamma, con, -, -, -, -, -, -, -, -, -, -, -, -, -, -, hf, ht, hout⟩ :=
      varx_run_good hs hls he hc hL h
    rw [Prod.ext_iff] at hout
    obtain ⟨-, rfl⟩ := hout
    exact ⟨ht, hf⟩

/-- The result of a fit: number of components, maximal memory, weights, coefficients. -/
structure FEMVARXFitted (obj' : FEMVARXObj R) (u : Option (Arr2 ℝ)) (n D : ℕ) where
  k : ℕ
  L : ℕ
  hL : L < n
  G : Matrix (Fin (n - L)) (Fin k) ℝ
  mu : Matrix (Fin k) (Fin D) ℝ
  A : Fin k → Fin L → Matrix (Fin D) (Fin D) ℝ
  B0 : Fin k → Matrix (Fin D) (Fin (exogCols u)) ℝ
  components : obj'.memory.length = k
  weights_eq : obj'.Gamma = some (Arr2.of G)
  mu_eq : obj'.mu = some (Arr2.of mu)
  A_eq : 0 < L → obj'.A = some ⟨k, L, D, D, A⟩
  B0_eq : u ≠ none → obj'.B0 = some (Arr3.of B0)

/-- Squared error of the forecast of sample `t + L` by component `i`. -/
noncomputable def FEMVARXFitted.error {obj' : FEMVARXObj R} {u : Option (Arr2 ℝ)} {n D : ℕ}
    (F : FEMVARXFitted obj' u n D) (X : Matrix (Fin n) (Fin D) ℝ) (t : Fin (n - F.L)) (i : Fin F.k) :
    ℝ :=
  sqDist (rowSeq X (t + F.L)) (varxForecast X u (F.mu i) (F.A i) (F.B0 i) (t + F.L))

/-- Weighted errors from time `L` on, with the times counted from there. -/
theorem weightedError_shift {n D L : ℕ} (w : Fin n → ℝ) (y : Matrix (Fin n) (Fin D) ℝ)
    (pred : ℕ → Fin D → ℝ) : weightedError L w y pred =
      ∑ t : Fin (n - L), w ⟨t + L, by have := t.2; omega⟩ * sqDist (rowSeq y (t + L))
        (pred (t + L)) := by
  unfold weightedError
  rw [sum_from_lag fun t => w t * sqDist (fun d => y t d) (pred t)]
  refine Finset.sum_congr rfl fun t _ => ?_
  congr 2
  unfold rowSeq
  rw [dif_pos (by have := t.2; omega)]

/-- Forecasts as predictions of a local model. -/
theorem varxForecast_eq {n D L : ℕ} {X : Matrix (Fin n) (Fin D) ℝ} {u : Option (Arr2 ℝ)}
    {m : VARXModel D (exogCols u)} (hp : m.p = L) (hs : m.s = 0) (mu : Fin D → ℝ)
    (A : Fin L → Matrix (Fin D) (Fin D) ℝ) (B0 : Matrix (Fin D) (Fin (exogCols u)) ℝ) (t : ℕ) :
    varxForecast X u mu A B0 t = varxPrediction mu (fun l : Fin m.p => A ⟨l, hp ▸ l.2⟩)
      (fun _ : Fin m.s => 0) B0 (rowSeq X) (exogSeq u) t :=
  (varxPrediction_congr hp hs rfl (fun _ => rfl) rfl _ _ _).symm

theorem sigma_eq {n : ℕ} (s : Σ l : ℕ, Fin l → ℝ) (h : s.1 = n) :
    s = ⟨n, fun t => s.2 (Fin.cast h.symm t)⟩ := by
  obtain ⟨l, w⟩ := s
  subst h
  rfl

theorem varx_fit_reported (hs : solver.Exact) (hls : lstsq.Exact) (he : lstsq.Ends)
    (hc : obj.Constructed) {L : ℤ} (hL : ∀ a ∈ obj.memory, a = L)
    (hup : args.updateParameters = true)
    (h : femVARXRun R solver lstsq mem obj data args = Py.ok (obj', info)) :
    ∃ (F : FEMVARXFitted obj' args.externalFactors data.rows data.cols) (tv : Option ℝ),
      (F.L : ℤ) = L ∧ TvBound obj.maxTvNorm tv ∧
      info.cost = assignmentCost F.G (F.error data.val) ∧
      (args.updateWeights = true → 1 < F.k → TvAdmissible tv F.G ∧
        ∀ G, TvAdmissible tv G → assignmentCost F.G (F.error data.val) ≤
          assignmentCost G (F.error data.val)) ∧
      (args.updateWeights = false ∨ F.k = 1 → ∀ (i : Fin F.k) (mu : Fin data.cols → ℝ)
        (A : Fin F.L → Matrix (Fin data.cols) (Fin data.cols) ℝ)
        (B0 : Matrix (Fin data.cols) (Fin (exogCols args.externalFactors)) ℝ),
        ∑ t, F.G t i * F.error data.val t i ≤
        ∑ t : Fin (data.rows - F.L), F.G t i * sqDist (rowSeq data.val (t + F.L))
          (varxForecast data.val args.externalFactors mu A B0 (t + F.L))) := by
  obtain ⟨p, start, r, tv, gamma, con, hp, hk, hU, hlt, hLL, hmod, hfit, hmu, hA, hg, htv, hcon, hit,
    hgood, hf, ht, hout⟩ := varx_run_good hs hls he hc hL h
  rw [Prod.ext_iff] at hout
  obtain ⟨hobj, hinfo⟩ := hout
  simp only at hobj hinfo
  obtain ⟨G0, p0, hupd⟩ := hgood.updated hup
  have hrep := varxUpdate_reported hU hupd
  obtain ⟨hlen, -, -⟩ := varx_setup hc hp
  have hdist : varxDistance (data.rows - start.L) r.1.state.params =
      fun (t : Fin (data.rows - start.L)) i =>
      sqDist (rowSeq data.val (t + start.L)) (varxForecast data.val args.externalFactors
        (r.1.state.params.mu i) (r.1.state.params.A i) (r.1.state.params.B0 i) (t + start.L)) := by
    funext t i
    rw [hU.distance_prediction hmod _ hgood.inv t i]
    obtain ⟨a, b, c⟩ := hrep i
    unfold varxForecast
    rw [varxPrediction_congr (hU.p i) (hU.s i) a b c]
  refine ⟨{ k := p.1, L := start.L, hL := hlt, G := r.1.state.Gamma, mu := r.1.state.params.mu,
            A := r.1.state.params.A, B0 := r.1.state.params.B0, components := ?_, weights_eq := ?_,
            mu_eq := ?_, A_eq := ?_, B0_eq := ?_ }, tv, hLL, tvBound_of_ok htv, ?_, ?_, ?_⟩
  · rw [hobj]
    exact hlen.symm
  · rw [hobj]
    rfl
  · rw [hobj]
    rfl
  · intro h0
    rw [hobj]
    exact if_pos h0
  · intro h0
    rw [hobj]
    exact if_pos (Option.isSome_iff_ne_none.2 h0)
  · rw [hinfo]
    refine hgood.cost.trans ?_
    exact congrArg (assignmentCost r.1.state.Gamma) hdist
  · intro hw h1
    refine ⟨hgood.adm hw h1, fun G hG => ?_⟩
    have := hgood.least hw h1 G hG
    rw [hgood.cost] at this
    have e : (varxComp start.models start.L (data.rows - start.L) lstsq).distance
      r.1.state.params = _ := hdist
    rw [e] at this
    exact this
  · intro hw i mu A B0
    have hfix := hgood.fixed hup hw
    have hfix : varxUpdate lstsq r.1.state.Gamma r.1.state.params = Py.ok r.1.state.params := hfix
    have hfi : (start.models i).fit lstsq (some (varxWeights r.1.state.Gamma i (start.models i).p)) =
        Py.ok (r.1.state.params.fits i) := by
      unfold varxUpdate at hfix
      obtain ⟨fits, hf, hfix⟩ := Py.bind_eq_ok.1 hfix
      have := pyPi_eq_ok.1 hf i
      rw [this, ← Py.ok.inj hfix]
    have hsz : (varxWeights r.1.state.Gamma i (start.models i).p).1 = data.rows := by
      rw [hU.weights r.1.state.Gamma i, hU.n i]
      omega
    rw [sigma_eq _ hsz] at hfi
    have hle := C54_varx_weighted_fit_least (n := data.rows) hls (hmod i) _ hfi mu
      (fun l => A ⟨l, lt_of_lt_of_eq l.2 (hU.p i)⟩) (fun _ => 0) B0
    rw [weightedError_shift, weightedError_shift] at hle
    have hmax : max (start.models i).p (start.models i).s = start.L := hU.presample i
    rw [hmax] at hle
    have hwt : ∀ t : Fin (data.rows - start.L),
        (varxWeights r.1.state.Gamma i (start.models i).p).2 (Fin.cast hsz.symm
          ⟨t + start.L, by have := t.2; omega⟩) = r.1.state.Gamma t i := by
      intro t
      refine varxWeights_eq _ _ _ t ?_
      change (t : ℕ) + start.L = t + (start.models i).p
      rw [hU.p i]
    simp only [hwt] at hle
    refine le_trans (le_of_eq ?_) (le_trans hle (le_of_eq ?_))
    · refine Finset.sum_congr rfl fun t _ => ?_
      obtain ⟨a, b, c⟩ := hrep i
      unfold FEMVARXFitted.error varxForecast
      rw [← varxPrediction_congr (hU.p i) (hU.s i) a b c]
      rfl
    · refine Finset.sum_congr rfl fun t _ => ?_
      rw [varxForecast_eq (hU.p i) (hU.s i)]
      rfl

/-- C68.  After every fit with equal memories that updates the parameters, the reported arrays are
consistent: the reported cost is the sum of the squared errors of the one-step forecasts with the
reported intercepts and matrices, weighted with the reported weights; `t + L` runs over all samples
past the first `L`, the common memory. -/
theorem C68_femvarx_reported_cost (hs : solver.Exact) (hls : lstsq.Exact) (he : lstsq.Ends)
    (hc : obj.Constructed) {L : ℤ} (hL : ∀ a ∈ obj.memory, a = L)
    (hup : args.updateParameters = true) {W : Option (Arr2 ℝ)}
    (h : femVARXFitTransform R solver lstsq mem obj data args = Py.ok (obj', W, info)) :
    ∃ F : FEMVARXFitted obj' args.externalFactors data.rows data.cols, (F.L : ℤ) = L ∧
      W = some (Arr2.of F.G) ∧ obj'.nComponents_ = some F.k ∧
      obj'.cost_ = some (∑ t, ∑ i, F.G t i * F.error data.val t i) := by
  unfold femVARXFitTransform at h
  obtain ⟨⟨o, inf⟩, hrun, h⟩ := Py.bind_eq_ok.1 h
  have hout := Py.ok.inj h
  simp only [Prod.mk.injEq] at hout
  obtain ⟨rfl, rfl, rfl⟩ := hout
  obtain ⟨F, tv, h1, -, h2, -⟩ := varx_fit_reported hs hls he hc hL hup hrun
  refine ⟨⟨F.k, F.L, F.hL, F.G, F.mu, F.A, F.B0, F.components, F.weights_eq, F.mu_eq, F.A_eq,
    F.B0_eq⟩, h1, F.weights_eq, ?_, ?_⟩
  · exact (congrArg (Option.map fun G : Arr2 ℝ => G.cols) F.weights_eq).trans rfl
  · exact (congrArg some h2).trans rfl

/-- C68: with the weights held fixed (or one component), the reported coefficients of each component
have the least weighted squared forecast error of all coefficients. -/
theorem C68_femvarx_fixed_weights (hs : solver.Exact) (hls : lstsq.Exact) (he : lstsq.Ends)
    (hc : obj.Constructed) {L : ℤ} (hL : ∀ a ∈ obj.memory, a = L)
    (hup : args.updateParameters = true)
    (hw : args.updateWeights = false ∨ obj.memory.length = 1)
    (h : femVARXRun R solver lstsq mem obj data args = Py.ok (obj', info)) :
    ∃ F : FEMVARXFitted obj' args.externalFactors data.rows data.cols, (F.L : ℤ) = L ∧
      ∀ (i : Fin F.k) (mu : Fin data.cols → ℝ)
        (A : Fin F.L → Matrix (Fin data.cols) (Fin data.cols) ℝ)
        (B0 : Matrix (Fin data.cols) (Fin (exogCols args.externalFactors)) ℝ),
        ∑ t, F.G t i * F.error data.val t i ≤
        ∑ t : Fin (data.rows - F.L), F.G t i * sqDist (rowSeq data.val (t + F.L))
          (varxForecast data.val args.externalFactors mu A B0 (t + F.L)) := by
  obtain ⟨F, tv, h1, -, -, -, h2⟩ := varx_fit_reported hs hls he hc hL hup h
  have hmem : obj'.memory = obj.memory := by
    obtain ⟨p, hl, start, r, -, -, -, hout⟩ := femVARXRun_eq_ok h
    rw [Prod.ext_iff] at hout
    have hobj : obj' = _ := hout.1
    rw [hobj]
    rfl
  refine ⟨F, h1, h2 ?_⟩
  rcases hw with hw | hw
  · exact Or.inl hw
  · refine Or.inr ?_
    rw [← F.components, hmem, hw]

/-- C69.  After every fit with equal memories that updates parameters and weights of two or more
components, the weights are admissible (rows are probability vectors, the total variation of each
component is within the bound) and no admissible weights have a smaller cost for the reported
coefficients. -/
theorem C69_femvarx_weights (hs : solver.Exact) (hls : lstsq.Exact) (he : lstsq.Ends)
    (hc : obj.Constructed) {L : ℤ} (hL : ∀ a ∈ obj.memory, a = L)
    (hup : args.updateParameters = true) (hw : args.updateWeights = true)
    (hk : 1 < obj.memory.length)
    (h : femVARXRun R solver lstsq mem obj data args = Py.ok (obj', info)) :
    ∃ (F : FEMVARXFitted obj' args.externalFactors data.rows data.cols) (tv : Option ℝ),
      (F.L : ℤ) = L ∧ TvBound obj.maxTvNorm tv ∧ TvAdmissible tv F.G ∧
      ∀ G, TvAdmissible tv G → ∑ t, ∑ i, F.G t i * F.error data.val t i ≤
        ∑ t, ∑ i, G t i * F.error data.val t i := by
  obtain ⟨F, tv, h1, h2, -, h3, -⟩ := varx_fit_reported hs hls he hc hL hup h
  have hmem : obj'.memory = obj.memory := by
    obtain ⟨p, hl, start, r, -, -, -, hout⟩ := femVARXRun_eq_ok h
    rw [Prod.ext_iff] at hout
    have hobj : obj' = _ := hout.1
    rw [hobj]
    rfl
  obtain ⟨h4, h5⟩ := h3 hw (by rw [← F.components, hmem]; exact hk)
  exact ⟨F, tv, h1, h2, h4, h5⟩

/-! ### C70: transform -/

/-- C70.  `transform` uses nothing of the fitted model: objects with the same settings, memory and
generator state give the same outcome, weights and report, whatever was fitted before. -/
theorem C70_transform_ignores_fit {a b : FEMVARXObj R} (h1 : a.nComponents = b.nComponents)
    (h2 : a.maxTvNorm = b.maxTvNorm) (h3 : a.maxIterations = b.maxIterations)
    (h4 : a.tolerance = b.tolerance) (h5 : a.randomState = b.randomState)
    (h6 : a.require = b.require) (h7 : a.memory = b.memory) (data : Arr2 ℝ) :
    PyRel (fun x y => x.2 = y.2 ∧ x.1.mu = y.1.mu ∧ x.1.Gamma = y.1.Gamma)
      (femVARXTransform R solver lstsq mem a data) (femVARXTransform R solver lstsq mem b data) := by
  obtain ⟨a1, a2, a3, a4, a5, a6, a7, a8, a9, a10, a11, a12, a13⟩ := a
  obtain ⟨b1, b2, b3, b4, b5, b6, b7, b8, b9, b10, b11, b12, b13⟩ := b
  simp only at h1 h2 h3 h4 h5 h6 h7
  subst h1 h2 h3 h4 h5 h6 h7
  unfold femVARXTransform femVARXRun
  simp only [Py.bind_assoc]
  refine PyRel.bind_same fun p => ?_
  by_cases hl : p.1 = a3.length
  · rw [dif_pos hl, dif_pos hl]
    simp only [Py.bind_assoc]
    refine PyRel.bind_same fun start => PyRel.bind_same fun r => ?_
    exact PyRel.ok ⟨rfl, rfl, rfl⟩
  · rw [dif_neg hl, dif_neg hl]
    exact rfl

/-- C70: instead it fits one model to the whole of the new data, without weights, for all components
alike.  So its cost is the error of the best single model whatever the weights are, and the intercepts
and matrices of the object are zero afterwards. -/
theorem C70_transform_single_model (hs : solver.Exact) (hls : lstsq.Exact) (he : lstsq.Ends)
    (hc : obj.Constructed) {L : ℤ} (hL : ∀ a ∈ obj.memory, a = L) (hk : 1 < obj.memory.length)
    {W : Option (Arr2 ℝ)}
    (h : femVARXTransform R solver lstsq mem obj data = Py.ok (obj', W, info)) :
    ∃ (L' k : ℕ) (mu : Fin data.cols → ℝ)
      (A : Fin L' → Matrix (Fin data.cols) (Fin data.cols) ℝ), (L' : ℤ) = L ∧
      k = obj.memory.length ∧
      obj'.mu = some (Arr2.of (0 : Matrix (Fin k) (Fin data.cols) ℝ)) ∧
      (0 < L' → obj'.A = some ⟨k, L', data.cols, data.cols, fun _ _ => 0⟩) ∧
      info.cost = ∑ t : Fin (data.rows - L'), sqDist (rowSeq data.val (t + L'))
        (varxForecast data.val none mu A (fun _ e => e.elim0) (t + L')) ∧
      ∀ mu' (A' : Fin L' → Matrix (Fin data.cols) (Fin data.cols) ℝ), info.cost ≤ ∑ t : Fin (data.rows - L'), sqDist (rowSeq data.val (t + L'))
        (varxForecast data.val none mu' A' (fun _ e => e.elim0) (t + L')) := by
  unfold femVARXTransform at h
  obtain ⟨⟨o, inf⟩, hrun, h⟩ := Py.bind_eq_ok.1 h
  have hout := Py.ok.inj h
  simp only [Prod.mk.injEq] at hout
  obtain ⟨rfl, rfl, rfl⟩ := hout
  obtain ⟨p, start, r, tv, gamma, con, hp, hk0, hU, hlt, hLL, hmod, hfit, hmu, hA, hg, htv, hcon, hit,
    hgood, hf, ht, hout⟩ := varx_run_good hs hls he hc hL hrun
  rw [Prod.ext_iff] at hout
  obtain ⟨hobj, hinfo⟩ := hout
  simp only at hobj hinfo
  obtain ⟨hlen, -, -⟩ := varx_setup hc hp
  have hpar : r.1.state.params = start.params :=
    femLoop_params _ solver con obj.require p.2.2 true _ _ _ _ _ _ r.1 hit
  have hB : ∀ B0 : Matrix (Fin data.cols) (Fin (exogCols none)) ℝ, B0 = fun _ e => e.elim0 := by
    intro B0
    funext d e
    exact e.elim0
  have hadm := hgood.adm rfl (by omega)
  have hF : start.params.Fitted := hpar ▸ hgood.inv
  let i0 : Fin p.1 := ⟨0, hk0⟩
  have hpred : ∀ t, varxPrediction (start.params.fits i0).mu (start.params.fits i0).A
      (start.params.fits i0).B (start.params.fits i0).B0 (rowSeq data.val) (exogSeq none) t =
      varxForecast data.val none (start.params.fits i0).mu
        (fun l : Fin start.L => (start.params.fits i0).A ⟨l, lt_of_lt_of_eq l.2 (hU.p i0).symm⟩)
        (fun _ e => e.elim0) t := fun t =>
    varxPrediction_congr (A' := fun l : Fin start.L => (start.params.fits i0).A
      ⟨l, lt_of_lt_of_eq l.2 (hU.p i0).symm⟩) (hU.p i0) (hU.s i0) rfl (fun _ => rfl) (hB _) _ _ t
  have hcost : inf.cost = ∑ t : Fin (data.rows - start.L),
      sqDist (rowSeq data.val (t + start.L)) (varxForecast data.val none (start.params.fits i0).mu
        (fun l => (start.params.fits i0).A ⟨l, lt_of_lt_of_eq l.2 (hU.p i0).symm⟩)
        (fun _ e => e.elim0) (t + start.L)) := by
    have e0 : inf.cost = r.1.cost := by rw [hinfo]; rfl
    rw [e0, hgood.cost, hpar]
    unfold assignmentCost
    refine Finset.sum_congr rfl fun t _ => ?_
    have e1 : ∀ i, (varxComp start.models start.L (data.rows - start.L) lstsq).distance start.params
        t i = varxDistance (data.rows - start.L) start.params t i0 := fun i =>
      varxDistance_start hU (fun i j => Py.ok.inj ((hmod i).symm.trans (hmod j))) hfit t i i0
    have e2 : ∑ i, r.1.state.Gamma t i * (varxComp start.models start.L (data.rows - start.L)
        lstsq).distance start.params t i =
        ∑ i, r.1.state.Gamma t i * varxDistance (data.rows - start.L) start.params t i0 :=
      Finset.sum_congr rfl fun i _ => by rw [e1]
    rw [e2, ← Finset.sum_mul, (hadm.1 t).2, one_mul, hU.distance_prediction hmod _ hF t i0]
    exact congrArg (sqDist _) (hpred _)
  refine ⟨start.L, p.1, (start.params.fits i0).mu,
    fun l => (start.params.fits i0).A ⟨l, lt_of_lt_of_eq l.2 (hU.p i0).symm⟩, hLL, hlen, ?_, ?_,
    hcost, fun mu' A' => ?_⟩
  · rw [hobj]
    change some (Arr2.of r.1.state.params.mu) = _
    rw [hpar, hmu]
    rfl
  · intro h0
    rw [hobj]
    refine (if_pos h0).trans ?_
    rw [hpar, hA]
    rfl
  · rw [hcost]
    have hle := C54_varx_plain_fit_least (n := data.rows) hls (hmod i0) (hfit i0) mu'
      (fun l => A' ⟨l, lt_of_lt_of_eq l.2 (hU.p i0)⟩) (fun _ => 0) (fun _ e => e.elim0)
    rw [weightedError_shift, weightedError_shift] at hle
    have hmax : max (start.models i0).p (start.models i0).s = start.L := hU.presample i0
    rw [hmax] at hle
    simp only [one_mul] at hle
    refine le_trans (le_of_eq ?_) (le_trans hle (le_of_eq ?_))
    · exact Finset.sum_congr rfl fun t _ => congrArg (sqDist _) (hpred _).symm
    · exact Finset.sum_congr rfl fun t _ => congrArg (sqDist _) (varxForecast_eq (u := none)
        (m := start.models i0) (hU.p i0) (hU.s i0) mu' A' (fun _ e => e.elim0) _).symm

/-- C70: the weights that `transform` returns are not determined by the data: if it returns with some
solver, then for all admissible weights there is an exact solver with which it returns these. -/
theorem C70_transform_undetermined (hls : lstsq.Exact) (he : lstsq.Ends)
    (hc : obj.Constructed) {L : ℤ} (hL : ∀ a ∈ obj.memory, a = L) (hk : 1 < obj.memory.length)
    {r0 : FEMVARXObj R × Option (Arr2 ℝ) × FEMInfo ℝ}
    (h : femVARXTransform R solver lstsq mem obj data = Py.ok r0) :
    ∃ (L' k : ℕ) (tv : Option ℝ), (L' : ℤ) = L ∧ k = obj.memory.length ∧
      TvBound obj.maxTvNorm tv ∧
      ∀ G : Matrix (Fin (data.rows - L')) (Fin k) ℝ, TvAdmissible tv G →
        ∃ (solver' : LPSolver ℝ) (obj' : FEMVARXObj R) (info' : FEMInfo ℝ), solver'.Exact ∧
          femVARXTransform R solver' lstsq mem obj data =
            Py.ok (obj', some (Arr2.of G), info') := by
  unfold femVARXTransform at h
  obtain ⟨⟨o, inf⟩, hrun, h⟩ := Py.bind_eq_ok.1 h
  obtain ⟨p, hl, start, r, hp, hst, hr, -⟩ := femVARXRun_eq_ok hrun
  obtain ⟨-, hk0, hm⟩ := varx_setup hc hp
  have hk1 : 1 < p.1 := by omega
  have hst' := hst
  rw [varx_equal_max (varx_memory_ne hl hk0) hL] at hst'
  obtain ⟨hU, hF, hlt, hLL, hD, hmod⟩ := varxInit_uniform hst' hk0 fun i => hL _ (List.get_mem _ _)
  obtain ⟨-, -, hfit, -⟩ := varxInit_eq_ok hst'
  obtain ⟨gamma, tv, con, hg, htv, hcon, -, -⟩ := femVARXIterate_eq_ok hr
  refine ⟨start.L, p.1, tv, hLL, hl, tvBound_of_ok htv, fun G hG => ?_⟩
  have hmin := leastExist_real (maxTvConstraint_nonneg htv) (data.rows - start.L) p.1
  obtain ⟨cc, rfl, hcc⟩ := femConstraints_for hcon hk1
  let s0 : FEMState (VARXParams start.models start.L) (data.rows - start.L) p.1 ℝ :=
    ⟨gamma.1, start.params, varxDistance (data.rows - start.L) start.params⟩
  obtain ⟨-, h2, h3⟩ := femIterate_good (hU.lawful hls he) hk0 (preferringSolver_exact G)
    (femConstraints_for hcon) hmin obj.require p.2.2 false true hm s0 hF
  cases hit : femIterate (varxComp start.models start.L (data.rows - start.L) lstsq)
      (preferringSolver G) (e := auxParameters tv p.1 (data.rows - start.L)) (some cc) obj.require
      p.2.2 p.2.1 false true s0 with
  | diverge => exact absurd hit h3
  | raise e => exact absurd (h2 e hit).2 (by simp)
  | ok r' =>
    have hfav : r'.state.Gamma = G := by
      refine femIterate_favourite hk1 hcc hmin hm hG (fun G' hG' => ?_) hit
      have hcol : ∀ H : Matrix (Fin (data.rows - start.L)) (Fin p.1) ℝ, TvAdmissible tv H →
          assignmentCost H ((varxComp start.models start.L (data.rows - start.L) lstsq).distance
            s0.params) = ∑ t, varxDistance (data.rows - start.L) start.params t ⟨0, hk0⟩ := by
        intro H hH
        unfold assignmentCost
        refine Finset.sum_congr rfl fun t _ => ?_
        refine Eq.trans (Finset.sum_congr rfl fun i _ => congrArg (fun x => H t i * x)
          (varxDistance_start hU (fun i j => Py.ok.inj ((hmod i).symm.trans (hmod j))) hfit t i
            ⟨0, hk0⟩)) ?_
        rw [← Finset.sum_mul, (hH.1 t).2, one_mul]
      rw [hcol G hG, hcol G' hG']
    have hrun' := femVARXRun_of (solver := preferringSolver G) hl hp hst
      (femVARXIterate_of (solver := preferringSolver G) hg htv hcon hit)
    refine ⟨preferringSolver G,
      (femVARXFinish obj data { updateParameters := false } p start (r', gamma.2)).1,
      (femVARXFinish obj data { updateParameters := false } p start (r', gamma.2)).2,
      preferringSolver_exact G, ?_⟩
    unfold femVARXTransform
    rw [hrun', Py.ok_bind]
    refine congrArg Py.ok ?_
    refine congrArg (Prod.mk _) (congrArg (fun x => (x, _)) ?_)
    change some (Arr2.of r'.state.Gamma) = _
    rw [hfav]

/-! ### C71: arguments without effect -/

/-- C71.  The argument `parameters` of `fit_transform` has no effect, whatever `init` is; neither do
`weights` unless `init='custom'`. -/
theorem C71_femvarx_parameters_ignored (P W : Option (Arr2 ℝ)) :
    femVARXFitTransform R solver lstsq mem obj data { args with parameters := P } =
      femVARXFitTransform R solver lstsq mem obj data args ∧
    (args.init ≠ some "custom" →
      femVARXFitTransform R solver lstsq mem obj data { args with parameters := P, weights := W } =
      femVARXFitTransform R solver lstsq mem obj data args) := by
  refine ⟨rfl, fun hi => ?_⟩
  have e2 : ∀ T k g, femInitWeights R T k W args.init g =
      femInitWeights R T k args.weights args.init g := by
    intro T k g
    unfold femInitWeights
    rw [if_neg hi, if_neg hi]
  unfold femVARXFitTransform femVARXRun femVARXIterate
  simp only [e2]

/-- C71: the constructor accepts a list of memories without looking at the signs, but with a negative
memory every fit and transform raises ValueError. -/
theorem C71_negative_memory (hc : obj.Constructed) {a : ℤ} (ha : a ∈ obj.memory) (h0 : a < 0) :
    femVARXFitTransform R solver lstsq mem obj data args = Py.raise .valueError ∧
    femVARXTransform R solver lstsq mem obj data = Py.raise .valueError := by
  have key : ∀ args, femVARXRun R solver lstsq mem obj data args = Py.raise .valueError := by
    intro args
    by_cases hv : ValidParams (defaultComponents obj.nComponents data.cols) obj.maxIterations
        obj.tolerance
    · obtain ⟨p, hp, -⟩ := checkParams_valid hv
      obtain ⟨hl, hk, -⟩ := varx_setup hc hp
      refine femVARXRun_raise_init hp hl ?_
      obtain ⟨i, hi⟩ := List.get_of_mem ha
      refine varxInit_no_model (Fin.cast hl.symm i) fun m hm => ?_
      have hm' := (varxInit_model (k := p.1) (L := maxMemory obj.memory)
          (memory := fun i => obj.memory.get (Fin.cast hl i)) hm).2.1
      have hi' : obj.memory.get (Fin.cast hl (Fin.cast hl.symm i)) = a := hi
      rw [hi'] at hm'
      omega
    · unfold femVARXRun
      simp only [checkParams_invalid hv, Py.raise_bind]
  exact ⟨femVARXFitTransform_raise (key args), femVARXTransform_raise (key _)⟩

/-- C71: such lists are accepted: the constructor only compares the length with the number of
components. -/
theorem C71_negative_memory_constructed (l : List ℤ) :
    varxMemory (.int l.length) (.list l) = Py.ok l := by
  unfold varxMemory memoryShape
  simp

/-! ### C22, C24 -/

/-- C22.  The reported number of iterations is below the maximum, and the warning is never issued. -/
theorem C22_femvarx_no_warning
    (h : femVARXRun R solver lstsq mem obj data args = Py.ok (obj', info)) :
    info.warned = false ∧ ∃ m : ℕ, obj.maxIterations = .int m ∧ info.nIter < m := by
  obtain ⟨p, hl, start, r, hp, -, hr, hout⟩ := femVARXRun_eq_ok h
  obtain ⟨gamma, tv, con, -, -, -, hit, -⟩ := femVARXIterate_eq_ok hr
  rw [Prod.ext_iff] at hout
  have hinfo : info = _ := hout.2
  have := femIterate_nIter hit
  rw [hinfo]
  refine ⟨?_, p.2.1, (checkParams_ok hp).2.2.1, this⟩
  change decide (r.1.nIter = p.2.1 ∧ p.2.2 > 0) = false
  simp only [decide_eq_false_iff_not, not_and]
  intro h
  omega

/-- C24.  With an invalid configuration every fit and transform raises ValueError. -/
theorem C24_femvarx_invalid_rejected
    (hv : ¬ ValidConfig obj.nComponents data.cols obj.maxIterations obj.tolerance) :
    femVARXFitTransform R solver lstsq mem obj data args = Py.raise .valueError ∧
    femVARXTransform R solver lstsq mem obj data = Py.raise .valueError := by
  rw [validConfig_iff] at hv
  have key : ∀ args, femVARXRun R solver lstsq mem obj data args = Py.raise .valueError := by
    intro args
    unfold femVARXRun
    simp only [checkParams_invalid hv, Py.raise_bind]
  exact ⟨femVARXFitTransform_raise (key args), femVARXTransform_raise (key _)⟩

theorem varxUpdate_ne_valueError {k D E L T : ℕ} {models : Fin k → VARXModel D E}
    (h : VARXUniform mem models L T) (hlv : ¬ lstsq.Raised .valueError)
    (G : Matrix (Fin T) (Fin k) ℝ) (p : VARXParams models L) :
    varxUpdate lstsq G p ≠ Py.raise .valueError := by
  intro hr
  unfold varxUpdate at hr
  rcases Py.bind_eq_raise.1 hr with hr | ⟨_, -, hr⟩
  · obtain ⟨i, hi⟩ := pyPi_raise hr
    rw [sigma_eq _ (h.weights G i)] at hi
    unfold VARXModel.fit at hi
    simp only [dite_true] at hi
    rcases fitWeighted_raise hi with h | h | h
    · simp at h
    · simp at h
    · exact hlv h
  · simp at hr

/-- C55.  Equal memories are accepted: with a valid configuration, data that are not empty and longer
than the memory, external factors (if any) of the same length and a random start, a fit never raises
ValueError, if the library routines do not. -/
theorem C55_equal_memories_accepted (hs : ∀ lp, solver lp ≠ .error .valueError)
    (hlv : ¬ lstsq.Raised .valueError) (hc : obj.Constructed)
    (hv : ValidConfig obj.nComponents data.cols obj.maxIterations obj.tolerance) {L : ℕ}
    (hL : ∀ a ∈ obj.memory, a = L) (hn : L < data.rows) (hD : 0 < data.cols)
    (hu : ∀ v, args.externalFactors = some v → v.rows = data.rows ∧ 0 < v.cols)
    (hi : args.init ≠ some "custom") :
    femVARXFitTransform R solver lstsq mem obj data args ≠ Py.raise .valueError := by
  intro h
  unfold femVARXFitTransform at h
  rcases Py.bind_eq_raise.1 h with h | ⟨_, _, h⟩
  swap
  · simp at h
  rw [validConfig_iff] at hv
  obtain ⟨p, hp, -⟩ := checkParams_valid hv
  obtain ⟨hl, hk, hm⟩ := varx_setup hc hp
  have hmax := varx_equal_max (varx_memory_ne hl hk) hL
  unfold femVARXRun at h
  simp only [hp, Py.ok_bind] at h
  rw [dif_pos hl, hmax] at h
  rcases Py.bind_eq_raise.1 h with h | ⟨start, hst, h⟩
  · rcases varxInit_raise_cases h with h' | ⟨i, m, -, h'⟩
    · unfold varxInit at h
      have h1 : varxCheckExog data.rows args.externalFactors = Py.ok () := by
        cases he : args.externalFactors with
        | none => rfl
        | some v =>
          obtain ⟨a, b⟩ := hu v he
          unfold varxCheckExog checkArray
          simp only
          rw [if_neg (by omega), Py.ok_bind, if_pos a]
      have h2 : ∃ models, varxModels mem data.val (fun i : Fin p.1 => obj.memory.get (Fin.cast hl i))
          L args.externalFactors = Py.ok models := by
        have : ∀ i : Fin p.1, ∃ m, varxModel mem (dropRows data.val
            ((L : ℤ) - obj.memory.get (Fin.cast hl i)).toNat)
            (.int (obj.memory.get (Fin.cast hl i))) args.externalFactors (.int 0) = Py.ok m := by
          intro i
          have e := hL _ (List.get_mem obj.memory (Fin.cast hl i))
          rw [e]
          refine varxModel_succeeds (by omega) hD (by omega) fun v hv => ?_
          obtain ⟨a, b⟩ := hu v hv
          exact ⟨by omega, b⟩
        choose m hm using this
        exact ⟨m, pyPi_eq_ok.2 hm⟩
      obtain ⟨models, hmod⟩ := h2
      rw [h1, Py.ok_bind, hmod, Py.ok_bind] at h
      rcases Py.bind_eq_raise.1 h with h | ⟨fits, -, h⟩
      · obtain ⟨i, hi⟩ := pyPi_raise h
        rcases fitPlain_raise hi with h | h
        · simp at h
        · exact hlv h
      rcases Py.bind_eq_raise.1 h with h | ⟨_, -, h⟩
      · unfold varxCheckShapes at h
        rw [if_pos] at h
        · simp at h
        · intro i
          left
          have := (varxInit_model (k := p.1) (L := (L : ℤ))
            (memory := fun i => obj.memory.get (Fin.cast hl i)) (pyPi_eq_ok.1 hmod i)).1
          rw [this, hL _ (List.get_mem obj.memory (Fin.cast hl i))]
          simp
      · simp at h
    · rcases fitPlain_raise h' with h | h
      · simp at h
      · exact hlv h
  · obtain ⟨hU, hF, hlt, -⟩ := varxInit_uniform hst hk fun i => hL _ (List.get_mem _ _)
    rcases Py.bind_eq_raise.1 h with h | ⟨_, -, h⟩
    · unfold femVARXIterate at h
      rcases Py.bind_eq_raise.1 h with h | ⟨gamma, -, h⟩
      · unfold femInitWeights at h
        rw [if_neg hi] at h
        have := rightStochastic_raise h
        simp at this
      rcases Py.bind_eq_raise.1 h with h | ⟨tv, htv, h⟩
      · cases hm : obj.maxTvNorm with
        | other => rw [hm] at h; simp [maxTvConstraint] at h
        | _ =>
          obtain ⟨tv, htv⟩ := maxTvConstraint_number (m := obj.maxTvNorm) (by simp [hm])
          rw [htv] at h
          simp at h
      rcases Py.bind_eq_raise.1 h with h | ⟨con, hcon, h⟩
      · by_cases h1 : 1 < p.1
        · obtain ⟨c, hc, -⟩ := femConstraints_encodes (T := data.rows - start.L) tv h1 (by omega)
          rw [hc] at h
          simp at h
        · unfold femConstraints at h
          rw [if_neg h1] at h
          simp at h
      rcases Py.bind_eq_raise.1 h with h | ⟨_, -, h⟩
      · exact femLoop_ne_valueError
          (comp := varxComp start.models start.L (data.rows - start.L) lstsq)
          (fun G p => varxUpdate_ne_valueError hU hlv G p) hs _ _ _ _ _ _ h
      · simp at h
    · simp at h

end Equal

/-! ### An example

Two components of memory 1, the series and the external factors of the example in `Props.VARX`, and
given weights. -/

section Demo

/-- One feature that no coefficients predict exactly: fits without weights and with positive weights
return. -/
theorem varx_fit_succeeds (htot : ∀ m n r a b, ∃ x, lstsq m n r a b = Py.ok x) {E : ℕ}
    {m : VARXModel 1 E} (hres : ∀ params, ∃ t, m.tailResiduals params t 0 ≠ 0) :
    (∃ f, m.fit lstsq none = Py.ok f) ∧
    ∀ w : Σ l : ℕ, Fin l → ℝ, w.1 = m.n → (∀ t, 0 < w.2 t) →
      ∃ f, m.fit lstsq (some w) = Py.ok f := by
  constructor
  · obtain ⟨params, hp⟩ := htot _ _ _ m.z m.target
    obtain ⟨t, ht⟩ := hres params
    obtain ⟨S, hS⟩ := npInv_covariance (m.tailResiduals params)
      ((m.n : ℝ) - m.presample - m.p * (1 : ℕ) - 1 - E * (1 + m.s)) t ht
    change ∃ f, m.fitPlain lstsq = Py.ok f
    unfold VARXModel.fitPlain VARXModel.finish
    rw [hp, Py.ok_bind]
    simp only [hS, Py.ok_bind]
    exact ⟨_, rfl⟩
  · intro w hw hpos
    obtain ⟨l, w⟩ := w
    simp only at hw
    subst hw
    have hw : ∀ t, 0 < m.tailWeights w t := fun t => hpos _
    unfold VARXModel.fit
    simp only [dite_true]
    change ∃ f, m.fitWeighted lstsq w = Py.ok f
    unfold VARXModel.fitWeighted
    rw [if_neg (fun ⟨t, ht⟩ => absurd ht (not_lt.2 (hw t).le))]
    obtain ⟨params, hp⟩ := htot _ _ _ (scaleRows (fun t => Real.sqrt (m.tailWeights w t)) m.z)
      (scaleRows (fun t => Real.sqrt (m.tailWeights w t)) m.target)
    obtain ⟨t, ht⟩ := hres params
    obtain ⟨S, hS⟩ := npInv_covariance
      (scaleRows (fun t => Real.sqrt (m.tailWeights w t)) (m.tailResiduals params))
      (∑ t, m.tailWeights w t - 1) t (mul_ne_zero (Real.sqrt_pos.2 (hw t)).ne' ht)
    unfold VARXModel.finish
    simp only [hp, Py.ok_bind, hS]
    exact ⟨_, rfl⟩

/-- A single iteration returns if the parameter update does. -/
theorem femIterate_once {P : Type} {T k : ℕ} {tv : Option ℝ} {comp : FEMComp P T k ℝ}
    (hk : 0 < k) (hs : solver.Exact)
    {con : Option (FEMConstraints (k * T + auxParameters tv k T) ℝ)}
    (hcon : ConstraintsFor tv T k con) (hmin : LeastExist tv T k) (require : Bool) (tol : ℝ)
    (up : Bool) (s : FEMState P T k ℝ) (hu : ∃ p, comp.update s.Gamma s.params = Py.ok p) :
    ∃ r, femIterate comp solver con require tol 1 up true s = Py.ok r := by
  obtain ⟨p, hp⟩ := hu
  unfold femIterate
  simp only [FEMState.evaluateCost, FEMState.evaluateDistance]
  have hstep : ∀ c, ∃ q, femStep comp solver con require tol up true 0
      ⟨s.Gamma, s.params, comp.distance s.params⟩ c = Py.ok q := by
    intro c
    cases up with
    | false =>
      obtain ⟨G, hG, he⟩ := femWeightsPhase_eq hk comp hs hcon hmin require tol 0
        ⟨s.Gamma, s.params, comp.distance s.params⟩ c
      rw [femCheck_zero, Py.ok_bind] at he
      exact ⟨_, he⟩
    | true =>
      have h1 : femParametersPhase comp require tol 0
          ⟨s.Gamma, s.params, comp.distance s.params⟩ c =
          Py.ok (⟨s.Gamma, p, comp.distance p⟩, assignmentCost s.Gamma (comp.distance p)) := by
        rw [femParametersPhase_eq]
        simp only [hp, Py.ok_bind, femCheck_zero]
      obtain ⟨G, hG, he⟩ := femWeightsPhase_eq hk comp hs hcon hmin require tol 0
        ⟨s.Gamma, p, comp.distance p⟩ (assignmentCost s.Gamma (comp.distance p))
      rw [femCheck_zero, Py.ok_bind] at he
      suffices h : femStep comp solver con require tol true true 0
          ⟨s.Gamma, s.params, comp.distance s.params⟩ c =
          femWeightsPhase comp solver con require tol 0 ⟨s.Gamma, p, comp.distance p⟩
            (assignmentCost s.Gamma (comp.distance p)) from
        ⟨_, h.trans he⟩
      unfold femStep
      simp only [h1, Py.ok_bind]
      rfl
  obtain ⟨q, hq⟩ := hstep (mulSum s.Gamma (comp.distance s.params))
  rw [show List.range 1 = [0] from rfl, femLoop_cons, hq, Py.ok_bind]
  split
  · exact ⟨_, rfl⟩
  · exact ⟨_, rfl⟩

/-- The object of the example: at most total variation 1 per component, one iteration. -/
noncomputable def demoVARX : FEMVARXObj demoRngReal where
  nComponents := .int 2
  maxTvNorm := .real 1
  memory := [1, 1]
  maxIterations := .int 1
  tolerance := .real (1 / 100)
  randomState := (0 : ℕ)
  require := true

theorem demoVARX_constructed : demoVARX.Constructed :=
  ⟨.list [1, 1], C71_negative_memory_constructed [1, 1]⟩

theorem demoVARX_memory : ∀ a ∈ demoVARX.memory, a = (1 : ℤ) := by
  intro a ha
  simpa [demoVARX] using ha

/-- Weights 1/3 and 2/3 of the two components. -/
noncomputable def demoVARXWeights : Matrix (Fin 3) (Fin 2) ℝ := fun _ i => if i = 0 then 1 / 3 else 2 / 3

noncomputable def demoVARXArgs (up : Bool) : FEMVARXArgs where
  weights := some (Arr2.of demoVARXWeights)
  init := some "custom"
  updateParameters := up
  externalFactors := some (Arr2.of varxDemoU)

/-- The initialisation returns if the models are constructed, fit, and have residuals of the right
length. -/
theorem varxInit_of {n D k : ℕ} {data : Matrix (Fin n) (Fin D) ℝ} {mems : Fin k → ℤ} {maxMem : ℤ}
    {ext : Option (Arr2 ℝ)} {models : Fin k → VARXModel D (exogCols ext)}
    {fits : (i : Fin k) → VARXFit (models i)}
    (h1 : varxCheckExog n ext = Py.ok ()) (h2 : varxModels mem data mems maxMem ext = Py.ok models)
    (h3 : ∀ i, (models i).fit lstsq none = Py.ok (fits i))
    (h4 : varxCheckShapes models maxMem.toNat (n - maxMem.toNat) = Py.ok ()) :
    ∃ start, varxInit mem lstsq data mems maxMem ext = Py.ok start ∧ start.models = models ∧
      start.L = maxMem.toNat := by
  unfold varxInit
  rw [h1, Py.ok_bind, h2, Py.ok_bind, pyPi_eq_ok.2 h3, Py.ok_bind, h4, Py.ok_bind]
  exact ⟨_, rfl, rfl, rfl⟩

/-- A fit with one iteration returns if no local model can predict its data exactly and the initial
weights are positive. -/
theorem varx_run_once (hs : solver.Exact) (htot : ∀ m n r a b, ∃ x, lstsq m n r a b = Py.ok x)
    {obj : FEMVARXObj R} {args : FEMVARXArgs} {n k L : ℕ} {X : Matrix (Fin n) (Fin 1) ℝ} {tol : ℝ}
    (hk : 1 < k) (hLn : L < n)
    (hparams : checkParams (defaultComponents obj.nComponents 1) obj.maxIterations obj.tolerance =
      Py.ok (k, 1, tol)) {tv : Option ℝ} (htv : maxTvConstraint obj.maxTvNorm = Py.ok tv)
    (hlen : k = obj.memory.length) (hmax : maxMemory obj.memory = L)
    {models : Fin k → VARXModel 1 (exogCols args.externalFactors)}
    (hchk : varxCheckExog n args.externalFactors = Py.ok ())
    (hmod : varxModels mem X (fun i : Fin k => obj.memory.get (Fin.cast hlen i)) L
      args.externalFactors = Py.ok models)
    (hshape : varxCheckShapes models L (n - L) = Py.ok ())
    (hn : ∀ i, n - L + (models i).p = (models i).n)
    (hres : ∀ i params, ∃ t, (models i).tailResiduals params t 0 ≠ 0)
    (huw : args.updateWeights = true) {gamma : Matrix (Fin (n - L)) (Fin k) ℝ × R.G}
    (hg : femInitWeights R (n - L) k args.weights args.init obj.randomState = Py.ok gamma)
    (hpos : ∀ t i, 0 < gamma.1 t i) :
    ∃ r, femVARXRun R solver lstsq mem obj (Arr2.of X) args = Py.ok r := by
  have hfits : ∀ i, ∃ f, (models i).fit lstsq none = Py.ok f := fun i =>
    (varx_fit_succeeds (lstsq := lstsq) htot (hres i)).1
  choose f hf using hfits
  obtain ⟨start, h1, h2, h3⟩ := varxInit_of (mem := mem) (lstsq := lstsq) (maxMem := L)
    (fits := f) hchk hmod hf hshape
  obtain ⟨L', models', params⟩ := start
  simp only at h2 h3
  subst h2
  have h3 : L' = L := h3
  subst h3
  obtain ⟨con, hcon, -⟩ := femConstraints_ok (K := ℝ) tv (k := k) (T := n - L') hk (by omega)
  have hu : ∃ p, (varxComp models' L' (n - L') lstsq).update gamma.1 params = Py.ok p := by
    change ∃ p, varxUpdate lstsq gamma.1 params = Py.ok p
    have hfw : ∀ i, ∃ f', (models' i).fit lstsq (some (varxWeights gamma.1 i (models' i).p)) =
        Py.ok f' := by
      intro i
      refine (varx_fit_succeeds (lstsq := lstsq) htot (hres i)).2 _ (hn i) fun t => ?_
      unfold varxWeights
      simp only
      split_ifs
      · exact hpos _ _
      · exact one_pos
    choose f' hf' using hfw
    unfold varxUpdate
    rw [pyPi_eq_ok.2 hf', Py.ok_bind]
    exact ⟨_, rfl⟩
  obtain ⟨r, hr⟩ := femIterate_once (comp := varxComp models' L' (n - L') lstsq)
    (by omega) hs (femConstraints_for hcon)
    (leastExist_real (maxTvConstraint_nonneg htv) _ _) obj.require tol
    args.updateParameters ⟨gamma.1, params, varxDistance (n - L') params⟩ hu
  rw [← huw] at hr
  have hst : varxInit mem lstsq (Arr2.of X).val
      (fun i : Fin k => obj.memory.get (Fin.cast hlen i)) (maxMemory obj.memory)
      args.externalFactors = Py.ok ⟨L', models', params⟩ := by
    rw [hmax]
    exact h1
  exact ⟨_, femVARXRun_of (obj := obj) (data := Arr2.of X) (args := args) hlen hparams hst
    (femVARXIterate_of (n := n) (start := ⟨L', models', params⟩) hg htv hcon hr)⟩

theorem demoVARX_params : checkParams (defaultComponents demoVARX.nComponents 1)
    demoVARX.maxIterations demoVARX.tolerance = Py.ok ((2, 1, 1 / 100) : ℕ × ℕ × ℝ) := by
  simp [demoVARX, defaultComponents, checkParams]

theorem demoVARX_tv : maxTvConstraint demoVARX.maxTvNorm = Py.ok (some (1 : ℝ)) := by
  simp [demoVARX, maxTvConstraint]

theorem demoVARX_mems (hlen : 2 = demoVARX.memory.length) :
    (fun i : Fin 2 => demoVARX.memory.get (Fin.cast hlen i)) = fun _ => (1 : ℤ) :=
  funext fun _ => demoVARX_memory _ (List.get_mem _ _)

theorem demoVARX_max : maxMemory demoVARX.memory = (1 : ℕ) :=
  varx_equal_max (by simp [demoVARX]) demoVARX_memory

/-- The given weights of the example are accepted. -/
theorem demoVARX_weights : femInitWeights demoRngReal 3 2 (some (Arr2.of demoVARXWeights))
    (some "custom") demoVARX.randomState = Py.ok (demoVARXWeights, demoVARX.randomState) := by
  have h : checkUnitRowSums (demoVARXWeights : Matrix (Fin 3) (Fin 2) ℝ) = Py.ok () := by
    refine if_pos fun t => ?_
    have : ∑ j, demoVARXWeights t j = 1 := by
      rw [Fin.sum_univ_two]
      norm_num [demoVARXWeights]
    rw [iscloseOne, this]
    norm_num
  have h' : femCheckInitWeights (Arr2.of demoVARXWeights) 3 2 = Py.ok demoVARXWeights := by
    unfold femCheckInitWeights
    rw [show checkArray (some (Arr2.of demoVARXWeights)) = Py.ok (Arr2.of demoVARXWeights) from rfl,
      Py.ok_bind, show checkArrayShape (Arr2.of demoVARXWeights) 3 2 = Py.ok demoVARXWeights from rfl,
      Py.ok_bind, h]
    rfl
  unfold femInitWeights
  rw [if_pos rfl]
  simp only [h', Py.ok_bind]
  rfl

/-- The fit of the example returns. -/
theorem demoVARX_fit (hs : solver.Exact) (htot : ∀ m n r a b, ∃ x, lstsq m n r a b = Py.ok x)
    (up : Bool) : ∃ r, femVARXRun demoRngReal solver lstsq mem demoVARX (Arr2.of varxDemo)
      (demoVARXArgs up) = Py.ok r := by
  refine varx_run_once (L := 1) (models := fun _ => varxDemoModel mem) hs htot (by norm_num)
    (by norm_num) demoVARX_params demoVARX_tv rfl demoVARX_max rfl ?_ (if_pos fun i => Or.inl rfl)
    (fun _ => rfl) (fun _ => varxDemo_residual mem) rfl demoVARX_weights ?_
  · refine (congrArg (fun q => varxModels mem varxDemo q 1 (demoVARXArgs up).externalFactors)
      (demoVARX_mems rfl)).trans ?_
    exact pyPi_eq_ok.2 fun i => varxDemo_model mem
  · intro t i
    simp only [demoVARXWeights]
    split_ifs <;> norm_num

/-- A series of one feature with a jump that the presample does not show. -/
theorem jump_residual {m : VARXModel 1 0} (hmade : m.Made mem) (hs : m.s = 0)
    (hpn : m.p + 1 < m.n) (hsame : ∀ i : Fin m.n, (i : ℕ) < m.p + 1 → m.y i 0 = 0)
    (hjump : m.y ⟨m.p + 1, hpn⟩ 0 ≠ 0) (params : Matrix (Fin m.nCols) (Fin 1) ℝ) :
    ∃ t, m.tailResiduals params t 0 ≠ 0 := by
  by_contra hc
  push Not at hc
  have hpre : m.presample = m.p := by
    unfold VARXModel.presample
    omega
  have key : ∀ j (hj : j < 2), m.residuals params ⟨m.p + j, by omega⟩ 0 = 0 := by
    intro j hj
    have := hc ⟨j, by omega⟩
    unfold VARXModel.tailResiduals lagRows at this
    simpa [hpre, Nat.add_comm] using this
  have e : ∀ j < 2, varxPrediction (m.readMu params) (m.readA params) (m.readB params)
      (m.readB0 params) (rowSeq m.y) (rowSeq m.u) (m.p + j) 0 = m.readMu params 0 := by
    intro j hj
    unfold varxPrediction
    have ha : ∑ i : Fin m.p, ∑ b, m.readA params i 0 b * rowSeq m.y (m.p + j - (i + 1)) b = 0 := by
      refine Finset.sum_eq_zero fun i _ => Finset.sum_eq_zero fun b _ => ?_
      have hi := i.2
      have hy : rowSeq m.y (m.p + j - (i + 1)) b = 0 := by
        unfold rowSeq
        rw [dif_pos (by omega), Subsingleton.elim b 0]
        exact hsame _ (by simp only; omega)
      rw [hy, mul_zero]
    have hb : ∑ i : Fin m.s, ∑ b, m.readB params i 0 b * rowSeq m.u (m.p + j - (i + 1)) b = 0 :=
      Finset.sum_eq_zero fun i _ => (Nat.not_lt_zero _ (lt_of_lt_of_eq i.2 hs)).elim
    have hb0 : ∑ b, m.readB0 params 0 b * rowSeq m.u (m.p + j) b = 0 :=
      Finset.sum_eq_zero fun b _ => b.elim0
    rw [ha, hb, hb0]
    ring
  have k0 := key 0 (by norm_num)
  have k1 := key 1 (by norm_num)
  rw [residuals_eq hmade params _ (by rw [hpre]; simp), e _ (by norm_num)] at k0 k1
  rw [hsame _ (by simp)] at k0
  exact hjump (by linarith)

/-- Random weights of the example are positive. -/
theorem demo_random_weights (T k : ℕ) (hk : 1 ≤ k) (g : ℕ) : ∃ gamma,
    femInitWeights demoRngReal T k none none g = Py.ok gamma ∧ ∀ t i, 0 < gamma.1 t i := by
  have hpos : ∀ (m n : ℕ) (g : demoRngReal.G) i j, 0 < (demoRngReal.uniform m n g).1 i j := by
    intro m n g i j
    exact Nat.cast_pos.2 (Nat.succ_pos _)
  obtain ⟨r, hr⟩ := rightStochastic_succeeds (R := demoRngReal) hpos (m := T) hk g
  refine ⟨r, hr, fun t i => ?_⟩
  unfold rightStochasticMatrix at hr
  simp only at hr
  split_ifs at hr with h
  rw [← Py.ok.inj hr]
  exact div_pos (hpos _ _ _ _ _) (Finset.sum_pos (fun j _ => hpos _ _ _ _ _) ⟨i, Finset.mem_univ _⟩)

/-- The model of the example without the external factors. -/
noncomputable def varxDemoModel0 (mem : Memory) : VARXModel 1 (exogCols none) :=
  ⟨4, 1, 0, varxDemo, fun _ e => e.elim0, varxRegressors (E := 0) mem 1 0 varxDemo fun _ e => e.elim0⟩

theorem varxDemo_model0 (mem : Memory) :
    varxModel mem varxDemo (.int 1) none (.int 0) = Py.ok (varxDemoModel0 mem) := rfl

/-- `transform` of the example returns. -/
theorem demoVARX_transform (hs : solver.Exact)
    (htot : ∀ m n r a b, ∃ x, lstsq m n r a b = Py.ok x) :
    ∃ r, femVARXTransform demoRngReal solver lstsq mem demoVARX (Arr2.of varxDemo) = Py.ok r := by
  obtain ⟨gamma, hg, hpos⟩ := demo_random_weights 3 2 (by norm_num) demoVARX.randomState
  have h : ∃ r, femVARXRun demoRngReal solver lstsq mem demoVARX (Arr2.of varxDemo)
      { updateParameters := false, updateWeights := true } = Py.ok r := by
    refine varx_run_once (L := 1) (models := fun _ => varxDemoModel0 mem) hs htot (by norm_num)
      (by norm_num) demoVARX_params demoVARX_tv rfl demoVARX_max rfl ?_ (if_pos fun i => Or.inl rfl)
      (fun _ => rfl) (fun _ params => ?_) rfl hg hpos
    · refine (congrArg (fun q => varxModels mem varxDemo q 1 none) (demoVARX_mems rfl)).trans ?_
      exact pyPi_eq_ok.2 fun i => varxDemo_model0 mem
    · refine jump_residual (m := varxDemoModel0 mem) (VARXModel.made_of (varxDemo_model0 mem)) rfl
        (by decide : 1 + 1 < 4) (fun i hi => ?_) ?_ params
      rotate_left
      · change varxDemo 2 0 ≠ 0
        simp [varxDemo]
      obtain ⟨i, hi4⟩ := i
      have hi : i < 2 := hi
      interval_cases i
      · rfl
      · rfl
  obtain ⟨r, hr⟩ := h
  exact ⟨(r.1, r.1.Gamma, r.2), by unfold femVARXTransform; rw [hr]; rfl⟩

/-- An exact solver and a least-squares routine that always returns minimisers. -/
theorem exists_exact_tools : ∃ (solver : LPSolver ℝ) (lstsq : LstSq), solver.Exact ∧ lstsq.Exact ∧
    lstsq.Ends ∧ (∀ e, ¬ lstsq.Raised e) ∧ ∀ m n r a b, ∃ x, lstsq m n r a b = Py.ok x := by
  obtain ⟨solver, hs⟩ := exists_exact_solver (K := ℝ)
  obtain ⟨lstsq, hl, htot⟩ := exists_exact_lstsq
  refine ⟨solver, lstsq, hs, hl, ?_, ?_, htot⟩
  · intro m n r a b h
    obtain ⟨x, hx⟩ := htot m n r a b
    simp [hx] at h
  · rintro e ⟨m, n, r, a, b, h⟩
    obtain ⟨x, hx⟩ := htot m n r a b
    simp [hx] at h

/-- C67, C68, C69 and C22 on the example with external factors: the hypotheses are met, and the fit
returns. -/
example : ∃ (solver : LPSolver ℝ) (lstsq : LstSq) (obj' : FEMVARXObj demoRngReal) (info : FEMInfo ℝ)
    (F : FEMVARXFitted obj' (some (Arr2.of varxDemoU)) 4 1) (tv : Option ℝ),
    femVARXRun demoRngReal solver lstsq mem demoVARX (Arr2.of varxDemo) (demoVARXArgs true) =
      Py.ok (obj', info) ∧ info.trace.Pairwise (· ≥ ·) ∧ info.failures = 0 ∧ info.warned = false ∧
    (F.L : ℤ) = 1 ∧ TvBound (.real 1) tv ∧ TvAdmissible tv F.G := by
  obtain ⟨solver, lstsq, hs, hls, he, hr, htot⟩ := exists_exact_tools
  obtain ⟨⟨obj', info⟩, h⟩ := demoVARX_fit (mem := mem) hs htot true
  obtain ⟨-, h67⟩ := C67_femvarx_costs_decrease (mem := mem) (data := Arr2.of varxDemo)
    (args := demoVARXArgs true) hs hls he (hr _) demoVARX_constructed demoVARX_memory
  obtain ⟨h1, h2⟩ := h67 obj' info h
  obtain ⟨F, tv, h3, h4, h5, -⟩ := C69_femvarx_weights hs hls he demoVARX_constructed demoVARX_memory
    rfl rfl (by simp [demoVARX]) h
  exact ⟨solver, lstsq, obj', info, F, tv, h, h1, h2, (C22_femvarx_no_warning h).1, h3, h4, h5⟩

/-- C68 on the example. -/
example : ∃ (solver : LPSolver ℝ) (lstsq : LstSq) (obj' : FEMVARXObj demoRngReal)
    (W : Option (Arr2 ℝ)) (info : FEMInfo ℝ)
    (F : FEMVARXFitted obj' (some (Arr2.of varxDemoU)) 4 1),
    femVARXFitTransform demoRngReal solver lstsq mem demoVARX (Arr2.of varxDemo)
      (demoVARXArgs true) = Py.ok (obj', W, info) ∧
    obj'.cost_ = some (∑ t, ∑ i, F.G t i * F.error varxDemo t i) := by
  obtain ⟨solver, lstsq, hs, hls, he, hr, htot⟩ := exists_exact_tools
  obtain ⟨⟨o, inf⟩, h⟩ := demoVARX_fit (mem := mem) hs htot true
  have hfit : ∃ obj' W info, femVARXFitTransform demoRngReal solver lstsq mem demoVARX
      (Arr2.of varxDemo) (demoVARXArgs true) = Py.ok (obj', W, info) := by
    unfold femVARXFitTransform
    rw [h, Py.ok_bind]
    exact ⟨_, _, _, rfl⟩
  obtain ⟨obj', W, info, hfit⟩ := hfit
  obtain ⟨F, -, -, -, h4⟩ := C68_femvarx_reported_cost hs hls he demoVARX_constructed demoVARX_memory
    rfl hfit
  exact ⟨solver, lstsq, obj', W, info, F, hfit, h4⟩

/-- C70 on the example: both constant assignments can be returned. -/
example : ∃ lstsq : LstSq, lstsq.Exact ∧ ∃ (L' k : ℕ), (L' : ℤ) = 1 ∧ k = 2 ∧
      ∀ j : Fin k, ∃ (solver : LPSolver ℝ) (obj' : FEMVARXObj demoRngReal) (info' : FEMInfo ℝ),
        solver.Exact ∧ femVARXTransform demoRngReal solver lstsq mem demoVARX (Arr2.of varxDemo) =
          Py.ok (obj', some (Arr2.of fun (_ : Fin (4 - L')) i => if i = j then (1 : ℝ) else 0),
            info') := by
  obtain ⟨solver, lstsq, hs, hls, he, hr, htot⟩ := exists_exact_tools
  obtain ⟨r, h⟩ := demoVARX_transform (mem := mem) hs htot
  obtain ⟨L', k, tv, h1, h2, h3, h4⟩ := C70_transform_undetermined hls he demoVARX_constructed
    demoVARX_memory (by simp [demoVARX]) h
  refine ⟨lstsq, hls, L', k, h1, h2, fun j => ?_⟩
  refine h4 (fun _ i => if i = j then 1 else 0) ⟨fun t => ⟨fun i => ?_, ?_⟩, ?_⟩
  · simp only
    split_ifs <;> norm_num
  · simp
  · intro b hb i
    simp only [totalVariation, sub_self, abs_zero, Finset.sum_const_zero]
    exact ((h3 b).1 hb).1

/-- The object of the example with memories 0 and 1. -/
noncomputable def demoVARX01 : FEMVARXObj demoRngReal := { demoVARX with memory := [0, 1] }

/-- C55 on it: rejected on four samples. -/
example : ∃ lstsq : LstSq, lstsq.Exact ∧ ∃ e,
    femVARXFitTransform demoRngReal solver lstsq mem demoVARX01 (Arr2.of varxDemo)
      (demoVARXArgs true) = Py.raise e ∧ (e = .valueError ∨ e = .linAlgError) := by
  obtain ⟨_, lstsq, -, hls, he, hr, htot⟩ := exists_exact_tools
  obtain ⟨e, h1, h2⟩ := C55_unequal_memories_rejected (R := demoRngReal) (mem := mem)
    (solver := solver) (obj := demoVARX01) (data := Arr2.of varxDemo) (args := demoVARXArgs true)
    (a := 0) (b := 1) he
    ⟨.list [0, 1], C71_negative_memory_constructed [0, 1]⟩ (by simp [demoVARX01])
    (by simp [demoVARX01]) (by simp [demoVARX01]) (by norm_num) (by norm_num [Arr2.of])
  exact ⟨lstsq, hls, e, h1, h2.imp_right fun h => h.resolve_right (hr e)⟩

/-- Three samples. -/
def varxDemo3 : Matrix (Fin 3) (Fin 1) ℝ := fun t _ => if (t : ℕ) = 2 then 1 else 0

noncomputable def varxDemo3Model (mem : Memory) : Fin 2 → VARXModel 1 (exogCols none) := ![
  ⟨2, 0, 0, dropRows varxDemo3 1, fun _ e => e.elim0,
    varxRegressors (E := 0) mem 0 0 (dropRows varxDemo3 1) fun _ e => e.elim0⟩,
  ⟨3, 1, 0, dropRows varxDemo3 0, fun _ e => e.elim0,
    varxRegressors (E := 0) mem 1 0 (dropRows varxDemo3 0) fun _ e => e.elim0⟩]

/-- C55, the excluded case `n + a = 2 b + 1`: there unequal memories are accepted, because the single
residual of the component with the shorter memory is repeated in its column of the distances. -/
theorem C55_unequal_memories_broadcast : ∃ (solver : LPSolver ℝ) (lstsq : LstSq), solver.Exact ∧
    lstsq.Exact ∧ demoVARX01.Constructed ∧ demoVARX01.memory = [0, 1] ∧
    ∃ r, femVARXRun demoRngReal solver lstsq mem demoVARX01 (Arr2.of varxDemo3) {} = Py.ok r := by
  obtain ⟨solver, lstsq, hs, hls, he, hr, htot⟩ := exists_exact_tools
  refine ⟨solver, lstsq, hs, hls, ⟨.list [0, 1], C71_negative_memory_constructed [0, 1]⟩, rfl, ?_⟩
  obtain ⟨gamma, hg, hpos⟩ := demo_random_weights 2 2 (by norm_num) demoVARX01.randomState
  have hmods : ∀ i : Fin 2, varxModel mem (dropRows varxDemo3 ((1 : ℤ) - [(0 : ℤ), 1].get i).toNat)
      (.int ([(0 : ℤ), 1].get i)) none (.int 0) = Py.ok (varxDemo3Model mem i) := by
    intro i
    fin_cases i
    · rfl
    · rfl
  refine varx_run_once (L := 1) (models := varxDemo3Model mem) hs htot (by norm_num)
    (by norm_num) demoVARX_params demoVARX_tv rfl (varx_max_eq (by simp [demoVARX01])
    (by simp [demoVARX01])) rfl (pyPi_eq_ok.2 hmods) (if_pos fun i => ?_) (fun i => ?_)
    (fun i params => ?_) rfl hg hpos
  · fin_cases i
    · exact Or.inr rfl
    · exact Or.inl rfl
  · fin_cases i
    · rfl
    · rfl
  · have hmade := VARXModel.made_of (hmods i)
    fin_cases i
    · refine jump_residual (m := varxDemo3Model mem 0) hmade rfl (by decide : 0 + 1 < 2)
        (fun i hi => ?_) ?_ params
      rotate_left
      · change varxDemo3 2 0 ≠ 0
        simp [varxDemo3]
      obtain ⟨i, hi4⟩ := i
      have hi : i < 1 := hi
      interval_cases i
      rfl
    · refine jump_residual (m := varxDemo3Model mem 1) hmade rfl (by decide : 1 + 1 < 3)
        (fun i hi => ?_) ?_ params
      rotate_left
      · change varxDemo3 2 0 ≠ 0
        simp [varxDemo3]
      obtain ⟨i, hi4⟩ := i
      have hi : i < 2 := hi
      interval_cases i
      · rfl
      · rfl

/-- C71: a negative memory is accepted by the constructor. -/
example : femVARXFitTransform demoRngReal solver lstsq mem { demoVARX with memory := [-1, 1] }
    (Arr2.of varxDemo) {} = Py.raise .valueError :=
  (C71_negative_memory (a := -1) ⟨.list [-1, 1], C71_negative_memory_constructed [-1, 1]⟩ (by simp)
    (by norm_num)).1

end Demo

end Reor
