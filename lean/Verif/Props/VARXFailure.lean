import Verif.Proofs.VARXFailure
import Verif.Props.VARXMean

/-!
What a failed fit of FEM-BV-VARX leaves behind (C123).
-/

set_option linter.unusedSectionVars false

namespace Reor

open scoped BigOperators Matrix
open Spec

variable {R : Rng ℝ} {solver : LPSolver ℝ} {lstsq : LstSq} {mem : Memory} {obj o : FEMVARXObj R}
  {data : Arr2 ℝ} {args : FEMVARXArgs} {e : PyErr}

/-- C123.  The functions that record what an exception leaves behind have the outcomes of the model
functions. -/
theorem C123_femvarx_outcomes (R : Rng ℝ) (solver : LPSolver ℝ) (lstsq : LstSq) (mem : Memory)
    (obj : FEMVARXObj R) (data : Arr2 ℝ) (args : FEMVARXArgs) :
    (femVARXFitTransformF R solver lstsq mem obj data args).toPy =
      femVARXFitTransform R solver lstsq mem obj data args ∧
    (femVARXTransformF R solver lstsq mem obj data).toPy =
      femVARXTransform R solver lstsq mem obj data :=
  ⟨femVARXFitTransformF_toPy _ _ _ _ _ _ _, femVARXTransformF_toPy _ _ _ _ _ _⟩

/-- The intercepts and matrices of an object after a fit that got past the checks of its arguments:
they are arrays for `k` components and the new data.  The matrices are the old ones if all memories
are 0, the coefficients of the external factors if there are none.  If `zero`, they vanish. -/
structure NewCoefficients (obj o : FEMVARXObj R) (data : Arr2 ℝ) (u : Option (Arr2 ℝ)) (k : ℕ)
    (zero : Prop) : Prop where
  mu : ∃ mu : Matrix (Fin k) (Fin data.cols) ℝ, o.mu = some (Arr2.of mu) ∧ (zero → mu = 0)
  A_none : maxMemory obj.memory ≤ 0 → o.A = obj.A
  A : 0 < maxMemory obj.memory → ∃ (l : ℕ)
    (A : Fin k → Fin l → Matrix (Fin data.cols) (Fin data.cols) ℝ), (l : ℤ) = maxMemory obj.memory ∧
      o.A = some ⟨k, l, data.cols, data.cols, A⟩ ∧ (zero → ∀ i j, A i j = 0)
  B0_none : u = none → o.B0 = obj.B0
  B0 : ∀ U, u = some U → ∃ B : Fin k → Matrix (Fin data.cols) (Fin U.cols) ℝ,
    o.B0 = some (Arr3.of B) ∧ (zero → ∀ i, B i = 0)

theorem NewCoefficients.zeroed {z : FEMVARXObj R} {k : ℕ} {u : Option (Arr2 ℝ)} {L : ℤ}
    (hL : L = maxMemory obj.memory) (hA : z.A = obj.A) (hB : z.B0 = obj.B0) {zero : Prop}
    (hm : o.mu = (z.zeroed k data.cols L u).mu) (ho : o.A = (z.zeroed k data.cols L u).A)
    (hb : o.B0 = (z.zeroed k data.cols L u).B0) : NewCoefficients obj o data u k zero where
  mu := ⟨0, hm, fun _ => rfl⟩
  A_none := by
    intro h
    rw [ho]
    unfold FEMVARXObj.zeroed
    simp only
    rw [if_neg (by omega), hA]
  A := by
    intro h
    refine ⟨L.toNat, fun _ _ => 0, by omega, ?_, fun _ _ _ => rfl⟩
    rw [ho]
    unfold FEMVARXObj.zeroed
    simp only
    rw [if_pos (by omega)]
  B0_none := by
    intro h
    rw [hb]
    unfold FEMVARXObj.zeroed
    simp only
    rw [h, if_neg (by simp), hB]
  B0 := by
    intro U hU
    subst hU
    exact ⟨fun _ => 0, hb, fun _ _ => rfl⟩

theorem NewCoefficients.state {z : FEMVARXObj R} {k T L : ℕ} {u : Option (Arr2 ℝ)}
    {models : Fin k → VARXModel data.cols (exogCols u)}
    (hL : L = (maxMemory obj.memory).toNat) (hA : maxMemory obj.memory ≤ 0 → z.A = obj.A)
    (hB : u = none → z.B0 = obj.B0) {zero : Prop}
    {s : FEMState (VARXParams models L) T k ℝ}
    (hs : zero → s.params.mu = 0 ∧ (∀ i l, s.params.A i l = 0) ∧ ∀ i, s.params.B0 i = 0)
    (hm : o.mu = (z.withState u.isSome s).mu) (ho : o.A = (z.withState u.isSome s).A)
    (hb : o.B0 = (z.withState u.isSome s).B0) : NewCoefficients obj o data u k zero where
  mu := ⟨s.params.mu, hm, fun h => (hs h).1⟩
  A_none := by
    intro h
    rw [ho]
    unfold FEMVARXObj.withState
    simp only
    rw [if_neg (by omega), hA h]
  A := by
    intro h
    refine ⟨L, s.params.A, by omega, ?_, fun h => (hs h).2.1⟩
    rw [ho]
    unfold FEMVARXObj.withState
    simp only
    rw [if_pos (by omega)]
  B0_none := by
    intro h
    rw [hb]
    unfold FEMVARXObj.withState
    simp only
    rw [if_neg (by rw [h]; simp), hB h]
  B0 := by
    intro U hU
    subst hU
    exact ⟨s.params.B0, hb, fun h => (hs h).2.2⟩

theorem femVARX_failed_run (hlen : obj.nComponents = .int obj.memory.length)
    (h : femVARXRunF R solver lstsq mem obj data args = Run.raise e o) :
    o = { obj with
      randomState := o.randomState, Gamma := o.Gamma, mu := o.mu, A := o.A, B0 := o.B0 } ∧
    ((o = obj ∧
        (¬ ValidParams obj.nComponents obj.maxIterations obj.tolerance ∨
          ∃ U, args.externalFactors = some U ∧
            (U.rows = 0 ∨ U.cols = 0 ∨ U.rows ≠ data.rows))) ∨
      ∃ k : ℕ, obj.nComponents = .int k ∧ 1 ≤ k ∧ k = obj.memory.length ∧
        ((o.Gamma = obj.Gamma ∧ o.randomState = obj.randomState ∧
            NewCoefficients obj o data args.externalFactors k True) ∨
          (∃ G : Matrix (Fin (data.rows - (maxMemory obj.memory).toNat)) (Fin k) ℝ,
            o.Gamma = some (Arr2.of G)) ∧
            NewCoefficients obj o data args.externalFactors k
              (args.updateParameters = false))) ∧
    (args.init = some "custom" → args.updateWeights = false → ∀ W, args.weights = some W →
      o.Gamma = obj.Gamma ∨ o.Gamma = some W) := by
  have hdef : ({ obj with nComponents := defaultComponents obj.nComponents data.cols } :
      FEMVARXObj R) = obj := by
    rw [hlen]
    change ({ obj with nComponents := .int obj.memory.length } : FEMVARXObj R) = obj
    rw [← hlen]
  have hdef' : defaultComponents obj.nComponents data.cols = obj.nComponents := by
    rw [hlen]
    rfl
  have h := femVARXRunF_raise h
  simp only [hdef'] at h
  rcases h with ⟨hp, rfl⟩ | ⟨q, hq, h⟩
  · refine ⟨rfl, Or.inl ⟨rfl, Or.inl fun hv => ?_⟩, fun _ _ _ _ => Or.inl rfl⟩
    obtain ⟨p, hp', -⟩ := checkParams_valid hv
    rw [hp'] at hp
    simp at hp
  have hk := (checkParams_ok hq).2.1
  have hk1 := (checkParams_ok hq).2.2.2.1
  rcases h with ⟨hl, rfl⟩ | ⟨hl, h⟩
  · exfalso
    have := hk.symm.trans hlen
    simp only [NumArg.int.injEq] at this
    exact hl (by exact_mod_cast this)
  rcases h with ⟨hx, rfl⟩ | ⟨hx, h⟩
  · refine ⟨rfl, Or.inl ⟨rfl, Or.inr ?_⟩, fun _ _ _ _ => Or.inl rfl⟩
    cases hu : args.externalFactors with
    | none => rw [hu] at hx; simp [varxCheckExog] at hx
    | some U =>
      rw [hu] at hx
      refine ⟨U, rfl, ?_⟩
      by_contra hc
      push Not at hc
      unfold varxCheckExog at hx
      have hca : checkArray (some U) = Py.ok U := by
        unfold checkArray
        simp only
        rw [if_neg]
        rintro (h0 | h0)
        · exact hc.1 h0
        · exact hc.2.1 h0
      simp only [hca, Py.ok_bind, if_pos hc.2.2] at hx
      simp at hx
  rcases h with ⟨-, rfl⟩ | ⟨start, hst, h⟩
  · exact ⟨rfl, Or.inr ⟨q.1, hk, hk1, hl, Or.inl ⟨rfl, rfl,
      NewCoefficients.zeroed (obj := obj) (z := obj) rfl rfl rfl rfl rfl rfl⟩⟩,
      fun _ _ _ _ => Or.inl rfl⟩
  obtain ⟨hL, hs0⟩ := varxLocalModels_L hst
  rcases h with ⟨-, rfl⟩ | ⟨gamma, hg, h⟩
  · exact ⟨rfl, Or.inr ⟨q.1, hk, hk1, hl, Or.inl ⟨rfl, rfl,
      NewCoefficients.zeroed (obj := obj) (z := obj) rfl rfl rfl rfl rfl rfl⟩⟩,
      fun _ _ _ _ => Or.inl rfl⟩
  have hG : args.init = some "custom" → ∀ W, args.weights = some W →
      some (Arr2.of gamma.1) = some W := by
    intro hc W hW
    rw [hc, hW] at hg
    rw [femInitWeights_is_given hg]
  have hcast : ∀ (T' : ℕ) (hT : data.rows - start.L = T')
      (G : Matrix (Fin (data.rows - start.L)) (Fin q.1) ℝ),
      ∃ G' : Matrix (Fin T') (Fin q.1) ℝ, some (Arr2.of G) = some (Arr2.of G') := by
    intro T' hT G
    subst hT
    exact ⟨G, rfl⟩
  rcases h with rfl | ⟨tv, con, -, -, s, hs, rfl⟩
  · exact ⟨rfl, Or.inr ⟨q.1, hk, hk1, hl, Or.inr ⟨hcast _ (by rw [hL]) gamma.1,
        NewCoefficients.zeroed (obj := obj) (z := obj) rfl rfl rfl rfl rfl rfl⟩⟩,
      fun hc _ W hW => Or.inr (hG hc W hW)⟩
  · obtain ⟨h1, h2⟩ := femIterateU_left hs
    refine ⟨rfl, Or.inr ⟨q.1, hk, hk1, hl, Or.inr ⟨hcast _ (by rw [hL]) s.Gamma, ?_⟩⟩,
      fun hc hu W hW => Or.inr ?_⟩
    · refine NewCoefficients.state (obj := obj) (z := obj.zeroed q.1 data.cols
            (maxMemory obj.memory) args.externalFactors) (s := s) hL ?_ ?_ ?_ rfl rfl rfl
      · intro h0
        unfold FEMVARXObj.zeroed
        simp only
        rw [if_neg (by omega)]
      · intro h0
        unfold FEMVARXObj.zeroed
        simp only
        rw [h0, if_neg (by simp)]
      · intro hu
        rw [h1 hu]
        exact hs0
    · have := hG hc W hW
      rw [← this]
      change some (Arr2.of s.Gamma) = _
      rw [h2 hu]

/-- C123.  A failed fit of FEM-BV-VARX keeps all settings and all reports of the last successful fit.
Either its arguments were rejected and the object is as before; or the coefficients of the last fit
are lost: there are new ones, for the new data, while the affiliations are still the old ones or new
ones as well.  As long as the affiliations are the old ones, or if parameters are not to be updated,
the new coefficients are 0.  Given weights that are not to be updated are the only affiliations the
fit can leave behind.  (The number of memories is that of the components, as the constructor
ensures.) -/
theorem C123_femvarx_failed_fit (hlen : obj.nComponents = .int obj.memory.length)
    (h : femVARXFitTransformF R solver lstsq mem obj data args = Run.raise e o) :
    o = { obj with
      randomState := o.randomState, Gamma := o.Gamma, mu := o.mu, A := o.A, B0 := o.B0 } ∧
    ((o = obj ∧
        (¬ ValidParams obj.nComponents obj.maxIterations obj.tolerance ∨
          ∃ U, args.externalFactors = some U ∧
            (U.rows = 0 ∨ U.cols = 0 ∨ U.rows ≠ data.rows))) ∨
      ∃ k : ℕ, obj.nComponents = .int k ∧ 1 ≤ k ∧ k = obj.memory.length ∧
        ((o.Gamma = obj.Gamma ∧ o.randomState = obj.randomState ∧
            NewCoefficients obj o data args.externalFactors k True) ∨
          (∃ G : Matrix (Fin (data.rows - (maxMemory obj.memory).toNat)) (Fin k) ℝ,
            o.Gamma = some (Arr2.of G)) ∧
            NewCoefficients obj o data args.externalFactors k
              (args.updateParameters = false))) ∧
    (args.init = some "custom" → args.updateWeights = false → ∀ W, args.weights = some W →
      o.Gamma = obj.Gamma ∨ o.Gamma = some W) :=
  femVARX_failed_run hlen (femVARXFitTransformF_raise h)

/-- C123.  A failed `transform` rejects invalid settings without touching the object; otherwise all
coefficients are lost: the intercepts, and the matrices if there are any, are arrays of zeros. -/
theorem C123_femvarx_failed_transform (hlen : obj.nComponents = .int obj.memory.length)
    (h : femVARXTransformF R solver lstsq mem obj data = Run.raise e o) :
    o = { obj with
      randomState := o.randomState, Gamma := o.Gamma, mu := o.mu, A := o.A } ∧
    ((o = obj ∧ ¬ ValidParams obj.nComponents obj.maxIterations obj.tolerance) ∨
      ∃ k : ℕ, obj.nComponents = .int k ∧ 1 ≤ k ∧ k = obj.memory.length ∧
        NewCoefficients obj o data none k True) := by
  obtain ⟨h0, h1, -⟩ := femVARX_failed_run hlen (femVARXTransformF_raise h)
  simp only at h1
  rcases h1 with ⟨rfl, h1⟩ | ⟨k, hk, hk1, hkm, h1⟩
  · refine ⟨rfl, Or.inl ⟨rfl, ?_⟩⟩
    rcases h1 with h1 | ⟨U, hU, -⟩
    · exact h1
    · simp at hU
  · have hn : NewCoefficients obj o data none k True := by
      rcases h1 with ⟨-, -, h1⟩ | ⟨-, h1⟩
      · exact h1
      · refine ⟨?_, h1.A_none, fun hL => ?_, h1.B0_none, fun U hU => ?_⟩
        · obtain ⟨mu, h2, h3⟩ := h1.mu
          exact ⟨mu, h2, fun _ => h3 trivial⟩
        · obtain ⟨l, A, h2, h3, h4⟩ := h1.A hL
          exact ⟨l, A, h2, h3, fun _ => h4 trivial⟩
        · simp at hU
    refine ⟨?_, Or.inr ⟨k, hk, hk1, hkm, hn⟩⟩
    have hB := hn.B0_none rfl
    rw [hB] at h0
    exact h0

/-- C123.  A fit of the weighted local models that fails at component `i` leaves the coefficients of
the components before `i` from the new fits and the others as they were: the coefficients of one
object come from two iterations. -/
theorem C123_femvarx_update_halfway {T k D E L : ℕ} {models : Fin k → VARXModel D E}
    {Gamma : Matrix (Fin T) (Fin k) ℝ} {p q : VARXParams models L}
    (h : varxUpdateF lstsq Gamma p = Run.raise e q) :
    ∃ i, (models i).fit lstsq (some (varxWeights Gamma i (models i).p)) = Py.raise e ∧
      (∀ j < i, ∃ f, (models j).fit lstsq (some (varxWeights Gamma j (models j).p)) = Py.ok f ∧
        q.mu j = f.mu ∧ q.B0 j = f.B0 ∧
        (∀ (l : Fin L) (hl : (l : ℕ) < (models j).p), q.A j l = f.A ⟨l, hl⟩) ∧
        ∀ l : Fin L, (models j).p ≤ l → q.A j l = p.A j l) ∧
      ∀ j, i ≤ j → q.mu j = p.mu j ∧ q.A j = p.A j ∧ q.B0 j = p.B0 j := by
  rcases varxUpdateF_cases (lstsq := lstsq) (Gamma := Gamma) p with
    ⟨g, -, h1⟩ | ⟨i, -, -, h1⟩ | ⟨i, e', q', hi, h1, h2, h3⟩
  · rw [h1] at h; simp at h
  · rw [h1] at h; simp at h
  · rw [h1] at h
    simp only [Run.raise.injEq] at h
    obtain ⟨rfl, rfl⟩ := h
    refine ⟨i, hi, fun j hj => ?_, h3⟩
    obtain ⟨f, hf, hm, hb, hA⟩ := h2 j hj
    refine ⟨f, hf, hm, hb, fun l hl => ?_, fun l hl => ?_⟩
    · rw [hA, dif_pos hl]
    · rw [hA, dif_neg (by omega)]

/-- C123.  Fitting again to two or more samples in a hyperplane, with memory 0: the exception leaves
the affiliations, cost and number of iterations of the last fit, and intercepts of 0 in place of the
fitted ones. -/
theorem C123_femvarx_refit_hyperplane {n D k : ℕ} (hl : lstsq.Exact)
    (htot : ∀ m n r a b, ∃ x, lstsq m n r a b = Py.ok x)
    (hn : 2 ≤ n) (hD : 0 < D) (X : Matrix (Fin n) (Fin D) ℝ) (hX : InHyperplane (fun _ => 1) X)
    (obj : FEMVARXObj R) (hmem : obj.memory = List.replicate k 0)
    (hp : ValidParams (.int k) obj.maxIterations obj.tolerance) (hk : obj.nComponents = .int k)
    (args : FEMVARXArgs) (hu : args.externalFactors = none) :
    femVARXFitTransformF R solver lstsq mem obj (Arr2.of X) args = Run.raise .linAlgError
      { obj with mu := some (Arr2.of (0 : Matrix (Fin k) (Fin D) ℝ)) } := by
  have hpy := C112_hyperplane (solver := solver) (mem := mem) hl htot hn hD X hX obj hmem hp hk args hu
  rw [← femVARXFitTransformF_toPy] at hpy
  obtain ⟨o, ho⟩ := Run.toPy_eq_raise.1 hpy
  rw [ho]
  have hdef' : defaultComponents obj.nComponents (Arr2.of X).cols = obj.nComponents := by
    rw [hk]
    rfl
  have h := femVARXRunF_raise (femVARXFitTransformF_raise ho)
  simp only [hdef'] at h
  rcases h with ⟨hq, -⟩ | ⟨q, hq, h⟩
  · obtain ⟨p, hp', -⟩ := checkParams_valid hp
    rw [hk, hp'] at hq
    simp at hq
  have hqk := (checkParams_ok hq).2.1
  have hq1 := (checkParams_ok hq).2.2.2.1
  rw [hk] at hqk
  simp only [NumArg.int.injEq] at hqk
  have hqk' : q.1 = k := by exact_mod_cast hqk.symm
  rcases h with ⟨hl', -⟩ | ⟨hl', h⟩
  · exact absurd (by rw [hmem, List.length_replicate, hqk']) hl'
  rw [hu] at h
  rcases h with ⟨hx, -⟩ | ⟨-, h⟩
  · simp [varxCheckExog] at hx
  have hL : maxMemory obj.memory = 0 := by rw [hmem, maxMemory_replicate]
  rcases h with ⟨-, rfl⟩ | ⟨start, hst, -⟩
  · refine congrArg _ ?_
    obtain ⟨q1, q2, q3⟩ := q
    simp only at hqk'
    subst hqk'
    unfold FEMVARXObj.zeroed
    rw [hL]
    rfl
  · exfalso
    rcases varxInit_memory_zero (k := q.1) (mem := mem) hl htot (by omega : 0 < n) hD hq1 X with
      ⟨h, -⟩ | ⟨_, -, h, -⟩
    · rw [varxInit_eq] at h
      have hget : (fun i : Fin q.1 => obj.memory.get (Fin.cast hl' i)) = fun _ => 0 := by
        funext i
        simp [hmem]
      rw [hget, hL] at hst
      have h' : varxLocalModels mem lstsq X (fun _ : Fin q.1 => 0) 0 none = Py.raise .linAlgError := h
      have hst' : varxLocalModels mem lstsq X (fun _ : Fin q.1 => 0) 0 none = Py.ok start := hst
      rw [h'] at hst'
      simp at hst'
    · exact h ⟨by omega, hX⟩

/-- The update of the intercepts with memory 0 that fails at component `i`. -/
theorem meanUpdate_fails {n D k : ℕ} (hl : lstsq.Exact)
    (htot : ∀ m n r a b, ∃ x, lstsq m n r a b = Py.ok x) (hD : 0 < D)
    {X : Matrix (Fin n) (Fin D) ℝ} {W : Matrix (Fin n) (Fin k) ℝ} (hW : RowStochastic W) {i : Fin k}
    (hi : ∑ t, W t i ≠ 1 ∧ InHyperplane (fun t => W t i) X)
    (hj : ∀ j < i, ¬(∑ t, W t j ≠ 1 ∧ InHyperplane (fun t => W t j) X))
    {p : VARXParams (fun _ : Fin k => meanModel mem X) 0} (hmu : p.mu = fun _ _ => 0) :
    ∃ q, varxUpdateF lstsq W p = Run.raise .linAlgError q ∧
      q.mu = fun j d => if j < i then (∑ t, W t j * X t d) / ∑ t, W t j else 0 := by
  have hfits : ∀ j : Fin k, weightedFit (fun _ : Fin k => meanModel mem X) lstsq W j =
      (meanModel mem X).fitWeighted lstsq fun t => W t j := by
    intro j
    unfold weightedFit VARXModel.fit
    refine (dif_pos (show (meanModel mem X).n = _ from rfl)).trans ?_
    refine congrArg _ (funext fun t => ?_)
    change (if _ : 0 ≤ (t : ℕ) then W ⟨(t : ℕ) - 0, t.2⟩ j else 1) = W t j
    exact dif_pos (Nat.zero_le _)
  have hfail : weightedFit (fun _ : Fin k => meanModel mem X) lstsq W i = Py.raise .linAlgError := by
    rw [hfits]
    rcases meanModel_fitWeighted (mem := mem) hD hl htot fun t => (hW t).1 i with ⟨h, -⟩ | ⟨_, -, -, h, -⟩
    · exact h
    · exact absurd hi h
  have hgood : ∀ j < i, ∃ f, weightedFit (fun _ : Fin k => meanModel mem X) lstsq W j = Py.ok f ∧
      ∀ d, f.mu d = (∑ t, W t j * X t d) / ∑ t, W t j := by
    intro j hji
    rw [hfits]
    rcases meanModel_fitWeighted (mem := mem) hD hl htot fun t => (hW t).1 j with
      ⟨-, h⟩ | ⟨f, h, -, -, hm, -⟩
    · exact absurd h (hj j hji)
    · exact ⟨f, h, hm⟩
  rcases varxUpdateF_cases (lstsq := lstsq) (Gamma := W) p with
    ⟨g, h1, -⟩ | ⟨r, h1, h2, -⟩ | ⟨r, e', q', h1, h2, h3, h4⟩
  · have := hfail.symm.trans (h1 i)
    simp at this
  · exfalso
    rcases lt_trichotomy r i with hr | rfl | hr
    · obtain ⟨f, hf, -⟩ := hgood r hr
      have := hf.symm.trans h1
      simp at this
    · have := hfail.symm.trans h1
      simp at this
    · obtain ⟨f, hf⟩ := h2 i hr
      have := hfail.symm.trans hf
      simp at this
  · have hri : r = i := by
      rcases lt_trichotomy r i with hr | hr | hr
      · obtain ⟨f, hf, -⟩ := hgood r hr
        have := hf.symm.trans h1
        simp at this
      · exact hr
      · obtain ⟨f, hf, -⟩ := h3 i hr
        have := hfail.symm.trans hf
        simp at this
    subst hri
    have he := hfail.symm.trans h1
    simp only [Py.raise.injEq] at he
    subst he
    refine ⟨q', h2, funext fun j => ?_⟩
    by_cases hjr : j < r
    · obtain ⟨f, hf, hm⟩ := hgood j hjr
      obtain ⟨f', hf', hm', -⟩ := h3 j hjr
      have hff := hf.symm.trans hf'
      simp only [Py.ok.injEq] at hff
      subst hff
      rw [hm']
      funext d
      rw [if_pos hjr, hm]
    · rw [(h4 j (not_lt.1 hjr)).1, hmu]
      funext d
      rw [if_neg hjr]

theorem femInitWeights_stochastic {n k : ℕ} (hn : 0 < n) (hk : 0 < k) {W : Matrix (Fin n) (Fin k) ℝ}
    (hW : RowStochastic W) (g : R.G) :
    femInitWeights R n k (some (Arr2.of W)) (some "custom") g = Py.ok (W, g) := by
  unfold femInitWeights femCheckInitWeights
  rw [if_pos rfl]
  simp only
  rw [checkArray_of, if_neg (by omega), Py.ok_bind, checkArrayShape_of, Py.ok_bind]
  have hsum : checkUnitRowSums W = Py.ok () := by
    refine if_pos fun t => ?_
    rw [iscloseOne, (hW t).2]
    norm_num
  rw [hsum]
  rfl

/-- The iteration with memory 0, if the first update fails. -/
theorem meanIterate_fails {n D k : ℕ} (hn : 0 < n) (hk1 : 1 < k)
    {X : Matrix (Fin n) (Fin D) ℝ} {W : Matrix (Fin n) (Fin k) ℝ} (hW : RowStochastic W)
    {p q : VARXParams (fun _ : Fin k => meanModel mem X) 0}
    (hupd : varxUpdateF lstsq W p = Run.raise e q) (z : FEMVARXObj R) (htv : z.maxTvNorm ≠ .other)
    {q2 : ℕ} (hq2 : 0 < q2) (q3 : ℝ) (params : Option (Arr2 ℝ)) (uw : Bool) :
    femVARXIterateF R solver lstsq z n k q2 q3
      { parameters := params, weights := some (Arr2.of W), init := some "custom",
        updateParameters := true, updateWeights := uw, externalFactors := none }
      (⟨0, fun _ => meanModel mem X, p⟩ : VARXStart k D 0) = Run.raise e
      { z with Gamma := some (Arr2.of W), mu := some (Arr2.of q.mu) } := by
  obtain ⟨tv, htv⟩ := maxTvConstraint_number htv
  obtain ⟨con, hcon, -⟩ := femConstraints_ok tv hk1 hn
  have hgamma := femInitWeights_stochastic (R := R) hn (by omega) hW z.randomState
  obtain ⟨nc, tvn, memory, mi, tol, rs, req, oG, omu, oA, oB0, on, oc, oi⟩ := z
  have hit := femIterateU_first (comp := varxComp (fun _ : Fin k => meanModel mem X) 0 n lstsq)
    (solver := solver) (con := some con) (require := req) (tol := q3) (m := q2) hq2 (uw := uw)
    (s := ⟨W, p, (varxComp (fun _ : Fin k => meanModel mem X) 0 n lstsq).distance p⟩) hupd
  unfold femVARXIterateF
  have h1 : femInitWeights R (n - 0) k (some (Arr2.of W)) (some "custom") rs = Py.ok (W, rs) := hgamma
  have h2 : femConstraints tv k (n - 0) = Py.ok (some con) := hcon
  change (Run.lift _ (femInitWeights R (n - 0) k (some (Arr2.of W)) (some "custom") rs) >>= _ :
    Run _ _) = _
  rw [h1]
  change (Run.lift _ (maxTvConstraint tvn) >>= _ : Run _ _) = _
  rw [htv]
  change (Run.lift _ (femConstraints tv k (n - 0)) >>= _ : Run _ _) = _
  rw [h2]
  change (Run.within _ (femIterateU (varxComp (fun _ : Fin k => meanModel mem X) 0 n lstsq)
    (varxUpdateF lstsq) solver (some con) req q3 q2 true uw
    ⟨W, p, (varxComp (fun _ : Fin k => meanModel mem X) 0 n lstsq).distance p⟩) >>= _ :
    Run _ _) = _
  rw [hit]
  rfl

/-- An iteration that fails. -/
theorem femVARXFitTransformF_iterate_fails {k q2 : ℕ} {q3 : ℝ} {start : VARXStart k data.cols _}
    (hp : checkParams obj.nComponents obj.maxIterations obj.tolerance = Py.ok (k, q2, q3))
    (hl : k = obj.memory.length)
    (hx : varxCheckExog data.rows args.externalFactors = Py.ok ())
    (hst : varxLocalModels mem lstsq data.val (fun i : Fin k => obj.memory.get (Fin.cast hl i))
      (maxMemory obj.memory) args.externalFactors = Py.ok start)
    (hit : femVARXIterateF R solver lstsq
      (obj.zeroed k data.cols (maxMemory obj.memory) args.externalFactors) data.rows k q2 q3 args start =
        Run.raise e o) :
    femVARXFitTransformF R solver lstsq mem obj data args = Run.raise e o := by
  have hd : defaultComponents obj.nComponents data.cols = obj.nComponents := by
    rw [(checkParams_ok hp).2.1]
    rfl
  unfold femVARXFitTransformF
  refine Run.bind_eq_raise.2 (Or.inl ?_)
  unfold femVARXRunF
  simp only [hd]
  refine Run.bind_eq_raise.2 (Or.inr ⟨_, Run.lift_eq_ok.2 hp, ?_⟩)
  rw [dif_pos hl]
  refine Run.bind_eq_raise.2 (Or.inr ⟨_, Run.lift_eq_ok.2 hx, ?_⟩)
  refine Run.bind_eq_raise.2 (Or.inr ⟨_, Run.lift_eq_ok.2 hst, ?_⟩)
  exact Run.bind_eq_raise.2 (Or.inl hit)

/-- C123.  With memory 0 and given weights: the first update fails at component `i`, whose weights do
not sum to 1 and whose samples lie in a hyperplane.  The object is left with the given weights, with
the weighted means of the components before `i`, and with intercepts 0 for the others. -/
theorem C123_femvarx_first_update_fails {n D k : ℕ} (hl : lstsq.Exact)
    (htot : ∀ m n r a b, ∃ x, lstsq m n r a b = Py.ok x) (hn : 0 < n) (hD : 0 < D) (hk1 : 1 < k)
    (X : Matrix (Fin n) (Fin D) ℝ) (hX : ¬ InHyperplane (fun _ => 1) X)
    (W : Matrix (Fin n) (Fin k) ℝ) (hW : RowStochastic W) (i : Fin k)
    (hi : ∑ t, W t i ≠ 1 ∧ InHyperplane (fun t => W t i) X)
    (hj : ∀ j < i, ¬(∑ t, W t j ≠ 1 ∧ InHyperplane (fun t => W t j) X))
    (obj : FEMVARXObj R) (hmem : obj.memory = List.replicate k 0)
    (hp : ValidParams (.int k) obj.maxIterations obj.tolerance) (hk : obj.nComponents = .int k)
    (htv : obj.maxTvNorm ≠ .other) (args : FEMVARXArgs) (hu : args.externalFactors = none)
    (hw : args.weights = some (Arr2.of W)) (hinit : args.init = some "custom")
    (hup : args.updateParameters = true) :
    femVARXFitTransformF R solver lstsq mem obj (Arr2.of X) args = Run.raise .linAlgError
      { obj with
        Gamma := some (Arr2.of W)
        mu := some (Arr2.of fun j d => if j < i then (∑ t, W t j * X t d) / ∑ t, W t j else 0) } := by
  obtain ⟨⟨q1, q2, q3⟩, hq, hqk, -⟩ := checkParams_valid hp
  obtain ⟨-, -, -, -, hq2, -⟩ := checkParams_ok hq
  have hqk' : k = q1 := by
    have : (k : ℤ) = q1 := by simpa using hqk
    exact_mod_cast this
  subst hqk'
  rcases varxInit_memory_zero (k := k) (mem := mem) hl htot hn hD (by omega) X with
    ⟨-, -, h⟩ | ⟨p, hst, -, hms, hmu⟩
  · exact absurd h hX
  obtain ⟨q, hupd, hqmu⟩ := meanUpdate_fails (mem := mem) hl htot hD hW hi hj hmu
  have hlen : k = obj.memory.length := by rw [hmem, List.length_replicate]
  have hL : maxMemory obj.memory = 0 := by rw [hmem, maxMemory_replicate]
  have hget : (fun i : Fin k => obj.memory.get (Fin.cast hlen i)) = fun _ => 0 := by
    funext i
    simp [hmem]
  obtain ⟨params, weights, init, up, uw, u⟩ := args
  simp only at hu hw hinit hup
  subst hu hw hinit hup
  refine femVARXFitTransformF_iterate_fails (data := Arr2.of X)
    (start := (⟨0, fun _ => meanModel mem X, p⟩ : VARXStart k D 0)) (by rw [hk]; exact hq) hlen rfl
    ?_ ?_
  · rw [hget, hL]
    exact hst
  · have hiter := meanIterate_fails (solver := solver) hn hk1 hW hupd (obj.zeroed k D 0 none) htv hq2
      q3 params uw
    rw [hqmu] at hiter
    rw [hL]
    exact hiter

/-- C123.  After a failed fit, a fit has the outcome it would have had without it (from the same
state of the random numbers).  There is one difference: without external factors it reports the
coefficients the failed fit left, in place of those of the fit before. -/
theorem C123_femvarx_fit_after_failure (hlen : obj.nComponents = .int obj.memory.length)
    (h : femVARXFitTransformF R solver lstsq mem obj data args = Run.raise e o) (data' : Arr2 ℝ)
    (args' : FEMVARXArgs) :
    femVARXFitTransform R solver lstsq mem o data' args' =
      femVARXFitTransform R solver lstsq mem { obj with randomState := o.randomState } data' args' >>=
        fun r => Py.ok
          ({ r.1 with B0 := if args'.externalFactors = none then o.B0 else r.1.B0 }, r.2) := by
  obtain ⟨h0, h1, -⟩ := C123_femvarx_failed_fit hlen h
  have hA : maxMemory obj.memory ≤ 0 → o.A = obj.A := by
    rcases h1 with ⟨rfl, -⟩ | ⟨k, -, -, -, ⟨-, -, h1⟩ | ⟨-, h1⟩⟩
    · exact fun _ => rfl
    · exact h1.A_none
    · exact h1.A_none
  rw [h0]
  unfold femVARXFitTransform femVARXRun
  simp only [Py.bind_assoc, Py.pure_eq, Py.ok_bind]
  congr 1; funext p
  by_cases hl : p.1 = obj.memory.length
  · rw [dif_pos hl, dif_pos hl]
    simp only [Py.bind_assoc, Py.ok_bind]
    refine Py.bind_congr_ok fun start hst => ?_
    have hL : start.L = (maxMemory obj.memory).toNat := by
      rw [varxInit_eq] at hst
      obtain ⟨_, -, hst⟩ := Py.bind_eq_ok.1 hst
      exact (varxLocalModels_L hst).1
    refine Py.bind_congr_ok fun r hr => congrArg Py.ok (Prod.ext ?_ rfl)
    simp only
    have e1 : (if start.L > 0 then some (⟨_, _, _, _, r.1.state.params.A⟩ : Arr4 ℝ) else o.A) =
        if start.L > 0 then some ⟨_, _, _, _, r.1.state.params.A⟩ else obj.A := by
      split_ifs with h
      · rfl
      · exact hA (by omega)
    have e2 : (if args'.externalFactors.isSome then some (Arr3.of r.1.state.params.B0) else o.B0) =
        if args'.externalFactors = none then o.B0 else
          if args'.externalFactors.isSome then some (Arr3.of r.1.state.params.B0) else obj.B0 := by
      by_cases h : args'.externalFactors = none
      · rw [if_pos h, if_neg (by rw [h]; simp)]
      · have h' : args'.externalFactors.isSome = true := Option.isSome_iff_ne_none.2 h
        rw [if_neg h, if_pos h', if_pos h']
    exact congrArg₂ (fun A B => ({ obj with
      nComponents := defaultComponents obj.nComponents data'.cols
      randomState := r.2
      Gamma := some (Arr2.of r.1.state.Gamma)
      mu := some (Arr2.of r.1.state.params.mu)
      A := A
      B0 := B
      nComponents_ := some p.1
      cost_ := some r.1.cost
      nIter_ := some r.1.nIter } : FEMVARXObj R)) e1 e2
  · rw [dif_neg hl, dif_neg hl]
    rfl

/-! ### Examples -/

section Demo

/-- Affiliations of three samples with two components; only the first sample takes part in the
second. -/
noncomputable def failWeights : Matrix (Fin 3) (Fin 2) ℝ := fun t j =>
  if t = 0 then 1 / 2 else if j = 0 then 1 else 0

theorem failWeights_values : failWeights 0 0 = 1 / 2 ∧ failWeights 0 1 = 1 / 2 ∧
    failWeights 1 0 = 1 ∧ failWeights 1 1 = 0 ∧ failWeights 2 0 = 1 ∧ failWeights 2 1 = 0 := by
  refine ⟨?_, ?_, ?_, ?_, ?_, ?_⟩ <;> simp [failWeights]

theorem failWeights_stochastic : RowStochastic failWeights := by
  intro t
  refine ⟨fun j => ?_, ?_⟩
  · fin_cases t <;> fin_cases j <;> norm_num [failWeights]
  · rw [Fin.sum_univ_two]
    fin_cases t <;> norm_num [failWeights]

/-- The samples 0, 1, 2 with these affiliations: the first component is updated to the weighted mean
6/5, the second cannot be.  So the object reports the given affiliations, the intercept 6/5 of the new
data and the intercept 0 that belongs to nothing. -/
example : ∃ (solver : LPSolver ℝ) (lstsq : LstSq) (o : FEMVARXObj demoRngReal),
    femVARXFitTransformF demoRngReal solver lstsq mem meanDemoObj (Arr2.of meanDemo)
      { weights := some (Arr2.of failWeights), init := some "custom" } =
      Run.raise .linAlgError o ∧
    o.Gamma = some (Arr2.of failWeights) ∧
    o.mu = some (Arr2.of (!![6 / 5; 0] : Matrix (Fin 2) (Fin 1) ℝ)) := by
  obtain ⟨solver, lstsq, hs, hls, -, -, htot⟩ := exists_exact_tools
  obtain ⟨v1, v2, v3, v4, v5, v6⟩ := failWeights_values
  refine ⟨solver, lstsq, _, C123_femvarx_first_update_fails (i := 1) hls htot (by norm_num)
    (by norm_num) (by norm_num) meanDemo meanDemo_spread failWeights failWeights_stochastic ?_ ?_
    meanDemoObj rfl (checkParams_ok demoVARX_params).1 rfl (by simp [meanDemoObj, demoVARX]) _ rfl rfl rfl rfl, rfl, ?_⟩
  · refine ⟨by rw [Fin.sum_univ_three, v2, v4, v6]; norm_num, fun _ => 1, ?_, 0, fun t ht => ?_⟩
    · exact fun h => one_ne_zero (congrFun h 0)
    · have h0 : t = 0 := by
        by_contra h0
        exact ht (by simp [failWeights, h0])
      subst h0
      norm_num [meanDemo]
  · intro j hj
    obtain rfl : j = 0 := by omega
    rintro ⟨-, v, hv, c, hc⟩
    refine meanDemo_spread ⟨v, hv, c, fun t _ => hc t ?_⟩
    fin_cases t <;> norm_num [failWeights]
  · refine congrArg (fun M : Matrix (Fin 2) (Fin 1) ℝ => some (Arr2.of M)) ?_
    funext j d
    rw [Subsingleton.elim d 0, Fin.sum_univ_three, Fin.sum_univ_three]
    fin_cases j
    · change (if (0 : Fin 2) < 1 then (failWeights 0 0 * ((0 : ℕ) : ℝ) + failWeights 1 0 * ((1 : ℕ) : ℝ) +
        failWeights 2 0 * ((2 : ℕ) : ℝ)) / (failWeights 0 0 + failWeights 1 0 + failWeights 2 0) else 0) =
        6 / 5
      rw [if_pos (by norm_num), v1, v3, v5]
      norm_num
    · exact if_neg (lt_irrefl (1 : Fin 2))

/-- Equal samples: the fitted intercepts (here 7 and 8) are lost, the affiliations are kept. -/
example (G : Arr2 ℝ) : ∃ (solver : LPSolver ℝ) (lstsq : LstSq) (o : FEMVARXObj demoRngReal),
    femVARXFitTransformF demoRngReal solver lstsq mem
      { meanDemoObj with Gamma := some G, mu := some (Arr2.of (!![7; 8] : Matrix (Fin 2) (Fin 1) ℝ)) }
      (Arr2.of (fun _ _ => 5 : Matrix (Fin 3) (Fin 1) ℝ)) {} = Run.raise .linAlgError o ∧
    o.Gamma = some G ∧ o.mu = some (Arr2.of (0 : Matrix (Fin 2) (Fin 1) ℝ)) := by
  obtain ⟨solver, lstsq, hs, hls, -, -, htot⟩ := exists_exact_tools
  have hX : InHyperplane (fun _ => 1) (fun _ _ => 5 : Matrix (Fin 3) (Fin 1) ℝ) :=
    ⟨fun _ => 1, fun h => one_ne_zero (congrFun h 0), 5, fun t _ => by norm_num⟩
  exact ⟨solver, lstsq, { meanDemoObj with
      Gamma := some G, mu := some (Arr2.of (0 : Matrix (Fin 2) (Fin 1) ℝ)) },
    C123_femvarx_refit_hyperplane (k := 2) hls htot (by norm_num) (by norm_num)
      (fun _ _ => 5 : Matrix (Fin 3) (Fin 1) ℝ) hX
      { meanDemoObj with
        Gamma := some G, mu := some (Arr2.of (!![7; 8] : Matrix (Fin 2) (Fin 1) ℝ)) }
      rfl (checkParams_ok demoVARX_params).1 rfl {} rfl,
    rfl, rfl⟩

/-- Settings that are rejected: nothing changes. -/
example (solver : LPSolver ℝ) (lstsq : LstSq) (data : Arr2 ℝ) (args : FEMVARXArgs) :
    femVARXFitTransformF demoRngReal solver lstsq mem { meanDemoObj with tolerance := .none } data
      args = Run.raise .valueError { meanDemoObj with tolerance := .none } := rfl

end Demo

end Reor
