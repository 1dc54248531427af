import Verif.Props.Stationary
import Verif.Props.FEMBounds

/-!
What the regularisation parameters do: `epsilon_states` of GPNH convex coding and `max_tv_norm` of
FEM-BV (C118).
-/

namespace Reor

set_option linter.unusedSectionVars false

open scoped BigOperators Matrix
open Spec

variable {K : Type} [Field K] [LinearOrder K] [IsStrictOrderedRing K]
variable {T D k : ℕ}

/-- The mean squared reconstruction error. -/
def reconstructionError (X : Matrix (Fin T) (Fin D) K) (W : Matrix (Fin T) (Fin k) K)
    (S : Matrix (Fin k) (Fin D) K) : K :=
  (∑ t, ∑ d, (X t d - ∑ i, W t i * S i d) ^ 2) / ((D : K) * (T : K))

/-- The mean squared distance of the dictionary elements. -/
def dictionarySpread (S : Matrix (Fin k) (Fin D) K) : K :=
  (∑ i, ∑ j, sqDist (fun d => S i d) (fun d => S j d)) / ((k : K) * ((k : K) - 1) * (D : K))

theorem gpnhCost_split (eps : K) (X : Matrix (Fin T) (Fin D) K) (W : Matrix (Fin T) (Fin k) K)
    (S : Matrix (Fin k) (Fin D) K) :
    gpnhCost eps X W S = reconstructionError X W S + eps * dictionarySpread S := rfl

theorem dictionarySpread_nonneg (S : Matrix (Fin k) (Fin D) K) : 0 ≤ dictionarySpread S :=
  div_nonneg (Finset.sum_nonneg fun _ _ => Finset.sum_nonneg fun _ _ =>
    Finset.sum_nonneg fun _ _ => sq_nonneg _) (GPNHState.pen_denominator_nonneg k D)

theorem reconstructionError_nonneg (X : Matrix (Fin T) (Fin D) K) (W : Matrix (Fin T) (Fin k) K)
    (S : Matrix (Fin k) (Fin D) K) : 0 ≤ reconstructionError X W S :=
  div_nonneg (Finset.sum_nonneg fun _ _ => Finset.sum_nonneg fun _ _ => sq_nonneg _)
    (by positivity)

/-! ### C118: the dictionary penalty -/

/-- C118.  Of two dictionaries that the update leaves unchanged, for the same data and weights but
different `epsilon_states`, the one for the larger value has elements that are not further apart and a
reconstruction that is not better. -/
theorem C118_gpnh_spread_decreases (cfg : LSConfig K) (h1 : 0 < cfg.sigmaOne) {eps eps' : K}
    (he : 0 ≤ eps) (hlt : eps < eps') {s t s' t' : GPNHState T D k K} (hs : 0 < s.alphaS)
    (ht : 0 < t.alphaS) (hX : t.X = s.X) (hW : t.Gamma = s.Gamma)
    (h : s.updateDictionary cfg eps = Py.ok s') (h' : t.updateDictionary cfg eps' = Py.ok t')
    (hfix : s'.S = s.S) (hfix' : t'.S = t.S) :
    dictionarySpread t.S ≤ dictionarySpread s.S ∧
      reconstructionError s.X s.Gamma s.S ≤ reconstructionError s.X s.Gamma t.S := by
  have a := (C86_gpnh_dictionary_fixed_iff_optimal cfg h1 eps he s s' hs h).1 hfix t.S
  have b := (C86_gpnh_dictionary_fixed_iff_optimal cfg h1 eps' (he.trans hlt.le) t t' ht h').1 hfix'
    s.S
  rw [hX, hW] at b
  rw [gpnhCost_split, gpnhCost_split] at a b
  have hle : dictionarySpread t.S ≤ dictionarySpread s.S := by
    by_contra hc
    nlinarith [mul_pos (sub_pos.2 hlt) (sub_pos.2 (not_le.1 hc))]
  exact ⟨hle, by nlinarith [mul_le_mul_of_nonneg_left hle he]⟩

/-- C118.  For `epsilon_states > 0` there is only one dictionary that the update leaves unchanged, for
given data and weights (two or more components, at least one sample and one feature). -/
theorem C118_gpnh_dictionary_unique (cfg : LSConfig K) (h1 : 0 < cfg.sigmaOne) {eps : K}
    (he : 0 < eps) (hk : 2 ≤ k) (hT : 1 ≤ T) (hD : 1 ≤ D) {s t s' t' : GPNHState T D k K}
    (hs : 0 < s.alphaS) (ht : 0 < t.alphaS) (hX : t.X = s.X) (hW : t.Gamma = s.Gamma)
    (hsum : ∀ r, ∑ i, s.Gamma r i = 1)
    (h : s.updateDictionary cfg eps = Py.ok s') (h' : t.updateDictionary cfg eps = Py.ok t')
    (hfix : s'.S = s.S) (hfix' : t'.S = t.S) : t.S = s.S := by
  have a := (C86_gpnh_dictionary_fixed_iff_optimal cfg h1 eps he.le s s' hs h).1 hfix
  have b := (C86_gpnh_dictionary_fixed_iff_optimal cfg h1 eps he.le t t' ht h').1 hfix' s.S
  rw [hX, hW] at b
  have hg : gradSOf eps s.X s.Gamma s.S = 0 := by
    refine (minimal_iff_gradient (f := fun S => gpnhCost eps s.X s.Gamma S)
      (q := fun H => gpnhCost eps 0 s.Gamma H) (fun H t => ?_)
      (gpnhCost_convex_S he.le _)).2 a
    rw [gpnhCost_add_S, inner_comm]
  have h2 := gpnhCost_add_S eps s.X s.Gamma s.S (t.S - s.S) 1
  rw [hg, one_smul, add_sub_cancel] at h2
  have h3 : inner (0 : Matrix (Fin k) (Fin D) K) (t.S - s.S) = 0 := by simp [Spec.inner]
  rw [h3] at h2
  have h4 : gpnhCost eps 0 s.Gamma (t.S - s.S) ≤ 0 := by linarith
  rw [gpnhCost_split] at h4
  have h5 := reconstructionError_nonneg 0 s.Gamma (t.S - s.S)
  have h6 := dictionarySpread_nonneg (t.S - s.S)
  have h7 : dictionarySpread (t.S - s.S) = 0 := by nlinarith
  have h8 : reconstructionError 0 s.Gamma (t.S - s.S) = 0 := by nlinarith
  have hk' : (1 : K) < k := by exact_mod_cast hk
  have hD' : (0 : K) < D := by exact_mod_cast hD
  have hT' : (0 : K) < T := by exact_mod_cast hT
  have hden : (k : K) * ((k : K) - 1) * (D : K) ≠ 0 :=
    (mul_pos (mul_pos (by linarith) (by linarith)) hD').ne'
  have hrows : ∀ i j d, (t.S - s.S) i d = (t.S - s.S) j d := by
    intro i j d
    have e := (div_eq_zero_iff.1 h7).resolve_right hden
    have e1 := (Finset.sum_eq_zero_iff_of_nonneg fun i _ => Finset.sum_nonneg fun j _ =>
      Finset.sum_nonneg fun d _ => sq_nonneg _).1 e i (Finset.mem_univ i)
    have e2 := (Finset.sum_eq_zero_iff_of_nonneg fun j _ =>
      Finset.sum_nonneg fun d _ => sq_nonneg _).1 e1 j (Finset.mem_univ j)
    have e3 := (Finset.sum_eq_zero_iff_of_nonneg fun d _ => sq_nonneg _).1 e2 d (Finset.mem_univ d)
    exact sub_eq_zero.1 (sq_eq_zero_iff.1 e3)
  ext i d
  have e := (div_eq_zero_iff.1 h8).resolve_right (mul_pos hD' hT').ne'
  have e1 := (Finset.sum_eq_zero_iff_of_nonneg fun t _ =>
    Finset.sum_nonneg fun d _ => sq_nonneg _).1 e ⟨0, hT⟩ (Finset.mem_univ _)
  have e2 := (Finset.sum_eq_zero_iff_of_nonneg fun d _ => sq_nonneg _).1 e1 d (Finset.mem_univ d)
  have e3 : (0 : K) - ∑ j, s.Gamma ⟨0, hT⟩ j * (t.S - s.S) j d = 0 := sq_eq_zero_iff.1 e2
  rw [Finset.sum_congr rfl fun j _ => by rw [hrows j i d], ← Finset.sum_mul, hsum, one_mul,
    zero_sub, neg_eq_zero] at e3
  exact sub_eq_zero.1 e3

/-- C118: for `epsilon_states = 0` there can be several: with one sample 1 and equal weights both 0, 2
and 1, 1 stay. -/
theorem C118_gpnh_unique_needs_penalty : ∃ s t s' t' : GPNHState 1 1 2 ℚ,
    0 < s.alphaS ∧ 0 < t.alphaS ∧ t.X = s.X ∧ t.Gamma = s.Gamma ∧ (∀ r, ∑ i, s.Gamma r i = 1) ∧
    s.updateDictionary demoLS 0 = Py.ok s' ∧ t.updateDictionary demoLS 0 = Py.ok t' ∧
    s'.S = s.S ∧ t'.S = t.S ∧ t.S ≠ s.S := by
  obtain ⟨s', hs'⟩ := (C09_gpnh demoLS (by norm_num [demoLS]) 219 (by norm_num [demoLS]) 0
    (GPNHState.initializeWorkspace (k := 2) demoLS !![1] !![1/2, 1/2] !![0; 2])).1
    (by simp [GPNHState.initializeWorkspace, demoLS])
  obtain ⟨t', ht'⟩ := (C09_gpnh demoLS (by norm_num [demoLS]) 219 (by norm_num [demoLS]) 0
    (GPNHState.initializeWorkspace (k := 2) demoLS !![1] !![1/2, 1/2] !![1; 1])).1
    (by simp [GPNHState.initializeWorkspace, demoLS])
  refine ⟨GPNHState.initializeWorkspace demoLS !![1] !![1/2, 1/2] !![0; 2],
    GPNHState.initializeWorkspace demoLS !![1] !![1/2, 1/2] !![1; 1], s', t',
    by norm_num [GPNHState.initializeWorkspace], by norm_num [GPNHState.initializeWorkspace], rfl, rfl, fun r => ?_, hs', ht',
    (C86_gpnh_dictionary_fixed_iff_optimal demoLS (by norm_num [demoLS]) 0
      le_rfl _ _ (by norm_num [GPNHState.initializeWorkspace]) hs').2 fun S => ?_,
    (C86_gpnh_dictionary_fixed_iff_optimal demoLS (by norm_num [demoLS]) 0
      le_rfl _ _ (by norm_num [GPNHState.initializeWorkspace]) ht').2 fun S => ?_, fun h => ?_⟩
  · fin_cases r
    norm_num [GPNHState.initializeWorkspace, Fin.sum_univ_two]
  · norm_num [GPNHState.initializeWorkspace, gpnhCost, sqDist, Fin.sum_univ_two]
    positivity
  · norm_num [GPNHState.initializeWorkspace, gpnhCost, sqDist, Fin.sum_univ_two]
    positivity
  · have h0 : (1 : ℚ) = 0 := congrFun (congrFun h 0) 0
    norm_num at h0

/-- C118.  A dictionary that the update leaves unchanged reconstructs the mean of the data, and the
penalty of its spread is at most the variance of the data: for large `epsilon_states` the elements
come together. -/
theorem C118_gpnh_mean_and_spread (cfg : LSConfig K) (h1 : 0 < cfg.sigmaOne) {eps : K}
    (he : 0 ≤ eps) (hT : 1 ≤ T) {s s' : GPNHState T D k K} (hs : 0 < s.alphaS)
    (hsum : ∀ r, ∑ i, s.Gamma r i = 1)
    (h : s.updateDictionary cfg eps = Py.ok s') (hfix : s'.S = s.S) :
    (∀ d, ∑ t, ∑ i, s.Gamma t i * s.S i d = ∑ t, s.X t d) ∧
      reconstructionError s.X s.Gamma s.S + eps * dictionarySpread s.S ≤
        (∑ t, ∑ d, (s.X t d - (∑ t, s.X t d) / T) ^ 2) / ((D : K) * (T : K)) := by
  have a := (C86_gpnh_dictionary_fixed_iff_optimal cfg h1 eps he s s' hs h).1 hfix
  have hT' : (0 : K) < T := by exact_mod_cast hT
  refine ⟨fun d => ?_, ?_⟩
  · have hD' : (0 : K) < D := by
      have : 0 < D := d.pos
      exact_mod_cast this
    set c : K := (∑ t, (s.X t d - ∑ i, s.Gamma t i * s.S i d)) / T with hc
    have b : reconstructionError s.X s.Gamma s.S + eps * dictionarySpread s.S ≤
        reconstructionError s.X s.Gamma (fun i d' => s.S i d' + if d' = d then c else 0) +
          eps * dictionarySpread (fun i d' => s.S i d' + if d' = d then c else 0) := a _
    have e1 : dictionarySpread (fun i d' => s.S i d' + if d' = d then c else 0) =
        dictionarySpread s.S := by
      unfold dictionarySpread sqDist
      congr 1
      refine Finset.sum_congr rfl fun i _ => Finset.sum_congr rfl fun j _ =>
        Finset.sum_congr rfl fun d' _ => ?_
      ring
    rw [e1] at b
    have b' := (div_le_div_iff_of_pos_right (mul_pos hD' hT')).1 (le_of_add_le_add_right b)
    have e2 : ∑ t, ∑ d', (s.X t d' - ∑ i, s.Gamma t i * (s.S i d' + if d' = d then c else 0)) ^ 2 =
        ∑ t, ∑ d', (s.X t d' - ∑ i, s.Gamma t i * s.S i d') ^ 2 - T * c ^ 2 := by
      have e3 : ∀ t, ∑ d', (s.X t d' - ∑ i, s.Gamma t i *
          (s.S i d' + if d' = d then c else 0)) ^ 2 =
          ∑ d', (s.X t d' - ∑ i, s.Gamma t i * s.S i d') ^ 2 +
            (c ^ 2 - 2 * c * (s.X t d - ∑ i, s.Gamma t i * s.S i d)) := by
        intro t
        have e4 : ∀ d', (s.X t d' - ∑ i, s.Gamma t i * (s.S i d' + if d' = d then c else 0)) ^ 2 =
            (s.X t d' - ∑ i, s.Gamma t i * s.S i d') ^ 2 +
              if d' = d then c ^ 2 - 2 * c * (s.X t d - ∑ i, s.Gamma t i * s.S i d) else 0 := by
          intro d'
          simp only [mul_add, Finset.sum_add_distrib, ← Finset.sum_mul, hsum, one_mul]
          split_ifs with hd
          · subst hd
            ring
          · ring
        simp only [e4, Finset.sum_add_distrib, Finset.sum_ite_eq', Finset.mem_univ, if_true]
      have e5 : ∑ t, (s.X t d - ∑ i, s.Gamma t i * s.S i d) = T * c := by
        rw [hc, mul_div_cancel₀ _ hT'.ne']
      simp only [e3, Finset.sum_add_distrib, Finset.sum_sub_distrib, ← Finset.mul_sum] at e5 ⊢
      rw [e5, Finset.sum_const, Finset.card_univ, Fintype.card_fin, nsmul_eq_mul]
      ring
    rw [e2] at b'
    have hc0 : c = 0 := by
      have : c ^ 2 ≤ 0 := by nlinarith
      exact pow_eq_zero_iff (two_ne_zero) |>.1 (le_antisymm this (sq_nonneg c))
    rw [hc, div_eq_zero_iff, or_iff_left hT'.ne', Finset.sum_sub_distrib, sub_eq_zero] at hc0
    exact hc0.symm
  · have b : reconstructionError s.X s.Gamma s.S + eps * dictionarySpread s.S ≤
        reconstructionError s.X s.Gamma (fun (_ : Fin k) d => (∑ t, s.X t d) / T) +
          eps * dictionarySpread (fun (_ : Fin k) d => (∑ t, s.X t d) / (T : K)) := a _
    have e1 : dictionarySpread (fun (_ : Fin k) d => (∑ t, s.X t d) / (T : K)) = 0 := by
      simp [dictionarySpread, sqDist]
    rw [e1, mul_zero, add_zero] at b
    refine b.trans_eq ?_
    unfold reconstructionError
    simp only [← Finset.sum_mul, hsum, one_mul]

/-- C118.  After every fit that started from given weights and a dictionary of equal elements the
penalty of the spread is at most the reconstruction error of that start, whatever the number of
iterations. -/
theorem C118_gpnh_fit_spread {env : Env K} (obj : GPNHObj env.rng)
    (hreq : obj.require = true) (hinit : obj.init = some "custom")
    (data : Arr2 K) (m : Fin data.cols → K) (W0 : Matrix (Fin data.rows) (Fin k) K)
    (hsum : ∀ r, ∑ i, W0 r i = 1)
    (kw : InitKwargs) (obj' : GPNHObj env.rng) (G : Option (Arr2 K)) (info : FitInfo K)
    (h : gpnhFitTransform env obj data (some (Arr2.of (fun (_ : Fin k) d => m d)))
      (some (Arr2.of W0)) kw = Py.ok (obj', G, info)) :
    ∃ (k' : ℕ) (S : Matrix (Fin k') (Fin data.cols) K), obj'.dictionary_ = some (Arr2.of S) ∧
      obj.epsilonStates * dictionarySpread S ≤
        (∑ t, ∑ d, (data.val t d - m d) ^ 2) / ((data.cols : K) * (data.rows : K)) := by
  obtain ⟨c, hc, hle⟩ := C20_gpnh_custom_never_worse obj hreq hinit data _ W0 kw obj' G info h
  obtain ⟨k', W, S, -, hS, -, -, -, hc'⟩ := C20_gpnh_cost obj data _ _ kw obj' G info h
  refine ⟨k', S, hS, ?_⟩
  obtain rfl := Option.some.inj (hc.symm.trans hc')
  have hle : reconstructionError data.val W S + obj.epsilonStates * dictionarySpread S ≤
      reconstructionError data.val W0 (fun (_ : Fin k) d => m d) +
        obj.epsilonStates * dictionarySpread (fun (_ : Fin k) d => m d) := hle
  have e1 : dictionarySpread (fun (_ : Fin k) d => m d) = 0 := by simp [dictionarySpread, sqDist]
  have e2 : reconstructionError data.val W0 (fun (_ : Fin k) d => m d) =
      (∑ t, ∑ d, (data.val t d - m d) ^ 2) / ((data.cols : K) * (data.rows : K)) := by
    unfold reconstructionError
    simp only [← Finset.sum_mul, hsum, one_mul]
  rw [e1, e2, mul_zero, add_zero] at hle
  have := reconstructionError_nonneg data.val W S
  linarith

/-! ### C118: the bound on the total variation -/

/-- `m'` restricts the weights at most as much as `m`. -/
def LooserBound (m m' : NumArg ℝ) : Prop :=
  ∀ tv tv', TvBound m tv → TvBound m' tv' → ∀ b', tv' = some b' → ∃ b, tv = some b ∧ b ≤ b'

theorem TvAdmissible.mono {tv tv' : Option K} {G : Matrix (Fin T) (Fin k) K}
    (h : ∀ b', tv' = some b' → ∃ b, tv = some b ∧ b ≤ b') (hG : TvAdmissible tv G) :
    TvAdmissible tv' G := by
  refine ⟨hG.1, fun b' hb' i => ?_⟩
  obtain ⟨b, hb, hle⟩ := h b' hb'
  exact (hG.2 b hb i).trans hle

/-- What a fit reports. -/
theorem fembv_least {R : Rng ℝ} {solver : LPSolver ℝ} (hs : solver.Exact) {obj obj' : FEMKMeansObj R}
    {data : Arr2 ℝ} {args : FEMArgs ℝ} {info : FEMInfo ℝ} (hw : args.updateWeights = true)
    (h : femKMeansRun R solver obj data args = Py.ok (obj', info))
    {k : ℕ} (hk : 1 < k) {Theta : Matrix (Fin k) (Fin data.cols) ℝ}
    (hTh : obj'.Theta = some (Arr2.of Theta)) :
    ∃ (G : Matrix (Fin data.rows) (Fin k) ℝ) (tv : Option ℝ), TvBound obj.maxTvNorm tv ∧
      TvAdmissible tv G ∧
      info.cost = assignmentCost G
        (fun t j => sqDist (fun d => data.val t d) (fun d => Theta j d)) ∧
      ∀ G', TvAdmissible tv G' → info.cost ≤ assignmentCost G'
        (fun t j => sqDist (fun d => data.val t d) (fun d => Theta j d)) := by
  obtain ⟨k1, G, Th, tv, htv, hG, hTh1, -, hopt⟩ := C48_fit hs hw h
  obtain ⟨k2, G2, Th2, hG2, hTh2, hcost⟩ := ((C50_costs_decrease hs obj data args).2 _ _ h).2
  have e1 := Option.some.inj (hTh.symm.trans hTh1)
  simp only [Arr2.of, Arr2.mk.injEq, true_and] at e1
  obtain ⟨rfl, e1⟩ := e1
  cases eq_of_heq e1
  have e2 := Option.some.inj (hTh.symm.trans hTh2)
  simp only [Arr2.of, Arr2.mk.injEq, true_and] at e2
  obtain ⟨rfl, e2⟩ := e2
  cases eq_of_heq e2
  have e3 := Option.some.inj (hG.symm.trans hG2)
  simp only [Arr2.of, Arr2.mk.injEq, true_and] at e3
  cases eq_of_heq e3
  obtain ⟨o1, o2⟩ := hopt hk
  exact ⟨G, tv, htv, o1, hcost, fun G' hG' => hcost.trans_le (o2 G' hG')⟩

section FEM

variable {R : Rng ℝ} {solver : LPSolver ℝ} {data : Arr2 ℝ}

/-- C118.  Of two fits (or transforms) of FEM-BV-k-means that end with the same centroids the one with
the looser bound has a cost that is not larger, whatever they started from. -/
theorem C118_fembv_looser_bound (hs : solver.Exact)
    {obj₁ obj₁' obj₂ obj₂' : FEMKMeansObj R} {args₁ args₂ : FEMArgs ℝ}
    {info₁ info₂ : FEMInfo ℝ} (hw₁ : args₁.updateWeights = true) (hw₂ : args₂.updateWeights = true)
    (hb : LooserBound obj₁.maxTvNorm obj₂.maxTvNorm)
    (h₁ : femKMeansRun R solver obj₁ data args₁ = Py.ok (obj₁', info₁))
    (h₂ : femKMeansRun R solver obj₂ data args₂ = Py.ok (obj₂', info₂))
    {k : ℕ} (hk : 1 < k) {Theta : Matrix (Fin k) (Fin data.cols) ℝ}
    (hT₁ : obj₁'.Theta = some (Arr2.of Theta)) (hT₂ : obj₂'.Theta = some (Arr2.of Theta)) :
    info₂.cost ≤ info₁.cost := by
  obtain ⟨G1, tv1, b1, a1, c1, -⟩ := fembv_least hs hw₁ h₁ hk hT₁
  obtain ⟨G2, tv2, b2, -, -, l2⟩ := fembv_least hs hw₂ h₂ hk hT₂
  exact (l2 G1 (TvAdmissible.mono (hb tv1 tv2 b1 b2) a1)).trans_eq c1.symm

/-- C118.  The cost is a convex function of the bound: if three fits end with the same centroids and the
bound of the third lies between the other two, so that it is their weighted mean, its cost is at most the
weighted mean of their costs. -/
theorem C118_fembv_cost_convex (hs : solver.Exact)
    {obj₁ obj₁' obj₂ obj₂' obj₃ obj₃' : FEMKMeansObj R} {args₁ args₂ args₃ : FEMArgs ℝ}
    {info₁ info₂ info₃ : FEMInfo ℝ} (hw₁ : args₁.updateWeights = true)
    (hw₂ : args₂.updateWeights = true) (hw₃ : args₃.updateWeights = true) {b₁ b₂ lam : ℝ}
    (hb₁ : 0 ≤ b₁) (hb₂ : 0 ≤ b₂) (hl0 : 0 ≤ lam) (hl1 : lam ≤ 1)
    (hm₁ : obj₁.maxTvNorm = .real b₁) (hm₂ : obj₂.maxTvNorm = .real b₂)
    (hm₃ : obj₃.maxTvNorm = .real ((1 - lam) * b₁ + lam * b₂))
    (h₁ : femKMeansRun R solver obj₁ data args₁ = Py.ok (obj₁', info₁))
    (h₂ : femKMeansRun R solver obj₂ data args₂ = Py.ok (obj₂', info₂))
    (h₃ : femKMeansRun R solver obj₃ data args₃ = Py.ok (obj₃', info₃))
    {k : ℕ} (hk : 1 < k) {Theta : Matrix (Fin k) (Fin data.cols) ℝ}
    (hT₁ : obj₁'.Theta = some (Arr2.of Theta)) (hT₂ : obj₂'.Theta = some (Arr2.of Theta))
    (hT₃ : obj₃'.Theta = some (Arr2.of Theta)) :
    info₃.cost ≤ (1 - lam) * info₁.cost + lam * info₂.cost := by
  obtain ⟨G1, tv1, t1, a1, c1, -⟩ := fembv_least hs hw₁ h₁ hk hT₁
  obtain ⟨G2, tv2, t2, a2, c2, -⟩ := fembv_least hs hw₂ h₂ hk hT₂
  obtain ⟨G3, tv3, t3, -, -, l3⟩ := fembv_least hs hw₃ h₃ hk hT₃
  have e1 : tv1 = some b₁ := (t1 b₁).2 ⟨hb₁, Or.inl hm₁⟩
  have e2 : tv2 = some b₂ := (t2 b₂).2 ⟨hb₂, Or.inl hm₂⟩
  have hl2 : 0 ≤ 1 - lam := by linarith
  have hadm : TvAdmissible tv3 (fun t i => (1 - lam) * G1 t i + lam * G2 t i) := by
    refine ⟨fun t => ⟨fun i => ?_, ?_⟩, fun b hb i => ?_⟩
    · have h1 : 0 ≤ G1 t i := (a1.1 t).1 i
      have h2 : 0 ≤ G2 t i := (a2.1 t).1 i
      change 0 ≤ (1 - lam) * G1 t i + lam * G2 t i
      positivity
    · have h1 : ∑ i, G1 t i = 1 := (a1.1 t).2
      have h2 : ∑ i, G2 t i = 1 := (a2.1 t).2
      change ∑ i, ((1 - lam) * G1 t i + lam * G2 t i) = 1
      rw [Finset.sum_add_distrib, ← Finset.mul_sum, ← Finset.mul_sum, h1, h2]
      ring
    · have hb3 : b = (1 - lam) * b₁ + lam * b₂ := by
        rcases ((t3 b).1 hb).2 with h | ⟨z, h, -⟩
        · exact (NumArg.real.inj (hm₃.symm.trans h)).symm
        · exact absurd (hm₃.symm.trans h) (by simp)
      rw [hb3]
      have h1 := mul_le_mul_of_nonneg_left (a1.2 b₁ e1 i) hl2
      have h2 := mul_le_mul_of_nonneg_left (a2.2 b₂ e2 i) hl0
      refine le_trans ?_ (add_le_add h1 h2)
      unfold totalVariation
      rw [Finset.mul_sum, Finset.mul_sum, ← Finset.sum_add_distrib]
      refine Finset.sum_le_sum fun t _ => ?_
      have hab : ∀ x y x' y' : ℝ, |(1 - lam) * x + lam * y - ((1 - lam) * x' + lam * y')| ≤
          (1 - lam) * |x - x'| + lam * |y - y'| := by
        intro x y x' y'
        have h3 := abs_add_le ((1 - lam) * (x - x')) (lam * (y - y'))
        rw [abs_mul, abs_mul, abs_of_nonneg hl2, abs_of_nonneg hl0] at h3
        refine le_trans (le_of_eq (congrArg abs ?_)) h3
        ring
      exact hab _ _ _ _
  refine (l3 _ hadm).trans_eq ?_
  rw [c1, c2]
  unfold assignmentCost
  rw [Finset.mul_sum, Finset.mul_sum, ← Finset.sum_add_distrib]
  refine Finset.sum_congr rfl fun t _ => ?_
  rw [Finset.mul_sum, Finset.mul_sum, ← Finset.sum_add_distrib]
  exact Finset.sum_congr rfl fun i _ => by ring

/-- C118: `transform` with the same state of the generator and number of components, at least two: the
looser bound does not give the larger cost. -/
theorem C118_fembv_transform_bound (hs : solver.Exact)
    {obj₁ obj₁' obj₂ obj₂' : FEMKMeansObj R} {G₁ G₂ : Option (Arr2 ℝ)} {info₁ info₂ : FEMInfo ℝ}
    (hrs : obj₂.randomState = obj₁.randomState) {k : ℕ} (hk : 1 < k)
    (hk₁ : obj₁.nComponents = .int k) (hk₂ : obj₂.nComponents = .int k)
    (hb : LooserBound obj₁.maxTvNorm obj₂.maxTvNorm)
    (h₁ : femKMeansTransform R solver obj₁ data = Py.ok (obj₁', G₁, info₁))
    (h₂ : femKMeansTransform R solver obj₂ data = Py.ok (obj₂', G₂, info₂)) :
    info₂.cost ≤ info₁.cost := by
  have key : ∀ {obj obj' : FEMKMeansObj R} {G : Option (Arr2 ℝ)} {info : FEMInfo ℝ},
      obj.nComponents = .int k → obj.randomState = obj₁.randomState →
      femKMeansTransform R solver obj data = Py.ok (obj', G, info) →
      femKMeansRun R solver obj data { updateParameters := false, updateWeights := true } =
        Py.ok (obj', info) ∧ ∃ theta : Matrix (Fin k) (Fin data.cols) ℝ × R.G,
        kmeansInit R data.val k none none obj₁.randomState = Py.ok theta ∧
        obj'.Theta = some (Arr2.of theta.1) := by
    intro obj obj' G info hn hr h
    unfold femKMeansTransform at h
    obtain ⟨⟨o, i⟩, hrun, h⟩ := Py.bind_eq_ok.1 h
    rw [Py.pure_eq] at h
    have hout := Py.ok.inj h
    simp only [Prod.mk.injEq] at hout
    obtain ⟨rfl, -, rfl⟩ := hout
    refine ⟨hrun, ?_⟩
    obtain ⟨p, theta, gamma, tv, con, r, hp, hth, -, htv, hcon, hr', hout⟩ := femKMeansRun_eq_ok hrun
    have hpk : p.1 = k := by
      obtain ⟨-, hc, -⟩ := checkParams_ok hp
      rw [hn] at hc
      have : ((k : ℤ)) = (p.1 : ℤ) := NumArg.int.inj hc
      omega
    rw [Prod.ext_iff] at hout
    obtain ⟨rfl, -⟩ := hout
    have hpar : r.state.params = theta.1 :=
      femLoop_params (kmeansComp p.1 data.val) solver con obj.require p.2.2 true _ _ _ _ _ _ r hr'
    obtain ⟨p1, p2⟩ := p
    obtain rfl : p1 = k := hpk
    refine ⟨theta, hr ▸ hth, ?_⟩
    change some (Arr2.of r.state.params) = _
    rw [hpar]
  obtain ⟨r1, th1, i1, e1⟩ := key hk₁ rfl h₁
  obtain ⟨r2, th2, i2, e2⟩ := key hk₂ hrs h₂
  obtain rfl := Py.ok.inj (i1.symm.trans i2)
  exact C118_fembv_looser_bound hs rfl rfl hb r1 r2 hk e1 e2

end FEM

/-! ### Concrete cases -/

/-- Bounds of the kinds compared. -/
example : LooserBound (.real (1 / 2)) (.int 3) ∧ LooserBound (.int 1) .none ∧
    LooserBound (.real 1) (.real (-1)) := by
  refine ⟨fun tv tv' h h' b' hb' => ?_, fun tv tv' h h' b' hb' => ?_, fun tv tv' h h' b' hb' => ?_⟩
  · obtain ⟨-, h1 | ⟨z, h1, rfl⟩⟩ := (h' b').1 hb'
    · simp at h1
    · refine ⟨1 / 2, (h _).2 ⟨by norm_num, Or.inl rfl⟩, ?_⟩
      rw [← NumArg.int.inj h1]
      norm_num
  · obtain ⟨-, h1 | ⟨z, h1, rfl⟩⟩ := (h' b').1 hb' <;> simp at h1
  · obtain ⟨h0, h1 | ⟨z, h1, rfl⟩⟩ := (h' b').1 hb'
    · rw [← NumArg.real.inj h1] at h0
      norm_num at h0
    · simp at h1

/-- The data 0 and 2 with the identity as weights: the dictionary 0, 2 stays for `epsilon_states = 0`,
and 1/2, 3/2 for `epsilon_states = 1/4`. -/
example : ∃ s' t' : GPNHState 2 1 2 ℚ,
    (GPNHState.initializeWorkspace demoLS !![0; 2] !![1, 0; 0, 1] !![0; 2]).updateDictionary demoLS 0 =
      Py.ok s' ∧ s'.S = !![0; 2] ∧
    (GPNHState.initializeWorkspace demoLS !![0; 2] !![1, 0; 0, 1] !![1/2; 3/2]).updateDictionary demoLS
      (1/4) = Py.ok t' ∧ t'.S = !![1/2; 3/2] := by
  obtain ⟨s', hs'⟩ := (C09_gpnh demoLS (by norm_num [demoLS]) 219 (by norm_num [demoLS]) 0
    (GPNHState.initializeWorkspace demoLS !![0; 2] !![1, 0; 0, 1] !![0; 2])).1
    (by simp [GPNHState.initializeWorkspace, demoLS])
  obtain ⟨t', ht'⟩ := (C09_gpnh demoLS (by norm_num [demoLS]) 219 (by norm_num [demoLS]) (1/4)
    (GPNHState.initializeWorkspace demoLS !![0; 2] !![1, 0; 0, 1] !![1/2; 3/2])).1
    (by simp [GPNHState.initializeWorkspace, demoLS])
  refine ⟨s', t', hs', (C86_gpnh_dictionary_fixed_iff_optimal demoLS (by norm_num [demoLS]) 0
    le_rfl _ _ (by norm_num [GPNHState.initializeWorkspace]) hs').2 fun S => ?_, ht',
    (C86_gpnh_dictionary_fixed_iff_optimal demoLS (by norm_num [demoLS]) (1/4)
    (by norm_num) _ _ (by norm_num [GPNHState.initializeWorkspace]) ht').2 fun S => ?_⟩
  · norm_num [GPNHState.initializeWorkspace, gpnhCost, sqDist, Fin.sum_univ_two]
    positivity
  · norm_num [GPNHState.initializeWorkspace, gpnhCost, sqDist, Fin.sum_univ_two]
    nlinarith [sq_nonneg (S 0 0 - 1/2), sq_nonneg (S 1 0 - 3/2), sq_nonneg (S 0 0 - S 1 0 + 1)]

/-- Transforms of the example of FEM-BV-k-means with bound 1/2 and with bound 2. -/
example : ∃ (solver : LPSolver ℝ) (o₁ o₂ : FEMKMeansObj demoRngReal) (G₁ G₂ : Option (Arr2 ℝ))
    (i₁ i₂ : FEMInfo ℝ), solver.Exact ∧
    femKMeansTransform demoRngReal solver (demoFEMBound (.real (1 / 2))) demoFEMData =
      Py.ok (o₁, G₁, i₁) ∧
    femKMeansTransform demoRngReal solver (demoFEMBound (.int 2)) demoFEMData = Py.ok (o₂, G₂, i₂) ∧
    i₂.cost ≤ i₁.cost := by
  obtain ⟨solver, hs⟩ := exists_exact_solver (K := ℝ)
  obtain ⟨⟨o₁, i₁⟩, h₁⟩ := demoFEMBound_transform hs (m := .real (1 / 2)) (by simp)
  obtain ⟨⟨o₂, i₂⟩, h₂⟩ := demoFEMBound_transform hs (m := .int 2) (by simp)
  have t₁ : femKMeansTransform demoRngReal solver (demoFEMBound (.real (1 / 2))) demoFEMData =
      Py.ok (o₁, o₁.Gamma, i₁) := by
    unfold femKMeansTransform
    rw [h₁]
    rfl
  have t₂ : femKMeansTransform demoRngReal solver (demoFEMBound (.int 2)) demoFEMData =
      Py.ok (o₂, o₂.Gamma, i₂) := by
    unfold femKMeansTransform
    rw [h₂]
    rfl
  refine ⟨solver, o₁, o₂, _, _, i₁, i₂, hs, t₁, t₂,
    C118_fembv_transform_bound (obj₁ := demoFEMBound (.real (1 / 2)))
    (obj₂ := demoFEMBound (.int 2)) hs (k := 2) rfl (by norm_num) rfl rfl ?_ t₁ t₂⟩
  intro tv tv' h h' b' hb'
  obtain ⟨-, h1 | ⟨z, h1, rfl⟩⟩ := (h' b').1 hb'
  · simp [demoFEMBound] at h1
  · refine ⟨1 / 2, (h _).2 ⟨by norm_num, Or.inl rfl⟩, ?_⟩
    have h2 : (2 : ℤ) = z := NumArg.int.inj h1
    rw [← h2]
    norm_num

end Reor
