import Verif.Model.Examples
import Verif.Props.New
import Verif.Props.FEMBV
import Verif.Props.FEMVARX

/-!
C104: the repeated fits of the example programs return the best fit.
-/

set_option linter.unusedSectionVars false

namespace Reor

open scoped BigOperators Matrix
open Spec

/-! ### Specification -/

section Spec

variable {K : Type} [Field K] [LinearOrder K] {G Obj W : Type}

/-- The models `l` are fitted one after the other, each with the generator as the one before left
it. -/
inductive Starts (start : G → Py ((Obj × W) × G)) : G → List (Obj × W) → G → Prop
  | nil (g) : Starts start g [] g
  | cons {g x g1 l g2} : start g = Py.ok (x, g1) → Starts start g1 l g2 →
      Starts start g (x :: l) g2

/-- `x` is the first of the cheapest models of `l`. -/
def FirstBest (cost : Obj → Option K) (l : List (Obj × W)) (x : Obj × W) : Prop :=
  ∃ before after, l = before ++ x :: after ∧ ∃ a, cost x.1 = some a ∧
    (∀ y ∈ before, ∃ b, cost y.1 = some b ∧ a < b) ∧
    ∀ y ∈ after, ∃ b, cost y.1 = some b ∧ a ≤ b

theorem FirstBest.mem {cost : Obj → Option K} {l : List (Obj × W)} {x : Obj × W}
    (h : FirstBest cost l x) : x ∈ l := by
  obtain ⟨b, a, rfl, -⟩ := h
  simp

theorem FirstBest.le {cost : Obj → Option K} {l : List (Obj × W)} {x y : Obj × W}
    (h : FirstBest cost l x) (hy : y ∈ l) : ∃ a b, cost x.1 = some a ∧ cost y.1 = some b ∧ a ≤ b := by
  obtain ⟨before, after, rfl, a, ha, h1, h2⟩ := h
  rcases List.mem_append.1 hy with hy | hy
  · obtain ⟨b, hb, hlt⟩ := h1 y hy
    exact ⟨a, b, ha, hb, hlt.le⟩
  · rcases List.mem_cons.1 hy with rfl | hy
    · exact ⟨a, a, ha, ha, le_rfl⟩
    · obtain ⟨b, hb, hle⟩ := h2 y hy
      exact ⟨a, b, ha, hb, hle⟩

/-! ### The loop -/

variable {start : G → Py ((Obj × W) × G)} {cost : Obj → Option K}

theorem keepBetter_best {l : List (Obj × W)} {b x : Obj × W} (hb : FirstBest cost l b) {c : K}
    (hx : cost x.1 = some c) :
    ∃ b', keepBetter cost (some b) x = Py.ok (some b') ∧ FirstBest cost (l ++ [x]) b' := by
  obtain ⟨before, after, rfl, a, ha, h1, h2⟩ := id hb
  unfold keepBetter
  simp only [hx, ha]
  by_cases hlt : c < a
  · refine ⟨x, by rw [if_pos hlt], (before ++ b :: after), [], rfl, c, hx, fun y hy => ?_,
      fun y hy => by simp at hy⟩
    obtain ⟨a', d, ha', hd, hle⟩ := hb.le hy
    rw [ha] at ha'
    cases ha'
    exact ⟨d, hd, lt_of_lt_of_le hlt hle⟩
  · refine ⟨b, by rw [if_neg hlt], before, after ++ [x], by simp, a, ha, h1, fun y hy => ?_⟩
    rcases List.mem_append.1 hy with hy | hy
    · exact h2 y hy
    · rw [List.mem_singleton] at hy
      subst hy
      exact ⟨c, hx, not_lt.1 hlt⟩

theorem bestFitLoop_some (hc : ∀ g x g', start g = Py.ok (x, g') → ∃ c, cost x.1 = some c) :
    ∀ (n : ℕ) (l : List (Obj × W)) (b : Obj × W) (g : G), FirstBest cost l b →
      (∃ l' g' b', l'.length = n ∧ Starts start g l' g' ∧
        bestFitLoop start cost n (some b) g = Py.ok (some b', g') ∧
        FirstBest cost (l ++ l') b') ∨
      (∃ l' g', l'.length < n ∧ Starts start g l' g' ∧ (∀ r, start g' ≠ Py.ok r) ∧
        bestFitLoop start cost n (some b) g = (start g' >>= fun _ => Py.raise .typeError))
  | 0, l, b, g, hb => Or.inl ⟨[], g, b, rfl, Starts.nil g, rfl, by simpa using hb⟩
  | n + 1, l, b, g, hb => by
    cases hs : start g with
    | ok r =>
      obtain ⟨x, g1⟩ := r
      obtain ⟨c, hx⟩ := hc g x g1 hs
      obtain ⟨b', hk, hb'⟩ := keepBetter_best hb hx
      have he : bestFitLoop start cost (n + 1) (some b) g =
          bestFitLoop start cost n (some b') g1 := by
        simp only [bestFitLoop, hs, Py.ok_bind, hk]
      rcases bestFitLoop_some hc n (l ++ [x]) b' g1 hb' with ⟨l', g', b'', h1, h2, h3, h4⟩ |
        ⟨l', g', h1, h2, h3, h4⟩
      · refine Or.inl ⟨x :: l', g', b'', by simp [h1], Starts.cons hs h2, he.trans h3, ?_⟩
        simpa using h4
      · exact Or.inr ⟨x :: l', g', by simpa using h1, Starts.cons hs h2, h3, he.trans h4⟩
    | raise e =>
      refine Or.inr ⟨[], g, by simp, Starts.nil g, fun r => by rw [hs]; simp, ?_⟩
      simp only [bestFitLoop, hs]
      rfl
    | diverge =>
      refine Or.inr ⟨[], g, by simp, Starts.nil g, fun r => by rw [hs]; simp, ?_⟩
      simp only [bestFitLoop, hs]
      rfl

theorem bestFitLoop_none (hc : ∀ g x g', start g = Py.ok (x, g') → ∃ c, cost x.1 = some c) (n : ℕ)
    (g : G) :
    (∃ l g' best, l.length = n ∧ Starts start g l g' ∧
        bestFitLoop start cost n none g = Py.ok (best, g') ∧
        (l = [] → best = none) ∧ (l ≠ [] → ∃ x, best = some x ∧ FirstBest cost l x)) ∨
      (∃ l g', l.length < n ∧ Starts start g l g' ∧ (∀ r, start g' ≠ Py.ok r) ∧
        bestFitLoop start cost n none g = (start g' >>= fun _ => Py.raise .typeError)) := by
  cases n with
  | zero => exact Or.inl ⟨[], g, none, rfl, Starts.nil g, rfl, fun _ => rfl, fun h => absurd rfl h⟩
  | succ n =>
    cases hs : start g with
    | ok r =>
      obtain ⟨x, g1⟩ := r
      obtain ⟨c, hx⟩ := hc g x g1 hs
      have he : bestFitLoop start cost (n + 1) none g = bestFitLoop start cost n (some x) g1 := by
        simp only [bestFitLoop, hs, Py.ok_bind, keepBetter]
      have hb : FirstBest cost [x] x := ⟨[], [], rfl, c, hx, by simp, by simp⟩
      rcases bestFitLoop_some hc n [x] x g1 hb with ⟨l', g', b'', h1, h2, h3, h4⟩ |
        ⟨l', g', h1, h2, h3, h4⟩
      · exact Or.inl ⟨x :: l', g', some b'', by simp [h1], Starts.cons hs h2, he.trans h3,
          fun h => by simp at h, fun _ => ⟨b'', rfl, h4⟩⟩
      · exact Or.inr ⟨x :: l', g', by simpa using h1, Starts.cons hs h2, h3, he.trans h4⟩
    | raise e =>
      refine Or.inr ⟨[], g, by simp, Starts.nil g, fun r => by rw [hs]; simp, ?_⟩
      simp only [bestFitLoop, hs]
      rfl
    | diverge =>
      refine Or.inr ⟨[], g, by simp, Starts.nil g, fun r => by rw [hs]; simp, ?_⟩
      simp only [bestFitLoop, hs]
      rfl

theorem Starts.det {g : G} {l l' : List (Obj × W)} {g1 g2 : G} (h : Starts start g l g1)
    (h' : Starts start g l' g2) (hl : l.length = l'.length) : l = l' ∧ g1 = g2 := by
  induction h generalizing l' with
  | nil g =>
    cases h' with
    | nil => exact ⟨rfl, rfl⟩
    | cons _ _ => simp at hl
  | cons hs _ ih =>
    cases h' with
    | nil => simp at hl
    | cons hs' h' =>
      rw [hs] at hs'
      cases hs'
      obtain ⟨rfl, rfl⟩ := ih h' (by simpa using hl)
      exact ⟨rfl, rfl⟩

theorem Starts.append {g g1 g2 : G} {l l' : List (Obj × W)} (h : Starts start g l g1)
    (h' : Starts start g1 l' g2) : Starts start g (l ++ l') g2 := by
  induction h with
  | nil => exact h'
  | cons hs _ ih => exact Starts.cons hs (ih h')

theorem Starts.split {g g2 : G} {l l' : List (Obj × W)} (h : Starts start g (l ++ l') g2) :
    ∃ g1, Starts start g l g1 ∧ Starts start g1 l' g2 := by
  induction l generalizing g with
  | nil => exact ⟨g, Starts.nil g, h⟩
  | cons x l ih =>
    cases h with
    | cons hs h =>
      obtain ⟨g1, h1, h2⟩ := ih h
      exact ⟨g1, Starts.cons hs h1, h2⟩

end Spec

/-! ### FEM-BV-k-means -/

section KMeans

variable {K : Type} [Field K] [LinearOrder K] [IsStrictOrderedRing K] {R : Rng K}
  {solver : LPSolver K}

theorem kmeansStart_cost {X : Arr2 K} {c m t i : NumArg K} (g : R.G)
    (x : FEMKMeansObj R × Option (Arr2 K)) (g' : R.G)
    (h : kmeansStart R solver X c m t i g = Py.ok (x, g')) : ∃ v, x.1.cost_ = some v := by
  unfold kmeansStart femKMeansFitTransform at h
  obtain ⟨r, hr, h⟩ := Py.bind_eq_ok.1 h
  obtain ⟨q, -, hr⟩ := Py.bind_eq_ok.1 hr
  cases h
  cases hr
  exact ⟨_, rfl⟩

/-- C104.  `fit_fembv_kmeans` fits `n_init` models, each from the generator as the previous one left it,
and returns a copy of the first of those with the smallest cost and its weights; without a start
(`n_init <= 0`) it returns `(None, None)`.  If a start does not return, neither does the whole call,
and an exception of a start is raised. -/
theorem C104_kmeans_best (X : Arr2 K) (g : R.G) (c m t i : NumArg K) (nInit : ℤ) :
    (∃ l g' best, l.length = nInit.toNat ∧ Starts (kmeansStart R solver X c m t i) g l g' ∧
        fitFembvKMeans R solver X g c m nInit t i = Py.ok (best, g') ∧
        (nInit ≤ 0 → best = none) ∧
        (0 < nInit → ∃ x, best = some x ∧ FirstBest FEMKMeansObj.cost_ l x)) ∨
      (∃ l g', l.length < nInit.toNat ∧ Starts (kmeansStart R solver X c m t i) g l g' ∧
        ((∃ e, kmeansStart R solver X c m t i g' = Py.raise e ∧
            fitFembvKMeans R solver X g c m nInit t i = Py.raise e) ∨
          kmeansStart R solver X c m t i g' = Py.diverge ∧
            fitFembvKMeans R solver X g c m nInit t i = Py.diverge)) := by
  unfold fitFembvKMeans
  rcases bestFitLoop_none (cost := FEMKMeansObj.cost_)
    (fun g x g' h => kmeansStart_cost (solver := solver) (X := X) (c := c) (m := m) (t := t) (i := i)
      g x g' h) nInit.toNat g with
    ⟨l, g', best, h1, h2, h3, h4, h5⟩ | ⟨l, g', h1, h2, h3, h4⟩
  · refine Or.inl ⟨l, g', best, h1, h2, h3, fun h => h4 ?_, fun h => h5 ?_⟩
    · rw [← List.length_eq_zero_iff, h1]
      omega
    · intro e
      rw [e] at h1
      simp only [List.length_nil] at h1
      omega
  · refine Or.inr ⟨l, g', h1, h2, ?_⟩
    rw [h4]
    cases hs : kmeansStart R solver X c m t i g' with
    | ok r => exact absurd hs (h3 r)
    | raise e => exact Or.inl ⟨e, rfl, rfl⟩
    | diverge => exact Or.inr ⟨rfl, rfl⟩

/-- C104.  More starts never give a worse result. -/
theorem C104_kmeans_more_starts (X : Arr2 K) (g : R.G) (c m t i : NumArg K) {n n' : ℤ} (hn : n ≤ n')
    {x x' : FEMKMeansObj R × Option (Arr2 K)} {g1 g2 : R.G}
    (h : fitFembvKMeans R solver X g c m n t i = Py.ok (some x, g1))
    (h' : fitFembvKMeans R solver X g c m n' t i = Py.ok (some x', g2)) :
    ∃ a b, x.1.cost_ = some a ∧ x'.1.cost_ = some b ∧ b ≤ a := by
  rcases C104_kmeans_best (solver := solver) X g c m t i n with
    ⟨l, g1', best, hl, hst, he, h0, h1⟩ | ⟨l, g1', -, -, ⟨e, -, he⟩ | ⟨-, he⟩⟩
  rotate_left
  · rw [h] at he; cases he
  · rw [h] at he; cases he
  rcases C104_kmeans_best (solver := solver) X g c m t i n' with
    ⟨l', g2', best', hl', hst', he', h0', h1'⟩ | ⟨l', g2', -, -, ⟨e, -, he'⟩ | ⟨-, he'⟩⟩
  rotate_left
  · rw [h'] at he'; cases he'
  · rw [h'] at he'; cases he'
  rw [h] at he
  rw [h'] at he'
  cases he
  cases he'
  have hpos : 0 < n := by
    by_contra hc
    have := h0 (by omega)
    cases this
  obtain ⟨y, hy, hb⟩ := h1 hpos
  cases hy
  obtain ⟨y', hy', hb'⟩ := h1' (by omega)
  cases hy'
  have hpre : l = l'.take l.length := by
    have hsplit : Starts (kmeansStart R solver X c m t i) g
        (l'.take l.length ++ l'.drop l.length) g2 := by
      rw [List.take_append_drop]
      exact hst'
    obtain ⟨g3, hs1, -⟩ := hsplit.split
    refine (hst.det hs1 ?_).1
    rw [List.length_take, hl, hl']
    omega
  have hmem : x ∈ l' := by
    have := hb.mem
    rw [hpre] at this
    exact List.mem_of_mem_take this
  obtain ⟨a, b, ha, hb, hle⟩ := hb'.le hmem
  exact ⟨b, a, hb, ha, hle⟩

end KMeans

/-- C104.  With an exact solver, the returned weights are the model's own, satisfy the bound on the total
variation, are optimal for the returned centroids, and have the returned cost. -/
theorem C104_kmeans_weights {R : Rng ℝ} {solver : LPSolver ℝ} (hs : solver.Exact) (X : Arr2 ℝ)
    (g : R.G) (c m t i : NumArg ℝ) (nInit : ℤ) {obj : FEMKMeansObj R} {w : Option (Arr2 ℝ)}
    {g' : R.G} (h : fitFembvKMeans R solver X g c m nInit t i = Py.ok (some (obj, w), g')) :
    ∃ (k : ℕ) (G : Matrix (Fin X.rows) (Fin k) ℝ) (Theta : Matrix (Fin k) (Fin X.cols) ℝ)
      (tv : Option ℝ), TvBound m tv ∧ w = some (Arr2.of G) ∧ obj.Gamma = some (Arr2.of G) ∧
      obj.Theta = some (Arr2.of Theta) ∧
      obj.cost_ = some (∑ t, ∑ j, G t j * sqDist (fun d => X.val t d) (fun d => Theta j d)) ∧
      (1 < k → TvAdmissible tv G ∧ ∀ G', TvAdmissible tv G' →
        assignmentCost G (fun t j => sqDist (fun d => X.val t d) (fun d => Theta j d)) ≤
        assignmentCost G' (fun t j => sqDist (fun d => X.val t d) (fun d => Theta j d))) := by
  rcases C104_kmeans_best (solver := solver) X g c m t i nInit with
    ⟨l, g1', best, hl, hst, he, h0, h1⟩ | ⟨l, g1', -, -, ⟨e, -, he⟩ | ⟨-, he⟩⟩
  rotate_left
  · rw [h] at he; cases he
  · rw [h] at he; cases he
  rw [h] at he
  cases he
  have hpos : 0 < nInit := by
    by_contra hc
    cases h0 (by omega)
  obtain ⟨y, hy, hb⟩ := h1 hpos
  cases hy
  have hex : ∃ g0 g1, kmeansStart R solver X c m t i g0 = Py.ok ((obj, w), g1) := by
    have hm := hb.mem
    clear hb h1 h hl
    induction hst with
    | nil => simp at hm
    | cons hs' _ ih =>
      rcases List.mem_cons.1 hm with rfl | hm
      · exact ⟨_, _, hs'⟩
      · exact ih hm
  obtain ⟨g0, g1, hk⟩ := hex
  unfold kmeansStart femKMeansFitTransform at hk
  obtain ⟨r, hr, hk⟩ := Py.bind_eq_ok.1 hk
  obtain ⟨⟨o, info⟩, hq, hr⟩ := Py.bind_eq_ok.1 hr
  cases hr
  cases hk
  obtain ⟨k, G, Theta, tv, h1, h2, h3, -, h5⟩ := C48_fit hs rfl hq
  obtain ⟨-, k', G', Theta', h1', h2', h3'⟩ := (C50_costs_decrease hs _ X {}).2 _ _ hq
  have eG : Arr2.of G = Arr2.of G' := Option.some.inj (h2.symm.trans h1')
  have eT : Arr2.of Theta = Arr2.of Theta' := Option.some.inj (h3.symm.trans h2')
  have ek : k = k' := congrArg Arr2.cols eG
  subst ek
  have eG' : G = G' := by
    simpa [Arr2.of] using eG
  have eT' : Theta = Theta' := by
    simpa [Arr2.of] using eT
  subst eG'
  subst eT'
  exact ⟨k, G, Theta, tv, h1, h2, h2, h3, congrArg some h3', h5⟩

/-! ### One component -/

theorem femLoop_one {T D e : ℕ} {X : Matrix (Fin T) (Fin D) ℝ} {solver : LPSolver ℝ}
    {con : Option (FEMConstraints (1 * T + e) ℝ)} {require : Bool} {tol : ℝ} {up uw : Bool} :
    ∀ (is : List ℕ) (s : FEMState (Matrix (Fin 1) (Fin D) ℝ) T 1 ℝ) (c : ℝ) (last : Option ℕ)
      (tr : List ℝ) (fl : ℕ), (∑ t, s.Gamma t 0 ≠ 0) →
      femLoop (kmeansComp 1 X) solver con require tol up uw is s c last tr fl ≠
        Py.raise .nonFinite
  | [], s, c, last, tr, fl, h => by
    cases last <;> simp [femLoop]
  | i :: is, s, c, last, tr, fl, h => by
    have hup : ∃ p, (kmeansComp 1 X).update s.Gamma s.params = Py.ok p := by
      refine ⟨_, if_neg ?_⟩
      rintro ⟨j, -, hj⟩
      rw [Subsingleton.elim j 0] at hj
      exact h hj
    obtain ⟨p, hp⟩ := hup
    have hstep : (∃ r, femStep (kmeansComp 1 X) solver con require tol up uw i s c = Py.ok r ∧
          r.1.1.Gamma = s.Gamma) ∨
        femStep (kmeansComp 1 X) solver con require tol up uw i s c = Py.raise .runtimeError := by
      have hcheck : ∀ a b : ℝ, femCheck require tol i a b = Py.ok () ∨
          femCheck require tol i a b = Py.raise .runtimeError := by
        intro a b
        unfold femCheck
        split
        · exact Or.inr rfl
        · exact Or.inl rfl
      unfold femStep femParametersPhase femWeightsPhase FEMState.updateParameters
        FEMState.updateWeights
      cases up <;> cases uw <;>
        simp only [if_true, hp, Py.ok_bind, Py.pure_eq, FEMState.evaluateCost,
          FEMState.evaluateDistance]
      · exact Or.inl ⟨_, rfl, rfl⟩
      · rcases hcheck c (mulSum s.Gamma ((kmeansComp 1 X).distance s.params)) with h1 | h1 <;>
          rw [h1]
        · exact Or.inl ⟨_, rfl, rfl⟩
        · exact Or.inr rfl
      · rcases hcheck c (mulSum s.Gamma ((kmeansComp 1 X).distance p)) with h1 | h1 <;> rw [h1]
        · exact Or.inl ⟨_, rfl, rfl⟩
        · exact Or.inr rfl
      · rcases hcheck c (mulSum s.Gamma ((kmeansComp 1 X).distance p)) with h1 | h1 <;> rw [h1]
        · simp only [Py.ok_bind]
          rw [h1]
          exact Or.inl ⟨_, rfl, rfl⟩
        · exact Or.inr rfl
    rw [femLoop_cons]
    rcases hstep with ⟨r, hr, hG⟩ | hr
    · rw [hr, Py.ok_bind]
      by_cases hd : |r.1.2 - c| < tol
      · rw [if_pos hd]
        simp
      · rw [if_neg hd]
        refine femLoop_one is _ _ _ _ _ ?_
        rw [hG]
        exact h
    · rw [hr]
      simp

/-- C50.  With one component, every fit from a random start with acceptable settings returns. -/
theorem C50_one_component_returns {R : Rng ℝ} (hR : R.Lawful)
    (hpos : ∀ m n g i j, 0 < (R.uniform m n g).1 i j) {solver : LPSolver ℝ} (hs : solver.Exact)
    (obj : FEMKMeansObj R) (data : Arr2 ℝ) (args : FEMArgs ℝ) (hi : args.init ≠ some "custom")
    (hk : obj.nComponents = .int 1) (hT : 1 ≤ data.rows)
    (hv : ValidConfig obj.nComponents data.cols obj.maxIterations obj.tolerance)
    (hm : obj.maxTvNorm ≠ .other) : ∃ r, femKMeansRun R solver obj data args = Py.ok r := by
  rcases C50_fit_returns hR hpos hs obj data args hi (k := 1) (Or.inl hk) hT hv hm with h | ⟨-, h⟩
  · exact h
  exfalso
  rw [validConfig_iff] at hv
  obtain ⟨⟨k, mi, tol⟩, hp, hpk, -, hk0, hm0, -⟩ := checkParams_valid hv
  have hk1 : k = 1 := by
    rw [hk] at hpk
    have : (1 : ℤ) = k := by simpa [defaultComponents] using hpk
    omega
  subst hk1
  obtain ⟨theta, hth⟩ := kmeansInit_succeeds hR (k := 1) hT data.val args.parameters hi
    obj.randomState
  obtain ⟨gamma, hga'⟩ := rightStochastic_succeeds hpos (m := data.rows) (n := 1) le_rfl theta.2
  have hga : femInitWeights R data.rows 1 args.weights args.init theta.2 = Py.ok gamma := by
    unfold femInitWeights
    rw [if_neg hi]
    exact hga'
  obtain ⟨tv, htv⟩ := maxTvConstraint_number hm
  have hcon : femConstraints tv 1 data.rows = Py.ok none := if_neg (by omega)
  rw [femKMeansRun_eq] at h
  simp only [hp, hth, hga, htv, hcon, Py.ok_bind] at h
  rcases Py.bind_eq_raise.1 h with h | ⟨r, -, h⟩
  · refine femLoop_one _ _ _ _ _ _ ?_ h
    have hst := rightStochastic_ok hR (m := data.rows) (n := 1) le_rfl hga'
    have h1 : ∀ t, gamma.1 t 0 = 1 := fun t => by
      have := (hst t).2
      simpa using this
    change ∑ t, gamma.1 t 0 ≠ 0
    simp only [h1, Finset.sum_const, Finset.card_univ, Fintype.card_fin, nsmul_eq_mul, mul_one]
    exact Nat.cast_ne_zero.2 (by omega)
  · simp at h

/-- C104.  With one component, `fit_fembv_kmeans` with at least one start returns a fit. -/
theorem C104_one_component {R : Rng ℝ} (hR : R.Lawful)
    (hpos : ∀ m n g i j, 0 < (R.uniform m n g).1 i j) {solver : LPSolver ℝ} (hs : solver.Exact)
    {X : Arr2 ℝ} (hT : 1 ≤ X.rows) (g : R.G) {m t i : NumArg ℝ} {nInit : ℤ} (hn : 0 < nInit)
    (hv : ValidConfig (.int 1) X.cols i t) (hm : m ≠ .other) :
    ∃ x g', fitFembvKMeans R solver X g (.int 1) m nInit t i = Py.ok (some x, g') := by
  have hstart : ∀ g, ∃ r, kmeansStart R solver X (.int 1) m t i g = Py.ok r := by
    intro g
    obtain ⟨r, hr⟩ := C50_one_component_returns hR hpos hs
      (femKMeansNew g (.int 1) m (maxIterations := i) (tolerance := t)) X {} (by simp) rfl hT hv hm
    exact ⟨_, Py.bind_eq_ok.2 ⟨_, Py.bind_eq_ok.2 ⟨r, hr, rfl⟩, rfl⟩⟩
  rcases C104_kmeans_best (solver := solver) X g (.int 1) m t i nInit with
    ⟨l, g1, best, -, -, he, -, h1⟩ | ⟨l, g1, -, -, ⟨e, hb, -⟩ | ⟨hb, -⟩⟩
  · obtain ⟨x, rfl, -⟩ := h1 hn
    exact ⟨x, g1, he⟩
  · obtain ⟨r, hr⟩ := hstart g1
    rw [hr] at hb
    cases hb
  · obtain ⟨r, hr⟩ := hstart g1
    rw [hr] at hb
    cases hb

/-! ### FEM-BV-VARX -/

section VARX

variable {R : Rng ℝ} {solver : LPSolver ℝ} {lstsq : LstSq} {mem : Memory}

theorem varxStart_cost {X : Arr2 ℝ} {c m : NumArg ℝ} {memory : MemoryArg} {t i : NumArg ℝ} (g : R.G)
    (x : FEMVARXObj R × Option (Arr2 ℝ)) (g' : R.G)
    (h : varxStart R solver lstsq mem X c m memory t i g = Py.ok (x, g')) :
    ∃ v, x.1.cost_ = some v := by
  unfold varxStart femVARXFitTransform at h
  obtain ⟨f, -, h⟩ := Py.bind_eq_ok.1 h
  obtain ⟨r, hr, h⟩ := Py.bind_eq_ok.1 h
  obtain ⟨q, -, hr⟩ := Py.bind_eq_ok.1 hr
  cases h
  cases hr
  exact ⟨_, rfl⟩

/-- C104.  The same for `fit_fembv_varx`. -/
theorem C104_varx_best (X : Arr2 ℝ) (g : R.G) (c m : NumArg ℝ) (memory : MemoryArg) (t i : NumArg ℝ)
    (nInit : ℤ) :
    (∃ l g' best, l.length = nInit.toNat ∧
        Starts (varxStart R solver lstsq mem X c m memory t i) g l g' ∧
        fitFembvVarx R solver lstsq mem X g c m memory nInit t i = Py.ok (best, g') ∧
        (nInit ≤ 0 → best = none) ∧
        (0 < nInit → ∃ x, best = some x ∧ FirstBest FEMVARXObj.cost_ l x)) ∨
      (∃ l g', l.length < nInit.toNat ∧
        Starts (varxStart R solver lstsq mem X c m memory t i) g l g' ∧
        ((∃ e, varxStart R solver lstsq mem X c m memory t i g' = Py.raise e ∧
            fitFembvVarx R solver lstsq mem X g c m memory nInit t i = Py.raise e) ∨
          varxStart R solver lstsq mem X c m memory t i g' = Py.diverge ∧
            fitFembvVarx R solver lstsq mem X g c m memory nInit t i = Py.diverge)) := by
  unfold fitFembvVarx
  rcases bestFitLoop_none (cost := FEMVARXObj.cost_)
    (fun g x g' h => varxStart_cost (solver := solver) (lstsq := lstsq) (mem := mem) (X := X) (c := c)
      (m := m) (memory := memory) (t := t) (i := i) g x g' h) nInit.toNat g with
    ⟨l, g', best, h1, h2, h3, h4, h5⟩ | ⟨l, g', h1, h2, h3, h4⟩
  · refine Or.inl ⟨l, g', best, h1, h2, h3, fun h => h4 ?_, fun h => h5 ?_⟩
    · rw [← List.length_eq_zero_iff, h1]
      omega
    · intro e
      rw [e] at h1
      simp only [List.length_nil] at h1
      omega
  · refine Or.inr ⟨l, g', h1, h2, ?_⟩
    rw [h4]
    cases hs : varxStart R solver lstsq mem X c m memory t i g' with
    | ok r => exact absurd hs (h3 r)
    | raise e => exact Or.inl ⟨e, rfl, rfl⟩
    | diverge => exact Or.inr ⟨rfl, rfl⟩

/-- C104.  A negative memory, and a memory with another number of components than given, are rejected
before anything is fitted, if there is a start at all. -/
theorem C104_varx_memory_rejected (X : Arr2 ℝ) (g : R.G) (m : NumArg ℝ) (t i : NumArg ℝ) {nInit : ℤ}
    (hn : 0 < nInit) {c : ℤ} {memory : MemoryArg}
    (hm : (∃ z, z < 0 ∧ memory = .int z) ∨ (∃ l, memory = .list l ∧ (l.length : ℤ) ≠ c) ∨
      memory = .other) :
    fitFembvVarx R solver lstsq mem X g (.int c) m memory nInit t i = Py.raise .valueError := by
  have hmem : varxMemory (.int c) memory = Py.raise .valueError := by
    rcases hm with ⟨z, hz, rfl⟩ | ⟨l, rfl, hl⟩ | rfl
    · simp [varxMemory, hz]
    · simp [varxMemory, memoryShape, hl]
    · rfl
  obtain ⟨n, hn'⟩ : ∃ n, nInit.toNat = n + 1 := ⟨nInit.toNat - 1, by omega⟩
  unfold fitFembvVarx
  rw [hn']
  simp only [bestFitLoop, varxStart, femVARXNew, hmem]
  rfl

end VARX

/-! ### The constructor of `FEMBVVARX` -/

/-- C101.  The memory of `FEMBVVARX`: none is 0 and an integer is taken for all components, a list must
have one entry for each component and may contain negative entries.  Everything else is a ValueError; a
missing number of components, which `FEMBVKMeans` accepts, is a TypeError unless a list is given (then a
ValueError). -/
theorem C101_varx_memory {R : Rng ℝ} (g : R.G) (maxTv maxIterations tolerance : NumArg ℝ)
    (kw : Kwargs ℝ) :
    (∀ c : ℕ, ∃ obj : FEMVARXObj R,
      femVARXNew g (.int c) maxTv .none kw maxIterations tolerance = Py.ok obj ∧
      obj.memory = List.replicate c 0) ∧
    (∀ c z : ℕ, ∃ obj : FEMVARXObj R,
      femVARXNew g (.int c) maxTv (.int z) kw maxIterations tolerance = Py.ok obj ∧
      obj.memory = List.replicate c (z : ℤ)) ∧
    (∀ (c : ℕ) (l : List ℤ), l.length = c → ∃ obj : FEMVARXObj R,
      femVARXNew g (.int c) maxTv (.list l) kw maxIterations tolerance = Py.ok obj ∧
      obj.memory = l) ∧
    (∀ (c : ℤ) (l : List ℤ), (l.length : ℤ) ≠ c →
      (femVARXNew g (.int c) maxTv (.list l) kw maxIterations tolerance : Py (FEMVARXObj R)) =
        Py.raise .valueError) ∧
    (∀ (n : NumArg ℝ) (z : ℤ), z < 0 →
      (femVARXNew g n maxTv (.int z) kw maxIterations tolerance : Py (FEMVARXObj R)) =
        Py.raise .valueError) ∧
    (∀ n, (femVARXNew g n maxTv .other kw maxIterations tolerance : Py (FEMVARXObj R)) =
        Py.raise .valueError) ∧
    (∀ (c : ℤ) (m : MemoryArg), c < 0 →
      (femVARXNew g (.int c) maxTv m kw maxIterations tolerance : Py (FEMVARXObj R)) =
        Py.raise .valueError) ∧
    (∀ z : ℕ, (femVARXNew g .none maxTv .none kw maxIterations tolerance : Py (FEMVARXObj R)) =
        Py.raise .typeError ∧
      (femVARXNew g .none maxTv (.int z) kw maxIterations tolerance : Py (FEMVARXObj R)) =
        Py.raise .typeError) ∧
    (∀ l, (femVARXNew g .none maxTv (.list l) kw maxIterations tolerance : Py (FEMVARXObj R)) =
        Py.raise .valueError) := by
  have hc : ∀ c : ℕ, ¬ ((c : ℤ) < 0) := fun c => by omega
  refine ⟨fun c => ⟨_, by simp [femVARXNew, varxMemory, npFullInt]; rfl, rfl⟩,
    fun c z => ⟨_, by simp [femVARXNew, varxMemory, npFullInt]; rfl, rfl⟩,
    fun c l h => ⟨_, by simp [femVARXNew, varxMemory, memoryShape, h]; rfl, rfl⟩,
    fun c l h => by simp [femVARXNew, varxMemory, memoryShape, h],
    fun n z h => by simp [femVARXNew, varxMemory, h], fun n => rfl, fun c m h => ?_,
    fun z => ⟨rfl, by simp only [femVARXNew, varxMemory, npFullInt, if_neg (hc z), Py.raise_bind]⟩,
    fun l => by simp [femVARXNew, varxMemory, memoryShape]⟩
  cases m with
  | none => simp [femVARXNew, varxMemory, npFullInt, h]
  | int z => by_cases hz : z < 0 <;> simp [femVARXNew, varxMemory, npFullInt, h, hz]
  | list l => simp [femVARXNew, varxMemory, memoryShape, show ¬ ((l.length : ℤ) = c) by omega]
  | other => rfl

/-- C101.  A number of components given as a float is compared with the length of a list of memories, so
`3.0` components with three memories are accepted; without a list it is a TypeError. -/
theorem C101_varx_memory_float {R : Rng ℝ} (g : R.G) (x : ℝ) (maxTv maxIterations tolerance : NumArg ℝ)
    (kw : Kwargs ℝ) :
    (∀ l : List ℤ, (l.length : ℝ) = x → ∃ obj : FEMVARXObj R,
      femVARXNew g (.real x) maxTv (.list l) kw maxIterations tolerance = Py.ok obj ∧
      obj.memory = l ∧ obj.nComponents = .real x) ∧
    (∀ l : List ℤ, (l.length : ℝ) ≠ x →
      (femVARXNew g (.real x) maxTv (.list l) kw maxIterations tolerance : Py (FEMVARXObj R)) =
        Py.raise .valueError) ∧
    (femVARXNew g (.real x) maxTv .none kw maxIterations tolerance : Py (FEMVARXObj R)) =
      Py.raise .typeError ∧
    ∀ z : ℕ, (femVARXNew g (.real x) maxTv (.int z) kw maxIterations tolerance : Py (FEMVARXObj R)) =
      Py.raise .typeError := by
  have hc : ∀ c : ℕ, ¬ ((c : ℤ) < 0) := fun c => by omega
  exact ⟨fun l h => ⟨_, by simp [femVARXNew, varxMemory, memoryShape, h]; rfl, rfl, rfl⟩,
    fun l h => by simp [femVARXNew, varxMemory, memoryShape, h], rfl,
    fun z => by simp only [femVARXNew, varxMemory, npFullInt, if_neg (hc z), Py.raise_bind]⟩

/-- C101.  The constructor of `FEMBVVARX` stores its other arguments unchecked; the monotonicity check is
off by default, and no other keyword has an effect. -/
theorem C101_varx_constructor {R : Rng ℝ} (g : R.G) (n maxTv maxIterations tolerance : NumArg ℝ)
    (m : MemoryArg) (kw : Kwargs ℝ) {obj : FEMVARXObj R}
    (h : femVARXNew g n maxTv m kw maxIterations tolerance = Py.ok obj) :
    obj.nComponents = n ∧ obj.maxTvNorm = maxTv ∧ obj.maxIterations = maxIterations ∧
    obj.tolerance = tolerance ∧ obj.randomState = g ∧ obj.Gamma = none ∧ obj.mu = none ∧
    obj.A = none ∧ obj.B0 = none ∧ obj.nComponents_ = none ∧ obj.cost_ = none ∧ obj.nIter_ = none ∧
    CheckSetting kw false obj.require ∧
    ∀ kw' : Kwargs ℝ, kw.lookup "require_monotonic_cost_decrease" =
      kw'.lookup "require_monotonic_cost_decrease" →
      femVARXNew g n maxTv m kw' maxIterations tolerance = Py.ok obj := by
  unfold femVARXNew at h ⊢
  obtain ⟨mem, hm, h⟩ := Py.bind_eq_ok.1 h
  obtain rfl := Py.ok.inj h
  refine ⟨rfl, rfl, rfl, rfl, rfl, rfl, rfl, rfl, rfl, rfl, rfl, rfl, ?_, fun kw' hk => ?_⟩
  · refine ⟨fun h => ?_, fun b h => ?_, fun z h => ?_, fun x h => ?_⟩ <;>
      simp [Kwargs.get, h, KwVal.truth]
  · rw [hm]
    simp only [Py.ok_bind, Py.pure_eq, Kwargs.get, hk]

/-- Two components with memories 1 and -3, which is not rejected here; without a number of components
the default memory is. -/
example (g : demoRngReal.G) : (∃ obj : FEMVARXObj demoRngReal,
      femVARXNew g (.int 2) .none (.list [1, -3]) = Py.ok obj ∧ obj.memory = [1, -3]) ∧
    (femVARXNew g .none .none : Py (FEMVARXObj demoRngReal)) = Py.raise .typeError :=
  ⟨(C101_varx_memory (R := demoRngReal) g .none _ _ _).2.2.1 2 [1, -3] rfl,
    ((C101_varx_memory (R := demoRngReal) g .none _ _ _).2.2.2.2.2.2.2.1 0).1⟩

/-! ### Concrete cases -/

/-- Five starts of which the fourth and the fifth are the cheapest: the fourth is returned. -/
example : bestFitLoop (K := ℤ) (fun g : ℕ => Py.ok ((g, ()), g + 1))
    (fun i => [7, 3, 5, 2, 2][i]?) 5 none 0 = Py.ok (some (3, ()), 5) := rfl

/-- An exception of the second start ends the call. -/
example : bestFitLoop (K := ℤ) (fun g : ℕ => if g = 1 then Py.raise .nonFinite else
    Py.ok ((g, ()), g + 1)) (fun i => [7, 3, 5, 2, 2][i]?) 5 none 0 =
      (Py.raise .nonFinite : Py (Option (ℕ × Unit) × ℕ)) := rfl

/-- No start. -/
example {solver : LPSolver ℝ} (g : ℕ) :
    fitFembvKMeans demoRngReal solver demoFEMData g (nInit := 0) = Py.ok (none, g) := rfl

/-- Ten starts with one component and the default settings return a fit, with admissible weights, and
twenty one that is not worse. -/
example (g : demoRngReal.G) : ∃ (solver : LPSolver ℝ) (x y : FEMKMeansObj demoRngReal × Option (Arr2 ℝ))
    (g1 g2 : demoRngReal.G) (a b : ℝ),
    fitFembvKMeans demoRngReal solver demoFEMData g (.int 1) = Py.ok (some x, g1) ∧
    fitFembvKMeans demoRngReal solver demoFEMData g (.int 1) (nInit := 20) = Py.ok (some y, g2) ∧
    x.1.cost_ = some a ∧ y.1.cost_ = some b ∧ b ≤ a ∧ x.2 = x.1.Gamma := by
  obtain ⟨solver, hs⟩ := exists_exact_solver (K := ℝ)
  have hv : ValidConfig (.int 1 : NumArg ℝ) demoFEMData.cols (.int 500) (.real (1 / 10 ^ 4)) :=
    ⟨Or.inr ⟨1, rfl, by norm_num⟩, ⟨500, rfl, by norm_num⟩, Or.inr ⟨_, rfl, by norm_num⟩⟩
  have key := fun (n : ℤ) (hn : 0 < n) => C104_one_component (R := demoRngReal) demoRngReal_lawful
    (fun m n g i j => Nat.cast_pos.2 (Nat.succ_pos _)) hs (X := demoFEMData)
    (by simp [demoFEMData, Arr2.of]) g (m := .none) hn hv (by simp)
  obtain ⟨x, g1, hx⟩ := key 10 (by norm_num)
  obtain ⟨y, g2, hy⟩ := key 20 (by norm_num)
  obtain ⟨a, b, ha, hb, hle⟩ := C104_kmeans_more_starts demoFEMData g (.int 1) .none _ _
    (by norm_num : (10 : ℤ) ≤ 20) hx hy
  obtain ⟨k, G, Th, tv, -, hw, hG, -⟩ := C104_kmeans_weights hs demoFEMData g (.int 1) .none _ _ 10 hx
  exact ⟨solver, x, y, g1, g2, a, b, hx, hy, ha, hb, hle, hw.trans hG.symm⟩

end Reor
