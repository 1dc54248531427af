import Verif.Model.VARXFailure
import Verif.Proofs.Failure
import Verif.Proofs.VARXRun

/-!
Lemmas about failed fits of `FEMBVVARX`.
-/

set_option linter.unusedSectionVars false

namespace Reor

open scoped BigOperators Matrix
open Spec

theorem Py.bind_congr_ok {α β : Type} {x : Py α} {f g : α → Py β}
    (h : ∀ a, x = Py.ok a → f a = g a) : (x >>= f) = x >>= g := by
  cases x with
  | ok a => exact h a rfl
  | raise e => rfl
  | diverge => rfl

section Loop

variable {K : Type} [Field K] [LinearOrder K] [IsStrictOrderedRing K] {P : Type} {T k e : ℕ}
  {comp : FEMComp P T k K} {upd : Matrix (Fin T) (Fin k) K → P → Run P P}

theorem femStepU_toPy (hupd : ∀ G p, (upd G p).toPy = comp.update G p) (solver : LPSolver K)
    (con : Option (FEMConstraints (k * T + e) K)) (require : Bool) (tol : K) (up uw : Bool)
    (n : ℕ) (s : FEMState P T k K) (c : K) :
    (femStepU comp upd solver con require tol up uw n s c).toPy =
      femStep comp solver con require tol up uw n s c := by
  unfold femStepU femStep
  have hp : (femParametersPhaseU comp upd require tol n s c).toPy =
      femParametersPhase comp require tol n s c := by
    simp only [femParametersPhaseU, femParametersPhase, Run.toPy_bind, Run.toPy_within, hupd,
      FEMState.updateParameters, Py.bind_assoc, Run.toPy_lift, Run.pure_eq, Run.toPy_ok, Py.pure_eq,
      Py.ok_bind]
    rfl
  cases up <;> cases uw <;>
    simp [hp, femWeightsPhaseF, femWeightsPhase]

theorem femLoopU_toPy (hupd : ∀ G p, (upd G p).toPy = comp.update G p) (solver : LPSolver K)
    (con : Option (FEMConstraints (k * T + e) K)) (require : Bool) (tol : K) (up uw : Bool) :
    ∀ (is : List ℕ) (s : FEMState P T k K) (c : K) (last : Option ℕ) (tr : List K) (fl : ℕ),
      (femLoopU comp upd solver con require tol up uw is s c last tr fl).toPy =
        femLoop comp solver con require tol up uw is s c last tr fl
  | [], s, c, last, tr, fl => by cases last <;> rfl
  | i :: is, s, c, last, tr, fl => by
    simp only [femLoopU, femLoop, Run.toPy_bind, femStepU_toPy hupd]
    congr 1
    funext x
    rw [Run.toPy_ite]
    split_ifs
    · rfl
    · rfl
    · exact femLoopU_toPy hupd solver con require tol up uw is _ _ _ _ _
    · exact femLoopU_toPy hupd solver con require tol up uw is _ _ _ _ _

theorem femIterateU_toPy (hupd : ∀ G p, (upd G p).toPy = comp.update G p) (solver : LPSolver K)
    (con : Option (FEMConstraints (k * T + e) K)) (require : Bool) (tol : K) (m : ℕ)
    (up uw : Bool) (s : FEMState P T k K) :
    (femIterateU comp upd solver con require tol m up uw s).toPy =
      femIterate comp solver con require tol m up uw s :=
  femLoopU_toPy hupd _ _ _ _ _ _ _ _ _ _ _ _

theorem femParametersPhaseU_keeps {require : Bool} {tol : K} {n : ℕ}
    {s : FEMState P T k K} {c : K} :
    (femParametersPhaseU comp upd require tol n s c).Keeps (fun t => t.Gamma = s.Gamma)
      (fun r => r.1.Gamma = s.Gamma) := by
  unfold femParametersPhaseU
  refine ⟨fun a h => ?_, fun e t h => ?_⟩
  · obtain ⟨q, hq, h⟩ := Run.bind_eq_ok.1 h
    obtain ⟨_, -, h⟩ := Run.bind_eq_ok.1 h
    simp only [Run.pure_eq, Run.ok.injEq] at h
    subst h
    rfl
  · rcases Run.bind_eq_raise.1 h with h | ⟨q, hq, h⟩
    · obtain ⟨p, -, rfl⟩ := Run.within_eq_raise.1 h
      rfl
    · rcases Run.bind_eq_raise.1 h with h | ⟨_, -, h⟩
      · rw [(Run.lift_eq_raise.1 h).2]
        rfl
      · simp at h

theorem femStepU_keeps {solver : LPSolver K}
    {con : Option (FEMConstraints (k * T + e) K)} {require : Bool} {tol : K} {up uw : Bool}
    {n : ℕ} {s : FEMState P T k K} {c : K} :
    (femStepU comp upd solver con require tol up uw n s c).Keeps
      (fun t => (up = false → t.params = s.params) ∧ (uw = false → t.Gamma = s.Gamma))
      (fun r => (up = false → r.1.1.params = s.params) ∧ (uw = false → r.1.1.Gamma = s.Gamma)) := by
  cases up with
  | true =>
    have hp := femParametersPhaseU_keeps (comp := comp) (upd := upd) (require := require)
      (tol := tol) (n := n) (s := s) (c := c)
    refine ⟨fun a h => ⟨fun h => by simp at h, ?_⟩, fun e t h => ⟨fun h => by simp at h, ?_⟩⟩
    · rintro rfl
      obtain ⟨q, hq, h⟩ := Run.bind_eq_ok.1 h
      simp only [Run.ok.injEq] at h
      subst h
      exact hp.1 _ hq
    · rintro rfl
      rcases Run.bind_eq_raise.1 h with h | ⟨q, hq, h⟩
      · exact hp.2 _ _ h
      · simp at h
  | false =>
    have hF := femStepF_keeps (comp := comp) (solver := solver) (con := con) (require := require)
      (tol := tol) (up := false) (uw := uw) (n := n) (s := s) (c := c)
    cases uw <;> exact hF

theorem femLoopU_left {solver : LPSolver K}
    {con : Option (FEMConstraints (k * T + e) K)} {require : Bool} {tol : K} {up uw : Bool} :
    ∀ (is : List ℕ) (s : FEMState P T k K) (c : K) (last : Option ℕ) (tr : List K) (fl : ℕ)
      {err : PyErr} {t : FEMState P T k K},
      femLoopU comp upd solver con require tol up uw is s c last tr fl = Run.raise err t →
        (up = false → t.params = s.params) ∧ (uw = false → t.Gamma = s.Gamma)
  | [], s, c, last, tr, fl, err, t, h => by
    cases last with
    | none =>
      simp only [femLoopU, Run.raise.injEq] at h
      obtain ⟨-, rfl⟩ := h
      exact ⟨fun _ => rfl, fun _ => rfl⟩
    | some n => simp [femLoopU] at h
  | i :: is, s, c, last, tr, fl, err, t, h => by
    have hk := femStepU_keeps (comp := comp) (upd := upd) (solver := solver) (con := con)
      (require := require) (tol := tol) (up := up) (uw := uw) (n := i) (s := s) (c := c)
    rw [femLoopU] at h
    rcases Run.bind_eq_raise.1 h with h | ⟨q, hq, h⟩
    · exact hk.2 _ _ h
    · obtain ⟨h1, h2⟩ := hk.1 q hq
      by_cases c1 : |q.1.2 - c| < tol
      · rw [if_pos c1] at h
        simp at h
      · rw [if_neg c1] at h
        obtain ⟨h3, h4⟩ := femLoopU_left is _ _ _ _ _ h
        exact ⟨fun h => (h3 h).trans (h1 h), fun h => (h4 h).trans (h2 h)⟩

theorem femIterateU_left {solver : LPSolver K}
    {con : Option (FEMConstraints (k * T + e) K)} {require : Bool} {tol : K} {m : ℕ}
    {up uw : Bool} {s t : FEMState P T k K} {err : PyErr}
    (h : femIterateU comp upd solver con require tol m up uw s = Run.raise err t) :
    (up = false → t.params = s.params) ∧ (uw = false → t.Gamma = s.Gamma) :=
  femLoopU_left _ (s.evaluateCost comp).1 (s.evaluateCost comp).2 none [] 0 h

/-- The first update of the parameters fails. -/
theorem femIterateU_first {solver : LPSolver K}
    {con : Option (FEMConstraints (k * T + e) K)} {require : Bool} {tol : K} {m : ℕ} (hm : 1 ≤ m)
    {uw : Bool} {s : FEMState P T k K} {err : PyErr} {q : P}
    (h : upd s.Gamma s.params = Run.raise err q) :
    femIterateU comp upd solver con require tol m true uw s =
      Run.raise err { (s.evaluateCost comp).1 with params := q } := by
  obtain ⟨m, rfl⟩ : ∃ n, m = n + 1 := ⟨m - 1, by omega⟩
  unfold femIterateU
  simp only [List.range_succ_eq_map, femLoopU, femStepU, femParametersPhaseU]
  have h' : upd (s.evaluateCost comp).1.Gamma (s.evaluateCost comp).1.params = Run.raise err q := h
  rw [h']
  rfl

end Loop

/-! ### The update of the coefficients -/

section Update

variable {T k D E L : ℕ} {models : Fin k → VARXModel D E} {lstsq : LstSq}
  {Gamma : Matrix (Fin T) (Fin k) ℝ}

/-- The weighted fit of component `i`. -/
noncomputable abbrev weightedFit (models : Fin k → VARXModel D E) (lstsq : LstSq)
    (Gamma : Matrix (Fin T) (Fin k) ℝ) (i : Fin k) : Py (VARXFit (models i)) :=
  (models i).fit lstsq (some (varxWeights Gamma i (models i).p))

theorem varxUpdateLoopF_ok (g : (i : Fin k) → VARXFit (models i)) :
    ∀ (is : List (Fin k)) (p : VARXParams models L),
      (∀ i ∈ is, weightedFit models lstsq Gamma i = Py.ok (g i)) → ∀ rest : List (Fin k),
      varxUpdateLoopF lstsq Gamma (is ++ rest) p =
        varxUpdateLoopF lstsq Gamma rest (is.foldl (fun p i => p.assign i (g i)) p)
  | [], p, _, rest => rfl
  | i :: is, p, h, rest => by
    have hi := h i (by simp)
    rw [List.cons_append, varxUpdateLoopF]
    change (Run.lift p (weightedFit models lstsq Gamma i) >>= _) = _
    rw [hi]
    exact varxUpdateLoopF_ok g is _ (fun j hj => h j (List.mem_cons_of_mem _ hj)) rest

theorem varxUpdateLoopF_stop {i : Fin k} {rest : List (Fin k)} {p : VARXParams models L}
    {e : PyErr} (h : weightedFit models lstsq Gamma i = Py.raise e) :
    varxUpdateLoopF lstsq Gamma (i :: rest) p = Run.raise e p := by
  rw [varxUpdateLoopF]
  change (Run.lift p (weightedFit models lstsq Gamma i) >>= _) = _
  rw [h]
  rfl

theorem varxUpdateLoopF_diverge {i : Fin k} {rest : List (Fin k)} {p : VARXParams models L}
    (h : weightedFit models lstsq Gamma i = Py.diverge) :
    varxUpdateLoopF lstsq Gamma (i :: rest) p = Run.diverge := by
  rw [varxUpdateLoopF]
  change (Run.lift p (weightedFit models lstsq Gamma i) >>= _) = _
  rw [h]
  rfl

/-- Coefficients after some components have been fitted again. -/
theorem foldl_assign (g : (i : Fin k) → VARXFit (models i)) :
    ∀ (is : List (Fin k)) (p : VARXParams models L), is.Nodup →
      (∀ r, (is.foldl (fun p i => p.assign i (g i)) p).fits r =
        if r ∈ is then g r else p.fits r) ∧
      (∀ r, (is.foldl (fun p i => p.assign i (g i)) p).mu r =
        if r ∈ is then (g r).mu else p.mu r) ∧
      (∀ r l, (is.foldl (fun p i => p.assign i (g i)) p).A r l =
        if r ∈ is then
          (if h : (l : ℕ) < (models r).p then (g r).A ⟨l, h⟩ else p.A r l)
        else p.A r l) ∧
      (∀ r, (is.foldl (fun p i => p.assign i (g i)) p).B0 r =
        if r ∈ is then (g r).B0 else p.B0 r)
  | [], p, _ => ⟨fun _ => by simp, fun _ => by simp, fun _ _ => by simp, fun _ => by simp⟩
  | i :: is, p, h => by
    have hnd := List.nodup_cons.mp h
    obtain ⟨h1, h2, h3, h4⟩ := foldl_assign g is (p.assign i (g i)) hnd.2
    refine ⟨fun r => ?_, fun r => ?_, fun r l => ?_, fun r => ?_⟩
    · rw [List.foldl_cons, h1]
      by_cases hri : r = i
      · subst hri; simp [hnd.1, VARXParams.assign]
      · simp [hri, VARXParams.assign]
    · rw [List.foldl_cons, h2]
      by_cases hri : r = i
      · subst hri; simp [hnd.1, VARXParams.assign]
      · simp [hri, VARXParams.assign]
    · rw [List.foldl_cons, h3]
      by_cases hri : r = i
      · subst hri; simp [hnd.1, VARXParams.assign]
      · simp [hri, VARXParams.assign]
    · rw [List.foldl_cons, h4]
      by_cases hri : r = i
      · subst hri; simp [hnd.1, VARXParams.assign]
      · simp [hri, VARXParams.assign]

/-- Either all fits succeed or there is a first one that does not. -/
theorem first_failure {β : Fin k → Type} (f : (i : Fin k) → Py (β i)) :
    (∃ g : (i : Fin k) → β i, ∀ i, f i = Py.ok (g i)) ∨
    ∃ i, (∀ r, f i ≠ Py.ok r) ∧ ∀ j < i, ∃ r, f j = Py.ok r := by
  classical
  by_cases h : ∀ i, ∃ r, f i = Py.ok r
  · exact Or.inl ⟨fun i => (h i).choose, fun i => (h i).choose_spec⟩
  · push Not at h
    have hne : (Finset.univ.filter fun i => ∀ r, f i ≠ Py.ok r).Nonempty := by
      obtain ⟨i, hi⟩ := h
      exact ⟨i, by simpa using hi⟩
    refine Or.inr ⟨Finset.min' _ hne, ?_, fun j hj => ?_⟩
    · have := Finset.min'_mem _ hne
      simpa using this
    · by_contra hc
      push Not at hc
      have := Finset.min'_le (Finset.univ.filter fun i => ∀ r, f i ≠ Py.ok r) j (by simpa using hc)
      exact absurd hj (not_lt.mpr this)

theorem pyPi_first {β : Fin k → Type} {f : (i : Fin k) → Py (β i)} {i : Fin k} {e : PyErr}
    (hi : f i = Py.raise e) (hb : ∀ j < i, ∃ r, f j = Py.ok r) : pyPi f = Py.raise e := by
  induction k with
  | zero => exact i.elim0
  | succ k ih =>
    unfold pyPi
    refine Fin.cases ?_ (fun i => ?_) i (motive := fun i => f i = Py.raise e →
      (∀ j < i, ∃ r, f j = Py.ok r) → (f 0 >>= fun a => pyPi (fun i => f i.succ) >>= fun r =>
        pure (Fin.cons a r)) = Py.raise e) hi hb
    · intro hi _; rw [hi]; rfl
    · intro hi hb
      obtain ⟨a, ha⟩ := hb 0 (Fin.succ_pos i)
      rw [ha, Py.ok_bind, ih hi fun j hj => hb j.succ (Fin.succ_lt_succ_iff.mpr hj)]
      rfl

theorem pyPi_first_diverge {β : Fin k → Type} {f : (i : Fin k) → Py (β i)} {i : Fin k}
    (hi : f i = Py.diverge) (hb : ∀ j < i, ∃ r, f j = Py.ok r) : pyPi f = Py.diverge := by
  induction k with
  | zero => exact i.elim0
  | succ k ih =>
    unfold pyPi
    refine Fin.cases ?_ (fun i => ?_) i (motive := fun i => f i = Py.diverge →
      (∀ j < i, ∃ r, f j = Py.ok r) → (f 0 >>= fun a => pyPi (fun i => f i.succ) >>= fun r =>
        pure (Fin.cons a r)) = Py.diverge) hi hb
    · intro hi _; rw [hi]; rfl
    · intro hi hb
      obtain ⟨a, ha⟩ := hb 0 (Fin.succ_pos i)
      rw [ha, Py.ok_bind, ih hi fun j hj => hb j.succ (Fin.succ_lt_succ_iff.mpr hj)]
      rfl

/-- The components in order, cut at `i`. -/
theorem finRange_cut (i : Fin k) : ∃ pre post : List (Fin k),
    List.finRange k = pre ++ i :: post ∧ pre.Nodup ∧ ∀ r, r ∈ pre ↔ r < i := by
  obtain ⟨pre, post, h⟩ := List.append_of_mem (List.mem_finRange i)
  have hnd := List.nodup_finRange k
  have hs : (List.finRange k).Pairwise (· < ·) := List.pairwise_lt_finRange k
  rw [h] at hnd hs
  refine ⟨pre, post, h, (List.nodup_append.mp hnd).1, fun r => ⟨fun hr => ?_, fun hr => ?_⟩⟩
  · exact (List.pairwise_append.mp hs).2.2 r hr i (by simp)
  · have hm : r ∈ pre ++ i :: post := h ▸ List.mem_finRange r
    rcases List.mem_append.mp hm with hm | hm
    · exact hm
    · rcases List.mem_cons.mp hm with rfl | hm
      · exact absurd hr (lt_irrefl _)
      · have := (List.pairwise_cons.mp (List.pairwise_append.mp hs).2.1).1 r hm
        exact absurd hr (not_lt.mpr this.le)

/-- What `_update_parameters` leaves when it fails: the first components are done, the others as
before. -/
theorem varxUpdateF_cases (p : VARXParams models L) :
    (∃ g, (∀ i, weightedFit models lstsq Gamma i = Py.ok (g i)) ∧
      varxUpdateF lstsq Gamma p = Run.ok
        { fits := g, mu := fun i => (g i).mu
          A := fun i l => if h : (l : ℕ) < (models i).p then (g i).A ⟨l, h⟩ else p.A i l
          B0 := fun i => (g i).B0 }) ∨
    (∃ i, weightedFit models lstsq Gamma i = Py.diverge ∧
      (∀ j < i, ∃ f, weightedFit models lstsq Gamma j = Py.ok f) ∧
      varxUpdateF lstsq Gamma p = Run.diverge) ∨
    ∃ i e q, weightedFit models lstsq Gamma i = Py.raise e ∧
      varxUpdateF lstsq Gamma p = Run.raise e q ∧
      (∀ j < i, ∃ f, weightedFit models lstsq Gamma j = Py.ok f ∧ q.mu j = f.mu ∧ q.B0 j = f.B0 ∧
        ∀ l, q.A j l = if h : (l : ℕ) < (models j).p then f.A ⟨l, h⟩ else p.A j l) ∧
      ∀ j, i ≤ j → q.mu j = p.mu j ∧ q.A j = p.A j ∧ q.B0 j = p.B0 j := by
  rcases first_failure (weightedFit models lstsq Gamma) with ⟨g, hg⟩ | ⟨i, hi, hb⟩
  · refine Or.inl ⟨g, hg, ?_⟩
    have h1 := varxUpdateLoopF_ok (Gamma := Gamma) (lstsq := lstsq) g (List.finRange k) p
      (fun i _ => hg i) []
    rw [List.append_nil] at h1
    obtain ⟨f1, f2, f3, f4⟩ := foldl_assign g (List.finRange k) p (List.nodup_finRange k)
    refine h1.trans ?_
    rw [varxUpdateLoopF]
    congr 1
    simp only [List.mem_finRange, if_true] at f1 f2 f3 f4
    generalize (List.finRange k).foldl (fun p i => p.assign i (g i)) p = q at f1 f2 f3 f4
    obtain ⟨a, b, c, d⟩ := q
    simp only at f1 f2 f3 f4
    rw [VARXParams.mk.injEq]
    exact ⟨funext f1, funext f2, funext fun r => funext fun l => f3 r l, funext f4⟩
  · obtain ⟨pre, post, hcut, hnd, hmem⟩ := finRange_cut i
    classical
    let g : (j : Fin k) → VARXFit (models j) := fun j =>
      if h : j < i then (hb j h).choose else p.fits j
    have hg : ∀ j ∈ pre, weightedFit models lstsq Gamma j = Py.ok (g j) := by
      intro j hj
      have hj' := (hmem j).mp hj
      simp only [g, dif_pos hj']
      exact (hb j hj').choose_spec
    have h1 := varxUpdateLoopF_ok (Gamma := Gamma) (lstsq := lstsq) g pre p hg (i :: post)
    rw [← hcut] at h1
    obtain ⟨f1, f2, f3, f4⟩ := foldl_assign g pre p hnd
    cases hf : weightedFit models lstsq Gamma i with
    | ok r => exact absurd hf (hi r)
    | diverge => exact Or.inr (Or.inl ⟨i, hf, hb, h1.trans (varxUpdateLoopF_diverge hf)⟩)
    | raise e =>
      refine Or.inr (Or.inr ⟨i, e, _, hf, h1.trans (varxUpdateLoopF_stop hf), fun j hj => ?_,
        fun j hj => ?_⟩)
      · have hm := (hmem j).mpr hj
        refine ⟨g j, hg j hm, ?_, ?_, fun l => ?_⟩
        · rw [f2, if_pos hm]
        · rw [f4, if_pos hm]
        · rw [f3, if_pos hm]
      · have hm : j ∉ pre := fun h => absurd ((hmem j).mp h) (not_lt.mpr hj)
        refine ⟨?_, ?_, ?_⟩
        · rw [f2, if_neg hm]
        · funext l
          rw [f3, if_neg hm]
        · rw [f4, if_neg hm]

theorem varxUpdateF_toPy (Gamma : Matrix (Fin T) (Fin k) ℝ) (p : VARXParams models L) :
    (varxUpdateF lstsq Gamma p).toPy = varxUpdate lstsq Gamma p := by
  unfold varxUpdate
  rcases varxUpdateF_cases (lstsq := lstsq) (Gamma := Gamma) p with ⟨g, hg, h⟩ | ⟨i, hi, hb, h⟩ |
    ⟨i, e, q, hi, h, hb, -⟩
  · rw [h, pyPi_eq_ok.2 hg]
    rfl
  · rw [h, pyPi_first_diverge hi hb]
    rfl
  · rw [h, pyPi_first hi fun j hj => (hb j hj).imp fun f hf => hf.1]
    rfl

end Update

/-! ### The whole fit -/

section Fit

variable {R : Rng ℝ} {solver : LPSolver ℝ} {lstsq : LstSq} {mem : Memory} {obj o : FEMVARXObj R}
  {data : Arr2 ℝ} {args : FEMVARXArgs} {e : PyErr}

theorem varxInit_eq {n D k : ℕ} (X : Matrix (Fin n) (Fin D) ℝ) (memory : Fin k → ℤ) (L : ℤ)
    (u : Option (Arr2 ℝ)) :
    varxInit mem lstsq X memory L u =
      (varxCheckExog n u >>= fun _ => varxLocalModels mem lstsq X memory L u) := rfl

theorem varxLocalModels_L {n D k : ℕ} {X : Matrix (Fin n) (Fin D) ℝ} {memory : Fin k → ℤ} {L : ℤ}
    {u : Option (Arr2 ℝ)} {start : VARXStart k D (exogCols u)}
    (h : varxLocalModels mem lstsq X memory L u = Py.ok start) :
    start.L = L.toNat ∧ start.params.mu = 0 ∧ (∀ i l, start.params.A i l = 0) ∧
      ∀ i, start.params.B0 i = 0 := by
  unfold varxLocalModels at h
  obtain ⟨models, -, h⟩ := Py.bind_eq_ok.1 h
  obtain ⟨fits, -, h⟩ := Py.bind_eq_ok.1 h
  obtain ⟨_, -, h⟩ := Py.bind_eq_ok.1 h
  simp only [Py.pure_eq, Py.ok.injEq] at h
  subst h
  exact ⟨rfl, rfl, fun _ _ => rfl, fun _ => rfl⟩

theorem femVARXIterateF_toPy {n k : ℕ} {m : ℕ} {tol : ℝ} {D E : ℕ} (start : VARXStart k D E) :
    (femVARXIterateF R solver lstsq obj n k m tol args start).toPy =
      femVARXIterate R solver lstsq obj n k m tol args start := by
  simp only [femVARXIterateF, femVARXIterate, Run.toPy_bind, Run.toPy_lift, Run.toPy_within,
    Run.pure_eq, Run.toPy_ok, Py.pure_eq]
  congr 1; funext gamma; congr 1; funext tv; congr 1; funext con
  exact congrArg (fun x => x >>= _) (femIterateU_toPy (fun G p => varxUpdateF_toPy G p) _ con
    _ _ _ _ _ _)

theorem femVARXRunF_toPy (R : Rng ℝ) (solver : LPSolver ℝ) (lstsq : LstSq) (mem : Memory)
    (obj : FEMVARXObj R) (data : Arr2 ℝ) (args : FEMVARXArgs) :
    (femVARXRunF R solver lstsq mem obj data args).toPy =
      femVARXRun R solver lstsq mem obj data args := by
  unfold femVARXRunF femVARXRun
  simp only [Run.toPy_bind, Run.toPy_lift]
  congr 1; funext p
  by_cases hl : p.1 = obj.memory.length
  · rw [dif_pos hl, dif_pos hl, varxInit_eq]
    simp only [Run.toPy_bind, Run.toPy_lift, Py.bind_assoc]
    congr 1; funext _
    refine Py.bind_congr_ok fun start hst => ?_
    obtain ⟨hL, -⟩ := varxLocalModels_L hst
    have hit : (femVARXIterateF R solver lstsq
        ({ obj with nComponents := defaultComponents obj.nComponents data.cols }.zeroed p.1 data.cols
          (maxMemory obj.memory) args.externalFactors) data.rows p.1 p.2.1 p.2.2 args start).toPy =
        femVARXIterate R solver lstsq
          { obj with nComponents := defaultComponents obj.nComponents data.cols } data.rows p.1
          p.2.1 p.2.2 args start := femVARXIterateF_toPy start
    refine (congrArg (fun x => x >>= _) hit).trans ?_
    refine Py.bind_congr_ok fun r hr => ?_
    simp only [Run.pure_eq, Run.toPy_ok, Py.pure_eq, FEMVARXObj.withState, FEMVARXObj.zeroed]
    congr 2
    rw [FEMVARXObj.mk.injEq]
    refine ⟨rfl, rfl, rfl, rfl, rfl, rfl, rfl, rfl, rfl, ?_, ?_, rfl, rfl, rfl⟩
    · by_cases h0 : start.L > 0
      · rw [if_pos h0, if_pos h0]
      · rw [if_neg h0, if_neg h0, if_neg (hL ▸ h0)]
    · by_cases h0 : args.externalFactors.isSome = true
      · rw [if_pos h0, if_pos h0]
      · rw [if_neg h0, if_neg h0, if_neg h0]
  · rw [dif_neg hl, dif_neg hl]
    rfl

theorem femVARXFitTransformF_toPy (R : Rng ℝ) (solver : LPSolver ℝ) (lstsq : LstSq) (mem : Memory)
    (obj : FEMVARXObj R) (data : Arr2 ℝ) (args : FEMVARXArgs) :
    (femVARXFitTransformF R solver lstsq mem obj data args).toPy =
      femVARXFitTransform R solver lstsq mem obj data args := by
  simp only [femVARXFitTransformF, femVARXFitTransform, Run.toPy_bind, femVARXRunF_toPy,
    Run.pure_eq, Run.toPy_ok, Py.pure_eq]

theorem femVARXTransformF_toPy (R : Rng ℝ) (solver : LPSolver ℝ) (lstsq : LstSq) (mem : Memory)
    (obj : FEMVARXObj R) (data : Arr2 ℝ) :
    (femVARXTransformF R solver lstsq mem obj data).toPy =
      femVARXTransform R solver lstsq mem obj data := by
  simp only [femVARXTransformF, femVARXTransform, Run.toPy_bind, femVARXRunF_toPy,
    Run.pure_eq, Run.toPy_ok, Py.pure_eq]

/-- Where a fit can fail, and what is left then. -/
theorem femVARXRunF_raise (h : femVARXRunF R solver lstsq mem obj data args = Run.raise e o) :
    let obj' := { obj with nComponents := defaultComponents obj.nComponents data.cols }
    (checkParams obj'.nComponents obj.maxIterations obj.tolerance = Py.raise e ∧ o = obj') ∨
    ∃ q, checkParams obj'.nComponents obj.maxIterations obj.tolerance = Py.ok q ∧
      ((q.1 ≠ obj.memory.length ∧ o = obj') ∨
      ∃ hl : q.1 = obj.memory.length,
        ((varxCheckExog data.rows args.externalFactors = Py.raise e ∧ o = obj') ∨
        (varxCheckExog data.rows args.externalFactors = Py.ok () ∧
          let z := obj'.zeroed q.1 data.cols (maxMemory obj.memory) args.externalFactors
          ((varxLocalModels mem lstsq data.val
              (fun i : Fin q.1 => obj.memory.get (Fin.cast hl i)) (maxMemory obj.memory)
              args.externalFactors = Py.raise e ∧ o = z) ∨
          ∃ start, varxLocalModels mem lstsq data.val
              (fun i : Fin q.1 => obj.memory.get (Fin.cast hl i)) (maxMemory obj.memory)
              args.externalFactors = Py.ok start ∧
            ((femInitWeights R (data.rows - start.L) q.1 args.weights args.init obj.randomState =
                Py.raise e ∧ o = z) ∨
            ∃ gamma, femInitWeights R (data.rows - start.L) q.1 args.weights args.init
                obj.randomState = Py.ok gamma ∧
              ((o = { z with randomState := gamma.2, Gamma := some (Arr2.of gamma.1) }) ∨
              ∃ tv con, maxTvConstraint obj.maxTvNorm = Py.ok tv ∧
                femConstraints tv q.1 (data.rows - start.L) = Py.ok con ∧
                ∃ s : FEMState (VARXParams start.models start.L) (data.rows - start.L) q.1 ℝ,
                  femIterateU (varxComp start.models start.L (data.rows - start.L) lstsq)
                    (varxUpdateF lstsq) solver (e := auxParameters tv q.1 (data.rows - start.L)) con
                    obj.require q.2.2 q.2.1 args.updateParameters args.updateWeights
                    ⟨gamma.1, start.params,
                      (varxComp start.models start.L (data.rows - start.L) lstsq).distance
                        start.params⟩ = Run.raise e s ∧
                  o = { z with randomState := gamma.2 }.withState args.externalFactors.isSome
                    s)))))) := by
  intro obj'
  unfold femVARXRunF at h
  rcases Run.bind_eq_raise.1 h with h | ⟨q, hq, h⟩
  · exact Or.inl (Run.lift_eq_raise.1 h)
  refine Or.inr ⟨q, Run.lift_eq_ok.1 hq, ?_⟩
  by_cases hl : q.1 = obj.memory.length
  swap
  · rw [dif_neg hl] at h
    simp only [Run.raise.injEq] at h
    exact Or.inl ⟨hl, h.2.symm⟩
  refine Or.inr ⟨hl, ?_⟩
  rw [dif_pos hl] at h
  rcases Run.bind_eq_raise.1 h with h | ⟨_, hx, h⟩
  · exact Or.inl (Run.lift_eq_raise.1 h)
  refine Or.inr ⟨Run.lift_eq_ok.1 hx, ?_⟩
  intro z
  rcases Run.bind_eq_raise.1 h with h | ⟨start, hst, h⟩
  · exact Or.inl (Run.lift_eq_raise.1 h)
  refine Or.inr ⟨start, Run.lift_eq_ok.1 hst, ?_⟩
  rcases Run.bind_eq_raise.1 h with h | ⟨r, hr, h⟩
  swap
  · simp at h
  unfold femVARXIterateF at h
  rcases Run.bind_eq_raise.1 h with h | ⟨gamma, hg, h⟩
  · exact Or.inl (Run.lift_eq_raise.1 h)
  refine Or.inr ⟨gamma, Run.lift_eq_ok.1 hg, ?_⟩
  rcases Run.bind_eq_raise.1 h with h | ⟨tv, htv, h⟩
  · exact Or.inl (Run.lift_eq_raise.1 h).2
  rcases Run.bind_eq_raise.1 h with h | ⟨con, hcon, h⟩
  · exact Or.inl (Run.lift_eq_raise.1 h).2
  refine Or.inr ⟨tv, con, Run.lift_eq_ok.1 htv, Run.lift_eq_ok.1 hcon, ?_⟩
  rcases Run.bind_eq_raise.1 h with h | ⟨r, hr, h⟩
  · obtain ⟨s, hs, h⟩ := Run.within_eq_raise.1 h
    exact ⟨s, hs, h⟩
  · simp at h

theorem femVARXFitTransformF_raise
    (h : femVARXFitTransformF R solver lstsq mem obj data args = Run.raise e o) :
    femVARXRunF R solver lstsq mem obj data args = Run.raise e o := by
  rcases Run.bind_eq_raise.1 h with h | ⟨r, hr, h⟩
  · exact h
  · simp at h

theorem femVARXTransformF_raise (h : femVARXTransformF R solver lstsq mem obj data = Run.raise e o) :
    femVARXRunF R solver lstsq mem obj data { updateParameters := false, updateWeights := true } =
      Run.raise e o := by
  rcases Run.bind_eq_raise.1 h with h | ⟨r, hr, h⟩
  · exact h
  · simp at h

end Fit

end Reor
