import Verif.Proofs.FEMVARX

/-!
Weights updates with parameters that stay as they are.
-/

set_option linter.unusedSectionVars false

namespace Reor

open scoped BigOperators
open Spec

section Prefer

variable {K : Type} [Field K] [LinearOrder K] [IsStrictOrderedRing K]

/-- The solution starts with the given weights. -/
def Prefers {T k : ℕ} (G : Matrix (Fin T) (Fin k) K) {N : ℕ} (v : Fin N → K) : Prop :=
  ∀ (t : Fin T) (i : Fin k), ∃ h : (t : ℕ) * k + i < N, v ⟨t * k + i, h⟩ = G t i

open Classical in
/-- A solver that returns optimal solutions, and among those one that starts with `G` if it can. -/
noncomputable def preferringSolver {T k : ℕ} (G : Matrix (Fin T) (Fin k) K) : LPSolver K := fun lp =>
  if h : ∃ v, lp.Optimal v ∧ Prefers G v then .value h.choose
  else if h : ∃ v, lp.Optimal v then .value h.choose else .failed

theorem preferringSolver_exact {T k : ℕ} (G : Matrix (Fin T) (Fin k) K) :
    (preferringSolver G).Exact := by
  intro lp h
  unfold preferringSolver
  by_cases c : ∃ v, lp.Optimal v ∧ Prefers G v
  · exact ⟨c.choose, dif_pos c, c.choose_spec.1⟩
  · exact ⟨h.choose, (dif_neg c).trans (dif_pos h), h.choose_spec⟩

theorem preferringSolver_prefers {T k : ℕ} (G : Matrix (Fin T) (Fin k) K) {lp : LP K}
    (h : ∃ v, lp.Optimal v ∧ Prefers G v) {w : Fin lp.n → K}
    (hw : preferringSolver G lp = .value w) : Prefers G w := by
  unfold preferringSolver at hw
  rw [dif_pos h] at hw
  rw [← LPOutcome.value.inj hw]
  exact h.choose_spec.2

variable {P : Type} {T k : ℕ} {tv : Option K} {comp : FEMComp P T k K} {solver : LPSolver K}

/-- Without parameter updates the final weights are the solution for the distances of the start. -/
theorem femLoop_frozen (hk : 1 < k) {con : FEMConstraints (weightParameters tv k T) K}
    (hcon : con.Encodes) (hs : solver.Exact) (hmin : LeastExist tv T k) (require : Bool) (tol : K) :
    ∀ (is : List ℕ) (s : FEMState P T k K) (c : K) (last : Option ℕ) (tr : List K) (fl : ℕ)
      (r : FEMResult P T k K),
      femLoop comp solver (e := auxParameters tv k T) (some con) require tol false true is s c last tr
        fl = Py.ok r → (is = [] → ∃ v : Fin (k * T + auxParameters tv k T) → K,
          solver (weightsProgram con (comp.distance s.params)) = .value v ∧ s.Gamma = rawWeights v) →
      ∃ v : Fin (k * T + auxParameters tv k T) → K,
        solver (weightsProgram con (comp.distance s.params)) = .value v ∧
        r.state.Gamma = rawWeights v := by
  intro is
  induction is with
  | nil =>
    intro s c last tr fl r h h0
    unfold femLoop at h
    cases last with
    | none => simp at h
    | some n =>
      rw [← Py.ok.inj h]
      exact h0 rfl
  | cons i is ih =>
    intro s c last tr fl r h _
    rw [femLoop_cons] at h
    obtain ⟨q, hq, h⟩ := Py.bind_eq_ok.1 h
    obtain ⟨v, hv, hup, -⟩ := updateWeights_exact (comp := comp) hk hcon hs s (hmin hk _)
    have : femStep comp solver (e := auxParameters tv k T) (some con) require tol false true i s c =
      femWeightsPhase comp solver (e := auxParameters tv k T) (some con) require tol i s c := rfl
    rw [this] at hq
    unfold femWeightsPhase at hq
    rw [hup, Py.ok_bind] at hq
    obtain ⟨_, -, hq⟩ := Py.bind_eq_ok.1 hq
    obtain rfl := Py.ok.inj hq
    split at h
    · rw [← Py.ok.inj h]
      exact ⟨v, hv, rfl⟩
    · exact ih ⟨rawWeights v, s.params, comp.distance s.params⟩ _ _ _ _ r h fun _ => ⟨v, hv, rfl⟩

/-- The same for a whole iteration. -/
theorem femIterate_frozen (hk : 1 < k) {con : FEMConstraints (weightParameters tv k T) K}
    (hcon : con.Encodes) (hs : solver.Exact) (hmin : LeastExist tv T k) {require : Bool} {tol : K}
    {m : ℕ} (hm : 0 < m) {s : FEMState P T k K} {r : FEMResult P T k K}
    (h : femIterate comp solver (e := auxParameters tv k T) (some con) require tol m false true s =
      Py.ok r) :
    ∃ v : Fin (k * T + auxParameters tv k T) → K,
      solver (weightsProgram con (comp.distance s.params)) = .value v ∧
      r.state.Gamma = rawWeights v := by
  unfold femIterate at h
  refine femLoop_frozen hk hcon hs hmin require tol _
    ⟨s.Gamma, s.params, comp.distance s.params⟩ _ _ _ _ r h fun h0 => ?_
  have : m = 0 := by simpa using congrArg List.length h0
  omega

/-- If all admissible weights have the same cost, a preferring solver returns its favourite. -/
theorem femIterate_favourite (hk : 1 < k) {con : FEMConstraints (weightParameters tv k T) K}
    (hcon : con.Encodes) (hmin : LeastExist tv T k) {require : Bool} {tol : K}
    {m : ℕ} (hm : 0 < m) {s : FEMState P T k K} {r : FEMResult P T k K}
    {G : Matrix (Fin T) (Fin k) K} (hG : TvAdmissible tv G)
    (hsame : ∀ G', TvAdmissible tv G' →
      assignmentCost G (comp.distance s.params) ≤ assignmentCost G' (comp.distance s.params))
    (h : femIterate comp (preferringSolver G) (e := auxParameters tv k T) (some con) require tol m
      false true s = Py.ok r) : r.state.Gamma = G := by
  obtain ⟨v, hv, hr⟩ := femIterate_frozen hk hcon (preferringSolver_exact G) hmin hm h
  rw [hr]
  have hp : Prefers G v := by
    refine preferringSolver_prefers G ?_ hv
    obtain ⟨v0, hv0, hv0G⟩ := (layout_iff tv G).2 hG
    refine ⟨v0, ⟨(hcon v0).2 hv0, fun w hw => ?_⟩, fun t i => ⟨weightIndex_lt t.2 i.2, hv0G t i⟩⟩
    have hw' : TvAdmissible tv (rawWeights (e := auxParameters tv k T) w) :=
      (layout_iff tv _).1 ⟨w, (hcon w).1 hw, fun _ _ => rfl⟩
    have hraw : rawWeights (e := auxParameters tv k T) v0 = G := by
      funext t i
      exact hv0G t i
    refine le_of_eq_of_le (lpObjective_sum (e := auxParameters tv k T) _ v0)
      (le_of_le_of_eq ?_ (lpObjective_sum (e := auxParameters tv k T) _ w).symm)
    change assignmentCost (rawWeights v0) (comp.distance s.params) ≤ _
    rw [hraw]
    exact hsame _ hw'
  funext t i
  obtain ⟨h1, h2⟩ := hp t i
  exact h2

end Prefer

/-! ### Runs without parameter updates -/

section Run

variable {mem : Memory} {lstsq : LstSq} {R : Rng ℝ} {solver : LPSolver ℝ}
  {obj : FEMVARXObj R} {data : Arr2 ℝ} {args : FEMVARXArgs}

theorem femVARXIterate_of {n k maxIter : ℕ} {tol : ℝ} {D E : ℕ} {start : VARXStart k D E}
    {gamma : Matrix (Fin (n - start.L)) (Fin k) ℝ × R.G} {tv : Option ℝ}
    {con : Option (FEMConstraints (k * (n - start.L) + auxParameters tv k (n - start.L)) ℝ)}
    {r : FEMResult (VARXParams start.models start.L) (n - start.L) k ℝ}
    (hg : femInitWeights R (n - start.L) k args.weights args.init obj.randomState = Py.ok gamma)
    (htv : maxTvConstraint obj.maxTvNorm = Py.ok tv)
    (hcon : femConstraints tv k (n - start.L) = Py.ok con)
    (hr : femIterate (varxComp start.models start.L (n - start.L) lstsq) solver con obj.require tol
        maxIter args.updateParameters args.updateWeights
        ⟨gamma.1, start.params, varxDistance (n - start.L) start.params⟩ = Py.ok r) :
    femVARXIterate R solver lstsq obj n k maxIter tol args start = Py.ok (r, gamma.2) := by
  unfold femVARXIterate
  simp only [hg, htv, hcon, Py.ok_bind]
  exact (congrArg (fun q => q >>= fun r => Py.ok (r, gamma.2)) hr).trans rfl

theorem femVARXRun_of {p : ℕ × ℕ × ℝ} (hl : p.1 = obj.memory.length)
    {start : VARXStart p.1 data.cols (exogCols args.externalFactors)}
    {r : FEMResult (VARXParams start.models start.L) (data.rows - start.L) p.1 ℝ × R.G}
    (hp : checkParams (defaultComponents obj.nComponents data.cols) obj.maxIterations
      obj.tolerance = Py.ok p)
    (hst : varxInit mem lstsq data.val (fun i : Fin p.1 => obj.memory.get (Fin.cast hl i))
        (maxMemory obj.memory) args.externalFactors = Py.ok start)
    (hr : femVARXIterate R solver lstsq obj data.rows p.1 p.2.1 p.2.2 args start = Py.ok r) :
    femVARXRun R solver lstsq mem obj data args = Py.ok (femVARXFinish obj data args p start r) := by
  unfold femVARXRun
  simp only [hp, Py.ok_bind]
  rw [dif_pos hl, hst, Py.ok_bind]
  exact (congrArg (fun q => q >>= fun r => Py.ok (femVARXFinish obj data args p start r)) hr).trans
    rfl

/-- Local models made from the same arguments have the same fit, so the distances of a start with
equal memories do not depend on the component. -/
theorem varxDistance_start {k D E T L : ℕ} {models : Fin k → VARXModel D E}
    {p : VARXParams models L} (h : VARXUniform mem models L T)
    (hm : ∀ i j, models i = models j) (hf : ∀ i, (models i).fit lstsq none = Py.ok (p.fits i))
    (t : Fin T) (i j : Fin k) : varxDistance T p t i = varxDistance T p t j := by
  rw [h.distance, h.distance]
  have hgen : ∀ (a b : VARXModel D E) (hab : a = b) (fa : VARXFit a) (fb : VARXFit b),
      a.fit lstsq none = Py.ok fa → b.fit lstsq none = Py.ok fb → ∀ (x : ℕ) (hx : x < a.n)
      (hx' : x < b.n) (d : Fin D), fa.residuals ⟨x, hx⟩ d = fb.residuals ⟨x, hx'⟩ d := by
    intro a b hab fa fb ha hb x hx hx' d
    subst hab
    rw [ha] at hb
    rw [Py.ok.inj hb]
  exact Finset.sum_congr rfl fun d _ => by
    rw [hgen _ _ (hm i j) _ _ (hf i) (hf j) _ (h.row_lt i t) (h.row_lt j t) d]

end Run

end Reor
