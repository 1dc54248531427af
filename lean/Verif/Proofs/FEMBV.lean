import Verif.Model.FEMBV
import Verif.Spec
import Verif.Proofs.FEMConstraints
import Mathlib.Algebra.Order.BigOperators.Group.Finset
import Mathlib.Algebra.BigOperators.Ring.Finset
import Mathlib.Tactic.Linarith
import Mathlib.Tactic.Ring

/-!
Lemmas about the FEM-BV weights program.
-/

set_option linter.unusedSectionVars false

namespace Reor

open scoped BigOperators
open Spec

variable {K : Type} [Field K] [LinearOrder K] [IsStrictOrderedRing K]

/-! ### Linear programs -/

/-- `v` satisfies the constraints. -/
def LP.Feasible (lp : LP K) (v : Fin lp.n → K) : Prop :=
  lp.Aeq.mulVec v = lp.beq ∧ ∀ r, lp.Aub.mulVec v r ≤ lp.bub r

/-- `v` is an optimal solution. -/
def LP.Optimal (lp : LP K) (v : Fin lp.n → K) : Prop :=
  lp.Feasible v ∧ ∀ w, lp.Feasible w → ∑ j, lp.c j * v j ≤ ∑ j, lp.c j * w j

/-- The solver returns an optimal solution of every program that has one. -/
def LPSolver.Exact (solver : LPSolver K) : Prop :=
  ∀ lp : LP K, (∃ v, lp.Optimal v) → ∃ v, solver lp = .value v ∧ lp.Optimal v

open Classical in
/-- There is an exact solver. -/
theorem exists_exact_solver : ∃ solver : LPSolver K, solver.Exact := by
  refine ⟨fun lp => if h : ∃ v, lp.Optimal v then .value h.choose else .failed, ?_⟩
  intro lp h
  exact ⟨h.choose, dif_pos h, h.choose_spec⟩

/-! ### Completing weights by auxiliary variables -/

section Layout

variable {T k : ℕ}

/-- Weights by natural number indices. -/
def extG (G : Matrix (Fin T) (Fin k) K) (t i : ℕ) : K :=
  if h : t < T ∧ i < k then G ⟨t, h.1⟩ ⟨i, h.2⟩ else 0

theorem extG_of_lt (G : Matrix (Fin T) (Fin k) K) {t i : ℕ} (ht : t < T) (hi : i < k) :
    extG G t i = G ⟨t, ht⟩ ⟨i, hi⟩ := dif_pos ⟨ht, hi⟩

/-- The weights followed by the absolute values of their steps. -/
def completion (G : Matrix (Fin T) (Fin k) K) (j : ℕ) : K :=
  if j < k * T then extG G (j / k) (j % k)
  else |extG G ((j - k * T) / k + 1) ((j - k * T) % k) - extG G ((j - k * T) / k) ((j - k * T) % k)|

theorem index_div {t i k : ℕ} (hi : i < k) : (t * k + i) / k = t := by
  rw [Nat.mul_comm, Nat.mul_add_div (by omega), Nat.div_eq_of_lt hi, Nat.add_zero]

theorem index_mod {t i k : ℕ} (hi : i < k) : (t * k + i) % k = i := by
  rw [Nat.mul_comm, Nat.mul_add_mod, Nat.mod_eq_of_lt hi]

theorem completion_weight (G : Matrix (Fin T) (Fin k) K) {t i : ℕ} (ht : t < T) (hi : i < k) :
    completion G (t * k + i) = G ⟨t, ht⟩ ⟨i, hi⟩ := by
  unfold completion
  have : t * k + i < k * T := weightIndex_lt (e := 0) ht hi
  rw [if_pos this, index_div hi, index_mod hi, extG_of_lt G ht hi]

theorem completion_aux (G : Matrix (Fin T) (Fin k) K) {t i : ℕ} (ht : t < T - 1) (hi : i < k) :
    completion G (k * T + t * k + i) =
      |G ⟨t + 1, by omega⟩ ⟨i, hi⟩ - G ⟨t, by omega⟩ ⟨i, hi⟩| := by
  unfold completion
  have e : k * T + t * k + i - k * T = t * k + i := by omega
  rw [if_neg (by omega), e, index_div hi, index_mod hi, extG_of_lt G (by omega) hi,
    extG_of_lt G (by omega) hi]

theorem weight_lt_params (tv : Option K) {t i : ℕ} (ht : t < T) (hi : i < k) :
    t * k + i < weightParameters tv k T := weightIndex_lt ht hi

theorem aux_lt_params (x : K) {t i : ℕ} (ht : t < T - 1) (hi : i < k) :
    k * T + t * k + i < weightParameters (some x) k T := by
  have := weightIndex_lt (e := 0) ht hi
  unfold weightParameters auxParameters
  simp only [Option.isSome_some, if_true]
  omega

theorem completion_nonneg {G : Matrix (Fin T) (Fin k) K} (h : ∀ t i, 0 ≤ G t i) (j : ℕ) :
    0 ≤ completion G j := by
  unfold completion
  by_cases c : j < k * T
  · rw [if_pos c]
    unfold extG
    split
    · exact h _ _
    · exact le_refl 0
  · rw [if_neg c]
    exact abs_nonneg _

/-- Weights can be completed to satisfy the constraints exactly if they are admissible. -/
theorem layout_iff (tv : Option K) (G : Matrix (Fin T) (Fin k) K) :
    (∃ v : Fin (weightParameters tv k T) → K, LayoutFeasible tv k T (ext0 v) ∧
      ∀ (t : Fin T) (i : Fin k), v ⟨t * k + i, weight_lt_params tv t.2 i.2⟩ = G t i) ↔
      TvAdmissible tv G := by
  constructor
  · rintro ⟨v, hv, hG⟩
    have hG' : ∀ (t : ℕ) (i : ℕ) (ht : t < T) (hi : i < k),
        ext0 v (t * k + i) = G ⟨t, ht⟩ ⟨i, hi⟩ := by
      intro t i ht hi
      rw [ext0_of_lt v (weight_lt_params tv ht hi)]
      exact hG ⟨t, ht⟩ ⟨i, hi⟩
    refine ⟨fun t => ⟨fun i => ?_, ?_⟩, ?_⟩
    · have := hv.nonneg _ (weight_lt_params tv t.2 i.2)
      rw [hG' t i t.2 i.2] at this
      exact this
    · have := hv.sums t t.2
      rw [Finset.sum_range] at this
      rw [← this]
      exact Finset.sum_congr rfl fun i _ => (hG' t i t.2 i.2).symm
    · intro b hb i
      refine le_trans ?_ (hv.total b hb i i.2)
      unfold totalVariation
      rw [Finset.sum_range]
      refine Finset.sum_le_sum fun t _ => ?_
      have hs : tv.isSome = true := by rw [hb]; rfl
      have h1 := hv.up hs t t.2 i i.2
      have h2 := hv.down hs t t.2 i i.2
      rw [hG' (t + 1) i (by omega) i.2, hG' t i (by omega) i.2] at h1 h2
      exact abs_le.2 ⟨by linarith, h1⟩
  · rintro ⟨hr, hb⟩
    have hn : ∀ t i, 0 ≤ G t i := fun t i => (hr t).1 i
    have he : ∀ j, j < weightParameters tv k T →
        ext0 (fun j : Fin (weightParameters tv k T) => completion G j) j = completion G j :=
      fun j hj => ext0_of_lt _ hj
    refine ⟨fun j => completion G j, ⟨?_, ?_, ?_, ?_, ?_⟩, ?_⟩
    · intro t ht
      rw [Finset.sum_range, ← (hr ⟨t, ht⟩).2]
      refine Finset.sum_congr rfl fun i _ => ?_
      rw [he _ (weight_lt_params tv ht i.2), completion_weight G ht i.2]
    · intro j hj
      rw [he j hj]
      exact completion_nonneg hn j
    · intro hs t ht i hi
      obtain ⟨x, rfl⟩ := Option.isSome_iff_exists.1 hs
      rw [he _ (weight_lt_params _ (by omega) hi), he _ (weight_lt_params _ (by omega) hi),
        he _ (aux_lt_params x ht hi), completion_aux G ht hi, completion_weight G (by omega) hi,
        completion_weight G (by omega) hi]
      exact le_abs_self _
    · intro hs t ht i hi
      obtain ⟨x, rfl⟩ := Option.isSome_iff_exists.1 hs
      rw [he _ (weight_lt_params _ (by omega) hi), he _ (weight_lt_params _ (by omega) hi),
        he _ (aux_lt_params x ht hi), completion_aux G ht hi, completion_weight G (by omega) hi,
        completion_weight G (by omega) hi, abs_sub_comm]
      exact le_abs_self _
    · intro x hx i hi
      subst hx
      refine le_trans (le_of_eq ?_) (hb x rfl ⟨i, hi⟩)
      unfold totalVariation
      rw [Finset.sum_range]
      refine Finset.sum_congr rfl fun t _ => ?_
      rw [he _ (aux_lt_params x t.2 hi), completion_aux G t.2 hi]
    · intro t i
      exact completion_weight G t.2 i.2

/-- Sums over row-major positions. -/
theorem sum_range_rows (f : ℕ → K) (k T : ℕ) :
    ∑ j ∈ Finset.range (k * T), f j =
      ∑ t ∈ Finset.range T, ∑ i ∈ Finset.range k, f (t * k + i) := by
  induction T with
  | zero => simp
  | succ T ih =>
    rw [Nat.mul_succ, Finset.sum_range_add, ih, Finset.sum_range_succ, Nat.mul_comm k T]

/-- The objective is the assignment cost of the weights. -/
theorem lpObjective_sum {e : ℕ} (D : Matrix (Fin T) (Fin k) K) (v : Fin (k * T + e) → K) :
    ∑ j, lpObjective e D j * v j =
      assignmentCost (fun t i => v ⟨t * k + i, weightIndex_lt t.2 i.2⟩) D := by
  rw [Fin.sum_univ_add]
  have h0 : ∑ j : Fin e, lpObjective e D (Fin.natAdd (k * T) j) * v (Fin.natAdd (k * T) j) = 0 := by
    refine Finset.sum_eq_zero fun j _ => ?_
    have : lpObjective e D (Fin.natAdd (k * T) j) = 0 :=
      dif_neg (by simp only [Fin.val_natAdd]; omega)
    rw [this, zero_mul]
  rw [h0, add_zero]
  have h1 : ∑ j : Fin (k * T), lpObjective e D (Fin.castAdd e j) * v (Fin.castAdd e j) =
      ∑ j ∈ Finset.range (k * T), extG D (j / k) (j % k) * ext0 v j := by
    rw [Finset.sum_range]
    refine Finset.sum_congr rfl fun j _ => ?_
    have hlt := j.2
    have a : lpObjective e D (Fin.castAdd e j) = extG D (j / k) (j % k) := by
      have hk : 0 < k := Nat.pos_of_ne_zero fun h => absurd hlt (by simp [h])
      rw [extG_of_lt D (Nat.div_lt_of_lt_mul hlt) (Nat.mod_lt _ hk)]
      exact dif_pos hlt
    rw [a, ext0_of_lt v (show (j : ℕ) < k * T + e by omega)]
    rfl
  rw [h1, sum_range_rows, Finset.sum_range]
  unfold assignmentCost
  refine Finset.sum_congr rfl fun t _ => ?_
  rw [Finset.sum_range]
  refine Finset.sum_congr rfl fun i _ => ?_
  rw [index_div i.2, index_mod i.2, extG_of_lt D t.2 i.2, ext0_of_lt v (weightIndex_lt t.2 i.2),
    mul_comm]

end Layout

/-! ### The weights update -/

theorem clip01_of_mem {x : K} (h0 : 0 ≤ x) (h1 : x ≤ 1) : clip01 x = x := by
  unfold clip01
  rw [max_eq_left h0, min_eq_left h1]

theorem tvAdmissible_le_one {T k : ℕ} {tv : Option K} {G : Matrix (Fin T) (Fin k) K}
    (h : TvAdmissible tv G) (t : Fin T) (i : Fin k) : G t i ≤ 1 := by
  rw [← (h.1 t).2]
  exact Finset.single_le_sum (f := fun j => G t j) (fun j _ => (h.1 t).1 j) (Finset.mem_univ i)

/-- Weights constant in time are admissible if the bound is not negative. -/
theorem tvAdmissible_uniform {T k : ℕ} (hk : 0 < k) {tv : Option K} (htv : ∀ b, tv = some b → 0 ≤ b) :
    TvAdmissible tv (fun (_ : Fin T) (_ : Fin k) => ((k : K))⁻¹) := by
  have hk' : (0 : K) < k := by exact_mod_cast hk
  refine ⟨fun t => ⟨fun i => (inv_pos.2 hk').le, ?_⟩, fun b hb i => ?_⟩
  · rw [Finset.sum_const, Finset.card_univ, Fintype.card_fin, nsmul_eq_mul,
      mul_inv_cancel₀ hk'.ne']
  · unfold totalVariation
    simp only [sub_self, abs_zero, Finset.sum_const_zero]
    exact htv b hb

section Update

variable {T k : ℕ} {tv : Option K}

/-- What a set of constraints has to say for the weights update to be right. -/
def FEMConstraints.Encodes (con : FEMConstraints (weightParameters tv k T) K) : Prop :=
  ∀ v, (con.Aeq.mulVec v = con.beq ∧ ∀ r, con.Aub.mulVec v r ≤ con.bub r) ↔
    LayoutFeasible tv k T (ext0 v)

/-- The weights in a solution, before clipping. -/
def rawWeights {e : ℕ} (v : Fin (k * T + e) → K) : Matrix (Fin T) (Fin k) K :=
  fun t i => v ⟨t * k + i, weightIndex_lt t.2 i.2⟩

/-- If admissible weights of least cost exist, an exact solver finds such weights, and clipping does
not change them. -/
theorem exact_solution {con : FEMConstraints (weightParameters tv k T) K} (hcon : con.Encodes)
    {solver : LPSolver K} (hs : solver.Exact) (D : Matrix (Fin T) (Fin k) K)
    (hmin : ∃ G, TvAdmissible tv G ∧
      ∀ G', TvAdmissible tv G' → assignmentCost G D ≤ assignmentCost G' D) :
    ∃ v : Fin (k * T + auxParameters tv k T) → K,
      solver (weightsProgram con D) = .value v ∧ lpWeights v = rawWeights v ∧
      TvAdmissible tv (rawWeights v) ∧
      ∀ G, TvAdmissible tv G → assignmentCost (rawWeights v) D ≤ assignmentCost G D := by
  obtain ⟨G, hG, hle⟩ := hmin
  have hfeas : ∀ v : Fin (k * T + auxParameters tv k T) → K,
      (weightsProgram con D).Feasible v ↔ LayoutFeasible tv k T (ext0 v) := hcon
  have hadm : ∀ v : Fin (k * T + auxParameters tv k T) → K,
      (weightsProgram con D).Feasible v → TvAdmissible tv (rawWeights v) :=
    fun v hv => (layout_iff tv _).1 ⟨v, (hfeas v).1 hv, fun _ _ => rfl⟩
  have hobj : ∀ v : Fin (k * T + auxParameters tv k T) → K,
      ∑ j, (weightsProgram con D).c j * v j = assignmentCost (rawWeights v) D :=
    fun v => lpObjective_sum D v
  obtain ⟨v0, hv0, hv0G⟩ := (layout_iff tv G).2 hG
  have hraw : rawWeights (e := auxParameters tv k T) v0 = G := by
    funext t i
    exact hv0G t i
  obtain ⟨v, hv, hopt⟩ := hs (weightsProgram con D) ⟨v0, (hfeas v0).2 hv0, fun w hw => by
    refine le_of_eq_of_le (hobj v0) (le_of_le_of_eq ?_ (hobj w).symm)
    rw [hraw]
    exact hle _ (hadm w hw)⟩
  have had := hadm v hopt.1
  refine ⟨v, hv, ?_, had, fun G' hG' => ?_⟩
  · funext t i
    exact clip01_of_mem ((had.1 t).1 i) (tvAdmissible_le_one had t i)
  · obtain ⟨v1, hv1, hv1G⟩ := (layout_iff tv G').2 hG'
    have hraw1 : rawWeights (e := auxParameters tv k T) v1 = G' := by
      funext t i
      exact hv1G t i
    have := hopt.2 v1 ((hfeas v1).2 hv1)
    have := le_of_eq_of_le (hobj v).symm (le_of_le_of_eq this (hobj v1))
    rw [hraw1] at this
    exact this

theorem femConstraints_encodes (tv : Option K) (hk : 1 < k) (hT : 0 < T) :
    ∃ con, femConstraints tv k T = Py.ok (some con) ∧ con.Encodes := femConstraints_ok tv hk hT

theorem mulSum_eq_assignmentCost (G D : Matrix (Fin T) (Fin k) K) :
    mulSum G D = assignmentCost G D := rfl

/-- The weights update with an exact solver. -/
theorem updateWeights_exact {P : Type} {comp : FEMComp P T k K} (hk : 1 < k)
    {con : FEMConstraints (weightParameters tv k T) K} (hcon : con.Encodes)
    {solver : LPSolver K} (hs : solver.Exact) (s : FEMState P T k K)
    (hmin : ∃ G, TvAdmissible tv G ∧ ∀ G', TvAdmissible tv G' →
      assignmentCost G (comp.distance s.params) ≤ assignmentCost G' (comp.distance s.params)) :
    ∃ v : Fin (k * T + auxParameters tv k T) → K,
      solver (weightsProgram con (comp.distance s.params)) = .value v ∧
      s.updateWeights comp solver (e := auxParameters tv k T) (some con) =
        Py.ok ({ s with
          Gamma := rawWeights v, distanceMatrix := comp.distance s.params }, false) ∧
      TvAdmissible tv (rawWeights v) ∧
      ∀ G, TvAdmissible tv G → assignmentCost (rawWeights v) (comp.distance s.params) ≤
        assignmentCost G (comp.distance s.params) := by
  obtain ⟨v, hv, hc, had, hle⟩ := exact_solution hcon hs (comp.distance s.params) hmin
  refine ⟨v, hv, ?_, had, hle⟩
  unfold FEMState.updateWeights
  rw [if_neg (by omega)]
  have : s.useSolution (e := auxParameters tv k T) (.value v) =
      Py.ok ({ s with Gamma := lpWeights v }, false) := rfl
  simp only [FEMState.evaluateDistance, hv]
  rw [← hc]
  rfl

end Update

end Reor
