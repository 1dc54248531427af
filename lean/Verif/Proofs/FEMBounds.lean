import Verif.Proofs.FEMFrozen

/-!
Weights that are optimal without an effective bound on the total variation, and with bound zero.
-/

set_option linter.unusedSectionVars false

namespace Reor

open scoped BigOperators
open Spec

variable {K : Type} [Field K] [LinearOrder K] [IsStrictOrderedRing K]

section Weights

variable {T k : ℕ}

/-- Every step of a weight is at most one. -/
theorem totalVariation_le (G : Matrix (Fin T) (Fin k) K) (hG : RowStochastic G) (i : Fin k) :
    totalVariation (fun t => G t i) ≤ ((T - 1 : ℕ) : K) := by
  unfold totalVariation
  have h1 : ∀ t : Fin T, G t i ≤ 1 := fun t =>
    le_trans (Finset.single_le_sum (f := fun i => G t i) (fun i _ => (hG t).1 i) (Finset.mem_univ i))
      (hG t).2.le
  have h0 : ∀ t : Fin T, 0 ≤ G t i := fun t => (hG t).1 i
  refine le_trans (Finset.sum_le_card_nsmul _ _ 1 fun t _ => ?_) (by simp)
  rw [abs_le]
  constructor
  · linarith [h1 ⟨t, by omega⟩, h0 ⟨t + 1, by omega⟩]
  · linarith [h1 ⟨t + 1, by omega⟩, h0 ⟨t, by omega⟩]

/-- A bound of at least `T - 1` does not restrict. -/
theorem tvAdmissible_iff_of_large {tv : Option K} (h : ∀ b, tv = some b → ((T - 1 : ℕ) : K) ≤ b)
    (G : Matrix (Fin T) (Fin k) K) : TvAdmissible tv G ↔ RowStochastic G :=
  ⟨fun a => a.1, fun a => ⟨a, fun b hb i => (totalVariation_le G a i).trans (h b hb)⟩⟩

/-- A sequence without variation is constant. -/
theorem constant_of_totalVariation_le_zero (x : Fin T → K) (h : totalVariation x ≤ 0) (t t' : Fin T) :
    x t = x t' := by
  have h0 : ∀ t : Fin (T - 1), x ⟨t + 1, by omega⟩ = x ⟨t, by omega⟩ := by
    intro t
    have hs : totalVariation x = 0 := le_antisymm h (Finset.sum_nonneg fun _ _ => abs_nonneg _)
    have := (Finset.sum_eq_zero_iff_of_nonneg fun _ _ => abs_nonneg _).1 hs t (Finset.mem_univ t)
    exact sub_eq_zero.1 (abs_eq_zero.1 this)
  have key : ∀ n (hn : n < T), x ⟨n, hn⟩ = x ⟨0, by omega⟩ := by
    intro n
    induction n with
    | zero => intro _; rfl
    | succ n ih =>
      intro hn
      exact (h0 ⟨n, by omega⟩).trans (ih (by omega))
  rw [show x t = x ⟨0, by have := t.2; omega⟩ from key t t.2,
    show x t' = x ⟨0, by have := t.2; omega⟩ from key t' t'.2]

theorem totalVariation_const (c : K) : totalVariation (fun _ : Fin T => c) = 0 := by
  unfold totalVariation
  simp

/-- Weights of a point. -/
def pointWeights (a : Fin T → Fin k) : Matrix (Fin T) (Fin k) K := fun t j => if j = a t then 1 else 0

theorem pointWeights_stochastic (a : Fin T → Fin k) :
    RowStochastic (pointWeights a : Matrix (Fin T) (Fin k) K) := by
  intro t
  refine ⟨fun j => ?_, by simp [pointWeights]⟩
  change 0 ≤ if j = a t then (1 : K) else 0
  split <;> norm_num

theorem pointWeights_cost (a : Fin T → Fin k) (D : Matrix (Fin T) (Fin k) K) :
    assignmentCost (pointWeights a) D = ∑ t, D t (a t) := by
  unfold assignmentCost pointWeights
  simp

/-- A weighted mean that does not exceed a lower bound of the values puts its weight on the values
that attain the bound. -/
theorem mean_eq_least {w d : Fin k → K} (hw : IsProb w) {m : K} (hm : ∀ j, m ≤ d j) :
    m ≤ ∑ j, w j * d j ∧ (∑ j, w j * d j ≤ m → ∀ j, 0 < w j → d j = m) := by
  have e : ∑ j, w j * (d j - m) = ∑ j, w j * d j - m := by
    simp only [mul_sub, Finset.sum_sub_distrib, ← Finset.sum_mul, hw.2, one_mul]
  have h0 : ∀ j ∈ Finset.univ, 0 ≤ w j * (d j - m) := fun j _ =>
    mul_nonneg (hw.1 j) (sub_nonneg.2 (hm j))
  have hs := Finset.sum_nonneg h0
  refine ⟨by linarith, fun hle j hj => ?_⟩
  have hz := (Finset.sum_eq_zero_iff_of_nonneg h0).1 (by linarith) j (Finset.mem_univ j)
  rcases mul_eq_zero.1 hz with h | h
  · exact absurd h hj.ne'
  · exact sub_eq_zero.1 h

/-- Optimal weights without effective bound: only components at the least distance have weight. -/
theorem unbounded_optimal (hk : 0 < k) {G D : Matrix (Fin T) (Fin k) K} (hG : RowStochastic G)
    (hle : ∀ G', RowStochastic G' → assignmentCost G D ≤ assignmentCost G' D) :
    ∃ m : Fin T → K, (∀ t, IsLeast (Set.range fun j => D t j) (m t)) ∧
      assignmentCost G D = ∑ t, m t ∧ ∀ t j, 0 < G t j → D t j = m t := by
  have hne : Nonempty (Fin k) := ⟨⟨0, hk⟩⟩
  have hex : ∀ t, ∃ a, ∀ j, D t a ≤ D t j := fun t => by
    obtain ⟨a, -, ha⟩ := Finset.exists_min_image Finset.univ (fun j => D t j)
      ⟨⟨0, hk⟩, Finset.mem_univ _⟩
    exact ⟨a, fun j => ha j (Finset.mem_univ j)⟩
  choose a ha using hex
  have hrow : ∀ t, D t (a t) ≤ ∑ j, G t j * D t j := fun t => (mean_eq_least (hG t) (ha t)).1
  have hle' := hle _ (pointWeights_stochastic a)
  rw [pointWeights_cost] at hle'
  have heq : ∀ t, ∑ j, G t j * D t j = D t (a t) := by
    have h1 : ∑ t, (∑ j, G t j * D t j - D t (a t)) = 0 := by
      rw [Finset.sum_sub_distrib]
      refine le_antisymm (sub_nonpos.2 hle') ?_
      exact sub_nonneg.2 (Finset.sum_le_sum fun t _ => hrow t)
    intro t
    exact sub_eq_zero.1 ((Finset.sum_eq_zero_iff_of_nonneg
      fun t _ => sub_nonneg.2 (hrow t)).1 h1 t (Finset.mem_univ t))
  refine ⟨fun t => D t (a t), fun t => ⟨⟨a t, rfl⟩, ?_⟩, Finset.sum_congr rfl fun t _ => heq t,
    fun t j hj => (mean_eq_least (hG t) (ha t)).2 (heq t).le j hj⟩
  rintro _ ⟨j, rfl⟩
  exact ha t j

theorem tvAdmissible_zero_iff (G : Matrix (Fin T) (Fin k) K) :
    TvAdmissible (some 0) G ↔ RowStochastic G ∧ ∀ t t' j, G t j = G t' j := by
  constructor
  · intro h
    exact ⟨h.1, fun t t' j => constant_of_totalVariation_le_zero _ (h.2 0 rfl j) t t'⟩
  · rintro ⟨h1, h2⟩
    refine ⟨h1, fun b hb i => ?_⟩
    obtain rfl := Option.some.inj hb
    have : totalVariation (fun t => G t i) = 0 := by
      unfold totalVariation
      refine Finset.sum_eq_zero fun t _ => ?_
      change |G ⟨t + 1, by omega⟩ i - G ⟨t, by omega⟩ i| = 0
      rw [h2 ⟨t + 1, by omega⟩ ⟨t, by omega⟩ i, sub_self, abs_zero]
    exact this.le

/-- Optimal weights with bound zero: only components with the least total distance have weight. -/
theorem constant_optimal (hk : 0 < k) (hT : 0 < T) {G D : Matrix (Fin T) (Fin k) K}
    (hG : TvAdmissible (some 0) G)
    (hle : ∀ G', TvAdmissible (some 0) G' → assignmentCost G D ≤ assignmentCost G' D) :
    IsLeast (Set.range fun j => ∑ t, D t j) (assignmentCost G D) ∧
      ∀ t j, 0 < G t j → ∑ t, D t j = assignmentCost G D := by
  obtain ⟨hs, hc⟩ := (tvAdmissible_zero_iff G).1 hG
  obtain ⟨a, -, ha⟩ := Finset.exists_min_image Finset.univ (fun j => ∑ t, D t j)
    ⟨⟨0, hk⟩, Finset.mem_univ _⟩
  have ha' : ∀ j, ∑ t, D t a ≤ ∑ t, D t j := fun j => ha j (Finset.mem_univ j)
  have h1 := hle (pointWeights fun _ => a)
    ((tvAdmissible_zero_iff _).2 ⟨pointWeights_stochastic _, fun _ _ _ => rfl⟩)
  rw [pointWeights_cost] at h1
  have e : assignmentCost G D = ∑ j, G ⟨0, hT⟩ j * ∑ t, D t j := by
    unfold assignmentCost
    rw [Finset.sum_comm]
    refine Finset.sum_congr rfl fun j _ => ?_
    rw [Finset.mul_sum]
    exact Finset.sum_congr rfl fun t _ => by rw [hc t ⟨0, hT⟩ j]
  obtain ⟨h2, h3⟩ := mean_eq_least (hs ⟨0, hT⟩) ha'
  have h4 : assignmentCost G D = ∑ t, D t a := le_antisymm h1 (by rw [e]; exact h2)
  refine ⟨⟨⟨a, h4.symm⟩, ?_⟩, fun t j hj => ?_⟩
  · rintro _ ⟨j, rfl⟩
    rw [h4]
    exact ha' j
  · rw [hc t ⟨0, hT⟩ j] at hj
    rw [h3 (by rw [← e]; exact h1) j hj, h4]

/-- Total variation of the weight of one component in a hard assignment. -/
theorem totalVariation_point (a : Fin T → Fin k) (i : Fin k) :
    totalVariation (fun t => (pointWeights a t i : K)) = (((Finset.univ : Finset (Fin (T - 1))).filter fun t : Fin (T - 1) =>
      ¬ ((a ⟨t, by omega⟩ = i) ↔ (a ⟨t + 1, by omega⟩ = i))).card : ℕ) := by
  unfold totalVariation
  rw [Finset.card_filter, Nat.cast_sum]
  refine Finset.sum_congr rfl fun t _ => ?_
  change |(if i = a ⟨t + 1, by omega⟩ then (1 : K) else 0) - if i = a ⟨t, by omega⟩ then 1 else 0| = _
  by_cases h1 : a ⟨t, by omega⟩ = i <;> by_cases h2 : a ⟨t + 1, by omega⟩ = i
  · simp [h1, h2]
  · simp [h1, h2, Ne.symm h2]
  · simp [h1, h2, Ne.symm h1]
  · simp [h1, h2, Ne.symm h1, Ne.symm h2]

end Weights

/-! ### The second iteration -/

section Iterate

variable {P : Type} {T k : ℕ} {tv : Option K} {comp : FEMComp P T k K} {I : P → Prop}
  {E : PyErr → Prop} {solver : LPSolver K}
  {con : Option (FEMConstraints (k * T + auxParameters tv k T) K)}

theorem updateWeights_params {e : ℕ} {con : Option (FEMConstraints (k * T + e) K)}
    {s : FEMState P T k K} {q : FEMState P T k K × Bool}
    (h : s.updateWeights comp solver con = Py.ok q) : q.1.params = s.params := by
  unfold FEMState.updateWeights at h
  split at h
  · rw [← Py.ok.inj h]
  · cases con with
    | none => simp at h
    | some con =>
      simp only at h
      unfold FEMState.useSolution at h
      split at h
      · rw [← Py.ok.inj h]
        rfl
      · rw [← Py.ok.inj h]
        rfl
      · simp at h
      · simp at h

/-- The parameters after an iteration come from the weights before it. -/
theorem femStep_params {e : ℕ} {con : Option (FEMConstraints (k * T + e) K)} {require : Bool} {tol : K}
    {uw : Bool} {n : ℕ} {s : FEMState P T k K} {c : K} {r : (FEMState P T k K × K) × Bool}
    (h : femStep comp solver con require tol true uw n s c = Py.ok r) :
    comp.update s.Gamma s.params = Py.ok r.1.1.params := by
  unfold femStep at h
  obtain ⟨q, hq, h⟩ := Py.bind_eq_ok.1 h
  simp only at hq
  unfold femParametersPhase at hq
  obtain ⟨s1, hs1, hq⟩ := Py.bind_eq_ok.1 hq
  obtain ⟨_, -, hq⟩ := Py.bind_eq_ok.1 hq
  obtain rfl := Py.ok.inj hq
  unfold FEMState.updateParameters at hs1
  obtain ⟨p, hp, hs1⟩ := Py.bind_eq_ok.1 hs1
  obtain rfl := Py.ok.inj hs1
  cases uw with
  | false =>
    obtain rfl := Py.ok.inj h
    exact hp
  | true =>
    simp only at h
    unfold femWeightsPhase at h
    obtain ⟨q, hq, h⟩ := Py.bind_eq_ok.1 h
    obtain ⟨_, -, h⟩ := Py.bind_eq_ok.1 h
    obtain rfl := Py.ok.inj h
    refine hp.trans (congrArg Py.ok ?_)
    exact (updateWeights_params hq).symm

/-- From the second iteration on the parameters come from admissible weights. -/
theorem femLoop_admissible (hL : comp.Lawful I E) (hk : 1 < k) (hs : solver.Exact)
    (hcon : ConstraintsFor tv T k con) (hmin : LeastExist tv T k) (require : Bool) (tol : K) :
    ∀ (is : List ℕ) (s : FEMState P T k K) (c : K) (m : ℕ) (tr : List K)
      (fl : ℕ), FEMGood tv comp I true true s c →
      ∀ r, femLoop comp solver con require tol true true is s c (some m) tr fl = Py.ok r →
        tr.length < r.trace.length →
        ∃ G p, TvAdmissible tv G ∧ comp.update G p = Py.ok r.state.params := by
  intro is
  induction is with
  | nil =>
    intro s c m tr fl hg r hr hlen
    obtain rfl := Py.ok.inj hr
    exact absurd hlen (lt_irrefl _)
  | cons i is ih =>
    intro s c m tr fl hg r hr hlen
    obtain ⟨h1, -, -⟩ := femStep_spec hL (by omega) hs hcon hmin require tol true true i s c hg.inv
      hg.cost
    rw [femLoop_cons] at hr
    obtain ⟨q, hq, hr⟩ := Py.bind_eq_ok.1 hr
    obtain ⟨hg', hf, -⟩ := h1 q hq
    have hup := femStep_params hq
    by_cases hd : |q.1.2 - c| < tol
    · rw [if_pos hd] at hr
      obtain rfl := Py.ok.inj hr
      exact ⟨s.Gamma, s.params, hg.adm rfl hk, hup⟩
    · rw [if_neg hd] at hr
      by_cases hlen' : (tr ++ [q.1.2]).length < r.trace.length
      · exact ih q.1.1 q.1.2 i _ _ hg' r hr hlen'
      · cases is with
        | nil =>
          obtain rfl := Py.ok.inj hr
          exact ⟨s.Gamma, s.params, hg.adm rfl hk, hup⟩
        | cons j js =>
          exfalso
          rw [femLoop_cons] at hr
          obtain ⟨q', hq', hr⟩ := Py.bind_eq_ok.1 hr
          have hg2 := ((femStep_spec hL (by omega) hs hcon hmin require tol true true j q.1.1 q.1.2
            hg'.inv hg'.cost).1 q' hq').1
          by_cases hd' : |q'.1.2 - q.1.2| < tol
          · rw [if_pos hd'] at hr
            obtain rfl := Py.ok.inj hr
            simp at hlen'
          · rw [if_neg hd'] at hr
            obtain ⟨-, -, l, hl, -⟩ := (femLoop_good hL (by omega) hs hcon hmin require tol true true js
              q'.1.1 q'.1.2 j _ _ hg2).1 r hr
            rw [hl] at hlen'
            simp at hlen'

/-- The same for a whole run. -/
theorem femIterate_admissible (hL : comp.Lawful I E) (hk : 1 < k) (hs : solver.Exact)
    (hcon : ConstraintsFor tv T k con) (hmin : LeastExist tv T k) (require : Bool) (tol : K) {m : ℕ}
    (hm : 0 < m) (s : FEMState P T k K) (hI : I s.params) {r : FEMResult P T k K}
    (h : femIterate comp solver con require tol m true true s = Py.ok r)
    (hlen : 2 ≤ r.trace.length) :
    ∃ G p, TvAdmissible tv G ∧ comp.update G p = Py.ok r.state.params := by
  obtain ⟨m, rfl⟩ : ∃ m', m = m' + 1 := ⟨m - 1, by omega⟩
  unfold femIterate at h
  simp only [List.range_succ_eq_map] at h
  rw [femLoop_cons] at h
  obtain ⟨q, hq, h⟩ := Py.bind_eq_ok.1 h
  obtain ⟨hg', -, -⟩ := (femStep_spec hL (by omega) hs hcon hmin require tol true true 0
    (s.evaluateCost comp).1 (s.evaluateCost comp).2 hI rfl).1 q hq
  split at h
  · obtain rfl := Py.ok.inj h
    simp at hlen
  · exact femLoop_admissible hL hk hs hcon hmin require tol _ _ _ _ _ _ hg' r h (by simp only [List.nil_append, List.length_cons, List.length_nil]; omega)

end Iterate

/-! ### A run that stays where it is -/

section Fixed

variable {P : Type} {T k : ℕ} {tv : Option K} {comp : FEMComp P T k K}

/-- A preferring solver returns its favourite if that is optimal. -/
theorem updateWeights_favourite (hk : 1 < k) {con : FEMConstraints (weightParameters tv k T) K}
    (hcon : con.Encodes) {G : Matrix (Fin T) (Fin k) K} (hG : TvAdmissible tv G)
    (s : FEMState P T k K) (hsame : ∀ G', TvAdmissible tv G' →
      assignmentCost G (comp.distance s.params) ≤ assignmentCost G' (comp.distance s.params)) :
    s.updateWeights comp (preferringSolver G) (e := auxParameters tv k T) (some con) =
      Py.ok (⟨G, s.params, comp.distance s.params⟩, false) := by
  obtain ⟨v, hv, hup, -, -⟩ := updateWeights_exact (comp := comp) hk hcon (preferringSolver_exact G) s
    ⟨G, hG, hsame⟩
  have hp : Prefers G v := by
    refine preferringSolver_prefers G ?_ hv
    obtain ⟨v0, hv0, hv0G⟩ := (layout_iff tv G).2 hG
    refine ⟨v0, ⟨(hcon v0).2 hv0, fun w hw => ?_⟩, fun t i => ⟨weightIndex_lt t.2 i.2, hv0G t i⟩⟩
    have hw' : TvAdmissible tv (rawWeights (e := auxParameters tv k T) w) :=
      (layout_iff tv _).1 ⟨w, (hcon w).1 hw, fun _ _ => rfl⟩
    have hraw : rawWeights (e := auxParameters tv k T) v0 = G := by
      funext t i
      exact hv0G t i
    refine le_of_eq_of_le (lpObjective_sum (e := auxParameters tv k T) _ v0)
      (le_of_le_of_eq ?_ (lpObjective_sum (e := auxParameters tv k T) _ w).symm)
    change assignmentCost (rawWeights v0) (comp.distance s.params) ≤ _
    rw [hraw]
    exact hsame _ hw'
  have hraw : rawWeights (e := auxParameters tv k T) v = G := by
    funext t i
    obtain ⟨h1, h2⟩ := hp t i
    exact h2
  rw [hup, hraw]

/-- One iteration with parameters that depend on the weights only and favourite weights that are
optimal for them. -/
theorem femStep_favourite (hk : 1 < k) {con : FEMConstraints (weightParameters tv k T) K}
    (hcon : con.Encodes) {G : Matrix (Fin T) (Fin k) K} (hG : TvAdmissible tv G) {p q : P}
    (hq : comp.update G p = Py.ok q) (hsame : ∀ G', TvAdmissible tv G' →
      assignmentCost G (comp.distance q) ≤ assignmentCost G' (comp.distance q))
    (tol : K) (n : ℕ) (D : Matrix (Fin T) (Fin k) K) (c : K) :
    femStep comp (preferringSolver G) (e := auxParameters tv k T) (some con) false tol true true n
      ⟨G, p, D⟩ c =
      Py.ok ((⟨G, q, comp.distance q⟩, assignmentCost G (comp.distance q)), false) := by
  have hcheck : ∀ a b : K, femCheck false tol n a b = Py.ok () := fun a b => by simp [femCheck]
  have h1 : femParametersPhase comp false tol n ⟨G, p, D⟩ c =
      Py.ok (⟨G, q, comp.distance q⟩, assignmentCost G (comp.distance q)) := by
    unfold femParametersPhase FEMState.updateParameters
    simp only [hq, Py.ok_bind, hcheck]
    rfl
  have h2 : femWeightsPhase comp (preferringSolver G) (e := auxParameters tv k T) (some con) false tol n
      ⟨G, q, comp.distance q⟩ c =
      Py.ok ((⟨G, q, comp.distance q⟩, assignmentCost G (comp.distance q)), false) := by
    unfold femWeightsPhase
    rw [updateWeights_favourite (comp := comp) hk hcon hG ⟨G, q, comp.distance q⟩ hsame, Py.ok_bind]
    simp only [hcheck, Py.ok_bind]
    rfl
  unfold femStep
  simp only [h1, Py.ok_bind]
  exact h2

/-- Two iterations without tolerance. -/
theorem femIterate_favourite_twice (hk : 1 < k) {con : FEMConstraints (weightParameters tv k T) K}
    (hcon : con.Encodes) {G : Matrix (Fin T) (Fin k) K} (hG : TvAdmissible tv G) {p q : P}
    (hq : comp.update G p = Py.ok q) (hq' : comp.update G q = Py.ok q)
    (hsame : ∀ G', TvAdmissible tv G' →
      assignmentCost G (comp.distance q) ≤ assignmentCost G' (comp.distance q))
    (D : Matrix (Fin T) (Fin k) K) :
    ∃ r, femIterate comp (preferringSolver G) (e := auxParameters tv k T) (some con) false 0 2 true
      true ⟨G, p, D⟩ = Py.ok r ∧ r.trace.length = 2 := by
  unfold femIterate
  have e : List.range 2 = [0, 1] := rfl
  simp only [e]
  rw [femLoop_cons]
  change ∃ r, (femStep comp _ _ _ _ _ _ _ ⟨G, p, comp.distance p⟩ _ >>= _) = _ ∧ _
  rw [femStep_favourite hk hcon hG hq hsame, Py.ok_bind, if_neg (not_lt.2 (abs_nonneg _)), femLoop_cons,
    femStep_favourite hk hcon hG hq' hsame, Py.ok_bind, if_neg (not_lt.2 (abs_nonneg _))]
  exact ⟨_, rfl, rfl⟩

end Fixed

/-- The weighted means of weights that do not change in time are all the mean of the data. -/
theorem kmeansUpdate_constant {T D k : ℕ} (hT : 0 < T) {X : Matrix (Fin T) (Fin D) K}
    {G : Matrix (Fin T) (Fin k) K} {p p' : Matrix (Fin k) (Fin D) K}
    (hc : ∀ t t' j, G t j = G t' j) (h : kmeansUpdate X G p = Py.ok p') (j : Fin k) (d : Fin D) :
    p' j d = (∑ t, X t d) / T := by
  unfold kmeansUpdate at h
  simp only at h
  split at h
  · simp at h
  · rename_i hne
    obtain rfl := Py.ok.inj h
    have hj : ∑ t, G t j ≠ 0 := fun h0 => hne ⟨j, d, h0⟩
    have e1 : ∑ t, G t j = T * G ⟨0, hT⟩ j := by
      rw [Finset.sum_congr rfl fun t _ => hc t ⟨0, hT⟩ j]
      simp
    have e2 : ∑ t, G t j * X t d = G ⟨0, hT⟩ j * ∑ t, X t d := by
      rw [Finset.mul_sum]
      exact Finset.sum_congr rfl fun t _ => by rw [hc t ⟨0, hT⟩ j]
    have hTK : (T : K) ≠ 0 := by exact_mod_cast hT.ne'
    rw [e1] at hj
    have hg : G ⟨0, hT⟩ j ≠ 0 := fun h0 => hj (by rw [h0, mul_zero])
    change (∑ t, G t j * X t d) / (∑ t, G t j) = _
    rw [e1, e2]
    field_simp

end Reor
