import Verif.Proofs.FEMBV

/-!
The FEM-BV iteration for any component model.
-/

set_option linter.unusedSectionVars false

namespace Reor

open scoped BigOperators
open Spec

variable {K : Type} [Field K] [LinearOrder K] [IsStrictOrderedRing K]

/-! ### One iteration -/

section Step

variable {P : Type} {T k : ℕ} {tv : Option K}

theorem femCheck_of_le (require : Bool) (tol : K) (n : ℕ) {old new : K} (h : new ≤ old) :
    femCheck require tol n old new = Py.ok () := by
  unfold femCheck
  exact if_neg fun hc => absurd hc.2.2.1 (not_lt.2 h)

theorem femCheck_zero (require : Bool) (tol old new : K) :
    femCheck require tol 0 old new = Py.ok () := by
  unfold femCheck
  exact if_neg fun hc => absurd hc.1 (lt_irrefl _)

theorem femCheck_cases (require : Bool) (tol : K) (n : ℕ) (old new : K) :
    femCheck require tol n old new = Py.ok () ∨
      femCheck require tol n old new = Py.raise .runtimeError := by
  unfold femCheck
  split
  · exact Or.inr rfl
  · exact Or.inl rfl

/-- The parameters part of an iteration. -/
theorem femParametersPhase_eq (comp : FEMComp P T k K) (require : Bool) (tol : K) (n : ℕ)
    (s : FEMState P T k K) (c : K) : femParametersPhase comp require tol n s c =
      (comp.update s.Gamma s.params >>= fun p =>
        femCheck require tol n c (assignmentCost s.Gamma (comp.distance p)) >>= fun _ =>
          Py.ok (⟨s.Gamma, p, comp.distance p⟩, assignmentCost s.Gamma (comp.distance p))) := by
  unfold femParametersPhase FEMState.updateParameters
  cases comp.update s.Gamma s.params <;> rfl

/-- Weights that a weights update may produce: those of least cost, or the old ones if there is one
component. -/
structure WeightsUpdated (tv : Option K) (D G0 G : Matrix (Fin T) (Fin k) K) : Prop where
  admissible : 1 < k → TvAdmissible tv G
  least : 1 < k → ∀ G', TvAdmissible tv G' → assignmentCost G D ≤ assignmentCost G' D
  single : k = 1 → G = G0

/-- The constraints encode the admissible weights if there are several components. -/
def ConstraintsFor (tv : Option K) (T k : ℕ)
    (con : Option (FEMConstraints (k * T + auxParameters tv k T) K)) : Prop :=
  1 < k → ∃ c : FEMConstraints (weightParameters tv k T) K, con = some c ∧ c.Encodes

/-- Admissible weights of least cost exist for every distance matrix. -/
def LeastExist (tv : Option K) (T k : ℕ) : Prop :=
  1 < k → ∀ D : Matrix (Fin T) (Fin k) K, ∃ G, TvAdmissible tv G ∧
    ∀ G', TvAdmissible tv G' → assignmentCost G D ≤ assignmentCost G' D

/-- The weights part of an iteration, with an exact solver. -/
theorem femWeightsPhase_eq (hk : 0 < k) (comp : FEMComp P T k K) {solver : LPSolver K}
    (hs : solver.Exact) {con : Option (FEMConstraints (k * T + auxParameters tv k T) K)}
    (hcon : ConstraintsFor tv T k con) (hmin : LeastExist tv T k) (require : Bool) (tol : K)
    (n : ℕ) (s : FEMState P T k K) (c : K) :
    ∃ G, WeightsUpdated tv (comp.distance s.params) s.Gamma G ∧
      femWeightsPhase comp solver con require tol n s c =
        (femCheck require tol n c (assignmentCost G (comp.distance s.params)) >>= fun _ =>
          Py.ok ((⟨G, s.params, comp.distance s.params⟩,
            assignmentCost G (comp.distance s.params)), false)) := by
  by_cases h1 : k = 1
  · refine ⟨s.Gamma, ⟨fun h => by omega, fun h => by omega, fun _ => rfl⟩, ?_⟩
    unfold femWeightsPhase FEMState.updateWeights
    rw [if_pos h1]
    rfl
  · obtain ⟨cc, rfl, hcc⟩ := hcon (by omega)
    obtain ⟨v, hv, hup, had, hle⟩ := updateWeights_exact (comp := comp) (by omega) hcc hs s
      (hmin (by omega) _)
    refine ⟨rawWeights v, ⟨fun _ => had, fun _ => hle, fun h => absurd h h1⟩, ?_⟩
    exact (congrArg (fun q : Py (FEMState P T k K × Bool) => q >>= fun q =>
      (femCheck require tol n c (q.1.evaluateCost comp).2 >>= fun _ =>
        Py.ok (q.1.evaluateCost comp, q.2))) hup).trans rfl

end Step

/-! ### The iteration -/

/-- What the descent of the cost needs of a component model: updating the parameters twice changes
nothing, the update gives parameters of least cost among those with property `I`, and it fails only
with errors in `E`. -/
structure FEMComp.Lawful {P : Type} {T k : ℕ} (comp : FEMComp P T k K) (I : P → Prop)
    (E : PyErr → Prop) : Prop where
  idem : ∀ {G p p'}, comp.update G p = Py.ok p' → comp.update G p' = Py.ok p'
  keeps : ∀ {G p p'}, comp.update G p = Py.ok p' → I p'
  least : ∀ {G p p'}, (∀ t j, 0 ≤ G t j) → comp.update G p = Py.ok p' → ∀ q, I q →
    assignmentCost G (comp.distance p') ≤ assignmentCost G (comp.distance q)
  err : ∀ {G p e}, comp.update G p = Py.raise e → E e
  total : ∀ {G p}, comp.update G p ≠ Py.diverge

section Iterate

variable {P : Type} {T k : ℕ} {tv : Option K}

/-- What holds of the state and cost from the second iteration on. -/
structure FEMGood (tv : Option K) (comp : FEMComp P T k K) (I : P → Prop) (up uw : Bool)
    (s : FEMState P T k K) (c : K) : Prop where
  inv : I s.params
  cost : c = assignmentCost s.Gamma (comp.distance s.params)
  adm : uw = true → 1 < k → TvAdmissible tv s.Gamma
  least : uw = true → 1 < k → ∀ G, TvAdmissible tv G → c ≤ assignmentCost G (comp.distance s.params)
  fixed : up = true → uw = false ∨ k = 1 → comp.update s.Gamma s.params = Py.ok s.params
  updated : up = true → ∃ G p, comp.update G p = Py.ok s.params

variable {comp : FEMComp P T k K} {I : P → Prop} {E : PyErr → Prop} {solver : LPSolver K}
  {con : Option (FEMConstraints (k * T + auxParameters tv k T) K)}

/-- In a good state the centroid update does not increase the cost. -/
theorem FEMGood.update_le {up uw : Bool} {s : FEMState P T k K} {c : K}
    (hL : comp.Lawful I E) (hk : 0 < k) (h : FEMGood tv comp I up uw s c) (hup : up = true) {p : P}
    (hp : comp.update s.Gamma s.params = Py.ok p) :
    assignmentCost s.Gamma (comp.distance p) ≤ c := by
  rw [h.cost]
  by_cases h1 : uw = true ∧ 1 < k
  · have had := h.adm h1.1 h1.2
    exact hL.least (fun t j => (had.1 t).1 j) hp _ h.inv
  · have h2 : uw = false ∨ k = 1 := by
      by_cases hu : uw = true
      · refine Or.inr ?_
        have : ¬ 1 < k := fun h => h1 ⟨hu, h⟩
        omega
      · exact Or.inl (by simpa using hu)
    have := h.fixed hup h2
    rw [hp] at this
    rw [Py.ok.inj this]

/-- One iteration, from a state whose cost is known. -/
theorem femStep_spec (hL : comp.Lawful I E) (hk : 0 < k) (hs : solver.Exact) (hcon : ConstraintsFor tv T k con)
    (hmin : LeastExist tv T k) (require : Bool) (tol : K) (up uw : Bool) (n : ℕ)
    (s : FEMState P T k K) (c : K)
    (hI : I s.params) (hc : c = assignmentCost s.Gamma (comp.distance s.params)) :
    (∀ r, femStep comp solver con require tol up uw n s c = Py.ok r →
      FEMGood tv comp I up uw r.1.1 r.1.2 ∧ r.2 = false ∧ (FEMGood tv comp I up uw s c → r.1.2 ≤ c)) ∧
    (∀ e, femStep comp solver con require tol up uw n s c = Py.raise e →
      n = 0 ∨ FEMGood tv comp I up uw s c → E e ∧ up = true) ∧
    femStep comp solver con require tol up uw n s c ≠ Py.diverge := by
  cases up with
  | false =>
    cases uw with
    | false =>
      have e : femStep comp solver con require tol false false n s c =
          Py.ok ((s, c), false) := rfl
      rw [e]
      refine ⟨?_, ?_, ?_⟩
      · intro r hr
        obtain rfl := Py.ok.inj hr
        exact ⟨⟨hI, hc, fun h => by simp at h, fun h => by simp at h, fun h => by simp at h,
          fun h => by simp at h⟩, rfl, fun _ => le_refl _⟩
      · intro e h
        simp at h
      · simp
    | true =>
      obtain ⟨G, hG, he⟩ := femWeightsPhase_eq hk comp hs hcon hmin require tol n s c
      have e : femStep comp solver con require tol false true n s c =
          femWeightsPhase comp solver con require tol n s c := rfl
      rw [e, he]
      have hle : FEMGood tv comp I false true s c →
          assignmentCost G (comp.distance s.params) ≤ c := by
        intro hg
        rw [hc]
        by_cases h1 : 1 < k
        · exact hG.least h1 _ (hg.adm rfl h1)
        · rw [hG.single (by omega)]
      refine ⟨?_, ?_, ?_⟩
      · intro r hr
        obtain ⟨_, -, hr⟩ := Py.bind_eq_ok.1 hr
        obtain rfl := Py.ok.inj hr
        exact ⟨⟨hI, rfl, fun _ h => hG.admissible h, fun _ h => hG.least h,
          fun h => by simp at h, fun h => by simp at h⟩, rfl, hle⟩
      · intro e h hor
        exfalso
        have hcheck : femCheck require tol n c
            (assignmentCost G (comp.distance s.params)) = Py.ok () := by
          rcases hor with rfl | hg
          · exact femCheck_zero _ _ _ _
          · exact femCheck_of_le _ _ _ (hle hg)
        rw [hcheck] at h
        simp at h
      · rcases femCheck_cases require tol n c
          (assignmentCost G (comp.distance s.params)) with h | h <;> rw [h] <;> simp
  | true =>
    rcases hu : comp.update s.Gamma s.params with p | e0 | _
    rotate_left
    · have hp : femParametersPhase comp require tol n s c = Py.raise e0 := by
        rw [femParametersPhase_eq, hu]
        rfl
      have e : femStep comp solver con require tol true uw n s c = Py.raise e0 := by
        unfold femStep
        simp only [hp, Py.raise_bind]
      rw [e]
      refine ⟨fun r hr => by simp at hr, fun e h _ => ⟨?_, rfl⟩, by simp⟩
      rw [← Py.raise.inj h]
      exact hL.err hu
    · exact absurd hu hL.total
    · have hp : femParametersPhase comp require tol n s c =
          (femCheck require tol n c (assignmentCost s.Gamma (comp.distance p)) >>= fun _ =>
            Py.ok (⟨s.Gamma, p, comp.distance p⟩,
              assignmentCost s.Gamma (comp.distance p))) := by
        rw [femParametersPhase_eq]
        rw [hu]
        rfl
      have hle : FEMGood tv comp I true uw s c → assignmentCost s.Gamma (comp.distance p) ≤ c :=
        fun hg => hg.update_le hL hk rfl hu
      have hcheck : n = 0 ∨ FEMGood tv comp I true uw s c →
          femCheck require tol n c (assignmentCost s.Gamma (comp.distance p)) = Py.ok () := by
        rintro (rfl | hg)
        · exact femCheck_zero _ _ _ _
        · exact femCheck_of_le _ _ _ (hle hg)
      cases uw with
      | false =>
        have e : femStep comp solver con require tol true false n s c =
            (femCheck require tol n c (assignmentCost s.Gamma (comp.distance p)) >>= fun _ =>
            Py.ok ((⟨s.Gamma, p, comp.distance p⟩,
              assignmentCost s.Gamma (comp.distance p)), false)) := by
          unfold femStep
          simp only [hp]
          cases femCheck require tol n c (assignmentCost s.Gamma (comp.distance p)) <;> rfl
        rw [e]
        refine ⟨?_, ?_, ?_⟩
        · intro r hr
          obtain ⟨_, -, hr⟩ := Py.bind_eq_ok.1 hr
          obtain rfl := Py.ok.inj hr
          exact ⟨⟨hL.keeps hu, rfl, fun h => by simp at h, fun h => by simp at h,
            fun _ _ => hL.idem hu, fun _ => ⟨_, _, hu⟩⟩, rfl, hle⟩
        · intro e h hor
          exfalso
          rw [hcheck hor] at h
          simp at h
        · rcases femCheck_cases require tol n c
            (assignmentCost s.Gamma (comp.distance p)) with h | h <;> rw [h] <;> simp
      | true =>
        obtain ⟨G, hG, he⟩ := femWeightsPhase_eq hk comp hs hcon hmin require tol n
          (⟨s.Gamma, p, comp.distance p⟩ : FEMState _ T k K) c
        have e : femStep comp solver con require tol true true n s c =
            (femCheck require tol n c (assignmentCost s.Gamma (comp.distance p)) >>= fun _ =>
              femCheck require tol n c (assignmentCost G (comp.distance p)) >>= fun _ =>
                Py.ok ((⟨G, p, comp.distance p⟩,
                  assignmentCost G (comp.distance p)), false)) := by
          unfold femStep
          simp only [hp]
          rcases femCheck_cases require tol n c
            (assignmentCost s.Gamma (comp.distance p)) with h | h
          · simp only [h, Py.ok_bind]
            exact he
          · simp only [h, Py.raise_bind]
        rw [e]
        have hle2 : FEMGood tv comp I true true s c → assignmentCost G (comp.distance p) ≤ c := by
          intro hg
          refine le_trans ?_ (hle hg)
          by_cases h1 : 1 < k
          · exact hG.least h1 _ (hg.adm rfl h1)
          · rw [hG.single (by omega)]
        refine ⟨?_, ?_, ?_⟩
        · intro r hr
          obtain ⟨_, -, hr⟩ := Py.bind_eq_ok.1 hr
          obtain ⟨_, -, hr⟩ := Py.bind_eq_ok.1 hr
          obtain rfl := Py.ok.inj hr
          refine ⟨⟨hL.keeps hu, rfl, fun _ h => hG.admissible h, fun _ h => hG.least h, fun _ h => ?_,
            fun _ => ⟨_, _, hu⟩⟩, rfl, hle2⟩
          rcases h with h | h
          · simp at h
          · change comp.update G p = Py.ok p
            rw [hG.single h]
            exact hL.idem hu
        · intro e h hor
          exfalso
          have hcheck2 : femCheck require tol n c (assignmentCost G (comp.distance p)) =
              Py.ok () := by
            rcases hor with rfl | hg
            · exact femCheck_zero _ _ _ _
            · exact femCheck_of_le _ _ _ (hle2 hg)
          rw [hcheck hor, hcheck2] at h
          simp at h
        · rcases femCheck_cases require tol n c
            (assignmentCost s.Gamma (comp.distance p)) with h | h <;> rw [h]
          · rcases femCheck_cases require tol n c
              (assignmentCost G (comp.distance p)) with h | h <;> rw [h] <;> simp
          · simp

theorem femLoop_cons {P : Type} {e : ℕ} (comp : FEMComp P T k K) (solver : LPSolver K)
    (con : Option (FEMConstraints (k * T + e) K)) (require : Bool) (tol : K) (up uw : Bool)
    (i : ℕ) (is : List ℕ) (s : FEMState P T k K) (c : K) (last : Option ℕ) (tr : List K) (fl : ℕ) :
    femLoop comp solver con require tol up uw (i :: is) s c last tr fl =
      (femStep comp solver con require tol up uw i s c >>= fun r =>
        if |r.1.2 - c| < tol then
          Py.ok ⟨r.1.1, r.1.2, i, tr ++ [r.1.2], fl + (if r.2 then 1 else 0)⟩
        else femLoop comp solver con require tol up uw is r.1.1 r.1.2 (some i) (tr ++ [r.1.2])
          (fl + (if r.2 then 1 else 0))) := rfl

/-- The iterations after the first. -/
theorem femLoop_good (hL : comp.Lawful I E) (hk : 0 < k) (hs : solver.Exact) (hcon : ConstraintsFor tv T k con)
    (hmin : LeastExist tv T k) (require : Bool) (tol : K) (up uw : Bool) :
    ∀ (is : List ℕ) (s : FEMState P T k K) (c : K) (m : ℕ) (tr : List K)
      (fl : ℕ), FEMGood tv comp I up uw s c →
      (∀ r, femLoop comp solver con require tol up uw is s c (some m) tr fl = Py.ok r →
        FEMGood tv comp I up uw r.state r.cost ∧ r.failures = fl ∧
        ∃ l, r.trace = tr ++ l ∧ (c :: l).Pairwise (· ≥ ·)) ∧
      (∀ e, femLoop comp solver con require tol up uw is s c (some m) tr fl =
        Py.raise e → E e ∧ up = true) ∧
      femLoop comp solver con require tol up uw is s c (some m) tr fl ≠ Py.diverge := by
  intro is
  induction is with
  | nil =>
    intro s c m tr fl hg
    have e : femLoop comp solver con require tol up uw [] s c (some m) tr fl =
        Py.ok ⟨s, c, m, tr, fl⟩ := rfl
    rw [e]
    refine ⟨fun r hr => ?_, fun e h => absurd h (by simp), by simp⟩
    obtain rfl := Py.ok.inj hr
    exact ⟨hg, rfl, [], by simp, by simp⟩
  | cons i is ih =>
    intro s c m tr fl hg
    obtain ⟨h1, h2, h3⟩ := femStep_spec hL hk hs hcon hmin require tol up uw i s c hg.inv hg.cost
    have heq := femLoop_cons comp solver con require tol up uw i is s c (some m) tr fl
    cases hst : femStep comp solver con require tol up uw i s c with
    | raise e =>
      rw [hst, Py.raise_bind] at heq
      rw [heq]
      refine ⟨fun r hr => by simp at hr, fun e' h => ?_, by simp⟩
      rw [← Py.raise.inj h]
      exact h2 e hst (Or.inr hg)
    | diverge => exact absurd hst h3
    | ok q =>
      obtain ⟨hg', hf, hle⟩ := h1 q hst
      rw [hst, Py.ok_bind] at heq
      simp only [hf, Bool.false_eq_true, if_false, Nat.add_zero] at heq
      rw [heq]
      by_cases hd : |q.1.2 - c| < tol
      · rw [if_pos hd]
        refine ⟨fun r hr => ?_, fun e h => absurd h (by simp), by simp⟩
        obtain rfl := Py.ok.inj hr
        exact ⟨hg', rfl, [q.1.2], rfl, by simpa using hle hg⟩
      · rw [if_neg hd]
        obtain ⟨a, b, d⟩ := ih q.1.1 q.1.2 i (tr ++ [q.1.2]) fl hg'
        refine ⟨fun r hr => ?_, b, d⟩
        obtain ⟨g1, g2, l, g3, g4⟩ := a r hr
        refine ⟨g1, g2, q.1.2 :: l, by rw [g3, List.append_assoc]; rfl, ?_⟩
        refine List.pairwise_cons.2 ⟨fun x hx => ?_, g4⟩
        rcases List.mem_cons.1 hx with rfl | hx
        · exact hle hg
        · exact le_trans ((List.pairwise_cons.1 g4).1 x hx) (hle hg)

/-- The whole iteration. -/
theorem femIterate_good (hL : comp.Lawful I E) (hk : 0 < k) (hs : solver.Exact) (hcon : ConstraintsFor tv T k con)
    (hmin : LeastExist tv T k) (require : Bool) (tol : K) (up uw : Bool) {m : ℕ} (hm : 0 < m)
    (s : FEMState P T k K) (hI : I s.params) :
    (∀ r, femIterate comp solver con require tol m up uw s = Py.ok r →
      FEMGood tv comp I up uw r.state r.cost ∧ r.failures = 0 ∧ r.trace.Pairwise (· ≥ ·)) ∧
    (∀ e, femIterate comp solver con require tol m up uw s = Py.raise e →
      E e ∧ up = true) ∧
    femIterate comp solver con require tol m up uw s ≠ Py.diverge := by
  obtain ⟨m, rfl⟩ : ∃ m', m = m' + 1 := ⟨m - 1, by omega⟩
  unfold femIterate
  simp only [FEMState.evaluateCost, FEMState.evaluateDistance, List.range_succ_eq_map]
  generalize hs0 : (⟨s.Gamma, s.params, comp.distance s.params⟩ :
    FEMState P T k K) = s0
  have hI : I s0.params := by
    rw [← hs0]
    exact hI
  have hc : mulSum s.Gamma (comp.distance s.params) =
      assignmentCost s0.Gamma (comp.distance s0.params) := by
    rw [← hs0]
    rfl
  obtain ⟨h1, h2, h3⟩ := femStep_spec hL hk hs hcon hmin require tol up uw 0 s0 _ hI hc
  have heq := femLoop_cons comp solver con require tol up uw 0
    ((List.range m).map Nat.succ) s0 (mulSum s.Gamma (comp.distance s.params)) none [] 0
  cases hst : femStep comp solver con require tol up uw 0 s0
      (mulSum s.Gamma (comp.distance s.params)) with
  | raise e =>
    rw [hst, Py.raise_bind] at heq
    rw [heq]
    refine ⟨fun r hr => by simp at hr, fun e' h => ?_, by simp⟩
    rw [← Py.raise.inj h]
    exact h2 e hst (Or.inl rfl)
  | diverge => exact absurd hst h3
  | ok q =>
    obtain ⟨hg', hf, -⟩ := h1 q hst
    rw [hst, Py.ok_bind] at heq
    simp only [hf, Bool.false_eq_true, if_false, Nat.add_zero] at heq
    rw [heq]
    split
    · refine ⟨fun r hr => ?_, fun e h => absurd h (by simp), by simp⟩
      obtain rfl := Py.ok.inj hr
      exact ⟨hg', rfl, by simp⟩
    · obtain ⟨a, b, d⟩ := femLoop_good hL hk hs hcon hmin require tol up uw
        ((List.range m).map Nat.succ) q.1.1 q.1.2 0 ([] ++ [q.1.2]) 0 hg'
      refine ⟨fun r hr => ?_, b, d⟩
      obtain ⟨g1, g2, l, g3, g4⟩ := a r hr
      refine ⟨g1, g2, ?_⟩
      rw [g3]
      exact g4

end Iterate

end Reor
