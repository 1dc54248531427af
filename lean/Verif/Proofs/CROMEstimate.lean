import Verif.Proofs.CROM
import Mathlib.Algebra.Order.BigOperators.Ring.Finset

/-!
Lemmas on the transition matrix of the k-means CROM as an estimate, and on relabelled clusters.
-/

namespace Reor

set_option linter.unusedSectionVars false

open scoped BigOperators
open Spec

namespace Spec

/-- The squared error made in predicting every label but the first from the one before it, where the
prediction from `k` is the column `k` of `Q` and a label is a unit vector. -/
def oneStepError {K : Type} [Field K] {n T : ℕ} (Q : Matrix (Fin n) (Fin n) K)
    (l : Fin (T + 1) → Fin n) : K :=
  ∑ t : Fin T, ∑ j, ((if l t.succ = j then 1 else 0) - Q j (l t.castSucc)) ^ 2

/-- Number of times a label sequence is at `j` with another label before it. -/
def arrivals (labels : List ℕ) (j : ℕ) : ℕ :=
  ((Finset.range (labels.length - 1)).filter fun t => labels[t + 1]? = some j).card

end Spec

section

variable {K : Type} [Field K] {m n : ℕ} (a b : Fin m → Fin n)

/-- How often `a` is at `k`. -/
def hits (k : Fin n) : ℕ := (Finset.univ.filter fun t => a t = k).card

/-- How often `a` is at `k` and `b` at `j`. -/
def pairHits (k j : Fin n) : ℕ := (Finset.univ.filter fun t => a t = k ∧ b t = j).card

theorem sum_by_hits (g : Fin n → K) : ∑ t, g (a t) = ∑ k, (hits a k : K) * g k := by
  rw [← Finset.sum_fiberwise Finset.univ a]
  refine Finset.sum_congr rfl fun k _ => ?_
  rw [Finset.sum_congr rfl (g := fun _ => g k)
    (fun t ht => by rw [(Finset.mem_filter.1 ht).2])]
  rw [Finset.sum_const, nsmul_eq_mul]
  rfl

theorem sum_by_pairs (g : Fin n → Fin n → K) :
    ∑ t, g (a t) (b t) = ∑ k, ∑ j, (pairHits a b k j : K) * g k j := by
  rw [← Finset.sum_fiberwise Finset.univ a]
  refine Finset.sum_congr rfl fun k _ => ?_
  rw [← Finset.sum_fiberwise _ b]
  refine Finset.sum_congr rfl fun j _ => ?_
  rw [Finset.sum_congr rfl (g := fun _ => g k j) (fun t ht => by
    have h1 := (Finset.mem_filter.1 ht).2
    have h2 := (Finset.mem_filter.1 (Finset.mem_filter.1 ht).1).2
    rw [h1, h2])]
  rw [Finset.sum_const, nsmul_eq_mul, Finset.filter_filter]
  rfl

theorem hits_pos (t : Fin m) : 0 < hits a (a t) :=
  Finset.card_pos.2 ⟨t, by simp⟩

theorem pairs_pos (t : Fin m) : 0 < pairHits a b (a t) (b t) :=
  Finset.card_pos.2 ⟨t, by simp⟩

/-- The errors of the predictions by fractions are orthogonal to everything known before. -/
theorem fractions_orthogonal {P : Matrix (Fin n) (Fin n) K}
    (hP : ∀ j k, P j k * hits a k = pairHits a b k j) (g : Fin n → K) (j : Fin n) :
    ∑ t, g (a t) * ((if b t = j then 1 else 0) - P j (a t)) = 0 := by
  have h1 : ∑ t, g (a t) * ((if b t = j then (1 : K) else 0) - P j (a t)) =
      ∑ t, g (a t) * (if b t = j then 1 else 0) - ∑ t, g (a t) * P j (a t) := by
    rw [← Finset.sum_sub_distrib]
    exact Finset.sum_congr rfl fun t _ => mul_sub _ _ _
  rw [h1, sum_by_pairs a b (fun k i => g k * (if i = j then 1 else 0)),
    sum_by_hits a (fun k => g k * P j k), ← Finset.sum_sub_distrib]
  refine Finset.sum_eq_zero fun k _ => ?_
  rw [Finset.sum_eq_single j]
  · rw [if_pos rfl, ← hP j k]
    ring
  · intro i _ hi
    rw [if_neg hi]
    ring
  · simp

end

/-! ### Counts of label sequences -/

theorem visits_eq_hits {n T : ℕ} {labels : List ℕ} {l : Fin (T + 1) → Fin n}
    (hlen : labels.length = T + 1) (hl : ∀ t : Fin (T + 1), labels[(t : ℕ)]? = some (l t : ℕ))
    (k : Fin n) : visits labels k = hits (fun t : Fin T => l t.castSucc) k := by
  unfold visits hits
  rw [hlen, Nat.add_sub_cancel, Finset.card_filter, Finset.card_filter, Finset.sum_range]
  refine Finset.sum_congr rfl fun t _ => ?_
  have h1 : labels[(t : ℕ)]? = some (l t.castSucc : ℕ) := hl t.castSucc
  rw [h1]
  simp [Fin.ext_iff]

theorem moves_eq_pairs {n T : ℕ} {labels : List ℕ} {l : Fin (T + 1) → Fin n}
    (hlen : labels.length = T + 1) (hl : ∀ t : Fin (T + 1), labels[(t : ℕ)]? = some (l t : ℕ))
    (k j : Fin n) : moves labels k j =
      pairHits (fun t : Fin T => l t.castSucc) (fun t : Fin T => l t.succ) k j := by
  unfold moves pairHits
  rw [hlen, Nat.add_sub_cancel, Finset.card_filter, Finset.card_filter, Finset.sum_range]
  refine Finset.sum_congr rfl fun t _ => ?_
  have h1 : labels[(t : ℕ)]? = some (l t.castSucc : ℕ) := hl t.castSucc
  have h2 : labels[(t : ℕ) + 1]? = some (l t.succ : ℕ) := hl t.succ
  rw [h1, h2]
  simp [Fin.ext_iff]

/-- Labels in range as a function. -/
theorem exists_labels {n T : ℕ} {labels : List ℕ} (hlen : labels.length = T)
    (hlt : ∀ l ∈ labels, l < n) :
    ∃ l : Fin T → Fin n, ∀ t : Fin T, labels[(t : ℕ)]? = some (l t : ℕ) := by
  subst hlen
  exact ⟨fun t => ⟨labels[t], hlt _ (List.getElem_mem _)⟩, fun t => List.getElem?_eq_getElem t.2⟩

/-! ### Relabelled clusters -/

section

variable {K : Type}

theorem nanSum_perm [AddCommMonoid K] {n : ℕ} (σ : Equiv.Perm (Fin n)) (f : Fin n → Option K) :
    nanSum (fun i => f (σ i)) = nanSum f := by
  unfold nanSum
  have h1 : (∃ i, (f (σ i)).isNone = true) ↔ ∃ i, (f i).isNone = true :=
    ⟨fun ⟨i, h⟩ => ⟨σ i, h⟩, fun ⟨i, h⟩ => ⟨σ.symm i, by simpa using h⟩⟩
  simp only [h1]
  rw [Equiv.sum_comp σ fun i => (f i).getD 0]

/-- One step of the loop in `predict`. -/
def nanStep [NonUnitalNonAssocSemiring K] {m n : ℕ} (V : Fin n → Fin n → Option K)
    (A : Fin m → Fin n → Option K) : Fin m → Fin n → Option K :=
  fun i j => nanSum fun l => nanMul (A i l) (V j l)

theorem propagate_iterate [NonUnitalNonAssocSemiring K] {m n : ℕ} (V : Fin n → Fin n → Option K) :
    ∀ (h : ℕ) (A : Fin m → Fin n → Option K),
      propagate ⟨n, n, V⟩ h ⟨m, n, A⟩ = Py.ok ⟨m, n, (nanStep V)^[h] A⟩
  | 0, A => rfl
  | h + 1, A => by
    unfold propagate
    have e : nanDot ⟨m, n, A⟩ (Arr2.transpose ⟨n, n, V⟩) = Py.ok ⟨m, n, nanStep V A⟩ := by
      unfold nanDot
      exact dif_pos (show n = n from rfl)
    rw [e, Py.ok_bind, propagate_iterate V h]
    rfl

theorem nanStep_perm [NonUnitalNonAssocSemiring K] {m n : ℕ} (σ : Equiv.Perm (Fin n))
    {V V' : Fin n → Fin n → Option K} (hV : ∀ j k, V' (σ j) (σ k) = V j k) :
    ∀ (h : ℕ) {A A' : Fin m → Fin n → Option K}, (∀ i j, A' i (σ j) = A i j) →
      ∀ i j, (nanStep V')^[h] A' i (σ j) = (nanStep V)^[h] A i j
  | 0, _, _, hA => hA
  | h + 1, A, A', hA => by
    intro i j
    rw [Function.iterate_succ_apply, Function.iterate_succ_apply]
    refine nanStep_perm σ hV h (fun i j => ?_) i j
    unfold nanStep
    rw [← nanSum_perm σ]
    simp only [hA, hV]

theorem visits_map {labels : List ℕ} {τ : ℕ → ℕ} {k : ℕ}
    (hk : ∀ x ∈ labels, τ x = τ k ↔ x = k) :
    visits (labels.map τ) (τ k) = visits labels k := by
  unfold visits
  rw [List.length_map]
  congr 1
  refine Finset.filter_congr fun t _ => ?_
  rw [List.getElem?_map]
  rcases h : labels[t]? with _ | x
  · simp
  · simp [hk x (List.mem_of_getElem? h)]

theorem moves_map {labels : List ℕ} {τ : ℕ → ℕ} {j k : ℕ}
    (hk : ∀ x ∈ labels, τ x = τ k ↔ x = k) (hj : ∀ x ∈ labels, τ x = τ j ↔ x = j) :
    moves (labels.map τ) (τ k) (τ j) = moves labels k j := by
  unfold moves
  rw [List.length_map]
  congr 1
  refine Finset.filter_congr fun t _ => ?_
  rw [List.getElem?_map, List.getElem?_map]
  rcases h : labels[t]? with _ | x
  · simp
  · rcases h' : labels[t + 1]? with _ | y
    · simp
    · simp [hk x (List.mem_of_getElem? h), hj y (List.mem_of_getElem? h')]

end

end Reor
