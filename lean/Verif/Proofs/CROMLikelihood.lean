import Verif.Proofs.CROM
import Mathlib.Analysis.SpecialFunctions.Log.Basic

/-!
Likelihood of label sequences.
-/

namespace Reor

set_option linter.unusedSectionVars false

open scoped BigOperators
open Spec

/-- The probability of the steps of a label sequence, given its first label, for the transition
probabilities `P j k` from `k` to `j`. -/
noncomputable def pathProb (P : ℕ → ℕ → ℝ) : List ℕ → ℝ
  | a :: b :: l => P b a * pathProb P (b :: l)
  | _ => 1

/-- Number of times a label sequence arrives at `j`. -/
def arrivals (labels : List ℕ) (j : ℕ) : ℕ :=
  ((Finset.range (labels.length - 1)).filter fun t => labels[t + 1]? = some j).card

theorem moves_cons (a b : ℕ) (l : List ℕ) (k j : ℕ) :
    moves (a :: b :: l) k j = (if a = k ∧ b = j then 1 else 0) + moves (b :: l) k j := by
  unfold moves
  simp only [List.length_cons, Nat.add_sub_cancel, Finset.card_filter]
  rw [Finset.sum_range_succ', add_comm]
  simp

theorem visits_cons (a b : ℕ) (l : List ℕ) (k : ℕ) :
    visits (a :: b :: l) k = (if a = k then 1 else 0) + visits (b :: l) k := by
  unfold visits
  simp only [List.length_cons, Nat.add_sub_cancel, Finset.card_filter]
  rw [Finset.sum_range_succ', add_comm]
  simp

theorem arrivals_cons (a b : ℕ) (l : List ℕ) (j : ℕ) :
    arrivals (a :: b :: l) j = (if b = j then 1 else 0) + arrivals (b :: l) j := by
  unfold arrivals
  simp only [List.length_cons, Nat.add_sub_cancel, Finset.card_filter]
  rw [Finset.sum_range_succ', add_comm]
  simp

/-- The probability collects the same steps. -/
theorem pathProb_eq (P : ℕ → ℕ → ℝ) (n : ℕ) (labels : List ℕ) (h : ∀ l ∈ labels, l < n) :
    pathProb P labels =
      ∏ k ∈ Finset.range n, ∏ j ∈ Finset.range n, P j k ^ moves labels k j := by
  induction labels with
  | nil => simp [pathProb, moves]
  | cons a l ih =>
    cases l with
    | nil => simp [pathProb, moves]
    | cons b l =>
      unfold pathProb
      rw [ih fun l hl => h l (List.mem_cons_of_mem _ hl)]
      simp only [moves_cons, pow_add, Finset.prod_mul_distrib]
      congr 1
      have ha : a ∈ Finset.range n := Finset.mem_range.2 (h a List.mem_cons_self)
      have hb : b ∈ Finset.range n := Finset.mem_range.2 (h b (by simp))
      rw [Finset.prod_eq_single_of_mem a ha, Finset.prod_eq_single_of_mem b hb]
      · simp
      · intro j _ hj
        rw [if_neg (fun h => hj h.2.symm), pow_zero]
      · intro k _ hk
        refine Finset.prod_eq_one fun j _ => ?_
        rw [if_neg (fun h => hk h.1.symm), pow_zero]

/-- Every arrival comes from some label. -/
theorem sum_moves_to (labels : List ℕ) (n j : ℕ) (h : ∀ l ∈ labels, l < n) :
    ∑ k ∈ Finset.range n, moves labels k j = arrivals labels j := by
  induction labels with
  | nil => simp [moves, arrivals]
  | cons a l ih =>
    cases l with
    | nil => simp [moves, arrivals]
    | cons b l =>
      simp only [moves_cons, arrivals_cons, Finset.sum_add_distrib]
      rw [ih fun l hl => h l (List.mem_cons_of_mem _ hl)]
      congr 1
      have ha : a ∈ Finset.range n := Finset.mem_range.2 (h a List.mem_cons_self)
      rw [Finset.sum_eq_single_of_mem a ha fun k _ hk => if_neg fun h => hk h.1.symm]
      simp

/-- Arrivals and departures balance, but for the ends. -/
theorem visits_add_last (labels : List ℕ) (j : ℕ) :
    visits labels j + (if labels.getLast? = some j then 1 else 0) =
      arrivals labels j + (if labels.head? = some j then 1 else 0) := by
  induction labels with
  | nil => simp [visits, arrivals]
  | cons a l ih =>
    cases l with
    | nil => simp [visits, arrivals]
    | cons b l =>
      rw [visits_cons, arrivals_cons, List.getLast?_cons_cons]
      simp only [List.head?_cons, Option.some.injEq] at ih ⊢
      omega

/-- The logarithm lies below its tangent. -/
theorem log_le_tangent {x : ℝ} (hx : 0 < x) : Real.log x ≤ x - 1 := Real.log_le_sub_one_of_pos hx

/-- Gibbs' inequality: frequencies `c j / n` make the product of the `p j ^ c j` as large as possible,
and nothing else does. -/
theorem gibbs {n : ℕ} (c : ℕ → ℕ) (N : ℕ) (hN : ∑ j ∈ Finset.range n, c j = N) (p q : ℕ → ℝ)
    (hq : ∀ j < n, q j * N = c j) (hN0 : 0 < N) (hp : ∀ j < n, 0 ≤ p j)
    (hs : ∑ j ∈ Finset.range n, p j ≤ 1) :
    ∏ j ∈ Finset.range n, p j ^ c j ≤ ∏ j ∈ Finset.range n, q j ^ c j ∧
    (∏ j ∈ Finset.range n, p j ^ c j = ∏ j ∈ Finset.range n, q j ^ c j → ∀ j < n, p j = q j) ∧
    0 < ∏ j ∈ Finset.range n, q j ^ c j := by
  have hN' : (0 : ℝ) < N := by exact_mod_cast hN0
  have hqv : ∀ j < n, q j = c j / N := fun j hj => by rw [eq_div_iff hN'.ne', hq j hj]
  have hqpos : ∀ j < n, 0 < c j → 0 < q j := fun j hj h => by
    rw [hqv j hj]
    have : (0 : ℝ) < c j := by exact_mod_cast h
    positivity
  have hprodq : 0 < ∏ j ∈ Finset.range n, q j ^ c j := by
    refine Finset.prod_pos fun j hj => ?_
    rcases Nat.eq_zero_or_pos (c j) with h | h
    · rw [h, pow_zero]; exact one_pos
    · exact pow_pos (hqpos j (Finset.mem_range.1 hj) h) _
  by_cases hz : ∃ j < n, 0 < c j ∧ p j = 0
  · obtain ⟨j, hj, hc, h0⟩ := hz
    have e : ∏ j ∈ Finset.range n, p j ^ c j = 0 :=
      Finset.prod_eq_zero (Finset.mem_range.2 hj) (by rw [h0]; exact zero_pow hc.ne')
    exact ⟨by rw [e]; exact hprodq.le, fun h => absurd (e.symm.trans h).symm hprodq.ne', hprodq⟩
  · push Not at hz
    have hppos : ∀ j < n, 0 < c j → 0 < p j := fun j hj h =>
      lt_of_le_of_ne (hp j hj) (Ne.symm (hz j hj h))
    have hprodp : 0 < ∏ j ∈ Finset.range n, p j ^ c j := by
      refine Finset.prod_pos fun j hj => ?_
      rcases Nat.eq_zero_or_pos (c j) with h | h
      · rw [h, pow_zero]; exact one_pos
      · exact pow_pos (hppos j (Finset.mem_range.1 hj) h) _
    have hlog : ∀ r : ℕ → ℝ, (∀ j < n, 0 < c j → 0 < r j) →
        Real.log (∏ j ∈ Finset.range n, r j ^ c j) = ∑ j ∈ Finset.range n, c j * Real.log (r j) := by
      intro r hr
      rw [Real.log_prod]
      · exact Finset.sum_congr rfl fun j _ => Real.log_pow _ _
      · intro j hj
        rcases Nat.eq_zero_or_pos (c j) with h | h
        · rw [h, pow_zero]; exact one_ne_zero
        · exact (pow_pos (hr j (Finset.mem_range.1 hj) h) _).ne'
    -- term by term
    have hterm : ∀ j < n, c j * Real.log (p j) - c j * Real.log (q j) ≤ N * p j - c j := by
      intro j hj
      rcases Nat.eq_zero_or_pos (c j) with h | h
      · rw [h]
        simp only [Nat.cast_zero, zero_mul, sub_zero]
        exact mul_nonneg hN'.le (hp j hj)
      · have hqj := hqpos j hj h
        have hpj := hppos j hj h
        have := log_le_tangent (div_pos hpj hqj)
        rw [Real.log_div hpj.ne' hqj.ne'] at this
        have hc : (0 : ℝ) < c j := by exact_mod_cast h
        have h2 : (c j : ℝ) * (p j / q j - 1) = N * p j - c j := by
          have : (c j : ℝ) = q j * N := (hq j hj).symm
          rw [this]
          field_simp
        rw [← h2, ← mul_sub]
        exact mul_le_mul_of_nonneg_left this hc.le
    have hsum : ∑ j ∈ Finset.range n, ((N : ℝ) * p j - c j) ≤ 0 := by
      rw [Finset.sum_sub_distrib, ← Finset.mul_sum, ← Nat.cast_sum, hN]
      nlinarith
    have hdiff : Real.log (∏ j ∈ Finset.range n, p j ^ c j) -
        Real.log (∏ j ∈ Finset.range n, q j ^ c j) =
        ∑ j ∈ Finset.range n, (c j * Real.log (p j) - c j * Real.log (q j)) := by
      rw [hlog p hppos, hlog q hqpos, ← Finset.sum_sub_distrib]
    have hle : ∑ j ∈ Finset.range n, (c j * Real.log (p j) - c j * Real.log (q j)) ≤
        ∑ j ∈ Finset.range n, ((N : ℝ) * p j - c j) :=
      Finset.sum_le_sum fun j hj => hterm j (Finset.mem_range.1 hj)
    refine ⟨?_, fun heq j hj => ?_, hprodq⟩
    · refine (Real.log_le_log_iff hprodp hprodq).1 ?_
      linarith
    · rw [heq, sub_self] at hdiff
      have h0 : ∑ j ∈ Finset.range n, (((N : ℝ) * p j - c j) -
          (c j * Real.log (p j) - c j * Real.log (q j))) ≤ 0 := by
        rw [Finset.sum_sub_distrib]
        linarith
      have hnn : ∀ j ∈ Finset.range n, 0 ≤ ((N : ℝ) * p j - c j) -
          (c j * Real.log (p j) - c j * Real.log (q j)) := fun j hj =>
        sub_nonneg.2 (hterm j (Finset.mem_range.1 hj))
      have hz0 := (Finset.sum_eq_zero_iff_of_nonneg hnn).1 (le_antisymm h0 (Finset.sum_nonneg hnn)) j
        (Finset.mem_range.2 hj)
      rcases Nat.eq_zero_or_pos (c j) with h | h
      · rw [h] at hz0
        simp only [Nat.cast_zero, zero_mul, sub_zero] at hz0
        have hq0 : q j = 0 := by rw [hqv j hj, h, Nat.cast_zero, zero_div]
        rw [hq0]
        exact (mul_eq_zero.1 hz0).resolve_left hN'.ne'
      · by_contra hne
        have hqj := hqpos j hj h
        have hpj := hppos j hj h
        have hlt := Real.log_lt_sub_one_of_pos (div_pos hpj hqj)
          (fun e => hne ((div_eq_one_iff_eq hqj.ne').1 e))
        rw [Real.log_div hpj.ne' hqj.ne'] at hlt
        have hc : (0 : ℝ) < c j := by exact_mod_cast h
        have h2 : (c j : ℝ) * (p j / q j - 1) = N * p j - c j := by
          have : (c j : ℝ) = q j * N := (hq j hj).symm
          rw [this]
          field_simp
        have := mul_lt_mul_of_pos_left hlt hc
        rw [h2, mul_sub] at this
        linarith

end Reor
