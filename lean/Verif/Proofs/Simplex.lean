import Mathlib.Algebra.Order.BigOperators.Group.Finset
import Mathlib.Algebra.BigOperators.Fin
import Mathlib.Algebra.Order.Ring.Defs
import Mathlib.Tactic.Linarith
import Mathlib.Tactic.Ring
import Mathlib.Tactic.FieldSimp
import Verif.Model.SimplexProjection
import Verif.Spec

set_option linter.unusedSectionVars false

namespace Reor

open scoped BigOperators
open Spec

variable {K : Type} [Field K] [LinearOrder K] [IsStrictOrderedRing K]

theorem pyRangeDown_nil {a b : Int} (h : a ≤ b) : pyRangeDown a b = [] := by
  have : (a - b).toNat = 0 := by omega
  simp [pyRangeDown, this]

theorem pyRangeDown_cons {a b : Int} (h : b < a) :
    pyRangeDown a b = a :: pyRangeDown (a - 1) b := by
  have h1 : (a - b).toNat = (a - 1 - b).toNat + 1 := by omega
  unfold pyRangeDown
  rw [h1, List.range_succ_eq_map]
  simp only [List.map_cons, List.map_map]
  congr 1
  · simp
  · apply List.map_congr_left
    intro j _
    simp only [Function.comp, Nat.succ_eq_add_one]
    omega

/-- mean excess of the `m` largest entries -/
def tAt (s : List K) (m : ℕ) : K := ((s.drop (s.length - m)).sum - 1) / (m : K)

theorem thresholdLoop_spec (s : List K) (k : ℕ) :
    ∀ (m : ℕ) (t : K), 1 ≤ m → m + k = s.length →
      (m = 1 ∨ tAt s (m - 1) < s.getD (s.length - m) 0) →
      ∃ m', 1 ≤ m' ∧ m' ≤ s.length ∧
        simplexThresholdLoop s (pyRangeDown (s.length - 1 - m) (-2)) t = tAt s m' ∧
        (m' = 1 ∨ tAt s (m' - 1) < s.getD (s.length - m') 0) ∧
        (m' = s.length ∨ tAt s m' ≥ s.getD (s.length - 1 - m') 0) := by
  induction k with
  | zero =>
    intro m t hm hk hprev
    refine ⟨m, hm, by omega, ?_, hprev, Or.inl (by omega)⟩
    rw [pyRangeDown_cons (by omega), pyRangeDown_nil (by omega)]
    simp only [simplexThresholdLoop]
    have : (s.length : Int) - 1 - ((s.length : Int) - 1 - m) = m := by omega
    rw [this]
    simp [tAt, pyLast]
  | succ k ih =>
    intro m t hm hk hprev
    rw [pyRangeDown_cons (by omega)]
    simp only [simplexThresholdLoop]
    have e1 : (s.length : Int) - 1 - ((s.length : Int) - 1 - m) = m := by omega
    rw [e1]
    have e2 : ((pyLast s (m : Int).toNat).sum - 1) / (((m : Int)) : K) = tAt s m := by
      simp [tAt, pyLast]
    have e3 : pyGet s ((s.length : Int) - 1 - m) 0 = s.getD (s.length - 1 - m) 0 := by
      unfold pyGet
      rw [if_pos (by omega)]
      congr 1
      omega
    rw [e2, e3]
    split
    · rename_i h
      exact ⟨m, hm, by omega, rfl, hprev, Or.inr h⟩
    · rename_i h
      have e4 : (s.length : Int) - 1 - (m : Int) - 1 = (s.length : Int) - 1 - ((m + 1 : ℕ) : Int) := by
        push_cast; ring
      rw [e4]
      refine ih (m + 1) _ (by omega) (by omega) (Or.inr ?_)
      have e5 : s.length - (m + 1) = s.length - 1 - m := by omega
      rw [e5, Nat.add_sub_cancel]
      exact not_le.mp h

theorem sum_eq_zero_of_le (l : List K) (t : K) (h : ∀ a ∈ l, a ≤ t) :
    (l.map fun a => max (a - t) 0).sum = 0 := by
  induction l with
  | nil => simp
  | cons a l ih =>
    have h1 : a - t ≤ 0 := by linarith [h a (by simp)]
    simp only [List.map_cons, List.sum_cons, max_eq_right h1, zero_add]
    exact ih fun b hb => h b (by simp [hb])

theorem sum_eq_of_ge (l : List K) (t : K) (h : ∀ a ∈ l, t ≤ a) :
    (l.map fun a => max (a - t) 0).sum = l.sum - l.length * t := by
  induction l with
  | nil => simp
  | cons a l ih =>
    have h1 : 0 ≤ a - t := by linarith [h a (by simp)]
    simp only [List.map_cons, List.sum_cons, max_eq_left h1]
    rw [ih fun b hb => h b (by simp [hb])]
    push_cast [List.length_cons]
    ring

theorem tAt_mul (s : List K) {m : ℕ} (hm : 1 ≤ m) :
    tAt s m * m = (s.drop (s.length - m)).sum - 1 := by
  have : (m : K) ≠ 0 := by
    have : (0 : K) < m := by exact_mod_cast hm
    exact this.ne'
  unfold tAt
  field_simp

/-- The threshold found by the loop on a sorted non-empty list. -/
theorem sorted_threshold_sum (s : List K) (hs : s.Pairwise (· ≤ ·)) (hne : 1 ≤ s.length) :
    (s.map fun a => max (a - simplexThresholdLoop s (pyRangeDown (s.length - 2) (-2)) 0) 0).sum
      = 1 := by
  obtain ⟨m, hm1, hm2, hr, hlow, hhigh⟩ :=
    thresholdLoop_spec s (s.length - 1) 1 0 le_rfl (by omega) (Or.inl rfl)
  have e : (s.length : Int) - 1 - ((1 : ℕ) : Int) = s.length - 2 := by push_cast; ring
  rw [e] at hr
  rw [hr]
  set t := tAt s m with ht
  set n := s.length with hn
  have hget : ∀ i (h : i < s.length), s.getD i 0 = s[i] := fun i h => by
    simp [List.getD_eq_getElem?_getD, h]
  have hmono : ∀ i j (hi : i < s.length) (hj : j < s.length), i ≤ j → s[i] ≤ s[j] := by
    intro i j hi hj hij
    rcases Nat.lt_or_eq_of_le hij with h | h
    · exact List.pairwise_iff_getElem.mp hs i j hi hj h
    · subst h; exact le_rfl
  have hdrop : s.drop (n - m) = s[n - m]'(by omega) :: s.drop (n - m + 1) :=
    List.drop_eq_getElem_cons (by omega)
  have hle : t ≤ s[n - m]'(by omega) := by
    rcases hlow with h | h
    · subst h
      have hmul := tAt_mul s (le_refl 1)
      have hlast : s.drop (n - 1 + 1) = [] := by
        apply List.drop_eq_nil_of_le; omega
      rw [← hn, hdrop, hlast] at hmul
      simp only [Nat.cast_one, mul_one, List.sum_cons, List.sum_nil, add_zero] at hmul
      linarith
    · rcases Nat.lt_or_ge 1 m with h1 | h1
      · have hmulm := tAt_mul s hm1
        have hmul1 := tAt_mul s (m := m - 1) (by omega)
        have e1 : n - (m - 1) = n - m + 1 := by omega
        rw [← hn] at hmulm hmul1
        rw [hdrop] at hmulm
        rw [e1] at hmul1
        rw [hget _ (by omega)] at h
        simp only [List.sum_cons] at hmulm
        have hc : ((m - 1 : ℕ) : K) = (m : K) - 1 := by push_cast [Nat.cast_sub hm1]; ring
        rw [hc] at hmul1
        have hpos : (0 : K) < (m : K) - 1 := by
          have : (1 : K) < m := by exact_mod_cast h1
          linarith
        have h2 : tAt s (m - 1) * ((m : K) - 1) ≤ s[n - m] * ((m : K) - 1) :=
          mul_le_mul_of_nonneg_right h.le hpos.le
        have h3 : t * (m : K) ≤ s[n - m] * (m : K) := by
          rw [ht]; linarith
        exact le_of_mul_le_mul_right h3 (by linarith)
      · have : m = 1 := by omega
        subst this
        have hmul := tAt_mul s (le_refl 1)
        have hlast : s.drop (n - 1 + 1) = [] := by
          apply List.drop_eq_nil_of_le; omega
        rw [← hn, hdrop, hlast] at hmul
        simp only [Nat.cast_one, mul_one, List.sum_cons, List.sum_nil, add_zero] at hmul
        linarith
  have htake : ∀ a ∈ s.take (n - m), a ≤ t := by
    intro a ha
    obtain ⟨i, hi, rfl⟩ := List.mem_iff_getElem.mp ha
    rw [List.length_take] at hi
    rw [List.getElem_take]
    rcases hhigh with h | h
    · omega
    · rw [hget _ (by omega)] at h
      exact le_trans (hmono _ _ _ _ (by omega)) h
  have hdropge : ∀ a ∈ s.drop (n - m), t ≤ a := by
    intro a ha
    obtain ⟨i, hi, rfl⟩ := List.mem_iff_getElem.mp ha
    rw [List.length_drop] at hi
    rw [List.getElem_drop]
    exact le_trans hle (hmono _ _ _ _ (by omega))
  conv_lhs => rw [← List.take_append_drop (n - m) s]
  rw [List.map_append, List.sum_append, sum_eq_zero_of_le _ _ htake, sum_eq_of_ge _ _ hdropge,
    List.length_drop]
  have e2 : s.length - (n - m) = m := by omega
  rw [e2]
  have := tAt_mul s hm1
  rw [← hn, ← ht] at this
  linarith

theorem sum_fmax_threshold {n : ℕ} (hn : 1 ≤ n) (x : Fin n → K) :
    ∑ i, max (x i - simplexThreshold x) 0 = 1 := by
  have hperm : ((List.ofFn x).mergeSort (· ≤ ·)).Perm (List.ofFn x) := List.mergeSort_perm _ _
  have hsorted : ((List.ofFn x).mergeSort (· ≤ ·)).Pairwise (· ≤ ·) := List.pairwise_mergeSort' _ _
  have hlen : 1 ≤ ((List.ofFn x).mergeSort (· ≤ ·)).length := by
    rw [hperm.length_eq]; simpa using hn
  have key := sorted_threshold_sum _ hsorted hlen
  have hdef : simplexThreshold x = simplexThresholdLoop ((List.ofFn x).mergeSort (· ≤ ·))
      (pyRangeDown (((List.ofFn x).mergeSort (· ≤ ·)).length - 2) (-2)) 0 := rfl
  rw [← hdef] at key
  rw [(hperm.map _).sum_eq] at key
  rw [← key, List.map_ofFn, List.sum_ofFn]
  rfl

end Reor
