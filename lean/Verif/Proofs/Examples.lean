import Verif.Model.Examples
import Mathlib.Data.Fintype.BigOperators
import Mathlib.Algebra.BigOperators.Intervals

/-!
Helper lemmas for the example programs.
-/

set_option linter.unusedSectionVars false

namespace Reor

open scoped BigOperators

/-- A loop over all samples. -/
theorem foldl_finRange_inv {S : Type} {T : ℕ} (step : S → Fin T → S) (P : ℕ → S → Prop) (s0 : S)
    (h0 : P 0 s0) (hs : ∀ (t : Fin T) s, P t s → P (t + 1) (step s t)) :
    P T ((List.finRange T).foldl step s0) := by
  have key : ∀ m, m ≤ T → P m (((List.finRange T).take m).foldl step s0) := by
    intro m
    induction m with
    | zero => intro _; simpa using h0
    | succ m ih =>
      intro hm
      have hlt : m < (List.finRange T).length := by simpa using hm
      rw [← List.take_concat_get' _ _ hlt, List.foldl_append]
      have := hs ⟨m, hm⟩ _ (ih (by omega))
      simpa using this
  have := key T le_rfl
  rwa [List.take_of_length_le (by simp)] at this

theorem foldl_range_inv {S : Type} (step : S → ℕ → S) (P : ℕ → S → Prop) (s0 : S) (h0 : P 0 s0)
    (hs : ∀ m s, P m s → P (m + 1) (step s m)) (n : ℕ) :
    P n ((List.range n).foldl step s0) := by
  induction n with
  | zero => exact h0
  | succ n ih =>
    rw [List.range_succ, List.foldl_append]
    exact hs n _ ih

/-- A loop over the samples from `order` on. -/
theorem foldl_from_inv {S : Type} {T : ℕ} (order : ℕ) (ho : order ≤ T) (step : S → Fin T → S)
    (P : ℕ → S → Prop) (s0 : S) (h0 : P order s0)
    (hs : ∀ (t : Fin T) s, order ≤ (t : ℕ) → P t s → P (t + 1) (step s t)) :
    P T (((List.finRange T).filter fun t : Fin T => order ≤ (t : ℕ)).foldl step s0) := by
  rw [List.foldl_filter]
  have := foldl_finRange_inv (fun s t => if decide (order ≤ (t : ℕ)) = true then step s t else s)
    (fun m s => if m ≤ order then s = s0 else P m s) s0 (by simp) (by
      intro t s h
      by_cases ht : order ≤ (t : ℕ)
      · simp only [ht, decide_true, if_true]
        rw [if_neg (by omega)]
        rcases Nat.lt_or_ge order t with h1 | h1
        · rw [if_neg (by omega)] at h
          exact hs t s ht h
        · rw [if_pos h1] at h
          subst h
          have : (t : ℕ) = order := by omega
          exact hs t s ht (this ▸ h0)
      · simp only [ht, decide_false, Bool.false_eq_true, if_false]
        rw [if_pos (by omega)] at h ⊢
        exact h)
  split_ifs at this with h
  · have hT : T = order := by omega
    rw [this]
    exact hT ▸ h0
  · exact this

end Reor
