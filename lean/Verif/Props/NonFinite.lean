import Verif.Proofs.NonFinite
import Verif.Proofs.SimplexGeom
import Mathlib.Tactic.FinCases
import Mathlib.Tactic.NormNum

/-!
C132: the simplex projection hides NaN and infinite entries.
-/

namespace Reor

set_option linter.unusedSectionVars false

open scoped BigOperators
open Spec

variable {K : Type} [Field K] [LinearOrder K] [IsStrictOrderedRing K]
variable {n : ℕ}

/-- C132.  One NaN or one entry plus infinity: every entry of the result is 0, also those of the
finite entries.  Nothing tells it from a regular result but the sum. -/
theorem C132_nan_gives_zero (x : Fin n → Flt K) (h : ∃ i, x i = .nan ∨ x i = .pinf) (i : Fin n) :
    fltProjectVector x i = .fin 0 := by
  unfold fltProjectVector
  by_cases hn : ∃ j, x j = .nan
  · obtain ⟨j, hj⟩ := hn
    simp only [fltThreshold_nan x j hj]
    cases x i <;> rfl
  · obtain ⟨j, hj⟩ := h
    have hj : x j = .pinf := hj.resolve_left fun h => hn ⟨j, h⟩
    have hne : ∀ j, x j ≠ .nan := fun j h => hn ⟨j, h⟩
    simp only [fltThreshold_first x .pinf j hj (Or.inl rfl) (fun l => by
      have := hne l
      revert this
      cases x l <;> simp [Flt.sortLe, Flt.ge]) hne]
    cases x i <;> rfl

example : fltProjectVector (![.nan, .fin (1/3), .fin (2/3)] : Fin 3 → Flt ℚ) 2 = .fin 0 ∧
    fltProjectVector (![.fin 1, .pinf] : Fin 2 → Flt ℚ) 1 = .fin 0 :=
  ⟨C132_nan_gives_zero _ ⟨0, Or.inl rfl⟩ 2, C132_nan_gives_zero _ ⟨1, Or.inr rfl⟩ 1⟩

/-- C132.  Without a finite entry every entry of the result is 0. -/
theorem C132_no_finite_entry (x : Fin n → Flt K) (h : ∀ i b, x i ≠ .fin b) (i : Fin n) :
    fltProjectVector x i = .fin 0 := by
  by_cases h' : ∃ i, x i = .nan ∨ x i = .pinf
  · exact C132_nan_gives_zero x h' i
  · have hall : ∀ j, x j = .ninf := by
      intro j
      have h1 := h j
      have h2 : ¬(x j = .nan ∨ x j = .pinf) := fun h => h' ⟨j, h⟩
      revert h1 h2
      cases x j <;> simp
    unfold fltProjectVector
    simp only [fltThreshold_first x .ninf i (hall i) (Or.inr rfl) (fun l => by rw [hall l]; rfl)
      (fun l => by rw [hall l]; simp)]
    rw [hall i]
    rfl

example : fltProjectVector (![.ninf, .ninf] : Fin 2 → Flt ℚ) 0 = .fin 0 :=
  C132_no_finite_entry _ (by intro i b; fin_cases i <;> simp) 0

/-- C132.  Otherwise the entries minus infinity get weight 0, and the result is the probability vector
nearest to the finite entries among those that vanish at the others. -/
theorem C132_minus_infinity (x : Fin n → Flt K) (a : Fin n → K)
    (hx : ∀ i, x i = .ninf ∨ x i = .fin (a i)) (hne : ∃ i, x i = .fin (a i)) :
    ∃ y : Fin n → K, (∀ i, fltProjectVector x i = .fin (y i)) ∧ IsProb y ∧
      (∀ i, x i = .ninf → y i = 0) ∧
      ∀ z, IsProb z → (∀ i, x i = .ninf → z i = 0) →
        ∑ i, (if x i = .ninf then 0 else (a i - y i) ^ 2) ≤
          ∑ i, if x i = .ninf then 0 else (a i - z i) ^ 2 := by
  have hfin := fltThreshold_finite x (fun i => (hx i).imp id fun h => ⟨_, h⟩)
    (hne.imp fun i h => ⟨_, h⟩)
  set l := finiteOf (List.ofFn x) with hl
  set τ := simplexThreshold l.get with hτ
  let y : Fin n → K := fun i => match x i with | .fin b => max (b - τ) 0 | _ => 0
  have hy1 : ∀ i, x i = .ninf → y i = 0 := fun i h => by simp only [y, h]
  have hy2 : ∀ i, x i ≠ .ninf → y i = max (a i - τ) 0 := fun i h => by
    simp only [y, (hx i).resolve_left h]
  have hlen : 1 ≤ l.length := by
    by_contra hlt
    have h0 : l = [] := List.length_eq_zero_iff.1 (by omega)
    obtain ⟨m, hm⟩ := perm_finiteOf (List.ofFn x) fun b hb => by
      obtain ⟨i, rfl⟩ := List.mem_ofFn.1 hb
      exact (hx i).imp id fun h => ⟨_, h⟩
    rw [← hl, h0] at hm
    obtain ⟨i, hi⟩ := hne
    have := hm.mem_iff.1 (List.mem_ofFn.2 ⟨i, hi⟩)
    simp at this
  have hsum : ∑ i, y i = 1 := by
    have h1 := (project_isProb hlen l.get).2
    have h2 := sum_finiteOf (fun b => max (b - τ) 0) (List.ofFn x)
    rw [← hl, List.map_ofFn, List.sum_ofFn] at h2
    refine h2.trans (Eq.trans ?_ h1)
    have h3 : l.map (fun b => max (b - τ) 0) = List.ofFn (simplexProjectVector l.get) := by
      conv_lhs => rw [← List.ofFn_get l, List.map_ofFn]
      rfl
    rw [h3, List.sum_ofFn]
  have hprob : IsProb y := ⟨fun i => by
    by_cases h : x i = .ninf
    · rw [hy1 i h]
    · rw [hy2 i h]
      exact le_max_right _ _, hsum⟩
  refine ⟨y, fun i => ?_, hprob, hy1, fun z hz hz0 => ?_⟩
  · unfold fltProjectVector
    simp only [hfin]
    rcases hx i with h | h
    · rw [hy1 i h, h]
      rfl
    · rw [hy2 i (by rw [h]; simp), h]
      simp only [Flt.sub, Flt.neg, Flt.add, Flt.fmax, Flt.ge]
      rcases le_total 0 (a i - τ) with h0 | h0
      · rw [max_eq_left h0]
        simp [← sub_eq_add_neg, sub_nonneg.1 h0]
      · rw [max_eq_right h0]
        by_cases h1 : 0 ≤ a i + -τ
        · have : a i + -τ = 0 := le_antisymm (by rwa [← sub_eq_add_neg]) h1
          simp [this]
        · simp [h1]
  · let b : Fin n → K := fun i => if x i = .ninf then τ - 1 else a i
    have hb := threshold_nearest b τ y z (fun i => by
      by_cases h : x i = .ninf
      · rw [hy1 i h]
        simp [b, h]
      · rw [hy2 i h]
        simp [b, h]) hsum hz
    have key : ∀ v : Fin n → K, (∀ i, x i = .ninf → v i = 0) →
        sqDist b v = (∑ i, if x i = .ninf then 0 else (a i - v i) ^ 2) +
          ∑ i, if x i = .ninf then (τ - 1) ^ 2 else 0 := by
      intro v hv
      rw [← Finset.sum_add_distrib]
      refine Finset.sum_congr rfl fun i _ => ?_
      by_cases h : x i = .ninf
      · simp [b, h, hv i h]
      · simp [b, h]
    rw [key y hy1, key z hz0] at hb
    exact le_of_add_le_add_right hb

example : ∃ y : Fin 3 → ℚ, (∀ i, fltProjectVector ![.fin 1, .ninf, .fin 5] i = .fin (y i)) ∧
    IsProb y ∧ y 1 = 0 := by
  obtain ⟨y, h1, h2, h3, -⟩ := C132_minus_infinity (![.fin 1, .ninf, .fin 5] : Fin 3 → Flt ℚ)
    ![1, 0, 5] (by intro i; fin_cases i <;> simp) ⟨0, rfl⟩
  exact ⟨y, h1, h2, h3 1 rfl⟩

/-- C132.  For finite entries this is the function of C01-C05. -/
theorem C132_finite_models (a : Fin n → K) (i : Fin n) :
    fltProjectVector (fun j => .fin (a j)) i = .fin (simplexProjectVector a i) := by
  obtain ⟨y, h1, h2, -, h4⟩ := C132_minus_infinity (fun j => .fin (a j)) a (fun _ => Or.inr rfl) ⟨i, rfl⟩
  have hn : 1 ≤ n := by have := i.2; omega
  have : y = simplexProjectVector a := by
    refine project_unique hn a y h2 ?_
    have := h4 _ (project_isProb hn a) (by simp)
    simpa [sqDist] using this
  rw [h1, this]

/-- C132.  The result is always finite, and it is a probability vector exactly if no entry is NaN or
plus infinity and some entry is finite. -/
theorem C132_probability_iff (x : Fin n → Flt K) :
    ∃ y : Fin n → K, (∀ i, fltProjectVector x i = .fin (y i)) ∧
      (IsProb y ↔ (∀ i, x i ≠ .nan ∧ x i ≠ .pinf) ∧ ∃ i b, x i = .fin b) := by
  by_cases h : (∀ i, x i ≠ .nan ∧ x i ≠ .pinf) ∧ ∃ i b, x i = .fin b
  · let a : Fin n → K := fun i => match x i with | .fin b => b | _ => 0
    have hx : ∀ i, x i = .ninf ∨ x i = .fin (a i) := by
      intro i
      have := h.1 i
      simp only [a]
      revert this
      cases x i <;> simp
    obtain ⟨i, b, hb⟩ := h.2
    obtain ⟨y, h1, h2, -⟩ := C132_minus_infinity x a hx ⟨i, (hx i).resolve_left (by rw [hb]; simp)⟩
    exact ⟨y, h1, fun _ => h, fun _ => h2⟩
  · refine ⟨fun _ => 0, fun i => ?_, fun hp => absurd hp.2 (by simp), fun h' => absurd h' h⟩
    by_cases h1 : ∃ i, x i = .nan ∨ x i = .pinf
    · exact C132_nan_gives_zero x h1 i
    · refine C132_no_finite_entry x (fun j b hb => h ⟨fun l => ⟨fun hl => h1 ⟨l, Or.inl hl⟩,
        fun hl => h1 ⟨l, Or.inr hl⟩⟩, j, b, hb⟩) i

/-- C132.  Sums commute, the opposite is an involution that reverses comparisons, a number minus
itself is 0 if it is finite and NaN otherwise, and adding a finite number changes no infinity. -/
theorem C132_arithmetic (a b : Flt K) :
    a.add b = b.add a ∧ a.neg.neg = a ∧ a.neg.ge b.neg = b.ge a ∧
      ((∃ x, a = .fin x) → a.sub a = .fin 0) ∧ ((∀ x, a ≠ .fin x) → a.sub a = .nan) ∧
      ((∀ x, a ≠ .fin x) → ∀ y, a.add (.fin y) = a) := by
  refine ⟨?_, ?_, ?_, ?_, ?_, ?_⟩
  · cases a <;> cases b <;> simp [Flt.add, add_comm]
  · cases a <;> simp [Flt.neg]
  · cases a <;> cases b <;> simp [Flt.neg, Flt.ge]
  · rintro ⟨x, rfl⟩
    simp [Flt.sub, Flt.neg, Flt.add]
  · intro h
    cases a with
    | fin x => exact absurd rfl (h x)
    | _ => rfl
  · intro h y
    cases a with
    | fin x => exact absurd rfl (h x)
    | _ => rfl

example : (Flt.ninf : Flt ℚ).sub .ninf = .nan := (C132_arithmetic _ .nan).2.2.2.2.1 (by simp)

end Reor
