import Verif.Proofs.Simplex

set_option linter.unusedSectionVars false

namespace Reor

open scoped BigOperators
open Spec

variable {K : Type} [Field K] [LinearOrder K] [IsStrictOrderedRing K]

theorem project_isProb {n : ℕ} (hn : 1 ≤ n) (x : Fin n → K) : IsProb (simplexProjectVector x) :=
  ⟨fun _ => le_max_right _ _, sum_fmax_threshold hn x⟩

/-- Variational inequality of the projection. -/
theorem project_vi {n : ℕ} (hn : 1 ≤ n) (x y : Fin n → K) (hy : IsProb y) :
    ∑ i, (x i - simplexProjectVector x i) * (y i - simplexProjectVector x i) ≤ 0 := by
  set p := simplexProjectVector x with hp
  set t := simplexThreshold x with ht
  have hprob := project_isProb hn x
  have h1 : ∀ i, (x i - p i) * (y i - p i) ≤ t * (y i - p i) := by
    intro i
    have hpi : p i = max (x i - t) 0 := rfl
    rcases le_total (x i - t) 0 with h | h
    · rw [hpi, max_eq_right h]
      have := hy.1 i
      have : (x i - t) * y i ≤ 0 := mul_nonpos_of_nonpos_of_nonneg h this
      nlinarith
    · rw [hpi, max_eq_left h]
      have : x i - (x i - t) = t := by ring
      rw [this]
  calc ∑ i, (x i - p i) * (y i - p i) ≤ ∑ i, t * (y i - p i) := Finset.sum_le_sum fun i _ => h1 i
    _ = t * (∑ i, y i - ∑ i, p i) := by rw [← Finset.mul_sum, Finset.sum_sub_distrib]
    _ = 0 := by rw [hy.2, hprob.2]; ring

theorem sqDist_split {n : ℕ} (x p y : Fin n → K) :
    sqDist x y = sqDist x p + sqDist p y - 2 * ∑ i, (x i - p i) * (y i - p i) := by
  unfold sqDist
  rw [Finset.mul_sum, ← Finset.sum_add_distrib, ← Finset.sum_sub_distrib]
  exact Finset.sum_congr rfl fun i _ => by ring

theorem sqDist_nonneg {n : ℕ} (x y : Fin n → K) : 0 ≤ sqDist x y :=
  Finset.sum_nonneg fun _ _ => sq_nonneg _

theorem sqDist_eq_zero {n : ℕ} {x y : Fin n → K} (h : sqDist x y ≤ 0) : x = y := by
  funext i
  have h0 : sqDist x y = 0 := le_antisymm h (sqDist_nonneg _ _)
  have := (Finset.sum_eq_zero_iff_of_nonneg (fun i _ => sq_nonneg (x i - y i))).mp h0 i
    (Finset.mem_univ i)
  have := pow_eq_zero_iff (two_ne_zero) |>.mp this
  linarith

theorem project_nearest {n : ℕ} (hn : 1 ≤ n) (x y : Fin n → K) (hy : IsProb y) :
    sqDist x (simplexProjectVector x) + sqDist (simplexProjectVector x) y ≤ sqDist x y := by
  have := project_vi hn x y hy
  rw [sqDist_split x (simplexProjectVector x) y]
  linarith

theorem project_unique {n : ℕ} (hn : 1 ≤ n) (x y : Fin n → K) (hy : IsProb y)
    (h : sqDist x y ≤ sqDist x (simplexProjectVector x)) : y = simplexProjectVector x := by
  have := project_nearest hn x y hy
  exact (sqDist_eq_zero (by linarith)).symm

theorem project_of_isProb {n : ℕ} (hn : 1 ≤ n) (x : Fin n → K) (hx : IsProb x) :
    simplexProjectVector x = x := by
  refine (project_unique hn x x hx ?_).symm
  have : sqDist x x = 0 := by simp [sqDist]
  rw [this]; exact sqDist_nonneg _ _

/-- Any probability vector of the form `max (x - t) 0` is the projection. -/
theorem project_eq_of_threshold {n : ℕ} (hn : 1 ≤ n) (x : Fin n → K) (t : K)
    (h : ∑ i, max (x i - t) 0 = 1) : simplexProjectVector x = fun i => max (x i - t) 0 := by
  rcases lt_trichotomy t (simplexThreshold x) with hlt | heq | hgt
  · exfalso
    have h1 := sum_fmax_threshold hn x
    have : ∑ i, max (x i - simplexThreshold x) 0 < ∑ i, max (x i - t) 0 := by
      have hex : ∃ i, 0 < max (x i - simplexThreshold x) 0 := by
        by_contra hcon
        push Not at hcon
        have : ∑ i, max (x i - simplexThreshold x) 0 ≤ 0 := Finset.sum_nonpos fun i _ => hcon i
        rw [h1] at this
        linarith [zero_lt_one (α := K)]
      obtain ⟨i, hi⟩ := hex
      apply Finset.sum_lt_sum
      · intro j _
        exact max_le_max (by linarith) le_rfl
      · refine ⟨i, Finset.mem_univ i, ?_⟩
        have h2 : 0 < x i - simplexThreshold x := by
          by_contra hc
          rw [max_eq_right (not_lt.mp hc)] at hi
          exact lt_irrefl _ hi
        rw [max_eq_left h2.le]
        exact lt_of_lt_of_le (by linarith) (le_max_left _ _)
    rw [h1, h] at this
    exact lt_irrefl _ this
  · subst heq; rfl
  · exfalso
    have h1 := sum_fmax_threshold hn x
    have : ∑ i, max (x i - t) 0 < ∑ i, max (x i - simplexThreshold x) 0 := by
      have hex : ∃ i, 0 < max (x i - t) 0 := by
        by_contra hcon
        push Not at hcon
        have : ∑ i, max (x i - t) 0 ≤ 0 := Finset.sum_nonpos fun i _ => hcon i
        rw [h] at this
        linarith [zero_lt_one (α := K)]
      obtain ⟨i, hi⟩ := hex
      apply Finset.sum_lt_sum
      · intro j _
        exact max_le_max (by linarith) le_rfl
      · refine ⟨i, Finset.mem_univ i, ?_⟩
        have h2 : 0 < x i - t := by
          by_contra hc
          rw [max_eq_right (not_lt.mp hc)] at hi
          exact lt_irrefl _ hi
        rw [max_eq_left h2.le]
        exact lt_of_lt_of_le (by linarith) (le_max_left _ _)
    rw [h1, h] at this
    exact lt_irrefl _ this

theorem project_shift {n : ℕ} (hn : 1 ≤ n) (x : Fin n → K) (c : K) :
    simplexProjectVector (fun i => x i + c) = simplexProjectVector x := by
  have e : ∀ i, x i + c - (simplexThreshold x + c) = x i - simplexThreshold x := fun i => by ring
  rw [project_eq_of_threshold hn (fun i => x i + c) (simplexThreshold x + c)
    (by simp only [e]; exact sum_fmax_threshold hn x)]
  simp only [e]
  rfl

theorem project_perm {n : ℕ} (hn : 1 ≤ n) (x : Fin n → K) (σ : Equiv.Perm (Fin n)) :
    simplexProjectVector (fun i => x (σ i)) = fun i => simplexProjectVector x (σ i) := by
  rw [project_eq_of_threshold hn (fun i => x (σ i)) (simplexThreshold x)]
  · rfl
  · rw [Equiv.sum_comp σ (fun i => max (x i - simplexThreshold x) 0)]
    exact sum_fmax_threshold hn x

theorem project_mono {n : ℕ} (x : Fin n → K) (i j : Fin n) (h : x i ≤ x j) :
    simplexProjectVector x i ≤ simplexProjectVector x j :=
  max_le_max (by linarith) le_rfl

theorem project_nonexpansive {n : ℕ} (hn : 1 ≤ n) (x y : Fin n → K) :
    sqDist (simplexProjectVector x) (simplexProjectVector y) ≤ sqDist x y := by
  set p := simplexProjectVector x
  set q := simplexProjectVector y
  have h1 := project_vi hn x q (project_isProb hn y)
  have h2 := project_vi hn y p (project_isProb hn x)
  have h3 : 0 ≤ ∑ i, ((x i - y i) - (p i - q i)) ^ 2 := Finset.sum_nonneg fun _ _ => sq_nonneg _
  have h4 : sqDist x y - sqDist p q = ∑ i, ((x i - y i) - (p i - q i)) ^ 2
      - 2 * ∑ i, (x i - p i) * (q i - p i) - 2 * ∑ i, (y i - q i) * (p i - q i) := by
    unfold sqDist
    rw [Finset.mul_sum, Finset.mul_sum, ← Finset.sum_sub_distrib, ← Finset.sum_sub_distrib,
      ← Finset.sum_sub_distrib]
    exact Finset.sum_congr rfl fun i _ => by ring
  linarith

omit [IsStrictOrderedRing K] in
theorem foldl_setRow {m n : ℕ} (f : (Fin n → K) → Fin n → K) (l : List (Fin m)) (hl : l.Nodup)
    (A : Matrix (Fin m) (Fin n) K) (i : Fin m) (j : Fin n) :
    (l.foldl (fun B i => setRow B i (f fun j => B i j)) A) i j =
      if i ∈ l then f (fun j => A i j) j else A i j := by
  induction l generalizing A with
  | nil => simp
  | cons a l ih =>
    rw [List.nodup_cons] at hl
    rw [List.foldl_cons, ih hl.2]
    by_cases hia : i = a
    · subst hia
      simp [hl.1, setRow]
    · simp [hia, setRow]

omit [IsStrictOrderedRing K] in
theorem foldl_setCol {m n : ℕ} (f : (Fin m → K) → Fin m → K) (l : List (Fin n)) (hl : l.Nodup)
    (A : Matrix (Fin m) (Fin n) K) (i : Fin m) (j : Fin n) :
    (l.foldl (fun B j => setCol B j (f fun i => B i j)) A) i j =
      if j ∈ l then f (fun i => A i j) i else A i j := by
  induction l generalizing A with
  | nil => simp
  | cons a l ih =>
    rw [List.nodup_cons] at hl
    rw [List.foldl_cons, ih hl.2]
    by_cases hia : j = a
    · subst hia
      simp [hl.1, setCol]
    · simp [hia, setCol]

omit [IsStrictOrderedRing K] in
theorem projectRows_apply {m n : ℕ} (A : Matrix (Fin m) (Fin n) K) (i : Fin m) :
    (fun j => simplexProjectRows A i j) = simplexProjectVector (fun j => A i j) := by
  funext j
  unfold simplexProjectRows
  rw [foldl_setRow simplexProjectVector _ (List.nodup_finRange m)]
  simp

omit [IsStrictOrderedRing K] in
theorem projectColumns_apply {m n : ℕ} (A : Matrix (Fin m) (Fin n) K) (j : Fin n) :
    (fun i => simplexProjectColumns A i j) = simplexProjectVector (fun i => A i j) := by
  funext i
  unfold simplexProjectColumns
  rw [foldl_setCol simplexProjectVector _ (List.nodup_finRange n)]
  simp

end Reor
