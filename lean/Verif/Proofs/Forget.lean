import Verif.Proofs.MTDForecast

/-!
Mixture transition steps bring probability vectors closer together.
-/

namespace Reor

set_option linter.unusedSectionVars false

open scoped BigOperators Matrix
open Spec

variable {K : Type} [Field K] [LinearOrder K] [IsStrictOrderedRing K]
variable {T D k p : ℕ}

namespace Spec

/-- The sum of the absolute differences. -/
def l1Dist {n : ℕ} (x y : Fin n → K) : K := ∑ j, |x j - y j|

end Spec

theorem l1Dist_nonneg (x y : Fin k → K) : 0 ≤ l1Dist x y :=
  Finset.sum_nonneg fun _ _ => abs_nonneg _

theorem l1Dist_self (x : Fin k → K) : l1Dist x x = 0 := by
  unfold l1Dist
  simp

theorem l1Dist_prob {x y : Fin k → K} (hx : IsProb x) (hy : IsProb y) : l1Dist x y ≤ 2 := by
  have : ∀ j, |x j - y j| ≤ x j + y j := by
    intro j
    rw [abs_le]
    constructor <;> linarith [hx.1 j, hy.1 j]
  calc l1Dist x y ≤ ∑ j, (x j + y j) := Finset.sum_le_sum fun j _ => this j
    _ = 2 := by rw [Finset.sum_add_distrib, hx.2, hy.2]; norm_num

/-- Entries that are bounded below, row by row, leave room for `1 - ∑ c` only. -/
theorem minorant_le_one {M : Matrix (Fin k) (Fin k) K} (hM : ColStochastic M) {c : Fin k → K}
    (hc : ∀ j l, c j ≤ M j l) (l : Fin k) : ∑ j, c j ≤ 1 := by
  rw [← (hM l).2]
  exact Finset.sum_le_sum fun j _ => hc j l

theorem colStochastic_contracts {M : Matrix (Fin k) (Fin k) K} (hM : ColStochastic M) {c : Fin k → K}
    (hc : ∀ j l, c j ≤ M j l) {x y : Fin k → K} (hxy : ∑ l, x l = ∑ l, y l) :
    l1Dist (fun j => ∑ l, M j l * x l) (fun j => ∑ l, M j l * y l) ≤ (1 - ∑ j, c j) * l1Dist x y := by
  have h1 : ∀ j, |∑ l, M j l * x l - ∑ l, M j l * y l| ≤ ∑ l, (M j l - c j) * |x l - y l| := by
    intro j
    have e : ∑ l, M j l * x l - ∑ l, M j l * y l = ∑ l, (M j l - c j) * (x l - y l) := by
      have e1 : ∑ l, (M j l - c j) * (x l - y l) =
          (∑ l, M j l * x l - ∑ l, M j l * y l) - c j * (∑ l, x l - ∑ l, y l) := by
        rw [← Finset.sum_sub_distrib, ← Finset.sum_sub_distrib, Finset.mul_sum,
          ← Finset.sum_sub_distrib]
        exact Finset.sum_congr rfl fun l _ => by ring
      rw [e1, hxy]
      ring
    rw [e]
    refine (Finset.abs_sum_le_sum_abs _ _).trans (Finset.sum_le_sum fun l _ => ?_)
    rw [abs_mul, abs_of_nonneg (sub_nonneg.2 (hc j l))]
  calc l1Dist (fun j => ∑ l, M j l * x l) (fun j => ∑ l, M j l * y l)
      ≤ ∑ j, ∑ l, (M j l - c j) * |x l - y l| := Finset.sum_le_sum fun j _ => h1 j
    _ = ∑ l, (1 - ∑ j, c j) * |x l - y l| := by
        rw [Finset.sum_comm]
        refine Finset.sum_congr rfl fun l _ => ?_
        rw [← Finset.sum_mul, Finset.sum_sub_distrib, (hM l).2]
    _ = (1 - ∑ j, c j) * l1Dist x y := by
        unfold l1Dist
        rw [Finset.mul_sum]

theorem mtdStep_contracts {w : Fin p → K} (hw : IsProb w) {A : Fin p → Matrix (Fin k) (Fin k) K}
    (hA : ∀ i, ColStochastic (A i)) {c : Fin k → K} (hc : ∀ i j l, c j ≤ A i j l)
    {x y : Fin p → Fin k → K} (hx : ∀ i, IsProb (x i)) (hy : ∀ i, IsProb (y i)) {B : K}
    (hB : ∀ i, l1Dist (x i) (y i) ≤ B) :
    l1Dist (fun j => ∑ i, w i * ∑ l, A i j l * x i l) (fun j => ∑ i, w i * ∑ l, A i j l * y i l) ≤
      (1 - ∑ j, c j) * B := by
  have hρ : ∀ i : Fin p, 0 ≤ 1 - ∑ j, c j := by
    intro i
    have hk : 0 < k := by
      by_contra h
      have hk0 : k = 0 := by omega
      subst hk0
      have := (hx i).2
      simp at this
    exact sub_nonneg.2 (minorant_le_one (hA i) (hc i) ⟨0, hk⟩)
  have h1 : ∀ j, |∑ i, w i * ∑ l, A i j l * x i l - ∑ i, w i * ∑ l, A i j l * y i l| ≤
      ∑ i, w i * |∑ l, A i j l * x i l - ∑ l, A i j l * y i l| := by
    intro j
    rw [← Finset.sum_sub_distrib]
    refine (Finset.abs_sum_le_sum_abs _ _).trans (Finset.sum_le_sum fun i _ => ?_)
    rw [← mul_sub, abs_mul, abs_of_nonneg (hw.1 i)]
  calc l1Dist (fun j => ∑ i, w i * ∑ l, A i j l * x i l) (fun j => ∑ i, w i * ∑ l, A i j l * y i l)
      ≤ ∑ j, ∑ i, w i * |∑ l, A i j l * x i l - ∑ l, A i j l * y i l| :=
        Finset.sum_le_sum fun j _ => h1 j
    _ = ∑ i, w i * l1Dist (fun j => ∑ l, A i j l * x i l) (fun j => ∑ l, A i j l * y i l) := by
        rw [Finset.sum_comm]
        refine Finset.sum_congr rfl fun i _ => ?_
        unfold l1Dist
        rw [Finset.mul_sum]
    _ ≤ ∑ i, w i * ((1 - ∑ j, c j) * B) := by
        refine Finset.sum_le_sum fun i _ => mul_le_mul_of_nonneg_left ?_ (hw.1 i)
        refine (colStochastic_contracts (hA i) (hc i) ((hx i).2.trans (hy i).2.symm)).trans ?_
        exact mul_le_mul_of_nonneg_left (hB i) (hρ i)
    _ = (1 - ∑ j, c j) * B := by rw [← Finset.sum_mul, hw.2, one_mul]

/-- Two sequences of probability vectors following the recursion from time `L` on. -/
theorem followsMTD_approach {lags : Fin p → ℕ} {L : ℕ} (hlag : ∀ i, 1 ≤ lags i)
    (hL : ∀ i, lags i ≤ L) {w : Fin p → K} (hw : IsProb w)
    {A : Fin p → Matrix (Fin k) (Fin k) K} (hA : ∀ i, ColStochastic (A i)) {c : Fin k → K}
    (hc0 : ∀ j, 0 ≤ c j) (hc : ∀ i j l, c j ≤ A i j l) {u v : ℕ → Fin k → K}
    (hu : ∀ n, IsProb (u n)) (hv : ∀ n, IsProb (v n))
    (hfu : ∀ n, L ≤ n → u n = fun j => ∑ i, w i * ∑ l, A i j l * u (n - lags i) l)
    (hfv : ∀ n, L ≤ n → v n = fun j => ∑ i, w i * ∑ l, A i j l * v (n - lags i) l) {ε : K}
    (hε : ∀ n, n < L → l1Dist (u n) (v n) ≤ ε) :
    ∀ m n : ℕ, m * L ≤ n → l1Dist (u n) (v n) ≤ ε * (1 - ∑ j, c j) ^ m := by
  have hp : 0 < p := by
    by_contra h
    have hp0 : p = 0 := by omega
    subst hp0
    have := hw.2
    simp at this
  have hL1 : 1 ≤ L := (hlag ⟨0, hp⟩).trans (hL ⟨0, hp⟩)
  have hε0 : 0 ≤ ε := (l1Dist_nonneg _ _).trans (hε 0 (by omega))
  have hρ1 : 1 - ∑ j, c j ≤ 1 := by
    have : 0 ≤ ∑ j, c j := Finset.sum_nonneg fun j _ => hc0 j
    linarith
  have step : ∀ {B : K} (n : ℕ), L ≤ n → (∀ i, l1Dist (u (n - lags i)) (v (n - lags i)) ≤ B) →
      l1Dist (u n) (v n) ≤ (1 - ∑ j, c j) * B := by
    intro B n hn hB
    rw [hfu n hn, hfv n hn]
    exact mtdStep_contracts hw hA hc (fun i => hu _) (fun i => hv _) hB
  intro m
  induction m with
  | zero =>
    intro n _
    rw [pow_zero, mul_one]
    induction n using Nat.strong_induction_on with
    | _ n ih =>
      by_cases hn : n < L
      · exact hε n hn
      · refine (step n (by omega) fun i => ih (n - lags i) (by have := hlag i; omega) (by omega)).trans
          ?_
        calc (1 - ∑ j, c j) * ε ≤ 1 * ε := mul_le_mul_of_nonneg_right hρ1 hε0
          _ = ε := one_mul ε
  | succ m ih =>
    intro n hn
    have hmul : (m + 1) * L = m * L + L := by ring
    have hLn : L ≤ n := by
      have := Nat.zero_le (m * L)
      omega
    refine (step n hLn fun i => ih (n - lags i) ?_).trans (le_of_eq ?_)
    · have := hL i
      omega
    · rw [pow_succ]
      ring

/-- Two sequences of distributions of the same chain. -/
theorem chains_approach {M : Matrix (Fin k) (Fin k) K} (hM : ColStochastic M) {c : Fin k → K}
    (hc : ∀ j l, c j ≤ M j l) {x y : ℕ → Fin k → K} (hx : ∀ n, IsProb (x n)) (hy : ∀ n, IsProb (y n))
    (hfx : ∀ n, x (n + 1) = fun j => ∑ l, M j l * x n l)
    (hfy : ∀ n, y (n + 1) = fun j => ∑ l, M j l * y n l) :
    ∀ h, l1Dist (x h) (y h) ≤ 2 * (1 - ∑ j, c j) ^ h
  | 0 => by
    rw [pow_zero, mul_one]
    exact l1Dist_prob (hx 0) (hy 0)
  | h + 1 => by
    have hk : 0 < k := by
      by_contra hh
      have hk0 : k = 0 := by omega
      subst hk0
      have := (hx 0).2
      simp at this
    have hρ : 0 ≤ 1 - ∑ j, c j := sub_nonneg.2 (minorant_le_one hM hc ⟨0, hk⟩)
    rw [hfx, hfy]
    refine (colStochastic_contracts hM hc ((hx h).2.trans (hy h).2.symm)).trans ?_
    refine (mul_le_mul_of_nonneg_left (chains_approach hM hc hx hy hfx hfy h) hρ).trans (le_of_eq ?_)
    rw [pow_succ]
    ring

theorem ceil_le_steps (h L : ℕ) (hL : 1 ≤ L) : (h + L - 1) / L * L ≤ L - 1 + h := by
  refine (Nat.div_mul_le_self _ _).trans (by omega)

end Reor
