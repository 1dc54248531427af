import Verif.Proofs.MTDFit

/-!
Forecasts of the MTD model: the sliding window holds consecutive values of the recursion.
-/

namespace Reor

set_option linter.unusedSectionVars false

open scoped BigOperators Matrix
open Spec

variable {K : Type} [Field K] [LinearOrder K] [IsStrictOrderedRing K]
variable {T D k p : ℕ}

/-- `m` consecutive values of a sequence. -/
def windowOf {α : Type} (q : ℕ → α) (n m : ℕ) : List α := (List.range m).map fun r => q (n + r)

theorem windowOf_length {α : Type} (q : ℕ → α) (n m : ℕ) : (windowOf q n m).length = m := by
  simp [windowOf]

theorem pyGet_windowOf {α : Type} (q : ℕ → α) (n m l : ℕ) (h1 : 1 ≤ l) (h2 : l ≤ m) (d : α) :
    pyGet (windowOf q n m) (-(l : ℤ)) d = q (n + m - l) := by
  unfold pyGet
  rw [if_neg (by omega), windowOf_length]
  have e : ((m : ℤ) + -(l : ℤ)).toNat = m - l := by omega
  rw [e]
  have h3 : m - l < m := by omega
  have h4 : n + (m - l) = n + m - l := by omega
  simp [windowOf, List.getD_eq_getElem?_getD, h3, h4]

theorem shift_windowOf {α : Type} (q : ℕ → α) (n m : ℕ) (hm : 1 ≤ m) :
    setLast (rollLeft (windowOf q n m)) (q (n + m)) = windowOf q (n + 1) m := by
  obtain ⟨m, rfl⟩ : ∃ a, m = a + 1 := ⟨m - 1, by omega⟩
  have h1 : windowOf q n (m + 1) = q n :: windowOf q (n + 1) m := by
    unfold windowOf
    rw [List.range_succ_eq_map]
    simp only [List.map_cons, List.map_map, Nat.add_zero, List.cons.injEq, true_and]
    refine List.map_congr_left fun r _ => ?_
    simp only [Function.comp]
    congr 1
    omega
  have h2 : windowOf q (n + 1) (m + 1) = windowOf q (n + 1) m ++ [q (n + 1 + m)] := by
    unfold windowOf
    rw [List.range_succ]
    simp
  rw [h1, h2]
  simp only [rollLeft, setLast, List.dropLast_concat]
  congr 3
  omega

theorem foldl_add_smul {ι : Type} (l : List ι) (a : Fin k → K) (f : ι → Fin k → K) :
    l.foldl (fun acc i => acc + f i) a = a + (l.map f).sum := by
  induction l generalizing a with
  | nil => simp
  | cons i l ih => rw [List.foldl_cons, ih, List.map_cons, List.sum_cons, add_assoc]

theorem mtdNextWeights_windowOf (lags : Fin p → ℕ) (w : Fin p → K)
    (A : Fin p → Matrix (Fin k) (Fin k) K) (q : ℕ → Fin k → K) (n m : ℕ)
    (hl : ∀ i, 1 ≤ lags i ∧ lags i ≤ m) :
    mtdNextWeights lags w A (windowOf q n m) = mtdStep lags w A q (n + m) := by
  unfold mtdNextWeights
  rw [foldl_add_smul (f := fun i => w i • (A i).mulVec (pyGet (windowOf q n m) (-(lags i : ℤ)) 0)),
    zero_add]
  funext j
  have : ((List.finRange p).map fun i =>
      w i • (A i).mulVec (pyGet (windowOf q n m) (-(lags i : ℤ)) 0)).sum =
      ∑ i, w i • (A i).mulVec (q (n + m - lags i)) := by
    rw [← List.ofFn_eq_map, List.sum_ofFn]
    refine Finset.sum_congr rfl fun i _ => ?_
    rw [pyGet_windowOf q n m _ (hl i).1 (hl i).2]
  rw [this, Finset.sum_apply]
  unfold mtdStep
  refine Finset.sum_congr rfl fun i _ => ?_
  simp only [Pi.smul_apply, smul_eq_mul, Matrix.mulVec, dotProduct]

theorem mtdForecastLoop_windowOf (lags : Fin p → ℕ) (w : Fin p → K)
    (A : Fin p → Matrix (Fin k) (Fin k) K) (q : ℕ → Fin k → K) (m : ℕ) (hm : 1 ≤ m)
    (hl : ∀ i, 1 ≤ lags i ∧ lags i ≤ m) (hq : FollowsMTD lags w A m q) :
    ∀ (h n : ℕ), mtdForecastLoop lags w A h (windowOf q n m) = windowOf q (n + h) m
  | 0, n => rfl
  | h + 1, n => by
    unfold mtdForecastLoop
    simp only
    rw [mtdNextWeights_windowOf lags w A q n m hl, ← hq (n + m) (by omega),
      shift_windowOf q n m hm, mtdForecastLoop_windowOf lags w A q m hm hl hq h (n + 1)]
    congr 1
    omega

/-- The recursion started from given values. -/
def mtdOrbit (lags : Fin p → ℕ) (w : Fin p → K) (A : Fin p → Matrix (Fin k) (Fin k) K) (m : ℕ)
    (history : ℕ → Fin k → K) (n : ℕ) : Fin k → K :=
  if n < m then history n
  else fun j => ∑ i, w i * ∑ l, A i j l *
    (if 1 ≤ lags i ∧ 1 ≤ n then mtdOrbit lags w A m history (n - lags i) l else 0)
termination_by n
decreasing_by omega

theorem mtdOrbit_history (lags : Fin p → ℕ) (w : Fin p → K) (A : Fin p → Matrix (Fin k) (Fin k) K)
    (m : ℕ) (history : ℕ → Fin k → K) (n : ℕ) (hn : n < m) :
    mtdOrbit lags w A m history n = history n := by
  rw [mtdOrbit, if_pos hn]

theorem mtdOrbit_follows (lags : Fin p → ℕ) (w : Fin p → K) (A : Fin p → Matrix (Fin k) (Fin k) K)
    (m : ℕ) (hm : 1 ≤ m) (hl : ∀ i, 1 ≤ lags i) (history : ℕ → Fin k → K) :
    FollowsMTD lags w A m (mtdOrbit lags w A m history) := by
  intro n hn
  rw [mtdOrbit, if_neg (by omega)]
  unfold mtdStep
  funext j
  refine Finset.sum_congr rfl fun i _ => ?_
  congr 1
  refine Finset.sum_congr rfl fun l _ => ?_
  rw [if_pos ⟨hl i, by omega⟩]

/-- A sequence following the recursion is determined by its first values. -/
theorem followsMTD_unique (lags : Fin p → ℕ) (w : Fin p → K)
    (A : Fin p → Matrix (Fin k) (Fin k) K) (m : ℕ) (hm : 1 ≤ m) (hl : ∀ i, 1 ≤ lags i)
    {q q' : ℕ → Fin k → K} (h0 : ∀ n, n < m → q n = q' n) (hq : FollowsMTD lags w A m q)
    (hq' : FollowsMTD lags w A m q') : q = q' := by
  funext n
  induction n using Nat.strong_induction_on with
  | _ n ih =>
    by_cases hn : n < m
    · exact h0 n hn
    · rw [hq n (by omega), hq' n (by omega)]
      unfold mtdStep
      funext j
      refine Finset.sum_congr rfl fun i _ => ?_
      rw [ih (n - lags i) (by have := hl i; omega)]

theorem followsMTD_isProb (lags : Fin p → ℕ) {w : Fin p → K} (hw : IsProb w)
    {A : Fin p → Matrix (Fin k) (Fin k) K} (hA : ∀ i, ColStochastic (A i)) (m : ℕ) (hm : 1 ≤ m)
    (hl : ∀ i, 1 ≤ lags i) {q : ℕ → Fin k → K} (h0 : ∀ n, n < m → IsProb (q n))
    (hq : FollowsMTD lags w A m q) (n : ℕ) : IsProb (q n) := by
  induction n using Nat.strong_induction_on with
  | _ n ih =>
    by_cases hn : n < m
    · exact h0 n hn
    · rw [hq n (by omega)]
      have hi : ∀ i, IsProb (q (n - lags i)) := fun i => ih _ (by have := hl i; omega)
      unfold mtdStep
      constructor
      · intro j
        exact Finset.sum_nonneg fun i _ => mul_nonneg (hw.1 i)
          (Finset.sum_nonneg fun l _ => mul_nonneg ((hA i l).1 j) ((hi i).1 l))
      · rw [Finset.sum_comm]
        have : ∀ i, ∑ j, w i * ∑ l, A i j l * q (n - lags i) l = w i := by
          intro i
          rw [← Finset.mul_sum, Finset.sum_comm]
          simp only [← Finset.sum_mul, (hA i _).2, one_mul]
          rw [(hi i).2, mul_one]
        simp only [this]
        exact hw.2

theorem topLag_pos (hp : 1 ≤ p) {lags : Fin p → ℕ} (hl : ∀ i, 1 ≤ lags i) :
    1 ≤ Finset.univ.sup lags :=
  le_trans (hl ⟨0, hp⟩) (Finset.le_sup (Finset.mem_univ _))

theorem mtdForecastRow_eq (hp : 1 ≤ p) {lags : Fin p → ℕ} (hl : ∀ i, 1 ≤ lags i) (w : Fin p → K)
    (A : Fin p → Matrix (Fin k) (Fin k) K) (W : Matrix (Fin T) (Fin k) K) (horizon : ℤ) (i : Fin T)
    (hi : Finset.univ.sup lags ≤ (i : ℕ) + 1) {q : ℕ → Fin k → K}
    (h0 : ∀ a, a < Finset.univ.sup lags → q a = rowSeq W (i + 1 - Finset.univ.sup lags + a))
    (hq : FollowsMTD lags w A (Finset.univ.sup lags) q) :
    mtdForecastRow lags w A W horizon i =
      some (q (Finset.univ.sup lags - 1 + horizon.toNat)) := by
  have hm := topLag_pos hp hl
  unfold mtdForecastRow
  simp only
  rw [if_neg (by omega)]
  have e : (List.range (Finset.univ.sup lags)).map
      (fun r => rowAt W (i + 1 - Finset.univ.sup lags + r)) =
      windowOf q 0 (Finset.univ.sup lags) := by
    unfold windowOf
    refine List.map_congr_left fun r hr => ?_
    rw [zero_add, h0 r (List.mem_range.1 hr), rowAt_eq_rowSeq]
  rw [e, mtdForecastLoop_windowOf lags w A q _ hm
    (fun i => ⟨hl i, Finset.le_sup (Finset.mem_univ i)⟩) hq]
  have := pyGet_windowOf q (0 + horizon.toNat) (Finset.univ.sup lags) 1 le_rfl hm (0 : Fin k → K)
  rw [show (-((1 : ℕ) : ℤ)) = (-1 : ℤ) by norm_num] at this
  rw [this]
  congr 2
  omega

theorem mtdForecastRow_nan {lags : Fin p → ℕ} (w : Fin p → K)
    (A : Fin p → Matrix (Fin k) (Fin k) K) (W : Matrix (Fin T) (Fin k) K) (horizon : ℤ) (i : Fin T)
    (hi : (i : ℕ) + 1 < Finset.univ.sup lags) : mtdForecastRow lags w A W horizon i = none := by
  unfold mtdForecastRow
  simp only
  rw [if_pos (by omega)]

end Reor
