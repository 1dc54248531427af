import Verif.Proofs.Slices
import Verif.Props.GPNHCROM

/-!
C130: what the lags of the reduced order model do when they are not positive.
-/

namespace Reor

set_option linter.unusedSectionVars false

open scoped BigOperators Matrix
open Spec

section

variable {K : Type} [Field K] [LinearOrder K] [IsStrictOrderedRing K]
variable {T k p : ℕ}

/-- The largest lag. -/
theorem topLag_max {lags : Fin p → ℕ} (hp : 0 < p) :
    (∃ i, (lags i : ℤ) = (topLag lags : ℕ)) ∧ ∀ i, (lags i : ℤ) ≤ (topLag lags : ℕ) := by
  constructor
  · have : (Finset.univ : Finset (Fin p)).Nonempty := ⟨⟨0, hp⟩, Finset.mem_univ _⟩
    obtain ⟨i, -, hi⟩ := Finset.exists_mem_eq_sup _ this lags
    exact ⟨i, by unfold topLag; rw [hi]⟩
  · intro i
    exact_mod_cast Finset.le_sup (f := lags) (Finset.mem_univ i)

/-- **C130, positive lags.**  The slices that `_update_predicted_weights` cuts at positive lags fit each
other, whatever the number of samples, and the row `t` of the predicted weights is the weights themselves
before the largest lag, and the mixture of the weights at `t - lag` from there on. -/
theorem C130_positive_lags (hp : 0 < p) {lags : Fin p → ℕ} (hl : ∀ i, 1 ≤ lags i) (w : Fin p → K)
    (A : Fin p → Matrix (Fin k) (Fin k) K) (G : Matrix (Fin T) (Fin k) K) :
    ∃ Z : Fin T → Fin k → K,
      predictedWeightsZ (fun i => (lags i : ℤ)) w A (List.ofFn fun t => G t) =
        Py.ok (List.ofFn Z) ∧
      ∀ t : Fin T, Z t = if (∀ i, lags i ≤ t) then mtdStep lags w A (rowSeq G) t else G t := by
  obtain ⟨h1, h2⟩ := topLag_max (lags := lags) hp
  have hlo : sliceIndex T (topLag lags : ℕ) = min (topLag lags) T := by
    unfold sliceIndex
    rw [if_neg (by omega), Int.toNat_natCast]
  have hs : ∀ i, sliceIndex T ((topLag lags : ℕ) - (lags i : ℤ)) = min (topLag lags - lags i) T := by
    intro i
    have := h2 i
    unfold sliceIndex
    rw [if_neg (by omega)]
    congr 1
    omega
  have hs' : ∀ i, sliceIndex T (-(lags i : ℤ)) = T - lags i := by
    intro i
    have := hl i
    unfold sliceIndex
    rw [if_pos (by omega)]
    omega
  refine ⟨_, predictedWeightsZ_fits h1 h2 w A _ fun i => ?_, fun t => ?_⟩
  · unfold pySlice
    simp only [List.length_drop, List.length_take, List.length_ofFn]
    rw [hlo, hs, hs']
    have := h2 i
    have := hl i
    omega
  · have htop : (t : ℕ) < sliceIndex T (topLag lags : ℕ) ↔ ¬ ∀ i, lags i ≤ t := by
      rw [hlo, ← topLag_le_iff]
      have := t.2
      omega
    by_cases ht : ∀ i, lags i ≤ t
    · rw [if_pos ht, if_neg (by rw [htop]; simpa using ht)]
      funext j
      rw [Finset.sum_apply]
      unfold mtdStep
      refine Finset.sum_congr rfl fun i _ => ?_
      have hrow : (pySlice (List.ofFn fun t => G t) ((topLag lags : ℕ) - (lags i : ℤ))
          (-(lags i : ℤ))).getD (t - sliceIndex T (topLag lags : ℕ)) 0 = rowSeq G (t - lags i) := by
        unfold pySlice
        rw [List.length_ofFn, hs, hs', hlo, getD_slice]
        have h3 := topLag_le_iff.2 ht
        have h4 := h2 i
        have h5 := hl i
        have h6 := t.2
        have e : min (topLag lags - lags i) T + ((t : ℕ) - min (topLag lags) T) = t - lags i := by
          omega
        rw [e, if_pos (by omega), List.getD_eq_getElem?_getD]
        unfold rowSeq
        rw [dif_pos (by omega), List.getElem?_ofFn, dif_pos (by omega)]
        rfl
      rw [hrow]
      simp only [Pi.smul_apply, smul_eq_mul, Matrix.mulVec, dotProduct]
    · rw [if_neg ht, if_pos (htop.2 ht)]

/-- **C130, positive lags.**  The models of `_update_predicted_weights` in the other files are these
functions. -/
theorem C130_predicted_weights_models (hp : 0 < p) {lags : Fin p → ℕ} (hl : ∀ i, 1 ≤ lags i)
    (w : Fin p → K) (A : Fin p → Matrix (Fin k) (Fin k) K) (G : Matrix (Fin T) (Fin k) K) :
    predictedWeightsZ (fun i => (lags i : ℤ)) w A (List.ofFn fun t => G t) =
      Py.ok (List.ofFn fun t => cromPredictedWeights lags (Finset.univ.sup lags) G w A t) ∧
    predictedWeightsZ (fun i => (lags i : ℤ)) w A (List.ofFn fun t => G t) =
      Py.ok (List.ofFn fun t => mtdPredictedWeights lags (Finset.univ.sup lags) G w A t) := by
  have key : predictedWeightsZ (fun i => (lags i : ℤ)) w A (List.ofFn fun t => G t) =
      Py.ok (List.ofFn fun t => mtdPredictedWeights lags (Finset.univ.sup lags) G w A t) := by
    obtain ⟨Z, hZ, hZ'⟩ := C130_positive_lags hp hl w A G
    rw [hZ]
    congr 2
    funext t j
    refine (congrFun (hZ' t) j).trans ?_
    refine Eq.trans ?_ (mtdPredictedWeights_apply lags G w A t j).symm
    simp only [topLag_le_iff]
    split <;> rfl
  exact ⟨key, key⟩

/-- **C130, lags zero and below among others.**  If some lag is at most zero, the largest is not negative
and there are more samples than the largest lag, there is a ValueError: nothing is left of
`Gamma[max_lag - lag:-lag]`. -/
theorem C130_mixed_lags {lags : Fin p → ℤ} {m : ℤ} (hm : ∃ i, lags i = m) (hm' : ∀ i, lags i ≤ m)
    (h0 : 0 ≤ m) (hT : m < T) {i : Fin p} (hi : lags i ≤ 0) (w : Fin p → K)
    (A : Fin p → Matrix (Fin k) (Fin k) K) {Gamma : List (Fin k → K)} (hG : Gamma.length = T) :
    predictedWeightsZ lags w A Gamma = Py.raise .valueError := by
  have hlo : sliceIndex T m < T := by
    unfold sliceIndex
    rw [if_neg (by omega)]
    omega
  unfold predictedWeightsZ
  rw [max_ofFn hm hm']
  simp only
  refine predictedLoop_raises (T := T) (i := i) ?_ hlo _ _ (List.mem_finRange i) ?_
  · unfold pySlice
    rw [List.drop_eq_nil_iff, List.length_take, hG]
    unfold sliceIndex
    rw [if_neg (show ¬ m - lags i < 0 by omega), if_neg (show ¬ -lags i < 0 by omega)]
    omega
  · rw [hG]
    simp
    omega

/-- **C130, negative lags only.**  With lags `-e i`, the smallest of which is `-d` in size, no larger than
the number of samples, there is no error: the last `d` samples are predicted, from the `d` samples that
begin with number `e i - d`, that is, from the beginning of the series. -/
theorem C130_negative_lags {e : Fin p → ℕ} {d : ℕ} (hd : ∃ i, e i = d) (hd' : ∀ i, d ≤ e i)
    (h1 : 1 ≤ d) (hT : ∀ i, e i ≤ T) (w : Fin p → K) (A : Fin p → Matrix (Fin k) (Fin k) K)
    (G : Matrix (Fin T) (Fin k) K) :
    ∃ Z : Fin T → Fin k → K,
      predictedWeightsZ (fun i => -(e i : ℤ)) w A (List.ofFn fun t => G t) = Py.ok (List.ofFn Z) ∧
      (∀ t : Fin T, (t : ℕ) + d < T → Z t = G t) ∧
      ∀ (r : ℕ) (hr : r < d) (hr' : T - d + r < T), Z ⟨T - d + r, hr'⟩ =
        ∑ i, w i • (A i).mulVec (G ⟨e i - d + r, by have := hT i; have := hd' i; omega⟩) := by
  have hdT : d ≤ T := by
    obtain ⟨i, hi⟩ := hd
    exact hi ▸ hT i
  have hlo : sliceIndex T (-(d : ℤ)) = T - d := by
    unfold sliceIndex
    rw [if_pos (by omega)]
    omega
  have hs : ∀ i, sliceIndex T (-(d : ℤ) - -(e i : ℤ)) = e i - d := by
    intro i
    have := hd' i
    have := hT i
    unfold sliceIndex
    rw [if_neg (by omega)]
    omega
  have hs' : ∀ i, sliceIndex T (- -(e i : ℤ)) = e i := by
    intro i
    have := hT i
    unfold sliceIndex
    rw [if_neg (by omega)]
    omega
  refine ⟨_, predictedWeightsZ_fits (lags := fun i => -(e i : ℤ)) (m := -(d : ℤ))
    (by obtain ⟨i, hi⟩ := hd; exact ⟨i, by rw [hi]⟩) (fun i => by have := hd' i; omega) w A _
    fun i => ?_, fun t ht => ?_, fun r hr hr' => ?_⟩
  · unfold pySlice
    simp only [List.length_drop, List.length_take, List.length_ofFn]
    rw [hlo, hs, hs']
    have := hd' i
    have := hT i
    omega
  · rw [if_pos (by rw [hlo]; omega)]
  · rw [if_neg (by rw [hlo]; simp)]
    refine Finset.sum_congr rfl fun i _ => ?_
    congr 2
    unfold pySlice
    rw [List.length_ofFn, hs, hs', hlo, getD_slice]
    have h3 := hd' i
    have h4 := hT i
    have e1 : e i - d + (T - d + r - (T - d)) = e i - d + r := by omega
    simp only [e1]
    rw [if_pos (by omega), List.getD_eq_getElem?_getD, List.getElem?_ofFn, dif_pos (by omega)]
    rfl

/-- **C130, negative lags only.**  Such a model cannot make a forecast: for any horizon but 0, `predict`
is an IndexError. -/
theorem C130_negative_lags_forecast {lags : Fin p → ℤ} (hp : 0 < p) (hneg : ∀ i, lags i < 0)
    (w : Fin p → K) (A : Fin p → Matrix (Fin k) (Fin k) K) (W : List (Fin k → K)) {horizon : ℤ}
    (hh : horizon ≠ 0) : forecastZ lags w A W horizon = Py.raise .indexError := by
  unfold forecastZ
  rw [if_neg hh]
  rcases hmax : (List.ofFn lags).max? with _ | m
  · rw [List.max?_eq_none_iff] at hmax
    have := congrArg List.length hmax
    simp at this
    omega
  · have hm : m < 0 := by
      obtain ⟨i, rfl⟩ := List.mem_ofFn.1 (List.max?_mem hmax)
      exact hneg i
    simp only
    refine rowLoopZ_raises (i := -1) ?_ _ _ ?_
    · unfold pySlice sliceIndex
      simp
    · rw [List.mem_map]
      refine ⟨(-m).toNat, ?_, by omega⟩
      rw [List.mem_range]
      omega

/-- **C130, positive lags.**  The models of the forecasts in the other files are these functions: no
index is out of range, and the rows are those of `mtdForecastRow`. -/
theorem C130_forecast_models (hp : 0 < p) {lags : Fin p → ℕ} (hl : ∀ i, 1 ≤ lags i)
    (w : Fin p → K) (A : Fin p → Matrix (Fin k) (Fin k) K) (G : Matrix (Fin T) (Fin k) K)
    (horizon : ℤ) :
    forecastZ (fun i => (lags i : ℤ)) w A (List.ofFn fun t => G t) horizon =
      Py.ok (List.ofFn (cromForecastWeights lags w A G horizon)) := by
  obtain ⟨h1, h2⟩ := topLag_max (lags := lags) hp
  obtain ⟨m, hm⟩ : ∃ m, topLag lags = m := ⟨_, rfl⟩
  have hm1 : 1 ≤ m := by
    have := hl ⟨0, hp⟩
    have := h2 ⟨0, hp⟩
    omega
  have hle : ∀ i, 1 ≤ lags i ∧ lags i ≤ m := fun i => ⟨hl i, by have := h2 i; omega⟩
  unfold forecastZ cromForecastWeights
  by_cases hh : horizon = 0
  · rw [if_pos hh, if_pos hh, List.map_ofFn]
    rfl
  rw [if_neg hh, if_neg hh, max_ofFn h1 h2, hm]
  simp only [List.length_ofFn]
  have hlo : sliceIndex T ((m : ℤ) - 1) = min (m - 1) T := by
    unfold sliceIndex
    rw [if_neg (by omega)]
    omega
  have hrange : ((List.range ((T : ℤ) - ((m : ℤ) - 1)).toNat).map fun (r : ℕ) => (m : ℤ) - 1 + (r : ℤ)) =
      ((List.range (T - (m - 1))).map fun r => m - 1 + r).map fun (j : ℕ) => (j : ℤ) := by
    rw [List.map_map]
    have : ((T : ℤ) - ((m : ℤ) - 1)).toNat = T - (m - 1) := by omega
    rw [this]
    refine List.map_congr_left fun r _ => ?_
    simp only [Function.comp]
    omega
  rw [hrange]
  have hF : ∀ j : ℕ, m - 1 ≤ j → j < T → ∃ win,
      leadLoopZ (m : ℤ) (fun i => (lags i : ℤ)) w A horizon.toNat
        ((pySlice (List.ofFn fun t => G t) ((j : ℤ) - m + 1) ((j : ℤ) + 1)).map some) = Py.ok win ∧
      pyIndex win (-1) = Py.ok (if h : j < T then mtdForecastRow lags w A G horizon ⟨j, h⟩
        else none) := by
    intro j hj hjT
    have hwin : pySlice (List.ofFn fun t => G t) ((j : ℤ) - m + 1) ((j : ℤ) + 1) =
        (List.range m).map fun r => rowAt G (j + 1 - m + r) := by
      unfold pySlice
      rw [List.length_ofFn]
      have e1 : sliceIndex T ((j : ℤ) - m + 1) = j + 1 - m := by
        unfold sliceIndex
        rw [if_neg (by omega)]
        omega
      have e2 : sliceIndex T ((j : ℤ) + 1) = j + 1 := by
        unfold sliceIndex
        rw [if_neg (by omega)]
        omega
      rw [e1, e2]
      refine List.ext_getElem ?_ ?_
      · simp
        omega
      · intro r hr hr'
        simp only [List.length_map, List.length_range] at hr'
        simp only [List.getElem_drop, List.getElem_take, List.getElem_ofFn, List.getElem_map,
          List.getElem_range]
        unfold rowAt
        rw [dif_pos (by omega)]
    obtain ⟨h3, h4⟩ := leadLoopZ_some hm1 (w := w) (A := A) hle horizon.toNat
      ((List.range m).map fun r => rowAt G (j + 1 - m + r)) (by simp)
    refine ⟨_, by rw [hwin]; exact h3, ?_⟩
    have h5 := pyIndex_last (l := 1) le_rfl (by rw [h4]; exact hm1)
      (W := mtdForecastLoop lags w A horizon.toNat
        ((List.range m).map fun r => rowAt G (j + 1 - m + r))) 0
    refine h5.trans ?_
    rw [dif_pos hjT]
    unfold mtdForecastRow
    have hsup : Finset.univ.sup lags = m := hm
    simp only [hsup]
    rw [if_neg (by omega)]
    rfl
  rw [rowLoopZ_range hF _ _ (by rw [hlo]; simp) (by
    intro j hj
    obtain ⟨r, hr, rfl⟩ := List.mem_map.1 hj
    rw [List.mem_range] at hr
    omega)]
  congr 1
  rw [List.foldl_map]
  refine List.ext_getElem? fun t => ?_
  rw [foldl_set_getElem? (m - 1) (fun r => if h : m - 1 + r < T then
    mtdForecastRow lags w A G horizon ⟨m - 1 + r, h⟩ else none), List.getElem?_ofFn]
  have hlen : (List.replicate (sliceIndex T ((m : ℤ) - 1)) (none : Option (Fin k → K)) ++
      List.replicate (T - sliceIndex T ((m : ℤ) - 1)) (some 0)).length = T := by
    rw [hlo]
    simp
  rw [hlen]
  by_cases ht : t < T
  · rw [dif_pos ht]
    by_cases ht2 : m - 1 ≤ t
    · rw [if_pos (by omega)]
      have e : m - 1 + (t - (m - 1)) = t := by omega
      simp only [e, ht, dite_true]
    · rw [if_neg (by omega), hlo, List.getElem?_append_left (by simp; omega)]
      have hrow : mtdForecastRow lags w A G horizon ⟨t, ht⟩ = none := by
        unfold mtdForecastRow
        have hsup : Finset.univ.sup lags = m := hm
        simp only [hsup]
        rw [if_pos (by omega)]
      rw [hrow, List.getElem?_replicate, if_pos (by omega)]
  · rw [dif_neg ht, if_neg (by omega)]
    exact List.getElem?_eq_none (by rw [hlen]; omega)

end

/-! ### Concrete cases -/

/-- Weights of three samples. -/
def lagWeights : Matrix (Fin 3) (Fin 2) ℚ := !![1, 0; 0, 1; 1/2, 1/2]

/-- Positive lags 1, 2: the third sample is predicted from the second and the first. -/
example (w : Fin 2 → ℚ) (A : Fin 2 → Matrix (Fin 2) (Fin 2) ℚ) :
    ∃ Z : Fin 3 → Fin 2 → ℚ,
      predictedWeightsZ (fun i => ((![1, 2] : Fin 2 → ℕ) i : ℤ)) w A
        (List.ofFn fun t => lagWeights t) = Py.ok (List.ofFn Z) ∧
      Z 1 = ![0, 1] ∧ Z 2 0 = w 0 * A 0 0 1 + w 1 * A 1 0 0 := by
  obtain ⟨Z, hZ, hZ'⟩ := C130_positive_lags (lags := ![1, 2]) (by norm_num)
    (by intro i; fin_cases i <;> norm_num) w A lagWeights
  refine ⟨Z, hZ, ?_, ?_⟩
  · rw [hZ' 1, if_neg (by decide)]
    funext j
    fin_cases j <;> simp [lagWeights]
  · rw [hZ' 2, if_pos (by decide)]
    simp [mtdStep, rowSeq, lagWeights, Fin.sum_univ_two]

/-- The lag -1: the last sample is predicted from the first one, without an error. -/
example (w : Fin 1 → ℚ) (A : Fin 1 → Matrix (Fin 2) (Fin 2) ℚ) :
    ∃ Z : Fin 3 → Fin 2 → ℚ,
      predictedWeightsZ (fun _ => -((1 : ℕ) : ℤ)) w A (List.ofFn fun t => lagWeights t) =
        Py.ok (List.ofFn Z) ∧
      Z 1 = ![0, 1] ∧ Z 2 = w 0 • (A 0).mulVec ![1, 0] := by
  obtain ⟨Z, hZ, h1, h2⟩ := C130_negative_lags (e := fun _ : Fin 1 => 1) (d := 1) ⟨0, rfl⟩
    (fun _ => le_rfl) le_rfl (fun _ => by norm_num) w A lagWeights
  refine ⟨Z, hZ, ?_, ?_⟩
  · rw [h1 1 (by decide)]
    funext j
    fin_cases j <;> simp [lagWeights]
  · have := h2 0 one_pos (by norm_num)
    rw [Fin.sum_univ_one] at this
    refine this.trans ?_
    congr 2

/-- Its forecast. -/
example (w : Fin 1 → ℚ) (A : Fin 1 → Matrix (Fin 2) (Fin 2) ℚ) :
    forecastZ (fun _ => (-1 : ℤ)) w A (List.ofFn fun t => lagWeights t) 1 = Py.raise .indexError :=
  C130_negative_lags_forecast one_pos (fun _ => by norm_num) w A _ (by norm_num)

/-- Lags 1 and 0, and lags 1 and -1. -/
example (w : Fin 2 → ℚ) (A : Fin 2 → Matrix (Fin 2) (Fin 2) ℚ) :
    predictedWeightsZ ![1, 0] w A (List.ofFn fun t => lagWeights t) = Py.raise .valueError ∧
    predictedWeightsZ ![1, -1] w A (List.ofFn fun t => lagWeights t) = Py.raise .valueError :=
  ⟨C130_mixed_lags (T := 3) (m := 1) ⟨0, rfl⟩ (by intro i; fin_cases i <;> simp) (by norm_num)
      (by norm_num) (i := 1) (by simp) w A (List.length_ofFn),
    C130_mixed_lags (T := 3) (m := 1) ⟨0, rfl⟩ (by intro i; fin_cases i <;> simp) (by norm_num)
      (by norm_num) (i := 1) (by simp) w A (List.length_ofFn)⟩

/-- The links to the other models for lags 1, 2. -/
example (w : Fin 2 → ℚ) (A : Fin 2 → Matrix (Fin 2) (Fin 2) ℚ) (horizon : ℤ) :=
  And.intro (C130_predicted_weights_models (lags := ![1, 2]) (by norm_num)
      (by intro i; fin_cases i <;> norm_num) w A lagWeights)
    (C130_forecast_models (lags := ![1, 2]) (by norm_num)
      (by intro i; fin_cases i <;> norm_num) w A lagWeights horizon)

end Reor
