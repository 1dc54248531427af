import Verif.Model.Slices
import Verif.Proofs.MTDForecast
import Mathlib.Data.List.OfFn
import Mathlib.Data.List.FinRange
import Mathlib.Algebra.BigOperators.Fin

/-!
Lemmas on slices at arbitrary lags.
-/

namespace Reor

set_option linter.unusedSectionVars false

open scoped BigOperators Matrix

variable {α K : Type}

theorem sliceIndex_le (n : ℕ) (i : ℤ) : sliceIndex n i ≤ n := by
  unfold sliceIndex
  split <;> omega

theorem getD_of_lt {l : List α} {r : ℕ} (h : r < l.length) {d : α} : l.getD r d = l[r] := by
  rw [List.getD_eq_getElem?_getD, List.getElem?_eq_getElem h]
  rfl

theorem getD_slice (l : List α) (lo hi r : ℕ) (d : α) :
    ((l.take hi).drop lo).getD r d = if lo + r < hi then l.getD (lo + r) d else d := by
  rw [List.getD_eq_getElem?_getD, List.getElem?_drop, List.getElem?_take]
  split <;> simp

theorem max_ofFn {p : ℕ} {lags : Fin p → ℤ} {m : ℤ} (h : ∃ i, lags i = m) (hm : ∀ i, lags i ≤ m) :
    (List.ofFn lags).max? = some m := by
  rw [List.max?_eq_some_iff]
  refine ⟨?_, ?_⟩
  · obtain ⟨i, hi⟩ := h
    exact List.mem_ofFn.2 ⟨i, hi⟩
  · intro b hb
    obtain ⟨i, rfl⟩ := List.mem_ofFn.1 hb
    exact hm i

section

variable [Field K] {T k p : ℕ}

theorem addRowsFrom_fits (Z : Fin T → Fin k → K) (a : ℤ) (E : List (Fin k → K))
    (hE : E.length = T - sliceIndex T a) :
    addRowsFrom (List.ofFn Z) a E = Py.ok (List.ofFn fun t : Fin T =>
      if (t : ℕ) < sliceIndex T a then Z t else Z t + E.getD (t - sliceIndex T a) 0) := by
  have hlo := sliceIndex_le T a
  unfold addRowsFrom
  simp only [List.length_ofFn]
  rw [if_pos hE]
  congr 1
  refine List.ext_getElem ?_ ?_
  · simp [hE]
    omega
  · intro t h1 h2
    rw [List.length_ofFn] at h2
    rw [List.getElem_ofFn]
    by_cases ht : t < sliceIndex T a
    · rw [List.getElem_append_left (by simp; omega), if_pos ht]
      simp
    · rw [List.getElem_append_right (by simp; omega), if_neg ht]
      simp only [List.length_take, List.length_ofFn, List.getElem_zipWith, List.getElem_drop,
        List.getElem_ofFn]
      have e1 : min (sliceIndex T a) T = sliceIndex T a := by omega
      have e2 : sliceIndex T a + (t - min (sliceIndex T a) T) = t := by omega
      have e3 : t - sliceIndex T a < E.length := by omega
      rw [getD_of_lt e3]
      congr 1
      · congr 1
        exact Fin.ext e2
      · simp only [e1]

theorem addRowsFrom_empty (Z : List (Fin k → K)) (a : ℤ) (h : sliceIndex Z.length a < Z.length) :
    addRowsFrom Z a [] = Py.raise .valueError := by
  unfold addRowsFrom
  simp only
  rw [if_neg]
  simp
  omega

theorem addRowsFrom_length {Z Z' : List (Fin k → K)} {a : ℤ} {E : List (Fin k → K)}
    (h : addRowsFrom Z a E = Py.ok Z') : Z'.length = Z.length := by
  have hlo := sliceIndex_le Z.length a
  unfold addRowsFrom at h
  simp only at h
  split at h
  · next hE =>
    have := Py.ok.inj h
    subst this
    simp [hE]
    omega
  · split at h
    · have := Py.ok.inj h
      subst this
      simp
      omega
    · cases h

theorem addRowsFrom_fails {Z : List (Fin k → K)} {a : ℤ} {E : List (Fin k → K)} :
    (∃ Z', addRowsFrom Z a E = Py.ok Z') ∨ addRowsFrom Z a E = Py.raise .valueError := by
  unfold addRowsFrom
  simp only
  split
  · exact Or.inl ⟨_, rfl⟩
  · split
    · exact Or.inl ⟨_, rfl⟩
    · exact Or.inr rfl

/-- The loop if all slices fit. -/
theorem predictedLoop_fits {m : ℤ} {lags : Fin p → ℤ} {w : Fin p → K}
    {A : Fin p → Matrix (Fin k) (Fin k) K} {Gamma : List (Fin k → K)}
    (hfit : ∀ i, (pySlice Gamma (m - lags i) (-lags i)).length = T - sliceIndex T m) :
    ∀ (is : List (Fin p)) (Z : Fin T → Fin k → K),
      predictedLoop m lags w A Gamma is (List.ofFn Z) = Py.ok (List.ofFn fun t : Fin T =>
        if (t : ℕ) < sliceIndex T m then Z t else Z t + (is.map fun i => w i • (A i).mulVec
          ((pySlice Gamma (m - lags i) (-lags i)).getD (t - sliceIndex T m) 0)).sum)
  | [], Z => by
    unfold predictedLoop
    simp
  | i :: is, Z => by
    unfold predictedLoop
    rw [addRowsFrom_fits Z m _ (by rw [List.length_map]; exact hfit i), Py.ok_bind,
      predictedLoop_fits hfit is]
    congr 2
    funext t
    by_cases ht : (t : ℕ) < sliceIndex T m
    · simp only [ht, if_true]
    · simp only [ht, if_false, List.map_cons, List.sum_cons]
      rw [add_assoc]
      congr 2
      have hlt : (t : ℕ) - sliceIndex T m < (pySlice Gamma (m - lags i) (-lags i)).length := by
        rw [hfit i]
        omega
      rw [getD_of_lt (by simpa using hlt), getD_of_lt hlt,
        List.getElem_map]

theorem predictedLoop_raises {m : ℤ} {lags : Fin p → ℤ} {w : Fin p → K}
    {A : Fin p → Matrix (Fin k) (Fin k) K} {Gamma : List (Fin k → K)} {i : Fin p}
    (hi : pySlice Gamma (m - lags i) (-lags i) = []) (hT : sliceIndex T m < T) :
    ∀ (is : List (Fin p)) (Z : List (Fin k → K)), i ∈ is → Z.length = T →
      predictedLoop m lags w A Gamma is Z = Py.raise .valueError
  | [], _, hm, _ => absurd hm List.not_mem_nil
  | j :: is, Z, hm, hZ => by
    unfold predictedLoop
    rcases addRowsFrom_fails (Z := Z) (a := m) (E := (pySlice Gamma (m - lags j) (-lags j)).map fun g =>
      w j • (A j).mulVec g) with ⟨Z', h⟩ | h
    · rw [h, Py.ok_bind]
      refine predictedLoop_raises hi hT is Z' ?_ ((addRowsFrom_length h).trans hZ)
      rcases List.mem_cons.1 hm with rfl | hm
      · rw [hi, List.map_nil, addRowsFrom_empty Z m (by rw [hZ]; exact hT)] at h
        cases h
      · exact hm
    · rw [h]
      rfl

/-- The predicted weights if all slices fit. -/
theorem predictedWeightsZ_fits {lags : Fin p → ℤ} {m : ℤ} (hm : ∃ i, lags i = m)
    (hm' : ∀ i, lags i ≤ m) (w : Fin p → K) (A : Fin p → Matrix (Fin k) (Fin k) K)
    (G : Fin T → Fin k → K)
    (hfit : ∀ i, (pySlice (List.ofFn G) (m - lags i) (-lags i)).length = T - sliceIndex T m) :
    predictedWeightsZ lags w A (List.ofFn G) = Py.ok (List.ofFn fun t : Fin T =>
      if (t : ℕ) < sliceIndex T m then G t else ∑ i, w i • (A i).mulVec
        ((pySlice (List.ofFn G) (m - lags i) (-lags i)).getD (t - sliceIndex T m) 0)) := by
  have hlo := sliceIndex_le T m
  unfold predictedWeightsZ
  rw [max_ofFn hm hm']
  simp only [List.length_ofFn]
  have h0 : (List.ofFn G).take (sliceIndex T m) ++
      (List.replicate T (0 : Fin k → K)).drop (sliceIndex T m) =
      List.ofFn fun t : Fin T => if (t : ℕ) < sliceIndex T m then G t else 0 := by
    refine List.ext_getElem ?_ ?_
    · simp
      omega
    · intro t h1 h2
      rw [List.length_ofFn] at h2
      rw [List.getElem_ofFn]
      by_cases ht : t < sliceIndex T m
      · rw [List.getElem_append_left (by simp; omega)]
        simp [ht]
      · rw [List.getElem_append_right (by simp; omega)]
        simp [ht]
  refine (congrArg _ h0).trans ?_
  rw [predictedLoop_fits hfit]
  congr 2
  funext t
  by_cases ht : (t : ℕ) < sliceIndex T m
  · simp only [ht, if_true]
  · simp only [ht, if_false, zero_add]
    rw [← List.ofFn_eq_map, List.sum_ofFn]

end

/-! ### Forecasts -/

section

variable [Field K] {T k p : ℕ}

theorem pyIndex_last {W : List α} {l : ℕ} (h1 : 1 ≤ l) (h2 : l ≤ W.length) (d : α) :
    pyIndex (W.map some) (-(l : ℤ)) = Py.ok (some (pyGet W (-(l : ℤ)) d)) := by
  unfold pyIndex pyGet
  rw [if_neg (by rw [List.length_map]; omega), if_pos (show -(l : ℤ) < 0 by omega),
    if_neg (show ¬ (0 : ℤ) ≤ -(l : ℤ) by omega), List.length_map]
  have e1 : (-(l : ℤ) + (W.length : ℤ)).toNat = W.length - l := by omega
  have e2 : ((W.length : ℤ) + -(l : ℤ)).toNat = W.length - l := by omega
  have e3 : W.length - l < W.length := by omega
  rw [e1, e2, List.getElem?_map, List.getElem?_eq_getElem e3, getD_of_lt e3]
  rfl

theorem nextLoopZ_some {lags : Fin p → ℕ} {w : Fin p → K} {A : Fin p → Matrix (Fin k) (Fin k) K}
    {W : List (Fin k → K)} (hl : ∀ i, 1 ≤ lags i ∧ lags i ≤ W.length) :
    ∀ (is : List (Fin p)) (acc : Fin k → K),
      nextLoopZ (fun i => (lags i : ℤ)) w A (W.map some) is (some acc) =
        Py.ok (some (is.foldl (fun acc i => acc + w i • (A i).mulVec (pyGet W (-(lags i : ℤ)) 0)) acc))
  | [], _ => rfl
  | i :: is, acc => by
    unfold nextLoopZ
    rw [pyIndex_last (hl i).1 (hl i).2 0, Py.ok_bind]
    exact nextLoopZ_some hl is _

theorem setIndex_last {l : List α} (hl : l ≠ []) (v : α) :
    pySetIndex l (-1) v = Py.ok (l.dropLast ++ [v]) := by
  rcases List.eq_nil_or_concat l with h | ⟨l', a, rfl⟩
  · exact absurd h hl
  · unfold pySetIndex
    rw [if_neg (by simp)]
    have e : ((-1 : ℤ) + ((l' ++ [a]).length : ℤ)).toNat = l'.length := by simp
    simp only [show ((-1 : ℤ) < 0) = True by simp, if_true]
    rw [if_pos (by simp)]
    simp

theorem rollLeft_map {β : Type} (f : α → β) : ∀ l : List α, rollLeft (l.map f) = (rollLeft l).map f
  | [] => rfl
  | a :: l => by simp [rollLeft]

theorem rollLeft_length : ∀ l : List α, (rollLeft l).length = l.length
  | [] => rfl
  | a :: l => by simp [rollLeft]

theorem setLast_length {l : List α} (hl : l ≠ []) (v : α) : (setLast l v).length = l.length := by
  unfold setLast
  have := List.length_pos_iff.2 hl
  simp
  omega

theorem rollLeft_ne_nil {l : List α} (hl : l ≠ []) : rollLeft l ≠ [] := by
  intro h
  have := rollLeft_length l
  rw [h] at this
  exact hl (List.length_eq_zero_iff.1 this.symm)

theorem leadLoopZ_some {m : ℕ} (hm : 1 ≤ m) {lags : Fin p → ℕ} {w : Fin p → K}
    {A : Fin p → Matrix (Fin k) (Fin k) K} (hl : ∀ i, 1 ≤ lags i ∧ lags i ≤ m) :
    ∀ (h : ℕ) (W : List (Fin k → K)), W.length = m →
      leadLoopZ m (fun i => (lags i : ℤ)) w A h (W.map some) =
        Py.ok ((mtdForecastLoop lags w A h W).map some) ∧
      (mtdForecastLoop lags w A h W).length = m
  | 0, W, hW => ⟨rfl, hW⟩
  | h + 1, W, hW => by
    have hne : W ≠ [] := by
      intro h0
      rw [h0] at hW
      simp at hW
      omega
    have hnext : nextWeightsZ m (fun i => (lags i : ℤ)) w A (W.map some) =
        Py.ok (some (mtdNextWeights lags w A W)) := by
      unfold nextWeightsZ
      rw [if_neg (by rw [List.length_map, hW]; omega)]
      exact nextLoopZ_some (by rw [hW]; exact hl) _ _
    have hset : pySetIndex (rollLeft (W.map some)) (-1) (some (mtdNextWeights lags w A W)) =
        Py.ok ((setLast (rollLeft W) (mtdNextWeights lags w A W)).map some) := by
      rw [rollLeft_map, setIndex_last (by simpa using rollLeft_ne_nil hne)]
      unfold setLast
      simp
    unfold leadLoopZ mtdForecastLoop
    rw [hnext, Py.ok_bind, hset, Py.ok_bind]
    refine leadLoopZ_some hm hl h _ ?_
    rw [setLast_length (rollLeft_ne_nil hne), rollLeft_length, hW]

theorem setIndex_nat {l : List α} {j : ℕ} (hj : j < l.length) (v : α) :
    pySetIndex l (j : ℤ) v = Py.ok (l.set j v) := by
  unfold pySetIndex
  rw [if_neg (by omega)]
  simp only [show ¬ ((j : ℤ) < 0) by omega, if_false, Int.toNat_natCast]
  rw [if_pos hj]

theorem foldl_set_getElem? (a : ℕ) (f : ℕ → α) (out : List α) (t : ℕ) : ∀ n : ℕ,
    ((List.range n).foldl (fun o r => o.set (a + r) (f r)) out)[t]? =
      if a ≤ t ∧ t < a + n ∧ t < out.length then some (f (t - a)) else out[t]?
  | 0 => by
    rw [if_neg (by omega)]
    rfl
  | n + 1 => by
    have hlen : ∀ m, ((List.range m).foldl (fun o r => o.set (a + r) (f r)) out).length =
        out.length := by
      intro m
      induction m with
      | zero => rfl
      | succ m ih => rw [List.range_succ, List.foldl_append]; simpa using ih
    rw [List.range_succ, List.foldl_append, List.foldl_cons, List.foldl_nil, List.getElem?_set,
      foldl_set_getElem? a f out t n, hlen]
    by_cases h1 : a + n = t
    · subst h1
      by_cases h2 : a + n < out.length
      · simp [h2]
      · simp [h2]
    · rw [if_neg h1]
      by_cases h2 : a ≤ t ∧ t < a + n ∧ t < out.length
      · rw [if_pos h2, if_pos (by omega)]
      · rw [if_neg h2, if_neg (by omega)]

/-- The loop over the samples if no index is out of range. -/
theorem rowLoopZ_range {m : ℤ} {lags : Fin p → ℤ} {w : Fin p → K}
    {A : Fin p → Matrix (Fin k) (Fin k) K} {W : List (Fin k → K)} {h : ℕ}
    {F : ℕ → Option (Fin k → K)} {a n : ℕ}
    (hF : ∀ j : ℕ, a ≤ j → j < n → ∃ win, leadLoopZ m lags w A h
      ((pySlice W ((j : ℤ) - m + 1) ((j : ℤ) + 1)).map some) = Py.ok win ∧
        pyIndex win (-1) = Py.ok (F j)) :
    ∀ (is : List ℕ) (out : List (Option (Fin k → K))), out.length = n → (∀ j ∈ is, a ≤ j ∧ j < n) →
      rowLoopZ m lags w A W h (is.map fun (j : ℕ) => (j : ℤ)) out =
        Py.ok (is.foldl (fun o j => o.set j (F j)) out)
  | [], _, _, _ => rfl
  | j :: is, out, ho, hj => by
    rw [List.map_cons]
    unfold rowLoopZ
    obtain ⟨win, h1, h2⟩ := hF j (hj j List.mem_cons_self).1 (hj j List.mem_cons_self).2
    rw [h1, Py.ok_bind, h2, Py.ok_bind, setIndex_nat (by rw [ho]; exact (hj j List.mem_cons_self).2),
      Py.ok_bind]
    exact rowLoopZ_range hF is _ (by rw [List.length_set, ho])
      (fun i hi => hj i (List.mem_cons_of_mem _ hi))

/-! ### Windows without rows -/

theorem pyIndex_nil (i : ℤ) : pyIndex ([] : List α) i = Py.raise .indexError := by
  unfold pyIndex
  split <;> simp

theorem pyIndex_cases (l : List α) (i : ℤ) :
    (∃ a, pyIndex l i = Py.ok a) ∨ pyIndex l i = Py.raise .indexError := by
  unfold pyIndex
  split
  · exact Or.inr rfl
  · split
    · exact Or.inl ⟨_, rfl⟩
    · exact Or.inr rfl

theorem pySetIndex_cases (l : List α) (i : ℤ) (v : α) :
    (∃ a, pySetIndex l i v = Py.ok a) ∨ pySetIndex l i v = Py.raise .indexError := by
  unfold pySetIndex
  split
  · exact Or.inr rfl
  · by_cases hj : (if i < 0 then i + l.length else i).toNat < l.length
    · exact Or.inl ⟨_, if_pos hj⟩
    · exact Or.inr (if_neg hj)

theorem nextLoopZ_cases (lags : Fin p → ℤ) (w : Fin p → K) (A : Fin p → Matrix (Fin k) (Fin k) K)
    (win : List (Option (Fin k → K))) : ∀ (is : List (Fin p)) (acc : Option (Fin k → K)),
      (∃ a, nextLoopZ lags w A win is acc = Py.ok a) ∨
        nextLoopZ lags w A win is acc = Py.raise .indexError
  | [], acc => Or.inl ⟨acc, rfl⟩
  | i :: is, acc => by
    unfold nextLoopZ
    rcases pyIndex_cases win (-lags i) with ⟨a, h⟩ | h
    · rw [h, Py.ok_bind]
      exact nextLoopZ_cases lags w A win is _
    · rw [h]
      exact Or.inr rfl

theorem leadLoopZ_cases (m : ℤ) (lags : Fin p → ℤ) (w : Fin p → K)
    (A : Fin p → Matrix (Fin k) (Fin k) K) : ∀ (h : ℕ) (win : List (Option (Fin k → K))),
      (∃ a, leadLoopZ m lags w A h win = Py.ok a) ∨
        leadLoopZ m lags w A h win = Py.raise .indexError
  | 0, win => Or.inl ⟨win, rfl⟩
  | h + 1, win => by
    unfold leadLoopZ
    have hn : (∃ a, nextWeightsZ m lags w A win = Py.ok a) ∨
        nextWeightsZ m lags w A win = Py.raise .indexError := by
      unfold nextWeightsZ
      split
      · exact Or.inl ⟨_, rfl⟩
      · exact nextLoopZ_cases lags w A win _ _
    rcases hn with ⟨a, hn⟩ | hn
    · rw [hn, Py.ok_bind]
      rcases pySetIndex_cases (rollLeft win) (-1) a with ⟨b, hb⟩ | hb
      · rw [hb, Py.ok_bind]
        exact leadLoopZ_cases m lags w A h b
      · rw [hb]
        exact Or.inr rfl
    · rw [hn]
      exact Or.inr rfl

/-- A sample without a window stops the loop. -/
theorem rowLoopZ_raises {m : ℤ} {lags : Fin p → ℤ} {w : Fin p → K}
    {A : Fin p → Matrix (Fin k) (Fin k) K} {W : List (Fin k → K)} {h : ℕ} {i : ℤ}
    (hwin : pySlice W (i - m + 1) (i + 1) = []) :
    ∀ (is : List ℤ) (out : List (Option (Fin k → K))), i ∈ is →
      rowLoopZ m lags w A W h is out = Py.raise .indexError
  | [], _, hi => absurd hi List.not_mem_nil
  | j :: is, out, hi => by
    unfold rowLoopZ
    rcases leadLoopZ_cases m lags w A h ((pySlice W (j - m + 1) (j + 1)).map some) with ⟨a, ha⟩ | ha
    · rw [ha, Py.ok_bind]
      rcases pyIndex_cases a (-1) with ⟨b, hb⟩ | hb
      · rw [hb, Py.ok_bind]
        rcases pySetIndex_cases out j b with ⟨c, hc⟩ | hc
        · rw [hc, Py.ok_bind]
          refine rowLoopZ_raises hwin is c ?_
          rcases List.mem_cons.1 hi with rfl | hi
          · exfalso
            rw [hwin, List.map_nil] at ha
            cases h with
            | zero =>
              have := Py.ok.inj ha
              subst this
              rw [pyIndex_nil] at hb
              cases hb
            | succ h =>
              unfold leadLoopZ at ha
              obtain ⟨x, -, hx⟩ := Py.bind_eq_ok.1 ha
              obtain ⟨y, hy, -⟩ := Py.bind_eq_ok.1 hx
              simp [rollLeft, pySetIndex] at hy
          · exact hi
        · rw [hc]
          rfl
      · rw [hb]
        rfl
    · rw [ha]
      rfl

end

end Reor
