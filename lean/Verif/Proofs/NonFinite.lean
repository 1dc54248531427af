import Verif.Model.NonFinite
import Verif.Proofs.Simplex
import Mathlib.Algebra.BigOperators.Fin

/-!
The simplex projection of vectors with infinite or NaN entries.
-/

namespace Reor

set_option linter.unusedSectionVars false

open scoped BigOperators
open Spec

variable {K : Type} [Field K] [LinearOrder K] [IsStrictOrderedRing K]

namespace Flt

theorem sortLe_trans (a b c : Flt K) (h1 : sortLe a b = true) (h2 : sortLe b c = true) :
    sortLe a c = true := by
  cases a <;> cases b <;> cases c <;> simp_all [sortLe, ge]
  exact h1.trans h2

theorem sortLe_total (a b : Flt K) : (sortLe a b || sortLe b a) = true := by
  cases a <;> cases b <;> simp [sortLe, ge]
  exact le_total _ _

theorem sortLe_antisymm (a b : Flt K) (h1 : sortLe a b = true) (h2 : sortLe b a = true) :
    a = b := by
  cases a <;> cases b <;> simp_all [sortLe, ge]
  exact le_antisymm h1 h2

theorem add_nan (a : Flt K) : add a nan = nan := by cases a <;> rfl

theorem sum_append_nan (l : List (Flt K)) : sum (l ++ [nan]) = nan := by
  induction l with
  | nil => rfl
  | cons a l ih =>
    change add a (sum (l ++ [nan])) = nan
    rw [ih, add_nan]

theorem sum_map_fin (l : List K) : sum (l.map fin) = fin l.sum := by
  induction l with
  | nil => rfl
  | cons a l ih =>
    change add (fin a) (sum (l.map fin)) = _
    rw [ih, List.sum_cons]
    rfl

end Flt

open Flt

/-- The list the loop runs over. -/
theorem fltSort_perm {n : ℕ} (x : Fin n → Flt K) :
    ((List.ofFn x).mergeSort Flt.sortLe).Perm (List.ofFn x) := List.mergeSort_perm _ _

theorem fltSort_pairwise {n : ℕ} (x : Fin n → Flt K) :
    ((List.ofFn x).mergeSort Flt.sortLe).Pairwise fun a b => sortLe a b = true :=
  List.pairwise_mergeSort sortLe_trans sortLe_total _

theorem fltSort_eq {n : ℕ} (x : Fin n → Flt K) (l : List (Flt K)) (hp : l.Perm (List.ofFn x))
    (hs : l.Pairwise fun a b => sortLe a b = true) : (List.ofFn x).mergeSort Flt.sortLe = l :=
  List.Perm.eq_of_pairwise (fun a b _ _ h1 h2 => sortLe_antisymm a b h1 h2) (fltSort_pairwise x) hs
    ((fltSort_perm x).trans hp.symm)

theorem mem_pyRangeDown_le {a b i : Int} (h : i ∈ pyRangeDown a b) : i ≤ a := by
  simp only [pyRangeDown, List.mem_map, List.mem_range] at h
  obtain ⟨j, -, rfl⟩ := h
  omega

/-! ### A largest entry that is not finite -/

theorem fltSort_last {n : ℕ} (x : Fin n → Flt K) (top : Flt K) (i : Fin n) (hi : x i = top)
    (h : ∀ j, sortLe (x j) top = true) :
    ∃ l, (List.ofFn x).mergeSort Flt.sortLe = l ++ [top] := by
  have hmem : top ∈ (List.ofFn x).mergeSort Flt.sortLe :=
    (fltSort_perm x).mem_iff.2 (List.mem_ofFn.2 ⟨i, hi⟩)
  obtain ⟨l, b, hl⟩ : ∃ l b, (List.ofFn x).mergeSort Flt.sortLe = l ++ [b] := by
    have hne : (List.ofFn x).mergeSort Flt.sortLe ≠ [] := List.ne_nil_of_mem hmem
    exact ⟨_, _, (List.dropLast_append_getLast hne).symm⟩
  refine ⟨l, ?_⟩
  have hb : b ∈ List.ofFn x := (fltSort_perm x).mem_iff.1 (by rw [hl]; simp)
  obtain ⟨j, hj⟩ := List.mem_ofFn.1 hb
  have h1 : sortLe b top = true := hj ▸ h j
  have h2 : sortLe top b = true := by
    rw [hl] at hmem
    rcases List.mem_append.1 hmem with hm | hm
    · have := fltSort_pairwise x
      rw [hl, List.pairwise_append] at this
      exact this.2.2 _ hm _ (by simp)
    · rw [List.mem_singleton.1 hm]
      have := sortLe_total b b
      simpa using this
  rw [hl, sortLe_antisymm _ _ h1 h2]

theorem pyLast_concat {α : Type} (l : List α) (a : α) {m : ℕ} (hm : 1 ≤ m) :
    ∃ l', pyLast (l ++ [a]) m = l' ++ [a] := by
  unfold pyLast
  rw [List.length_append, List.length_singleton, List.drop_append_of_le_length (by omega)]
  exact ⟨_, rfl⟩

theorem pyLast_one {α : Type} (l : List α) (a : α) : pyLast (l ++ [a]) 1 = [a] := by
  unfold pyLast
  simp

theorem fltLoop_nan (l : List (Flt K)) (is : List Int)
    (his : ∀ i ∈ is, i ≤ ((l ++ [Flt.nan]).length : Int) - 2) :
    fltThresholdLoop (l ++ [nan]) is nan = nan := by
  induction is with
  | nil => rfl
  | cons i is ih =>
    obtain ⟨l', hl'⟩ := pyLast_concat l (Flt.nan (K := K))
      (m := (((l ++ [Flt.nan (K := K)]).length : Int) - 1 - i).toNat) (by
        have := his i (List.mem_cons_self ..)
        omega)
    simp only [fltThresholdLoop]
    rw [hl', sum_append_nan]
    exact ih fun j hj => his j (List.mem_cons_of_mem _ hj)

theorem fltThreshold_nan {n : ℕ} (x : Fin n → Flt K) (i : Fin n) (hi : x i = nan) :
    fltThreshold x = nan := by
  obtain ⟨l, hl⟩ := fltSort_last x nan i hi fun j => by simp [sortLe]
  unfold fltThreshold
  simp only [hl]
  have hlen : ((l ++ [Flt.nan (K := K)]).length : Int) = l.length + 1 := by simp
  rw [pyRangeDown_cons (by omega)]
  have h0 : ∀ (is : List Int) (a b : Flt K) (j : Int),
      fltThresholdLoop (l ++ [nan]) (j :: is) a = fltThresholdLoop (l ++ [nan]) (j :: is) b :=
    fun _ _ _ _ => rfl
  rw [h0 _ _ nan, ← pyRangeDown_cons (by omega)]
  exact fltLoop_nan l _ fun j hj => mem_pyRangeDown_le hj

/-- The first round of the loop, if it is the last one. -/
theorem fltThreshold_first {n : ℕ} (x : Fin n → Flt K) (top : Flt K) (i : Fin n) (hi : x i = top)
    (htop : top = pinf ∨ top = ninf) (h : ∀ j, sortLe (x j) top = true) (hn : ∀ j, x j ≠ nan) :
    fltThreshold x = top := by
  obtain ⟨l, hl⟩ := fltSort_last x top i hi h
  unfold fltThreshold
  simp only [hl]
  have hlen : ((l ++ [top]).length : Int) = l.length + 1 := by simp
  rw [pyRangeDown_cons (by omega)]
  simp only [fltThresholdLoop]
  have hm : ((l ++ [top]).length : Int) - 1 - ((l ++ [top]).length - 2) = 1 := by omega
  rw [hm, show (1 : Int).toNat = 1 from rfl, pyLast_one]
  have ht : ((Flt.sum [top]).sub (.fin 1)).divBy (((1 : Int) : K)) = top := by
    rcases htop with rfl | rfl <;> rfl
  rw [ht]
  refine if_pos ?_
  have hent : ∀ a ∈ l ++ [top], ∃ j, x j = a := by
    intro a ha
    rw [← hl] at ha
    exact List.mem_ofFn.1 ((fltSort_perm x).mem_iff.1 ha)
  have hget : pyGet (l ++ [top]) ((l ++ [top]).length - 2) (.fin 0) ∈ l ++ [top] := by
    unfold pyGet
    split
    · rw [List.getD_eq_getElem?_getD, List.getElem?_eq_getElem (by omega), Option.getD_some]
      exact List.getElem_mem _
    · rw [List.getD_eq_getElem?_getD, List.getElem?_eq_getElem (by omega), Option.getD_some]
      exact List.getElem_mem _
  obtain ⟨j, hj⟩ := hent _ hget
  rw [← hj]
  have h1 := h j
  have h2 := hn j
  rcases htop with rfl | rfl <;> revert h1 h2 <;> cases x j <;> simp [sortLe, ge]

/-! ### No entry is NaN or infinity -/

/-- The finite entries, in order. -/
def finiteOf : List (Flt K) → List K
  | [] => []
  | .fin a :: l => a :: finiteOf l
  | _ :: l => finiteOf l

/-- How many entries are minus infinity. -/
theorem perm_finiteOf (l : List (Flt K)) (h : ∀ a ∈ l, a = ninf ∨ ∃ b, a = fin b) :
    ∃ m, l.Perm (List.replicate m ninf ++ (finiteOf l).map fin) := by
  induction l with
  | nil => exact ⟨0, by simp [finiteOf]⟩
  | cons a l ih =>
    obtain ⟨m, hm⟩ := ih fun b hb => h b (List.mem_cons_of_mem _ hb)
    rcases h a (List.mem_cons_self ..) with rfl | ⟨b, rfl⟩
    · exact ⟨m + 1, by
        rw [List.replicate_succ, List.cons_append]
        exact hm.cons _⟩
    · refine ⟨m, (hm.cons _).trans ?_⟩
      simp only [finiteOf, List.map_cons]
      exact List.perm_middle.symm

theorem pyLast_pad (m : ℕ) (L : List K) {j : ℕ} (hj : j ≤ L.length) :
    pyLast (List.replicate m ninf ++ L.map fin) j = (pyLast L j).map fin := by
  unfold pyLast
  have h : (List.replicate m (Flt.ninf (K := K)) ++ L.map fin).length - j =
      (List.replicate m (Flt.ninf (K := K))).length + (L.length - j) := by
    simp
    omega
  rw [h, List.drop_append, List.drop_of_length_le (by omega), List.nil_append, List.map_drop]
  congr 1
  omega

theorem fltLoop_pad (m : ℕ) (L : List K) (d : ℕ) :
    ∀ (j : Int), (j + 1).toNat = d → -1 ≤ j → j ≤ (L.length : Int) - 2 → ∀ (t : Flt K) (t' : K),
      fltThresholdLoop (List.replicate m ninf ++ L.map fin) (pyRangeDown (j + m) (-2)) t =
        fin (simplexThresholdLoop L (pyRangeDown j (-2)) t') := by
  induction d with
  | zero =>
    intro j hd h1 h2 t t'
    obtain rfl : j = -1 := by omega
    rw [pyRangeDown_cons (show (-2 : Int) < -1 + m by omega),
      pyRangeDown_cons (show (-2 : Int) < -1 by omega)]
    simp only [fltThresholdLoop, simplexThresholdLoop]
    have hlen : ((List.replicate m (Flt.ninf (K := K)) ++ L.map fin).length : Int) - 1 - (-1 + m) =
        L.length - 1 - (-1) := by
      simp
      ring
    rw [hlen, pyLast_pad m L (by omega), sum_map_fin]
    have e : ((fin (pyLast L ((L.length : Int) - 1 - -1).toNat).sum : Flt K).sub (fin 1)).divBy
        ((((L.length : Int) - 1 - -1 : Int)) : K) =
        fin (((pyLast L ((L.length : Int) - 1 - -1).toNat).sum - 1) /
          ((((L.length : Int) - 1 - -1 : Int)) : K)) := by
      simp only [Flt.sub, Flt.neg, Flt.add, Flt.divBy, sub_eq_add_neg]
    rw [e, pyRangeDown_nil (show (-1 - 1 : Int) ≤ -2 by omega)]
    simp only [simplexThresholdLoop, ite_self]
    rcases Nat.eq_zero_or_pos m with rfl | hm
    · rw [pyRangeDown_nil (show ((-1 : Int) + ((0 : ℕ) : Int) - 1) ≤ -2 by omega)]
      simp only [fltThresholdLoop, ite_self]
    · refine if_pos ?_
      have hg : pyGet (List.replicate m (Flt.ninf (K := K)) ++ L.map fin) (-1 + m) (.fin 0) = ninf := by
        unfold pyGet
        rw [if_pos (by omega), List.getD_eq_getElem?_getD, List.getElem?_append_left (by simp; omega),
          List.getElem?_replicate, if_pos (by omega), Option.getD_some]
      rw [hg]
      rfl
  | succ d ih =>
    intro j hd h1 h2 t t'
    rw [pyRangeDown_cons (show (-2 : Int) < j + m by omega),
      pyRangeDown_cons (show (-2 : Int) < j by omega)]
    simp only [fltThresholdLoop, simplexThresholdLoop]
    have hlen : ((List.replicate m (Flt.ninf (K := K)) ++ L.map fin).length : Int) - 1 - (j + m) =
        L.length - 1 - j := by
      simp
      ring
    rw [hlen, pyLast_pad m L (by omega), sum_map_fin]
    have e : ((fin (pyLast L ((L.length : Int) - 1 - j).toNat).sum : Flt K).sub (fin 1)).divBy
        ((((L.length : Int) - 1 - j : Int)) : K) =
        fin (((pyLast L ((L.length : Int) - 1 - j).toNat).sum - 1) /
          ((((L.length : Int) - 1 - j : Int)) : K)) := by
      simp only [Flt.sub, Flt.neg, Flt.add, Flt.divBy, sub_eq_add_neg]
    have hg : pyGet (List.replicate m (Flt.ninf (K := K)) ++ L.map fin) (j + m) (.fin 0) =
        fin (pyGet L j 0) := by
      unfold pyGet
      rw [if_pos (by omega), if_pos (by omega), List.getD_eq_getElem?_getD,
        List.getElem?_append_right (by simp; omega), List.getD_eq_getElem?_getD, List.getElem?_map,
        show (j + (m : Int)).toNat - (List.replicate m (Flt.ninf (K := K))).length = j.toNat by
          simp; omega]
      cases L[j.toNat]? <;> rfl
    rw [e, hg]
    have hge : ∀ a b : K, (fin a : Flt K).ge (fin b) = decide (b ≤ a) := fun _ _ => rfl
    rw [hge]
    simp only [decide_eq_true_eq, ge_iff_le]
    split
    · rfl
    · rw [show j + (m : Int) - 1 = (j - 1) + m by ring]
      exact ih (j - 1) (by omega) (by omega) (by omega) _ _

theorem fltThreshold_finite {n : ℕ} (x : Fin n → Flt K)
    (h : ∀ i, x i = ninf ∨ ∃ b, x i = fin b) (hne : ∃ i b, x i = fin b) :
    fltThreshold x = fin (simplexThreshold (finiteOf (List.ofFn x)).get) := by
  obtain ⟨m, hm⟩ := perm_finiteOf (List.ofFn x) fun a ha => by
    obtain ⟨i, rfl⟩ := List.mem_ofFn.1 ha
    exact h i
  set L0 := finiteOf (List.ofFn x) with hL0
  have hperm : (L0.mergeSort (· ≤ ·)).Perm L0 := List.mergeSort_perm _ _
  have hsorted : (L0.mergeSort (· ≤ ·)).Pairwise (· ≤ ·) := List.pairwise_mergeSort' _ _
  have hS : (List.ofFn x).mergeSort Flt.sortLe =
      List.replicate m ninf ++ (L0.mergeSort (· ≤ ·)).map fin := by
    refine fltSort_eq x _ ((List.Perm.append_left _ (hperm.map _)).trans hm.symm) ?_
    rw [List.pairwise_append]
    refine ⟨List.pairwise_replicate.2 (Or.inr rfl), ?_, ?_⟩
    · rw [List.pairwise_map]
      exact hsorted.imp fun hab => by simpa [sortLe, ge] using hab
    · intro a ha b hb
      rw [List.eq_of_mem_replicate ha]
      obtain ⟨c, -, rfl⟩ := List.mem_map.1 hb
      rfl
  have hpos : 1 ≤ (L0.mergeSort (· ≤ ·)).length := by
    rw [List.length_mergeSort]
    obtain ⟨i, b, hb⟩ := hne
    have : fin b ∈ List.replicate m ninf ++ L0.map fin :=
      hm.mem_iff.1 (List.mem_ofFn.2 ⟨i, hb⟩)
    rcases List.mem_append.1 this with h' | h'
    · exact absurd (List.eq_of_mem_replicate h') (by simp)
    · obtain ⟨c, hc, -⟩ := List.mem_map.1 h'
      exact List.length_pos_of_mem hc
  unfold fltThreshold simplexThreshold
  simp only [hS, List.ofFn_get]
  rw [show (((List.replicate m (Flt.ninf (K := K)) ++ (L0.mergeSort (· ≤ ·)).map fin).length : Int) - 2)
    = ((L0.mergeSort (· ≤ ·)).length - 2) + m by simp; ring]
  exact fltLoop_pad m _ _ _ rfl (by omega) (by omega) _ _

/-- A sum over the entries that are finite. -/
theorem sum_finiteOf (f : K → K) (l : List (Flt K)) :
    (l.map fun a => match a with | .fin b => f b | _ => 0).sum = ((finiteOf l).map f).sum := by
  induction l with
  | nil => rfl
  | cons a l ih =>
    rw [List.map_cons, List.sum_cons, ih]
    cases a <;> simp [finiteOf]

/-- Numbers above a common threshold are the nearest probability vector. -/
theorem threshold_nearest {n : ℕ} (a : Fin n → K) (τ : K) (y z : Fin n → K)
    (hy : ∀ i, y i = max (a i - τ) 0) (hys : ∑ i, y i = 1) (hz : IsProb z) :
    sqDist a y ≤ sqDist a z := by
  have h : ∀ i, (a i - y i) ^ 2 + 2 * τ * (y i - z i) ≤ (a i - z i) ^ 2 := by
    intro i
    have hzi := hz.1 i
    rw [hy i]
    rcases le_total (a i - τ) 0 with h' | h'
    · rw [max_eq_right h']
      nlinarith [sq_nonneg (z i), mul_nonneg hzi (sub_nonneg.2 (sub_nonpos.1 h'))]
    · rw [max_eq_left h']
      nlinarith [sq_nonneg (a i - τ - z i)]
  have hs := Finset.sum_le_sum fun i (_ : i ∈ Finset.univ) => h i
  rw [Finset.sum_add_distrib, ← Finset.mul_sum, Finset.sum_sub_distrib, hys, hz.2] at hs
  simpa [sqDist] using hs

end Reor
