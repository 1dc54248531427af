import Verif.Model.Init
import Verif.Model.RandomMatrix
import Verif.Model.Validation
import Verif.Proofs.FurthestSum
import Verif.Props.FurthestSum
import Verif.Spec
import Mathlib.Algebra.BigOperators.Field

/-!
Initialisation: FurthestSum rows, random stochastic matrices, validation.
-/

namespace Reor

set_option linter.unusedSectionVars false

open scoped BigOperators
open Spec

variable {K : Type} [Field K] [LinearOrder K] [IsStrictOrderedRing K]

/-! ### Exceptions of `furthest_sum` -/

/-- The exceptions `furthest_sum` can raise. -/
def FSErr (e : PyErr) : Prop := e = .valueError ∨ e = .indexError ∨ e = .typeError

theorem getFurthestIndex_raise {q : List (ℤ × K)} {e : PyErr}
    (h : getFurthestIndex q = Py.raise e) : FSErr e := by
  unfold getFurthestIndex at h
  simp only at h
  split at h
  · simp at h; exact Or.inr (Or.inl h.symm)
  · simp at h

theorem fillCandidates_raise {D : DMat K} {selected exclude : List ℤ} {start : ℤ} {cap : ℕ}
    {e : PyErr} : ∀ {is : List ℤ} {q : List (ℤ × K)},
      fillCandidates D selected exclude start cap is q = Py.raise e → FSErr e
  | [], q, h => by simp [fillCandidates] at h
  | i :: is, q, h => by
    unfold fillCandidates at h
    simp only at h
    split at h
    · split at h
      · simp at h; exact Or.inr (Or.inl h.symm)
      · split at h
        · exact fillCandidates_raise h
        · simp at h; exact Or.inr (Or.inl h.symm)
    · exact fillCandidates_raise h

theorem selectLoop_raise {D : DMat K} {e : PyErr} : ∀ {is : List ℕ} {sel : List ℤ}
    {q : List (ℤ × K)}, selectLoop D is sel q = Py.raise e → FSErr e
  | [], sel, q, h => by simp [selectLoop] at h
  | i :: is, sel, q, h => by
    unfold selectLoop at h
    rcases Py.bind_eq_raise.1 h with h | ⟨_, _, h⟩
    · exact getFurthestIndex_raise h
    · exact selectLoop_raise h

theorem replaceLoop_raise {D : DMat K} {n : ℕ} {e : PyErr} : ∀ {is : List ℕ} {sel : List ℤ}
    {q : List (ℤ × K)}, replaceLoop D n is sel q = Py.raise e → FSErr e
  | [], sel, q, h => by simp [replaceLoop] at h
  | i :: is, sel, q, h => by
    unfold replaceLoop at h
    rcases Py.bind_eq_raise.1 h with h | ⟨_, _, h⟩
    · unfold replaceStep at h
      simp only at h
      rcases Py.bind_eq_raise.1 h with h | ⟨_, _, h⟩
      · exact getFurthestIndex_raise h
      · simp at h
    · exact replaceLoop_raise h

theorem furthestSum_raise {D : DMat K} {n start : ℤ} {exclude : List ℤ} {extra : ℤ} {e : PyErr}
    (h : furthestSum D n start exclude extra = Py.raise e) : FSErr e := by
  unfold furthestSum furthestSumImpl at h
  simp only at h
  split_ifs at h
  iterate 4 · simp at h; exact Or.inl h.symm
  · simp at h; exact Or.inl h.symm
  rcases Py.bind_eq_raise.1 h with h | ⟨q, _, h⟩
  · exact fillCandidates_raise h
  · split_ifs at h
    · simp at h; exact Or.inr (Or.inr h.symm)
    · rcases Py.bind_eq_raise.1 h with h | ⟨_, _, h⟩
      · exact selectLoop_raise h
      · rcases Py.bind_eq_raise.1 h with h | ⟨_, _, h⟩
        · exact replaceLoop_raise h
        · simp at h

theorem getFurthestIndex_ne_diverge {q : List (ℤ × K)} : getFurthestIndex q ≠ Py.diverge := by
  unfold getFurthestIndex
  simp only
  split <;> simp

theorem fillCandidates_ne_diverge {D : DMat K} {selected exclude : List ℤ} {start : ℤ} {cap : ℕ} :
    ∀ {is : List ℤ} {q : List (ℤ × K)},
      fillCandidates D selected exclude start cap is q ≠ Py.diverge
  | [], q => by simp [fillCandidates]
  | i :: is, q => by
    unfold fillCandidates
    simp only
    split
    · split
      · simp
      · split
        · exact fillCandidates_ne_diverge
        · simp
    · exact fillCandidates_ne_diverge

theorem selectLoop_ne_diverge {D : DMat K} : ∀ {is : List ℕ} {sel : List ℤ}
    {q : List (ℤ × K)}, selectLoop D is sel q ≠ Py.diverge
  | [], sel, q => by simp [selectLoop]
  | i :: is, sel, q => by
    unfold selectLoop
    intro h
    rcases Py.bind_eq_diverge.1 h with h | ⟨_, _, h⟩
    · exact getFurthestIndex_ne_diverge h
    · exact selectLoop_ne_diverge h

theorem replaceLoop_ne_diverge {D : DMat K} {n : ℕ} : ∀ {is : List ℕ} {sel : List ℤ}
    {q : List (ℤ × K)}, replaceLoop D n is sel q ≠ Py.diverge
  | [], sel, q => by simp [replaceLoop]
  | i :: is, sel, q => by
    unfold replaceLoop
    intro h
    rcases Py.bind_eq_diverge.1 h with h | ⟨_, _, h⟩
    · unfold replaceStep at h
      simp only at h
      rcases Py.bind_eq_diverge.1 h with h | ⟨_, _, h⟩
      · exact getFurthestIndex_ne_diverge h
      · simp at h
    · exact replaceLoop_ne_diverge h

theorem furthestSum_ne_diverge {D : DMat K} {n start : ℤ} {exclude : List ℤ} {extra : ℤ} :
    furthestSum D n start exclude extra ≠ Py.diverge := by
  unfold furthestSum furthestSumImpl
  simp only
  split_ifs <;> try simp
  intro h
  rcases Py.bind_eq_diverge.1 h with h | ⟨q, _, h⟩
  · exact fillCandidates_ne_diverge h
  · split_ifs at h
    rcases Py.bind_eq_diverge.1 h with h | ⟨_, _, h⟩
    · exact selectLoop_ne_diverge h
    · rcases Py.bind_eq_diverge.1 h with h | ⟨_, _, h⟩
      · exact replaceLoop_ne_diverge h
      · simp at h

/-- The arguments of a successful call are in the documented domain, provided the start index is
not negative and the exclusions are distinct and in range. -/
theorem fsArgs_of_ok {D : DMat K} {n : ℕ} (hn : 1 ≤ n) {start : ℤ} {exclude : List ℤ} {extra : ℤ}
    {sel : List ℤ} (h0 : 0 ≤ start) (hnd : exclude.Nodup)
    (hrange : ∀ j ∈ exclude, 0 ≤ j ∧ j < D.rows)
    (h : furthestSum D n start exclude extra = Py.ok sel) : FSArgs D n start exclude := by
  by_cases hsq : D.rows = D.cols
  swap
  · rw [C14_nonsquare_rejected D hsq] at h; simp at h
  by_cases hbad : start ≥ D.rows ∨ start ∈ exclude ∨
      ((exclude.length : ℤ) < D.rows ∧ (n : ℤ) > D.rows - exclude.length)
  · rw [C14_bad_arguments_rejected D hsq n start (by omega) exclude extra hbad] at h
    simp at h
  · push Not at hbad
    obtain ⟨h1, h2, h3⟩ := hbad
    have hlt : (exclude.length : ℤ) < D.rows := by
      by_contra hge
      have hsub : exclude.Subperm ((List.range D.rows).map fun (i : ℕ) => (i : ℤ)) := by
        refine List.subperm_of_subset hnd fun j hj => ?_
        have := hrange j hj
        simp only [List.mem_map, List.mem_range]
        exact ⟨j.toNat, by omega, by omega⟩
      have hperm := hsub.perm_of_length_le (by simp; omega)
      apply h2
      rw [hperm.mem_iff]
      simp only [List.mem_map, List.mem_range]
      exact ⟨start.toNat, by omega, by omega⟩
    exact ⟨hsq, hn, h0, h1, h2, hnd, hrange, by have := h3 hlt; omega⟩

/-- `rowIndices` reads the list positions. -/
theorem rowIndices_ok {n : ℕ} : ∀ {k : ℕ} {sel : List ℤ} {r : Fin k → Fin n},
    sel.length = k → (∀ s ∈ sel, 0 ≤ s) → rowIndices n k sel = Py.ok r →
    sel = (List.finRange k).map fun i => ((r i : ℕ) : ℤ)
  | 0, sel, r, hl, hs, h => by
    obtain rfl : sel = [] := by simpa using hl
    simp
  | k + 1, [], r, hl, hs, h => by simp at hl
  | k + 1, j :: sel, r, hl, hs, h => by
    unfold rowIndices at h
    obtain ⟨i, hi, h⟩ := Py.bind_eq_ok.1 h
    obtain ⟨rest, hrest, h⟩ := Py.bind_eq_ok.1 h
    simp only [Py.pure_eq, Py.ok.injEq] at h
    subst h
    have ih := rowIndices_ok (by simpa using hl) (fun s hs' => hs s (by simp [hs'])) hrest
    have hj := hs j (by simp)
    rw [List.finRange_succ, List.map_cons, Fin.cons_zero, List.map_map]
    have e : (fun i_1 => (((Fin.cons i rest : Fin (k + 1) → Fin n) i_1 : ℕ) : ℤ)) ∘ Fin.succ =
        fun i => ((rest i : ℕ) : ℤ) := by
      funext x; simp
    rw [e, ← ih]
    unfold rowIndex at hi
    split_ifs at hi with h1 h2
    · simp only [Py.ok.injEq] at hi
      subst hi
      simp; omega
    · omega

theorem rowIndices_raise {n : ℕ} {e : PyErr} : ∀ {k : ℕ} {sel : List ℤ},
    rowIndices n k sel = Py.raise e → e = .indexError
  | 0, sel, h => by simp [rowIndices] at h
  | k + 1, [], h => by simp [rowIndices] at h; exact h.symm
  | k + 1, j :: sel, h => by
    unfold rowIndices at h
    rcases Py.bind_eq_raise.1 h with h | ⟨_, _, h⟩
    · unfold rowIndex at h
      split_ifs at h
      simpa using h.symm
    · rcases Py.bind_eq_raise.1 h with h | ⟨_, _, h⟩
      · exact rowIndices_raise h
      · simp at h

theorem rowIndices_ne_diverge {n : ℕ} : ∀ {k : ℕ} {sel : List ℤ},
    rowIndices n k sel ≠ Py.diverge
  | 0, sel => by simp [rowIndices]
  | k + 1, [] => by simp [rowIndices]
  | k + 1, j :: sel => by
    unfold rowIndices
    intro h
    rcases Py.bind_eq_diverge.1 h with h | ⟨_, _, h⟩
    · unfold rowIndex at h
      split_ifs at h
    · rcases Py.bind_eq_diverge.1 h with h | ⟨_, _, h⟩
      · exact rowIndices_ne_diverge h
      · simp at h

theorem dissimilarities_ok {sqrt : K → K} {n : ℕ} {A : Matrix (Fin n) (Fin n) K} {D : DMat K}
    (h : dissimilarities sqrt A = Py.ok D) : D.rows = n ∧ D.cols = n := by
  unfold dissimilarities at h
  simp only at h
  split_ifs at h
  simp only [Py.ok.injEq] at h
  subst h
  exact ⟨rfl, rfl⟩

/-- Keyword arguments in the documented domain: the start index, if given, is not negative; the
exclusions are distinct sample indices. -/
def InitKwargs.WellFormed (kw : InitKwargs) (n : ℕ) : Prop :=
  (∀ z, kw.startIndex = some z → 0 ≤ z) ∧ (kw.exclude.getD []).Nodup ∧
  ∀ j ∈ kw.exclude.getD [], 0 ≤ j ∧ j < n

/-- FurthestSum initialisation picks distinct samples, none excluded. -/
theorem furthestSumRows_ok {env : Env K} {n k : ℕ} {A : Matrix (Fin n) (Fin n) K}
    {kw : InitKwargs} (hkw : kw.WellFormed n) {g : env.rng.G}
    {r : (Fin k → Fin n) × env.rng.G} (h : furthestSumRows env A k kw g = Py.ok r) :
    Function.Injective r.1 ∧ ∀ i, ((r.1 i : ℕ) : ℤ) ∉ kw.exclude.getD [] := by
  rcases Nat.eq_zero_or_pos k with hk | hk
  · subst hk
    exact ⟨fun i => i.elim0, fun i => i.elim0⟩
  unfold furthestSumRows at h
  obtain ⟨⟨start, g'⟩, hstart, h⟩ := Py.bind_eq_ok.1 h
  obtain ⟨D, hD, h⟩ := Py.bind_eq_ok.1 h
  obtain ⟨sel, hsel, h⟩ := Py.bind_eq_ok.1 h
  obtain ⟨rows, hrows, h⟩ := Py.bind_eq_ok.1 h
  simp only [Py.pure_eq, Py.ok.injEq] at h
  subst h
  obtain ⟨hd1, hd2⟩ := dissimilarities_ok hD
  have h0 : 0 ≤ start := by
    unfold drawStart at hstart
    cases hs : kw.startIndex with
    | some z =>
      rw [hs] at hstart
      simp only [Py.ok.injEq, Prod.mk.injEq] at hstart
      rw [← hstart.1]; exact hkw.1 z hs
    | none =>
      rw [hs] at hstart
      simp only at hstart
      split_ifs at hstart
      simp only [Py.ok.injEq, Prod.mk.injEq] at hstart
      rw [← hstart.1]; positivity
  have hargs := fsArgs_of_ok hk h0 hkw.2.1 (by rw [hd1]; exact hkw.2.2) hsel
  obtain ⟨sel', hsel', hlen, hnd, hmem⟩ := C11_furthest_sum_distinct hargs (kw.nExtraSteps.getD 10)
  rw [hsel'] at hsel
  obtain rfl : sel' = sel := by simpa using hsel
  have hmap := rowIndices_ok hlen (fun s hs => (hmem s hs).1) hrows
  constructor
  · intro i j hij
    rw [hmap] at hnd
    have := List.inj_on_of_nodup_map hnd (List.mem_finRange i) (List.mem_finRange j)
    exact this (by simp only at hij; rw [hij])
  · intro i
    refine (hmem _ ?_).2.2
    rw [hmap]
    exact List.mem_map.2 ⟨i, List.mem_finRange i, rfl⟩

theorem rowIndices_succeeds {n : ℕ} : ∀ {k : ℕ} {sel : List ℤ}, sel.length = k →
    (∀ s ∈ sel, 0 ≤ s ∧ s < n) → ∃ r, rowIndices n k sel = Py.ok r
  | 0, _, _, _ => ⟨_, rfl⟩
  | k + 1, [], h, _ => by simp at h
  | k + 1, j :: sel, h, hm => by
    obtain ⟨r, hr⟩ := rowIndices_succeeds (n := n) (k := k) (sel := sel) (by simpa using h)
      fun s hs => hm s (List.mem_cons_of_mem _ hs)
    have hj := hm j (List.mem_cons_self ..)
    refine ⟨Fin.cons ⟨j.toNat, by omega⟩ r, ?_⟩
    rw [rowIndices, rowIndex, dif_pos hj, Py.ok_bind, hr]
    rfl

/-- The FurthestSum choice succeeds when there are enough samples, no argument of the root is negative
and the start index, if given, is in range (no exclusions). -/
theorem furthestSumRows_succeeds {env : Env K} (hR : env.rng.Lawful) {n k : ℕ}
    {A : Matrix (Fin n) (Fin n) K} (hA : ∀ i j, 0 ≤ A j j - 2 * A i j + A i i)
    (hk : 1 ≤ k) (hkn : k ≤ n) {kw : InitKwargs} (hex : kw.exclude = none)
    (hstart : ∀ z, kw.startIndex = some z → 0 ≤ z ∧ z < n) (g : env.rng.G) :
    ∃ r, furthestSumRows env A k kw g = Py.ok r := by
  obtain ⟨⟨st, g'⟩, hd, h0, h1⟩ : ∃ s, drawStart env n kw g = Py.ok s ∧ 0 ≤ s.1 ∧ s.1 < n := by
    unfold drawStart
    cases hs : kw.startIndex with
    | some z => exact ⟨(z, g), rfl, hstart z hs⟩
    | none =>
      have hn : n ≠ 0 := by omega
      simp only [hn, if_false]
      refine ⟨_, rfl, by positivity, ?_⟩
      exact Int.ofNat_lt.2 (hR.randint_lt n g (by omega))
  obtain ⟨D, hD⟩ : ∃ D, dissimilarities env.sqrt A = Py.ok D := by
    unfold dissimilarities
    simp only
    rw [if_neg]
    · exact ⟨_, rfl⟩
    · rintro ⟨i, j, h⟩
      exact absurd (hA i j) (not_le.2 h)
  obtain ⟨hd1, hd2⟩ := dissimilarities_ok hD
  have hargs : FSArgs D k st [] := by
    refine ⟨by rw [hd1, hd2], hk, h0, by rw [hd1]; exact h1, by simp, List.nodup_nil, by simp, ?_⟩
    rw [hd1]
    simpa using hkn
  obtain ⟨sel, hsel, hlen, -, hmem⟩ := C11_furthest_sum_distinct hargs (kw.nExtraSteps.getD 10)
  obtain ⟨r, hr⟩ := rowIndices_succeeds (n := n) hlen fun s hs =>
    ⟨(hmem s hs).1, by have := (hmem s hs).2.1; rwa [hd1] at this⟩
  refine ⟨(r, g'), ?_⟩
  unfold furthestSumRows
  rw [hd, Py.ok_bind, hD, Py.ok_bind, hex, Option.getD_none, hsel, Py.ok_bind, hr]
  rfl

/-- No argument of the root is negative for the kernel of a data matrix. -/
theorem gram_distance_nonneg {n m : ℕ} (X : Matrix (Fin n) (Fin m) K) (i j : Fin n) :
    0 ≤ (X * X.transpose : Matrix (Fin n) (Fin n) K) j j -
      2 * (X * X.transpose : Matrix (Fin n) (Fin n) K) i j +
      (X * X.transpose : Matrix (Fin n) (Fin n) K) i i := by
  have : (X * X.transpose : Matrix (Fin n) (Fin n) K) j j -
      2 * (X * X.transpose : Matrix (Fin n) (Fin n) K) i j +
      (X * X.transpose : Matrix (Fin n) (Fin n) K) i i = ∑ d, (X j d - X i d) ^ 2 := by
    simp only [Matrix.mul_apply, Matrix.transpose_apply, Finset.mul_sum]
    rw [← Finset.sum_sub_distrib, ← Finset.sum_add_distrib]
    exact Finset.sum_congr rfl fun d _ => by ring
  rw [this]
  exact Finset.sum_nonneg fun d _ => sq_nonneg _

theorem furthestSumRows_raise {env : Env K} {n k : ℕ} {A : Matrix (Fin n) (Fin n) K}
    {kw : InitKwargs} {g : env.rng.G} {e : PyErr}
    (h : furthestSumRows env A k kw g = Py.raise e) : FSErr e ∨ e = .nonFinite := by
  unfold furthestSumRows at h
  rcases Py.bind_eq_raise.1 h with h | ⟨_, _, h⟩
  · unfold drawStart at h
    cases hs : kw.startIndex with
    | some z => rw [hs] at h; simp at h
    | none =>
      rw [hs] at h
      simp only at h
      split_ifs at h
      simp at h; exact Or.inl (Or.inl h.symm)
  rcases Py.bind_eq_raise.1 h with h | ⟨_, _, h⟩
  · unfold dissimilarities at h
    simp only at h
    split_ifs at h
    simp at h; exact Or.inr h.symm
  rcases Py.bind_eq_raise.1 h with h | ⟨_, _, h⟩
  · exact Or.inl (furthestSum_raise h)
  rcases Py.bind_eq_raise.1 h with h | ⟨_, _, h⟩
  · exact Or.inl (Or.inr (Or.inl (rowIndices_raise h)))
  · simp at h

theorem furthestSumRows_ne_diverge {env : Env K} {n k : ℕ} {A : Matrix (Fin n) (Fin n) K}
    {kw : InitKwargs} {g : env.rng.G} : furthestSumRows env A k kw g ≠ Py.diverge := by
  intro h
  unfold furthestSumRows at h
  rcases Py.bind_eq_diverge.1 h with h | ⟨_, _, h⟩
  · unfold drawStart at h
    cases hs : kw.startIndex with
    | some z => rw [hs] at h; simp at h
    | none =>
      rw [hs] at h
      simp only at h
      split_ifs at h
  rcases Py.bind_eq_diverge.1 h with h | ⟨_, _, h⟩
  · unfold dissimilarities at h
    simp only at h
    split_ifs at h
  rcases Py.bind_eq_diverge.1 h with h | ⟨_, _, h⟩
  · exact furthestSum_ne_diverge h
  rcases Py.bind_eq_diverge.1 h with h | ⟨_, _, h⟩
  · exact rowIndices_ne_diverge h
  · simp at h

/-! ### Random stochastic matrices -/

theorem rightStochastic_ok {R : Rng K} (hR : R.Lawful) {m n : ℕ} (hn : 1 ≤ n) {g : R.G}
    {r : Matrix (Fin m) (Fin n) K × R.G} (h : rightStochasticMatrix R m n g = Py.ok r) :
    RowStochastic r.1 := by
  unfold rightStochasticMatrix at h
  simp only at h
  split_ifs at h with h0
  push Not at h0
  simp only [Py.ok.injEq] at h
  subst h
  intro i
  constructor
  · intro j
    exact div_nonneg (hR.uniform_nonneg _ _ _ _ _)
      (Finset.sum_nonneg fun _ _ => hR.uniform_nonneg _ _ _ _ _)
  · simp only
    rw [← Finset.sum_div]
    exact div_self (h0 i ⟨0, hn⟩)

theorem leftStochastic_ok {R : Rng K} (hR : R.Lawful) {m n : ℕ} (hm : 1 ≤ m) {g : R.G}
    {r : Matrix (Fin m) (Fin n) K × R.G} (h : leftStochasticMatrix R m n g = Py.ok r) :
    ColStochastic r.1 := by
  unfold leftStochasticMatrix at h
  simp only at h
  split_ifs at h with h0
  push Not at h0
  simp only [Py.ok.injEq] at h
  subst h
  intro i
  constructor
  · intro j
    exact div_nonneg (hR.uniform_nonneg _ _ _ _ _)
      (Finset.sum_nonneg fun _ _ => hR.uniform_nonneg _ _ _ _ _)
  · simp only
    rw [← Finset.sum_div]
    exact div_self (h0 i ⟨0, hm⟩)

theorem rightStochastic_succeeds {R : Rng K} (hpos : ∀ m n g i j, 0 < (R.uniform m n g).1 i j)
    {m n : ℕ} (hn : 1 ≤ n) (g : R.G) : ∃ r, rightStochasticMatrix R m n g = Py.ok r := by
  unfold rightStochasticMatrix
  simp only
  rw [if_neg]
  · exact ⟨_, rfl⟩
  · rintro ⟨i, -, hi⟩
    have : 0 < ∑ j, (R.uniform m n g).1 i j :=
      Finset.sum_pos (fun j _ => hpos _ _ _ _ _) ⟨⟨0, hn⟩, Finset.mem_univ _⟩
    exact this.ne' hi

theorem leftStochastic_succeeds {R : Rng K} (hpos : ∀ m n g i j, 0 < (R.uniform m n g).1 i j)
    {m n : ℕ} (hm : 1 ≤ m) (g : R.G) : ∃ r, leftStochasticMatrix R m n g = Py.ok r := by
  unfold leftStochasticMatrix
  simp only
  rw [if_neg]
  · exact ⟨_, rfl⟩
  · rintro ⟨j, -, hj⟩
    have : 0 < ∑ i, (R.uniform m n g).1 i j :=
      Finset.sum_pos (fun i _ => hpos _ _ _ _ _) ⟨⟨0, hm⟩, Finset.mem_univ _⟩
    exact this.ne' hj

theorem rightStochastic_raise {R : Rng K} {m n : ℕ} {g : R.G} {e : PyErr}
    (h : rightStochasticMatrix R m n g = Py.raise e) : e = .nonFinite := by
  unfold rightStochasticMatrix at h
  simp only at h
  split_ifs at h
  simpa using h.symm

theorem leftStochastic_raise {R : Rng K} {m n : ℕ} {g : R.G} {e : PyErr}
    (h : leftStochasticMatrix R m n g = Py.raise e) : e = .nonFinite := by
  unfold leftStochasticMatrix at h
  simp only at h
  split_ifs at h
  simpa using h.symm

/-! ### Validation -/

/-- Acceptable configuration values. -/
def ValidParams (nComponents maxIterations tolerance : NumArg K) : Prop :=
  (∃ z : ℤ, nComponents = .int z ∧ 0 < z) ∧ (∃ z : ℤ, maxIterations = .int z ∧ 0 < z) ∧
  ((∃ z : ℤ, tolerance = .int z ∧ 0 ≤ z) ∨ ∃ x : K, tolerance = .real x ∧ 0 ≤ x)

/-- Acceptable settings of an estimator for data with `n` features (samples), which is what
`n_components=None` stands for. -/
def ValidConfig (nComponents : NumArg K) (n : ℕ) (maxIterations tolerance : NumArg K) : Prop :=
  (nComponents = .none ∧ 0 < n ∨ ∃ z : ℤ, nComponents = .int z ∧ 0 < z) ∧
  (∃ z : ℤ, maxIterations = .int z ∧ 0 < z) ∧
  ((∃ z : ℤ, tolerance = .int z ∧ 0 ≤ z) ∨ ∃ x : K, tolerance = .real x ∧ 0 ≤ x)

theorem checkParams_valid {c m t : NumArg K} (h : ValidParams c m t) :
    ∃ p : ℕ × ℕ × K, checkParams c m t = Py.ok p ∧ c = .int p.1 ∧ m = .int p.2.1 ∧ 0 < p.1 ∧
      0 < p.2.1 ∧ 0 ≤ p.2.2 ∧ (t = .real p.2.2 ∨ ∃ z : ℤ, t = .int z ∧ (z : K) = p.2.2) := by
  obtain ⟨⟨z, rfl, hz⟩, ⟨z', rfl, hz'⟩, ht⟩ := h
  rcases ht with ⟨y, rfl, hy⟩ | ⟨x, rfl, hx⟩
  · refine ⟨(z.toNat, z'.toNat, (y : K)), ?_, ?_, ?_, ?_, ?_, ?_, Or.inr ⟨y, rfl, rfl⟩⟩
    · simp [checkParams, not_le.2 hz, not_le.2 hz', not_lt.2 hy]
    · simp; omega
    · simp; omega
    · simp; omega
    · simp; omega
    · simpa using hy
  · refine ⟨(z.toNat, z'.toNat, x), ?_, ?_, ?_, ?_, ?_, hx, Or.inl rfl⟩
    · simp [checkParams, not_le.2 hz, not_le.2 hz', not_lt.2 hx]
    · simp; omega
    · simp; omega
    · simp; omega
    · simp; omega

theorem checkParams_invalid {c m t : NumArg K} (h : ¬ ValidParams c m t) :
    checkParams c m t = Py.raise .valueError := by
  unfold checkParams
  unfold ValidParams at h
  cases c with
  | int z =>
    by_cases hz : z ≤ 0
    · simp [hz]
    cases m with
    | int z' =>
      by_cases hz' : z' ≤ 0
      · simp [hz, hz']
      cases t with
      | int y =>
        by_cases hy : y < 0
        · simp [hz, hz', hy]
        · exact absurd ⟨⟨z, rfl, by omega⟩, ⟨z', rfl, by omega⟩, Or.inl ⟨y, rfl, by omega⟩⟩ h
      | real y =>
        by_cases hy : y < 0
        · simp [hz, hz', hy]
        · exact absurd ⟨⟨z, rfl, by omega⟩, ⟨z', rfl, by omega⟩, Or.inr ⟨y, rfl, not_lt.1 hy⟩⟩ h
      | _ => simp [hz, hz']
    | _ => simp [hz]
  | _ => simp

theorem checkParams_ok {c m t : NumArg K} {p : ℕ × ℕ × K} (h : checkParams c m t = Py.ok p) :
    ValidParams c m t ∧ c = .int p.1 ∧ m = .int p.2.1 ∧ 0 < p.1 ∧ 0 < p.2.1 ∧ 0 ≤ p.2.2 := by
  by_cases hv : ValidParams c m t
  · obtain ⟨p', hp', h1, h2, h3, h4, h5, -⟩ := checkParams_valid hv
    rw [hp'] at h
    simp only [Py.ok.injEq] at h
    subst h
    exact ⟨hv, h1, h2, h3, h4, h5⟩
  · rw [checkParams_invalid hv] at h; simp at h

theorem checkArray_ok {A : Option (Arr2 K)} {B : Arr2 K} (h : checkArray A = Py.ok B) :
    A = some B ∧ B.rows ≠ 0 ∧ B.cols ≠ 0 := by
  unfold checkArray at h
  split at h
  · simp at h
  · split_ifs at h with hc
    simp only [Py.ok.injEq] at h
    subst h
    push Not at hc
    exact ⟨rfl, hc.1, hc.2⟩

theorem checkArrayShape_ok {A : Arr2 K} {m n : ℕ} {M : Matrix (Fin m) (Fin n) K}
    (h : checkArrayShape A m n = Py.ok M) : A = Arr2.of M := by
  unfold checkArrayShape at h
  split_ifs at h with hc
  obtain ⟨rows, cols, val⟩ := A
  obtain ⟨h1, h2⟩ := hc
  simp only at h1 h2
  subst h1; subst h2
  simp only [Py.ok.injEq] at h
  subst h
  rfl

theorem checkArrayShape_of {m n : ℕ} (M : Matrix (Fin m) (Fin n) K) :
    checkArrayShape (Arr2.of M) m n = Py.ok M := by
  unfold checkArrayShape
  rw [dif_pos ⟨rfl, rfl⟩]
  rfl

end Reor
