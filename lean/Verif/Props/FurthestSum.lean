import Verif.Proofs.FurthestSum
import Verif.Spec
import Mathlib.Tactic.NormNum
import Mathlib.Tactic.FinCases
import Mathlib.Tactic.IntervalCases

/-!
Properties C11-C15: `furthest_sum.py`.  `FSArgs` (square matrix, `1 ≤ n_components`, start index in
range and not excluded, exclusions distinct and in range, enough points) is the documented domain
of the function; `FSSymm` says that the matrix is symmetric.
-/

set_option linter.unusedSectionVars false

namespace Reor

open Spec

variable {K : Type} [Field K] [LinearOrder K] [IsStrictOrderedRing K]

theorem fsPairs_eq (D : DMat K) (l : List ℤ) : fsPairs D l = pairTotal D.get l := by
  induction l with
  | nil => rfl
  | cons a l ih => rw [fsPairs, pairTotal, ih]; rfl

/-- C11.  `furthest_sum` succeeds and returns exactly `n_components` distinct sample indices, none of
them excluded, for any number of extra steps. -/
theorem C11_furthest_sum_distinct {D : DMat K} {n : ℕ} {start : ℤ} {exclude : List ℤ}
    (h : FSArgs D n start exclude) (extraSteps : ℤ) :
    ∃ sel, furthestSum D n start exclude extraSteps = Py.ok sel ∧
      sel.length = n ∧ sel.Nodup ∧
      ∀ s ∈ sel, 0 ≤ s ∧ s < D.rows ∧ s ∉ exclude := by
  obtain ⟨sel0, q0, hl0, hinv0, -, -, hrun⟩ := select_phase h
  obtain ⟨sel, q, hr, hl, hinv, -⟩ :=
    replaceLoop_spec D (fun j hj => hj.1) h.pos (List.range extraSteps.toNat) sel0 q0 hl0 hinv0
  refine ⟨sel, by rw [hrun, hr]; rfl, hl, hinv.sel_nodup, fun s hs => ?_⟩
  have := hinv.sel_adm s hs
  exact ⟨this.1.1, this.1.2, this.2⟩

/-- C12, selection phase.  Without extra steps the first index is the start index, and every later
one has the largest sum of dissimilarities to those before it, among all admissible samples not yet
selected. -/
theorem C12_furthest_sum_greedy {D : DMat K} {n : ℕ} {start : ℤ} {exclude : List ℤ}
    (h : FSArgs D n start exclude) (hsym : FSSymm D) :
    ∃ sel, furthestSum D n start exclude 0 = Py.ok sel ∧ sel.length = n ∧ sel.head? = some start ∧
      ∀ i, 1 ≤ i → ∀ (hi : i < sel.length), ∀ j : ℤ, 0 ≤ j → j < D.rows → j ∉ exclude →
        j ∉ sel.take i →
        sumTo D.get (sel.take i) j ≤ sumTo D.get (sel.take i) sel[i] := by
  obtain ⟨sel, q, hl, hinv, htake, hv, hrun⟩ := select_phase h
  refine ⟨sel, by rw [hrun]; simp [replaceLoop], hl, ?_, ?_⟩
  · cases sel with
    | nil => simp at htake
    | cons a l => simpa using htake
  · intro i h1 h2 j hj1 hj2 hj3 hj4
    exact (hv hsym).2 i h1 h2 j ⟨⟨hj1, hj2⟩, hj3⟩ hj4

/-- C12, replacement phase.  One more extra step replaces exactly the entry at position
`e % n_components`, by an index with the largest sum of dissimilarities to the other selected
samples, among all admissible samples that are not among those others. -/
theorem C12_furthest_sum_replacement {D : DMat K} {n : ℕ} {start : ℤ} {exclude : List ℤ}
    (h : FSArgs D n start exclude) (hsym : FSSymm D) (e : ℕ) :
    ∃ sel x, furthestSum D n start exclude e = Py.ok sel ∧
      furthestSum D n start exclude (e + 1 : ℕ) = Py.ok (sel.set (e % n) x) ∧
      (0 ≤ x ∧ x < D.rows ∧ x ∉ exclude ∧ x ∉ sel.eraseIdx (e % n)) ∧
      ∀ j : ℤ, 0 ≤ j → j < D.rows → j ∉ exclude → j ∉ sel.eraseIdx (e % n) →
        sumTo D.get (sel.eraseIdx (e % n)) j ≤ sumTo D.get (sel.eraseIdx (e % n)) x := by
  obtain ⟨sel, x, h1, h2, -, -, -, hx, hnot, hg⟩ := extra_step h e
  exact ⟨sel, x, h1, h2, ⟨hx.1.1, hx.1.2, hx.2, hnot⟩,
    fun j hj1 hj2 hj3 hj4 => hg hsym j ⟨⟨hj1, hj2⟩, hj3⟩ hj4⟩

/-- C13.  More extra steps never decrease the total pairwise dissimilarity of the selection. -/
theorem C13_extra_steps_monotone {D : DMat K} {n : ℕ} {start : ℤ} {exclude : List ℤ}
    (h : FSArgs D n start exclude) (hsym : FSSymm D) (e e' : ℤ) (hle : e ≤ e') :
    ∃ sel sel', furthestSum D n start exclude e = Py.ok sel ∧
      furthestSum D n start exclude e' = Py.ok sel' ∧
      pairTotal D.get sel ≤ pairTotal D.get sel' := by
  have hnat : ∀ z : ℤ, furthestSum D n start exclude z = furthestSum D n start exclude z.toNat := by
    intro z
    obtain ⟨_, _, _, _, _, _, hrun⟩ := select_phase h
    rw [hrun z, hrun z.toNat, Int.toNat_natCast]
  have key : ∀ k m : ℕ, ∃ sel sel', furthestSum D n start exclude (m : ℕ) = Py.ok sel ∧
      furthestSum D n start exclude (m + k : ℕ) = Py.ok sel' ∧ fsPairs D sel ≤ fsPairs D sel' := by
    intro k
    induction k with
    | zero =>
      intro m
      obtain ⟨sel, h1, -⟩ := C11_furthest_sum_distinct h (m : ℕ)
      exact ⟨sel, sel, h1, h1, le_rfl⟩
    | succ k ih =>
      intro m
      obtain ⟨sel, sel', h1, h2, h3⟩ := ih m
      obtain ⟨s1, s2, h4, h5, h6⟩ := extra_step_pairs h hsym (m + k)
      rw [h2] at h4
      obtain rfl : sel' = s1 := by simpa using h4
      exact ⟨sel, s2, h1, h5, h3.trans h6⟩
  obtain ⟨sel, sel', h1, h2, h3⟩ := key (e'.toNat - e.toNat) e.toNat
  have : e.toNat + (e'.toNat - e.toNat) = e'.toNat := by omega
  rw [this] at h2
  refine ⟨sel, sel', by rw [hnat]; exact h1, by rw [hnat]; exact h2, ?_⟩
  rw [← fsPairs_eq, ← fsPairs_eq]
  exact h3

/-- C14, non-square matrix. -/
theorem C14_nonsquare_rejected (D : DMat K) (h : D.rows ≠ D.cols) (n start : ℤ) (exclude : List ℤ)
    (extraSteps : ℤ) : furthestSum D n start exclude extraSteps = Py.raise .valueError := by
  simp [furthestSum, h]

/-- C14, zero components. -/
theorem C14_zero_components (D : DMat K) (h : D.rows = D.cols) (start : ℤ) (exclude : List ℤ)
    (extraSteps : ℤ) : furthestSum D 0 start exclude extraSteps = Py.ok [] := by
  simp [furthestSum, furthestSumImpl, h]

/-- C14, invalid start index or too few points. -/
theorem C14_bad_arguments_rejected (D : DMat K) (hsq : D.rows = D.cols) (n start : ℤ) (hn : n ≠ 0)
    (exclude : List ℤ) (extraSteps : ℤ)
    (hbad : start ≥ D.rows ∨ start ∈ exclude ∨
      ((exclude.length : ℤ) < D.rows ∧ n > D.rows - exclude.length)) :
    furthestSum D n start exclude extraSteps = Py.raise .valueError := by
  unfold furthestSum furthestSumImpl
  rw [if_neg (not_not.mpr hsq), if_neg hn]
  simp only
  by_cases h1 : start ≥ D.rows
  · rw [if_pos h1]
  · rw [if_neg h1]
    by_cases h2 : start ∈ exclude
    · rw [if_pos (by simpa using h2)]
    · rw [if_neg (by simpa using h2), if_pos]
      rcases hbad with h | h | h
      · exact absurd h h1
      · exact absurd h h2
      · exact h

/-- C14, a negative start index (with otherwise acceptable arguments) is rejected with an
IndexError; it is never wrapped around. -/
theorem C14_negative_start_rejected (D : DMat K) (hsq : D.rows = D.cols) (n start : ℤ) (hn : 0 < n)
    (hstart : start < 0) (exclude : List ℤ) (hse : start ∉ exclude)
    (hlt : exclude.length < D.rows) (henough : n ≤ D.rows - exclude.length)
    (extraSteps : ℤ) :
    furthestSum D n start exclude extraSteps = Py.raise .indexError := by
  unfold furthestSum furthestSumImpl
  rw [if_neg (not_not.mpr hsq), if_neg (by omega)]
  simp only
  rw [if_neg (by omega), if_neg (by simpa using hse), if_neg (by omega), if_neg (by omega)]
  have hc := length_candidates_neg (N := D.rows) (n := n.toNat) (by omega) (ex := exclude) hstart
  rw [fill_spec, if_pos]
  · rfl
  · right
    have hidx : ((List.range D.rows).map fun (i : ℕ) => (i : ℤ)) = fsIndices D.rows := rfl
    rw [hidx]
    constructor
    · simp only [List.length_nil]; omega
    · intro hnil
      rw [hnil] at hc
      simp at hc
      omega

/-- C15.  With a single component the start index is returned. -/
theorem C15_single_component {D : DMat K} {start : ℤ} {exclude : List ℤ}
    (h : FSArgs D 1 start exclude) (hsym : FSSymm D) (extraSteps : ℤ) :
    furthestSum D 1 start exclude extraSteps = Py.ok [start] := by
  obtain ⟨sel0, q0, hl0, hinv0, htake, hv0, hrun⟩ := select_phase h
  have hsel : sel0 = [start] := by
    cases sel0 with
    | nil => simp at hl0
    | cons a l =>
      simp only [List.length_cons, Nat.add_eq_right, List.length_eq_zero_iff] at hl0
      subst hl0
      simpa using htake
  subst hsel
  have hr : (1 : ℤ) = ((1 : ℕ) : ℤ) := rfl
  rw [hr, hrun]
  have key : ∀ (is : List ℕ) (q : List (ℤ × K)),
      FSInv (FSAdm D exclude) [start] q → FSVals D [start] q →
      ∃ q', replaceLoop D 1 is [start] q = Py.ok ([start], q') := by
    intro is
    induction is with
    | nil => intro q _ _; exact ⟨q, rfl⟩
    | cons i is ih =>
      intro q hinv hv
      obtain ⟨x, q', hs, -, -, hinv', hg⟩ :=
        replaceStep_spec D (fun j hj => hj.1) (i := i) (n := 1) rfl le_rfl hinv
      have hxs : x = start := by
        have h1 : replaceStep D 1 i [start] q = Py.ok ([start].set (i % 1) x, q') := hs
        unfold replaceStep at h1
        simp only [Nat.mod_one, List.getD_cons_zero, List.foldl_cons, List.foldl_nil, ne_eq,
          not_true_eq_false, if_false] at h1
        rw [getFurthest_const _ (start, (0 : K)) 0 (by
            intro y hy
            simp only [List.mem_map] at hy
            obtain ⟨z, hz, rfl⟩ := hy
            simp only
            rw [hv z hz]
            simp [fsScore]) rfl] at h1
        simp at h1
        exact h1.1.symm
      subst hxs
      have h0 : [x].set (i % 1) x = [x] := by simp [Nat.mod_one]
      rw [h0] at hs hinv' hg
      obtain ⟨q2, h2⟩ := ih q' hinv' (hg hsym hv).1
      refine ⟨q2, ?_⟩
      rw [replaceLoop, hs]
      exact h2
  obtain ⟨q', hq'⟩ := key (List.range extraSteps.toNat) q0 hinv0 (hv0 hsym).1
  rw [hq']
  rfl

/-! Non-vacuity: a 4 x 4 symmetric matrix with sample 2 excluded. -/

/-- Squared distances of the points 0, 1, 5, 7. -/
def fsExample : DMat ℚ :=
  { rows := 4, cols := 4
    get := fun i j =>
      let p : ℤ → ℚ := fun i => if i = 0 then 0 else if i = 1 then 1 else if i = 2 then 5 else 7
      (p i - p j) ^ 2 }

example : FSArgs fsExample 3 1 [2] where
  square := rfl
  pos := by norm_num
  start_nonneg := by norm_num
  start_lt := by norm_num [fsExample]
  start_not_excluded := by norm_num
  ex_nodup := by simp
  ex_range := by intro j hj; simp at hj; subst hj; norm_num [fsExample]
  enough := by norm_num [fsExample]

example : FSSymm fsExample := by
  intro i j _ _ _ _
  simp only [fsExample]
  ring

example : FSArgs fsExample 1 1 [2] where
  square := rfl
  pos := by norm_num
  start_nonneg := by norm_num
  start_lt := by norm_num [fsExample]
  start_not_excluded := by norm_num
  ex_nodup := by simp
  ex_range := by intro j hj; simp at hj; subst hj; norm_num [fsExample]
  enough := by norm_num [fsExample]

end Reor
