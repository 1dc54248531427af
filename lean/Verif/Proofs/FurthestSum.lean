import Verif.Model.FurthestSum
import Mathlib.Data.List.Perm.Subperm
import Mathlib.Algebra.BigOperators.Group.List.Basic
import Mathlib.Tactic.Linarith
import Mathlib.Tactic.Ring

set_option linter.unusedSectionVars false

namespace Reor

variable {K : Type} [Field K] [LinearOrder K] [IsStrictOrderedRing K]

/-- Sum of dissimilarities of `j` to the members of `sel`. -/
def fsScore (D : DMat K) (sel : List ℤ) (j : ℤ) : K := (sel.map fun s => D.get j s).sum

theorem fsScore_nil (D : DMat K) (j : ℤ) : fsScore D [] j = 0 := rfl

theorem fsScore_cons (D : DMat K) (a : ℤ) (l : List ℤ) (j : ℤ) :
    fsScore D (a :: l) j = D.get j a + fsScore D l j := by simp [fsScore]

theorem fsScore_append (D : DMat K) (a b : List ℤ) (j : ℤ) :
    fsScore D (a ++ b) j = fsScore D a j + fsScore D b j := by simp [fsScore]

theorem fsScore_perm (D : DMat K) {a b : List ℤ} (h : a.Perm b) (j : ℤ) :
    fsScore D a j = fsScore D b j := (h.map _).sum_eq

/-! ### Picking the largest -/

theorem getFurthest_spec (q : List (ℤ × K)) (hq : q ≠ []) :
    ∃ x rest, getFurthestIndex q = Py.ok (x.1, rest) ∧ (rest ++ [x]).Perm q ∧
      ∀ y ∈ q, y.2 ≤ x.2 := by
  unfold getFurthestIndex
  simp only
  set s := q.mergeSort (fun a b => decide (a.2 ≤ b.2)) with hs
  have hperm : s.Perm q := List.mergeSort_perm _ _
  have hne : s ≠ [] := by
    intro h; rw [h] at hperm; exact hq hperm.symm.eq_nil
  have hsorted : s.Pairwise (fun a b => decide (a.2 ≤ b.2) = true) := by
    apply List.pairwise_mergeSort
    · intro a b c h1 h2; simp only [decide_eq_true_eq] at *; exact h1.trans h2
    · intro a b; simp only [Bool.or_eq_true, decide_eq_true_eq]; exact le_total _ _
  rw [List.getLast?_eq_getLast_of_ne_nil hne]
  refine ⟨s.getLast hne, s.dropLast, rfl, ?_, ?_⟩
  · rw [List.dropLast_append_getLast hne]; exact hperm
  · intro y hy
    have hy' : y ∈ s := hperm.mem_iff.mpr hy
    rw [← List.dropLast_append_getLast hne] at hy' hsorted
    rcases List.mem_append.mp hy' with h | h
    · have := (List.pairwise_append.mp hsorted).2.2 y h _ (List.mem_singleton.mpr rfl)
      simpa using this
    · rw [List.mem_singleton.mp h]

theorem getFurthest_nil : getFurthestIndex ([] : List (ℤ × K)) = Py.raise .indexError := by
  simp [getFurthestIndex]

/-- With equal values the last entry is taken and the rest is left alone. -/
theorem getFurthest_const (q : List (ℤ × K)) (x : ℤ × K) (v : K) (h : ∀ y ∈ q, y.2 = v)
    (hx : x.2 = v) : getFurthestIndex (q ++ [x]) = Py.ok (x.1, q) := by
  unfold getFurthestIndex
  have : (q ++ [x]).Pairwise (fun a b => decide (a.2 ≤ b.2) = true) := by
    apply List.pairwise_of_forall_mem_list
    intro a ha b hb
    have : ∀ y ∈ q ++ [x], y.2 = v := by
      intro y hy
      rcases List.mem_append.mp hy with hy | hy
      · exact h y hy
      · rw [List.mem_singleton.mp hy, hx]
    simp [this a ha, this b hb]
  simp only
  rw [List.mergeSort_of_pairwise this]
  simp

/-! ### Filling the candidate list -/

theorem fill_spec (D : DMat K) (sel ex : List ℤ) (start : ℤ) (cap : ℕ) (is : List ℤ)
    (q : List (ℤ × K)) :
    fillCandidates D sel ex start cap is q =
      if (start < -(D.cols : ℤ) ∧ is.filter (isValidCandidate sel ex) ≠ []) ∨
          (cap < q.length + (is.filter (isValidCandidate sel ex)).length ∧
            is.filter (isValidCandidate sel ex) ≠ []) then
        Py.raise .indexError
      else
        Py.ok (q ++ (is.filter (isValidCandidate sel ex)).map fun i =>
          (i, D.get i (if start < 0 then start + D.cols else start))) := by
  induction is generalizing q with
  | nil => simp [fillCandidates]
  | cons i is ih =>
    rw [fillCandidates]
    by_cases hv : isValidCandidate sel ex i = true
    · rw [if_pos hv]
      by_cases hs : start < -(D.cols : ℤ)
      · simp [hv, hs]
      · rw [if_neg hs]
        by_cases hc : q.length < cap
        · rw [if_pos hc, ih]
          have e : (i :: is).filter (isValidCandidate sel ex) =
              i :: is.filter (isValidCandidate sel ex) := by simp [hv]
          rw [e]
          by_cases hn : is.filter (isValidCandidate sel ex) = []
          · simp [hs, hn]; omega
          · simp only [hs, hn, false_or, ne_eq, not_false_eq_true, and_true,
              List.length_append, List.length_cons, List.length_nil, reduceCtorEq]
            by_cases hcap : cap < q.length + (0 + 1) + (is.filter (isValidCandidate sel ex)).length
            · rw [if_pos hcap, if_pos (by omega)]
            · have hcap' : ¬ cap < q.length +
                  ((is.filter (isValidCandidate sel ex)).length + 1) := by omega
              rw [if_neg hcap, if_neg hcap']
              simp
        · rw [if_neg hc, if_pos]
          right
          simp [hv]
          omega
    · rw [if_neg hv, ih]
      simp [hv]

/-- The indices `0, ..., n-1`. -/
def fsIndices (n : ℕ) : List ℤ := (List.range n).map fun (i : ℕ) => (i : ℤ)

theorem fsIndices_nodup (n : ℕ) : (fsIndices n).Nodup :=
  (List.nodup_range).map (fun a b h => by exact_mod_cast h)

theorem mem_fsIndices {n : ℕ} {j : ℤ} : j ∈ fsIndices n ↔ 0 ≤ j ∧ j < n := by
  simp only [fsIndices, List.mem_map, List.mem_range]
  constructor
  · rintro ⟨i, hi, rfl⟩; omega
  · rintro ⟨h1, h2⟩; exact ⟨j.toNat, by omega, by omega⟩

theorem length_fsIndices (n : ℕ) : (fsIndices n).length = n := by simp [fsIndices]

theorem isValid_replicate {n : ℕ} (hn : 1 ≤ n) {start : ℤ} {ex : List ℤ} {j : ℤ} :
    isValidCandidate (List.replicate n start) ex j = true ↔ j ≠ start ∧ j ∉ ex := by
  have : n ≠ 0 := by omega
  simp [isValidCandidate, this]

/-- The candidates found, for well-formed arguments. -/
theorem length_candidates_of_wf {N n : ℕ} (hn : 1 ≤ n) {start : ℤ} {ex : List ℤ}
    (hstart : 0 ≤ start ∧ start < N) (hse : start ∉ ex) (hex : ex.Nodup)
    (hin : ∀ j ∈ ex, 0 ≤ j ∧ j < N) :
    ((fsIndices N).filter (isValidCandidate (List.replicate n start) ex)).length + (ex.length + 1)
      = N := by
  have h1 := List.length_eq_length_filter_add (l := fsIndices N)
    (isValidCandidate (List.replicate n start) ex)
  have h2 : ((fsIndices N).filter
      (fun j => !isValidCandidate (List.replicate n start) ex j)).Perm (start :: ex) := by
    apply (List.perm_ext_iff_of_nodup ((fsIndices_nodup N).filter _)
      (List.nodup_cons.mpr ⟨hse, hex⟩)).mpr
    intro j
    have := isValid_replicate (start := start) (ex := ex) (j := j) hn
    simp only [List.mem_filter, mem_fsIndices, Bool.not_eq_true', List.mem_cons]
    rw [← Bool.not_eq_true, this]
    constructor
    · rintro ⟨_, h⟩
      by_contra hcon
      push Not at hcon
      exact h hcon
    · intro h
      refine ⟨?_, ?_⟩
      · rcases h with rfl | h
        · exact hstart
        · exact hin j h
      · rintro ⟨h3, h4⟩
        rcases h with h | h
        · exact h3 h
        · exact h4 h
  rw [length_fsIndices, h2.length_eq] at h1
  simpa using h1.symm

/-- There are never fewer candidates than slots. -/
theorem length_candidates_ge {N n : ℕ} (hn : 1 ≤ n) {start : ℤ} {ex : List ℤ} :
    N ≤ ((fsIndices N).filter (isValidCandidate (List.replicate n start) ex)).length
      + (ex.length + 1) := by
  have h1 := List.length_eq_length_filter_add (l := fsIndices N)
    (isValidCandidate (List.replicate n start) ex)
  have h2 : ((fsIndices N).filter
      (fun j => !isValidCandidate (List.replicate n start) ex j)).length ≤ (start :: ex).length := by
    apply List.Subperm.length_le
    apply List.Nodup.subperm ((fsIndices_nodup N).filter _)
    intro j hj
    have := isValid_replicate (start := start) (ex := ex) (j := j) hn
    simp only [List.mem_filter, Bool.not_eq_true'] at hj
    rw [← Bool.not_eq_true, this] at hj
    by_contra hcon
    simp only [List.mem_cons, not_or] at hcon
    exact hj.2 hcon
  rw [length_fsIndices] at h1
  simp only [List.length_cons] at h2
  omega

/-- A negative start index leaves one candidate too many. -/
theorem length_candidates_neg {N n : ℕ} (hn : 1 ≤ n) {start : ℤ} {ex : List ℤ}
    (hstart : start < 0) :
    N ≤ ((fsIndices N).filter (isValidCandidate (List.replicate n start) ex)).length
      + ex.length := by
  have h1 := List.length_eq_length_filter_add (l := fsIndices N)
    (isValidCandidate (List.replicate n start) ex)
  have h2 : ((fsIndices N).filter
      (fun j => !isValidCandidate (List.replicate n start) ex j)).length ≤ ex.length := by
    apply List.Subperm.length_le
    apply List.Nodup.subperm ((fsIndices_nodup N).filter _)
    intro j hj
    have := isValid_replicate (start := start) (ex := ex) (j := j) hn
    simp only [List.mem_filter, Bool.not_eq_true', mem_fsIndices] at hj
    rw [← Bool.not_eq_true, this] at hj
    by_contra hcon
    exact hj.2 ⟨by omega, hcon⟩
  rw [length_fsIndices] at h1
  omega

/-! ### The invariant -/

/-- Selected and candidate indices partition the admissible ones. -/
structure FSInv (Adm : ℤ → Prop) (sel : List ℤ) (q : List (ℤ × K)) : Prop where
  sel_nodup : sel.Nodup
  sel_adm : ∀ s ∈ sel, Adm s
  q_nodup : (q.map Prod.fst).Nodup
  q_mem : ∀ j, j ∈ q.map Prod.fst ↔ Adm j ∧ j ∉ sel

/-- Candidate values are the dissimilarity sums. -/
def FSVals (D : DMat K) (sel : List ℤ) (q : List (ℤ × K)) : Prop :=
  ∀ y ∈ q, y.2 = fsScore D sel y.1

/-- Symmetric dissimilarities. -/
def FSSymm (D : DMat K) : Prop :=
  ∀ i j : ℤ, 0 ≤ i → i < D.rows → 0 ≤ j → j < D.rows → D.get i j = D.get j i

theorem updateDistanceSums_fst (D : DMat K) (x : ℤ) (q : List (ℤ × K)) :
    (updateDistanceSums D x q).map Prod.fst = q.map Prod.fst := by
  simp [updateDistanceSums, Function.comp_def]

theorem FSInv.perm {Adm : ℤ → Prop} {sel sel' : List ℤ} {q : List (ℤ × K)} (h : FSInv Adm sel q)
    (hp : sel.Perm sel') : FSInv Adm sel' q :=
  ⟨hp.nodup_iff.mp h.sel_nodup, fun s hs => h.sel_adm s (hp.mem_iff.mpr hs), h.q_nodup,
    fun j => by rw [h.q_mem j, hp.mem_iff]⟩

/-- Picking: what one call of `_get_furthest_index` followed by `_update_distance_sums` does. -/
theorem pick_spec {Adm : ℤ → Prop} {D : DMat K} (hAdm : ∀ j, Adm j → 0 ≤ j ∧ j < D.rows) {sel : List ℤ} {q : List (ℤ × K)}
    (h : FSInv Adm sel q) (hq : q ≠ []) :
    ∃ x rest, getFurthestIndex q = Py.ok (x, rest) ∧ Adm x ∧ x ∉ sel ∧
      FSInv Adm (sel ++ [x]) (updateDistanceSums D x rest) ∧
      (updateDistanceSums D x rest).length + 1 = q.length ∧
      (FSVals D sel q → (∀ j, Adm j → j ∉ sel → fsScore D sel j ≤ fsScore D sel x)) ∧
      (FSSymm D → FSVals D sel q → FSVals D (sel ++ [x]) (updateDistanceSums D x rest)) := by
  obtain ⟨x, rest, hg, hperm, hmax⟩ := getFurthest_spec q hq
  have hxq : x ∈ q := hperm.mem_iff.mp (by simp)
  have hx1 : x.1 ∈ q.map Prod.fst := List.mem_map.mpr ⟨x, hxq, rfl⟩
  have hx := (h.q_mem x.1).mp hx1
  have hnd : ((rest ++ [x]).map Prod.fst).Nodup := (hperm.map _).nodup_iff.mpr h.q_nodup
  rw [List.map_append, List.map_singleton] at hnd
  have hnd' := List.nodup_append.mp hnd
  refine ⟨x.1, rest, hg, hx.1, hx.2, ?_, ?_, ?_, ?_⟩
  · refine ⟨?_, ?_, ?_, ?_⟩
    · rw [List.nodup_append]
      refine ⟨h.sel_nodup, by simp, ?_⟩
      intro a ha b hb hab
      rw [List.mem_singleton] at hb
      subst hb; subst hab
      exact hx.2 ha
    · intro s hs
      rcases List.mem_append.mp hs with hs | hs
      · exact h.sel_adm s hs
      · rw [List.mem_singleton.mp hs]; exact hx.1
    · rw [updateDistanceSums_fst]; exact hnd'.1
    · intro j
      rw [updateDistanceSums_fst, List.mem_append, List.mem_singleton, not_or]
      have hj : j ∈ q.map Prod.fst ↔ j ∈ rest.map Prod.fst ∨ j = x.1 := by
        rw [← (hperm.map Prod.fst).mem_iff]; simp
      have := h.q_mem j
      rw [hj] at this
      constructor
      · intro hjr
        have h2 := this.mp (Or.inl hjr)
        refine ⟨h2.1, h2.2, ?_⟩
        rintro rfl
        exact hnd'.2.2 _ hjr _ (List.mem_singleton.mpr rfl) rfl
      · rintro ⟨h1, h2, h3⟩
        rcases this.mpr ⟨h1, h2⟩ with h4 | h4
        · exact h4
        · exact absurd h4 h3
  · have := hperm.length_eq
    simp [updateDistanceSums] at this ⊢
    exact this
  · intro hv j hj1 hj2
    obtain ⟨y, hy, rfl⟩ := List.mem_map.mp ((h.q_mem j).mpr ⟨hj1, hj2⟩)
    rw [← hv y hy, ← hv x hxq]
    exact hmax y hy
  · intro hsym hv y hy
    simp only [updateDistanceSums, List.mem_map] at hy
    obtain ⟨z, hz, rfl⟩ := hy
    have hzq : z ∈ q := hperm.mem_iff.mp (by simp [hz])
    simp only
    have hz1 := hAdm z.1 ((h.q_mem z.1).mp (List.mem_map.mpr ⟨z, hzq, rfl⟩)).1
    have hx1 := hAdm x.1 hx.1
    rw [fsScore_append, fsScore_cons, fsScore_nil, ← hv z hzq,
      hsym x.1 z.1 hx1.1 hx1.2 hz1.1 hz1.2]
    ring

/-! ### The greedy loop -/

/-- What the greedy selection promises. -/
def Greedy (Adm : ℤ → Prop) (D : DMat K) (sel : List ℤ) : Prop :=
  ∀ i, 1 ≤ i → ∀ (hi : i < sel.length), ∀ j, Adm j → j ∉ sel.take i →
    fsScore D (sel.take i) j ≤ fsScore D (sel.take i) sel[i]

theorem set_replicate_append (p : List ℤ) (m : ℕ) (a x : ℤ) :
    (p ++ List.replicate (m + 1) a).set p.length x = (p ++ [x]) ++ List.replicate m a := by
  rw [List.set_append_right _ _ (le_refl _)]
  simp [List.replicate_succ]

theorem selectLoop_spec {Adm : ℤ → Prop} (D : DMat K)
    (hAdm : ∀ j, Adm j → 0 ≤ j ∧ j < D.rows) (start : ℤ) (m : ℕ) :
    ∀ (p : List ℤ) (q : List (ℤ × K)), p ≠ [] → FSInv Adm p q → m ≤ q.length →
      ∃ sel q', selectLoop D (List.range' p.length m) (p ++ List.replicate m start) q
          = Py.ok (sel, q') ∧
        FSInv Adm sel q' ∧ sel.length = p.length + m ∧ q'.length + m = q.length ∧
        sel.take p.length = p ∧
        (FSSymm D → FSVals D p q → Greedy Adm D p → FSVals D sel q' ∧ Greedy Adm D sel) := by
  induction m with
  | zero =>
    intro p q hp h _
    exact ⟨p, q, by simp [selectLoop], h, by simp, by simp, by simp, fun _ hv hg => ⟨hv, hg⟩⟩
  | succ m ih =>
    intro p q hp h hm
    have hq : q ≠ [] := by rintro rfl; simp at hm
    obtain ⟨x, rest, hg, hadm, hns, hinv, hlen, hgreedy, hvals⟩ := pick_spec (D := D) hAdm h hq
    obtain ⟨sel, q', hrun, h1, h2, h3, h4, h5⟩ :=
      ih (p ++ [x]) (updateDistanceSums D x rest) (by simp) hinv (by omega)
    refine ⟨sel, q', ?_, h1, by simpa [Nat.add_assoc, Nat.add_comm 1 m] using h2, by omega, ?_, ?_⟩
    · rw [List.range'_succ, selectLoop, hg, Py.ok_bind]
      simp only
      rw [set_replicate_append]
      have : (p ++ [x]).length = p.length + 1 := by simp
      rw [← this]
      exact hrun
    · have h4' := congrArg (List.take p.length) h4
      rw [List.take_take] at h4'
      simpa using h4'
    · intro hsym hv hgr
      refine h5 hsym (hvals hsym hv) ?_
      intro i hi1 hi2 j hj1 hj2
      have hl : (p ++ [x]).length = p.length + 1 := by simp
      rw [hl] at hi2
      rcases Nat.lt_or_ge i p.length with hlt | hge
      · have e1 : (p ++ [x]).take i = p.take i := by
          rw [List.take_append_of_le_length hlt.le]
        rw [e1] at hj2 ⊢
        rw [List.getElem_append_left hlt]
        exact hgr i hi1 hlt j hj1 hj2
      · have : i = p.length := by omega
        subst this
        have e1 : (p ++ [x]).take p.length = p := by simp
        rw [e1] at hj2 ⊢
        rw [List.getElem_append_right (le_refl _)]
        simpa using hgreedy hv j hj1 hj2

/-! ### The replacement loop -/

theorem foldl_ne (D : DMat K) (o : ℤ) (l : List ℤ) (acc : K) :
    l.foldl (fun acc index => if index ≠ o then acc + D.get o index else acc) acc =
      acc + fsScore D (l.filter (fun s => decide (s ≠ o))) o := by
  induction l generalizing acc with
  | nil => simp [fsScore]
  | cons a l ih =>
    rw [List.foldl_cons, ih]
    by_cases h : a = o
    · simp [h]
    · rw [if_pos h, List.filter_cons_of_pos (by simp [h]), fsScore_cons]
      ring

theorem perm_eraseIdx_cons {l : List ℤ} {u : ℕ} (hu : u < l.length) :
    l.Perm (l[u] :: l.eraseIdx u) := by
  have := List.getElem_cons_eraseIdx_perm hu
  exact this.symm

theorem set_perm_eraseIdx {l : List ℤ} {u : ℕ} (hu : u < l.length) (x : ℤ) :
    (l.set u x).Perm (l.eraseIdx u ++ [x]) := by
  have h1 : u < (l.set u x).length := by simpa using hu
  have h2 := perm_eraseIdx_cons h1
  rw [List.getElem_set_self, List.eraseIdx_set_eq] at h2
  exact h2.trans (List.perm_append_singleton _ _).symm

theorem filter_ne_perm {l : List ℤ} {u : ℕ} (hu : u < l.length) (hn : l.Nodup) :
    (l.filter (fun s => decide (s ≠ l[u]))).Perm (l.eraseIdx u) := by
  have h := perm_eraseIdx_cons hu
  have h2 := h.filter (fun s => decide (s ≠ l[u]))
  refine h2.trans ?_
  rw [List.filter_cons_of_neg (by simp)]
  have hnd : (l[u] :: l.eraseIdx u).Nodup := h.nodup_iff.mp hn
  have hni := (List.nodup_cons.mp hnd).1
  rw [List.filter_eq_self.mpr]
  intro a ha
  simp only [decide_eq_true_eq]
  rintro rfl
  exact hni ha

theorem replaceStep_spec {Adm : ℤ → Prop} (D : DMat K)
    (hAdm : ∀ j, Adm j → 0 ≤ j ∧ j < D.rows) {sel : List ℤ} {q : List (ℤ × K)} {n i : ℕ}
    (hn : sel.length = n) (hn1 : 1 ≤ n) (h : FSInv Adm sel q) :
    ∃ x q', replaceStep D n i sel q = Py.ok (sel.set (i % n) x, q') ∧
      Adm x ∧ x ∉ sel.eraseIdx (i % n) ∧
      FSInv Adm (sel.set (i % n) x) q' ∧
      (FSSymm D → FSVals D sel q →
        FSVals D (sel.set (i % n) x) q' ∧
        ∀ j, Adm j → j ∉ sel.eraseIdx (i % n) →
          fsScore D (sel.eraseIdx (i % n)) j ≤ fsScore D (sel.eraseIdx (i % n)) x) := by
  set u := i % n with hu
  have hul : u < sel.length := by rw [hn]; exact Nat.mod_lt _ hn1
  set o := sel[u] with ho
  have hgetD : sel.getD u 0 = o := by simp [List.getD_eq_getElem?_getD, hul, ho]
  have hpe := perm_eraseIdx_cons hul
  have hcons := hpe.nodup_iff.mp h.sel_nodup
  have honot : o ∉ sel.eraseIdx u := (List.nodup_cons.mp hcons).1
  set q1 : List (ℤ × K) := q.map fun qi => (qi.1, qi.2 - D.get qi.1 o) with hq1
  set q2 : List (ℤ × K) := q1 ++ [(o, fsScore D (sel.filter fun s => decide (s ≠ o)) o)] with hq2
  have hfst : q1.map Prod.fst = q.map Prod.fst := by simp [hq1, Function.comp_def]
  have hoq : o ∉ q.map Prod.fst := by
    rw [h.q_mem]; rintro ⟨_, h2⟩; exact h2 (List.getElem_mem hul)
  have hinv2 : FSInv Adm (sel.eraseIdx u) q2 := by
    refine ⟨(List.nodup_cons.mp hcons).2, ?_, ?_, ?_⟩
    · intro s hs
      exact h.sel_adm s (List.mem_of_mem_eraseIdx hs)
    · rw [hq2, List.map_append, hfst, List.nodup_append]
      refine ⟨h.q_nodup, by simp, ?_⟩
      intro a ha b hb hab
      simp only [List.map_cons, List.map_nil, List.mem_singleton] at hb
      subst hb; subst hab
      exact hoq ha
    · intro j
      rw [hq2, List.map_append, hfst, List.mem_append, h.q_mem]
      simp only [List.map_cons, List.map_nil, List.mem_singleton]
      have hj : j ∈ sel ↔ j = o ∨ j ∈ sel.eraseIdx u := by rw [hpe.mem_iff]; simp [ho]
      rw [hj]
      constructor
      · rintro (⟨h1, h2⟩ | rfl)
        · exact ⟨h1, fun h3 => h2 (Or.inr h3)⟩
        · exact ⟨h.sel_adm _ (List.getElem_mem hul), honot⟩
      · rintro ⟨h1, h2⟩
        by_cases hjo : j = o
        · exact Or.inr hjo
        · exact Or.inl ⟨h1, fun h3 => h3.elim hjo h2⟩
  obtain ⟨x, rest, hg, hadm, hns, hinv, -, hgreedy, hvals⟩ :=
    pick_spec (D := D) hAdm hinv2 (by simp [hq2])
  have hperm := set_perm_eraseIdx hul x
  refine ⟨x, updateDistanceSums D x rest, ?_, hadm, hns, hinv.perm hperm.symm, ?_⟩
  · unfold replaceStep
    simp only [← hu, hgetD]
    rw [foldl_ne, zero_add, ← hq1, ← hq2, hg]
    rfl
  · intro hsym hv
    have hv2 : FSVals D (sel.eraseIdx u) q2 := by
      intro y hy
      rcases List.mem_append.mp hy with hy | hy
      · simp only [hq1, List.mem_map] at hy
        obtain ⟨z, hz, rfl⟩ := hy
        simp only
        rw [hv z hz, fsScore_perm D hpe, fsScore_cons]
        ring
      · rw [List.mem_singleton.mp hy]
        exact fsScore_perm D (filter_ne_perm hul h.sel_nodup) o
    refine ⟨?_, hgreedy hv2⟩
    intro y hy
    rw [fsScore_perm D hperm]
    exact hvals hsym hv2 y hy

theorem replaceLoop_append (D : DMat K) (n : ℕ) (a b : List ℕ) (sel : List ℤ) (q : List (ℤ × K)) :
    replaceLoop D n (a ++ b) sel q =
      (replaceLoop D n a sel q >>= fun r => replaceLoop D n b r.1 r.2) := by
  induction a generalizing sel q with
  | nil => rfl
  | cons i a ih =>
    rw [List.cons_append, replaceLoop, replaceLoop]
    cases hs : replaceStep D n i sel q with
    | ok r => simp [ih]
    | raise e => simp
    | diverge => simp

theorem replaceLoop_spec {Adm : ℤ → Prop} (D : DMat K)
    (hAdm : ∀ j, Adm j → 0 ≤ j ∧ j < D.rows) {n : ℕ} (hn1 : 1 ≤ n) (is : List ℕ) :
    ∀ (sel : List ℤ) (q : List (ℤ × K)), sel.length = n → FSInv Adm sel q →
    ∃ sel' q', replaceLoop D n is sel q = Py.ok (sel', q') ∧ sel'.length = n ∧
      FSInv Adm sel' q' ∧ (FSSymm D → FSVals D sel q → FSVals D sel' q') := by
  induction is with
  | nil => intro sel q hl h; exact ⟨sel, q, rfl, hl, h, fun _ h => h⟩
  | cons i is ih =>
    intro sel q hl h
    obtain ⟨x, q1, hrun, -, -, hinv, hv⟩ := replaceStep_spec D hAdm (i := i) hl hn1 h
    obtain ⟨sel', q', hrun', hl', hinv', hv'⟩ := ih (sel.set (i % n) x) q1 (by simpa using hl) hinv
    refine ⟨sel', q', ?_, hl', hinv', fun hs hq => hv' hs (hv hs hq).1⟩
    rw [replaceLoop, hrun]
    simpa using hrun'

/-! ### The whole function -/

/-- Well-formed arguments. -/
structure FSArgs (D : DMat K) (n : ℕ) (start : ℤ) (ex : List ℤ) : Prop where
  square : D.rows = D.cols
  pos : 1 ≤ n
  start_nonneg : 0 ≤ start
  start_lt : start < D.rows
  start_not_excluded : start ∉ ex
  ex_nodup : ex.Nodup
  ex_range : ∀ j ∈ ex, 0 ≤ j ∧ j < D.rows
  enough : n + ex.length ≤ D.rows

/-- The admissible samples. -/
def FSAdm (D : DMat K) (ex : List ℤ) (j : ℤ) : Prop := (0 ≤ j ∧ j < D.rows) ∧ j ∉ ex

/-- State after the greedy loop. -/
theorem select_phase {D : DMat K} {n : ℕ} {start : ℤ} {ex : List ℤ} (h : FSArgs D n start ex) :
    ∃ sel q, sel.length = n ∧ FSInv (FSAdm D ex) sel q ∧ sel.take 1 = [start] ∧
      (FSSymm D → FSVals D sel q ∧ Greedy (FSAdm D ex) D sel) ∧
      ∀ e : ℤ, furthestSum D n start ex e =
        (replaceLoop D n (List.range e.toNat) sel q >>= fun r => Py.ok r.1) := by
  obtain ⟨hsq, hpos, hs0, hs1, hse, hnd, hrange, henough⟩ := h
  have hfil := length_candidates_of_wf (n := n) hpos ⟨hs0, hs1⟩ hse hnd hrange
  set cands := (fsIndices D.rows).filter (isValidCandidate (List.replicate n start) ex) with hcands
  set q0 : List (ℤ × K) := cands.map fun i => (i, D.get i start) with hq0
  have hfst : q0.map Prod.fst = cands := by simp [hq0, Function.comp_def]
  have hmemc : ∀ j, j ∈ cands ↔ FSAdm D ex j ∧ j ∉ [start] := by
    intro j
    have := isValid_replicate (start := start) (ex := ex) (j := j) hpos
    rw [hcands, List.mem_filter, this, mem_fsIndices, FSAdm, List.mem_singleton]
    tauto
  have hinv0 : FSInv (FSAdm D ex) [start] q0 := by
    refine ⟨by simp, ?_, ?_, ?_⟩
    · intro s hs
      rw [List.mem_singleton.mp hs]
      exact ⟨⟨hs0, hs1⟩, hse⟩
    · rw [hfst]; exact (fsIndices_nodup _).filter _
    · intro j; rw [hfst]; exact hmemc j
  have hvals0 : FSVals D [start] q0 := by
    intro y hy
    simp only [hq0, List.mem_map] at hy
    obtain ⟨z, _, rfl⟩ := hy
    simp [fsScore]
  have hlenq : q0.length = cands.length := by simp [hq0]
  obtain ⟨sel, q, hrun, hinv, hlen, -, htake, himp⟩ :=
    selectLoop_spec D (fun j hj => hj.1) start (n - 1) [start] q0 (by simp) hinv0 (by omega)
  refine ⟨sel, q, by simpa [Nat.add_sub_cancel' hpos] using hlen, hinv, by simpa using htake, ?_, ?_⟩
  · intro hsym
    refine himp hsym hvals0 ?_
    intro i hi1 hi2
    simp at hi2
    omega
  · intro e
    unfold furthestSum furthestSumImpl
    rw [if_neg (not_not.mpr hsq), if_neg (by omega)]
    simp only
    rw [if_neg (by omega), if_neg (by simpa using hse), if_neg (by omega), if_neg (by omega)]
    have hn' : ((n : ℤ)).toNat = n := by simp
    rw [hn']
    have hfill : fillCandidates D (List.replicate n start) ex start
        ((D.rows : ℤ) - ex.length - 1).toNat
        ((List.range D.rows).map fun (i : ℕ) => (i : ℤ)) [] = Py.ok q0 := by
      rw [fill_spec]
      have hidx : ((List.range D.rows).map fun (i : ℕ) => (i : ℤ)) = fsIndices D.rows := rfl
      rw [hidx, ← hcands, if_neg]
      · rw [if_neg (not_lt.mpr hs0)]; rfl
      · simp only [List.length_nil, zero_add]
        omega
    rw [hfill, Py.ok_bind, if_neg (by omega)]
    have hsel : List.replicate n start = [start] ++ List.replicate (n - 1) start := by
      obtain ⟨m, rfl⟩ : ∃ m, n = m + 1 := ⟨n - 1, by omega⟩
      simp [List.replicate_succ]
    rw [hsel]
    have hrun' : selectLoop D (List.range' 1 (n - 1)) ([start] ++ List.replicate (n - 1) start) q0
        = Py.ok (sel, q) := by simpa using hrun
    rw [hrun', Py.ok_bind]
    rfl

/-- One more extra step. -/
theorem extra_step {D : DMat K} {n : ℕ} {start : ℤ} {ex : List ℤ} (h : FSArgs D n start ex) (e : ℕ) :
    ∃ sel x, furthestSum D n start ex e = Py.ok sel ∧
      furthestSum D n start ex (e + 1 : ℕ) = Py.ok (sel.set (e % n) x) ∧
      sel.length = n ∧ sel.Nodup ∧ (∀ s ∈ sel, FSAdm D ex s) ∧
      FSAdm D ex x ∧ x ∉ sel.eraseIdx (e % n) ∧
      (FSSymm D → ∀ j, FSAdm D ex j → j ∉ sel.eraseIdx (e % n) →
          fsScore D (sel.eraseIdx (e % n)) j ≤ fsScore D (sel.eraseIdx (e % n)) x) := by
  obtain ⟨sel0, q0, hl0, hinv0, -, hv0, hrun⟩ := select_phase h
  obtain ⟨sel, q, hr, hl, hinv, hv⟩ :=
    replaceLoop_spec D (fun j hj => hj.1) h.pos (List.range e) sel0 q0 hl0 hinv0
  obtain ⟨x, q', hs, hadm, hnot, hinv', hg⟩ :=
    replaceStep_spec D (fun j hj => hj.1) (i := e) hl h.pos hinv
  refine ⟨sel, x, ?_, ?_, hl, hinv.sel_nodup, hinv.sel_adm, hadm, hnot, ?_⟩
  · rw [hrun e]
    simp [hr]
  · rw [hrun (e + 1 : ℕ)]
    simp only [Int.toNat_natCast]
    rw [List.range_succ, replaceLoop_append, hr]
    simp only [Py.ok_bind, replaceLoop, hs]
  · intro hsym
    exact (hg hsym (hv hsym (hv0 hsym).1)).2

/-- Total of the values of unordered pairs. -/
def fsPairs (D : DMat K) : List ℤ → K
  | [] => 0
  | a :: l => fsScore D l a + fsPairs D l

theorem fsPairs_perm {D : DMat K} (hsym : FSSymm D) {a b : List ℤ} (h : a.Perm b)
    (hr : ∀ s ∈ a, 0 ≤ s ∧ s < (D.rows : ℤ)) : fsPairs D a = fsPairs D b := by
  induction h with
  | nil => rfl
  | cons x h ih =>
    rw [fsPairs, fsPairs, fsScore_perm D h, ih fun s hs => hr s (List.mem_cons_of_mem _ hs)]
  | swap x y l =>
    simp only [fsPairs, fsScore_cons]
    have h1 := hr x (by simp)
    have h2 := hr y (by simp)
    rw [hsym x y h1.1 h1.2 h2.1 h2.2]
    ring
  | trans h1 _ ih1 ih2 =>
    rw [ih1 hr, ih2 fun s hs => hr s (h1.mem_iff.mpr hs)]

theorem extra_step_pairs {D : DMat K} {n : ℕ} {start : ℤ} {ex : List ℤ} (h : FSArgs D n start ex)
    (hsym : FSSymm D) (e : ℕ) :
    ∃ sel sel', furthestSum D n start ex e = Py.ok sel ∧
      furthestSum D n start ex (e + 1 : ℕ) = Py.ok sel' ∧ fsPairs D sel ≤ fsPairs D sel' := by
  obtain ⟨sel, x, h1, h2, hl, hnd, hadm, hx, hnot, hg⟩ := extra_step h e
  refine ⟨sel, _, h1, h2, ?_⟩
  have hu : e % n < sel.length := by rw [hl]; exact Nat.mod_lt _ h.pos
  have hp := perm_eraseIdx_cons hu
  have hp' : (sel.set (e % n) x).Perm (x :: sel.eraseIdx (e % n)) :=
    (set_perm_eraseIdx hu x).trans (List.perm_append_singleton _ _)
  rw [fsPairs_perm hsym hp fun s hs => (hadm s hs).1,
    fsPairs_perm hsym hp' (fun s hs => by
      rcases List.mem_cons.mp (hp'.mem_iff.mp hs) with rfl | hs
      · exact hx.1
      · exact (hadm s (List.mem_of_mem_eraseIdx hs)).1), fsPairs, fsPairs]
  have hcons := hp.nodup_iff.mp hnd
  have := hg hsym sel[e % n] (hadm _ (List.getElem_mem hu)) (List.nodup_cons.mp hcons).1
  linarith

end Reor
