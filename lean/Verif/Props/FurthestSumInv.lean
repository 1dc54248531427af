import Verif.Props.FurthestSum

/-!
Property C122: what the selection of `furthest_sum` depends on.  Nothing is assumed about the
symmetry of the matrix in the first part; relabelling the samples needs symmetry and the absence of
ties.
-/

set_option linter.unusedSectionVars false

namespace Reor

open Spec

variable {K : Type} [Field K] [LinearOrder K] [IsStrictOrderedRing K]

/-! ### Helpers -/

/-- Apply `v ↦ a v + c` to the values of the candidates. -/
def affVals (a c : K) (q : List (ℤ × K)) : List (ℤ × K) := q.map fun y => (y.1, a * y.2 + c)

theorem getFurthest_affVals {a c : K} (ha : 0 < a) (q : List (ℤ × K)) {x : ℤ}
    {rest : List (ℤ × K)} (h : getFurthestIndex q = Py.ok (x, rest)) :
    getFurthestIndex (affVals a c q) = Py.ok (x, affVals a c rest) := by
  unfold getFurthestIndex at h ⊢
  simp only at h ⊢
  have hs : (affVals a c q).mergeSort (fun u v => decide (u.2 ≤ v.2)) =
      affVals a c (q.mergeSort fun u v => decide (u.2 ≤ v.2)) := by
    refine (List.map_mergeSort ?_).symm
    intro u _ v _
    simp only [add_le_add_iff_right, decide_eq_decide]
    exact (mul_le_mul_iff_right₀ ha).symm
  rw [hs]
  generalize (q.mergeSort fun u v => decide (u.2 ≤ v.2)) = s at h
  rcases List.eq_nil_or_concat s with rfl | ⟨s', y, rfl⟩
  · simp at h
  · simp only [List.concat_eq_append, List.getLast?_append, List.getLast?_singleton,
      Option.some_or, List.dropLast_concat, Py.ok.injEq, Prod.mk.injEq] at h
    obtain ⟨rfl, rfl⟩ := h
    simp [affVals]

/-- The entries of `D'` between different samples with `Adm` are `a d + b`. -/
def FSAffine (Adm : ℤ → Prop) (D D' : DMat K) (a b : K) : Prop :=
  ∀ i j, Adm i → Adm j → i ≠ j → D'.get i j = a * D.get i j + b

theorem update_affVals {Adm : ℤ → Prop} {D D' : DMat K} {a b : K} (hD : FSAffine Adm D D' a b)
    {x : ℤ} (hx : Adm x) (c : K) (rest : List (ℤ × K))
    (hr : ∀ y ∈ rest, Adm y.1 ∧ y.1 ≠ x) :
    updateDistanceSums D' x (affVals a c rest) =
      affVals a (c + b) (updateDistanceSums D x rest) := by
  simp only [updateDistanceSums, affVals, List.map_map]
  apply List.map_congr_left
  intro y hy
  simp only [Function.comp]
  rw [hD x y.1 hx (hr y hy).1 (fun e => (hr y hy).2 e.symm)]
  congr 1
  ring

theorem pick_affine {Adm : ℤ → Prop} {D D' : DMat K} {a b : K} (ha : 0 < a)
    (hD : FSAffine Adm D D' a b) (hAdm : ∀ j, Adm j → 0 ≤ j ∧ j < D.rows) {sel : List ℤ}
    {q : List (ℤ × K)} (h : FSInv Adm sel q) (hq : q ≠ []) (c : K) :
    ∃ x rest, getFurthestIndex q = Py.ok (x, rest) ∧
      getFurthestIndex (affVals a c q) = Py.ok (x, affVals a c rest) ∧ Adm x ∧ x ∉ sel ∧
      FSInv Adm (sel ++ [x]) (updateDistanceSums D x rest) ∧
      (updateDistanceSums D x rest).length + 1 = q.length ∧
      updateDistanceSums D' x (affVals a c rest) =
        affVals a (c + b) (updateDistanceSums D x rest) := by
  obtain ⟨x, rest, hg, hadm, hns, hinv, hlen, -, -⟩ := pick_spec (D := D) hAdm h hq
  refine ⟨x, rest, hg, getFurthest_affVals ha q hg, hadm, hns, hinv, hlen,
    update_affVals hD hadm c rest ?_⟩
  intro y hy
  have h1 : y.1 ∈ (updateDistanceSums D x rest).map Prod.fst := by
    rw [updateDistanceSums_fst]; exact List.mem_map.mpr ⟨y, hy, rfl⟩
  have h2 := (hinv.q_mem y.1).mp h1
  exact ⟨h2.1, fun e => h2.2 (by simp [e])⟩

theorem selectLoop_affine {Adm : ℤ → Prop} {D D' : DMat K} {a b : K} (ha : 0 < a)
    (hD : FSAffine Adm D D' a b) (hAdm : ∀ j, Adm j → 0 ≤ j ∧ j < D.rows) (start : ℤ) (m : ℕ) :
    ∀ (p : List ℤ) (q : List (ℤ × K)), p ≠ [] → FSInv Adm p q → m ≤ q.length →
      ∃ sel q', selectLoop D (List.range' p.length m) (p ++ List.replicate m start) q
          = Py.ok (sel, q') ∧
        selectLoop D' (List.range' p.length m) (p ++ List.replicate m start)
            (affVals a (p.length * b) q) = Py.ok (sel, affVals a (sel.length * b) q') ∧
        FSInv Adm sel q' ∧ sel.length = p.length + m := by
  induction m with
  | zero =>
    intro p q hp h _
    exact ⟨p, q, by simp [selectLoop], by simp [selectLoop], h, by simp⟩
  | succ m ih =>
    intro p q hp h hm
    have hq : q ≠ [] := by rintro rfl; simp at hm
    obtain ⟨x, rest, hg, hg', hadm, hns, hinv, hlen, hupd⟩ :=
      pick_affine ha hD hAdm h hq (p.length * b)
    obtain ⟨sel, q', hrun, hrun', h1, h2⟩ :=
      ih (p ++ [x]) (updateDistanceSums D x rest) (by simp) hinv (by omega)
    have hl : (p ++ [x]).length = p.length + 1 := by simp
    refine ⟨sel, q', ?_, ?_, h1, by omega⟩
    · rw [List.range'_succ, selectLoop, hg, Py.ok_bind]
      simp only
      rw [set_replicate_append, ← hl]
      exact hrun
    · rw [List.range'_succ, selectLoop, hg', Py.ok_bind]
      simp only
      rw [set_replicate_append, hupd, ← hl]
      have e : (p.length : K) * b + b = ((p ++ [x]).length : K) * b := by
        rw [hl]; push_cast; ring
      rw [e]
      exact hrun'

theorem fsScore_affine {Adm : ℤ → Prop} {D D' : DMat K} {a b : K} (hD : FSAffine Adm D D' a b)
    {o : ℤ} (ho : Adm o) (l : List ℤ) (hl : ∀ s ∈ l, Adm s ∧ s ≠ o) :
    fsScore D' l o = a * fsScore D l o + l.length * b := by
  induction l with
  | nil => simp [fsScore]
  | cons s l ih =>
    have hs := hl s (by simp)
    rw [fsScore_cons, fsScore_cons, ih fun t ht => hl t (List.mem_cons_of_mem _ ht),
      hD o s ho hs.1 (fun e => hs.2 e.symm), List.length_cons]
    push_cast
    ring

theorem replaceStep_affine {Adm : ℤ → Prop} {D D' : DMat K} {a b : K} (ha : 0 < a)
    (hD : FSAffine Adm D D' a b) (hAdm : ∀ j, Adm j → 0 ≤ j ∧ j < D.rows) {sel : List ℤ}
    {q : List (ℤ × K)} {n i : ℕ} (hn : sel.length = n) (hn1 : 1 ≤ n) (h : FSInv Adm sel q) :
    ∃ x q', replaceStep D n i sel q = Py.ok (sel.set (i % n) x, q') ∧
      replaceStep D' n i sel (affVals a (n * b) q) =
        Py.ok (sel.set (i % n) x, affVals a (n * b) q') ∧
      FSInv Adm (sel.set (i % n) x) q' := by
  obtain ⟨x, q', hrun, hxa, hxn, hinv, -⟩ := replaceStep_spec D hAdm (i := i) hn hn1 h
  refine ⟨x, q', hrun, ?_, hinv⟩
  set u := i % n with hu
  have hul : u < sel.length := by rw [hn]; exact Nat.mod_lt _ hn1
  set o := sel[u] with ho
  have hgetD : sel.getD u 0 = o := by simp [List.getD_eq_getElem?_getD, hul, ho]
  have hoa : Adm o := h.sel_adm o (List.getElem_mem hul)
  have hfl := (filter_ne_perm hul h.sel_nodup).length_eq
  rw [List.length_eraseIdx_of_lt hul, hn] at hfl
  unfold replaceStep at hrun ⊢
  simp only [← hu, hgetD] at hrun ⊢
  rw [foldl_ne, zero_add] at hrun ⊢
  set q2 := (q.map fun qi => (qi.1, qi.2 - D.get qi.1 o)) ++
    [(o, fsScore D (sel.filter fun s => decide (s ≠ o)) o)] with hq2
  have hc : ((n - 1 : ℕ) : K) * b + b = n * b := by
    rw [Nat.cast_sub hn1]; push_cast; ring
  have e1 : ((affVals a (n * b) q).map fun qi => (qi.1, qi.2 - D'.get qi.1 o)) ++
      [(o, fsScore D' (sel.filter fun s => decide (s ≠ o)) o)] =
      affVals a ((n - 1 : ℕ) * b) q2 := by
    rw [hq2, affVals, affVals, List.map_append, List.map_map, List.map_map, List.map_singleton]
    congr 1
    · apply List.map_congr_left
      intro y hy
      have hy' := (h.q_mem y.1).mp (List.mem_map.mpr ⟨y, hy, rfl⟩)
      have hyo : y.1 ≠ o := fun e => hy'.2 (e ▸ List.getElem_mem hul)
      simp only [Function.comp]
      rw [hD y.1 o hy'.1 hoa hyo, ← hc]
      congr 1
      ring
    · rw [fsScore_affine hD hoa _ (by
        intro s hs
        rw [List.mem_filter] at hs
        exact ⟨h.sel_adm s hs.1, by simpa using hs.2⟩), hfl]
  rw [e1]
  cases hg : getFurthestIndex q2 with
  | raise e => rw [hg] at hrun; simp at hrun
  | diverge => rw [hg] at hrun; simp at hrun
  | ok r =>
    obtain ⟨x0, rest⟩ := r
    rw [hg] at hrun
    simp only [Py.ok_bind, Py.pure_eq, Py.ok.injEq, Prod.mk.injEq] at hrun
    obtain ⟨hset, hq'⟩ := hrun
    have hx0 : x0 = x := by
      have := congrArg (fun l : List ℤ => l[u]?) hset
      simpa [List.getElem?_set, hul] using this
    subst hx0
    rw [getFurthest_affVals ha q2 hg]
    simp only [Py.ok_bind, Py.pure_eq, Py.ok.injEq, Prod.mk.injEq, true_and]
    rw [update_affVals hD hxa, hq', hc]
    intro y hy
    have h1 : y.1 ∈ q'.map Prod.fst := by
      rw [← hq', updateDistanceSums_fst]; exact List.mem_map.mpr ⟨y, hy, rfl⟩
    have h2 := (hinv.q_mem y.1).mp h1
    refine ⟨h2.1, fun e => h2.2 ?_⟩
    rw [e]
    exact List.mem_set hul x0

theorem replaceLoop_affine {Adm : ℤ → Prop} {D D' : DMat K} {a b : K} (ha : 0 < a)
    (hD : FSAffine Adm D D' a b) (hAdm : ∀ j, Adm j → 0 ≤ j ∧ j < D.rows) {n : ℕ} (hn1 : 1 ≤ n)
    (is : List ℕ) :
    ∀ (sel : List ℤ) (q : List (ℤ × K)), sel.length = n → FSInv Adm sel q →
      ∃ sel' q', replaceLoop D n is sel q = Py.ok (sel', q') ∧
        replaceLoop D' n is sel (affVals a (n * b) q) = Py.ok (sel', affVals a (n * b) q') := by
  induction is with
  | nil => intro sel q hl h; exact ⟨sel, q, rfl, rfl⟩
  | cons i is ih =>
    intro sel q hl h
    obtain ⟨x, q1, hrun, hrun', hinv⟩ := replaceStep_affine ha hD hAdm (i := i) hl hn1 h
    obtain ⟨sel', q', h1, h2⟩ := ih (sel.set (i % n) x) q1 (by simpa using hl) hinv
    refine ⟨sel', q', ?_, ?_⟩
    · rw [replaceLoop, hrun]; simpa using h1
    · rw [replaceLoop, hrun']; simpa using h2

/-- The candidates before the greedy loop. -/
def fsInitial (D : DMat K) (n : ℕ) (start : ℤ) (ex : List ℤ) : List (ℤ × K) :=
  ((fsIndices D.rows).filter (isValidCandidate (List.replicate n start) ex)).map
    fun i => (i, D.get i start)

theorem fsInitial_inv {D : DMat K} {n : ℕ} {start : ℤ} {ex : List ℤ} (h : FSArgs D n start ex) :
    FSInv (FSAdm D ex) [start] (fsInitial D n start ex) ∧
      n - 1 ≤ (fsInitial D n start ex).length := by
  obtain ⟨hsq, hpos, hs0, hs1, hse, hnd, hrange, henough⟩ := h
  have hfil := length_candidates_of_wf (n := n) hpos ⟨hs0, hs1⟩ hse hnd hrange
  have hfst : (fsInitial D n start ex).map Prod.fst =
      (fsIndices D.rows).filter (isValidCandidate (List.replicate n start) ex) := by
    simp [fsInitial, Function.comp_def]
  refine ⟨⟨by simp, ?_, ?_, ?_⟩, ?_⟩
  · intro s hs
    rw [List.mem_singleton.mp hs]
    exact ⟨⟨hs0, hs1⟩, hse⟩
  · rw [hfst]; exact (fsIndices_nodup _).filter _
  · intro j
    rw [hfst]
    have := isValid_replicate (start := start) (ex := ex) (j := j) hpos
    rw [List.mem_filter, this, mem_fsIndices, FSAdm, List.mem_singleton]
    tauto
  · simp only [fsInitial, List.length_map]; omega

theorem furthestSum_run {D : DMat K} {n : ℕ} {start : ℤ} {ex : List ℤ} (h : FSArgs D n start ex)
    (e : ℤ) :
    furthestSum D n start ex e =
      (selectLoop D (List.range' 1 (n - 1)) ([start] ++ List.replicate (n - 1) start)
        (fsInitial D n start ex) >>= fun r =>
          replaceLoop D n (List.range e.toNat) r.1 r.2 >>= fun r => Py.ok r.1) := by
  obtain ⟨hsq, hpos, hs0, hs1, hse, hnd, hrange, henough⟩ := h
  have hfil := length_candidates_of_wf (n := n) hpos ⟨hs0, hs1⟩ hse hnd hrange
  have hlen : (fsInitial D n start ex).length =
    ((fsIndices D.rows).filter (isValidCandidate (List.replicate n start) ex)).length := by
    simp [fsInitial]
  unfold furthestSum furthestSumImpl
  rw [if_neg (not_not.mpr hsq), if_neg (by omega)]
  simp only
  rw [if_neg (by omega), if_neg (by simpa using hse), if_neg (by omega), if_neg (by omega)]
  have hn' : ((n : ℤ)).toNat = n := by simp
  rw [hn']
  have hfill : fillCandidates D (List.replicate n start) ex start
      ((D.rows : ℤ) - ex.length - 1).toNat
      ((List.range D.rows).map fun (i : ℕ) => (i : ℤ)) [] = Py.ok (fsInitial D n start ex) := by
    rw [fill_spec]
    have hidx : ((List.range D.rows).map fun (i : ℕ) => (i : ℤ)) = fsIndices D.rows := rfl
    rw [hidx, if_neg]
    · rw [if_neg (not_lt.mpr hs0)]; rfl
    · simp only [List.length_nil, zero_add]
      omega
  rw [hfill, Py.ok_bind, if_neg (by omega)]
  have hsel : List.replicate n start = [start] ++ List.replicate (n - 1) start := by
    obtain ⟨m, rfl⟩ : ∃ m, n = m + 1 := ⟨n - 1, by omega⟩
    simp [List.replicate_succ]
  rw [hsel]
  rfl

/-! ### The selection depends on the order of the dissimilarities only through sums -/

/-- C122, affine changes.  Let `D'` have the shape of `D`, and let its entry at two different
samples, neither of them excluded, be `a d + b` where `d` is the entry of `D` and `a > 0`.  Then
`furthest_sum` selects the same samples in the same order, for every number of extra steps.  The
diagonal, and everything in the rows and columns of excluded samples, may be anything. -/
theorem C122_furthest_sum_affine {D D' : DMat K} {n : ℕ} {start : ℤ} {exclude : List ℤ}
    (h : FSArgs D n start exclude) (hrows : D'.rows = D.rows) (hcols : D'.cols = D.cols)
    {a b : K} (ha : 0 < a)
    (hD : ∀ i j : ℤ, 0 ≤ i → i < D.rows → i ∉ exclude → 0 ≤ j → j < D.rows → j ∉ exclude → i ≠ j →
      D'.get i j = a * D.get i j + b) (extraSteps : ℤ) :
    furthestSum D' n start exclude extraSteps = furthestSum D n start exclude extraSteps := by
  have h' : FSArgs D' n start exclude :=
    ⟨by rw [hrows, hcols]; exact h.square, h.pos, h.start_nonneg, by rw [hrows]; exact h.start_lt,
      h.start_not_excluded, h.ex_nodup, by rw [hrows]; exact h.ex_range,
      by rw [hrows]; exact h.enough⟩
  have hA : FSAffine (FSAdm D exclude) D D' a b := fun i j hi hj hne =>
    hD i j hi.1.1 hi.1.2 hi.2 hj.1.1 hj.1.2 hj.2 hne
  have hAdm : ∀ j, FSAdm D exclude j → 0 ≤ j ∧ j < D.rows := fun j hj => hj.1
  obtain ⟨hinv, hlen⟩ := fsInitial_inv h
  have hinit : fsInitial D' n start exclude = affVals a ([start].length * b)
      (fsInitial D n start exclude) := by
    rw [fsInitial, affVals, fsInitial, List.map_map, hrows]
    apply List.map_congr_left
    intro j hj
    have hj' := (hinv.q_mem j).mp (List.mem_map.mpr ⟨(j, D.get j start), by
      simp only [fsInitial]
      exact List.mem_map.mpr ⟨j, hj, rfl⟩, rfl⟩)
    simp only [Function.comp]
    rw [hA j start hj'.1 (hinv.sel_adm start (by simp)) (by simpa using hj'.2)]
    simp
  obtain ⟨sel, q, hs, hs', hinv1, hl⟩ :=
    selectLoop_affine ha hA hAdm start (n - 1) [start] _ (by simp) hinv hlen
  have hl' : sel.length = n := by
    have := h.pos
    simp only [List.length_singleton] at hl
    omega
  obtain ⟨sel', q', hr, hr'⟩ :=
    replaceLoop_affine ha hA hAdm h.pos (List.range extraSteps.toNat) sel q hl' hinv1
  rw [furthestSum_run h, furthestSum_run h', hinit]
  simp only [List.length_singleton] at hs hs'
  rw [hl'] at hs'
  rw [hs, List.length_singleton, hs']
  simp only [Py.ok_bind]
  rw [hr, hr']
  rfl

/-- C122, excluded samples.  Two matrices that agree at pairs of different samples that are not
excluded give the same selection. -/
theorem C122_furthest_sum_excluded_irrelevant {D D' : DMat K} {n : ℕ} {start : ℤ}
    {exclude : List ℤ} (h : FSArgs D n start exclude) (hrows : D'.rows = D.rows)
    (hcols : D'.cols = D.cols)
    (hD : ∀ i j : ℤ, 0 ≤ i → i < D.rows → i ∉ exclude → 0 ≤ j → j < D.rows → j ∉ exclude → i ≠ j →
      D'.get i j = D.get i j) (extraSteps : ℤ) :
    furthestSum D' n start exclude extraSteps = furthestSum D n start exclude extraSteps :=
  C122_furthest_sum_affine h hrows hcols one_pos (b := 0)
    (fun i j h1 h2 h3 h4 h5 h6 h7 => by rw [hD i j h1 h2 h3 h4 h5 h6 h7]; ring) extraSteps

/-! ### Relabelling the samples -/

/-- No two candidates are ever at the same total dissimilarity from a nonempty selection. -/
def NoTies (D : DMat K) (exclude : List ℤ) : Prop :=
  ∀ l : List ℤ, l ≠ [] → l.Nodup → (∀ s ∈ l, (0 ≤ s ∧ s < D.rows) ∧ s ∉ exclude) →
    ∀ i j : ℤ, (0 ≤ i ∧ i < D.rows) ∧ i ∉ exclude → (0 ≤ j ∧ j < D.rows) ∧ j ∉ exclude →
      i ∉ l → j ∉ l → sumTo D.get l i = sumTo D.get l j → i = j

/-- `D'` is `D` with the samples renamed by `π`. -/
structure Relabels (π : ℤ → ℤ) (D D' : DMat K) (exclude exclude' : List ℤ) : Prop where
  rows : D'.rows = D.rows
  cols : D'.cols = D.cols
  inj : ∀ i j : ℤ, 0 ≤ i → i < D.rows → 0 ≤ j → j < D.rows → π i = π j → i = j
  range : ∀ i : ℤ, 0 ≤ i → i < D.rows → 0 ≤ π i ∧ π i < D.rows
  excl : (exclude.map π).Perm exclude'
  entry : ∀ i j : ℤ, 0 ≤ i → i < D.rows → 0 ≤ j → j < D.rows → D'.get (π i) (π j) = D.get i j

theorem Relabels.surj {π : ℤ → ℤ} {D D' : DMat K} {ex ex' : List ℤ} (h : Relabels π D D' ex ex')
    {j : ℤ} (h0 : 0 ≤ j) (h1 : j < D.rows) : ∃ i, (0 ≤ i ∧ i < (D.rows : ℤ)) ∧ π i = j := by
  have hnd : ((fsIndices D.rows).map π).Nodup := by
    refine List.Nodup.map_on ?_ (fsIndices_nodup _)
    intro a ha b hb hab
    rw [mem_fsIndices] at ha hb
    exact h.inj a b ha.1 ha.2 hb.1 hb.2 hab
  have hsub : (fsIndices D.rows).map π ⊆ fsIndices D.rows := by
    intro x hx
    obtain ⟨i, hi, rfl⟩ := List.mem_map.mp hx
    rw [mem_fsIndices] at hi ⊢
    exact h.range i hi.1 hi.2
  have hperm := (hnd.subperm hsub).perm_of_length_le (by simp)
  have := hperm.mem_iff.mpr (mem_fsIndices.mpr ⟨h0, h1⟩)
  obtain ⟨i, hi, rfl⟩ := List.mem_map.mp this
  exact ⟨i, mem_fsIndices.mp hi, rfl⟩

theorem Relabels.excl_iff {π : ℤ → ℤ} {D D' : DMat K} {ex ex' : List ℤ}
    (h : Relabels π D D' ex ex') (hex : ∀ j ∈ ex, 0 ≤ j ∧ j < (D.rows : ℤ)) {i : ℤ} (h0 : 0 ≤ i)
    (h1 : i < D.rows) : π i ∈ ex' ↔ i ∈ ex := by
  rw [← h.excl.mem_iff, List.mem_map]
  constructor
  · rintro ⟨j, hj, e⟩
    rwa [← h.inj j i (hex j hj).1 (hex j hj).2 h0 h1 e]
  · intro hi; exact ⟨i, hi, rfl⟩

theorem Relabels.sumTo {π : ℤ → ℤ} {D D' : DMat K} {ex ex' : List ℤ}
    (h : Relabels π D D' ex ex') (l : List ℤ) (hl : ∀ s ∈ l, 0 ≤ s ∧ s < (D.rows : ℤ)) {i : ℤ}
    (h0 : 0 ≤ i) (h1 : i < D.rows) : sumTo D'.get (l.map π) (π i) = sumTo D.get l i := by
  unfold Spec.sumTo
  rw [List.map_map]
  congr 1
  apply List.map_congr_left
  intro s hs
  exact h.entry i s h0 h1 (hl s hs).1 (hl s hs).2

theorem Relabels.args {π : ℤ → ℤ} {D D' : DMat K} {ex ex' : List ℤ}
    (h : Relabels π D D' ex ex') {n : ℕ} {start : ℤ} (ha : FSArgs D n start ex) :
    FSArgs D' n (π start) ex' where
  square := by rw [h.rows, h.cols]; exact ha.square
  pos := ha.pos
  start_nonneg := (h.range _ ha.start_nonneg ha.start_lt).1
  start_lt := by rw [h.rows]; exact (h.range _ ha.start_nonneg ha.start_lt).2
  start_not_excluded := by
    rw [h.excl_iff ha.ex_range ha.start_nonneg ha.start_lt]; exact ha.start_not_excluded
  ex_nodup := by
    rw [← h.excl.nodup_iff]
    refine List.Nodup.map_on ?_ ha.ex_nodup
    intro a haa b hb hab
    exact h.inj a b (ha.ex_range a haa).1 (ha.ex_range a haa).2 (ha.ex_range b hb).1
      (ha.ex_range b hb).2 hab
  ex_range := by
    intro j hj
    rw [← h.excl.mem_iff] at hj
    obtain ⟨i, hi, rfl⟩ := List.mem_map.mp hj
    rw [h.rows]
    exact h.range i (ha.ex_range i hi).1 (ha.ex_range i hi).2
  enough := by
    rw [h.rows, ← h.excl.length_eq, List.length_map]; exact ha.enough

theorem Relabels.symm' {π : ℤ → ℤ} {D D' : DMat K} {ex ex' : List ℤ}
    (h : Relabels π D D' ex ex') (hs : FSSymm D) : FSSymm D' := by
  intro i j hi0 hi1 hj0 hj1
  rw [h.rows] at hi1 hj1
  obtain ⟨i', hi', rfl⟩ := h.surj hi0 hi1
  obtain ⟨j', hj', rfl⟩ := h.surj hj0 hj1
  rw [h.entry i' j' hi'.1 hi'.2 hj'.1 hj'.2, h.entry j' i' hj'.1 hj'.2 hi'.1 hi'.2]
  exact hs i' j' hi'.1 hi'.2 hj'.1 hj'.2

/-- C122, relabelling.  If the dissimilarities are symmetric and there are no ties, renaming the
samples renames the selection: `furthest_sum` applied to the renamed matrix, start index and
exclusions (these in any order) gives the renamed samples, in the same order.  So the order in which
the samples are stored has no influence. -/
theorem C122_furthest_sum_relabel {D D' : DMat K} {n : ℕ} {start : ℤ} {exclude exclude' : List ℤ}
    (h : FSArgs D n start exclude) (hsym : FSSymm D) (hties : NoTies D exclude) {π : ℤ → ℤ}
    (hπ : Relabels π D D' exclude exclude') (extraSteps : ℤ) :
    ∃ sel, furthestSum D n start exclude extraSteps = Py.ok sel ∧
      furthestSum D' n (π start) exclude' extraSteps = Py.ok (sel.map π) := by
  have h' := hπ.args h
  have hsym' := hπ.symm' hsym
  rcases Nat.lt_or_ge 1 n with hn | hn
  swap
  · obtain rfl : n = 1 := le_antisymm hn h.pos
    exact ⟨[start], C15_single_component h hsym _, C15_single_component h' hsym' _⟩
  -- an index of `D'` that is not excluded is the image of one of `D`
  have pull : ∀ j' : ℤ, 0 ≤ j' → j' < D'.rows → j' ∉ exclude' →
      ∃ j, ((0 ≤ j ∧ j < (D.rows : ℤ)) ∧ j ∉ exclude) ∧ π j = j' := by
    intro j' h0 h1 h2
    rw [hπ.rows] at h1
    obtain ⟨j, hj, rfl⟩ := hπ.surj h0 h1
    exact ⟨j, ⟨hj, fun hc => h2 ((hπ.excl_iff h.ex_range hj.1 hj.2).mpr hc)⟩, rfl⟩
  have push : ∀ j : ℤ, (0 ≤ j ∧ j < (D.rows : ℤ)) ∧ j ∉ exclude →
      0 ≤ π j ∧ π j < D'.rows ∧ π j ∉ exclude' := by
    intro j hj
    have := hπ.range j hj.1.1 hj.1.2
    exact ⟨this.1, by rw [hπ.rows]; exact this.2,
      fun hc => hj.2 ((hπ.excl_iff h.ex_range hj.1.1 hj.1.2).mp hc)⟩
  have memmap : ∀ (l : List ℤ), (∀ s ∈ l, (0 ≤ s ∧ s < (D.rows : ℤ)) ∧ s ∉ exclude) → ∀ j : ℤ,
      0 ≤ j → j < D.rows → (π j ∈ l.map π ↔ j ∈ l) := by
    intro l hl j h0 h1
    rw [List.mem_map]
    constructor
    · rintro ⟨s, hs, e⟩
      rwa [← hπ.inj s j (hl s hs).1.1 (hl s hs).1.2 h0 h1 e]
    · intro hj; exact ⟨j, hj, rfl⟩
  -- uniqueness of the best candidate
  have uniq : ∀ (l : List ℤ), l ≠ [] → l.Nodup →
      (∀ s ∈ l, (0 ≤ s ∧ s < (D.rows : ℤ)) ∧ s ∉ exclude) → ∀ x x' : ℤ,
      (0 ≤ x ∧ x < (D.rows : ℤ)) ∧ x ∉ exclude → x ∉ l →
      (∀ j, 0 ≤ j → j < (D.rows : ℤ) → j ∉ exclude → j ∉ l →
        sumTo D.get l j ≤ sumTo D.get l x) →
      0 ≤ x' → x' < D'.rows → x' ∉ exclude' → x' ∉ l.map π →
      (∀ j, 0 ≤ j → j < (D'.rows : ℤ) → j ∉ exclude' → j ∉ l.map π →
        sumTo D'.get (l.map π) j ≤ sumTo D'.get (l.map π) x') → x' = π x := by
    intro l hne hnd hl x x' hx hxl hbest h0 h1 h2 h3 hbest'
    obtain ⟨y, hy, rfl⟩ := pull x' h0 h1 h2
    have hyl : y ∉ l := fun hc => h3 ((memmap l hl y hy.1.1 hy.1.2).mpr hc)
    have px := push x hx
    have e1 := hbest y hy.1.1 hy.1.2 hy.2 hyl
    have e2 := hbest' (π x) px.1 px.2.1 px.2.2
      (fun hc => hxl ((memmap l hl x hx.1.1 hx.1.2).mp hc))
    rw [hπ.sumTo l (fun s hs => (hl s hs).1) hx.1.1 hx.1.2,
      hπ.sumTo l (fun s hs => (hl s hs).1) hy.1.1 hy.1.2] at e2
    rw [hties l hne hnd hl x y hx hy hxl hyl (le_antisymm e2 e1)]
  have hnat : ∀ (D : DMat K) (start : ℤ) (ex : List ℤ), FSArgs D n start ex → ∀ z : ℤ,
      furthestSum D n start ex z = furthestSum D n start ex z.toNat := by
    intro D start ex h z
    obtain ⟨_, _, _, _, _, _, hrun⟩ := select_phase h
    rw [hrun z, hrun z.toNat, Int.toNat_natCast]
  have key : ∀ e : ℕ, ∃ sel, furthestSum D n start exclude (e : ℕ) = Py.ok sel ∧
      furthestSum D' n (π start) exclude' (e : ℕ) = Py.ok (sel.map π) := by
    intro e
    induction e with
    | zero =>
      obtain ⟨sel, hr, hl, hhead, hg⟩ := C12_furthest_sum_greedy h hsym
      obtain ⟨sel', hr', hl', hhead', hg'⟩ := C12_furthest_sum_greedy h' hsym'
      obtain ⟨t, ht, -, hnd, hadm⟩ := C11_furthest_sum_distinct h 0
      obtain rfl : sel = t := by rw [hr] at ht; simpa using ht
      obtain ⟨t', ht', -, hnd', hadm'⟩ := C11_furthest_sum_distinct h' 0
      obtain rfl : sel' = t' := by rw [hr'] at ht'; simpa using ht'
      refine ⟨sel, hr, ?_⟩
      have hA : ∀ s ∈ sel, (0 ≤ s ∧ s < (D.rows : ℤ)) ∧ s ∉ exclude :=
        fun s hs => ⟨⟨(hadm s hs).1, (hadm s hs).2.1⟩, (hadm s hs).2.2⟩
      have notTake : ∀ (l : List ℤ), l.Nodup → ∀ i (hi : i < l.length), l[i] ∉ l.take i := by
        intro l hl i hi hc
        rw [List.mem_take_iff_getElem] at hc
        obtain ⟨k, hk, e⟩ := hc
        have := (List.Nodup.getElem_inj_iff hl).mp e
        omega
      have htake : ∀ i, i ≤ n → sel'.take i = (sel.take i).map π := by
        intro i
        induction i with
        | zero => intro _; simp
        | succ i ih =>
          intro hi
          have hi1 : i < sel.length := by omega
          have hi2 : i < sel'.length := by omega
          rw [List.take_succ_eq_append_getElem hi1, List.take_succ_eq_append_getElem hi2,
            ih (by omega), List.map_append, List.map_singleton]
          congr 2
          rcases Nat.eq_zero_or_pos i with rfl | hpos
          · have e1 : sel[0] = start := by
              rw [List.head?_eq_getElem?, List.getElem?_eq_getElem hi1] at hhead
              exact Option.some.inj hhead
            have e2 : sel'[0] = π start := by
              rw [List.head?_eq_getElem?, List.getElem?_eq_getElem hi2] at hhead'
              exact Option.some.inj hhead'
            rw [e1, e2]
          · have hb' := hg' i hpos hi2
            have nt' := notTake sel' hnd' i hi2
            rw [ih (by omega)] at hb' nt'
            have ha' := hadm' sel'[i] (List.getElem_mem hi2)
            refine uniq (sel.take i) ?_ (hnd.sublist (List.take_sublist _ _))
              (fun s hs => hA s (List.mem_of_mem_take hs)) sel[i] sel'[i]
              (hA _ (List.getElem_mem hi1)) (notTake sel hnd i hi1) (hg i hpos hi1) ha'.1 ha'.2.1
              ha'.2.2 nt' hb'
            intro hc
            have := congrArg List.length hc
            rw [List.length_take, List.length_nil] at this
            omega
      have := htake n le_rfl
      rw [List.take_of_length_le hl'.le, List.take_of_length_le hl.le] at this
      rw [← this]
      exact hr'
    | succ e ih =>
      obtain ⟨s0, h0, h0'⟩ := ih
      obtain ⟨sel, x, h1, h2, hx, hg⟩ := C12_furthest_sum_replacement h hsym e
      obtain ⟨sel', x', h1', h2', hx', hg'⟩ := C12_furthest_sum_replacement h' hsym' e
      obtain rfl : s0 = sel := by rw [h0] at h1; simpa using h1
      obtain rfl : s0.map π = sel' := by rw [h0'] at h1'; simpa using h1'
      obtain ⟨t, ht, hl, hnd, hadm⟩ := C11_furthest_sum_distinct h (e : ℕ)
      obtain rfl : s0 = t := by rw [h0] at ht; simpa using ht
      have hA : ∀ s ∈ s0, (0 ≤ s ∧ s < (D.rows : ℤ)) ∧ s ∉ exclude :=
        fun s hs => ⟨⟨(hadm s hs).1, (hadm s hs).2.1⟩, (hadm s hs).2.2⟩
      have hu : e % n < s0.length := by rw [hl]; exact Nat.mod_lt _ h.pos
      refine ⟨s0.set (e % n) x, h2, ?_⟩
      rw [List.eraseIdx_map] at hx' hg'
      have hxx : x' = π x := by
        refine uniq (s0.eraseIdx (e % n)) ?_ (hnd.sublist (List.eraseIdx_sublist _ _))
          (fun s hs => hA s (List.mem_of_mem_eraseIdx hs)) x x' ⟨⟨hx.1, hx.2.1⟩, hx.2.2.1⟩
          hx.2.2.2 hg hx'.1 hx'.2.1 hx'.2.2.1 hx'.2.2.2 hg'
        intro hc
        have := congrArg List.length hc
        rw [List.length_eraseIdx_of_lt hu] at this
        simp at this
        omega
      rw [h2', hxx, List.map_set]
  rw [hnat D start exclude h, hnat D' (π start) exclude' h']
  exact key _

/-! ### Ties, and examples -/

/-- Three samples, all at the same distance from each other. -/
def fsTies : DMat ℚ := { rows := 3, cols := 3, get := fun i j => if i = j then 0 else 1 }

/-- C122.  With ties the order of the samples does matter: with three samples at equal distances,
exchanging the names of samples 1 and 2 changes nothing in the matrix, so the selection stays
`[0, 2]`, which is not the renamed selection `[0, 1]`. -/
theorem C122_furthest_sum_relabel_needs_no_ties :
    ∃ (D : DMat ℚ) (π : ℤ → ℤ), FSArgs D 2 0 [] ∧ FSSymm D ∧ Relabels π D D [] [] ∧
      π 0 = 0 ∧
      ∃ sel, furthestSum D 2 0 [] 0 = Py.ok sel ∧ furthestSum D 2 (π 0) [] 0 = Py.ok sel ∧
        sel ≠ sel.map π := by
  have hrun : furthestSum fsTies 2 0 [] 0 = Py.ok [0, 2] := by
    have hfill : fillCandidates fsTies [0, 0] [] 0 2 [0, 1, 2] [] =
        Py.ok ([(1, 1)] ++ [((2 : ℤ), (1 : ℚ))]) := by
      simp [fillCandidates, isValidCandidate, fsTies]
    have hpick : getFurthestIndex ([(1, 1)] ++ [((2 : ℤ), (1 : ℚ))]) = Py.ok (2, [(1, 1)]) :=
      getFurthest_const _ _ 1 (by simp) rfl
    have hidx : ((List.range fsTies.rows).map fun (i : ℕ) => (i : ℤ)) = [0, 1, 2] := by
      decide
    have hcap : ((fsTies.rows : ℤ) - (([] : List ℤ).length : ℤ) - 1).toNat = 2 := by decide
    unfold furthestSum furthestSumImpl
    rw [if_neg (by decide), if_neg (by decide)]
    simp only
    rw [if_neg (by decide), if_neg (by decide), if_neg (by decide), if_neg (by decide), hidx, hcap]
    change (fillCandidates fsTies [0, 0] [] 0 2 [0, 1, 2] [] >>= _) = _
    rw [hfill, Py.ok_bind, if_neg (by decide)]
    change (selectLoop fsTies [1] [0, 0] _ >>= _) = _
    rw [selectLoop, hpick]
    simp [selectLoop, replaceLoop]
  refine ⟨fsTies, fun i => if i = 1 then 2 else if i = 2 then 1 else i,
    ⟨rfl, by norm_num, by norm_num, by norm_num [fsTies], by simp, by simp, by simp,
      by norm_num [fsTies]⟩, ?_, ⟨rfl, rfl, ?_, ?_, by simp, ?_⟩, by simp, [0, 2], hrun, ?_, ?_⟩
  · intro i j _ _ _ _
    simp only [fsTies, eq_comm]
  · intro i j _ _ _ _ h
    try simp only at h
    split_ifs at h <;> omega
  · intro i h0 h1
    have : i < 3 := h1
    change 0 ≤ (if i = 1 then (2 : ℤ) else if i = 2 then 1 else i) ∧
      (if i = 1 then (2 : ℤ) else if i = 2 then 1 else i) < 3
    split_ifs <;> omega
  · intro i j _ _ _ _
    simp only [fsTies]
    congr 1
    simp only [eq_iff_iff]
    split_ifs <;> omega
  · simpa using hrun
  · simp

/-- The hypotheses of the relabelling statement: the points 0, 1, 5, 7 with sample 2 excluded have
no ties. -/
example : NoTies fsExample [2] := by
  intro l hne hnd hl i j hi hj hil hjl e
  have hr : ∀ s : ℤ, (0 ≤ s ∧ s < (fsExample.rows : ℤ)) ∧ s ∉ [2] → s = 0 ∨ s = 1 ∨ s = 3 := by
    intro s hs
    have h1 : s < 4 := hs.1.2
    have h2 : s ≠ 2 := by simpa using hs.2
    omega
  by_contra hij
  have hi' := hr i hi
  have hj' := hr j hj
  have hl' : ∀ s ∈ l, s = 0 ∨ s = 1 ∨ s = 3 := fun s hs => hr s (hl s hs)
  -- only one sample is left for the list
  obtain ⟨a, ha⟩ : ∃ a, ∀ s ∈ l, s = a := by
    by_cases hk : i + j = 1
    · exact ⟨3, fun s hs => by
        have := hl' s hs
        have h1 : s ≠ i := fun e => hil (e ▸ hs)
        have h2 : s ≠ j := fun e => hjl (e ▸ hs)
        omega⟩
    · by_cases hk' : i + j = 3
      · exact ⟨1, fun s hs => by
          have := hl' s hs
          have h1 : s ≠ i := fun e => hil (e ▸ hs)
          have h2 : s ≠ j := fun e => hjl (e ▸ hs)
          omega⟩
      · exact ⟨0, fun s hs => by
          have := hl' s hs
          have h1 : s ≠ i := fun e => hil (e ▸ hs)
          have h2 : s ≠ j := fun e => hjl (e ▸ hs)
          omega⟩
  match l, hne, hnd, ha, hl', hil, hjl, e with
  | [s], _, _, _, hl', hil, hjl, e =>
    have hs := hl' s (by simp)
    simp only [List.mem_singleton] at hil hjl
    simp only [Spec.sumTo, fsExample, List.map_cons, List.map_nil, List.sum_cons, List.sum_nil] at e
    rcases hs with rfl | rfl | rfl <;> rcases hi' with rfl | rfl | rfl <;>
      rcases hj' with rfl | rfl | rfl <;> first | omega | (norm_num at e)
  | s :: t :: l, _, hnd, ha, _, _, _, _ =>
    have h1 := ha s (by simp)
    have h2 := ha t (by simp)
    rw [h1, h2] at hnd
    simp at hnd

/-- A relabelling of that matrix: samples 0 and 3 exchanged. -/
example : Relabels (fun i => if i = 0 then 3 else if i = 3 then 0 else i) fsExample
    { rows := 4, cols := 4
      get := fun i j =>
        let p : ℤ → ℚ := fun i => if i = 0 then 7 else if i = 1 then 1 else if i = 2 then 5 else 0
        (p i - p j) ^ 2 } [2] [2] := by
  refine ⟨rfl, rfl, ?_, ?_, by simp, ?_⟩
  · intro i j _ _ _ _ h
    try simp only at h
    split_ifs at h <;> omega
  · intro i h0 h1
    have : i < 4 := h1
    change 0 ≤ (if i = 0 then (3 : ℤ) else if i = 3 then 0 else i) ∧
      (if i = 0 then (3 : ℤ) else if i = 3 then 0 else i) < 4
    split_ifs <;> omega
  · intro i j h0 h1 h2 h3
    have h1 : i < 4 := h1
    have h3 : j < 4 := h3
    interval_cases i <;> interval_cases j <;> norm_num [fsExample]

end Reor
