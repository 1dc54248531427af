import Verif.Props.ExamplesGaussian

/-!
C108, C109: the piecewise affine example.
-/

set_option linter.unusedSectionVars false

namespace Reor

open scoped BigOperators Matrix
open Spec

variable {K : Type} [Field K] [LinearOrder K] [IsStrictOrderedRing K]

/-! ### Specification -/

/-- The piecewise affine system: `y'` follows `y` under the input `u`, without noise. -/
def PiecewiseAffine (y u y' : K) : Prop :=
  (u > 4 * y + 10 → y' = -2 / 5 * y + u + 3 / 2) ∧
  (u ≤ 4 * y + 10 → u ≤ 6 - 5 * y → y' = 1 / 2 * y - u - 1 / 2) ∧
  (u ≤ 4 * y + 10 → u > 6 - 5 * y → y' = -3 / 10 * y + 1 / 2 * u - 17 / 10)

theorem sisoStep_spec (y u : K) : ∃ y', sisoStep y u = Py.ok y' ∧ PiecewiseAffine y u y' := by
  unfold sisoStep affine3
  by_cases h1 : 4 * y + -1 * u + 10 * 1 < 0
  · rw [if_pos h1]
    refine ⟨_, rfl, fun _ => by ring, fun h => ?_, fun h => ?_⟩ <;> exfalso <;> linarith
  · rw [if_neg h1]
    by_cases h2 : 5 * y + 1 * u + -6 * 1 ≤ 0
    · rw [if_pos ⟨by linarith, h2⟩]
      refine ⟨_, rfl, fun h => ?_, fun _ _ => by ring, fun _ h => ?_⟩ <;> exfalso <;> linarith
    · rw [if_neg (fun h => h2 h.2), if_pos (by linarith)]
      refine ⟨_, rfl, fun h => ?_, fun _ h => ?_, fun _ _ => by ring⟩ <;> exfalso <;> linarith

/-- C108.  The regions cover everything: 'Invalid region' is never raised. -/
theorem C108_no_invalid_region (y u : K) : sisoStep y u ≠ Py.raise .valueError := by
  obtain ⟨y', h, -⟩ := sisoStep_spec y u
  rw [h]
  simp

/-- Bounds that the system does not leave. -/
theorem piecewiseAffine_bounds {y u y' e : K} (h : PiecewiseAffine y u y')
    (hy1 : -157 / 22 ≤ y) (hy2 : y ≤ 104 / 11) (hu1 : -5 ≤ u) (hu2 : u ≤ 5) (he1 : -1 / 10 ≤ e)
    (he2 : e ≤ 1 / 10) : -157 / 22 ≤ y' + e ∧ y' + e ≤ 104 / 11 := by
  obtain ⟨h1, h2, h3⟩ := h
  rcases lt_or_ge (4 * y + 10) u with c | c
  · rw [h1 c]
    constructor <;> linarith
  · rcases lt_or_ge (6 - 5 * y) u with d | d
    · rw [h3 c d]
      constructor <;> linarith
    · rw [h2 c d]
      constructor <;> linarith

theorem sisoLoop_spec {R : DataRng K} (hR : R.Lawful) {T : ℕ} (u : Fin T → K)
    (hu : ∀ i, -5 ≤ u i ∧ u i ≤ 5) :
    ∀ (m : ℕ) (_ : m ≤ T) (y e : Fin T → K) (g : R.G) (_ : 1 ≤ m),
      (∀ t : Fin T, (t : ℕ) < m → -157 / 22 ≤ y t ∧ y t ≤ 104 / 11) →
      (∀ t : Fin T, |e t| ≤ 1 / 10) →
      (∀ t : Fin T, 1 ≤ (t : ℕ) → (t : ℕ) < m → ∃ y', PiecewiseAffine (y (lagged t 0))
        (u (lagged t 0)) y' ∧ y t = y' + e t) →
      ∃ r, sisoLoop R u ((List.finRange T).drop m) y e g = Py.ok r ∧
        (∀ t : Fin T, (t : ℕ) < m → r.1 t = y t) ∧
        (∀ t : Fin T, (t : ℕ) < m → r.2.1 t = e t) ∧
        (∀ t : Fin T, -157 / 22 ≤ r.1 t ∧ r.1 t ≤ 104 / 11) ∧ (∀ t : Fin T, |r.2.1 t| ≤ 1 / 10) ∧
        ∀ t : Fin T, 1 ≤ (t : ℕ) → ∃ y', PiecewiseAffine (r.1 (lagged t 0)) (u (lagged t 0)) y' ∧
          r.1 t = y' + r.2.1 t := by
  intro m hm
  induction hk : T - m generalizing m with
  | zero =>
    intro y e g h1 hy he hstep
    have hmT : m = T := by omega
    subst hmT
    refine ⟨(y, e, g), ?_, fun _ _ => rfl, fun _ _ => rfl, fun t => hy t t.2, he,
      fun t ht => hstep t ht t.2⟩
    rw [List.drop_of_length_le (by simp)]
    rfl
  | succ k ih =>
    intro y e g h1 hy he hstep
    have hmT : m < T := by omega
    have hdrop : (List.finRange T).drop m = ⟨m, hmT⟩ :: (List.finRange T).drop (m + 1) := by
      rw [List.drop_eq_getElem_cons (by simpa using hmT)]
      simp
    set q : Fin T := ⟨m, hmT⟩ with hq
    obtain ⟨y', hy', hpa⟩ := sisoStep_spec (y (lagged q 0)) (u (lagged q 0))
    have hun := hR.uniform_mem (-1 / 10) (1 / 10) g (by norm_num)
    set ek := (R.uniform (-1 / 10) (1 / 10) g).1 with hek
    have hlag : ((lagged q 0 : Fin T) : ℕ) < m := by
      simp only [lagged, hq]
      omega
    have hb := piecewiseAffine_bounds hpa (hy _ hlag).1 (hy _ hlag).2 (hu _).1 (hu _).2 hun.1 hun.2
    have hne : ∀ t : Fin T, (t : ℕ) < m → t ≠ q := fun t ht he => by
      rw [he] at ht
      exact lt_irrefl _ ht
    obtain ⟨r, hr, ra, rb, rc, rd, re⟩ := ih (m + 1) (by omega) (by omega)
      (Function.update y q (y' + ek)) (Function.update e q ek) (R.uniform (-1 / 10) (1 / 10) g).2
      (by omega)
      (by
        intro t ht
        by_cases htq : t = q
        · rw [htq, Function.update_self]
          exact hb
        · rw [Function.update_of_ne htq]
          have : (t : ℕ) ≠ m := fun h => htq (Fin.ext h)
          exact hy t (by omega))
      (by
        intro t
        by_cases htq : t = q
        · rw [htq, Function.update_self, abs_le]
          exact ⟨by linarith [hun.1], hun.2⟩
        · rw [Function.update_of_ne htq]
          exact he t)
      (by
        intro t ht1 ht
        by_cases htq : t = q
        · refine ⟨y', ?_, ?_⟩
          · rw [htq, Function.update_of_ne (hne _ hlag)]
            exact hpa
          · rw [htq, Function.update_self, Function.update_self]
        · have : (t : ℕ) ≠ m := fun h => htq (Fin.ext h)
          obtain ⟨y'', h1, h2⟩ := hstep t ht1 (by omega)
          have hl : ((lagged t 0 : Fin T) : ℕ) < m := by
            simp only [lagged]
            omega
          refine ⟨y'', ?_, ?_⟩
          · rw [Function.update_of_ne (hne _ hl)]
            exact h1
          · rw [Function.update_of_ne htq, Function.update_of_ne htq]
            exact h2)
    refine ⟨r, ?_, fun t ht => ?_, fun t ht => ?_, rc, rd, re⟩
    · rw [hdrop]
      simp only [sisoLoop, hy', Py.ok_bind]
      rw [Function.update_self]
      exact hr
    · rw [ra t (by omega), Function.update_of_ne (hne t ht)]
    · rw [rb t (by omega), Function.update_of_ne (hne t ht)]

theorem filter_finRange_drop (T : ℕ) :
    (List.finRange T).filter (fun k : Fin T => 1 ≤ (k : ℕ)) = (List.finRange T).drop 1 := by
  cases T with
  | zero => rfl
  | succ T =>
    rw [List.finRange_succ, List.drop_one, List.tail_cons, List.filter_cons_of_neg (by simp),
      List.filter_eq_self]
    intro a ha
    obtain ⟨b, -, rfl⟩ := List.mem_map.1 ha
    simp

/-- C108.  With at least one sample data are always generated.  They follow the piecewise affine system
with noise of at most 0.1, from a value between 0 and 1 under inputs between -5 and 5, and stay within
[-157/22, 104/11]. -/
theorem C108_data {R : DataRng K} (hR : R.Lawful) {T : ℕ} (hT : 0 < T) (g : R.G) :
    ∃ y u e g', sisoData R T g = Py.ok (y, u, e, g') ∧
      (0 ≤ y ⟨0, hT⟩ ∧ y ⟨0, hT⟩ ≤ 1) ∧ e ⟨0, hT⟩ = 0 ∧
      (∀ t, -5 ≤ u t ∧ u t ≤ 5) ∧ (∀ t, |e t| ≤ 1 / 10) ∧
      (∀ (t : ℕ) (ht : t + 1 < T), ∃ y', PiecewiseAffine (y ⟨t, by omega⟩) (u ⟨t, by omega⟩) y' ∧
        y ⟨t + 1, ht⟩ = y' + e ⟨t + 1, ht⟩) ∧
      ∀ t, -157 / 22 ≤ y t ∧ y t ≤ 104 / 11 := by
  have h01 := hR.uniform_mem 0 1 g zero_le_one
  have hu := fun i => hR.uniform1_mem (-5) 5 T (R.uniform 0 1 g).2 i (by norm_num)
  have h0 : ∀ t : Fin T, (t : ℕ) < 1 → t = ⟨0, hT⟩ := fun t ht => Fin.ext (by simpa using ht)
  obtain ⟨r, hr, ra, rb, rc, rd, re⟩ := sisoLoop_spec hR (R.uniform1 (-5) 5 T (R.uniform 0 1 g).2).1
    hu 1 hT (Function.update (fun _ => 0) ⟨0, hT⟩ (R.uniform 0 1 g).1) (fun _ => 0)
    (R.uniform1 (-5) 5 T (R.uniform 0 1 g).2).2 le_rfl
    (by
      intro t ht
      rw [h0 t ht, Function.update_self]
      constructor <;> linarith [h01.1, h01.2])
    (by intro t; simp)
    (by intro t h1 h2; omega)
  refine ⟨r.1, (R.uniform1 (-5) 5 T (R.uniform 0 1 g).2).1, r.2.1, r.2.2, ?_, ?_, ?_, hu, rd, ?_, rc⟩
  · unfold sisoData
    rw [dif_pos hT]
    simp only [filter_finRange_drop, hr, Py.ok_bind]
    rfl
  · rw [ra ⟨0, hT⟩ (by simp), Function.update_self]
    exact h01
  · exact rb ⟨0, hT⟩ (by simp)
  · intro t ht
    exact re ⟨t + 1, ht⟩ (by simp)

/-- C108.  Without samples there is an IndexError. -/
theorem C108_no_samples (R : DataRng K) (g : R.G) : sisoData R 0 g = Py.raise .indexError := rfl

/-! ### C109: panels -/

/-- The pairs of predictors, each once. -/
def PredictorPair (p s : ℕ) : Panel → Prop
  | .yy i j => i < j ∧ j < p
  | .uu i j => i < j ∧ j < s
  | .yu i j => i < p ∧ j < s

theorem mem_pairsBelow {m i j : ℕ} : (i, j) ∈ pairsBelow m ↔ i < j ∧ j < m := by
  simp only [pairsBelow, List.mem_flatMap, List.mem_range, List.mem_map, List.mem_range'_1,
    Prod.mk.injEq]
  constructor
  · rintro ⟨a, ha, b, hb, rfl, rfl⟩
    omega
  · rintro ⟨h1, h2⟩
    exact ⟨i, by omega, j, by omega, rfl, rfl⟩

theorem pairsBelow_nodup (m : ℕ) : (pairsBelow m).Nodup := by
  unfold pairsBelow
  rw [List.nodup_flatMap]
  refine ⟨fun i _ => (List.nodup_range').map fun a b h => (Prod.mk.inj h).2, ?_⟩
  refine List.nodup_range.imp fun {a b} hab => ?_
  intro x hx hy
  obtain ⟨c, -, rfl⟩ := List.mem_map.1 hx
  obtain ⟨d, -, h⟩ := List.mem_map.1 hy
  exact hab (Prod.mk.inj h).1.symm

theorem pairsBelow_length (m : ℕ) : (pairsBelow m).length = m * (m - 1) / 2 := by
  unfold pairsBelow
  rw [List.length_flatMap]
  simp only [List.length_map, List.length_range']
  have h : ∀ m, ((List.range m).map fun i => m - (i + 1)).sum = ∑ i ∈ Finset.range m, i := by
    intro m
    rw [← Finset.sum_range_reflect]
    have : ∀ (f : ℕ → ℕ) (m : ℕ), ((List.range m).map f).sum = ∑ i ∈ Finset.range m, f i := by
      intro f m
      induction m with
      | zero => rfl
      | succ m ih => rw [List.range_succ, List.map_append, List.sum_append, ih, Finset.sum_range_succ]; simp
    rw [this]
    exact Finset.sum_congr rfl fun i _ => by omega
  rw [h, Finset.sum_range_id]

theorem mem_panels {p s : ℕ} {q : Panel} : q ∈ panels p s ↔ PredictorPair p s q := by
  unfold panels
  have hyy : ∀ {m : ℕ} {c : ℕ × ℕ → Panel} , q ∈ (if m > 1 then (pairsBelow m).map c else []) ↔
      ∃ i j, (i < j ∧ j < m) ∧ c (i, j) = q := by
    intro m c
    split_ifs with h
    · rw [List.mem_map]
      constructor
      · rintro ⟨⟨i, j⟩, h1, h2⟩
        exact ⟨i, j, mem_pairsBelow.1 h1, h2⟩
      · rintro ⟨i, j, h1, h2⟩
        exact ⟨(i, j), mem_pairsBelow.2 h1, h2⟩
    · constructor
      · intro h
        simp at h
      · rintro ⟨i, j, h1, -⟩
        omega
  rw [List.mem_append, List.mem_append, hyy, hyy]
  have hyu : q ∈ (if p > 0 ∧ s > 0 then
      (List.range p).flatMap fun i => (List.range s).map fun j => Panel.yu i j else []) ↔
      ∃ i j, (i < p ∧ j < s) ∧ Panel.yu i j = q := by
    split_ifs with h
    · simp only [List.mem_flatMap, List.mem_map, List.mem_range]
      constructor
      · rintro ⟨i, hi, j, hj, he⟩
        exact ⟨i, j, ⟨hi, hj⟩, he⟩
      · rintro ⟨i, j, ⟨hi, hj⟩, he⟩
        exact ⟨i, hi, j, hj, he⟩
    · constructor
      · intro h
        simp at h
      · rintro ⟨i, j, h1, -⟩
        omega
  rw [hyu]
  cases q <;> simp [PredictorPair]

theorem panels_nodup (p s : ℕ) : (panels p s).Nodup := by
  have hyy : ∀ {m : ℕ} {c : ℕ × ℕ → Panel}, Function.Injective c →
      (if m > 1 then (pairsBelow m).map c else []).Nodup := by
    intro m c hc
    split_ifs
    · exact (pairsBelow_nodup m).map hc
    · exact List.nodup_nil
  have hyu : (if p > 0 ∧ s > 0 then
      (List.range p).flatMap fun i => (List.range s).map fun j => Panel.yu i j else []).Nodup := by
    split_ifs
    · rw [List.nodup_flatMap]
      refine ⟨fun i _ => List.nodup_range.map fun a b h => (Panel.yu.inj h).2, ?_⟩
      refine List.nodup_range.imp fun {a b} hab => ?_
      intro x hx hy
      obtain ⟨c, -, rfl⟩ := List.mem_map.1 hx
      obtain ⟨d, -, h⟩ := List.mem_map.1 hy
      exact hab (Panel.yu.inj h).1.symm
    · exact List.nodup_nil
  unfold panels
  rw [List.nodup_append, List.nodup_append]
  refine ⟨⟨hyy (fun a b h => Prod.ext (Panel.yy.inj h).1 (Panel.yy.inj h).2),
    hyy (fun a b h => Prod.ext (Panel.uu.inj h).1 (Panel.uu.inj h).2), ?_⟩, hyu, ?_⟩
  · intro a ha b hb hab
    subst hab
    split_ifs at ha hb
    all_goals try (simp at ha; done)
    all_goals try (simp at hb; done)
    obtain ⟨_, -, rfl⟩ := List.mem_map.1 ha
    obtain ⟨_, -, h⟩ := List.mem_map.1 hb
    cases h
  · intro a ha b hb hab
    subst hab
    split_ifs at hb
    · obtain ⟨i, -, hb⟩ := List.mem_flatMap.1 hb
      obtain ⟨j, -, rfl⟩ := List.mem_map.1 hb
      rcases List.mem_append.1 ha with ha | ha
      · split_ifs at ha
        · obtain ⟨_, -, h⟩ := List.mem_map.1 ha
          cases h
        · simp at ha
      · split_ifs at ha
        · obtain ⟨_, -, h⟩ := List.mem_map.1 ha
          cases h
        · simp at ha
    · simp at hb

theorem panels_length (p s : ℕ) : (panels p s).length = (p + s) * (p + s - 1) / 2 := by
  have hyy : ∀ {m : ℕ} {c : ℕ × ℕ → Panel},
      (if m > 1 then (pairsBelow m).map c else []).length = m * (m - 1) / 2 := by
    intro m c
    split_ifs with h
    · rw [List.length_map, pairsBelow_length]
    · have : m = 0 ∨ m = 1 := by omega
      rcases this with rfl | rfl <;> rfl
  have hyu : (if p > 0 ∧ s > 0 then
      (List.range p).flatMap fun i => (List.range s).map fun j => Panel.yu i j
        else []).length = p * s := by
    split_ifs with h
    · rw [List.length_flatMap]
      simp
    · have : p = 0 ∨ s = 0 := by omega
      rcases this with rfl | rfl <;> simp
  unfold panels
  rw [List.length_append, List.length_append, hyy, hyy, hyu]
  have hev : ∀ m : ℕ, ∃ a, m * (m - 1) = 2 * a := fun m => (Nat.even_mul_pred_self m).two_dvd
  obtain ⟨a, ha⟩ := hev p
  obtain ⟨b, hb⟩ := hev s
  have hsum : (p + s) * (p + s - 1) = 2 * (a + b + p * s) := by
    rcases p with _ | p
    · simp only [Nat.zero_add, Nat.zero_mul, Nat.add_zero] at ha ⊢
      omega
    · rcases s with _ | s
      · simp only [Nat.zero_mul, Nat.add_zero, Nat.mul_zero] at hb ⊢
        omega
      · have h1 : p + 1 + (s + 1) - 1 = p + s + 1 := by omega
        rw [h1]
        simp only [Nat.add_sub_cancel] at ha hb
        have : (p + 1 + (s + 1)) * (p + s + 1) =
          (p + 1) * p + (s + 1) * s + 2 * ((p + 1) * (s + 1)) := by ring
        rw [this, ha, hb]
        ring
  rw [ha, hb, hsum]
  omega

theorem drawPanels_ok (nRows : ℕ) : ∀ (l : List Panel) (row : ℕ), row + l.length ≤ nRows →
    ∃ r, drawPanels nRows row l = Py.ok r ∧ r.map Prod.fst = List.range' row l.length ∧
      r.map Prod.snd = l
  | [], row, _ => ⟨[], rfl, rfl, rfl⟩
  | q :: l, row, h => by
    rw [List.length_cons] at h
    obtain ⟨r, h1, h2, h3⟩ := drawPanels_ok nRows l (row + 1) (by omega)
    refine ⟨(row, q) :: r, ?_, ?_, ?_⟩
    · rw [drawPanels, if_pos (by omega), h1]
      rfl
    · rw [List.map_cons, h2]
      rfl
    · rw [List.map_cons, h3]

/-- C109.  With as many labels as samples after the first ones and at least two predictors, there is one
panel for each pair of predictors, and each row of the figure is used once, in order. -/
theorem C109_panels {nSamples nLabels p s : ℕ}
    (hl : (nLabels : ℤ) = (nSamples : ℤ) - (max p s : ℕ)) (h2 : 2 ≤ p + s) :
    ∃ l, plotLayout nSamples nLabels p s = Py.ok l ∧
      l.map Prod.fst = List.range ((p + s) * (p + s - 1) / 2) ∧ (l.map Prod.snd).Nodup ∧
      ∀ q, q ∈ l.map Prod.snd ↔ PredictorPair p s q := by
  obtain ⟨l, h, h3, h4⟩ := drawPanels_ok ((p + s) * (p + s - 1) / 2) (panels p s) 0
    (by rw [panels_length]; omega)
  refine ⟨l, ?_, ?_, ?_, fun q => ?_⟩
  · unfold plotLayout
    rw [if_neg (fun hc => hc hl)]
    have hpos : (p + s) * (p + s - 1) / 2 ≠ 0 := by
      have h1 : 2 * 1 ≤ (p + s) * (p + s - 1) := Nat.mul_le_mul h2 (by omega)
      omega
    simp only [if_neg hpos]
    exact h
  · rw [h3, panels_length, List.range_eq_range']
  · rw [h4]
    exact panels_nodup p s
  · rw [h4]
    exact mem_panels

/-- C109.  Otherwise a ValueError is raised. -/
theorem C109_rejected {nSamples nLabels p s : ℕ}
    (h : (nLabels : ℤ) ≠ (nSamples : ℤ) - (max p s : ℕ) ∨ p + s ≤ 1) :
    plotLayout nSamples nLabels p s = Py.raise .valueError := by
  unfold plotLayout
  by_cases hl : (nLabels : ℤ) = (nSamples : ℤ) - (max p s : ℕ)
  · rw [if_neg (fun hc => hc hl)]
    have h1 : p + s ≤ 1 := h.resolve_left (fun hc => hc hl)
    have h0 : (p + s) * (p + s - 1) / 2 = 0 := by
      have : p + s - 1 = 0 := by omega
      rw [this]
      simp
    simp only [if_pos h0]
  · rw [if_pos hl]

/-! ### C109: collecting the coefficients -/

/-- C109.  The coefficients of a fit can be collected exactly if there is a trend to order the components
by, or only one lag in the array that is used instead; with two or more lags and no trend a ValueError is
raised after the first fit. -/
theorem C109_collect {k : ℕ} (hk : 1 ≤ k) (p s : ℕ) (trend : Bool) :
    collectFit k p s trend =
      if trend = true ∨ p = 1 ∨ p = 0 ∧ s ≤ 1 then Py.ok () else Py.raise .valueError := by
  have htake : ∀ l : List ℕ, fitsInto l l := by
    intro l
    induction l with
    | nil => trivial
    | cons a l ih => exact ⟨Or.inl rfl, ih⟩
  have hdrop : ∀ l m : List ℕ, fitsInto l (l ++ m) := by
    intro l m
    induction l with
    | nil => cases m <;> trivial
    | cons a l ih => exact ⟨Or.inl rfl, ih⟩
  -- an ordering of the components alone always works
  have hone : ∀ l : List ℕ, collectOne (some (squeezeShape [k])) (k :: l) =
      Py.ok (some (squeezeShape [k])) := by
    intro l
    unfold collectOne
    simp only
    rw [if_pos]
    by_cases h1 : k = 1
    · subst h1
      have h : squeezeShape [1] = [] := rfl
      rw [h, takeShape, List.tail_cons, List.nil_append, List.reverse_cons]
      exact hdrop _ _
    · have : squeezeShape [k] = [k] := by simp [squeezeShape, h1]
      rw [this]
      exact htake _
  have hnone : ∀ l : List ℕ, (∀ a ∈ l, a = 1) → collectOne none (k :: l) =
      Py.ok (some (squeezeShape [k])) := by
    intro l hl
    have hs : squeezeShape (k :: l) = squeezeShape [k] := by
      have : l.filter (fun d => d ≠ 1) = [] := by
        rw [List.filter_eq_nil_iff]
        intro a ha
        simp [hl a ha]
      unfold squeezeShape
      rw [← List.singleton_append, List.filter_append, this, List.append_nil]
    have := hone l
    unfold collectOne at this ⊢
    simp only [hs] at this ⊢
    exact this
  -- two or more lags
  have hbad : ∀ m : ℕ, m ≠ 1 → m ≠ 0 → collectOne none [k, m, 1, 1] = Py.raise .valueError := by
    intro m h1 h0
    unfold collectOne
    simp only
    rw [if_neg]
    by_cases hk1 : k = 1
    · subst hk1
      simp [squeezeShape, takeShape, h1, fitsInto]
    · simp [squeezeShape, takeShape, h1, hk1, fitsInto]
  unfold collectFit
  cases trend
  · simp only [Bool.false_eq_true, if_false, Py.ok_bind, false_or]
    rcases Nat.eq_zero_or_pos p with hp | hp
    · subst hp
      simp only [gt_iff_lt, lt_irrefl, if_false]
      rcases Nat.lt_trichotomy s 1 with hs | hs | hs
      · have : s = 0 := by omega
        subst this
        rfl
      · subst hs
        simp only [Nat.zero_lt_one, if_true]
        rw [hnone [1, 1, 1] (by simp)]
        rfl
      · rw [if_pos (by omega), hbad s (by omega) (by omega), if_neg (by omega)]
        rfl
    · rw [if_pos hp]
      by_cases hp1 : p = 1
      · subst hp1
        rw [hnone [1, 1, 1] (by simp), if_pos (Or.inl rfl)]
        simp only [Py.ok_bind]
        split_ifs
        · rw [hone]
          rfl
        · rfl
      · rw [hbad p hp1 (by omega), if_neg (by omega)]
        rfl
  · simp only [if_true, true_or]
    rw [hnone [1] (by simp)]
    simp only [Py.ok_bind]
    split_ifs
    · rw [hone]
      simp only [Py.ok_bind]
      rw [hone]
      rfl
    · rw [hone]
      rfl
    · rw [hone]
      rfl
    · rfl

/-! ### Concrete cases -/

/-- The three regions. -/
example : PiecewiseAffine (-4 : ℚ) 0 (31 / 10) ∧ PiecewiseAffine (0 : ℚ) 0 (-1 / 2) ∧
    PiecewiseAffine (2 : ℚ) 0 (-23 / 10) := by
  refine ⟨?_, ?_, ?_⟩ <;> refine ⟨fun _ => ?_, fun _ _ => ?_, fun _ _ => ?_⟩ <;> norm_num at *

/-- Two lags of each variable: six panels. -/
example : plotLayout 100 98 2 2 = Py.ok [(0, .yy 0 1), (1, .uu 0 1), (2, .yu 0 0), (3, .yu 0 1),
    (4, .yu 1 0), (5, .yu 1 1)] := rfl

/-- With the defaults (one lag of `y`, none of `u`) there is nothing to plot: a ValueError. -/
example : plotLayout 500 499 1 0 = Py.raise .valueError := C109_rejected (Or.inr (by norm_num))

/-- The defaults, and two lags without a trend. -/
example : collectFit 2 1 0 false = Py.ok () ∧ collectFit 3 2 1 false = Py.raise .valueError := by
  rw [C109_collect (by norm_num), C109_collect (by norm_num)]
  simp

example : ∃ r, sisoData (meanRng ℚ) 100 (0 : ℕ) = Py.ok r := by
  obtain ⟨y, u, e, g, h, -⟩ := C108_data (meanRng_lawful (K := ℚ)) (T := 100) (by norm_num) (0 : ℕ)
  exact ⟨_, h⟩

end Reor
