import Verif.Model.LineSearch
import Mathlib.Algebra.Order.Archimedean.Basic
import Mathlib.Tactic.Linarith
import Mathlib.Tactic.Ring
import Mathlib.Tactic.FieldSimp
import Mathlib.Tactic.NormNum
import Mathlib.Tactic.Positivity

set_option linter.unusedSectionVars false

namespace Reor

variable {K : Type} [Field K] [LinearOrder K] [IsStrictOrderedRing K]

/-- The contraction factor of the step. -/
def shrink (sigmaTwo : K) : K := max sigmaTwo (1 / 2)

theorem shrink_pos (s : K) : 0 < shrink s := lt_of_lt_of_le (by norm_num) (le_max_right _ _)

theorem shrink_lt_one {s : K} (h : s < 1) : shrink s < 1 := max_lt h (by norm_num)

theorem nextStep_cases (lam δ f0 f1 s1 s2 : K) :
    nextSpgStepLength lam δ f0 f1 s1 s2 = (1 / 2) * lam ∨
    (s1 ≤ nextSpgStepLength lam δ f0 f1 s1 s2 ∧ nextSpgStepLength lam δ f0 f1 s1 s2 ≤ s2 * lam ∧
      f1 - f0 - lam * δ ≠ 0 ∧
      nextSpgStepLength lam δ f0 f1 s1 s2 = -(1 / 2) * lam ^ 2 * δ / (f1 - f0 - lam * δ)) := by
  unfold nextSpgStepLength
  simp only
  split_ifs with h1 h2
  · exact Or.inl rfl
  · exact Or.inr ⟨h2.1, h2.2, h1, rfl⟩
  · exact Or.inl rfl

theorem nextStep_pos {lam δ f0 f1 s1 s2 : K} (hl : 0 < lam) (hs : 0 < s1) :
    0 < nextSpgStepLength lam δ f0 f1 s1 s2 := by
  rcases nextStep_cases lam δ f0 f1 s1 s2 with h | h
  · rw [h]; positivity
  · exact lt_of_lt_of_le hs h.1

theorem nextStep_le {lam δ f0 f1 s1 s2 : K} (hl : 0 < lam) :
    nextSpgStepLength lam δ f0 f1 s1 s2 ≤ shrink s2 * lam := by
  rcases nextStep_cases lam δ f0 f1 s1 s2 with h | h
  · rw [h]; exact mul_le_mul_of_nonneg_right (le_max_right _ _) hl.le
  · exact h.2.1.trans (mul_le_mul_of_nonneg_right (le_max_left _ _) hl.le)

theorem nextStep_ge {lam δ f0 f1 s1 s2 : K} :
    min s1 (lam / 2) ≤ nextSpgStepLength lam δ f0 f1 s1 s2 := by
  rcases nextStep_cases lam δ f0 f1 s1 s2 with h | h
  · rw [h]; exact (min_le_right _ _).trans (by linarith)
  · exact (min_le_left _ _).trans h.1

theorem nextStep_lt {lam δ f0 f1 s1 s2 : K} (hl : 0 < lam) (h2 : s2 < 1) :
    nextSpgStepLength lam δ f0 f1 s1 s2 < lam := by
  refine (nextStep_le hl).trans_lt ?_
  have := shrink_lt_one h2
  nlinarith

/-! ### foldMax -/

theorem foldMax_aux (l : List K) (m : K) :
    ∃ M, l.foldl maxStep (some m) = some M ∧
      (M = m ∨ M ∈ l) ∧ m ≤ M ∧ ∀ f ∈ l, f ≤ M := by
  induction l generalizing m with
  | nil => exact ⟨m, rfl, Or.inl rfl, le_rfl, by simp⟩
  | cons a l ih =>
    rw [List.foldl_cons]
    by_cases h : a ≥ m
    · obtain ⟨M, h1, h2, h3, h4⟩ := ih a
      refine ⟨M, by simpa [maxStep, h] using h1, ?_, h.trans h3, ?_⟩
      · rcases h2 with h2 | h2
        · exact Or.inr (by simp [h2])
        · exact Or.inr (by simp [h2])
      · intro f hf
        rcases List.mem_cons.mp hf with rfl | hf
        · exact h3
        · exact h4 f hf
    · obtain ⟨M, h1, h2, h3, h4⟩ := ih m
      refine ⟨M, by simpa [maxStep, h] using h1, ?_, h3, ?_⟩
      · rcases h2 with h2 | h2
        · exact Or.inl h2
        · exact Or.inr (by simp [h2])
      · intro f hf
        rcases List.mem_cons.mp hf with rfl | hf
        · exact (lt_of_not_ge h).le.trans h3
        · exact h4 f hf

theorem foldMax_spec (l : List K) (hl : l ≠ []) :
    ∃ M, foldMax l = some M ∧ M ∈ l ∧ ∀ f ∈ l, f ≤ M := by
  cases l with
  | nil => exact absurd rfl hl
  | cons a l =>
    obtain ⟨M, h1, h2, h3, h4⟩ := foldMax_aux l a
    refine ⟨M, ?_, ?_, ?_⟩
    · exact h1
    · rcases h2 with h2 | h2
      · simp [h2]
      · simp [h2]
    · intro f hf
      rcases List.mem_cons.mp hf with rfl | hf
      · exact h3
      · exact h4 f hf

theorem foldMax_singleton (a : K) : foldMax [a] = some a := rfl

/-! ### The backtracking loop -/

variable {σ : Type}

theorem backtrack_unfold (cfg : LSConfig K) (trial : σ → K → σ × K) (fMax δ f0 step : K) (s : σ)
    (c : K) (n : ℕ) :
    backtrack cfg trial fMax δ f0 step s c n =
      if c > fMax + cfg.gamma * δ * step then
        let step' := nextSpgStepLength step δ f0 c cfg.sigmaOne cfg.sigmaTwo
        let r := trial s step'
        if |step'| < cfg.stepSizeTolerance then some (step', r.1, r.2, n + 1)
        else backtrack cfg trial fMax δ f0 step' r.1 r.2 (n + 1)
      else some (step, s, c, n) := by
  rw [backtrack]

/-- What is known of a finished loop. -/
structure LoopPost (cfg : LSConfig K) (trial : σ → K → σ × K) (Inv : σ → Prop) (fMax δ step0 : K)
    (n0 : ℕ) (r : K × σ × K × ℕ) : Prop where
  pos : 0 < r.1
  le : r.1 ≤ step0
  trial_eq : ∃ s0, Inv s0 ∧ trial s0 r.1 = (r.2.1, r.2.2.1)
  accept : r.2.2.1 ≤ fMax + cfg.gamma * δ * r.1 ∨ r.1 < cfg.stepSizeTolerance

theorem backtrack_post {cfg : LSConfig K} {trial : σ → K → σ × K} {Inv : σ → Prop}
    {fMax δ f0 : K} (h1 : 0 < cfg.sigmaOne) (h2 : cfg.sigmaTwo < 1)
    (hInv : ∀ s lam, Inv s → 0 < lam → lam ≤ 1 → Inv (trial s lam).1)
    (step : K) (s : σ) (c : K) (n : ℕ) (r : K × σ × K × ℕ)
    (hr : backtrack cfg trial fMax δ f0 step s c n = some r)
    (hpos : 0 < step) (hle : step ≤ 1) (hs : Inv s)
    (htr : ∃ s0, Inv s0 ∧ trial s0 step = (s, c)) :
    LoopPost cfg trial Inv fMax δ step n r := by
  have key := backtrack.partial_correctness cfg trial fMax δ f0
    (motive := fun step s c n r => 0 < step → step ≤ 1 → Inv s →
      (∃ s0, Inv s0 ∧ trial s0 step = (s, c)) → LoopPost cfg trial Inv fMax δ step n r)
    (by
      intro bt ih step s c n r hr hpos hle hs htr
      simp only at hr
      split_ifs at hr with hc htol
      · simp only [Option.some.injEq] at hr
        have hp := nextStep_pos (δ := δ) (f0 := f0) (f1 := c) (s2 := cfg.sigmaTwo) hpos h1
        have hl := nextStep_lt (δ := δ) (f0 := f0) (f1 := c) (s1 := cfg.sigmaOne) hpos h2
        subst hr
        exact ⟨hp, hl.le, ⟨s, hs, rfl⟩, Or.inr (by rwa [abs_of_pos hp] at htol)⟩
      · have hp := nextStep_pos (δ := δ) (f0 := f0) (f1 := c) (s2 := cfg.sigmaTwo) hpos h1
        have hl := nextStep_lt (δ := δ) (f0 := f0) (f1 := c) (s1 := cfg.sigmaOne) hpos h2
        have := ih _ _ _ _ r hr hp (hl.le.trans hle) (hInv _ _ hs hp (hl.le.trans hle)) ⟨s, hs, rfl⟩
        exact ⟨this.pos, this.le.trans hl.le, this.trial_eq, this.accept⟩
      · simp only [Option.some.injEq] at hr
        subst hr
        exact ⟨hpos, le_rfl, htr, Or.inl (not_lt.mp hc)⟩)
    step s c n r hr
  exact key hpos hle hs htr

/-- Termination for every cost function, with a bound on the number of rounds. -/
theorem backtrack_terminates {cfg : LSConfig K} {trial : σ → K → σ × K} {fMax δ f0 : K}
    (h1 : 0 < cfg.sigmaOne) (N : ℕ) :
    ∀ (step : K) (s : σ) (c : K) (n : ℕ), 0 < step →
      step * shrink cfg.sigmaTwo ^ (N + 1) < cfg.stepSizeTolerance →
      ∃ r, backtrack cfg trial fMax δ f0 step s c n = some r ∧ r.2.2.2 ≤ n + (N + 1) := by
  induction N with
  | zero =>
    intro step s c n hpos hN
    rw [zero_add, pow_one] at hN
    rw [backtrack_unfold]
    split_ifs with hc
    · have hp := nextStep_pos (δ := δ) (f0 := f0) (f1 := c) (s2 := cfg.sigmaTwo) hpos h1
      have hl := nextStep_le (δ := δ) (f0 := f0) (f1 := c) (s1 := cfg.sigmaOne)
        (s2 := cfg.sigmaTwo) hpos
      simp only
      rw [if_pos (by rw [abs_of_pos hp]; linarith)]
      exact ⟨_, rfl, by simp⟩
    · exact ⟨_, rfl, by simp⟩
  | succ N ih =>
    intro step s c n hpos hN
    rw [backtrack_unfold]
    split_ifs with hc
    · have hp := nextStep_pos (δ := δ) (f0 := f0) (f1 := c) (s2 := cfg.sigmaTwo) hpos h1
      have hl := nextStep_le (δ := δ) (f0 := f0) (f1 := c) (s1 := cfg.sigmaOne)
        (s2 := cfg.sigmaTwo) hpos
      simp only
      split_ifs with ht
      · exact ⟨_, rfl, by simp⟩
      · obtain ⟨r, hr, hn⟩ := ih (nextSpgStepLength step δ f0 c cfg.sigmaOne cfg.sigmaTwo)
          (trial s (nextSpgStepLength step δ f0 c cfg.sigmaOne cfg.sigmaTwo)).1
          (trial s (nextSpgStepLength step δ f0 c cfg.sigmaOne cfg.sigmaTwo)).2 (n + 1) hp (by
            refine lt_of_le_of_lt ?_ hN
            have h0 := shrink_pos cfg.sigmaTwo
            calc _ ≤ (shrink cfg.sigmaTwo * step) * shrink cfg.sigmaTwo ^ (N + 1) :=
                  mul_le_mul_of_nonneg_right hl (pow_pos h0 _).le
              _ = _ := by ring)
        exact ⟨r, hr, by omega⟩
    · exact ⟨_, rfl, by simp⟩

/-- If all steps up to `lstar` are acceptable the loop terminates whatever the tolerance. -/
theorem backtrack_terminates_armijo {cfg : LSConfig K} {trial : σ → K → σ × K} {Inv : σ → Prop}
    {fMax δ f0 : K} (h1 : 0 < cfg.sigmaOne) (h2 : cfg.sigmaTwo < 1)
    (hInv : ∀ s lam, Inv s → 0 < lam → lam ≤ 1 → Inv (trial s lam).1)
    {lstar : K}
    (harm : ∀ s lam, Inv s → 0 < lam → lam ≤ 1 → lam ≤ lstar →
      (trial s lam).2 ≤ fMax + cfg.gamma * δ * lam) (N : ℕ) :
    ∀ (step : K) (s : σ) (c : K) (n : ℕ), 0 < step → step ≤ 1 → Inv s →
      (∃ s0, Inv s0 ∧ trial s0 step = (s, c)) →
      step * shrink cfg.sigmaTwo ^ N ≤ lstar →
      ∃ r, backtrack cfg trial fMax δ f0 step s c n = some r ∧ r.2.2.2 ≤ n + N := by
  induction N with
  | zero =>
    intro step s c n hpos hle hs htr hN
    obtain ⟨s0, hs0, hst⟩ := htr
    have := harm s0 step hs0 hpos hle (by simpa using hN)
    rw [hst] at this
    rw [backtrack_unfold, if_neg (not_lt.mpr this)]
    exact ⟨_, rfl, by simp⟩
  | succ N ih =>
    intro step s c n hpos hle hs htr hN
    rw [backtrack_unfold]
    split_ifs with hc
    · have hp := nextStep_pos (δ := δ) (f0 := f0) (f1 := c) (s2 := cfg.sigmaTwo) hpos h1
      have hl := nextStep_le (δ := δ) (f0 := f0) (f1 := c) (s1 := cfg.sigmaOne)
        (s2 := cfg.sigmaTwo) hpos
      have hlt := nextStep_lt (δ := δ) (f0 := f0) (f1 := c) (s1 := cfg.sigmaOne) hpos h2
      simp only
      split_ifs with ht
      · exact ⟨_, rfl, by simp⟩
      · obtain ⟨r, hr, hn⟩ := ih (nextSpgStepLength step δ f0 c cfg.sigmaOne cfg.sigmaTwo)
          (trial s (nextSpgStepLength step δ f0 c cfg.sigmaOne cfg.sigmaTwo)).1
          (trial s (nextSpgStepLength step δ f0 c cfg.sigmaOne cfg.sigmaTwo)).2 (n + 1) hp
          (hlt.le.trans hle) (hInv _ _ hs hp (hlt.le.trans hle)) ⟨s, hs, rfl⟩ (by
            refine le_trans ?_ hN
            have h0 := shrink_pos cfg.sigmaTwo
            calc _ ≤ (shrink cfg.sigmaTwo * step) * shrink cfg.sigmaTwo ^ N :=
                  mul_le_mul_of_nonneg_right hl (pow_pos h0 _).le
              _ = _ := by ring)
        exact ⟨r, hr, by omega⟩
    · exact ⟨_, rfl, by simp⟩

/-- If all steps up to `lstar` are acceptable and the step tolerance is small enough, the loop ends
with an acceptable step. -/
theorem backtrack_accepts {cfg : LSConfig K} {trial : σ → K → σ × K} {Inv : σ → Prop}
    {fMax δ f0 : K} (h1 : 0 < cfg.sigmaOne) (h2 : cfg.sigmaTwo < 1)
    (hInv : ∀ s lam, Inv s → 0 < lam → lam ≤ 1 → Inv (trial s lam).1)
    {lstar : K}
    (harm : ∀ s lam, Inv s → 0 < lam → lam ≤ 1 → lam ≤ lstar →
      (trial s lam).2 ≤ fMax + cfg.gamma * δ * lam)
    (ht1 : cfg.stepSizeTolerance ≤ cfg.sigmaOne) (ht2 : cfg.stepSizeTolerance ≤ lstar / 2)
    (step : K) (s : σ) (c : K) (n : ℕ) (r : K × σ × K × ℕ)
    (hr : backtrack cfg trial fMax δ f0 step s c n = some r)
    (hpos : 0 < step) (hle : step ≤ 1) (hs : Inv s)
    (htr : ∃ s0, Inv s0 ∧ trial s0 step = (s, c)) :
    r.2.2.1 ≤ fMax + cfg.gamma * δ * r.1 := by
  have key := backtrack.partial_correctness cfg trial fMax δ f0
    (motive := fun step s c n r => 0 < step → step ≤ 1 → Inv s →
      (∃ s0, Inv s0 ∧ trial s0 step = (s, c)) → r.2.2.1 ≤ fMax + cfg.gamma * δ * r.1)
    (by
      intro bt ih step s c n r hr hpos hle hs htr
      simp only at hr
      split_ifs at hr with hc htol
      · exfalso
        have hp := nextStep_pos (δ := δ) (f0 := f0) (f1 := c) (s2 := cfg.sigmaTwo) hpos h1
        rw [abs_of_pos hp] at htol
        have hge := nextStep_ge (lam := step) (δ := δ) (f0 := f0) (f1 := c) (s1 := cfg.sigmaOne)
          (s2 := cfg.sigmaTwo)
        have hbig : lstar < step := by
          by_contra hcon
          obtain ⟨s0, hs0, hst⟩ := htr
          have := harm s0 step hs0 hpos hle (not_lt.mp hcon)
          rw [hst] at this
          exact absurd hc (not_lt.mpr this)
        have : cfg.stepSizeTolerance ≤ min cfg.sigmaOne (step / 2) :=
          le_min ht1 (ht2.trans (by linarith))
        exact absurd htol (not_lt.mpr (this.trans hge))
      · have hp := nextStep_pos (δ := δ) (f0 := f0) (f1 := c) (s2 := cfg.sigmaTwo) hpos h1
        have hl := nextStep_lt (δ := δ) (f0 := f0) (f1 := c) (s1 := cfg.sigmaOne) hpos h2
        exact ih _ _ _ _ r hr hp (hl.le.trans hle) (hInv _ _ hs hp (hl.le.trans hle)) ⟨s, hs, rfl⟩
      · simp only [Option.some.injEq] at hr
        subst hr
        exact not_lt.mp hc)
    step s c n r hr
  exact key hpos hle hs htr

/-! ### The whole line search -/

theorem lineSearch_eq_ok {cfg : LSConfig K} {trial : σ → K → σ × K} {mem : List K} {s : σ}
    {f0 δ : K} {r : LSResult σ K} :
    lineSearch cfg trial mem s f0 δ = Py.ok r ↔
      mem ≠ [] ∧ r.mem = mem.tail ++ [f0] ∧ ∃ fMax, foldMax (mem.tail ++ [f0]) = some fMax ∧
        backtrack cfg trial fMax δ f0 1 (trial s 1).1 (trial s 1).2 0 =
          some (r.stepSize, r.state, r.cost, r.rounds) := by
  unfold lineSearch
  cases mem with
  | nil => simp
  | cons a rest =>
    simp only [List.tail_cons, ne_eq, reduceCtorEq, not_false_eq_true, true_and]
    obtain ⟨M, hM, -, -⟩ := foldMax_spec (rest ++ [f0]) (by simp)
    rw [hM]
    simp only [Option.some.injEq, exists_eq_left']
    cases hb : backtrack cfg trial M δ f0 1 (trial s 1).1 (trial s 1).2 0 with
    | none => simp
    | some q =>
      obtain ⟨a1, a2, a3, a4⟩ := q
      simp only [Py.ok.injEq, Option.some.injEq, Prod.mk.injEq]
      constructor
      · rintro rfl; exact ⟨rfl, rfl, rfl, rfl, rfl⟩
      · rintro ⟨h0, h1, h2, h3, h4⟩
        cases r; simp_all

theorem lineSearch_no_raise {cfg : LSConfig K} {trial : σ → K → σ × K} {mem : List K} {s : σ}
    {f0 δ : K} {e : PyErr} (h : lineSearch cfg trial mem s f0 δ = Py.raise e) :
    mem = [] ∧ e = .indexError := by
  unfold lineSearch at h
  cases mem with
  | nil => simp at h; exact ⟨rfl, h.symm⟩
  | cons a rest =>
    obtain ⟨M, hM, -, -⟩ := foldMax_spec (rest ++ [f0]) (by simp)
    simp only [hM] at h
    cases hb : backtrack cfg trial M δ f0 1 (trial s 1).1 (trial s 1).2 0 with
    | none => rw [hb] at h; simp at h
    | some q => rw [hb] at h; simp at h

/-- Everything known of a finished line search. -/
structure LSPost (cfg : LSConfig K) (trial : σ → K → σ × K) (Inv : σ → Prop) (mem : List K)
    (f0 δ : K) (r : LSResult σ K) : Prop where
  mem_eq : r.mem = mem.tail ++ [f0]
  pos : 0 < r.stepSize
  le : r.stepSize ≤ 1
  trial_eq : ∃ s0, Inv s0 ∧ trial s0 r.stepSize = (r.state, r.cost)
  accept : (∃ fMax ∈ r.mem, (∀ f ∈ r.mem, f ≤ fMax) ∧
      r.cost ≤ fMax + cfg.gamma * δ * r.stepSize) ∨ r.stepSize < cfg.stepSizeTolerance

theorem lineSearch_post {cfg : LSConfig K} {trial : σ → K → σ × K} {Inv : σ → Prop}
    (h1 : 0 < cfg.sigmaOne) (h2 : cfg.sigmaTwo < 1)
    (hInv : ∀ s lam, Inv s → 0 < lam → lam ≤ 1 → Inv (trial s lam).1)
    {mem : List K} {s : σ} {f0 δ : K} {r : LSResult σ K} (hs : Inv s)
    (hr : lineSearch cfg trial mem s f0 δ = Py.ok r) : LSPost cfg trial Inv mem f0 δ r := by
  rw [lineSearch_eq_ok] at hr
  obtain ⟨hne, hmem, fMax, hM, hb⟩ := hr
  have hp := backtrack_post (Inv := Inv) h1 h2 hInv _ _ _ _ _ hb one_pos le_rfl
    (hInv _ _ hs one_pos le_rfl) ⟨s, hs, rfl⟩
  obtain ⟨M, hM', hMem, hMax⟩ := foldMax_spec (mem.tail ++ [f0]) (by simp)
  rw [hM] at hM'
  obtain rfl := Option.some.inj hM'
  refine ⟨hmem, hp.pos, hp.le, hp.trial_eq, ?_⟩
  rcases hp.accept with h | h
  · exact Or.inl ⟨fMax, by rw [hmem]; exact hMem, by rw [hmem]; exact hMax, h⟩
  · exact Or.inr h

/-- With one remembered cost and small enough tolerance the line search ends at an acceptable
step. -/
theorem lineSearch_descends {cfg : LSConfig K} {trial : σ → K → σ × K} {Inv : σ → Prop}
    (h1 : 0 < cfg.sigmaOne) (h2 : cfg.sigmaTwo < 1)
    (hInv : ∀ s lam, Inv s → 0 < lam → lam ≤ 1 → Inv (trial s lam).1)
    {lstar : K} {m0 : K} {s : σ} {f0 δ : K} {r : LSResult σ K} (hs : Inv s)
    (harm : ∀ s lam, Inv s → 0 < lam → lam ≤ 1 → lam ≤ lstar →
      (trial s lam).2 ≤ f0 + cfg.gamma * δ * lam)
    (ht1 : cfg.stepSizeTolerance ≤ cfg.sigmaOne) (ht2 : cfg.stepSizeTolerance ≤ lstar / 2)
    (hr : lineSearch cfg trial [m0] s f0 δ = Py.ok r) :
    r.cost ≤ f0 + cfg.gamma * δ * r.stepSize := by
  rw [lineSearch_eq_ok] at hr
  obtain ⟨hne, hmem, fMax, hM, hb⟩ := hr
  have : fMax = f0 := by
    simp [foldMax, maxStep] at hM
    exact hM.symm
  subst this
  exact backtrack_accepts (Inv := Inv) h1 h2 hInv harm ht1 ht2 _ _ _ _ _ hb one_pos le_rfl
    (hInv _ _ hs one_pos le_rfl) ⟨s, hs, rfl⟩

theorem lineSearch_terminates {cfg : LSConfig K} {trial : σ → K → σ × K}
    (h1 : 0 < cfg.sigmaOne) {mem : List K} (hmem : mem ≠ []) {s : σ} {f0 δ : K} (N : ℕ)
    (hN : shrink cfg.sigmaTwo ^ (N + 1) < cfg.stepSizeTolerance) :
    ∃ r, lineSearch cfg trial mem s f0 δ = Py.ok r ∧ r.rounds ≤ N + 1 := by
  obtain ⟨M, hM, -, -⟩ := foldMax_spec (mem.tail ++ [f0]) (by simp)
  obtain ⟨⟨a1, a2, a3, a4⟩, hr, hn⟩ := backtrack_terminates (trial := trial) (fMax := M) (δ := δ)
    (f0 := f0) h1 N 1 (trial s 1).1 (trial s 1).2 0 one_pos (by simpa using hN)
  refine ⟨⟨mem.tail ++ [f0], a1, a2, a3, a4⟩, ?_, by simpa using hn⟩
  rw [lineSearch_eq_ok]
  exact ⟨hmem, rfl, M, hM, hr⟩

theorem lineSearch_terminates_armijo {cfg : LSConfig K} {trial : σ → K → σ × K} {Inv : σ → Prop}
    (h1 : 0 < cfg.sigmaOne) (h2 : cfg.sigmaTwo < 1)
    (hInv : ∀ s lam, Inv s → 0 < lam → lam ≤ 1 → Inv (trial s lam).1)
    {lstar : K} {mem : List K} (hmem : mem ≠ []) {s : σ} {f0 δ : K} (hs : Inv s)
    (harm : ∀ s lam, Inv s → 0 < lam → lam ≤ 1 → lam ≤ lstar →
      (trial s lam).2 ≤ f0 + cfg.gamma * δ * lam)
    (N : ℕ) (hN : shrink cfg.sigmaTwo ^ N ≤ lstar) :
    ∃ r, lineSearch cfg trial mem s f0 δ = Py.ok r := by
  obtain ⟨M, hM, -, hle⟩ := foldMax_spec (mem.tail ++ [f0]) (by simp)
  have hf0 := hle f0 (by simp)
  obtain ⟨⟨a1, a2, a3, a4⟩, hr, hn⟩ := backtrack_terminates_armijo (Inv := Inv) (trial := trial)
    (fMax := M) (δ := δ) (f0 := f0) h1 h2 hInv
    (fun s lam h1 h2 h3 h4 => (harm s lam h1 h2 h3 h4).trans (by linarith)) N 1
    (trial s 1).1 (trial s 1).2 0 one_pos le_rfl (hInv _ _ hs one_pos le_rfl) ⟨s, hs, rfl⟩
    (by simpa using hN)
  refine ⟨⟨mem.tail ++ [f0], a1, a2, a3, a4⟩, ?_⟩
  rw [lineSearch_eq_ok]
  exact ⟨hmem, rfl, M, hM, hr⟩

/-- A trial does not depend on the trials made before. -/
def Retriable (trial : σ → K → σ × K) : Prop := ∀ s a b, trial (trial s a).1 b = trial s b

/-- A finished loop stands at a trial from an admissible state, for any settings whatever. -/
theorem backtrack_trial {cfg : LSConfig K} {trial : σ → K → σ × K} {Inv : σ → Prop}
    {fMax δ f0 : K} (hInv : ∀ s lam, Inv s → Inv (trial s lam).1)
    (step : K) (s : σ) (c : K) (n : ℕ) (r : K × σ × K × ℕ)
    (hr : backtrack cfg trial fMax δ f0 step s c n = some r) (hs : Inv s)
    (htr : ∃ s0, Inv s0 ∧ trial s0 step = (s, c)) :
    (∃ s0, Inv s0 ∧ trial s0 r.1 = (r.2.1, r.2.2.1)) ∧
      (r.2.2.1 ≤ fMax + cfg.gamma * δ * r.1 ∨ |r.1| < cfg.stepSizeTolerance) := by
  have key := backtrack.partial_correctness cfg trial fMax δ f0
    (motive := fun step s c _ r => Inv s → (∃ s0, Inv s0 ∧ trial s0 step = (s, c)) →
      (∃ s0, Inv s0 ∧ trial s0 r.1 = (r.2.1, r.2.2.1)) ∧
      (r.2.2.1 ≤ fMax + cfg.gamma * δ * r.1 ∨ |r.1| < cfg.stepSizeTolerance))
    (by
      intro bt ih step s c n r hr hs htr
      simp only at hr
      split_ifs at hr with hc htol
      · simp only [Option.some.injEq] at hr
        subst hr
        exact ⟨⟨s, hs, rfl⟩, Or.inr htol⟩
      · exact ih _ _ _ _ r hr (hInv _ _ hs) ⟨s, hs, rfl⟩
      · simp only [Option.some.injEq] at hr
        subst hr
        exact ⟨htr, Or.inl (not_lt.mp hc)⟩)
    step s c n r hr
  exact key hs htr

/-! ### The range of the step -/

/-- What is known of the range of the step that a line search along a direction of slope `δ` ends
with, according to the settings. -/
structure StepRange (cfg : LSConfig K) (δ lam : K) : Prop where
  pos_sigma : 0 < cfg.sigmaOne → 0 < lam
  pos_slope : δ < 0 → cfg.gamma ≤ 1 → 0 < lam
  nonneg : 0 ≤ cfg.sigmaOne ∨ (δ ≤ 0 ∧ cfg.gamma ≤ 1) → 0 ≤ lam
  le_one : 0 ≤ cfg.sigmaOne ∨ (δ ≤ 0 ∧ cfg.gamma ≤ 1) →
    cfg.sigmaTwo ≤ 1 ∨ (δ ≤ 0 ∧ cfg.gamma ≤ 1 / 2) → lam ≤ 1

/-- A rejected trial is above the parabola of curvature `gamma - 1`. -/
theorem rejected_denom {fMax f0 c gamma δ lam : K} (hf : f0 ≤ fMax)
    (hc : c > fMax + gamma * δ * lam) : (1 - gamma) * (-δ * lam) < c - f0 - lam * δ := by
  nlinarith

theorem nextStep_pos_slope {lam δ f0 f1 s1 s2 gamma fMax : K} (hl : 0 < lam) (hδ : δ < 0)
    (hg : gamma ≤ 1) (hf : f0 ≤ fMax) (hc : f1 > fMax + gamma * δ * lam) :
    0 < nextSpgStepLength lam δ f0 f1 s1 s2 := by
  rcases nextStep_cases lam δ f0 f1 s1 s2 with h | ⟨-, -, -, h⟩
  · rw [h]; positivity
  · rw [h]
    have h1 := rejected_denom hf hc
    have h2 : 0 ≤ (1 - gamma) * (-δ * lam) :=
      mul_nonneg (by linarith) (mul_nonneg (by linarith) hl.le)
    exact div_pos (by nlinarith [mul_pos (pow_pos hl 2) (neg_pos.2 hδ)]) (h2.trans_lt h1)

theorem nextStep_nonneg {lam δ f0 f1 s1 s2 gamma fMax : K} (hl : 0 ≤ lam) (hf : f0 ≤ fMax)
    (hc : f1 > fMax + gamma * δ * lam) (h : 0 ≤ s1 ∨ (δ ≤ 0 ∧ gamma ≤ 1)) :
    0 ≤ nextSpgStepLength lam δ f0 f1 s1 s2 := by
  rcases nextStep_cases lam δ f0 f1 s1 s2 with h' | ⟨h3, -, -, h'⟩
  · rw [h']; positivity
  · rcases h with h | ⟨hδ, hg⟩
    · exact h.trans h3
    · rw [h']
      have h1 := rejected_denom hf hc
      have h2 : 0 ≤ (1 - gamma) * (-δ * lam) :=
        mul_nonneg (by linarith) (mul_nonneg (by linarith) hl)
      exact div_nonneg (by nlinarith [mul_nonneg (pow_nonneg hl 2) (neg_nonneg.2 hδ)])
        (h2.trans_lt h1).le

theorem nextStep_le_of_slope {lam δ f0 f1 s1 s2 gamma fMax : K} (hl : 0 ≤ lam) (hf : f0 ≤ fMax)
    (hc : f1 > fMax + gamma * δ * lam) (h : s2 ≤ 1 ∨ (δ ≤ 0 ∧ gamma ≤ 1 / 2)) :
    nextSpgStepLength lam δ f0 f1 s1 s2 ≤ lam := by
  rcases nextStep_cases lam δ f0 f1 s1 s2 with h' | ⟨-, h3, -, h'⟩
  · rw [h']; linarith
  · rcases h with h | ⟨hδ, hg⟩
    · exact h3.trans (by nlinarith)
    · rw [h']
      have h1 := rejected_denom hf hc
      have h0 : 0 ≤ -δ * lam := mul_nonneg (by linarith) hl
      have h2 : 1 / 2 * (-δ * lam) ≤ (1 - gamma) * (-δ * lam) :=
        mul_le_mul_of_nonneg_right (by linarith) h0
      have h4 : 0 < f1 - f0 - lam * δ := lt_of_le_of_lt (by linarith) h1
      rw [div_le_iff₀ h4]
      have h5 : 1 / 2 * (-δ * lam) ≤ f1 - f0 - lam * δ := h2.trans h1.le
      calc -(1 / 2) * lam ^ 2 * δ = lam * (1 / 2 * (-δ * lam)) := by ring
        _ ≤ _ := mul_le_mul_of_nonneg_left h5 hl

/-- Range of the final step of the loop. -/
theorem backtrack_range {cfg : LSConfig K} {trial : σ → K → σ × K} {fMax δ f0 : K}
    (hf : f0 ≤ fMax) (step : K) (s : σ) (c : K) (n : ℕ) (r : K × σ × K × ℕ)
    (hr : backtrack cfg trial fMax δ f0 step s c n = some r) :
    (0 < step → 0 < cfg.sigmaOne → 0 < r.1) ∧
    (0 < step → δ < 0 → cfg.gamma ≤ 1 → 0 < r.1) ∧
    (0 ≤ step → (0 ≤ cfg.sigmaOne ∨ (δ ≤ 0 ∧ cfg.gamma ≤ 1)) → 0 ≤ r.1) ∧
    (0 ≤ step → (0 ≤ cfg.sigmaOne ∨ (δ ≤ 0 ∧ cfg.gamma ≤ 1)) →
      (cfg.sigmaTwo ≤ 1 ∨ (δ ≤ 0 ∧ cfg.gamma ≤ 1 / 2)) → r.1 ≤ step) := by
  refine backtrack.partial_correctness cfg trial fMax δ f0
    (motive := fun step _ _ _ r => (0 < step → 0 < cfg.sigmaOne → 0 < r.1) ∧
    (0 < step → δ < 0 → cfg.gamma ≤ 1 → 0 < r.1) ∧
    (0 ≤ step → (0 ≤ cfg.sigmaOne ∨ (δ ≤ 0 ∧ cfg.gamma ≤ 1)) → 0 ≤ r.1) ∧
    (0 ≤ step → (0 ≤ cfg.sigmaOne ∨ (δ ≤ 0 ∧ cfg.gamma ≤ 1)) →
      (cfg.sigmaTwo ≤ 1 ∨ (δ ≤ 0 ∧ cfg.gamma ≤ 1 / 2)) → r.1 ≤ step)) ?_ step s c n r hr
  intro bt ih step s c n r hr
  simp only at hr
  split_ifs at hr with hc htol
  · simp only [Option.some.injEq] at hr
    subst hr
    exact ⟨fun h0 h1 => nextStep_pos h0 h1, fun h0 h1 h2 => nextStep_pos_slope h0 h1 h2 hf hc,
      fun h0 h1 => nextStep_nonneg h0 hf hc h1, fun h0 _ h2 => nextStep_le_of_slope h0 hf hc h2⟩
  · obtain ⟨a, b, d, e⟩ := ih _ _ _ _ r hr
    exact ⟨fun h0 h1 => a (nextStep_pos h0 h1) h1,
      fun h0 h1 h2 => b (nextStep_pos_slope h0 h1 h2 hf hc) h1 h2,
      fun h0 h1 => d (nextStep_nonneg h0 hf hc h1) h1,
      fun h0 h1 h2 => (e (nextStep_nonneg h0 hf hc h1) h1 h2).trans
        (nextStep_le_of_slope h0 hf hc h2)⟩
  · simp only [Option.some.injEq] at hr
    subst hr
    exact ⟨fun h0 _ => h0, fun h0 _ _ => h0, fun h0 _ => h0, fun _ _ _ => le_rfl⟩

theorem lineSearch_range {cfg : LSConfig K} {trial : σ → K → σ × K} {mem : List K} {s : σ}
    {f0 δ : K} {r : LSResult σ K} (hr : lineSearch cfg trial mem s f0 δ = Py.ok r) :
    StepRange cfg δ r.stepSize := by
  obtain ⟨-, -, fMax, hM, hb⟩ := lineSearch_eq_ok.1 hr
  obtain ⟨M, hM', -, hMax⟩ := foldMax_spec (mem.tail ++ [f0]) (by simp)
  rw [hM] at hM'
  obtain rfl := Option.some.inj hM'
  obtain ⟨a, b, d, e⟩ := backtrack_range (hMax f0 (by simp)) _ _ _ _ _ hb
  exact ⟨a one_pos, b one_pos, d zero_le_one, e zero_le_one⟩

/-- The next step does not exceed 1 for the settings of `C10_step_le_one_iff`. -/
theorem nextStep_le_one {lam δ f0 f1 s1 s2 gamma fMax : K} (hl : 0 ≤ lam) (hl1 : lam ≤ 1)
    (hδ : δ ≤ 0) (hf : f0 ≤ fMax) (hc : f1 > fMax + gamma * δ * lam)
    (h : s2 ≤ 1 ∨ gamma ≤ 1 / 2 ∨ s2 < s1 ∨ (gamma < 1 ∧ 1 / (2 * (1 - gamma)) ≤ s1)) :
    nextSpgStepLength lam δ f0 f1 s1 s2 ≤ 1 := by
  rcases h with h | h | h | ⟨hg, h⟩
  · exact (nextStep_le_of_slope hl hf hc (Or.inl h)).trans hl1
  · exact (nextStep_le_of_slope hl hf hc (Or.inr ⟨hδ, h⟩)).trans hl1
  · rcases nextStep_cases lam δ f0 f1 s1 s2 with h' | ⟨h2, h3, -, -⟩
    · rw [h']; linarith
    · rcases le_total s2 0 with h4 | h4
      · exact h3.trans ((mul_nonpos_of_nonpos_of_nonneg h4 hl).trans zero_le_one)
      · have := mul_le_of_le_one_right h4 hl1
        linarith
  · rcases nextStep_cases lam δ f0 f1 s1 s2 with h' | ⟨h2, -, -, h'⟩
    · rw [h']; linarith
    · have hg' : 0 < 1 - gamma := by linarith
      rcases hδ.lt_or_eq with hδ | rfl
      · rcases hl.lt_or_eq with hl | rfl
        · have hd := rejected_denom hf hc
          have hp : 0 < (1 - gamma) * (-δ * lam) := mul_pos hg' (mul_pos (by linarith) hl)
          have hlt : nextSpgStepLength lam δ f0 f1 s1 s2 < lam / (2 * (1 - gamma)) := by
            rw [h', div_lt_div_iff₀ (hp.trans hd) (by linarith)]
            calc -(1 / 2) * lam ^ 2 * δ * (2 * (1 - gamma)) = lam * ((1 - gamma) * (-δ * lam)) := by
                  ring
              _ < _ := mul_lt_mul_of_pos_left hd hl
          have : lam / (2 * (1 - gamma)) ≤ 1 / (2 * (1 - gamma)) :=
            div_le_div_of_nonneg_right hl1 (by linarith)
          linarith
        · rw [h']; simp
      · rw [h']; simp

theorem backtrack_le_one {cfg : LSConfig K} {trial : σ → K → σ × K} {fMax δ f0 : K}
    (h1 : 0 ≤ cfg.sigmaOne) (hδ : δ ≤ 0) (hf : f0 ≤ fMax)
    (h : cfg.sigmaTwo ≤ 1 ∨ cfg.gamma ≤ 1 / 2 ∨ cfg.sigmaTwo < cfg.sigmaOne ∨
      (cfg.gamma < 1 ∧ 1 / (2 * (1 - cfg.gamma)) ≤ cfg.sigmaOne))
    (step : K) (s : σ) (c : K) (n : ℕ) (r : K × σ × K × ℕ)
    (hr : backtrack cfg trial fMax δ f0 step s c n = some r) : 0 ≤ step → step ≤ 1 → r.1 ≤ 1 := by
  refine backtrack.partial_correctness cfg trial fMax δ f0
    (motive := fun step _ _ _ r => 0 ≤ step → step ≤ 1 → r.1 ≤ 1) ?_ step s c n r hr
  intro bt ih step s c n r hr h0 hl1
  simp only at hr
  split_ifs at hr with hc htol
  · simp only [Option.some.injEq] at hr
    subst hr
    exact nextStep_le_one h0 hl1 hδ hf hc h
  · exact ih _ _ _ _ r hr (nextStep_nonneg h0 hf hc (Or.inl h1))
      (nextStep_le_one h0 hl1 hδ hf hc h)
  · simp only [Option.some.injEq] at hr
    subst hr
    exact hl1

theorem lineSearch_le_one {cfg : LSConfig K} {trial : σ → K → σ × K} {mem : List K} {s : σ}
    {f0 δ : K} {r : LSResult σ K} (h1 : 0 ≤ cfg.sigmaOne) (hδ : δ ≤ 0)
    (h : cfg.sigmaTwo ≤ 1 ∨ cfg.gamma ≤ 1 / 2 ∨ cfg.sigmaTwo < cfg.sigmaOne ∨
      (cfg.gamma < 1 ∧ 1 / (2 * (1 - cfg.gamma)) ≤ cfg.sigmaOne))
    (hr : lineSearch cfg trial mem s f0 δ = Py.ok r) : r.stepSize ≤ 1 := by
  obtain ⟨-, -, fMax, hM, hb⟩ := lineSearch_eq_ok.1 hr
  obtain ⟨M, hM', -, hMax⟩ := foldMax_spec (mem.tail ++ [f0]) (by simp)
  rw [hM] at hM'
  obtain rfl := Option.some.inj hM'
  exact backtrack_le_one h1 hδ (hMax f0 (by simp)) h _ _ _ _ _ hb zero_le_one le_rfl

/-- A search along the slope `-1` that ends with the step `a ≠ 1`. -/
theorem lineSearch_reaches {cfg : LSConfig K} {a : K} (ha : 1 < a) (h1 : cfg.sigmaOne ≤ a)
    (h2 : a ≤ cfg.sigmaTwo) (hg : 1 - cfg.gamma < 1 / (2 * a)) :
    ∃ (trial : Unit → K → Unit × K) (r : LSResult Unit K),
      lineSearch cfg trial [0] () 0 (-1) = Py.ok r ∧ r.stepSize = a := by
  have ha0 : 0 < a := by linarith
  have hstep : nextSpgStepLength 1 (-1) 0 (1 / (2 * a) - 1) cfg.sigmaOne cfg.sigmaTwo = a := by
    have hd : 1 / (2 * a) - 1 - 0 - 1 * -1 = 1 / (2 * a) := by ring
    have hn : 1 / (2 * a) ≠ 0 := by positivity
    have hq : -(1 / 2) * (1 : K) ^ 2 * -1 / (1 / (2 * a)) = a := by field_simp
    unfold nextSpgStepLength
    simp only [hd, hq]
    rw [if_neg hn, if_pos ⟨h1, by simpa using h2⟩]
  refine ⟨fun _ t => ((), if t = 1 then 1 / (2 * a) - 1 else -(cfg.gamma * t)),
    ⟨[0], a, (), -(cfg.gamma * a), 1⟩, ?_, rfl⟩
  rw [lineSearch_eq_ok]
  refine ⟨by simp, rfl, 0, rfl, ?_⟩
  rw [backtrack_unfold]
  simp only [if_true]
  rw [if_pos (by linarith), hstep, if_neg ha.ne']
  split_ifs
  · rfl
  · rw [backtrack_unfold, if_neg (by simp)]

/-- The settings for which no line search along a direction that does not increase the cost to first
order ends with a step above 1. -/
theorem step_le_one_iff {cfg : LSConfig K} (h1 : 0 ≤ cfg.sigmaOne) :
    (∀ (trial : Unit → K → Unit × K) (mem : List K) (f0 δ : K) (r : LSResult Unit K), δ ≤ 0 →
      lineSearch cfg trial mem () f0 δ = Py.ok r → r.stepSize ≤ 1) ↔
    (cfg.sigmaTwo ≤ 1 ∨ cfg.gamma ≤ 1 / 2 ∨ cfg.sigmaTwo < cfg.sigmaOne ∨
      (cfg.gamma < 1 ∧ 1 / (2 * (1 - cfg.gamma)) ≤ cfg.sigmaOne)) := by
  refine ⟨fun H => ?_, fun h _ _ _ _ _ hδ hr => lineSearch_le_one h1 hδ h hr⟩
  by_contra hcon
  push Not at hcon
  obtain ⟨c1, c2, c3, c4⟩ := hcon
  have key : ∀ a : K, 1 < a → cfg.sigmaOne ≤ a → a ≤ cfg.sigmaTwo → 1 - cfg.gamma < 1 / (2 * a) →
      False := by
    intro a h1 h2 h3 h4
    obtain ⟨trial, r, hr, he⟩ := lineSearch_reaches h1 h2 h3 h4
    have := H trial [0] 0 (-1) r (by simp) hr
    linarith
  rcases le_or_gt 1 cfg.gamma with hg | hg
  · exact key cfg.sigmaTwo c1 c3 le_rfl
      (lt_of_le_of_lt (sub_nonpos.2 hg) (by have := zero_lt_one.trans c1; positivity))
  · have hg' : 0 < 1 - cfg.gamma := by linarith
    have hu := c4 hg
    have hu1 : 1 < 1 / (2 * (1 - cfg.gamma)) := by
      rw [lt_div_iff₀ (by linarith)]; linarith
    have hm : max 1 cfg.sigmaOne < 1 / (2 * (1 - cfg.gamma)) := max_lt hu1 hu
    have hcond : ∀ a : K, 0 < a → a < 1 / (2 * (1 - cfg.gamma)) → 1 - cfg.gamma < 1 / (2 * a) := by
      intro a ha h
      rw [lt_div_iff₀ (by linarith)] at h ⊢
      linarith
    rcases lt_or_ge cfg.sigmaTwo (1 / (2 * (1 - cfg.gamma))) with h | h
    · exact key cfg.sigmaTwo c1 c3 le_rfl (hcond _ (zero_lt_one.trans c1) h)
    · set u := 1 / (2 * (1 - cfg.gamma))
      have a1 := le_max_left 1 cfg.sigmaOne
      have a2 := le_max_right 1 cfg.sigmaOne
      exact key ((max 1 cfg.sigmaOne + u) / 2) (by linarith) (by linarith) (by linarith)
        (hcond _ (by linarith) (by linarith))

/-- Contraction by `gamma` alone, whatever the safeguards. -/
theorem nextStep_le_ratio {lam δ f0 f1 s1 s2 gamma fMax : K} (hl : 0 ≤ lam) (hδ : δ ≤ 0)
    (hg : gamma < 1) (hf : f0 ≤ fMax) (hc : f1 > fMax + gamma * δ * lam) :
    nextSpgStepLength lam δ f0 f1 s1 s2 ≤ max (1 / 2) (1 / (2 * (1 - gamma))) * lam := by
  rcases nextStep_cases lam δ f0 f1 s1 s2 with h' | ⟨-, -, -, h'⟩
  · rw [h']; exact mul_le_mul_of_nonneg_right (le_max_left _ _) hl
  · refine le_trans ?_ (mul_le_mul_of_nonneg_right (le_max_right _ _) hl)
    have hg' : 0 < 1 - gamma := by linarith
    have hd := rejected_denom hf hc
    have h0 : 0 ≤ -δ * lam := mul_nonneg (by linarith) hl
    have h4 : 0 < f1 - f0 - lam * δ := lt_of_le_of_lt (mul_nonneg hg'.le h0) hd
    rw [h', div_mul_eq_mul_div, one_mul, div_le_div_iff₀ h4 (by linarith)]
    calc -(1 / 2) * lam ^ 2 * δ * (2 * (1 - gamma)) = lam * ((1 - gamma) * (-δ * lam)) := by ring
      _ ≤ _ := mul_le_mul_of_nonneg_left hd.le hl

theorem backtrack_terminates_slope {cfg : LSConfig K} {trial : σ → K → σ × K} {fMax δ f0 : K}
    (hδ : δ ≤ 0) (hg : cfg.gamma < 1) (hf : f0 ≤ fMax) (N : ℕ) :
    ∀ (step : K) (s : σ) (c : K) (n : ℕ), 0 ≤ step →
      max (1 / 2) (1 / (2 * (1 - cfg.gamma))) ^ (N + 1) * step < cfg.stepSizeTolerance →
      ∃ r, backtrack cfg trial fMax δ f0 step s c n = some r ∧ r.2.2.2 ≤ n + (N + 1) := by
  have hq : 0 ≤ max (1 / 2) (1 / (2 * (1 - cfg.gamma))) := le_max_of_le_left (by norm_num)
  set q := max (1 / 2) (1 / (2 * (1 - cfg.gamma))) with hqdef
  induction N with
  | zero =>
    intro step s c n hpos hN
    rw [zero_add, pow_one] at hN
    rw [backtrack_unfold]
    split_ifs with hc
    · have hp := nextStep_nonneg (s1 := cfg.sigmaOne) (s2 := cfg.sigmaTwo) hpos hf hc
        (Or.inr ⟨hδ, hg.le⟩)
      have hl := nextStep_le_ratio (s1 := cfg.sigmaOne) (s2 := cfg.sigmaTwo) hpos hδ hg hf hc
      simp only
      rw [if_pos (by rw [abs_of_nonneg hp]; linarith)]
      exact ⟨_, rfl, by simp⟩
    · exact ⟨_, rfl, by simp⟩
  | succ N ih =>
    intro step s c n hpos hN
    rw [backtrack_unfold]
    split_ifs with hc
    · have hp := nextStep_nonneg (s1 := cfg.sigmaOne) (s2 := cfg.sigmaTwo) hpos hf hc
        (Or.inr ⟨hδ, hg.le⟩)
      have hl := nextStep_le_ratio (s1 := cfg.sigmaOne) (s2 := cfg.sigmaTwo) hpos hδ hg hf hc
      simp only
      split_ifs with ht
      · exact ⟨_, rfl, by simp⟩
      · obtain ⟨r, hr, hn⟩ := ih (nextSpgStepLength step δ f0 c cfg.sigmaOne cfg.sigmaTwo)
          (trial s (nextSpgStepLength step δ f0 c cfg.sigmaOne cfg.sigmaTwo)).1
          (trial s (nextSpgStepLength step δ f0 c cfg.sigmaOne cfg.sigmaTwo)).2 (n + 1) hp (by
            refine lt_of_le_of_lt ?_ hN
            calc _ ≤ q ^ (N + 1) * (q * step) := mul_le_mul_of_nonneg_left hl (pow_nonneg hq _)
              _ = _ := by ring)
        exact ⟨r, hr, by omega⟩
    · exact ⟨_, rfl, by simp⟩

theorem lineSearch_terminates_slope {cfg : LSConfig K} {trial : σ → K → σ × K}
    {mem : List K} (hmem : mem ≠ []) {s : σ} {f0 δ : K} (hδ : δ ≤ 0) (hg : cfg.gamma < 1) (N : ℕ)
    (hN : max (1 / 2) (1 / (2 * (1 - cfg.gamma))) ^ (N + 1) < cfg.stepSizeTolerance) :
    ∃ r, lineSearch cfg trial mem s f0 δ = Py.ok r ∧ r.rounds ≤ N + 1 := by
  obtain ⟨M, hM, -, hMax⟩ := foldMax_spec (mem.tail ++ [f0]) (by simp)
  obtain ⟨⟨a1, a2, a3, a4⟩, hr, hn⟩ := backtrack_terminates_slope (trial := trial) (fMax := M)
    hδ hg (hMax f0 (by simp)) N 1 (trial s 1).1 (trial s 1).2 0 zero_le_one (by simpa using hN)
  refine ⟨⟨mem.tail ++ [f0], a1, a2, a3, a4⟩, ?_, by simpa using hn⟩
  rw [lineSearch_eq_ok]
  exact ⟨hmem, rfl, M, hM, hr⟩

/-- A loop whose step alternates between 1 and 2. -/
theorem backtrack_cycle {cfg : LSConfig ℚ} (hg : 3 / 4 < cfg.gamma) (h1 : 0 < cfg.sigmaOne)
    (h1' : cfg.sigmaOne ≤ 2) (h2 : 2 ≤ cfg.sigmaTwo)
    {trial : Unit → ℚ → Unit × ℚ} (t1 : (trial () 1).2 = -3 / 4)
    (t2 : (trial () 2).2 = 2 / cfg.sigmaOne) (ht : cfg.stepSizeTolerance ≤ 1)
    (step : ℚ) (s : Unit) (c : ℚ) (n : ℕ) (r : ℚ × Unit × ℚ × ℕ)
    (hr : backtrack cfg trial 0 (-1) 0 step s c n = some r) :
    ¬ ((step = 1 ∧ c = -3 / 4) ∨ (step = 2 ∧ c = 2 / cfg.sigmaOne)) := by
  refine backtrack.partial_correctness cfg trial 0 (-1) 0
    (motive := fun step _ c _ _ => ¬ ((step = 1 ∧ c = -3 / 4) ∨ (step = 2 ∧ c = 2 / cfg.sigmaOne)))
    ?_ step s c n r hr
  intro bt ih step s c n r hr h
  have hp : 0 < 2 / cfg.sigmaOne := by positivity
  have n1 : nextSpgStepLength 1 (-1) 0 (-3 / 4) cfg.sigmaOne cfg.sigmaTwo = 2 := by
    unfold nextSpgStepLength
    simp only
    rw [if_neg (by norm_num), if_pos ⟨by norm_num; linarith, by norm_num; linarith⟩]
    norm_num
  have n2 : nextSpgStepLength 2 (-1) 0 (2 / cfg.sigmaOne) cfg.sigmaOne cfg.sigmaTwo = 1 := by
    unfold nextSpgStepLength
    have hd : 2 / cfg.sigmaOne - 0 - 2 * -1 ≠ 0 := by linarith
    simp only
    rw [if_neg hd, if_neg]
    · norm_num
    · rintro ⟨h3, -⟩
      rw [le_div_iff₀ (by linarith)] at h3
      have : cfg.sigmaOne * (2 / cfg.sigmaOne) = 2 := by field_simp
      nlinarith
  simp only at hr
  rcases h with ⟨rfl, rfl⟩ | ⟨rfl, rfl⟩
  · rw [if_pos (by linarith), n1, if_neg (by rw [abs_of_pos (by norm_num)]; linarith)] at hr
    exact ih _ _ _ _ _ hr (Or.inr ⟨rfl, t2⟩)
  · rw [if_pos (by linarith), n2, if_neg (by rw [abs_one]; linarith)] at hr
    exact ih _ _ _ _ _ hr (Or.inl ⟨rfl, t1⟩)

theorem StepRange.le {cfg : LSConfig K} {δ lam : K} (h : StepRange cfg δ lam)
    (h1 : 0 < cfg.sigmaOne) (h2 : cfg.sigmaTwo < 1) : lam ≤ 1 :=
  h.le_one (Or.inl h1.le) (Or.inl h2.le)

/-- Everything a finished line search guarantees, in terms of trials from the starting state.  Only
the range of the step depends on the settings. -/
theorem lineSearch_spec {cfg : LSConfig K} {trial : σ → K → σ × K} (hre : Retriable trial)
    {mem : List K} {s : σ} {f0 δ : K} {r : LSResult σ K}
    (hr : lineSearch cfg trial mem s f0 δ = Py.ok r) :
    StepRange cfg δ r.stepSize ∧
    r.mem = mem.tail ++ [f0] ∧ mem ≠ [] ∧
    trial s r.stepSize = (r.state, r.cost) ∧
    ((∃ fMax ∈ mem.tail ++ [f0], (∀ f ∈ mem.tail ++ [f0], f ≤ fMax) ∧
      r.cost ≤ fMax + cfg.gamma * δ * r.stepSize) ∨ |r.stepSize| < cfg.stepSizeTolerance) := by
  obtain ⟨hne, hmem, fMax, hM, hb⟩ := lineSearch_eq_ok.1 hr
  obtain ⟨⟨s0, hs0, ht⟩, hacc⟩ := backtrack_trial (Inv := fun x => ∀ b, trial x b = trial s b)
    (fun x lam hx b => by rw [hre, hx]) _ _ _ _ _ hb (fun b => by rw [hre]) ⟨s, fun _ => rfl, rfl⟩
  obtain ⟨M, hM', hMem, hMax⟩ := foldMax_spec (mem.tail ++ [f0]) (by simp)
  rw [hM] at hM'
  obtain rfl := Option.some.inj hM'
  refine ⟨lineSearch_range hr, hmem, hne, ?_, ?_⟩
  · rw [← hs0]; exact ht
  · rcases hacc with h | h
    · exact Or.inl ⟨fMax, hMem, hMax, h⟩
    · exact Or.inr h

/-- If the full step is acceptable it is taken. -/
theorem lineSearch_full {cfg : LSConfig K} {trial : σ → K → σ × K} {mem : List K} {s : σ}
    {f0 δ fMax : K} {r : LSResult σ K} (hM : fMax ∈ mem.tail ++ [f0])
    (hacc : (trial s 1).2 ≤ fMax + cfg.gamma * δ * 1)
    (hr : lineSearch cfg trial mem s f0 δ = Py.ok r) : r.stepSize = 1 := by
  obtain ⟨hne, hmem, M, hM', hb⟩ := lineSearch_eq_ok.1 hr
  obtain ⟨M', h1, -, h3⟩ := foldMax_spec (mem.tail ++ [f0]) (by simp)
  rw [hM'] at h1
  simp only [Option.some.injEq] at h1
  subst h1
  rw [backtrack_unfold, if_neg (by have := h3 _ hM; push Not; linarith)] at hb
  simp only [Option.some.injEq, Prod.mk.injEq] at hb
  exact hb.1.symm

/-- Descent when every short enough trial is acceptable. -/
theorem lineSearch_descends' {cfg : LSConfig K} {trial : σ → K → σ × K}
    (h1 : 0 < cfg.sigmaOne) (h2 : cfg.sigmaTwo < 1) (hre : Retriable trial)
    {lstar m0 : K} {s : σ} {f0 δ : K} {r : LSResult σ K}
    (harm : ∀ lam, 0 < lam → lam ≤ 1 → lam ≤ lstar →
      (trial s lam).2 ≤ f0 + cfg.gamma * δ * lam)
    (ht1 : cfg.stepSizeTolerance ≤ cfg.sigmaOne) (ht2 : cfg.stepSizeTolerance ≤ lstar / 2)
    (hr : lineSearch cfg trial [m0] s f0 δ = Py.ok r) :
    r.cost ≤ f0 + cfg.gamma * δ * r.stepSize :=
  lineSearch_descends (Inv := fun x => ∀ b, trial x b = trial s b) h1 h2
    (fun x lam hx _ _ b => by rw [hre, hx]) (fun _ => rfl)
    (fun x lam hx h3 h4 h5 => by rw [hx]; exact harm lam h3 h4 h5) ht1 ht2 hr

theorem lineSearch_terminates_armijo' {cfg : LSConfig K} {trial : σ → K → σ × K}
    (h1 : 0 < cfg.sigmaOne) (h2 : cfg.sigmaTwo < 1) (hre : Retriable trial)
    {lstar : K} {mem : List K} (hmem : mem ≠ []) {s : σ} {f0 δ : K}
    (harm : ∀ lam, 0 < lam → lam ≤ 1 → lam ≤ lstar →
      (trial s lam).2 ≤ f0 + cfg.gamma * δ * lam)
    (N : ℕ) (hN : shrink cfg.sigmaTwo ^ N ≤ lstar) :
    ∃ r, lineSearch cfg trial mem s f0 δ = Py.ok r :=
  lineSearch_terminates_armijo (Inv := fun x => ∀ b, trial x b = trial s b) h1 h2
    (fun x lam hx _ _ b => by rw [hre, hx]) hmem (fun _ => rfl)
    (fun x lam hx h3 h4 h5 => by rw [hx]; exact harm lam h3 h4 h5) N hN

/-- Short steps along a sufficiently descending direction satisfy the Armijo condition. -/
theorem armijo_of_quadratic {f0 δ q L N alpha gamma lam : K} (hq : q ≤ L * N) (hL : 0 ≤ L)
    (ha : 0 < alpha) (hδ : N + alpha * δ ≤ 0) (hN : 0 ≤ N) (h0 : 0 ≤ lam)
    (hl : lam * (alpha * L) ≤ 1 - gamma) :
    f0 + lam * δ + lam ^ 2 * q ≤ f0 + gamma * δ * lam := by
  have hδ0 : 0 ≤ -δ := by
    by_contra h
    push Not at h
    have : 0 < alpha * δ := mul_pos ha (by linarith)
    linarith
  have h1 : lam * q ≤ lam * (L * N) := mul_le_mul_of_nonneg_left hq h0
  have h2 : lam * (L * N) ≤ lam * (L * (alpha * -δ)) :=
    mul_le_mul_of_nonneg_left (mul_le_mul_of_nonneg_left (by linarith) hL) h0
  have h3 : lam * (alpha * L) * -δ ≤ (1 - gamma) * -δ := mul_le_mul_of_nonneg_right hl hδ0
  have h4 : lam * q ≤ (1 - gamma) * -δ := by
    calc lam * q ≤ lam * (L * (alpha * -δ)) := h1.trans h2
      _ = lam * (alpha * L) * -δ := by ring
      _ ≤ _ := h3
  have h5 : lam * (lam * q) ≤ lam * ((1 - gamma) * -δ) := mul_le_mul_of_nonneg_left h4 h0
  nlinarith

theorem slope_nonpos {δ N alpha : K} (ha : 0 < alpha) (hδ : N + alpha * δ ≤ 0) (hN : 0 ≤ N) :
    δ ≤ 0 := by
  by_contra h
  push Not at h
  have : 0 < alpha * δ := mul_pos ha h
  linarith

theorem exists_pow_shrink_le [Archimedean K] {s2 x : K} (h2 : s2 < 1) (hx : 0 < x) :
    ∃ N, shrink s2 ^ N ≤ x :=
  let ⟨N, hN⟩ := exists_pow_lt_of_lt_one hx (shrink_lt_one h2)
  ⟨N, hN.le⟩

/-- An admissible step bound. -/
theorem exists_lstar {gamma A : K} (hg1 : gamma < 1) (hA : 0 ≤ A) :
    ∃ l, 0 < l ∧ l * A ≤ 1 - gamma := by
  refine ⟨(1 - gamma) / (A + 1), div_pos (by linarith) (by linarith), ?_⟩
  rw [div_mul_eq_mul_div, div_le_iff₀ (by linarith)]
  nlinarith

/-- An acceptable full step is taken at once. -/
theorem lineSearch_first {cfg : LSConfig K} {trial : σ → K → σ × K} {mem : List K} {s : σ}
    {f0 δ : K} (hmem : mem ≠ []) (hacc : (trial s 1).2 ≤ f0 + cfg.gamma * δ) :
    lineSearch cfg trial mem s f0 δ =
      Py.ok ⟨mem.tail ++ [f0], 1, (trial s 1).1, (trial s 1).2, 0⟩ := by
  obtain ⟨M, hM, -, hle⟩ := foldMax_spec (mem.tail ++ [f0]) (by simp)
  rw [lineSearch_eq_ok]
  refine ⟨hmem, rfl, M, hM, ?_⟩
  have := hle f0 (by simp)
  rw [backtrack_unfold, if_neg (by push Not; rw [mul_one]; linarith)]

end Reor
