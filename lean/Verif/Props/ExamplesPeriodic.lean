import Verif.Props.ExamplesSwitching

/-!
C107: the data of the periodic autoregressive example.
-/

set_option linter.unusedSectionVars false

namespace Reor

open scoped BigOperators Matrix
open Spec

/-- The conditional mean, without the loop. -/
theorem periodicMean_eq {T n order : ℕ} (X : Matrix (Fin T) (Fin n) ℝ) (mu : Fin n → ℝ)
    (A : Fin order → Matrix (Fin n) (Fin n) ℝ) (phase : ℝ) (t : Fin T) (d : Fin n) :
    periodicMean X mu A phase t d = phase * (mu d + lagSum A X t d) := by
  have key := foldl_finRange_inv (T := order) (fun (xt : Fin n → ℝ) i =>
    fun d => xt d + ∑ e, (A i d e * phase) * X (lagged t i) e)
    (fun m xt => ∀ d, xt d = mu d * phase + ∑ i : Fin order,
      if (i : ℕ) < m then ∑ e, (A i d e * phase) * X (lagged t i) e else 0) (fun d => mu d * phase)
    (by simp) (by
      intro i xt h d
      have := sum_until_succ (K := ℝ) (order := 0) (Nat.zero_le i) i.2 (fun _ => True)
        (fun i => ∑ e, (A i d e * phase) * X (lagged t i) e)
      simp only [Nat.zero_le, true_and, and_true, if_true] at this
      rw [this, ← add_assoc, ← h d])
  have h := key d
  simp only [Fin.is_lt, if_true] at h
  refine h.trans ?_
  unfold lagSum
  rw [mul_add, Finset.mul_sum]
  congr 1
  · ring
  · refine Finset.sum_congr rfl fun i _ => ?_
    rw [Finset.mul_sum]
    exact Finset.sum_congr rfl fun e _ => by ring

section Run

variable {R : DataRng ℝ} {T n order : ℕ} (v : ℝ) (mu : Fin n → ℝ)
  (A : Fin order → Matrix (Fin n) (Fin n) ℝ) (ph : Fin T → ℝ) (s0 : Matrix (Fin T) (Fin n) ℝ × R.G)

/-- One sample of the loop. -/
noncomputable def periodicStep (s : Matrix (Fin T) (Fin n) ℝ × R.G) (t : Fin T) : Matrix (Fin T) (Fin n) ℝ × R.G :=
  let r := R.mvn (periodicMean s.1 mu A (ph t) t) (noiseCov n v) s.2
  (Function.update s.1 t r.1, r.2)

theorem periodicLoop_spec (ho : order ≤ T) : ∃ state : Fin T → R.G,
    (∀ t : Fin T, (t : ℕ) < order → (((List.finRange T).filter fun t : Fin T => order ≤ (t : ℕ)).foldl
      (periodicStep v mu A ph) s0).1 t = s0.1 t) ∧
    ∀ t : Fin T, order ≤ (t : ℕ) → (((List.finRange T).filter fun t : Fin T => order ≤ (t : ℕ)).foldl
      (periodicStep v mu A ph) s0).1 t = (R.mvn (fun d => ph t * (mu d + lagSum A
        (((List.finRange T).filter fun t : Fin T => order ≤ (t : ℕ)).foldl
          (periodicStep v mu A ph) s0).1 t d)) (noiseCov n v) (state t)).1 := by
  have key := foldl_from_inv order ho (periodicStep v mu A ph)
    (fun m s => ∃ state : Fin T → R.G, (∀ t : Fin T, (t : ℕ) < order → s.1 t = s0.1 t) ∧
      ∀ t : Fin T, order ≤ (t : ℕ) → (t : ℕ) < m →
        s.1 t = (R.mvn (fun d => ph t * (mu d + lagSum A s.1 t d)) (noiseCov n v) (state t)).1) s0
    ⟨fun _ => s0.2, fun _ _ => rfl, fun t h1 h2 => by omega⟩ (by
      rintro t ⟨X, g⟩ ht ⟨state, h1, h2⟩
      simp only at h1 h2
      have hne : ∀ r : Fin T, r ≠ t → (periodicStep v mu A ph (X, g) t).1 r = X r := fun r hr =>
        Function.update_of_ne hr _ _
      have hlag : ∀ r : Fin T, order ≤ (r : ℕ) → (r : ℕ) ≤ t → ∀ d,
          lagSum A (periodicStep v mu A ph (X, g) t).1 r d = lagSum A X r d := fun r hr hrt d =>
        lagSum_congr hr (fun q hq => hne q (fun he => by rw [he] at hq; omega)) d
      refine ⟨Function.update state t g, fun r hr => ?_, fun r hr hrt => ?_⟩
      · exact (hne r (fun he => by rw [he] at hr; omega)).trans (h1 r hr)
      · simp only [hlag r hr (by omega)]
        by_cases he : r = t
        · subst he
          rw [Function.update_self]
          have e1 : (periodicStep v mu A ph (X, g) r).1 r =
              (R.mvn (periodicMean X mu A (ph r) r) (noiseCov n v) g).1 := Function.update_self _ _ _
          rw [e1]
          congr 2
          funext d
          exact periodicMean_eq X mu A (ph r) r d
        · rw [Function.update_of_ne he, hne r he]
          have : (r : ℕ) ≠ t := fun h => he (Fin.ext h)
          exact h2 r hr (by omega))
  obtain ⟨state, h1, h2⟩ := key
  exact ⟨state, h1, fun t ht => h2 t ht t.2⟩

end Run

/-- C107.  The data follow the autoregressive process with the parameters that are returned, all
multiplied by the phase of the sample. -/
theorem C107_samples {R : DataRng ℝ} {n T order : ℕ} {period v : ℝ}
    {emptyX : Matrix (Fin T) (Fin n) ℝ} {g g' : R.G} {r : PeriodicResult T n order}
    (h : periodicData R n T period order v emptyX g = Py.ok (r, g')) :
    ∃ state : Fin T → R.G, order ≤ T ∧
      r.mu = (R.normal n (normalState R n g order)).1 ∧
      (∀ t : Fin T, (t : ℕ) < order → r.X t = (R.normal n (normalState R n g t)).1) ∧
      (∀ t : Fin T, order ≤ (t : ℕ) → r.X t = (R.mvn (fun d => r.phases t *
        (r.mu d + lagSum r.A r.X t d)) (noiseCov n v) (state t)).1) ∧
      ∀ t : Fin T, r.phases t = Real.cos (2 * Real.pi * (t : ℕ) / period) := by
  unfold periodicData at h
  obtain ⟨x, hx, h⟩ := Py.bind_eq_ok.1 h
  obtain ⟨hT, hx2, hx1⟩ := initialRows_ok hx
  extract_lets mu A ph s at h
  have h' := (Prod.mk.inj (Py.ok.inj h)).1
  clear h
  obtain ⟨state, h1, h2⟩ := periodicLoop_spec v mu.1 A.1 ph (x.1, A.2) hT
  subst h'
  refine ⟨state, hT, ?_, fun t ht => ?_, h2, fun t => rfl⟩
  · change (R.normal n x.2).1 = _
    rw [hx2]
  · exact (h1 t ht).trans ((hx1 t).trans (if_pos ht))

/-- C107.  It returns exactly if there are at least as many samples as the order. -/
theorem C107_returns (R : DataRng ℝ) (n T : ℕ) (period : ℝ) (order : ℕ) (v : ℝ)
    (emptyX : Matrix (Fin T) (Fin n) ℝ) (g : R.G) :
    (T < order → periodicData R n T period order v emptyX g = Py.raise .indexError) ∧
    (order ≤ T → ∃ r, periodicData R n T period order v emptyX g = Py.ok r) := by
  constructor
  · intro h
    unfold periodicData initialRows
    rw [if_pos h]
    rfl
  · intro h
    unfold periodicData initialRows
    rw [if_neg (by omega)]
    exact ⟨_, rfl⟩

/-- C107.  The phases lie between -1 and 1, begin with 1, and for a whole period repeat with it. -/
theorem C107_phases (T : ℕ) (period : ℝ) (t : Fin T) :
    |phases T period t| ≤ 1 ∧ ((t : ℕ) = 0 → phases T period t = 1) ∧
    ∀ (p : ℕ) (t' : Fin T), 0 < p → period = p → (t' : ℕ) = t + p →
      phases T period t' = phases T period t := by
  refine ⟨Real.abs_cos_le_one _, fun h => by simp [phases, h], ?_⟩
  intro p t' hp hper ht
  unfold phases
  rw [ht, hper]
  have hp0 : (p : ℝ) ≠ 0 := Nat.cast_ne_zero.2 (by omega)
  rw [show 2 * Real.pi * ((((t : ℕ) + p : ℕ) : ℕ) : ℝ) / (p : ℝ) =
    2 * Real.pi * ((t : ℕ) : ℝ) / p + 2 * Real.pi by
      push_cast
      field_simp]
  exact Real.cos_add_two_pi _

/-! ### Concrete cases -/

example : ∃ r, periodicData (meanRng ℝ) 2 500 12 1 1 (fun _ _ => 0) (0 : ℕ) = Py.ok r :=
  (C107_returns (meanRng ℝ) 2 500 12 1 1 _ (0 : ℕ)).2 (by norm_num)

/-- Half a period on, the sign is reversed. -/
example : phases 10 4 2 = -1 := by
  unfold phases
  rw [show 2 * Real.pi * (((2 : Fin 10) : ℕ) : ℝ) / 4 = Real.pi by
    norm_num
    ring]
  exact Real.cos_pi

end Reor
