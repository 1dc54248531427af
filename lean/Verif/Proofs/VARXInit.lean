import Verif.Proofs.VARXRun

/-!
The set-up of FEM-BV-VARX: memories, local models, their first fits and the shape of the distances.
-/

set_option linter.unusedSectionVars false

namespace Reor

open scoped BigOperators
open Spec

variable {mem : Memory} {lstsq : LstSq}

/-! ### Errors of the fits -/

/-- The least-squares routine raised `e`. -/
def LstSq.Raised (lstsq : LstSq) (e : PyErr) : Prop :=
  ∃ m n r a b, lstsq m n r a b = Py.raise e

/-- The least-squares routine always ends. -/
def LstSq.Ends (lstsq : LstSq) : Prop := ∀ m n r a b, lstsq m n r a b ≠ Py.diverge

section FitErrors

variable {D E : ℕ} {m : VARXModel D E}

theorem fitPlain_raise {e : PyErr} (h : m.fitPlain lstsq = Py.raise e) :
    e = .linAlgError ∨ lstsq.Raised e := by
  unfold VARXModel.fitPlain at h
  rcases Py.bind_eq_raise.1 h with h | ⟨_, -, h⟩
  · exact Or.inr ⟨_, _, _, _, _, h⟩
  · exact Or.inl (finish_raise h)

theorem fitPlain_ne_diverge (hl : lstsq.Ends) : m.fitPlain lstsq ≠ Py.diverge := by
  intro h
  unfold VARXModel.fitPlain at h
  rcases Py.bind_eq_diverge.1 h with h | ⟨_, -, h⟩
  · exact hl _ _ _ _ _ h
  · exact finish_ne_diverge h

theorem fitWeighted_raise {w : Fin m.n → ℝ} {e : PyErr} (h : m.fitWeighted lstsq w = Py.raise e) :
    e = .nonFinite ∨ e = .linAlgError ∨ lstsq.Raised e := by
  unfold VARXModel.fitWeighted at h
  by_cases c : ∃ t, m.tailWeights w t < 0
  · rw [if_pos c] at h
    exact Or.inl (by simpa using h.symm)
  · rw [if_neg c] at h
    rcases Py.bind_eq_raise.1 h with h | ⟨_, -, h⟩
    · exact Or.inr (Or.inr ⟨_, _, _, _, _, h⟩)
    · exact Or.inr (Or.inl (finish_raise h))

theorem fitWeighted_ne_diverge (hl : lstsq.Ends) {w : Fin m.n → ℝ} :
    m.fitWeighted lstsq w ≠ Py.diverge := by
  intro h
  unfold VARXModel.fitWeighted at h
  by_cases c : ∃ t, m.tailWeights w t < 0
  · rw [if_pos c] at h
    simp at h
  · rw [if_neg c] at h
    rcases Py.bind_eq_diverge.1 h with h | ⟨_, -, h⟩
    · exact hl _ _ _ _ _ h
    · exact finish_ne_diverge h

/-- Without samples past the presample the covariance is the zero matrix, which has no inverse. -/
theorem fitPlain_no_samples (hD : 0 < D) (hn : m.n = max m.p m.s) (f : VARXFit m) :
    m.fitPlain lstsq ≠ Py.ok f := by
  intro h
  unfold VARXModel.fitPlain at h
  obtain ⟨params, -, h⟩ := Py.bind_eq_ok.1 h
  obtain ⟨-, -, h⟩ := finish_eq_ok h
  have hdf : (m.n : ℝ) - m.presample - m.p * D - 1 - E * (1 + m.s) ≠ 0 := by
    have e : (m.n : ℝ) = (m.presample : ℝ) := by
      exact_mod_cast hn
    rw [e]
    have h1 : (0 : ℝ) ≤ m.p * D := by positivity
    have h2 : (0 : ℝ) ≤ E * (1 + m.s) := by positivity
    linarith
  unfold covariance at h
  rw [if_neg hdf] at h
  unfold npInv at h
  simp only at h
  rw [if_pos] at h
  · simp at h
  · have : Nonempty (Fin D) := Fin.pos_iff_nonempty.1 hD
    refine Eq.trans (congrArg Matrix.det (?_ : _ = (0 : Matrix (Fin D) (Fin D) ℝ)))
      Matrix.det_zero
    funext a b
    have : ((m.tailResiduals params).transpose * m.tailResiduals params) a b = 0 := by
      rw [Matrix.mul_apply]
      refine Finset.sum_eq_zero fun t _ => ?_
      have ht := t.2
      change (t : ℕ) < m.n - max m.p m.s at ht
      omega
    rw [this]
    exact zero_div _

end FitErrors

/-! ### The set-up -/

section Init

variable {n D k : ℕ} {X : Matrix (Fin n) (Fin D) ℝ} {memory : Fin k → ℤ} {L : ℤ}
  {u : Option (Arr2 ℝ)}

/-- What the set-up leaves behind. -/
theorem varxInit_eq_ok {start : VARXStart k D (exogCols u)}
    (h : varxInit mem lstsq X memory L u = Py.ok start) :
    start.L = L.toNat ∧
    (∀ i, varxModel mem (dropRows X (L - memory i).toNat) (.int (memory i)) u (.int 0) =
      Py.ok (start.models i)) ∧
    (∀ i, (start.models i).fit lstsq none = Py.ok (start.params.fits i)) ∧
    (∀ i, (start.models i).n - L.toNat = n - L.toNat ∨ (start.models i).n - L.toNat = 1) ∧
    start.params.mu = (fun _ _ => 0) ∧ start.params.A = (fun _ _ _ _ => 0) ∧
    start.params.B0 = (fun _ _ _ => 0) := by
  unfold varxInit at h
  obtain ⟨_, -, h⟩ := Py.bind_eq_ok.1 h
  obtain ⟨models, hm, h⟩ := Py.bind_eq_ok.1 h
  obtain ⟨fits, hf, h⟩ := Py.bind_eq_ok.1 h
  obtain ⟨_, hc, h⟩ := Py.bind_eq_ok.1 h
  obtain rfl := Py.ok.inj h
  refine ⟨rfl, pyPi_eq_ok.1 hm, pyPi_eq_ok.1 hf, ?_, rfl, rfl, rfl⟩
  unfold varxCheckShapes at hc
  by_contra hne
  rw [if_neg hne] at hc
  simp at hc

/-- Number of samples and orders of a local model. -/
theorem varxInit_model {i : Fin k} {m : VARXModel D (exogCols u)}
    (h : varxModel mem (dropRows X (L - memory i).toNat) (.int (memory i)) u (.int 0) = Py.ok m) :
    m.n = n - (L - memory i).toNat ∧ (m.p : ℤ) = memory i ∧ m.s = 0 ∧ m.p ≤ m.n ∧ 0 < m.n ∧ 0 < D ∧
      (∀ v, u = some v → v.rows = m.n) := by
  obtain ⟨p, s, U, rfl, hp, hn, hn0, hD, -, h0, h1⟩ := varxModel_eq_ok h
  have hs : s = 0 := by
    cases u with
    | none => exact h0 rfl
    | some v =>
      have := (h1 v rfl).2.2
      simp only [NumArg.int.injEq] at this
      omega
  simp only [NumArg.int.injEq] at hp
  refine ⟨rfl, hp.symm, hs, le_trans (le_max_left p s) hn, hn0, hD, fun v hv => (h1 v hv).1⟩

theorem varxCheckExog_raise {e : PyErr} (h : varxCheckExog n u = Py.raise e) : e = .valueError := by
  cases u with
  | none => simp [varxCheckExog] at h
  | some u =>
    unfold varxCheckExog at h
    rcases Py.bind_eq_raise.1 h with h | ⟨_, -, h⟩
    · exact checkArray_raise h
    · by_cases c : u.rows = n
      · rw [if_pos c] at h
        simp at h
      · rw [if_neg c] at h
        simpa using h.symm

theorem varxCheckExog_ne_diverge : varxCheckExog n u ≠ Py.diverge := by
  intro h
  cases u with
  | none => simp [varxCheckExog] at h
  | some u =>
    unfold varxCheckExog at h
    rcases Py.bind_eq_diverge.1 h with h | ⟨_, -, h⟩
    · exact checkArray_not_diverge h
    · by_cases c : u.rows = n
      · rw [if_pos c] at h
        simp at h
      · rw [if_neg c] at h
        simp at h

/-- The set-up fails with a ValueError or in the first fit of a local model. -/
theorem varxInit_raise_cases {e : PyErr} (h : varxInit mem lstsq X memory L u = Py.raise e) :
    e = .valueError ∨ ∃ i m, varxModel mem (dropRows X (L - memory i).toNat) (.int (memory i)) u
      (.int 0) = Py.ok m ∧ m.fit lstsq none = Py.raise e := by
  unfold varxInit at h
  rcases Py.bind_eq_raise.1 h with h | ⟨_, -, h⟩
  · exact Or.inl (varxCheckExog_raise h)
  rcases Py.bind_eq_raise.1 h with h | ⟨models, hm, h⟩
  · obtain ⟨i, hi⟩ := pyPi_raise h
    exact Or.inl (varxModel_raise hi)
  rcases Py.bind_eq_raise.1 h with h | ⟨fits, -, h⟩
  · obtain ⟨i, hi⟩ := pyPi_raise h
    exact Or.inr ⟨i, _, pyPi_eq_ok.1 hm i, hi⟩
  rcases Py.bind_eq_raise.1 h with h | ⟨_, -, h⟩
  · unfold varxCheckShapes at h
    left
    split_ifs at h
    simpa using h.symm
  · simp at h

/-- The errors of the set-up. -/
theorem varxInit_raise {e : PyErr} (h : varxInit mem lstsq X memory L u = Py.raise e) :
    e = .valueError ∨ e = .linAlgError ∨ lstsq.Raised e := by
  rcases varxInit_raise_cases h with h | ⟨i, m, -, h⟩
  · exact Or.inl h
  · exact Or.inr (fitPlain_raise h)

/-- A local model that cannot be made is a ValueError, whatever the fits would do. -/
theorem varxInit_no_model (i : Fin k) (h : ∀ m, varxModel mem (dropRows X (L - memory i).toNat)
      (.int (memory i)) u (.int 0) ≠ Py.ok m) :
    varxInit mem lstsq X memory L u = Py.raise .valueError := by
  unfold varxInit
  cases hc : varxCheckExog n u with
  | diverge => exact absurd hc varxCheckExog_ne_diverge
  | raise e => rw [varxCheckExog_raise hc, Py.raise_bind]
  | ok _ =>
    rw [Py.ok_bind]
    cases hm : varxModels mem X memory L u with
    | diverge =>
      obtain ⟨j, hj⟩ := pyPi_diverge hm
      exact absurd hj varxModel_ne_diverge
    | raise e =>
      obtain ⟨j, hj⟩ := pyPi_raise hm
      rw [varxModel_raise hj, Py.raise_bind]
    | ok models => exact absurd (pyPi_eq_ok.1 hm i) (h _)

theorem varxInit_ne_diverge (hl : lstsq.Ends) : varxInit mem lstsq X memory L u ≠ Py.diverge := by
  intro h
  unfold varxInit at h
  rcases Py.bind_eq_diverge.1 h with h | ⟨_, -, h⟩
  · exact varxCheckExog_ne_diverge h
  rcases Py.bind_eq_diverge.1 h with h | ⟨models, -, h⟩
  · obtain ⟨i, hi⟩ := pyPi_diverge h
    exact varxModel_ne_diverge hi
  rcases Py.bind_eq_diverge.1 h with h | ⟨fits, -, h⟩
  · obtain ⟨i, hi⟩ := pyPi_diverge h
    exact fitPlain_ne_diverge hl hi
  rcases Py.bind_eq_diverge.1 h with h | ⟨_, -, h⟩
  · unfold varxCheckShapes at h
    split_ifs at h
  · simp at h

/-- The maximal memory is one of the memories: sizes of everything after the set-up. -/
theorem varxInit_sizes {start : VARXStart k D (exogCols u)}
    (h : varxInit mem lstsq X memory L u = Py.ok start) (hle : ∀ i, memory i ≤ L)
    (hat : ∃ i, memory i = L) :
    0 ≤ L ∧ start.L < n ∧ 0 < D ∧ (start.L : ℤ) = L ∧
    (∀ i, 0 ≤ memory i ∧ ((start.models i).p : ℤ) = memory i ∧ (start.models i).s = 0 ∧
      (start.models i).p ≤ start.L ∧
      (start.models i).n = n - start.L + (start.models i).p) ∧
    ∀ i, memory i = L ∨ (n : ℤ) + memory i = 2 * L + 1 := by
  obtain ⟨hL, hm, hf, hs, -⟩ := varxInit_eq_ok h
  obtain ⟨j, hj⟩ := hat
  obtain ⟨j1, j2, j3, j4, j5, j6, -⟩ := varxInit_model (hm j)
  have hL0 : 0 ≤ L := by omega
  have hnj : (start.models j).n = n := by
    rw [j1, hj]
    simp
  have hlt : start.L < n := by
    by_contra hc
    refine fitPlain_no_samples (lstsq := lstsq) j6 ?_ _ (hf j)
    rw [j3]
    omega
  have hall : ∀ i, 0 ≤ memory i ∧ ((start.models i).p : ℤ) = memory i ∧ (start.models i).s = 0 ∧
      (start.models i).p ≤ start.L ∧
      (start.models i).n = n - start.L + (start.models i).p := by
    intro i
    obtain ⟨i1, i2, i3, i4, i5, -⟩ := varxInit_model (hm i)
    have := hle i
    refine ⟨by omega, i2, i3, by omega, by omega⟩
  refine ⟨hL0, hlt, j6, by omega, hall, fun i => ?_⟩
  obtain ⟨i1, i2, i3, i4, i5⟩ := hall i
  have := hle i
  rcases hs i with c | c <;> omega

end Init

/-! ### The memory argument -/

section MemoryArg

theorem maxMemory_spec {memory : List ℤ} (h : memory ≠ []) :
    maxMemory memory ∈ memory ∧ ∀ a ∈ memory, a ≤ maxMemory memory := by
  unfold maxMemory
  cases hm : memory.max? with
  | none => exact absurd (List.max?_eq_none_iff.1 hm) h
  | some a => exact List.max?_eq_some_iff.1 hm

/-- A memory that the constructor accepts has as many entries as there are components. -/
theorem varxMemory_length {c : NumArg ℝ} {arg : MemoryArg} {memory : List ℤ}
    (h : varxMemory c arg = Py.ok memory) (z : ℕ) (hc : c = .int z) : memory.length = z := by
  subst hc
  have hfull : ∀ x, npFullInt (.int z) x = Py.ok memory → memory.length = z := by
    intro x hx
    unfold npFullInt at hx
    simp only at hx
    by_cases c : (z : ℤ) < 0
    · omega
    · rw [if_neg c] at hx
      rw [← Py.ok.inj hx]
      simp
  cases arg with
  | none => exact hfull 0 h
  | int x =>
    unfold varxMemory at h
    simp only at h
    by_cases c : x < 0
    · rw [if_pos c] at h
      simp at h
    · rw [if_neg c] at h
      exact hfull x h
  | list l =>
    unfold varxMemory at h
    simp only at h
    split_ifs at h with c
    rw [← Py.ok.inj h]
    unfold memoryShape at c
    simp only at c
    omega
  | other => simp [varxMemory] at h

end MemoryArg

end Reor
