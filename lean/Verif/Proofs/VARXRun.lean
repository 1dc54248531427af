import Verif.Proofs.VARXFit
import Verif.Proofs.FEMRun

/-!
Lemmas about the set-up and the parameters update of FEM-BV-VARX.
-/

set_option linter.unusedSectionVars false

namespace Reor

open scoped BigOperators
open Spec

/-! ### One value after the other -/

section Pi

theorem pyPi_eq_ok : ∀ {k : ℕ} {β : Fin k → Type} {f : (i : Fin k) → Py (β i)}
    {g : (i : Fin k) → β i}, pyPi f = Py.ok g ↔ ∀ i, f i = Py.ok (g i)
  | 0, _, f, g => by
    unfold pyPi
    refine ⟨fun _ i => i.elim0, fun _ => ?_⟩
    congr 1
    funext i
    exact i.elim0
  | k + 1, β, f, g => by
    unfold pyPi
    constructor
    · intro h
      obtain ⟨a, ha, h⟩ := Py.bind_eq_ok.1 h
      obtain ⟨r, hr, h⟩ := Py.bind_eq_ok.1 h
      obtain rfl := Py.ok.inj h
      intro i
      refine Fin.cases ?_ (fun i => ?_) i
      · exact ha
      · exact pyPi_eq_ok.1 hr i
    · intro h
      have hr := pyPi_eq_ok (f := fun i : Fin k => f i.succ) (g := fun i => g i.succ) |>.2
        fun i => h i.succ
      rw [h 0, Py.ok_bind, hr, Py.ok_bind]
      exact congrArg Py.ok (Fin.cons_self_tail g)

theorem pyPi_raise : ∀ {k : ℕ} {β : Fin k → Type} {f : (i : Fin k) → Py (β i)} {e : PyErr},
    pyPi f = Py.raise e → ∃ i, f i = Py.raise e
  | 0, _, f, e, h => by
    unfold pyPi at h
    simp at h
  | k + 1, β, f, e, h => by
    unfold pyPi at h
    rcases Py.bind_eq_raise.1 h with h | ⟨_, -, h⟩
    · exact ⟨0, h⟩
    rcases Py.bind_eq_raise.1 h with h | ⟨_, -, h⟩
    · obtain ⟨i, hi⟩ := pyPi_raise h
      exact ⟨i.succ, hi⟩
    · simp at h

theorem pyPi_diverge : ∀ {k : ℕ} {β : Fin k → Type} {f : (i : Fin k) → Py (β i)},
    pyPi f = Py.diverge → ∃ i, f i = Py.diverge
  | 0, _, f, h => by
    unfold pyPi at h
    simp at h
  | k + 1, β, f, h => by
    unfold pyPi at h
    rcases Py.bind_eq_diverge.1 h with h | ⟨_, -, h⟩
    · exact ⟨0, h⟩
    rcases Py.bind_eq_diverge.1 h with h | ⟨_, -, h⟩
    · obtain ⟨i, hi⟩ := pyPi_diverge h
      exact ⟨i.succ, hi⟩
    · simp at h

end Pi

/-! ### The local models -/

/-- The external factors as a sequence. -/
noncomputable def exogSeq : (u : Option (Arr2 ℝ)) → ℕ → Fin (exogCols u) → ℝ
  | none => fun _ e => e.elim0
  | some u => rowSeq u.val

theorem varxOrder_eq_ok {a : NumArg ℝ} {p : ℕ} (h : varxOrder a = Py.ok p) : a = .int p := by
  cases a with
  | int z =>
    unfold varxOrder at h
    by_cases c : z < 0
    · simp [c] at h
    · simp only [c, if_false, Py.ok.injEq] at h
      rw [← h]
      congr 1
      omega
  | _ => simp [varxOrder] at h

theorem varxOrder_int (p : ℕ) : varxOrder (.int p) = Py.ok p := by
  unfold varxOrder
  simp

theorem varxOrder_raise {a : NumArg ℝ} {e : PyErr} (h : varxOrder a = Py.raise e) :
    e = .valueError := by
  cases a with
  | int z =>
    unfold varxOrder at h
    by_cases c : z < 0
    · simpa [c] using h.symm
    · simp [c] at h
  | _ => simpa [varxOrder] using h.symm

theorem varxOrder_ne_diverge {a : NumArg ℝ} : varxOrder a ≠ Py.diverge := by
  cases a with
  | int z =>
    unfold varxOrder
    by_cases c : z < 0 <;> simp [c]
  | _ => simp [varxOrder]

variable {mem : Memory} {n D : ℕ}

/-- What the constructor of a local model sets up. -/
theorem varxModel_eq_ok {y : Matrix (Fin n) (Fin D) ℝ} {pa sa : NumArg ℝ} {u : Option (Arr2 ℝ)}
    {m : VARXModel D (exogCols u)} (h : varxModel mem y pa u sa = Py.ok m) :
    ∃ (p s : ℕ) (U : Matrix (Fin n) (Fin (exogCols u)) ℝ),
      m = ⟨n, p, s, y, U, varxRegressors mem p s y U⟩ ∧ pa = .int p ∧ max p s ≤ n ∧
      0 < n ∧ 0 < D ∧ rowSeq U = exogSeq u ∧ (u = none → s = 0) ∧
      (∀ v, u = some v → v.rows = n ∧ 0 < v.cols ∧ sa = .int s) := by
  unfold varxModel at h
  obtain ⟨p, hp, h⟩ := Py.bind_eq_ok.1 h
  obtain ⟨B, hB, h⟩ := Py.bind_eq_ok.1 h
  obtain ⟨hB0, hB1, hB2⟩ := checkArray_ok hB
  obtain rfl := Option.some.inj hB0
  have hn : 0 < n := Nat.pos_of_ne_zero hB1
  have hD : 0 < D := Nat.pos_of_ne_zero hB2
  have hpa := varxOrder_eq_ok hp
  cases u with
  | none =>
    unfold varxExternal varxAlloc at h
    by_cases c : n < max p 0
    · rw [if_pos c] at h
      simp at h
    · rw [if_neg c] at h
      refine ⟨p, 0, _, (Py.ok.inj h).symm, hpa, by omega, hn, hD, ?_, fun _ => rfl, fun v hv => by
        simp at hv⟩
      funext t e
      exact e.elim0
  | some u =>
    unfold varxExternal varxExog at h
    obtain ⟨V, hV, h⟩ := Py.bind_eq_ok.1 h
    obtain ⟨-, -, hV2⟩ := checkArray_ok hV
    obtain rfl := Option.some.inj (checkArray_ok hV).1
    by_cases c : u.rows = n
    · rw [dif_pos c] at h
      obtain ⟨s, hs, h⟩ := Py.bind_eq_ok.1 h
      unfold varxAlloc at h
      by_cases c2 : n < max p s
      · rw [if_pos c2] at h
        simp at h
      · rw [if_neg c2] at h
        refine ⟨p, s, _, (Py.ok.inj h).symm, hpa, by omega, hn, hD, ?_, fun hu => by simp at hu, ?_⟩
        · subst c
          rfl
        · intro v hv
          obtain rfl := Option.some.inj hv
          exact ⟨c, Nat.pos_of_ne_zero hV2, varxOrder_eq_ok hs⟩
    · rw [dif_neg c] at h
      simp at h

theorem varxModel_raise {y : Matrix (Fin n) (Fin D) ℝ} {pa sa : NumArg ℝ} {u : Option (Arr2 ℝ)}
    {e : PyErr} (h : varxModel mem y pa u sa = Py.raise e) : e = .valueError := by
  have halloc : ∀ {E : ℕ} {p s : ℕ} {U : Matrix (Fin n) (Fin E) ℝ},
      varxAlloc mem p s y U = Py.raise e → e = .valueError := by
    intro E p s U h
    unfold varxAlloc at h
    by_cases c : n < max p s
    · rw [if_pos c] at h
      simpa using h.symm
    · rw [if_neg c] at h
      simp at h
  unfold varxModel at h
  rcases Py.bind_eq_raise.1 h with h | ⟨p, -, h⟩
  · exact varxOrder_raise h
  rcases Py.bind_eq_raise.1 h with h | ⟨_, -, h⟩
  · exact checkArray_raise h
  cases u with
  | none => exact halloc h
  | some u =>
    unfold varxExternal varxExog at h
    rcases Py.bind_eq_raise.1 h with h | ⟨_, -, h⟩
    · exact checkArray_raise h
    by_cases c : u.rows = n
    · rw [dif_pos c] at h
      rcases Py.bind_eq_raise.1 h with h | ⟨s, -, h⟩
      · exact varxOrder_raise h
      · exact halloc h
    · rw [dif_neg c] at h
      simpa using h.symm

theorem checkArray_not_diverge {A : Option (Arr2 ℝ)} : checkArray A ≠ Py.diverge := by
  unfold checkArray
  split
  · simp
  · split_ifs <;> simp

theorem varxModel_ne_diverge {y : Matrix (Fin n) (Fin D) ℝ} {pa sa : NumArg ℝ}
    {u : Option (Arr2 ℝ)} : varxModel mem y pa u sa ≠ Py.diverge := by
  have halloc : ∀ {E : ℕ} {p s : ℕ} {U : Matrix (Fin n) (Fin E) ℝ},
      varxAlloc mem p s y U ≠ Py.diverge := by
    intro E p s U
    unfold varxAlloc
    by_cases c : n < max p s
    · rw [if_pos c]
      simp
    · rw [if_neg c]
      simp
  intro h
  unfold varxModel at h
  rcases Py.bind_eq_diverge.1 h with h | ⟨p, -, h⟩
  · exact varxOrder_ne_diverge h
  rcases Py.bind_eq_diverge.1 h with h | ⟨_, -, h⟩
  · exact checkArray_not_diverge h
  cases u with
  | none => exact halloc h
  | some u =>
    unfold varxExternal varxExog at h
    rcases Py.bind_eq_diverge.1 h with h | ⟨_, -, h⟩
    · exact checkArray_not_diverge h
    by_cases c : u.rows = n
    · rw [dif_pos c] at h
      rcases Py.bind_eq_diverge.1 h with h | ⟨s, -, h⟩
      · exact varxOrder_ne_diverge h
      · exact halloc h
    · rw [dif_neg c] at h
      simp at h

theorem VARXModel.made_of {y : Matrix (Fin n) (Fin D) ℝ} {pa sa : NumArg ℝ} {u : Option (Arr2 ℝ)}
    {m : VARXModel D (exogCols u)} (h : varxModel mem y pa u sa = Py.ok m) : m.Made mem := by
  obtain ⟨p, s, U, rfl, -, hn, -⟩ := varxModel_eq_ok h
  exact ⟨rfl, hn⟩

/-- Residuals past the presample, for coefficients that were read from a parameter matrix. -/
theorem from_residuals {y : Matrix (Fin n) (Fin D) ℝ} {pa sa : NumArg ℝ} {u : Option (Arr2 ℝ)}
    {m : VARXModel D (exogCols u)} (hm : varxModel mem y pa u sa = Py.ok m) {f : VARXFit m}
    {params : Matrix (Fin m.nCols) (Fin D) ℝ} (hfrom : f.From params) (t : ℕ) (d : Fin D)
    (ht : max m.p m.s ≤ t) (htn : t < n) : rowSeq f.residuals t d =
      rowSeq y t d - varxPrediction f.mu f.A f.B f.B0 (rowSeq y) (exogSeq u) t d := by
  have hmade := VARXModel.made_of hm
  obtain ⟨p, s, U, rfl, hp, hn, hn0, -, hU, h0, h1⟩ := varxModel_eq_ok hm
  have := residuals_eq hmade params ⟨t, htn⟩ ht d
  unfold rowSeq
  rw [dif_pos htn, dif_pos htn, hfrom.residuals, hfrom.mu, hfrom.A, hfrom.B, hfrom.B0, this, hU]
  rfl

/-- A local model can be made from data that are not empty and not shorter than the presample. -/
theorem varxModel_succeeds {y : Matrix (Fin n) (Fin D) ℝ} {p : ℕ} {u : Option (Arr2 ℝ)}
    (hn : 0 < n) (hD : 0 < D) (hp : p ≤ n) (hu : ∀ v, u = some v → v.rows = n ∧ 0 < v.cols) :
    ∃ m, varxModel mem y (.int p) u (.int 0) = Py.ok m := by
  have halloc : ∀ {E : ℕ} {U : Matrix (Fin n) (Fin E) ℝ},
      ∃ m, varxAlloc mem p 0 y U = Py.ok m := by
    intro E U
    unfold varxAlloc
    rw [if_neg (by omega)]
    exact ⟨_, rfl⟩
  have hy : checkArray (some (Arr2.of y)) = Py.ok (Arr2.of y) := by
    unfold checkArray
    simp only
    rw [if_neg]
    change ¬ (n = 0 ∨ D = 0)
    omega
  unfold varxModel
  rw [varxOrder_int, Py.ok_bind, hy, Py.ok_bind]
  cases u with
  | none => exact halloc
  | some v =>
    obtain ⟨h1, h2⟩ := hu v rfl
    have hv : checkArray (some v) = Py.ok v := by
      unfold checkArray
      simp only
      rw [if_neg]
      omega
    change ∃ m, varxExog mem y p v (.int 0) = Py.ok m
    unfold varxExog
    rw [hv, Py.ok_bind, dif_pos h1]
    have : varxOrder (.int 0) = Py.ok 0 := varxOrder_int 0
    rw [this, Py.ok_bind]
    exact halloc

end Reor
