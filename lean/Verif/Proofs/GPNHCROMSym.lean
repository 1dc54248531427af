import Verif.Proofs.MTDSym
import Verif.Proofs.GPNHCROM
import Verif.Proofs.MTDForecast

/-!
Components and lags relabelled: the fit of the parameters of the reduced order model and the
forecasts.
-/

namespace Reor

set_option linter.unusedSectionVars false

open scoped BigOperators Matrix
open Spec

variable {K : Type} [Field K] [LinearOrder K] [IsStrictOrderedRing K]
variable {T D k p : ℕ}

/-! ### The fit of the parameters -/

section

variable {ρ : Equiv.Perm (Fin k)} {σ : Equiv.Perm (Fin p)} {c c' : CROMConfig p K}

theorem CROMConfig.toMTD_sym (hl : ∀ i, c'.lags (σ i) = c.lags i) (hs : c'.ls = c.ls) :
    MTDConfig.SymRel σ c.toMTD c'.toMTD := ⟨hl, rfl, rfl, hs⟩

/-- Two states of the fit, seen as states of the MTD fit. -/
def CROMState.Twin (ρ : Equiv.Perm (Fin k)) (σ : Equiv.Perm (Fin p)) (c c' : CROMConfig p K)
    (s t : CROMState T k p K) : Prop :=
  MTDState.SymRel ρ σ (1 : Matrix (Fin 1) (Fin 1) K) 0 c.toMTD c'.toMTD (s.toMTD c) (t.toMTD c')

theorem CROMState.updateParameters_twin (hC : MTDConfig.SymRel σ c.toMTD c'.toMTD)
    {s t : CROMState T k p K} (h : s.Twin ρ σ c c' t) :
    PyRel (CROMState.Twin ρ σ c c') (s.updateParameters c) (t.updateParameters c') := by
  have h1 := CROMState.toMTD_updateParameters c s
  have h2 := MTDState.updateParameters_sym (by simp) hC h
  have h3 := (CROMState.toMTD_updateParameters c' t).symm
  refine (h1.trans h2 (R := fun a b => MTDState.SymRel ρ σ (1 : Matrix (Fin 1) (Fin 1) K) 0 c.toMTD
    c'.toMTD (a.toMTD c) b) ?_).trans h3 ?_
  · rintro a b d rfl hbd
    exact hbd
  · rintro a b d hab rfl
    exact hab

theorem CROMState.cost_twin (hC : MTDConfig.SymRel σ c.toMTD c'.toMTD)
    {s t : CROMState T k p K} (h : s.Twin ρ σ c c' t) :
    s.evaluateFitResidual c = t.evaluateFitResidual c' := by
  rw [← CROMState.toMTD_evaluateCost c s, ← CROMState.toMTD_evaluateCost c' t,
    MTDState.evaluateCost_eq h.goodS, MTDState.evaluateCost_eq h.goodT]
  exact (h.objective (by simp) hC).symm

theorem cromSolve_sym (hl : ∀ i, c'.lags (σ i) = c.lags i) (hs : c'.ls = c.ls) {require : Bool}
    {tol : K} {maxIter : ℕ} {W W' : Matrix (Fin T) (Fin k) K} (hW : ∀ t a, W' t (ρ a) = W t a)
    {w w' : Fin p → K} (hw : ∀ i, w' (σ i) = w i) {A A' : Fin p → Matrix (Fin k) (Fin k) K}
    (hA : ∀ i a b, A' (σ i) (ρ a) (ρ b) = A i a b) :
    PyRel (fun r r' => r.state.Twin ρ σ c c' r'.state ∧ r.cost = r'.cost ∧ r.nIter = r'.nIter ∧
        r.trace = r'.trace)
      (cromSolve c require tol maxIter W w A) (cromSolve c' require tol maxIter W' w' A') := by
  have hC := CROMConfig.toMTD_sym hl hs
  have hm : c'.maxLag = c.maxLag := hC.maxLag
  have h0 : (∃ i, c'.lags i = 0) ↔ ∃ i, c.lags i = 0 := by
    constructor
    · rintro ⟨i, hi⟩
      exact ⟨σ.symm i, by rw [← hl, Equiv.apply_symm_apply, hi]⟩
    · rintro ⟨i, hi⟩
      exact ⟨σ i, by rw [hl, hi]⟩
  unfold cromSolve
  rw [hm]
  simp only [h0]
  by_cases hp : p = 0
  · rw [if_pos hp, if_pos hp]; rfl
  rw [if_neg hp, if_neg hp]
  by_cases hz : (∃ i, c.lags i = 0) ∧ c.maxLag < T
  · rw [if_pos hz, if_pos hz]; rfl
  rw [if_neg hz, if_neg hz]
  by_cases hk : k ≠ 1 ∧ T = c.maxLag
  · rw [if_pos hk, if_pos hk]; rfl
  rw [if_neg hk, if_neg hk]
  refine iterate_rel (R := CROMState.Twin ρ σ c c') ?_ ?_ ?_
  · exact fun s t hst => ⟨hst, CROMState.cost_twin hC hst⟩
  · exact List.Forall₂.cons (fun s t h => CROMState.updateParameters_twin hC h) List.Forall₂.nil
  · have := MTDState.initializeWorkspace_sym (Q := (1 : Matrix (Fin 1) (Fin 1) K)) (b := 0) hC
      (X := (0 : Matrix (Fin T) (Fin 1) K)) (X' := 0) (W := W) (W' := W')
      (S := (0 : Matrix (Fin k) (Fin 1) K)) (S' := 0)
      (by ext i d; simp [moveRows_apply]) (submatrix_eq_iff.2 hW) (by ext i d; simp [moveRows_apply]) (Or.inl rfl)
      hw hA
    exact this

end

/-! ### Forecasts -/

section

variable (ρ : Equiv.Perm (Fin k)) {σ : Equiv.Perm (Fin p)} {lags lags' : Fin p → ℕ}
  {w w' : Fin p → K} {A A' : Fin p → Matrix (Fin k) (Fin k) K}

/-- The entries of a vector in the new order. -/
def renamed (v : Fin k → K) : Fin k → K := fun a => v (ρ.symm a)

theorem pyGet_map {α β : Type} (f : α → β) (l : List α) (i : ℤ) (d : α) :
    pyGet (l.map f) i (f d) = f (pyGet l i d) := by
  unfold pyGet
  split <;> simp [List.getD_eq_getElem?_getD, List.getElem?_map]

theorem rollLeft_map {α β : Type} (f : α → β) (l : List α) :
    rollLeft (l.map f) = (rollLeft l).map f := by
  cases l <;> simp [rollLeft]

theorem setLast_map {α β : Type} (f : α → β) (l : List α) (a : α) :
    setLast (l.map f) (f a) = (setLast l a).map f := by
  simp [setLast, List.map_dropLast]

theorem foldl_add_eq_sum {α : Type} [AddCommMonoid α] (f : Fin p → α) :
    (List.finRange p).foldl (fun acc i => acc + f i) 0 = ∑ i, f i := by
  rw [← List.foldl_map (f := f) (g := fun a b => a + b), ← List.sum_eq_foldl,
    ← List.ofFn_eq_map, List.sum_ofFn]

theorem mtdNextWeights_renamed (hl : ∀ i, lags' (σ i) = lags i) (hw : ∀ i, w' (σ i) = w i)
    (hA : ∀ i a b, A' (σ i) (ρ a) (ρ b) = A i a b) (l : List (Fin k → K)) :
    mtdNextWeights lags' w' A' (l.map (renamed ρ)) = renamed ρ (mtdNextWeights lags w A l) := by
  unfold mtdNextWeights
  rw [foldl_add_eq_sum, foldl_add_eq_sum]
  ext a
  obtain ⟨a, rfl⟩ := ρ.surjective a
  rw [renamed, Equiv.symm_apply_apply, Finset.sum_apply, Finset.sum_apply, ← Equiv.sum_comp σ]
  refine Finset.sum_congr rfl fun i _ => ?_
  have h0 : (0 : Fin k → K) = renamed ρ 0 := rfl
  rw [hl, hw, h0, pyGet_map]
  simp only [Pi.smul_apply, Matrix.mulVec, dotProduct, smul_eq_mul]
  congr 1
  rw [← Equiv.sum_comp ρ]
  refine Finset.sum_congr rfl fun b _ => ?_
  rw [hA, renamed, Equiv.symm_apply_apply]
  rfl

theorem mtdForecastLoop_renamed (hl : ∀ i, lags' (σ i) = lags i) (hw : ∀ i, w' (σ i) = w i)
    (hA : ∀ i a b, A' (σ i) (ρ a) (ρ b) = A i a b) (h : ℕ) (l : List (Fin k → K)) :
    mtdForecastLoop lags' w' A' h (l.map (renamed ρ)) =
      (mtdForecastLoop lags w A h l).map (renamed ρ) := by
  induction h generalizing l with
  | zero => rfl
  | succ h ih =>
    simp only [mtdForecastLoop]
    rw [mtdNextWeights_renamed ρ hl hw hA, rollLeft_map, setLast_map, ih]

theorem rowAt_renamed {W W' : Matrix (Fin T) (Fin k) K} (hW : ∀ t a, W' t (ρ a) = W t a) (r : ℕ) :
    rowAt W' r = renamed ρ (rowAt W r) := by
  unfold rowAt renamed
  split
  · ext a
    have := hW ⟨r, by assumption⟩ (ρ.symm a)
    rw [Equiv.apply_symm_apply] at this
    exact this
  · rfl

theorem mtdForecastRow_renamed (hl : ∀ i, lags' (σ i) = lags i) (hw : ∀ i, w' (σ i) = w i)
    (hA : ∀ i a b, A' (σ i) (ρ a) (ρ b) = A i a b) {W W' : Matrix (Fin T) (Fin k) K}
    (hW : ∀ t a, W' t (ρ a) = W t a) (horizon : ℤ) (t : Fin T) :
    mtdForecastRow lags' w' A' W' horizon t =
      (mtdForecastRow lags w A W horizon t).map (renamed ρ) := by
  unfold mtdForecastRow
  have hm : Finset.univ.sup lags' = Finset.univ.sup lags := topLag_perm hl
  simp only [hm]
  split
  · rfl
  · have h0 : (0 : Fin k → K) = renamed ρ 0 := rfl
    rw [Option.map_some, ← pyGet_map (renamed ρ), ← h0, ← mtdForecastLoop_renamed ρ hl hw hA, List.map_map]
    simp only [rowAt_renamed ρ hW]
    rfl

theorem dotRows_renamed {V V' : Fin T → Option (Fin k → K)} {S S' : Matrix (Fin k) (Fin D) K}
    (hV : ∀ t, V' t = (V t).map (renamed ρ)) (hS : ∀ a d, S' (ρ a) d = S a d) :
    dotRows V' S' = dotRows V S := by
  unfold dotRows
  congr 1
  ext1 t
  rw [hV, Option.map_map]
  congr 1
  ext v d
  simp only [Function.comp, Matrix.vecMul, dotProduct]
  rw [← Equiv.sum_comp ρ]
  refine Finset.sum_congr rfl fun a _ => ?_
  rw [hS, renamed, Equiv.symm_apply_apply]

theorem cromForecastWeights_renamed (hl : ∀ i, lags' (σ i) = lags i) (hw : ∀ i, w' (σ i) = w i)
    (hA : ∀ i a b, A' (σ i) (ρ a) (ρ b) = A i a b) {W W' : Matrix (Fin T) (Fin k) K}
    (hW : ∀ t a, W' t (ρ a) = W t a) (horizon : ℤ) (t : Fin T) :
    cromForecastWeights lags' w' A' W' horizon t =
      (cromForecastWeights lags w A W horizon t).map (renamed ρ) := by
  unfold cromForecastWeights
  split
  · refine congrArg some (funext fun a => ?_)
    have := hW t (ρ.symm a)
    rw [Equiv.apply_symm_apply] at this
    exact this
  · exact mtdForecastRow_renamed ρ hl hw hA hW horizon t

end

end Reor
