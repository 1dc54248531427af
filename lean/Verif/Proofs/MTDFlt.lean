import Verif.Model.MTDFlt
import Verif.Proofs.CROMFltFinite

/-!
The updates of the MTD fit with NaN and infinite values.
-/

namespace Reor

set_option linter.unusedSectionVars false

open scoped BigOperators Matrix
open Spec Flt

variable {K : Type} [Field K] [LinearOrder K] [IsStrictOrderedRing K]
variable {T D k p : ℕ}

namespace Flt

theorem mul_ne_fin {a : Flt K} (h : ∀ x, a ≠ fin x) (b : Flt K) (y : K) : mul a b ≠ fin y := by
  cases a with
  | nan => simp [mul]
  | ninf => exact ninf_mul_ne_fin b y
  | fin x => exact absurd rfl (h x)
  | pinf =>
    cases b with
    | fin z => exact infMul_ne_fin z y
    | _ => simp [mul]

theorem total_mem_nan {n : ℕ} (v : Fin n → Flt K) (i : Fin n) (hi : v i = nan) :
    total v = nan := by
  have : ∀ l : List (Flt K), nan ∈ l → sum l = nan := by
    intro l
    induction l with
    | nil => simp
    | cons a l ih =>
      intro h
      change add a (sum l) = nan
      rcases List.mem_cons.1 h with rfl | h
      · rfl
      · rw [ih h, add_nan]
  exact this _ (List.mem_ofFn.2 ⟨i, hi⟩)

end Flt

theorem foldl_absorb {α : Type} (f : Flt K → α → Flt K) (hf : ∀ a, f nan a = nan) {l : List α}
    {i : α} (hi : i ∈ l) (h : ∀ z, f z i = nan) (z : Flt K) : l.foldl f z = nan := by
  have hn : ∀ l : List α, l.foldl f nan = nan := by
    intro l
    induction l with
    | nil => rfl
    | cons a l ih => rw [List.foldl_cons, hf, ih]
  induction l generalizing z with
  | nil => simp at hi
  | cons a l ih =>
    rw [List.foldl_cons]
    rcases List.mem_cons.1 hi with rfl | hi
    · rw [h, hn]
    · exact ih hi _

variable {c : MTDConfig p K}

theorem mtdFltScale_at_max_lag (h : T = c.maxLag) (x y : K) : mtdFltScale c T k x ≠ fin y := by
  unfold mtdFltScale
  rw [← h, sub_self, mul_zero]
  simp only [inv, if_true, mul]
  exact infMul_ne_fin _ _

theorem mtdFltResidual_at_max_lag (h : T = c.maxLag) {G : Fin T → Fin k → Flt K}
    (hG : ∀ t j, ∃ x, G t j = fin x) (q : FltParams k p K) (t : Fin T) (j : Fin k) :
    mtdFltResidual c G q t j = fin 0 := by
  unfold mtdFltResidual mtdFltPredicted
  rw [if_pos (by omega)]
  obtain ⟨x, hx⟩ := hG t j
  simp [hx, Flt.sub, neg, add]

theorem mtdFltPenaltyGrad_nan (h : T = c.maxLag) {G : Fin T → Fin k → Flt K}
    (hG : ∀ t j, ∃ x, G t j = fin x) {q : FltParams k p K} (hq : q.Finite) {t : Fin T}
    (ht : ∃ i, (t : ℕ) < T - c.lags i) (j : Fin k) : mtdFltPenaltyGrad c G q t j = nan := by
  obtain ⟨i, hi⟩ := ht
  have hz : (Flt.total fun l => (fltRow (mtdFltResidual c G q) (c.lags i + t) l).mul (q.A i l j)) =
      fin 0 := by
    have e : ∀ l, (fltRow (mtdFltResidual c G q) (c.lags i + t) l).mul (q.A i l j) =
        fin ((0 : Fin k → K) l) := by
      intro l
      obtain ⟨x, hx⟩ := hq.2 i l j
      have hlt : c.lags i + (t : ℕ) < T := by omega
      simp [fltRow, hlt, mtdFltResidual_at_max_lag h hG, hx, mul]
    simp only [e]
    rw [total_fin]
    simp
  have hf := foldl_absorb (fun g i =>
    if (t : ℕ) < T - c.lags i then
      g.add (((mtdFltScale c T k (-2)).mul (q.w i)).mul (Flt.total fun l =>
        (fltRow (mtdFltResidual c G q) (c.lags i + t) l).mul (q.A i l j)))
    else g) (by intro a; split <;> rfl) (List.mem_finRange i) (by
      intro z
      rw [if_pos hi, hz, mul_zero_of_ne_fin (mul_ne_fin (mtdFltScale_at_max_lag h _) _), add_nan])
    (fin 0)
  unfold mtdFltPenaltyGrad
  simp only [hf]
  rw [if_neg (by omega)]

theorem mtdFltPenaltyGrad_zero (h : T = c.maxLag) {G : Fin T → Fin k → Flt K}
    {q : FltParams k p K} {t : Fin T} (ht : ∀ i, T - c.lags i ≤ (t : ℕ)) (j : Fin k) :
    mtdFltPenaltyGrad c G q t j = fin 0 := by
  unfold mtdFltPenaltyGrad
  have : ∀ (l : List (Fin p)) (z : Flt K), l.foldl (fun g i =>
      if (t : ℕ) < T - c.lags i then
        g.add (((mtdFltScale c T k (-2)).mul (q.w i)).mul (Flt.total fun l =>
          (fltRow (mtdFltResidual c G q) (c.lags i + t) l).mul (q.A i l j)))
      else g) z = z := by
    intro l
    induction l with
    | nil => intro z; rfl
    | cons a l ih => intro z; rw [List.foldl_cons, if_neg (not_lt.2 (ht a)), ih]
  simp only [this]
  rw [if_neg (by omega)]

/-- With a slope that is NaN the full step is taken, whatever the costs are. -/
theorem fltLineSearch_nan {P : Type} (ls : LSConfig K) (trial : Flt K → P) (evaluate : P → Flt K)
    {mem : List (Flt K)} (hm : mem ≠ []) (current : Flt K) :
    ∃ mem', fltLineSearch ls trial evaluate mem current nan =
      Py.ok (fin 1, trial (fin 1), mem') ∧ mem'.length = mem.length := by
  cases mem with
  | nil => exact absurd rfl hm
  | cons a rest =>
    obtain ⟨fMax, hf⟩ := foldl_fltMaxStep (l := rest ++ [current]) (by simp)
    refine ⟨rest ++ [current], ?_, by simp⟩
    unfold fltLineSearch
    simp only [hf]
    have h0 : fMax.add (((Flt.fin ls.gamma).mul nan).mul (fin 1)) = nan := by
      rw [mul_nan]
      exact add_nan _
    rw [fltSearch.eq_1, h0, gt_nan]
    rfl

/-- The full step is the projection. -/
theorem full_step {n : ℕ} (x : Fin n → Flt K) (i : Fin n) {a : Flt K} (ha : ∃ y, a = fin y) :
    a.add ((fin 1).mul ((fltProjectVector x i).sub a)) = fltProjectVector x i := by
  obtain ⟨y, rfl⟩ := ha
  obtain ⟨z, hz, -⟩ := C132_probability_iff x
  rw [hz i]
  simp [Flt.sub, neg, add, mul]

theorem mtdFltUpdateWeights_at_max_lag (h : T = c.maxLag) (hk : k ≠ 0)
    (X : Matrix (Fin T) (Fin D) K) (S : Matrix (Fin k) (Fin D) K) {q : FltParams k p K}
    (hq : q.Finite) (evaluate : (Fin T → Fin k → Flt K) → Flt K) (s : FltWeights T k K)
    (hG : ∀ t j, ∃ x, s.G t j = fin x) (hm : s.mem ≠ [])
    (hex : ∃ (t : Fin T) (i : Fin p), (t : ℕ) < T - c.lags i) :
    ∃ s', mtdFltUpdateWeights c X S q evaluate s = Py.ok s' ∧ s'.mem.length = s.mem.length ∧
      ∀ t j, s'.G t j = fltProjectVector
        (fun l => (s.G t l).sub (s.alpha.mul (mtdFltWeightsGrad c X S q s.G t l))) j := by
  obtain ⟨t0, ht0⟩ := hex
  have hnan : ∀ j, mtdFltWeightsGrad c X S q s.G t0 j = nan := by
    intro j
    unfold mtdFltWeightsGrad
    simp only [mtdFltPenaltyGrad_nan h hG hq ht0]
    rfl
  unfold mtdFltUpdateWeights
  simp only
  have hp : (Flt.total fun t => Flt.total fun j =>
      ((fltProjectVector (fun l => (s.G t l).sub
        (s.alpha.mul (mtdFltWeightsGrad c X S q s.G t l))) j).sub (s.G t j)).mul
        (mtdFltWeightsGrad c X S q s.G t j)) = nan :=
    total_mem_nan _ t0 (total_mem_nan _ ⟨0, by omega⟩ (by rw [hnan, mul_nan]))
  rw [hp]
  obtain ⟨mem', h1, h2⟩ := fltLineSearch_nan c.ls (fun (step : Flt K) (t : Fin T) (j : Fin k) =>
    (s.G t j).add (step.mul ((fltProjectVector (fun l => (s.G t l).sub
        (s.alpha.mul (mtdFltWeightsGrad c X S q s.G t l))) j).sub (s.G t j)))) evaluate hm
    (evaluate s.G)
  rw [h1]
  exact ⟨_, rfl, h2, fun t j => full_step _ j (hG t j)⟩

theorem mtdFltParametersGrad_at_max_lag (h : T = c.maxLag) (G : Fin T → Fin k → Flt K)
    (q : FltParams k p K) :
    (∀ i, (mtdFltParametersGrad c G q).w i = nan) ∧
      ∀ i a b, (mtdFltParametersGrad c G q).A i a b = nan := by
  constructor
  · intro i
    simp only [mtdFltParametersGrad]
    rw [total_empty (by omega)]
    exact mul_zero_of_ne_fin (mtdFltScale_at_max_lag h _)
  · intro i a b
    simp only [mtdFltParametersGrad]
    rw [total_empty (by omega)]
    exact mul_zero_of_ne_fin (mul_ne_fin (mtdFltScale_at_max_lag h _) _)

theorem mtdFltUpdateParameters_at_max_lag (h : T = c.maxLag) (hp : p ≠ 0)
    (G : Fin T → Fin k → Flt K) (evaluate : FltParams k p K → Flt K) (s : FltFit k p K)
    (hq : s.q.Finite) (hm : s.mem ≠ []) :
    ∃ s', mtdFltUpdateParameters c G evaluate s = Py.ok s' ∧ s'.mem.length = s.mem.length ∧
      s'.q.Zero := by
  obtain ⟨h1, h2⟩ := mtdFltParametersGrad_at_max_lag h G s.q
  unfold mtdFltUpdateParameters
  simp only
  have hpair : (s.q.increment s.alpha (mtdFltParametersGrad c G s.q)).pairing
      (mtdFltParametersGrad c G s.q) = nan := by
    unfold FltParams.pairing
    rw [total_nan hp _ fun i => by rw [h1, mul_nan]]
    rfl
  rw [hpair]
  obtain ⟨mem', e1, e2⟩ := fltLineSearch_nan c.ls (fun step => s.q.move step
    (s.q.increment s.alpha (mtdFltParametersGrad c G s.q))) evaluate hm (evaluate s.q)
  rw [e1]
  refine ⟨_, rfl, e2, fun i => ?_, fun i a b => ?_⟩
  · exact (full_step _ i (hq.1 i)).trans
      (C132_nan_gives_zero _ ⟨i, Or.inl (by rw [h1, mul_nan, sub_nan])⟩ i)
  · exact (full_step _ a (hq.2 i a b)).trans
      (C132_nan_gives_zero _ ⟨a, Or.inl (by rw [h2, mul_nan, sub_nan])⟩ a)

/-! ### Finite values -/

open FltParams

variable {s : MTDState T D k p K}

/-- Finite weights. -/
def finWeights (G : Matrix (Fin T) (Fin k) K) : Fin T → Fin k → Flt K := fun t j => fin (G t j)

theorem fltRow_fin (A : Matrix (Fin T) (Fin k) K) (r : ℕ) (l : Fin k) :
    fltRow (finWeights A) r l = fin (rowAt A r l) := by
  unfold fltRow rowAt finWeights
  split <;> rfl

theorem mtdFltPredicted_fin (G : Matrix (Fin T) (Fin k) K) (w : Fin p → K)
    (A : Fin p → Matrix (Fin k) (Fin k) K) (t : Fin T) (j : Fin k) :
    mtdFltPredicted c (finWeights G) (ofFin w A) t j =
      fin (mtdPredictedWeights c.lags c.maxLag G w A t j) := by
  have h2 := foldl_mask (List.finRange p) (fun t : Fin T => c.maxLag ≤ (t : ℕ))
    (fun i t j => w i * ∑ l, rowAt G (c.maxLag - c.lags i + ((t : ℕ) - c.maxLag)) l *
      (A i)ᵀ l j) (fun t j => if (t : ℕ) < c.maxLag then G t j else 0) t j
  have h3 : mtdPredictedWeights c.lags c.maxLag G w A t j = _ := h2
  rw [h3]
  unfold mtdFltPredicted
  by_cases h : (t : ℕ) < c.maxLag
  · rw [if_pos h, if_pos h, if_neg (by omega), add_zero]
    rfl
  · rw [if_neg h, if_neg h, if_pos (by omega), ← foldl_add_fin]
    congr 1
    ext Z i
    have : (Flt.total fun l => (fltRow (finWeights G) (c.maxLag - c.lags i +
        ((t : ℕ) - c.maxLag)) l).mul ((ofFin w A).A i j l)) =
        fin (∑ l, rowAt G (c.maxLag - c.lags i + ((t : ℕ) - c.maxLag)) l * (A i)ᵀ l j) := by
      simp only [fltRow_fin]
      exact total_fin _
    rw [this]
    rfl

theorem mtdFltResidual_fin (G : Matrix (Fin T) (Fin k) K) (w : Fin p → K)
    (A : Fin p → Matrix (Fin k) (Fin k) K) :
    mtdFltResidual c (finWeights G) (ofFin w A) =
      finWeights (G - mtdPredictedWeights c.lags c.maxLag G w A) := by
  ext t j
  unfold mtdFltResidual
  rw [mtdFltPredicted_fin]
  exact sub_fin _ _

theorem mtdFltScale_fin (hk : k ≠ 0) (hT : T ≠ c.maxLag) (x : K) :
    mtdFltScale c T k x = fin (x * c.epsilonWeights * s.weightsNormalization c) := by
  unfold mtdFltScale MTDState.weightsNormalization
  have h : (k : K) * ((T : K) - (c.maxLag : K)) ≠ 0 := by
    refine mul_ne_zero (by exact_mod_cast hk) (sub_ne_zero.2 (by exact_mod_cast hT))
  simp only [inv, if_neg h, mul]

theorem foldl_fin {α : Type} (l : List α) (f : Flt K → α → Flt K) (g : K → α → K)
    (h : ∀ z a, f (fin z) a = fin (g z a)) (z : K) : l.foldl f (fin z) = fin (l.foldl g z) := by
  induction l generalizing z with
  | nil => rfl
  | cons a l ih => rw [List.foldl_cons, List.foldl_cons, h, ih]

theorem foldl_apply {α : Type} (l : List α) (f : Matrix (Fin T) (Fin k) K → α →
    Matrix (Fin T) (Fin k) K) (g : K → α → K) (t : Fin T) (j : Fin k)
    (h : ∀ M a, f M a t j = g (M t j) a) (M : Matrix (Fin T) (Fin k) K) :
    l.foldl f M t j = l.foldl g (M t j) := by
  induction l generalizing M with
  | nil => rfl
  | cons a l ih => rw [List.foldl_cons, List.foldl_cons, ih, h]

theorem mtdFltWeightsGrad_fin (hk : k ≠ 0) (hT : T ≠ c.maxLag)
    (hZ : s.Z = mtdPredictedWeights c.lags c.maxLag s.Gamma s.orderWeights s.transitionMatrices)
    (hX : s.XSt = s.X * s.Sᵀ) (hS : s.SSt = s.S * s.Sᵀ) :
    mtdFltWeightsGrad c s.X s.S (ofFin s.orderWeights s.transitionMatrices)
      (finWeights s.Gamma) = finWeights (s.updateWeightsGradient c).gradGamma := by
  have hP : mtdFltPenaltyGrad c (finWeights s.Gamma)
      (ofFin s.orderWeights s.transitionMatrices) =
      finWeights (s.weightsPenaltyGradient c).gradGamma := by
    ext t j
    unfold mtdFltPenaltyGrad
    simp only [mtdFltResidual_fin, ← hZ, mtdFltScale_fin (s := s) hk hT, fltRow_fin]
    have h1 := foldl_fin (List.finRange p) (fun g i =>
      if (t : ℕ) < T - c.lags i then
        g.add (((fin (-2 * c.epsilonWeights * s.weightsNormalization c)).mul
          ((ofFin s.orderWeights s.transitionMatrices).w i)).mul (Flt.total fun l =>
          (fin (rowAt (s.Gamma - s.Z) (c.lags i + t) l)).mul
            ((ofFin s.orderWeights s.transitionMatrices).A i l j)))
      else g) (fun g i => if (t : ℕ) < T - c.lags i then
        g + -2 * c.epsilonWeights * s.weightsNormalization c * s.orderWeights i *
          ∑ l, rowAt (s.Gamma - s.Z) (c.lags i + t) l * s.transitionMatrices i l j
      else g) (by
        intro z i
        split
        · have : (Flt.total fun l => (fin (rowAt (s.Gamma - s.Z) (c.lags i + t) l)).mul
              ((ofFin s.orderWeights s.transitionMatrices).A i l j)) =
              fin (∑ l, rowAt (s.Gamma - s.Z) (c.lags i + t) l * s.transitionMatrices i l j) :=
            total_fin _
          rw [this]
          rfl
        · rfl) 0
    have h2 := foldl_apply (List.finRange p) (fun (G : Matrix (Fin T) (Fin k) K) i => fun t j =>
      if (t : ℕ) < T - c.lags i then
        G t j + -2 * c.epsilonWeights * s.weightsNormalization c * s.orderWeights i *
          ∑ l, rowAt (s.Gamma - s.Z) (c.lags i + t) l * s.transitionMatrices i l j
      else G t j) (fun g i => if (t : ℕ) < T - c.lags i then
        g + -2 * c.epsilonWeights * s.weightsNormalization c * s.orderWeights i *
          ∑ l, rowAt (s.Gamma - s.Z) (c.lags i + t) l * s.transitionMatrices i l j
      else g) t j (fun _ _ => rfl) 0
    rw [h1, show (0 : K) = (0 : Matrix (Fin T) (Fin k) K) t j from rfl, ← h2]
    unfold MTDState.weightsPenaltyGradient finWeights
    simp only
    split <;> rfl
  ext t j
  unfold mtdFltWeightsGrad
  simp only [hP]
  have : (Flt.total fun l => (finWeights s.Gamma t l).mul (fin ((s.S * s.Sᵀ) l j))) =
      fin ((s.Gamma * (s.S * s.Sᵀ)) t j) := total_fin _
  rw [this]
  simp only [MTDState.updateWeightsGradient, finWeights, mul, add, Matrix.add_apply,
    Matrix.smul_apply, smul_eq_mul]
  rw [← hX, ← hS]
  rfl

theorem mtdFltParametersGrad_fin (hk : k ≠ 0) (hT : T ≠ c.maxLag)
    (hZ : s.Z = mtdPredictedWeights c.lags c.maxLag s.Gamma s.orderWeights s.transitionMatrices) :
    mtdFltParametersGrad c (finWeights s.Gamma) (ofFin s.orderWeights s.transitionMatrices) =
      ofFin (s.updateParametersGradient c).gradOrderWeights
        (s.updateParametersGradient c).gradTransitionMatrices := by
  unfold mtdFltParametersGrad
  simp only [mtdFltResidual_fin, ← hZ, mtdFltScale_fin (s := s) hk hT, fltRow_fin]
  unfold ofFin
  congr 1
  · ext i
    have h1 : (Flt.total fun r : Fin (T - c.maxLag) => Flt.total fun l =>
        (Flt.total fun j => (fin (rowAt (s.Gamma - s.Z) (c.maxLag + r) j)).mul
          (fin (s.transitionMatrices i j l))).mul (fin (rowAt s.Gamma (c.maxLag - c.lags i + r) l))) =
        fin (∑ r : Fin (T - c.maxLag), ∑ l, (∑ j, rowAt (s.Gamma - s.Z) (c.maxLag + r) j *
          s.transitionMatrices i j l) * rowAt s.Gamma (c.maxLag - c.lags i + r) l) := by
      rw [← total_fin]
      congr 1
      ext r
      rw [← total_fin]
      congr 1
      ext l
      have : (Flt.total fun j => (fin (rowAt (s.Gamma - s.Z) (c.maxLag + r) j)).mul
          (fin (s.transitionMatrices i j l))) = fin (∑ j, rowAt (s.Gamma - s.Z) (c.maxLag + r) j *
          s.transitionMatrices i j l) := total_fin _
      rw [this]
      rfl
    rw [h1]
    simp only [mul, MTDState.updateParametersGradient, Matrix.trace, Matrix.diag_apply,
      Matrix.mul_apply]
    rfl
  · ext i a b
    have h1 : (Flt.total fun r : Fin (T - c.maxLag) =>
        (fin (rowAt (s.Gamma - s.Z) (c.maxLag + r) a)).mul
          (fin (rowAt s.Gamma (c.maxLag - c.lags i + r) b))) =
        fin (∑ r : Fin (T - c.maxLag), rowAt (s.Gamma - s.Z) (c.maxLag + r) a *
          rowAt s.Gamma (c.maxLag - c.lags i + r) b) := total_fin _
    rw [h1]
    simp only [mul, MTDState.updateParametersGradient, Matrix.smul_apply, smul_eq_mul]
    rfl

end Reor
