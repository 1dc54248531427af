import Verif.Model.CROMFlt
import Verif.Props.NonFinite
import Verif.Proofs.GPNHCROM

/-!
The fit of the parameters of the reduced order model with NaN and infinite values.
-/

namespace Reor

set_option linter.unusedSectionVars false

open scoped BigOperators Matrix
open Spec

variable {K : Type} [Field K] [LinearOrder K] [IsStrictOrderedRing K]
variable {T k p : ℕ}

namespace Flt

theorem total_empty {n : ℕ} (h : n = 0) (v : Fin n → Flt K) : total v = fin 0 := by
  subst h
  rfl

theorem total_nan {n : ℕ} (h : n ≠ 0) (v : Fin n → Flt K) (hv : ∀ i, v i = nan) :
    total v = nan := by
  obtain ⟨m, rfl⟩ := Nat.exists_eq_succ_of_ne_zero h
  unfold total
  rw [List.ofFn_succ, hv 0]
  rfl

theorem total_fin {n : ℕ} (v : Fin n → K) : total (fun i => fin (v i)) = fin (∑ i, v i) := by
  unfold total
  rw [show List.ofFn (fun i => fin (v i)) = (List.ofFn v).map fin by rw [List.map_ofFn]; rfl,
    sum_map_fin, List.sum_ofFn]

theorem mul_nan (a : Flt K) : mul a nan = nan := by cases a <;> rfl

theorem sub_nan (a : Flt K) : sub a nan = nan := by cases a <;> rfl

theorem gt_nan (a : Flt K) : gt a nan = false := by cases a <;> rfl

theorem gt_self (a : Flt K) : gt a a = false := by
  unfold gt
  cases ge a a <;> rfl

theorem infMul_ne_fin (x y : K) : infMul x ≠ fin y := by
  unfold infMul
  split
  · simp
  · split <;> simp

theorem mul_zero_of_ne_fin {a : Flt K} (h : ∀ x, a ≠ fin x) : mul a (fin 0) = nan := by
  cases a with
  | nan => rfl
  | ninf => simp [mul, infMul, neg]
  | fin x => exact absurd rfl (h x)
  | pinf => simp [mul, infMul]

theorem ninf_mul_ne_fin (a : Flt K) (x : K) : mul ninf a ≠ fin x := by
  cases a with
  | nan => simp [mul]
  | ninf => simp [mul]
  | pinf => simp [mul]
  | fin y =>
    change neg (infMul y) ≠ fin x
    have h := fun z => infMul_ne_fin y z
    revert h
    cases infMul y <;> simp [neg]

end Flt

open Flt

namespace FltParams

variable {c : CROMConfig p K} {G : Matrix (Fin T) (Fin k) K}

/-- All numbers are finite. -/
def Finite (q : FltParams k p K) : Prop :=
  (∀ i, ∃ x, q.w i = fin x) ∧ ∀ i a b, ∃ x, q.A i a b = fin x

/-- All numbers are 0. -/
def Zero (q : FltParams k p K) : Prop := (∀ i, q.w i = fin 0) ∧ ∀ i a b, q.A i a b = fin 0

theorem Zero.finite {q : FltParams k p K} (h : q.Zero) : q.Finite :=
  ⟨fun i => ⟨0, h.1 i⟩, fun i a b => ⟨0, h.2 i a b⟩⟩

theorem normalization_pinf (h : T = c.maxLag) : normalization c T k = pinf := by
  unfold normalization
  rw [← h, sub_self, mul_zero]
  simp [inv]

theorem scale_ninf : (Flt.fin (-2 : K)).mul pinf = ninf := by
  have h : ¬ (0 : K) < -2 := by norm_num
  have h' : (-2 : K) ≠ 0 := by norm_num
  simp [mul, infMul, h]

theorem cost_at_max_lag (h : T = c.maxLag) (q : FltParams k p K) :
    q.cost c G = if k = 1 then fin 0 else nan := by
  unfold cost
  split
  · rfl
  · rw [normalization_pinf h, total_empty (by omega)]
    simp [add, mul, infMul]

theorem grad_at_max_lag (h : T = c.maxLag) (q : FltParams k p K) :
    (∀ i, (q.grad c G).w i = nan) ∧ ∀ i a b, (q.grad c G).A i a b = nan := by
  constructor
  · intro i
    simp only [grad, normalization_pinf h, scale_ninf]
    rw [total_empty (by omega)]
    exact mul_zero_of_ne_fin fun x => by simp
  · intro i a b
    simp only [grad, normalization_pinf h, scale_ninf]
    rw [total_empty (by omega)]
    exact mul_zero_of_ne_fin (ninf_mul_ne_fin _)

theorem increment_at_max_lag (h : T = c.maxLag) (q : FltParams k p K) (alpha : Flt K) :
    (∀ i, (q.increment alpha (q.grad c G)).w i = (fin 0 : Flt K).sub (q.w i)) ∧
      ∀ i a b, (q.increment alpha (q.grad c G)).A i a b = (fin 0 : Flt K).sub (q.A i a b) := by
  obtain ⟨h1, h2⟩ := grad_at_max_lag (G := G) h q
  constructor
  · intro i
    simp only [increment]
    rw [C132_nan_gives_zero _ ⟨i, Or.inl (by rw [h1, mul_nan, sub_nan])⟩]
  · intro i a b
    simp only [increment]
    rw [C132_nan_gives_zero _ ⟨a, Or.inl (by rw [h2, mul_nan, sub_nan])⟩]

theorem move_at_max_lag (h : T = c.maxLag) (q : FltParams k p K) (hq : q.Finite) (alpha : Flt K) :
    (q.move (.fin 1) (q.increment alpha (q.grad c G))).Zero := by
  obtain ⟨h1, h2⟩ := increment_at_max_lag (G := G) h q alpha
  constructor
  · intro i
    obtain ⟨x, hx⟩ := hq.1 i
    simp only [move, h1, hx]
    simp [Flt.sub, neg, add, mul]
  · intro i a b
    obtain ⟨x, hx⟩ := hq.2 i a b
    simp only [move, h2, hx]
    simp [Flt.sub, neg, add, mul]

theorem pairing_at_max_lag (h : T = c.maxLag) (hp : p ≠ 0) (q r : FltParams k p K) :
    r.pairing (q.grad c G) = nan := by
  unfold pairing
  rw [total_nan hp _ fun i => by rw [(grad_at_max_lag h q).1 i, mul_nan]]
  rfl

end FltParams

theorem foldl_fltMaxStep_some (l : List (Flt K)) (m : Flt K) :
    ∃ m', l.foldl fltMaxStep (some m) = some m' := by
  induction l generalizing m with
  | nil => exact ⟨m, rfl⟩
  | cons a l ih =>
    rw [List.foldl_cons]
    change ∃ m', l.foldl fltMaxStep (if a.ge m then some a else some m) = some m'
    split <;> exact ih _

theorem foldl_fltMaxStep {l : List (Flt K)} (h : l ≠ []) :
    ∃ m, l.foldl fltMaxStep none = some m := by
  cases l with
  | nil => exact absurd rfl h
  | cons a l => exact foldl_fltMaxStep_some l a

theorem fltUpdate_at_max_lag {c : CROMConfig p K} {G : Matrix (Fin T) (Fin k) K} (h : T = c.maxLag)
    (hp : p ≠ 0) (s : FltFit k p K) (hq : s.q.Finite) (hm : s.mem ≠ []) :
    ∃ s', fltUpdate c G s = Py.ok s' ∧ s'.q.Zero ∧ s'.mem ≠ [] := by
  unfold fltUpdate
  obtain ⟨q, alpha, mem⟩ := s
  cases mem with
  | nil => exact absurd rfl hm
  | cons f rest =>
    simp only
    obtain ⟨fMax, hf⟩ := foldl_fltMaxStep (l := rest ++ [q.cost c G]) (by simp)
    rw [hf]
    simp only
    rw [FltParams.pairing_at_max_lag h hp]
    rw [fltBacktrack.eq_1]
    have h0 : fMax.add (((Flt.fin c.ls.gamma).mul nan).mul (fin 1)) = nan := by
      rw [mul_nan]
      change fMax.add nan = nan
      exact add_nan _
    rw [h0, gt_nan]
    exact ⟨_, rfl, FltParams.move_at_max_lag h q hq alpha, by simp⟩

theorem fltFitLoop_at_max_lag {c : CROMConfig p K} {G : Matrix (Fin T) (Fin k) K} (h : T = c.maxLag)
    (hp : p ≠ 0) {require : Bool} {tol : K} (n : ℕ) (hn : n ≠ 0) (s : FltFit k p K)
    (hq : s.q.Finite) (hm : s.mem ≠ []) :
    ∃ s', fltFitLoop c G require tol n s (s.q.cost c G) = Py.ok s' ∧ s'.q.Zero := by
  induction n generalizing s with
  | zero => exact absurd rfl hn
  | succ n ih =>
    obtain ⟨s1, h1, h2, h3⟩ := fltUpdate_at_max_lag (G := G) h hp s hq hm
    have hc : s.q.cost c G = s1.q.cost c G := by
      rw [FltParams.cost_at_max_lag h, FltParams.cost_at_max_lag h]
    simp only [fltFitLoop, h1, Py.ok_bind, hc, gt_self, Bool.false_and, Bool.false_eq_true, if_false]
    split
    · exact ⟨s1, rfl, h2⟩
    · rcases Nat.eq_zero_or_pos n with rfl | hn'
      · exact ⟨s1, rfl, h2⟩
      · exact ih (by omega) s1 h2.finite h3

/-! ### Finite values -/

namespace FltParams

/-- Finite parameters. -/
def ofFin (w : Fin p → K) (A : Fin p → Matrix (Fin k) (Fin k) K) : FltParams k p K :=
  ⟨fun i => .fin (w i), fun i a b => .fin (A i a b)⟩

variable (c : CROMConfig p K) (G : Matrix (Fin T) (Fin k) K) (w : Fin p → K)
  (A : Fin p → Matrix (Fin k) (Fin k) K)

theorem foldl_add_fin {α : Type} (l : List α) (f : α → K) (z : K) :
    l.foldl (fun Z i => Flt.add Z (fin (f i))) (fin z) = fin (z + (l.map f).sum) := by
  induction l generalizing z with
  | nil => simp
  | cons a l ih =>
    rw [List.foldl_cons]
    change l.foldl _ (fin (z + f a)) = _
    rw [ih, List.map_cons, List.sum_cons, add_assoc]

theorem predicted_fin (r : Fin (T - c.maxLag)) (j : Fin k) :
    (ofFin w A).predicted c G r j =
      fin (cromPredictedWeights c.lags c.maxLag G w A ⟨c.maxLag + r, by omega⟩ j) := by
  have h1 : (ofFin w A).predicted c G r j = fin (0 + ((List.finRange p).map fun i =>
      w i * ∑ l, rowAt G (c.maxLag - c.lags i + r) l * A i j l).sum) := by
    rw [← foldl_add_fin]
    unfold predicted
    congr 1
    ext Z i
    have : (Flt.total fun l => (lagged c G i r l).mul ((ofFin w A).A i j l)) =
        fin (∑ l, rowAt G (c.maxLag - c.lags i + r) l * A i j l) := total_fin _
    rw [this]
    rfl
  have h2 := foldl_mask (List.finRange p) (fun t : Fin T => c.maxLag ≤ (t : ℕ))
    (fun i t j => w i * ∑ l, rowAt G (c.maxLag - c.lags i + ((t : ℕ) - c.maxLag)) l *
      (A i)ᵀ l j) (fun t j => if (t : ℕ) < c.maxLag then G t j else 0) ⟨c.maxLag + r, by omega⟩ j
  have h3 : cromPredictedWeights c.lags c.maxLag G w A ⟨c.maxLag + r, by omega⟩ j = _ := h2
  rw [h1, h3, if_neg (by simp), if_pos (by simp)]
  simp only [Nat.add_sub_cancel_left, Matrix.transpose_apply]

theorem residual_fin (r : Fin (T - c.maxLag)) (j : Fin k) :
    (ofFin w A).residual c G r j =
      fin (rowAt (G - cromPredictedWeights c.lags c.maxLag G w A) (c.maxLag + r) j) := by
  unfold residual
  rw [predicted_fin]
  have h : c.maxLag + (r : ℕ) < T := by omega
  simp only [rowAt, dif_pos h, Flt.sub, neg, add, Matrix.sub_apply, sub_eq_add_neg]

theorem normalization_fin (hk : k ≠ 0) (hT : T ≠ c.maxLag) (s : CROMState T k p K) :
    normalization c T k = fin (s.normalization c) := by
  unfold normalization CROMState.normalization
  have h : (k : K) * ((T : K) - (c.maxLag : K)) ≠ 0 := by
    refine mul_ne_zero (by exact_mod_cast hk) (sub_ne_zero.2 (by exact_mod_cast hT))
  simp only [inv, if_neg h]

end FltParams

section

variable {c : CROMConfig p K} {s : CROMState T k p K}

open FltParams

theorem cost_fin (hk : k ≠ 0) (hT : T ≠ c.maxLag)
    (hZ : s.Z = cromPredictedWeights c.lags c.maxLag s.Gamma s.orderWeights s.transitionMatrices) :
    (ofFin s.orderWeights s.transitionMatrices).cost c s.Gamma = fin (s.evaluateFitResidual c) := by
  unfold FltParams.cost CROMState.evaluateFitResidual
  split
  · rfl
  · rw [normalization_fin c hk hT s]
    have h1 : (Flt.total fun r => Flt.total fun j =>
        ((ofFin s.orderWeights s.transitionMatrices).residual c s.Gamma r j).mul
          ((ofFin s.orderWeights s.transitionMatrices).residual c s.Gamma r j)) =
        fin (∑ r : Fin (T - c.maxLag), ∑ j, rowAt (s.Gamma - s.Z) (c.maxLag + r) j ^ 2) := by
      rw [← total_fin]
      congr 1
      ext r
      rw [← total_fin]
      congr 1
      ext j
      rw [residual_fin, ← hZ, sq]
      rfl
    rw [h1]
    simp only [add, mul]
    congr 3
    rw [← sum_from c.maxLag fun t => ∑ j, rowAt (s.Gamma - s.Z) t j ^ 2]
    refine Finset.sum_congr rfl fun t _ => ?_
    simp [rowAt]

theorem grad_fin (hk : k ≠ 0) (hT : T ≠ c.maxLag)
    (hZ : s.Z = cromPredictedWeights c.lags c.maxLag s.Gamma s.orderWeights s.transitionMatrices) :
    (ofFin s.orderWeights s.transitionMatrices).grad c s.Gamma =
      ofFin (s.updateParametersGradient c).gradOrderWeights
        (s.updateParametersGradient c).gradTransitionMatrices := by
  unfold FltParams.grad
  rw [normalization_fin c hk hT s]
  simp only [residual_fin, ← hZ]
  unfold ofFin
  congr 1
  · ext i
    have h1 : (Flt.total fun r : Fin (T - c.maxLag) => Flt.total fun l =>
        (Flt.total fun j => (fin (rowAt (s.Gamma - s.Z) (c.maxLag + r) j)).mul
          (fin (s.transitionMatrices i j l))).mul (lagged c s.Gamma i r l)) =
        fin (∑ r : Fin (T - c.maxLag), ∑ l, (∑ j, rowAt (s.Gamma - s.Z) (c.maxLag + r) j *
          s.transitionMatrices i j l) * rowAt s.Gamma (c.maxLag - c.lags i + r) l) := by
      rw [← total_fin]
      congr 1
      ext r
      rw [← total_fin]
      congr 1
      ext l
      have : (Flt.total fun j => (fin (rowAt (s.Gamma - s.Z) (c.maxLag + r) j)).mul
          (fin (s.transitionMatrices i j l))) = fin (∑ j, rowAt (s.Gamma - s.Z) (c.maxLag + r) j *
          s.transitionMatrices i j l) := total_fin _
      rw [this]
      rfl
    rw [h1]
    simp only [mul, CROMState.updateParametersGradient, Matrix.trace, Matrix.diag_apply,
      Matrix.mul_apply]
    rfl
  · ext i a b
    have h1 : (Flt.total fun r : Fin (T - c.maxLag) =>
        (fin (rowAt (s.Gamma - s.Z) (c.maxLag + r) a)).mul (lagged c s.Gamma i r b)) =
        fin (∑ r : Fin (T - c.maxLag), rowAt (s.Gamma - s.Z) (c.maxLag + r) a *
          rowAt s.Gamma (c.maxLag - c.lags i + r) b) := total_fin _
    rw [h1]
    simp only [mul, CROMState.updateParametersGradient, Matrix.smul_apply, smul_eq_mul]
    rfl

theorem increment_fin {w : Fin p → K} {A : Fin p → Matrix (Fin k) (Fin k) K} (alpha : K)
    (g : Fin p → K) (H : Fin p → Matrix (Fin k) (Fin k) K) :
    (ofFin w A).increment (.fin alpha) (ofFin g H) =
      ofFin (simplexProjectVector (w - alpha • g) - w)
        fun i => simplexProjectColumns (A i - alpha • H i) - A i := by
  unfold FltParams.increment ofFin
  congr 1
  · ext i
    simp only [mul, Flt.sub, neg, add, ← sub_eq_add_neg]
    rw [show (fun l => Flt.fin (w l - alpha * g l)) = fun l => .fin ((w - alpha • g) l) from rfl,
      C132_finite_models]
    simp [sub_eq_add_neg]
  · ext i a b
    simp only [mul, Flt.sub, neg, add, ← sub_eq_add_neg]
    rw [show (fun r => Flt.fin (A i r b - alpha * H i r b)) =
        fun r => .fin ((A i - alpha • H i) r b) from rfl,
      C132_finite_models fun r => (A i - alpha • H i) r b, ← projectColumns_apply]
    simp [sub_eq_add_neg]

end

end Reor
