import Verif.Model.PWVARX
import Verif.Proofs.VARXRun
import Verif.Proofs.Rel

/-!
Layout of the predictors of `ClusterPWVARX`, and the loop of its fit.
-/

set_option linter.unusedSectionVars false

namespace Reor

open scoped BigOperators
open Spec

/-! ### The predictors -/

section Exog

variable {N m L : ℕ} {u : Arr2 ℝ}

theorem writeExog_col {is : List ℕ} {r r' : Matrix (Fin m) (Fin N) ℝ × ℕ}
    (h : writeExog m L u is r = Py.ok r') : r'.2 = r.2 + is.length * u.cols := by
  induction is generalizing r with
  | nil =>
    rw [← Py.ok.inj h]
    simp
  | cons i is ih =>
    obtain ⟨b, -, h⟩ := Py.bind_eq_ok.1 h
    rw [ih h, List.length_cons]
    change r.2 + u.cols + _ = _
    ring

theorem writeExog_outside {is : List ℕ} {r r' : Matrix (Fin m) (Fin N) ℝ × ℕ}
    (h : writeExog m L u is r = Py.ok r') (t : Fin m) (j : Fin N) (hj : (j : ℕ) < r.2) :
    r'.1 t j = r.1 t j := by
  induction is generalizing r with
  | nil => rw [← Py.ok.inj h]
  | cons i is ih =>
    obtain ⟨b, -, h⟩ := Py.bind_eq_ok.1 h
    rw [ih h (lt_of_lt_of_le hj (Nat.le_add_right _ _))]
    exact dif_neg (by omega)

theorem writeExog_inside {is : List ℕ} {r r' : Matrix (Fin m) (Fin N) ℝ × ℕ}
    (h : writeExog m L u is r = Py.ok r') (t : Fin m) (j : Fin N) (i : ℕ) (hi : i < is.length)
    (b : Fin u.cols) (hj : (j : ℕ) = r.2 + (i * u.cols + b)) :
    ∃ block, exogBlock m L u is[i] = Py.ok block ∧ r'.1 t j = block t b := by
  induction is generalizing r i with
  | nil => simp at hi
  | cons a is ih =>
    have hb := b.2
    obtain ⟨block, hblock, h⟩ := Py.bind_eq_ok.1 h
    cases i with
    | zero =>
      refine ⟨block, hblock, ?_⟩
      rw [writeExog_outside h t j (by change (j : ℕ) < r.2 + u.cols; omega)]
      have : r.2 ≤ (j : ℕ) ∧ (j : ℕ) < r.2 + u.cols := by omega
      refine (dif_pos this).trans ?_
      congr 1
      ext
      change (j : ℕ) - r.2 = b
      omega
    | succ i =>
      have hl : (i + 1) * u.cols = i * u.cols + u.cols := by ring
      exact ih h i (by simpa using hi) (by change (j : ℕ) = r.2 + u.cols + (i * u.cols + b); omega)

theorem exogBlock_eq (h : u.rows - L = m) (i : ℕ) :
    exogBlock m L u i = Py.ok fun t => lagRows L u.val i (Fin.cast h.symm t) := dif_pos h

end Exog

section Stack

variable {p s : ℕ} {endog : Arr2 ℝ} {exog : Option (Arr2 ℝ)}
  {x : Matrix (Fin (endog.rows - max p s)) (Fin (p * endog.cols + s * exogCols exog)) ℝ}

theorem stackPredictors_ok (h : stackPredictors p s endog exog = Py.ok x) :
    max p s ≤ endog.rows ∧ ∃ c, stackExog (endog.rows - max p s) (max p s) s exog
      (writeLags (max p s) endog.val (lagRange p) (0, 0)) = Py.ok (x, c) := by
  unfold stackPredictors at h
  split_ifs at h with hn
  obtain ⟨r, hr, h⟩ := Py.bind_eq_ok.1 h
  refine ⟨by omega, r.2, ?_⟩
  rw [← Py.ok.inj h]
  exact hr

theorem stackPredictors_endog (h : stackPredictors p s endog exog = Py.ok x)
    (t : Fin (endog.rows - max p s)) (j : Fin (p * endog.cols + s * exogCols exog)) (i : Fin p)
    (b : Fin endog.cols) (hj : (j : ℕ) = i * endog.cols + b) :
    x t j = rowSeq endog.val (t + max p s - (i + 1)) b := by
  obtain ⟨hn, c, hr⟩ := stackPredictors_ok h
  have hlt := mul_add_lt i.2 b.2
  have key : (writeLags (N := p * endog.cols + s * exogCols exog) (max p s) endog.val (lagRange p)
      (0, 0)).1 t j = rowSeq endog.val (t + max p s - (i + 1)) b := by
    rw [writeLags_inside (lagRange p) _ t j i (by rw [lagRange_length]; exact i.2) b
      (by rw [hj]; simp), lagRange_get, lagRows_rowSeq (le_trans i.2 (le_max_left _ _))]
  unfold stackExog at hr
  cases exog with
  | none =>
    rw [← key]
    exact (congrFun (congrFun (Prod.ext_iff.1 (Py.ok.inj hr)).1 t) j).symm
  | some u =>
    simp only at hr
    split_ifs at hr with hs
    · refine (writeExog_outside hr t j ?_).trans key
      rw [writeLags_col, lagRange_length]
      change (j : ℕ) < 0 + _
      omega
    · rw [← key]
      exact (congrFun (congrFun (Prod.ext_iff.1 (Py.ok.inj hr)).1 t) j).symm

theorem stackPredictors_exog {u : Arr2 ℝ}
    {x : Matrix (Fin (endog.rows - max p s)) (Fin (p * endog.cols + s * exogCols (some u))) ℝ}
    (h : stackPredictors p s endog (some u) = Py.ok x)
    (t : Fin (endog.rows - max p s)) (j : Fin (p * endog.cols + s * exogCols (some u))) (i : Fin s)
    (b : Fin u.cols) (hj : (j : ℕ) = p * endog.cols + (i * u.cols + b)) :
    ∃ block, exogBlock (endog.rows - max p s) (max p s) u (i + 1) = Py.ok block ∧
      x t j = block t b := by
  obtain ⟨hn, c, hr⟩ := stackPredictors_ok h
  have hs : s > 0 := lt_of_le_of_lt (Nat.zero_le _) i.2
  unfold stackExog at hr
  simp only [if_pos hs] at hr
  obtain ⟨block, h1, h2⟩ := writeExog_inside hr t j i (by rw [lagRange_length]; exact i.2) b
    (by rw [writeLags_col, lagRange_length, hj]; simp)
  rw [lagRange_get] at h1
  exact ⟨block, h1, h2⟩

end Stack

section Errors

variable {p s : ℕ} {endog : Arr2 ℝ} {exog : Option (Arr2 ℝ)}

/-- The number of rows of the exogenous variables after the presample that can be used. -/
def ExogFits (L s n : ℕ) (exog : Option (Arr2 ℝ)) : Prop :=
  ∀ u, exog = some u → 0 < s → u.rows - L = n - L ∨ u.rows - L = 1

theorem exogBlock_cases {m L : ℕ} {u : Arr2 ℝ} (i : ℕ) :
    ((u.rows - L = m ∨ u.rows - L = 1) ∧ ∃ b, exogBlock m L u i = Py.ok b) ∨
    (¬ (u.rows - L = m ∨ u.rows - L = 1) ∧ exogBlock m L u i = Py.raise .valueError) := by
  unfold exogBlock
  split_ifs with h1 h2
  · exact Or.inl ⟨Or.inl h1, _, rfl⟩
  · exact Or.inl ⟨Or.inr h2, _, rfl⟩
  · exact Or.inr ⟨by tauto, rfl⟩

theorem writeExog_ok {N m L : ℕ} {u : Arr2 ℝ} (h : u.rows - L = m ∨ u.rows - L = 1) (is : List ℕ)
    (r : Matrix (Fin m) (Fin N) ℝ × ℕ) : ∃ r', writeExog m L u is r = Py.ok r' := by
  induction is generalizing r with
  | nil => exact ⟨r, rfl⟩
  | cons i is ih =>
    rcases exogBlock_cases (m := m) (L := L) (u := u) i with ⟨-, b, hb⟩ | ⟨h', -⟩
    · unfold writeExog
      rw [hb]
      exact ih _
    · exact absurd h h'

/-- The predictors exist exactly if there are enough samples. -/
theorem stackPredictors_cases :
    ((max p s ≤ endog.rows ∧ ExogFits (max p s) s endog.rows exog) ∧
      ∃ x, stackPredictors p s endog exog = Py.ok x) ∨
    (¬ (max p s ≤ endog.rows ∧ ExogFits (max p s) s endog.rows exog) ∧
      stackPredictors p s endog exog = Py.raise .valueError) := by
  unfold stackPredictors
  split_ifs with hn
  · exact Or.inr ⟨fun h => absurd h.1 (by omega), rfl⟩
  · cases exog with
    | none => exact Or.inl ⟨⟨by omega, fun u h => by simp at h⟩, _, rfl⟩
    | some u =>
      by_cases hs : 0 < s
      · by_cases hu : u.rows - max p s = endog.rows - max p s ∨ u.rows - max p s = 1
        · refine Or.inl ⟨⟨by omega, fun v hv _ => ?_⟩, ?_⟩
          · cases hv
            exact hu
          · obtain ⟨r, hr⟩ := writeExog_ok (N := p * endog.cols + s * exogCols (some u)) hu
              (lagRange s) (writeLags (max p s) endog.val (lagRange p) (0, 0))
            refine ⟨r.1, ?_⟩
            unfold stackExog
            simp only [if_pos hs]
            rw [hr]
            rfl
        · refine Or.inr ⟨fun h => hu (h.2 u rfl hs), ?_⟩
          unfold stackExog
          simp only [if_pos hs]
          obtain ⟨s', rfl⟩ : ∃ s', s = s' + 1 := ⟨s - 1, by omega⟩
          have hl : lagRange (s' + 1) = 1 :: (lagRange (s' + 1)).tail := by
            have h0 : 0 < (lagRange (s' + 1)).length := by rw [lagRange_length]; omega
            have := lagRange_get (s' + 1) 0 (by rw [lagRange_length]; omega)
            cases hc : lagRange (s' + 1) with
            | nil => simp [hc] at h0
            | cons a l =>
              simp only [hc, List.getElem_cons_zero] at this
              simp [this]
          rw [hl]
          unfold writeExog
          rcases exogBlock_cases (m := endog.rows - max p (s' + 1)) (L := max p (s' + 1)) (u := u) 1
            with ⟨h', -⟩ | ⟨-, hb⟩
          · exact absurd h' hu
          · rw [hb]
            rfl
      · refine Or.inl ⟨⟨by omega, fun v _ h => absurd h hs⟩, ?_⟩
        unfold stackExog
        simp only [if_neg hs]
        exact ⟨_, rfl⟩

end Errors

/-! ### Predictions -/

section Design

variable {c N : ℕ}

theorem pwDesign_zero (x : Matrix (Fin c) (Fin N) ℝ) (t : Fin c) (j : Fin (trendCols true + N))
    (hj : (j : ℕ) = 0) : pwDesign true x t j = 1 := dif_pos (by rw [hj]; exact one_pos)

theorem pwDesign_shift (trend : Bool) (x : Matrix (Fin c) (Fin N) ℝ) (t : Fin c)
    (j : Fin (trendCols trend + N)) (i : Fin N) (hj : (j : ℕ) = trendCols trend + i) :
    pwDesign trend x t j = x t i := by
  cases trend with
  | true =>
    have h1 : trendCols true = 1 := rfl
    refine (dif_neg (by omega)).trans ?_
    congr 1
    ext
    change (j : ℕ) - 1 = i
    omega
  | false =>
    change x t (Fin.cast _ j) = x t i
    congr 1
    ext
    have h1 : trendCols false = 0 := rfl
    change (j : ℕ) = i
    omega

theorem pwDesign_takeRows {m : ℕ} (trend : Bool) (x : Matrix (Fin m) (Fin N) ℝ)
    (rows : List (Fin m)) (r : Fin rows.length) :
    pwDesign trend (takeRows x rows) r = pwDesign trend x (rows.get r) := by
  cases trend <;> rfl

end Design

section Predict

variable {p s D E : ℕ} {trend : Bool}

/-- The product of the design matrix with the parameters. -/
theorem pwDesign_mul {m : ℕ} (x : Matrix (Fin m) (Fin (p * D + s * E)) ℝ)
    (params : Matrix (Fin (trendCols trend + (p * D + s * E))) (Fin D) ℝ) (y : ℕ → Fin D → ℝ)
    (u : ℕ → Fin E → ℝ) (t : Fin m) (τ : ℕ)
    (hy : ∀ (i : Fin p) (b : Fin D) (h : (i : ℕ) * D + b < p * D + s * E),
      x t ⟨i * D + b, h⟩ = y (τ - (i + 1)) b)
    (hu : ∀ (i : Fin s) (b : Fin E) (h : p * D + ((i : ℕ) * E + b) < p * D + s * E),
      x t ⟨p * D + (i * E + b), h⟩ = u (τ - (i + 1)) b) (d : Fin D) :
    (pwDesign trend x * params) t d = varxPrediction ((pwReadMu params).getD 0) (pwReadA params)
      (pwReadB params) 0 y u τ d := by
  let N := trendCols trend + (p * D + s * E)
  let g : ℕ → ℝ := fun j => if h : j < N then pwDesign trend x t ⟨j, h⟩ * params ⟨j, h⟩ d else 0
  have hg : ∀ j (h : j < N), g j = pwDesign trend x t ⟨j, h⟩ * params ⟨j, h⟩ d :=
    fun j h => dif_pos h
  have hsum : (pwDesign trend x * params) t d = ∑ j ∈ Finset.range N, g j := by
    rw [Finset.sum_range, Matrix.mul_apply]
    exact Finset.sum_congr rfl fun j _ => (hg j j.2).symm
  have hDp : D * p = p * D := Nat.mul_comm _ _
  have hz : ∑ e, (0 : Matrix (Fin D) (Fin E) ℝ) d e * u τ e = 0 :=
    Finset.sum_eq_zero fun e _ => by simp
  unfold varxPrediction
  rw [hsum, Finset.sum_range_add, Finset.sum_range_add, sum_range_block, sum_range_block, hz,
    add_zero, ← add_assoc]
  refine congrArg₂ _ (congrArg₂ _ ?_ ?_) ?_
  · cases trend with
    | true =>
      rw [show trendCols true = 1 from rfl, Finset.sum_range_one,
        hg 0 (by change 0 < 1 + _; omega), pwDesign_zero _ _ _ rfl, one_mul]
      rfl
    | false => rfl
  · refine Finset.sum_congr rfl fun i _ => Finset.sum_congr rfl fun b _ => ?_
    have hlt := mul_add_lt i.2 b.2
    rw [hg _ (by change _ < trendCols trend + _; omega),
      pwDesign_shift trend x t _ ⟨i * D + b, by omega⟩ rfl, hy, mul_comm]
    rfl
  · refine Finset.sum_congr rfl fun i _ => Finset.sum_congr rfl fun b _ => ?_
    have hlt := mul_add_lt i.2 b.2
    rw [hg _ (by change _ < trendCols trend + _; omega),
      pwDesign_shift trend x t _ ⟨p * D + (i * E + b), by omega⟩ rfl, hu, mul_comm]
    unfold pwReadB
    simp only [hDp, ← add_assoc]

/-- Every choice of coefficients is read off some parameters. -/
theorem exists_pwParams (mu : Fin D → ℝ) (hmu : trend = false → mu = 0)
    (A : Fin p → Matrix (Fin D) (Fin D) ℝ) (B : Fin s → Matrix (Fin D) (Fin E) ℝ) :
    ∃ params : Matrix (Fin (trendCols trend + (p * D + s * E))) (Fin D) ℝ,
      (pwReadMu params).getD 0 = mu ∧ pwReadA params = A ∧ pwReadB params = B := by
  have key : ∀ {w : ℕ} (i : ℕ) (b : ℕ), b < w → (i * w + b) / w = i ∧ (i * w + b) % w = b := by
    intro w i b hb
    have hw : 0 < w := by omega
    rw [Nat.mul_comm, Nat.mul_add_div hw, Nat.mul_add_mod, Nat.div_eq_of_lt hb, Nat.mod_eq_of_lt hb]
    exact ⟨rfl, rfl⟩
  let q := trendCols trend
  let g : ℕ → Fin D → ℝ := fun j a =>
    if j < q then mu a
    else if j < q + p * D then
      if h : (j - q) / D < p ∧ (j - q) % D < D then A ⟨(j - q) / D, h.1⟩ a ⟨(j - q) % D, h.2⟩ else 0
    else if h : (j - (q + p * D)) / E < s ∧ (j - (q + p * D)) % E < E then
        B ⟨(j - (q + p * D)) / E, h.1⟩ a ⟨(j - (q + p * D)) % E, h.2⟩ else 0
  have hDp : D * p = p * D := Nat.mul_comm _ _
  refine ⟨fun j a => g j a, ?_, ?_, ?_⟩
  · cases trend with
    | true => rfl
    | false => exact (hmu rfl).symm
  · funext i
    ext a b
    have hlt := mul_add_lt i.2 b.2
    obtain ⟨h1, h2⟩ := key (i : ℕ) b b.2
    change g (q + (i * D + b)) a = _
    simp only [g]
    rw [if_neg (by omega), if_pos (by omega)]
    have h0 : q + ((i : ℕ) * D + b) - q = i * D + b := by omega
    simp only [h0, h1, h2, Fin.is_lt, and_self, dite_true, Fin.eta]
  · funext i
    ext a b
    have hlt := mul_add_lt i.2 b.2
    obtain ⟨h1, h2⟩ := key (i : ℕ) b b.2
    change g (q + D * p + (i * E + b)) a = _
    rw [hDp]
    simp only [g]
    rw [if_neg (by omega), if_neg (by omega)]
    have h0 : q + p * D + ((i : ℕ) * E + b) - (q + p * D) = i * E + b := by omega
    simp only [h0, h1, h2, Fin.is_lt, and_self, dite_true, Fin.eta]

end Predict

/-! ### Selected rows -/

section Rows

variable {m w : ℕ} {labels : Fin m → ℤ} {k : ℕ}

theorem mem_maskRows (t : Fin m) : t ∈ maskRows labels k ↔ labels t = k := by
  simp [maskRows]

theorem maskRows_nodup : (maskRows labels k).Nodup := (List.nodup_finRange m).filter _

theorem putRows_mem (a : Matrix (Fin m) (Fin w) ℝ) (rows : List (Fin m))
    (b : Matrix (Fin rows.length) (Fin w) ℝ) (t : Fin m) (ht : t ∈ rows) :
    ∃ r, rows.get r = t ∧ putRows a rows b t = b r := by
  have h := List.idxOf_lt_length_iff.2 ht
  refine ⟨⟨rows.idxOf t, h⟩, by simp, ?_⟩
  unfold putRows
  rw [dif_pos h]

theorem putRows_not_mem (a : Matrix (Fin m) (Fin w) ℝ) (rows : List (Fin m))
    (b : Matrix (Fin rows.length) (Fin w) ℝ) (t : Fin m) (ht : t ∉ rows) :
    putRows a rows b t = a t := by
  unfold putRows
  rw [dif_neg (fun h => ht (List.idxOf_lt_length_iff.1 h))]

theorem sum_rows {rows : List (Fin m)} (hn : rows.Nodup) (f : Fin m → ℝ) :
    ∑ r : Fin rows.length, f (rows.get r) = ∑ t ∈ rows.toFinset, f t := by
  rw [List.sum_toFinset f hn, ← List.sum_ofFn]
  congr 1
  have : List.ofFn (fun r : Fin rows.length => f (rows.get r)) = (List.ofFn rows.get).map f := by
    rw [List.map_ofFn]
    rfl
  rw [this, List.ofFn_get]

theorem sum_maskRows (f : Fin m → ℝ) :
    ∑ r : Fin (maskRows labels k).length, f ((maskRows labels k).get r) =
      ∑ t, if labels t = k then f t else 0 := by
  rw [sum_rows maskRows_nodup, ← Finset.sum_filter]
  refine Finset.sum_congr ?_ fun _ _ => rfl
  ext t
  simp [mem_maskRows]

end Rows

/-! ### The loop -/

section Loop

variable {K m D p s E : ℕ} {trend : Bool} {lstsq : LstSq} {y : Matrix (Fin m) (Fin D) ℝ}
  {x : Matrix (Fin m) (Fin (p * D + s * E)) ℝ} {labels : Fin m → ℤ}

/-- What the loop leaves for a component. -/
structure PWDone (lstsq : LstSq) (trend : Bool) (y : Matrix (Fin m) (Fin D) ℝ)
    (x : Matrix (Fin m) (Fin (p * D + s * E)) ℝ) (labels : Fin m → ℤ) (st : PWState K m D p s E)
    (k : Fin K) (mu0 : Fin D → ℝ)
    (params : Matrix (Fin (trendCols trend + (p * D + s * E))) (Fin D) ℝ) : Prop where
  fit : lstsq _ _ _ (pwDesign trend (takeRows x (maskRows labels k)))
    (takeRows y (maskRows labels k)) = Py.ok params
  mu : st.mu k = (pwReadMu params).getD mu0
  A : st.A k = pwReadA params
  B : st.B k = pwReadB params
  residuals : ∀ t, labels t = (k : ℕ) → ∀ d,
    st.residuals t d = y t d - (pwDesign trend x * params) t d
  sigmaU : st.sigmaU k = covariance (takeRows st.residuals (maskRows labels k))
    (((maskRows labels k).length : ℝ) - p * D - trendCols trend - E * s)

/-- One pass. -/
theorem pwStep_spec {st st' : PWState K m D p s E} {k : Fin K}
    (h : pwStep lstsq trend y x labels st k = Py.ok st') :
    (∃ params, PWDone lstsq trend y x labels st' k (st.mu k) params) ∧
    (∀ j, j ≠ k → st'.mu j = st.mu j ∧ st'.A j = st.A j ∧ st'.B j = st.B j ∧
      st'.sigmaU j = st.sigmaU j) ∧
    (∀ t, labels t ≠ (k : ℕ) → st'.residuals t = st.residuals t) := by
  unfold pwStep at h
  obtain ⟨params, hp, h⟩ := Py.bind_eq_ok.1 h
  have h := Py.ok.inj h
  subst h
  refine ⟨⟨params, hp, Function.update_self .., Function.update_self .., Function.update_self .., ?_,
    Function.update_self ..⟩, fun j hj => ?_, fun t ht => ?_⟩
  · intro t ht d
    obtain ⟨r, hr, h⟩ := putRows_mem st.residuals (maskRows labels k)
      (takeRows y (maskRows labels k) - pwDesign trend (takeRows x (maskRows labels k)) * params) t
      ((mem_maskRows t).2 ht)
    refine (congrFun h d).trans ?_
    rw [Matrix.sub_apply, Matrix.mul_apply, Matrix.mul_apply, pwDesign_takeRows, hr]
    refine congrArg₂ _ ?_ rfl
    unfold takeRows
    rw [hr]
  · exact ⟨Function.update_of_ne hj .., Function.update_of_ne hj .., Function.update_of_ne hj ..,
      Function.update_of_ne hj ..⟩
  · exact putRows_not_mem _ _ _ _ fun h => ht ((mem_maskRows t).1 h)

theorem takeRows_congr {w : ℕ} {a b : Matrix (Fin m) (Fin w) ℝ} {rows : List (Fin m)}
    (h : ∀ t ∈ rows, a t = b t) : takeRows a rows = takeRows b rows := by
  funext r
  exact h _ (List.get_mem _ _)

theorem pwLoop_spec {ks : List (Fin K)} (hn : ks.Nodup) {st st' : PWState K m D p s E}
    (h : pwLoop lstsq trend y x labels ks st = Py.ok st') :
    (∀ k ∈ ks, ∃ params, PWDone lstsq trend y x labels st' k (st.mu k) params) ∧
    (∀ j, j ∉ ks → st'.mu j = st.mu j ∧ st'.A j = st.A j ∧ st'.B j = st.B j ∧
      st'.sigmaU j = st.sigmaU j) ∧
    (∀ t, (∀ k ∈ ks, labels t ≠ (k : ℕ)) → st'.residuals t = st.residuals t) := by
  induction ks generalizing st with
  | nil =>
    rw [← Py.ok.inj h]
    simp
  | cons k ks ih =>
    obtain ⟨st1, h1, h2⟩ := Py.bind_eq_ok.1 h
    obtain ⟨⟨params, a⟩, b, c⟩ := pwStep_spec h1
    obtain ⟨hk, hn⟩ := List.nodup_cons.1 hn
    obtain ⟨a', b', c'⟩ := ih hn h2
    have hres : ∀ t, labels t = (k : ℕ) → st'.residuals t = st1.residuals t := by
      intro t ht
      refine c' t fun j hj h => hk ?_
      rw [ht] at h
      have : k = j := Fin.ext (by exact_mod_cast h)
      rwa [this]
    refine ⟨fun j hj => ?_, fun j hj => ?_, fun t ht => ?_⟩
    · rcases List.mem_cons.1 hj with rfl | hj
      · obtain ⟨m1, m2, m3, m4⟩ := b' j hk
        refine ⟨params, a.fit, m1.trans a.mu, m2.trans a.A, m3.trans a.B, fun t ht d => ?_, ?_⟩
        · rw [hres t ht]
          exact a.residuals t ht d
        · rw [m4, a.sigmaU, takeRows_congr fun t ht => hres t ((mem_maskRows t).1 ht)]
      · obtain ⟨q, hq⟩ := a' j hj
        have hne : j ≠ k := fun h => hk (h ▸ hj)
        rw [(b j hne).1] at hq
        exact ⟨q, hq⟩
    · simp only [List.mem_cons, not_or] at hj
      obtain ⟨m1, m2, m3, m4⟩ := b j hj.1
      obtain ⟨n1, n2, n3, n4⟩ := b' j hj.2
      exact ⟨n1.trans m1, n2.trans m2, n3.trans m3, n4.trans m4⟩
    · rw [c' t fun j hj => ht j (List.mem_cons_of_mem _ hj), c t (ht k List.mem_cons_self)]

theorem pwLoop_total (htot : ∀ m n r a b, ∃ z, lstsq m n r a b = Py.ok z) (ks : List (Fin K))
    (st : PWState K m D p s E) : ∃ st', pwLoop lstsq trend y x labels ks st = Py.ok st' := by
  induction ks generalizing st with
  | nil => exact ⟨st, rfl⟩
  | cons k ks ih =>
    obtain ⟨z, hz⟩ := htot _ _ _ (pwDesign trend (takeRows x (maskRows labels k)))
      (takeRows y (maskRows labels k))
    unfold pwLoop pwStep
    simp only [hz]
    exact ih _

end Loop

/-! ### Without lags of the exogenous variables -/

section NoExog

variable {K m D p s E E' : ℕ} {trend : Bool} {lstsq : LstSq} {y : Matrix (Fin m) (Fin D) ℝ}
  {labels : Fin m → ℤ}

/-- Matrices with the same columns. -/
def SameCols {c N N' : ℕ} (x : Matrix (Fin c) (Fin N) ℝ) (x' : Matrix (Fin c) (Fin N') ℝ) : Prop :=
  N = N' ∧ ∀ t (j : Fin N) (j' : Fin N'), (j : ℕ) = j' → x t j = x' t j'

theorem SameCols.eq {c N : ℕ} {x x' : Matrix (Fin c) (Fin N) ℝ} (h : SameCols x x') : x = x' := by
  ext t j
  exact h.2 t j j rfl

theorem SameCols.takeRows {N N' : ℕ} {x : Matrix (Fin m) (Fin N) ℝ} {x' : Matrix (Fin m) (Fin N') ℝ}
    (h : SameCols x x') (rows : List (Fin m)) : SameCols (takeRows x rows) (takeRows x' rows) :=
  ⟨h.1, fun _ j j' e => h.2 _ j j' e⟩

theorem SameCols.design {c N N' : ℕ} {x : Matrix (Fin c) (Fin N) ℝ} {x' : Matrix (Fin c) (Fin N') ℝ}
    (h : SameCols x x') (trend : Bool) : SameCols (pwDesign trend x) (pwDesign trend x') := by
  obtain rfl := h.1
  obtain rfl := h.eq
  refine ⟨rfl, fun t j j' e => ?_⟩
  obtain rfl : j = j' := Fin.ext e
  rfl

/-- Parameters with the same rows. -/
def SameRows {r N N' : ℕ} (x : Matrix (Fin N) (Fin r) ℝ) (x' : Matrix (Fin N') (Fin r) ℝ) : Prop :=
  ∀ (j : Fin N) (j' : Fin N'), (j : ℕ) = j' → ∀ a, x j a = x' j' a

theorem lstsq_same {c N N' r : ℕ} {x : Matrix (Fin c) (Fin N) ℝ} {x' : Matrix (Fin c) (Fin N') ℝ}
    (h : SameCols x x') (b : Matrix (Fin c) (Fin r) ℝ) :
    PyRel (fun q q' => SameRows q q' ∧ x * q = x' * q') (lstsq c N r x b) (lstsq c N' r x' b) := by
  obtain rfl := h.1
  obtain rfl := h.eq
  cases lstsq c N r x b with
  | ok q => exact ⟨fun j j' e a => by rw [Fin.ext e], rfl⟩
  | raise e => exact rfl
  | diverge => exact trivial

/-- Equal up to the coefficients of the exogenous variables. -/
def PWState.Same (st : PWState K m D p s E) (st' : PWState K m D p s E') : Prop :=
  st.mu = st'.mu ∧ st.A = st'.A ∧ st.sigmaU = st'.sigmaU ∧ st.residuals = st'.residuals

theorem pwStep_same (hs : s = 0) {x : Matrix (Fin m) (Fin (p * D + s * E)) ℝ}
    {x' : Matrix (Fin m) (Fin (p * D + s * E')) ℝ} (hx : SameCols x x')
    {st : PWState K m D p s E} {st' : PWState K m D p s E'} (h : st.Same st') (k : Fin K) :
    PyRel PWState.Same (pwStep lstsq trend y x labels st k) (pwStep lstsq trend y x' labels st' k) := by
  obtain ⟨h1, h2, h3, h4⟩ := h
  unfold pwStep
  refine (lstsq_same ((hx.takeRows _).design trend) _).bind fun q q' ⟨hq, hm⟩ => ?_
  have hmu : pwReadMu (trend := trend) (p := p) (s := s) (E := E) q =
      pwReadMu (trend := trend) (p := p) (s := s) (E := E') q' := by
    unfold pwReadMu
    split_ifs with ht
    · congr 1
      funext a
      exact hq _ _ rfl a
    · rfl
  have hA : pwReadA (trend := trend) (p := p) (s := s) (E := E) q =
      pwReadA (trend := trend) (p := p) (s := s) (E := E') q' := by
    funext i
    ext a b
    exact hq _ _ rfl a
  have hE : (E : ℝ) * s = E' * s := by simp [hs]
  refine PyRel.ok ⟨?_, ?_, ?_, ?_⟩
  · change Function.update st.mu k _ = Function.update st'.mu k _
    rw [hmu, h1]
  · change Function.update st.A k _ = Function.update st'.A k _
    rw [hA, h2]
  · change Function.update st.sigmaU k _ = Function.update st'.sigmaU k _
    rw [h3, h4, hm, hE]
  · change putRows st.residuals _ _ = putRows st'.residuals _ _
    rw [h4, hm]

theorem pwLoop_same (hs : s = 0) {x : Matrix (Fin m) (Fin (p * D + s * E)) ℝ}
    {x' : Matrix (Fin m) (Fin (p * D + s * E')) ℝ} (hx : SameCols x x') (ks : List (Fin K))
    {st : PWState K m D p s E} {st' : PWState K m D p s E'} (h : st.Same st') :
    PyRel PWState.Same (pwLoop lstsq trend y x labels ks st)
      (pwLoop lstsq trend y x' labels ks st') := by
  induction ks generalizing st st' with
  | nil => exact h
  | cons k ks ih => exact (pwStep_same hs hx h k).bind fun _ _ h => ih h

theorem fitVarModel_same {lib : PWLib} (obj : PWObj lib) (hs : obj.s = 0)
    {x : Matrix (Fin m) (Fin (obj.p * D + obj.s * E)) ℝ}
    {x' : Matrix (Fin m) (Fin (obj.p * D + obj.s * E')) ℝ} (hx : SameCols x x') :
    PWObj.fitVarModel lstsq obj y x labels = PWObj.fitVarModel lstsq obj y x' labels := by
  unfold PWObj.fitVarModel
  cases hK : pwSize obj.nComponents with
  | ok k =>
    rw [Py.ok_bind, Py.ok_bind]
    refine (pwLoop_same hs hx (List.finRange k) ⟨rfl, rfl, rfl, rfl⟩).trans_eq ?_
    rintro a b ⟨h1, h2, h3, h4⟩
    have e1 : ¬ obj.s * E > 0 := by simp [hs]
    have e2 : ¬ obj.s * E' > 0 := by simp [hs]
    rw [h1, h2, h3, h4, if_neg e1, if_neg e2]
  | raise e => rfl
  | diverge => rfl

theorem classify_same {lib : PWLib} (obj : PWObj lib) {N N' : ℕ} {x : Matrix (Fin m) (Fin N) ℝ}
    {x' : Matrix (Fin m) (Fin N') ℝ} (hx : SameCols x x') : obj.classify x y = obj.classify x' y := by
  obtain rfl := hx.1
  rw [hx.eq]

theorem stackPredictors_same {endog : Arr2 ℝ} {exog exog' : Option (Arr2 ℝ)} (hs : s = 0) :
    PyRel SameCols (stackPredictors p s endog exog) (stackPredictors p s endog exog') := by
  have hf : ∀ e : Option (Arr2 ℝ), ExogFits (max p s) s endog.rows e := fun e u _ h => by omega
  rcases stackPredictors_cases (p := p) (s := s) (endog := endog) (exog := exog) with
    ⟨⟨h1, -⟩, x, hx⟩ | ⟨h1, hx⟩ <;>
  rcases stackPredictors_cases (p := p) (s := s) (endog := endog) (exog := exog') with
    ⟨⟨h2, -⟩, x', hx'⟩ | ⟨h2, hx'⟩
  · rw [hx, hx']
    refine ⟨by simp [hs], fun t j j' e => ?_⟩
    have hj : (j : ℕ) < p * endog.cols := lt_of_lt_of_eq j.2 (by simp [hs])
    have hD : 0 < endog.cols := Nat.pos_of_ne_zero fun h => by simp [h] at hj
    have hi : (j : ℕ) / endog.cols < p := Nat.div_lt_of_lt_mul (lt_of_lt_of_eq hj (Nat.mul_comm _ _))
    have hd : (j : ℕ) = (j : ℕ) / endog.cols * endog.cols + (j : ℕ) % endog.cols :=
      (Nat.div_add_mod' _ _).symm
    rw [stackPredictors_endog hx t j ⟨_, hi⟩ ⟨_, Nat.mod_lt _ hD⟩ hd,
      stackPredictors_endog hx' t j' ⟨_, hi⟩ ⟨_, Nat.mod_lt _ hD⟩ (by rw [← e]; exact hd)]
  · exact absurd ⟨h1, hf _⟩ h2
  · exact absurd ⟨h2, hf _⟩ h1
  · rw [hx, hx']
    exact rfl

theorem PyRel.bind_eq {α β γ : Type} {P : α → β → Prop} {x : Py α} {y : Py β} {f : α → Py γ}
    {g : β → Py γ} (h : PyRel P x y) (hfg : ∀ a b, P a b → f a = g b) : (x >>= f) = (y >>= g) := by
  cases x <;> cases y <;> simp only [PyRel] at h
  · exact hfg _ _ h
  · rw [h]
    rfl
  · rfl

end NoExog

end Reor
