import Verif.Props.PWVARX

/-!
The components of a piecewise VARX fit: each depends on its own samples only, and not on the numbers
given to the components (C119).
-/

namespace Reor

set_option linter.unusedSectionVars false

open scoped BigOperators Matrix
open Spec

variable {lib : PWLib} {lstsq : LstSq} {obj o o' : PWObj lib} {m D E K : ℕ}

/-- Attributes of component `k` of a fit. -/
structure PWComponent (obj o : PWObj lib) (D E K : ℕ) (k : Fin K) where
  mu : Fin D → ℝ
  A : Fin obj.p → Matrix (Fin D) (Fin D) ℝ
  B : Fin obj.s → Matrix (Fin D) (Fin E) ℝ
  S : Option (Matrix (Fin D) (Fin D) ℝ)
  mu_eq : obj.includeTrend = true → ∃ a : Matrix (Fin K) (Fin D) ℝ, o.mu = some (Arr2.of a) ∧ a k = mu
  A_eq : 0 < obj.p → ∃ a, o.A = some ⟨K, obj.p, D, D, a⟩ ∧ a k = A
  B_eq : 0 < obj.s * E → ∃ a, o.B = some ⟨K, obj.s, D, E, a⟩ ∧ a k = B
  S_eq : ∃ a, o.sigmaU = some ⟨K, D, a⟩ ∧ a k = S

/-- Two components have the same coefficients and covariance. -/
structure PWComponent.Same {k k' : Fin K} (c : PWComponent obj o D E K k)
    (c' : PWComponent obj o' D E K k') : Prop where
  mu : obj.includeTrend = true → c'.mu = c.mu
  A : c'.A = c.A
  B : c'.B = c.B
  S : c'.S = c.S

theorem fitVarModel_eq_ok {y : Matrix (Fin m) (Fin D) ℝ}
    {x : Matrix (Fin m) (Fin (obj.p * D + obj.s * E)) ℝ} {labels : Fin m → ℤ}
    (hK : obj.nComponents = .int K) (h : obj.fitVarModel lstsq y x labels = Py.ok o) :
    ∃ st : PWState K m D obj.p obj.s E,
      (∀ k, ∃ params, PWDone lstsq obj.includeTrend y x labels st k 0 params) ∧
      (∀ t, (∀ k : Fin K, labels t ≠ (k : ℕ)) → st.residuals t = 0) ∧
      o = { obj with
        mu := if obj.includeTrend then some (Arr2.of st.mu) else obj.mu
        A := if obj.p > 0 then some ⟨_, _, _, _, st.A⟩ else obj.A
        B := if obj.s * E > 0 then some ⟨_, _, _, _, st.B⟩ else obj.B
        sigmaU := some ⟨_, _, st.sigmaU⟩
        residuals := some (Arr2.of st.residuals) } := by
  unfold PWObj.fitVarModel at h
  obtain ⟨K', hK', h⟩ := Py.bind_eq_ok.1 h
  obtain ⟨st, hst, h⟩ := Py.bind_eq_ok.1 h
  have hKK : K' = K := by
    rw [hK] at hK'
    have : (if ((K : ℤ)) < 0 then Py.raise .valueError else Py.ok ((K : ℤ)).toNat) = Py.ok K' := hK'
    rw [if_neg (by omega)] at this
    have := Py.ok.inj this
    omega
  subst hKK
  obtain ⟨h1, -, h3⟩ := pwLoop_spec (List.nodup_finRange K') hst
  exact ⟨st, fun k => h1 k (List.mem_finRange k), fun t ht => h3 t fun k _ => ht k,
    (Py.ok.inj h).symm⟩

/-- The component of a state. -/
def PWState.component {st : PWState K m D obj.p obj.s E} (k : Fin K)
    (h : o = { obj with
        mu := if obj.includeTrend then some (Arr2.of st.mu) else obj.mu
        A := if obj.p > 0 then some ⟨_, _, _, _, st.A⟩ else obj.A
        B := if obj.s * E > 0 then some ⟨_, _, _, _, st.B⟩ else obj.B
        sigmaU := some ⟨_, _, st.sigmaU⟩
        residuals := some (Arr2.of st.residuals) }) : PWComponent obj o D E K k where
  mu := st.mu k
  A := st.A k
  B := st.B k
  S := st.sigmaU k
  mu_eq := fun ht => ⟨st.mu, by rw [h]; exact if_pos ht, rfl⟩
  A_eq := fun hp => ⟨st.A, by rw [h]; exact if_pos hp, rfl⟩
  B_eq := fun hp => ⟨st.B, by rw [h]; exact if_pos hp, rfl⟩
  S_eq := ⟨st.sigmaU, by rw [h], rfl⟩

theorem pwDesign_congr {c N : ℕ} {trend : Bool} {x x' : Matrix (Fin c) (Fin N) ℝ} {t : Fin c}
    (h : x' t = x t) : pwDesign trend x' t = pwDesign trend x t := by
  cases trend with
  | true =>
    funext j
    change (if hj : (j : ℕ) < 1 then _ else _) = (if hj : (j : ℕ) < 1 then _ else _)
    split
    · rfl
    · rw [h]
  | false =>
    funext j
    change x' t _ = x t _
    rw [h]

/-- Components with the same samples. -/
theorem pwDone_same {p s : ℕ} {trend : Bool} {y y' : Matrix (Fin m) (Fin D) ℝ}
    {x x' : Matrix (Fin m) (Fin (p * D + s * E)) ℝ} {labels labels' : Fin m → ℤ}
    {st st' : PWState K m D p s E} {k k' : Fin K} {params params' : _}
    (h : PWDone lstsq trend y x labels st k 0 params)
    (h' : PWDone lstsq trend y' x' labels' st' k' 0 params')
    (hl : ∀ t, labels' t = (k' : ℕ) ↔ labels t = (k : ℕ))
    (hy : ∀ t, labels t = (k : ℕ) → y' t = y t) (hx : ∀ t, labels t = (k : ℕ) → x' t = x t) :
    st'.mu k' = st.mu k ∧ st'.A k' = st.A k ∧ st'.B k' = st.B k ∧ st'.sigmaU k' = st.sigmaU k ∧
      ∀ t, labels t = (k : ℕ) → st'.residuals t = st.residuals t := by
  have hrows : maskRows labels' k' = maskRows labels k := by
    unfold maskRows
    exact List.filter_congr fun t _ => by simp [hl t]
  have hf := h'.fit
  have hS := h'.sigmaU
  rw [hrows] at hf hS
  rw [takeRows_congr fun t ht => hy t ((mem_maskRows t).1 ht),
    takeRows_congr fun t ht => hx t ((mem_maskRows t).1 ht)] at hf
  obtain rfl := Py.ok.inj (h.fit.symm.trans hf)
  have hR : ∀ t, labels t = (k : ℕ) → st'.residuals t = st.residuals t := by
    intro t ht
    funext d
    rw [h'.residuals t ((hl t).2 ht) d, h.residuals t ht d, hy t ht, Matrix.mul_apply,
      Matrix.mul_apply, pwDesign_congr (hx t ht)]
  refine ⟨h'.mu.trans h.mu.symm, h'.A.trans h.A.symm, h'.B.trans h.B.symm, ?_, hR⟩
  rw [hS, h.sigmaU, takeRows_congr fun t ht => hR t ((mem_maskRows t).1 ht)]

/-- C119.  A component depends on its own samples only: if two data sets agree at the samples labelled
`k`, and the same samples are labelled `k`, the coefficients, the covariance and the residuals of
component `k` agree, whatever the others are. -/
theorem C119_pwvarx_component_local (hK : obj.nComponents = .int K) (k : Fin K)
    {y y' : Matrix (Fin m) (Fin D) ℝ} {x x' : Matrix (Fin m) (Fin (obj.p * D + obj.s * E)) ℝ}
    {labels labels' : Fin m → ℤ} (hl : ∀ t, labels' t = (k : ℕ) ↔ labels t = (k : ℕ))
    (hy : ∀ t, labels t = (k : ℕ) → y' t = y t) (hx : ∀ t, labels t = (k : ℕ) → x' t = x t)
    (h : obj.fitVarModel lstsq y x labels = Py.ok o)
    (h' : obj.fitVarModel lstsq y' x' labels' = Py.ok o') :
    ∃ (c : PWComponent obj o D E K k) (c' : PWComponent obj o' D E K k)
      (R R' : Matrix (Fin m) (Fin D) ℝ), c.Same c' ∧ o.residuals = some (Arr2.of R) ∧
      o'.residuals = some (Arr2.of R') ∧ ∀ t, labels t = (k : ℕ) → R' t = R t := by
  obtain ⟨st, h1, -, ho⟩ := fitVarModel_eq_ok hK h
  obtain ⟨st', h1', -, ho'⟩ := fitVarModel_eq_ok hK h'
  obtain ⟨p, hp⟩ := h1 k
  obtain ⟨p', hp'⟩ := h1' k
  obtain ⟨a1, a2, a3, a4, a5⟩ := pwDone_same hp hp' hl hy hx
  exact ⟨PWState.component k ho, PWState.component k ho', st.residuals, st'.residuals,
    ⟨fun _ => a1, a2, a3, a4⟩, by rw [ho], by rw [ho'], a5⟩

theorem pwLoop_ok_iff {p s : ℕ} {trend : Bool} {y : Matrix (Fin m) (Fin D) ℝ}
    {x : Matrix (Fin m) (Fin (p * D + s * E)) ℝ} {labels : Fin m → ℤ} (ks : List (Fin K))
    (st : PWState K m D p s E) : (∃ st', pwLoop lstsq trend y x labels ks st = Py.ok st') ↔
      ∀ k ∈ ks, ∃ params, lstsq _ _ _ (pwDesign trend (takeRows x (maskRows labels k)))
        (takeRows y (maskRows labels k)) = Py.ok params := by
  induction ks generalizing st with
  | nil => exact ⟨fun _ k hk => by simp at hk, fun _ => ⟨st, rfl⟩⟩
  | cons k ks ih =>
    constructor
    · rintro ⟨st', h⟩
      obtain ⟨st1, h1, h2⟩ := Py.bind_eq_ok.1 h
      obtain ⟨params, hp, -⟩ := Py.bind_eq_ok.1 h1
      intro j hj
      rcases List.mem_cons.1 hj with rfl | hj
      · exact ⟨params, hp⟩
      · exact (ih st1).1 ⟨st', h2⟩ j hj
    · intro h
      obtain ⟨params, hp⟩ := h k List.mem_cons_self
      unfold pwLoop pwStep
      simp only [hp, Py.ok_bind, Py.pure_eq]
      exact (ih _).2 fun j hj => h j (List.mem_cons_of_mem _ hj)

/-- C119.  The numbers of the components do not matter: if the labels are renamed by a permutation, the
fit succeeds as before, each component appears under its new number and the residuals are the same. -/
theorem C119_pwvarx_relabelled (hK : obj.nComponents = .int K) (σ : Equiv.Perm (Fin K))
    {y : Matrix (Fin m) (Fin D) ℝ} {x : Matrix (Fin m) (Fin (obj.p * D + obj.s * E)) ℝ}
    {labels labels' : Fin m → ℤ}
    (hl : ∀ t (k : Fin K), labels' t = (σ k : ℕ) ↔ labels t = (k : ℕ))
    (h : obj.fitVarModel lstsq y x labels = Py.ok o) :
    ∃ o', obj.fitVarModel lstsq y x labels' = Py.ok o' ∧ o'.residuals = o.residuals ∧
      ∀ k, ∃ (c : PWComponent obj o D E K k) (c' : PWComponent obj o' D E K (σ k)), c.Same c' := by
  obtain ⟨st, h1, h0, ho⟩ := fitVarModel_eq_ok hK h
  have hrows : ∀ k : Fin K, maskRows labels' (σ k) = maskRows labels k := by
    intro k
    unfold maskRows
    exact List.filter_congr fun t _ => by simp [hl t k]
  have hex : ∃ o', obj.fitVarModel lstsq y x labels' = Py.ok o' := by
    have hsz : pwSize obj.nComponents = Py.ok K := by
      rw [hK]
      change (if ((K : ℤ)) < 0 then Py.raise .valueError else Py.ok ((K : ℤ)).toNat) = Py.ok K
      rw [if_neg (by omega)]
      simp
    obtain ⟨st', hst'⟩ := (pwLoop_ok_iff (lstsq := lstsq) (trend := obj.includeTrend) (y := y)
      (x := x) (labels := labels') (List.finRange K)
      (⟨0, fun _ _ => 0, fun _ _ => 0, fun _ => some 0, 0⟩ : PWState K m D obj.p obj.s E)).2
      fun k _ => by
        obtain ⟨params, hp⟩ := h1 (σ.symm k)
        have hr := hrows (σ.symm k)
        rw [Equiv.apply_symm_apply] at hr
        rw [hr]
        exact ⟨params, hp.fit⟩
    exact ⟨_, Py.bind_eq_ok.2 ⟨K, hsz, Py.bind_eq_ok.2 ⟨st', hst', rfl⟩⟩⟩
  obtain ⟨o', h'⟩ := hex
  obtain ⟨st', h1', h0', ho'⟩ := fitVarModel_eq_ok hK h'
  have key : ∀ k, st'.mu (σ k) = st.mu k ∧ st'.A (σ k) = st.A k ∧ st'.B (σ k) = st.B k ∧
      st'.sigmaU (σ k) = st.sigmaU k ∧
      ∀ t, labels t = (k : ℕ) → st'.residuals t = st.residuals t := by
    intro k
    obtain ⟨p, hp⟩ := h1 k
    obtain ⟨p', hp'⟩ := h1' (σ k)
    exact pwDone_same hp hp' (fun t => hl t k) (fun _ _ => rfl) (fun _ _ => rfl)
  refine ⟨o', h', ?_, fun k => ⟨PWState.component k ho, PWState.component (σ k) ho',
    fun _ => (key k).1, (key k).2.1, (key k).2.2.1, (key k).2.2.2.1⟩⟩
  have hR : st'.residuals = st.residuals := by
    funext t
    by_cases ht : ∃ k : Fin K, labels t = (k : ℕ)
    · obtain ⟨k, hk⟩ := ht
      exact (key k).2.2.2.2 t hk
    · push Not at ht
      rw [h0 t ht, h0' t fun k hk => ?_]
      have := (hl t (σ.symm k)).1 (by rwa [Equiv.apply_symm_apply])
      exact ht _ this
  rw [ho, ho', hR]

/-! ### A concrete case -/

/-- Fits without lags of three samples return. -/
theorem demoLocal_fit {lstsq : LstSq} (htot : ∀ m n r a b, ∃ z, lstsq m n r a b = Py.ok z)
    (y : Matrix (Fin 3) (Fin 1) ℝ) (labels : Fin 3 → ℤ) :
    ∃ o, PWObj.fitVarModel lstsq ({ nComponents := .int (2 : ℕ), p := 0 } : PWObj constPWLib)
      (D := 1) (E := 0) y (fun _ => Fin.elim0) labels = Py.ok o := by
  obtain ⟨st, hst⟩ := pwLoop_total htot (trend := true) (p := 0) (s := 0) (D := 1) (E := 0)
    (y := y) (x := fun _ => Fin.elim0) (labels := labels) (List.finRange 2)
    ⟨0, fun _ _ => 0, fun _ _ => 0, fun _ => some 0, 0⟩
  exact ⟨_, Py.bind_eq_ok.2 ⟨2, rfl, Py.bind_eq_ok.2 ⟨st, hst, rfl⟩⟩⟩

/-- C119: with the labels 1, 0, 0 instead of 0, 1, 1 the components change places. -/
example : ∃ (lstsq : LstSq) (o o' : PWObj constPWLib),
    PWObj.fitVarModel lstsq { nComponents := .int (2 : ℕ), p := 0 } (D := 1) (E := 0)
      !![5; 1; 3] (fun _ => Fin.elim0) ![0, 1, 1] = Py.ok o ∧
    PWObj.fitVarModel lstsq { nComponents := .int (2 : ℕ), p := 0 } (D := 1) (E := 0)
      !![5; 1; 3] (fun _ => Fin.elim0) ![1, 0, 0] = Py.ok o' ∧ o'.residuals = o.residuals := by
  obtain ⟨lstsq, -, htot⟩ := exists_exact_lstsq
  obtain ⟨o, h⟩ := demoLocal_fit htot !![5; 1; 3] ![0, 1, 1]
  obtain ⟨o', h', hr, -⟩ := C119_pwvarx_relabelled (K := 2) (labels' := ![1, 0, 0]) rfl
    (Equiv.swap 0 1) (by decide) h
  exact ⟨lstsq, o, o', h, h', hr⟩

/-- C119: an outlier in the first component does not change the second. -/
example : ∃ (lstsq : LstSq) (o o' : PWObj constPWLib) (R R' : Matrix (Fin 3) (Fin 1) ℝ),
    PWObj.fitVarModel lstsq { nComponents := .int (2 : ℕ), p := 0 } (D := 1) (E := 0)
      !![5; 1; 3] (fun _ => Fin.elim0) ![0, 1, 1] = Py.ok o ∧
    PWObj.fitVarModel lstsq { nComponents := .int (2 : ℕ), p := 0 } (D := 1) (E := 0)
      !![1000; 1; 3] (fun _ => Fin.elim0) ![0, 1, 1] = Py.ok o' ∧
    o.residuals = some (Arr2.of R) ∧ o'.residuals = some (Arr2.of R') ∧ R' 1 = R 1 ∧ R' 2 = R 2 := by
  obtain ⟨lstsq, -, htot⟩ := exists_exact_lstsq
  obtain ⟨o, h⟩ := demoLocal_fit htot !![5; 1; 3] ![0, 1, 1]
  obtain ⟨o', h'⟩ := demoLocal_fit htot !![1000; 1; 3] ![0, 1, 1]
  have hy : ∀ t : Fin 3, (![0, 1, 1] : Fin 3 → ℤ) t = ((1 : Fin 2) : ℕ) →
      (!![1000; 1; 3] : Matrix (Fin 3) (Fin 1) ℝ) t = !![5; 1; 3] t := by
    intro t ht
    fin_cases t
    · exact absurd ht (by decide)
    · rfl
    · rfl
  obtain ⟨-, -, R, R', -, hR, hR', he⟩ := C119_pwvarx_component_local (K := 2) rfl 1
    (fun _ => Iff.rfl) hy (fun _ _ => rfl) h h'
  exact ⟨lstsq, o, o', R, R', h, h', hR, hR', he 1 rfl, he 2 rfl⟩

end Reor
