import Mathlib.Analysis.SpecificLimits.Basic
import Verif.Proofs.Forget
import Verif.Props.CROM
import Verif.Props.GPNHCROM
import Verif.Props.MTDForecast

/-!
Property C125: forecasts never move apart, and forget where they started.
-/

namespace Reor

set_option linter.unusedSectionVars false

open scoped BigOperators Matrix
open Spec

variable {K : Type} [Field K] [LinearOrder K] [IsStrictOrderedRing K]
variable {T T' D k p : ℕ}

/-! ### The recursion -/

/-- C125.  Two continuations by the same stochastic parameters, of weights of any two datasets after
any two samples.  If the weights in the windows of length `L`, the largest lag, differ by at most `ε`
(in the sum of absolute values), so do the forecasts for every horizon; and if component `j` is
entered with probability at least `c j` at every lag and from every component, the difference shrinks
by the factor `1 - ∑ c` every `L` steps. -/
theorem C125_continuations_approach (lags : Fin p → ℕ) (hlag : ∀ i, 1 ≤ lags i) (L : ℕ)
    (hL : ∀ i, lags i ≤ L) (w : Fin p → K) (hw : IsProb w) (A : Fin p → Matrix (Fin k) (Fin k) K)
    (hA : ∀ i, ColStochastic (A i)) (c : Fin k → K) (hc0 : ∀ j, 0 ≤ c j)
    (hc : ∀ i j l, c j ≤ A i j l) (W : Matrix (Fin T) (Fin k) K) (hW : RowStochastic W) (t : Fin T)
    (ht : L ≤ t + 1) (q : ℕ → Fin k → K) (hq : ContinuesMTD lags w A W t q)
    (W' : Matrix (Fin T') (Fin k) K) (hW' : RowStochastic W') (t' : Fin T') (ht' : L ≤ t' + 1)
    (q' : ℕ → Fin k → K) (hq' : ContinuesMTD lags w A W' t' q') (ε : K)
    (hε : ∀ r, r < L → l1Dist (q (t - r)) (q' (t' - r)) ≤ ε) (h : ℕ) :
    l1Dist (q (t + h)) (q' (t' + h)) ≤ ε * (1 - ∑ j, c j) ^ ((h + L - 1) / L) := by
  have hp : 0 < p := by
    by_contra hh
    have hp0 : p = 0 := by omega
    subst hp0
    have := hw.2
    simp at this
  have hL1 : 1 ≤ L := (hlag ⟨0, hp⟩).trans (hL ⟨0, hp⟩)
  have hu := C42_mtd_continuation_stochastic lags hlag w hw A hA W hW t q hq
  have hv := C42_mtd_continuation_stochastic lags hlag w hw A hA W' hW' t' q' hq'
  have key := followsMTD_approach (u := fun n => q (t + 1 - L + n))
    (v := fun n => q' (t' + 1 - L + n)) hlag hL hw hA hc0 hc (fun n => hu _) (fun n => hv _)
    (fun n hn => by
      have e := hq.2 (t + 1 - L + n) (by omega)
      rw [e]
      funext j
      refine Finset.sum_congr rfl fun i _ => ?_
      have hi := hL i
      rw [show (t : ℕ) + 1 - L + n - lags i = t + 1 - L + (n - lags i) by omega])
    (fun n hn => by
      have e := hq'.2 (t' + 1 - L + n) (by omega)
      rw [e]
      funext j
      refine Finset.sum_congr rfl fun i _ => ?_
      have hi := hL i
      rw [show (t' : ℕ) + 1 - L + n - lags i = t' + 1 - L + (n - lags i) by omega])
    (ε := ε)
    (fun n hn => by
      have := hε (L - 1 - n) (by omega)
      rw [show (t : ℕ) - (L - 1 - n) = t + 1 - L + n by omega,
        show (t' : ℕ) - (L - 1 - n) = t' + 1 - L + n by omega] at this
      exact this)
    ((h + L - 1) / L) (L - 1 + h) (ceil_le_steps h L hL1)
  rw [show (t : ℕ) + 1 - L + (L - 1 + h) = t + h by omega,
    show (t' : ℕ) + 1 - L + (L - 1 + h) = t' + h by omega] at key
  exact key

/-- C125.  Hence every continuation approaches every distribution that the recursion leaves alone. -/
theorem C125_continuation_limit (lags : Fin p → ℕ) (hlag : ∀ i, 1 ≤ lags i) (L : ℕ)
    (hL : ∀ i, lags i ≤ L) (w : Fin p → K) (hw : IsProb w) (A : Fin p → Matrix (Fin k) (Fin k) K)
    (hA : ∀ i, ColStochastic (A i)) (c : Fin k → K) (hc0 : ∀ j, 0 ≤ c j)
    (hc : ∀ i j l, c j ≤ A i j l) (v : Fin k → K) (hv : IsProb v)
    (hstat : ∀ j, v j = ∑ i, w i * ∑ l, A i j l * v l) (W : Matrix (Fin T) (Fin k) K)
    (hW : RowStochastic W) (t : Fin T) (ht : L ≤ t + 1) (q : ℕ → Fin k → K)
    (hq : ContinuesMTD lags w A W t q) (h : ℕ) :
    l1Dist (q (t + h)) v ≤ 2 * (1 - ∑ j, c j) ^ ((h + L - 1) / L) :=
  C125_continuations_approach lags hlag L hL w hw A hA c hc0 hc W hW t ht q hq
    (fun _ => v : Matrix (Fin T) (Fin k) K) (fun _ => hv) t ht (fun _ => v)
    ⟨fun _ _ => rfl, fun _ _ => funext hstat⟩ 2
    (fun _ _ => l1Dist_prob (C42_mtd_continuation_stochastic lags hlag w hw A hA W hW t q hq _) hv) h

/-- C125.  There is exactly one such distribution, if some component is entered with positive
probability at every lag and from every component. -/
theorem C125_stationary (w : Fin p → ℝ) (hw : IsProb w) (A : Fin p → Matrix (Fin k) (Fin k) ℝ)
    (hA : ∀ i, ColStochastic (A i)) (j₀ : Fin k) (hpos : ∀ i l, 0 < A i j₀ l) :
    ∃! v : Fin k → ℝ, IsProb v ∧ ∀ j, v j = ∑ i, w i * ∑ l, A i j l * v l := by
  have hp : 0 < p := by
    by_contra hh
    have hp0 : p = 0 := by omega
    subst hp0
    have := hw.2
    simp at this
  have : Nonempty (Fin p) := ⟨⟨0, hp⟩⟩
  have : Nonempty (Fin k) := ⟨j₀⟩
  -- a common lower bound
  obtain ⟨δ, hδ, hle⟩ : ∃ δ : ℝ, 0 < δ ∧ ∀ i l, δ ≤ A i j₀ l := by
    obtain ⟨x, hx⟩ := Finite.exists_min fun x : Fin p × Fin k => A x.1 j₀ x.2
    exact ⟨A x.1 j₀ x.2, hpos _ _, fun i l => hx (i, l)⟩
  set c : Fin k → ℝ := fun j => if j = j₀ then δ else 0 with hcdef
  have hc0 : ∀ j, 0 ≤ c j := by
    intro j
    rw [hcdef]
    simp only
    split_ifs <;> linarith
  have hc : ∀ i j l, c j ≤ A i j l := by
    intro i j l
    rw [hcdef]
    simp only
    split_ifs with hj
    · rw [hj]
      exact hle i l
    · exact (hA i l).1 j
  have hsum : ∑ j, c j = δ := by
    rw [hcdef]
    simp
  have hρ0 : 0 ≤ 1 - δ := by
    rw [← hsum]
    exact sub_nonneg.2 (minorant_le_one (hA ⟨0, hp⟩) (hc ⟨0, hp⟩) j₀)
  -- the iteration with lag 1 throughout
  let e : Fin k → ℝ := fun j => if j = j₀ then 1 else 0
  have he : IsProb e := by
    constructor
    · intro j
      change (0 : ℝ) ≤ if j = j₀ then 1 else 0
      split_ifs <;> norm_num
    · change ∑ j, (if j = j₀ then (1 : ℝ) else 0) = 1
      simp
  set lags : Fin p → ℕ := fun _ => 1
  set q := mtdOrbit lags w A 1 fun _ => e with hqdef
  have hf : FollowsMTD lags w A 1 q := mtdOrbit_follows lags w A 1 le_rfl (fun _ => le_rfl) _
  have hq : ∀ n, IsProb (q n) := followsMTD_isProb lags hw hA 1 le_rfl (fun _ => le_rfl)
    (fun n hn => by rw [hqdef, mtdOrbit_history _ _ _ _ _ _ hn]; exact he) hf
  have hstep : ∀ n j, q (n + 1) j = ∑ i, w i * ∑ l, A i j l * q n l := fun n j =>
    congrFun (hf (n + 1) (by omega)) j
  have hnear : ∀ s n, l1Dist (q n) (q (n + s)) ≤ 2 * (1 - δ) ^ n := by
    intro s n
    have := followsMTD_approach (lags := lags) (L := 1) (u := q) (v := fun n => q (n + s))
      (fun _ => le_rfl) (fun _ => le_rfl) hw hA hc0 hc hq (fun n => hq _)
      (fun n hn => hf n hn)
      (fun n hn => by
        rw [hf (n + s) (by omega)]
        funext j
        refine Finset.sum_congr rfl fun i _ => ?_
        rw [show n + s - lags i = n - lags i + s by
          change n + s - 1 = n - 1 + s
          omega])
      (ε := 2) (fun n _ => l1Dist_prob (hq _) (hq _)) n n (by omega)
    rwa [hsum] at this
  have hlim : ∀ j, ∃ x, Filter.Tendsto (fun n => q n j) Filter.atTop (nhds x) := by
    intro j
    refine cauchySeq_tendsto_of_complete (cauchySeq_of_le_tendsto_0 (fun n => 2 * (1 - δ) ^ n) ?_ ?_)
    · intro n m N hn hm
      have hle' : ∀ a b, N ≤ a → a ≤ b → dist (q a j) (q b j) ≤ 2 * (1 - δ) ^ N := by
        intro a b ha hab
        obtain ⟨s, rfl⟩ : ∃ s, b = a + s := ⟨b - a, by omega⟩
        calc dist (q a j) (q (a + s) j) ≤ l1Dist (q a) (q (a + s)) := by
              rw [Real.dist_eq]
              exact Finset.single_le_sum (f := fun j => |q a j - q (a + s) j|)
                (fun _ _ => abs_nonneg _) (Finset.mem_univ j)
          _ ≤ 2 * (1 - δ) ^ a := hnear s a
          _ ≤ 2 * (1 - δ) ^ N := mul_le_mul_of_nonneg_left
              (pow_le_pow_of_le_one hρ0 (by linarith) ha) (by norm_num)
      rcases le_total n m with h | h
      · exact hle' n m hn h
      · rw [dist_comm]
        exact hle' m n hm h
    · have := (tendsto_pow_atTop_nhds_zero_of_lt_one hρ0 (by linarith : 1 - δ < 1)).const_mul 2
      rwa [mul_zero] at this
  choose v hv using hlim
  refine ⟨v, ⟨⟨fun j => ge_of_tendsto' (hv j) fun n => (hq n).1 j, ?_⟩, fun j => ?_⟩, ?_⟩
  · have h1 : Filter.Tendsto (fun n => ∑ j, q n j) Filter.atTop (nhds (∑ j, v j)) :=
      tendsto_finsetSum _ fun j _ => hv j
    simp only [fun n => (hq n).2] at h1
    exact tendsto_nhds_unique h1 tendsto_const_nhds
  · have h1 : Filter.Tendsto (fun n => q (n + 1) j) Filter.atTop (nhds (v j)) :=
      (hv j).comp (Filter.tendsto_add_atTop_nat 1)
    simp only [hstep] at h1
    refine tendsto_nhds_unique h1 ?_
    exact tendsto_finsetSum _ fun i _ => (tendsto_finsetSum _ fun l _ =>
      (hv l).const_mul _).const_mul _
  · intro y ⟨hy, hys⟩
    have hyv : ∀ j, Filter.Tendsto (fun n => q n j) Filter.atTop (nhds (y j)) := by
      intro j
      have hn : ∀ n, |q n j - y j| ≤ 2 * (1 - δ) ^ n := by
        intro n
        have := followsMTD_approach (lags := lags) (L := 1) (u := q) (v := fun _ => y)
          (fun _ => le_rfl) (fun _ => le_rfl) hw hA hc0 hc hq (fun _ => hy)
          (fun n hn => hf n hn) (fun n hn => funext hys)
          (ε := 2) (fun n _ => l1Dist_prob (hq _) hy) n n (by omega)
        rw [hsum] at this
        exact (Finset.single_le_sum (f := fun j => |q n j - y j|)
          (fun _ _ => abs_nonneg _) (Finset.mem_univ j)).trans this
      have h0 := (tendsto_pow_atTop_nhds_zero_of_lt_one hρ0 (by linarith : 1 - δ < 1)).const_mul 2
      rw [mul_zero] at h0
      rw [tendsto_iff_dist_tendsto_zero]
      exact squeeze_zero (fun _ => dist_nonneg) (fun n => by rw [Real.dist_eq]; exact hn n) h0
    funext j
    exact tendsto_nhds_unique (hyv j) (hv j)

/-! ### Forecasts -/

theorem abs_dot_le (x v : Fin k → K) (S : Matrix (Fin k) (Fin D) K) (B : K)
    (hB : ∀ j d, |S j d| ≤ B) (d : Fin D) :
    |∑ j, x j * S j d - ∑ j, v j * S j d| ≤ B * l1Dist x v := by
  rw [← Finset.sum_sub_distrib]
  unfold l1Dist
  rw [Finset.mul_sum]
  refine (Finset.abs_sum_le_sum_abs _ _).trans (Finset.sum_le_sum fun j _ => ?_)
  rw [← sub_mul, abs_mul, mul_comm]
  exact mul_le_mul_of_nonneg_right (hB j d) (abs_nonneg _)

theorem rows_pos_of_prob {v : Fin k → K} (hv : IsProb v) : 0 < k := by
  by_contra hh
  have hk0 : k = 0 := by omega
  subst hk0
  have := hv.2
  simp at this

/-- C125.  Forecasts of a fitted MTD convex coding with stochastic parameters (as the fits have, C38),
largest lag `L`, and entries of the dictionary up to `B`: whatever the data and the sample, a forecast
that is not NaN differs from the reconstruction of a distribution left alone by the recursion by at
most `2 * B` times the factor of the weights. -/
theorem C125_mtd_forecast_forgets {env : Env K} (hR : env.rng.Lawful) (obj : MTDObj env.rng p)
    (hlag : ∀ i, 1 ≤ obj.lags i) (L : ℕ) (hL : ∀ i, obj.lags i ≤ L) (hL' : ∃ i, obj.lags i = L)
    (h1 : SafeSteps obj.ls.gamma obj.ls.alphaMax obj.ls.sigmaOne obj.ls.sigmaTwo)
    {T0 : ℕ} {W0 : Matrix (Fin T0) (Fin k) K} {S : Matrix (Fin k) (Fin D) K} {w : Fin p → K}
    {A : Fin p → Matrix (Fin k) (Fin k) K} (hvars : obj.vars = some ⟨T0, D, k, W0, S, w, A⟩)
    (hw : IsProb w) (hA : ∀ i, ColStochastic (A i)) (c : Fin k → K) (hc0 : ∀ j, 0 ≤ c j)
    (hc : ∀ i j l, c j ≤ A i j l) (v : Fin k → K) (hv : IsProb v)
    (hstat : ∀ j, v j = ∑ i, w i * ∑ l, A i j l * v l) (B : K) (hB : ∀ j d, |S j d| ≤ B)
    (data : Arr2 K) (horizon : ℤ) (obj' : MTDObj env.rng p) (F : NanRows K)
    (h : mtdPredict env obj data horizon = Py.ok (obj', F)) :
    ∃ out : Fin data.rows → Option (Fin D → K), F = ⟨data.rows, D, out⟩ ∧
      ∀ t x, out t = some x → ∀ d,
        |x d - ∑ j, v j * S j d| ≤
          2 * B * (1 - ∑ j, c j) ^ ((horizon.toNat + L - 1) / L) := by
  obtain ⟨T1, k1, W1, W, S1, w1, A1, info, out, e1, e2, e3, hz, hn, hnan⟩ :=
    C41_mtd_forecast obj hlag data horizon obj' F h
  obtain ⟨_, _, _, W', _, _, _, -, -, e1', -, e4, hW⟩ := mtdTransform_facts e2
  rw [e1] at e1'
  simp only [Option.some.injEq, MTDVars.mk.injEq, true_and] at e1'
  obtain ⟨rfl, rfl, e1'⟩ := e1'
  simp only [Option.some.injEq, Arr2.of, Arr2.mk.injEq, true_and, heq_eq_eq] at e4
  subst e4
  have hW : RowStochastic W := hW hR h1
  rw [hvars] at e1
  simp only [Option.some.injEq, MTDVars.mk.injEq] at e1
  obtain ⟨-, rfl, rfl, -, hS, rfl, hA'⟩ := e1
  cases eq_of_heq hA'
  cases eq_of_heq hS
  refine ⟨out, e3, fun t x hx d => ?_⟩
  have hB0 : 0 ≤ B := (abs_nonneg _).trans (hB ⟨0, rows_pos_of_prob hv⟩ d)
  obtain ⟨i₀, hi₀⟩ := hL'
  have hL1 : 1 ≤ L := hi₀ ▸ hlag i₀
  by_cases h0 : horizon = 0
  · rw [hz h0 t, Option.some.injEq] at hx
    subst hx
    subst h0
    have e : ((0 : ℤ).toNat + L - 1) / L = 0 := by
      refine Nat.div_eq_of_lt ?_
      rw [Int.toNat_zero]
      omega
    rw [e, pow_zero, mul_one, mul_comm 2 B]
    exact (abs_dot_le (fun j => W t j) v S B hB d).trans
      (mul_le_mul_of_nonneg_left (l1Dist_prob (hW t) hv) hB0)
  · by_cases ht : ∀ i, obj.lags i ≤ t + 1
    · obtain ⟨q, hq, -⟩ := C41_mtd_continuation obj.lags hlag w A W t
      rw [hn h0 t ht q hq, Option.some.injEq] at hx
      subst hx
      refine (abs_dot_le (q (t + horizon.toNat)) v S B hB d).trans ?_
      rw [mul_comm 2 B, mul_assoc]
      exact mul_le_mul_of_nonneg_left (C125_continuation_limit obj.lags hlag L hL w hw A hA c hc0 hc
        v hv hstat W hW t (hi₀ ▸ ht i₀) q hq horizon.toNat) hB0
    · push Not at ht
      obtain ⟨i, hi⟩ := ht
      rw [hnan h0 t ⟨i, hi⟩] at hx
      simp at hx

/-- C125.  The same for the reduced order model on top of GPNH convex coding. -/
theorem C125_crom_forecast_forgets {env : Env K} (hR : env.rng.Lawful) (obj : CROMObj env.rng p)
    (hlag : ∀ i, 1 ≤ obj.lags i) (L : ℕ) (hL : ∀ i, obj.lags i ≤ L) (hL' : ∃ i, obj.lags i = L)
    (h1 : SafeSteps obj.base.ls.gamma obj.base.ls.alphaMax obj.base.ls.sigmaOne
      obj.base.ls.sigmaTwo)
    {S : Matrix (Fin k) (Fin D) K} {w : Fin p → K}
    {A : Fin p → Matrix (Fin k) (Fin k) K} (hvars : obj.vars = some ⟨k, w, A⟩)
    (hdict : obj.base.S = some (Arr2.of S))
    (hw : IsProb w) (hA : ∀ i, ColStochastic (A i)) (c : Fin k → K) (hc0 : ∀ j, 0 ≤ c j)
    (hc : ∀ i j l, c j ≤ A i j l) (v : Fin k → K) (hv : IsProb v)
    (hstat : ∀ j, v j = ∑ i, w i * ∑ l, A i j l * v l) (B : K) (hB : ∀ j d, |S j d| ≤ B)
    (data : Arr2 K) (horizon : ℤ) (obj' : CROMObj env.rng p) (F : NanRows K)
    (h : cromPredict env obj data horizon = Py.ok (obj', F)) :
    ∃ out : Fin data.rows → Option (Fin D → K), F = ⟨data.rows, D, out⟩ ∧
      ∀ t x, out t = some x → ∀ d,
        |x d - ∑ j, v j * S j d| ≤
          2 * B * (1 - ∑ j, c j) ^ ((horizon.toNat + L - 1) / L) := by
  obtain ⟨k1, W, S1, w1, A1, info, out, e1, eS, e2, e3, hz, hn, hnan⟩ :=
    C41_crom_forecast obj hlag data horizon obj' F h
  obtain ⟨eg, -⟩ := C64_crom_transform_is_gpnh_transform obj data obj' _ info e2
  obtain ⟨W', hW', -, -, hW⟩ := C17_gpnh_transform_weights_stochastic_partial hR obj.base
    h1 data obj'.base _ info eg
  rw [Option.some.injEq] at hW'
  subst hW'
  have hW : RowStochastic W := hW
  rw [hvars] at e1
  simp only [Option.some.injEq, CROMVars.mk.injEq] at e1
  obtain ⟨rfl, rfl, hA'⟩ := e1
  cases eq_of_heq hA'
  rw [hdict] at eS
  simp only [Option.some.injEq, Arr2.of, Arr2.mk.injEq, true_and] at eS
  obtain ⟨rfl, hS⟩ := eS
  cases eq_of_heq hS
  refine ⟨out, e3, fun t x hx d => ?_⟩
  have hB0 : 0 ≤ B := (abs_nonneg _).trans (hB ⟨0, rows_pos_of_prob hv⟩ d)
  obtain ⟨i₀, hi₀⟩ := hL'
  have hL1 : 1 ≤ L := hi₀ ▸ hlag i₀
  by_cases h0 : horizon = 0
  · rw [hz h0 t, Option.some.injEq] at hx
    subst hx
    subst h0
    have e : ((0 : ℤ).toNat + L - 1) / L = 0 := by
      refine Nat.div_eq_of_lt ?_
      rw [Int.toNat_zero]
      omega
    rw [e, pow_zero, mul_one, mul_comm 2 B]
    exact (abs_dot_le (fun j => W t j) v _ B hB d).trans
      (mul_le_mul_of_nonneg_left (l1Dist_prob (hW t) hv) hB0)
  · by_cases ht : ∀ i, obj.lags i ≤ t + 1
    · obtain ⟨q, hq, -⟩ := C41_mtd_continuation obj.lags hlag w A W t
      rw [hn h0 t ht q hq, Option.some.injEq] at hx
      subst hx
      refine (abs_dot_le (q (t + horizon.toNat)) v _ B hB d).trans ?_
      rw [mul_comm 2 B, mul_assoc]
      exact mul_le_mul_of_nonneg_left (C125_continuation_limit obj.lags hlag L hL w hw A hA c hc0 hc
        v hv hstat W hW t (hi₀ ▸ ht i₀) q hq horizon.toNat) hB0
    · push Not at ht
      obtain ⟨i, hi⟩ := ht
      rw [hnan h0 t ⟨i, hi⟩] at hx
      simp at hx

/-- C125.  Predictions of the k-means CROM: if every cluster was visited before the last sample of the
data last fitted, and a share of at least `c j` of the moves from each cluster go to cluster `j`, then
for every distribution `v` left alone by the fitted chain the predicted distributions of all samples
differ from `v` by at most `2 * (1 - ∑ c) ^ h` after `h` steps, and those of any two samples from each
other. -/
theorem C125_kmeans_crom_forgets {lib : KMeansLib K} (hl : lib.Lawful) {obj : KMCrom lib}
    (hr : obj.Reachable) {f : KMCromFitted lib} (hf : obj.fitted = some f) {X : Arr2 K}
    {w : lib.Weights} {labels : List ℕ} (hp : lib.predict f.kmeans X w = Py.ok labels)
    (hv : ∀ k : ℕ, k < f.transitionMatrix.cols → 0 < visits f.labels k) (h : ℕ) :
    ∃ (n : ℕ) (P : Matrix (Fin X.rows) (Fin n) K),
      obj.nClusters = .int n ∧
      obj.predict X w h = Py.ok ⟨X.rows, n, fun i j => some (P i j)⟩ ∧
      ∀ c : Fin n → K, (∀ j, 0 ≤ c j) →
        (∀ j k : Fin n, c j * visits f.labels k ≤ moves f.labels k j) →
        (∀ i i', l1Dist (fun j => P i j) (fun j => P i' j) ≤ 2 * (1 - ∑ j, c j) ^ h) ∧
        ∀ v : Fin n → K, IsProb v →
          (∀ j, v j = ∑ k : Fin n, (moves f.labels k j : K) / (visits f.labels k : K) * v k) →
          ∀ i, l1Dist (fun j => P i j) v ≤ 2 * (1 - ∑ j, c j) ^ h := by
  obtain ⟨n, M, start, P, hn, hM, hstart, hpred, hP, hPs⟩ :=
    C46_predict_distribution_partial hl hr hf hp hv h
  obtain ⟨n', -, hn', hT, -, -⟩ := hr.coherent hl f hf
  obtain ⟨n'', hn'', hlab, -, -⟩ := KMCrom.predict_eq hl hr hf hp h
  have e1 : n' = n := by
    have := hn'.symm.trans hn
    simpa using this
  have e2 : n'' = n := by
    have := hn''.symm.trans hn
    simpa using this
  subst e1 e2
  rw [hT] at hv
  have hpos : ∀ k : Fin n'', (0 : K) < visits f.labels k := fun k => Nat.cast_pos.2 (hv k k.2)
  have hMs : ColStochastic M := by
    intro k
    constructor
    · intro j
      simp only [hM]
      exact div_nonneg (Nat.cast_nonneg _) (Nat.cast_nonneg _)
    · simp only [hM]
      rw [← Finset.sum_div, ← Nat.cast_sum, sum_moves f.labels n'' k hlab, div_self (hpos k).ne']
  refine ⟨n'', P, hn, hpred, fun c hc0 hc => ?_⟩
  have hcM : ∀ j l, c j ≤ M j l := fun j l => by
    rw [hM, le_div_iff₀ (hpos l)]
    exact hc j l
  constructor
  · intro i i'
    rw [hP i, hP i']
    exact chains_approach hMs hcM (chain_isProb hMs _) (chain_isProb hMs _) (fun _ => rfl)
      (fun _ => rfl) h
  · intro v hvp hstat i
    rw [hP i]
    exact chains_approach (y := fun _ => v) hMs hcM (chain_isProb hMs _) (fun _ => hvp) (fun _ => rfl)
      (fun _ => funext fun j => by simp only [hM]; exact hstat j) h

/-! ### Concrete cases -/

/-- A chain that stays with probability 3/4: the two forecasts get twice as close with every step,
and the uniform distribution is left alone. -/
example (h : ℕ) : l1Dist (chain !![3/4, 1/4; 1/4, (3/4 : ℚ)] 0 h) (fun _ => 1 / 2) ≤ 2 * (1 / 2) ^ h := by
  have hM : ColStochastic !![3/4, 1/4; 1/4, (3/4 : ℚ)] := by
    intro j
    fin_cases j <;> constructor <;> norm_num [Fin.sum_univ_two, Fin.forall_fin_two]
  have hv : IsProb (fun _ : Fin 2 => (1 / 2 : ℚ)) := by
    constructor <;> norm_num [Fin.sum_univ_two]
  have := chains_approach (c := fun _ => 1 / 4) (y := fun _ => fun _ => 1 / 2) hM
    (by
      intro j l
      fin_cases j <;> fin_cases l <;> norm_num)
    (chain_isProb hM 0) (fun _ => hv) (fun _ => rfl)
    (fun _ => by
      funext j
      fin_cases j <;> norm_num [Fin.sum_univ_two]) h
  norm_num [Fin.sum_univ_two] at this ⊢
  exact this

/-- The example of the next statement: two components that are kept with probability 3/4 at lag 1 and
with probability 1/2 at lag 2. -/
def forgetObj : MTDObj demoEnv.rng 2 :=
  { mtdDemoObj with
    vars := some ⟨1, 2, 2, !![1, 0], !![0, 4; 2, -6], ![1/2, 1/2],
      ![!![3/4, 1/4; 1/4, 3/4], !![1/2, 1/2; 1/2, 1/2]]⟩ }

/-- All hypotheses of `C125_mtd_forecast_forgets` are met by a model that makes forecasts: for every
horizon the forecasts of the demo data come within `12 * (1/2) ^ ⌈h/2⌉` of (1, -1), the mean of the
two rows of the dictionary. -/
example (horizon : ℤ) : ∃ (o : MTDObj demoEnv.rng 2) (out : Fin 3 → Option (Fin 2 → ℚ)),
    mtdPredict demoEnv forgetObj demoData horizon = Py.ok (o, ⟨3, 2, out⟩) ∧
    ∀ t x, out t = some x → |x 0 - 1| ≤ 12 * (1 / 2) ^ ((horizon.toNat + 1) / 2) ∧
      |x 1 - (-1)| ≤ 12 * (1 / 2) ^ ((horizon.toNat + 1) / 2) := by
  have hw : IsProb (![1/2, 1/2] : Fin 2 → ℚ) := by
    constructor
    · intro i
      fin_cases i <;> norm_num
    · norm_num [Fin.sum_univ_two]
  have hA : ∀ i, ColStochastic
      ((![!![3/4, 1/4; 1/4, 3/4], !![1/2, 1/2; 1/2, 1/2]] : Fin 2 → Matrix (Fin 2) (Fin 2) ℚ) i) := by
    intro i j
    fin_cases i <;> fin_cases j <;> constructor <;>
      norm_num [Fin.sum_univ_two, Fin.forall_fin_two]
  have hv : IsProb (fun _ : Fin 2 => (1 / 2 : ℚ)) := by
    constructor <;> norm_num [Fin.sum_univ_two]
  obtain ⟨⟨o, G, i⟩, h⟩ := C61_mtd_transform_returns demoRng_lawful demoRng_uniform_pos forgetObj
    (by norm_num) mtdDemo_lags
    (by norm_num [forgetObj, mtdDemoObj, demoLS]) (by norm_num [forgetObj, mtdDemoObj, demoLS])
    (by norm_num [forgetObj, mtdDemoObj, demoLS]) (by norm_num [forgetObj, mtdDemoObj, demoLS])
    rfl
    (by norm_num [forgetObj, mtdDemoObj, demoLS])
    (by norm_num [forgetObj, mtdDemoObj, demoLS]) rfl (Or.inl rfl) demoData
    (by norm_num [demoData, Arr2.of])
    (by show (3 : ℕ) ≠ Finset.univ.sup ![1, 2]; decide)
    ⟨⟨2, rfl, by norm_num⟩, ⟨4, rfl, by norm_num⟩, Or.inr ⟨_, rfl, by norm_num⟩⟩
    rfl 1 _ _ _ _ rfl hw hA
  obtain ⟨T0, k, W0, W, S, w, A, -, -, -, e2, -⟩ := mtdTransform_facts h
  have hpred : mtdPredict demoEnv forgetObj demoData horizon =
      Py.ok (o, mtdForecast forgetObj.lags ⟨_, _, _, W, S, w, A⟩ horizon) := by
    unfold mtdPredict
    rw [h, Py.ok_bind]
    simp only [e2]
    rfl
  obtain ⟨out, hF, hout⟩ := C125_mtd_forecast_forgets demoRng_lawful forgetObj mtdDemo_lags 2
    (by
      intro i
      fin_cases i <;> norm_num [forgetObj, mtdDemoObj])
    ⟨1, rfl⟩ (by norm_num [SafeSteps, forgetObj, mtdDemoObj, demoLS]) rfl hw hA (fun _ => 1 / 4)
    (fun _ => by norm_num)
    (by
      intro i j l
      fin_cases i <;> fin_cases j <;> fin_cases l <;> norm_num)
    (fun _ => 1 / 2) hv
    (by
      intro j
      fin_cases j <;> norm_num [Fin.sum_univ_two])
    6
    (by
      intro j d
      fin_cases j <;> fin_cases d <;> norm_num [abs_le])
    demoData horizon o _ hpred
  refine ⟨o, out, hpred.trans (by rw [hF]; rfl), fun t x hx => ?_⟩
  have h0 := hout t x hx 0
  have h1 := hout t x hx 1
  norm_num [Fin.sum_univ_two] at h0 h1 ⊢
  exact ⟨h0, h1⟩

/-- The k-means CROM fitted to labels 0, 0, 1, 0: every second step from cluster 0 and every step from
cluster 1 go to cluster 0, so the predictions for two samples get twice as close with every step. -/
example (h : ℕ) : ∃ (n : ℕ) (P : Matrix (Fin 2) (Fin n) ℚ),
    (demoCromFitted [0, 0, 10, 0]).predict (column [10, 0]) () h =
      Py.ok ⟨2, n, fun i j => some (P i j)⟩ ∧
    ∀ i i', l1Dist (fun j => P i j) (fun j => P i' j) ≤ 2 * (1 / 2) ^ h := by
  have hlabels : (([0, 0, 10, 0] : List ℚ).map fun x => if 5 < x then 1 else 0) = [0, 0, 1, 0] := by
    norm_num
  have hp := demoCrom_labels [10, 0] (.int 2) rfl
    (([0, 0, 10, 0] : List ℚ).map fun x => if 5 < x then 1 else 0)
  obtain ⟨n, P, hn, hpred, hP⟩ := C125_kmeans_crom_forgets demoKM_lawful
    (demoCromFitted_reachable [0, 0, 10, 0]) rfl hp (by
      intro k hk
      change 0 < visits (([0, 0, 10, 0] : List ℚ).map fun x => if 5 < x then 1 else 0) k
      rw [hlabels]
      have hk2 : k < 2 := hk
      interval_cases k <;> decide) h
  have hn2 : n = 2 := by
    have : (NumArg.int 2 : NumArg ℚ) = .int n := hn
    have := NumArg.int.inj this
    omega
  subst hn2
  refine ⟨2, P, hpred, ?_⟩
  have := (hP ![1/2, 0] (by
      intro j
      fin_cases j <;> norm_num) (by
      intro j k
      change _ * (visits (([0, 0, 10, 0] : List ℚ).map fun x => if 5 < x then 1 else 0) k : ℚ) ≤
        (moves (([0, 0, 10, 0] : List ℚ).map fun x => if 5 < x then 1 else 0) k j : ℚ)
      rw [hlabels]
      have v0 : visits [0, 0, 1, 0] 0 = 2 := by decide
      have v1 : visits [0, 0, 1, 0] 1 = 1 := by decide
      have m0 : moves [0, 0, 1, 0] 0 0 = 1 := by decide
      have m1 : moves [0, 0, 1, 0] 1 0 = 1 := by decide
      fin_cases j <;> fin_cases k <;> norm_num [v0, v1, m0, m1])).1
  norm_num [Fin.sum_univ_two] at this
  intro i i'
  refine (this i i').trans (le_of_eq ?_)
  norm_num

/-- The same parameters and dictionary in a reduced order model. -/
def forgetCrom : CROMObj demoEnv.rng 2 :=
  { base := { demoObj with nComponents := .int 2, S := some (Arr2.of !![0, 4; 2, -6]) }
    lags := ![1, 2]
    vars := some ⟨2, ![1/2, 1/2], ![!![3/4, 1/4; 1/4, 3/4], !![1/2, 1/2; 1/2, 1/2]]⟩ }

example (horizon : ℤ) : ∃ (o : CROMObj demoEnv.rng 2) (out : Fin 3 → Option (Fin 2 → ℚ)),
    cromPredict demoEnv forgetCrom demoData horizon = Py.ok (o, ⟨3, 2, out⟩) ∧
    ∀ t x, out t = some x → |x 0 - 1| ≤ 12 * (1 / 2) ^ ((horizon.toNat + 1) / 2) ∧
      |x 1 - (-1)| ≤ 12 * (1 / 2) ^ ((horizon.toNat + 1) / 2) := by
  have hw : IsProb (![1/2, 1/2] : Fin 2 → ℚ) := by
    constructor
    · intro i
      fin_cases i <;> norm_num
    · norm_num [Fin.sum_univ_two]
  have hA : ∀ i, ColStochastic
      ((![!![3/4, 1/4; 1/4, 3/4], !![1/2, 1/2; 1/2, 1/2]] : Fin 2 → Matrix (Fin 2) (Fin 2) ℚ) i) := by
    intro i j
    fin_cases i <;> fin_cases j <;> constructor <;>
      norm_num [Fin.sum_univ_two, Fin.forall_fin_two]
  have hv : IsProb (fun _ : Fin 2 => (1 / 2 : ℚ)) := by
    constructor <;> norm_num [Fin.sum_univ_two]
  obtain ⟨⟨o2, G2, i2⟩, h2⟩ := C21_gpnh_transform_returns demoRng_lawful demoRng_uniform_pos
    forgetCrom.base
    (by norm_num [forgetCrom, demoObj, demoLS]) (by norm_num [forgetCrom, demoObj, demoLS])
    (by norm_num [forgetCrom, demoObj, demoLS]) (by norm_num [forgetCrom, demoObj, demoLS]) rfl
    (by norm_num [forgetCrom, demoObj, demoLS]) (by norm_num [forgetCrom, demoObj, demoLS]) rfl
    (Or.inl rfl) demoData (by norm_num [demoData, Arr2.of])
    ⟨⟨2, rfl, by norm_num⟩, ⟨4, rfl, by norm_num⟩, Or.inr ⟨_, rfl, by norm_num⟩⟩
    (k := 2) rfl !![0, 4; 2, -6] rfl
  have hct : cromTransform demoEnv forgetCrom demoData =
      Py.ok (⟨o2, forgetCrom.lags, forgetCrom.vars⟩, G2, i2) := by
    unfold cromTransform
    rw [h2]
    rfl
  obtain ⟨k', W', S', rfl, e1, e2⟩ := cromTransform_shape hct
  obtain rfl : 2 = k' := congrArg Arr2.rows (Option.some.inj e1)
  obtain ⟨r, hr⟩ : ∃ r, cromPredict demoEnv forgetCrom demoData horizon = Py.ok r := by
    unfold cromPredict
    rw [hct, Py.ok_bind]
    have e2 : o2.S = some (Arr2.of S') := e2
    unfold cromForecast cromInverseTransform
    simp only [e2, forgetCrom]
    rw [if_neg (by simp), dif_pos (show (Arr2.of W').cols = 2 from rfl),
      dif_pos (show (Arr2.of S').rows = 2 from rfl)]
    exact ⟨_, rfl⟩
  obtain ⟨out, hF, hout⟩ := C125_crom_forecast_forgets demoRng_lawful forgetCrom mtdDemo_lags 2
    (by
      intro i
      fin_cases i <;> norm_num [forgetCrom])
    ⟨1, rfl⟩ (by norm_num [SafeSteps, forgetCrom, demoObj, demoLS]) rfl rfl hw hA (fun _ => 1 / 4)
    (fun _ => by norm_num)
    (by
      intro i j l
      fin_cases i <;> fin_cases j <;> fin_cases l <;> norm_num)
    (fun _ => 1 / 2) hv
    (by
      intro j
      fin_cases j <;> norm_num [Fin.sum_univ_two])
    6
    (by
      intro j d
      fin_cases j <;> fin_cases d <;> norm_num [abs_le])
    demoData horizon r.1 r.2 hr
  refine ⟨r.1, out, hr.trans (congrArg (fun F => Py.ok (r.1, F)) hF), fun t x hx => ?_⟩
  have h0 := hout t x hx 0
  have h1 := hout t x hx 1
  norm_num [Fin.sum_univ_two] at h0 h1 ⊢
  exact ⟨h0, h1⟩

/-- C125 needs a component that can be entered from everywhere: with a chain that always moves to the
other component, forecasts from different components stay as far apart as probability vectors can
be. -/
theorem C125_periodic_never_forgets (h : ℕ) :
    l1Dist (chain !![0, 1; 1, (0 : ℚ)] 0 h) (chain !![0, 1; 1, (0 : ℚ)] 1 h) = 2 := by
  have e : ∀ h : ℕ, (chain !![0, 1; 1, (0 : ℚ)] 0 h 0 = 1 ∧ chain !![0, 1; 1, (0 : ℚ)] 0 h 1 = 0 ∧
      chain !![0, 1; 1, (0 : ℚ)] 1 h 0 = 0 ∧ chain !![0, 1; 1, (0 : ℚ)] 1 h 1 = 1) ∨
      (chain !![0, 1; 1, (0 : ℚ)] 0 h 0 = 0 ∧ chain !![0, 1; 1, (0 : ℚ)] 0 h 1 = 1 ∧
      chain !![0, 1; 1, (0 : ℚ)] 1 h 0 = 1 ∧ chain !![0, 1; 1, (0 : ℚ)] 1 h 1 = 0) := by
    intro h
    induction h with
    | zero => left; simp [chain]
    | succ h ih =>
      rcases ih with ⟨a1, a2, a3, a4⟩ | ⟨a1, a2, a3, a4⟩
      · right; simp [chain, Fin.sum_univ_two, a1, a2, a3, a4]
      · left; simp [chain, Fin.sum_univ_two, a1, a2, a3, a4]
  unfold l1Dist
  rw [Fin.sum_univ_two]
  rcases e h with ⟨a1, a2, a3, a4⟩ | ⟨a1, a2, a3, a4⟩ <;> rw [a1, a2, a3, a4] <;> norm_num

end Reor
