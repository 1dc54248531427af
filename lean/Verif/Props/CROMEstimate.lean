import Verif.Props.CROM
import Verif.Proofs.CROMEstimate
import Mathlib.Tactic.FinCases
import Mathlib.Tactic.IntervalCases
import Mathlib.Tactic.NormNum

/-!
C128, C129: the transition matrix of the k-means CROM as an estimate, and relabelled clusters.
-/

namespace Reor

set_option linter.unusedSectionVars false

open scoped BigOperators
open Spec

/-! ### C128 -/

section

variable {K : Type} [Field K] [LinearOrder K] [IsStrictOrderedRing K] {lib : KMeansLib K}

/-- The matrix set by a fit, with finite entries put in the columns that are NaN. -/
theorem fit_fractions (hl : lib.Lawful) {obj obj' : KMCrom lib} {X : Arr2 K} {w : lib.Weights}
    (h : obj.fit X w = Py.ok obj') {T : ℕ} (hT : X.rows = T + 1) :
    ∃ (f : KMCromFitted lib) (n : ℕ) (V : Fin n → Fin n → Option K) (l : Fin (T + 1) → Fin n)
      (P : Matrix (Fin n) (Fin n) K),
      obj'.fitted = some f ∧ f.transitionMatrix = ⟨n, n, V⟩ ∧ f.labels.length = T + 1 ∧
      (∀ t : Fin (T + 1), f.labels[(t : ℕ)]? = some (l t : ℕ)) ∧
      ColStochastic P ∧ (∀ j k : Fin n, 0 < visits f.labels k → V j k = some (P j k)) ∧
      ∀ j k, P j k * hits (fun t : Fin T => l t.castSucc) k =
        pairHits (fun t : Fin T => l t.castSucc) (fun t : Fin T => l t.succ) k j := by
  obtain ⟨km, hkm, rfl⟩ := KMCrom.fit_eq_ok h
  have hlen : (lib.labels km).length = T + 1 := (hl.fit_length _ _ _ _ hkm).trans hT
  have hlt := hl.fit_labels _ _ _ _ hkm
  obtain ⟨l, hlab⟩ := exists_labels hlen hlt
  refine ⟨fittedOf km, (lib.centers km).rows, _, l, fun j k =>
    if visits (lib.labels km) k = 0 then (if j = k then 1 else 0)
    else (moves (lib.labels km) k j : K) / (visits (lib.labels km) k : K),
    rfl, rfl, hlen, hlab, ?_, ?_, ?_⟩
  · intro k
    by_cases hv : visits (lib.labels km) k = 0
    · simp only [hv, if_true]
      exact ⟨fun j => by dsimp only; split <;> norm_num, by simp⟩
    · simp only [hv, if_false]
      refine ⟨fun j => div_nonneg (Nat.cast_nonneg _) (Nat.cast_nonneg _), ?_⟩
      rw [← Finset.sum_div, ← Nat.cast_sum, sum_moves _ _ _ hlt, div_self]
      exact_mod_cast hv
  · intro j k hv
    refine (transitionEntry_eq _ _ _).trans ?_
    have hv' : visits (lib.labels km) k ≠ 0 := Nat.pos_iff_ne_zero.1 hv
    unfold countRatio
    rw [if_neg hv']
    exact congrArg some (if_neg hv').symm
  · intro j k
    rw [← visits_eq_hits hlen hlab k, ← moves_eq_pairs hlen hlab k j]
    by_cases hv : visits (lib.labels km) k = 0
    · have := moves_le_visits (lib.labels km) k j
      rw [hv] at this
      rw [hv, Nat.le_zero.1 this]
      simp
    · have hv' : ((visits (lib.labels km) k : ℕ) : K) ≠ 0 := by exact_mod_cast hv
      simp only [hv, if_false]
      exact div_mul_cancel₀ _ hv'

/-- **C128, least squares.**  After `fit` to at least one sample, the columns of the transition matrix
that are not NaN are columns of a matrix `P` of probabilities whose one-step predictions of the labels
have the least squared error of all matrices.  Among the matrices with that error the column of every
cluster left at least once is fixed. -/
theorem C128_least_squares (hl : lib.Lawful) {obj obj' : KMCrom lib} {X : Arr2 K} {w : lib.Weights}
    (h : obj.fit X w = Py.ok obj') {T : ℕ} (hT : X.rows = T + 1) :
    ∃ (f : KMCromFitted lib) (n : ℕ) (V : Fin n → Fin n → Option K) (l : Fin (T + 1) → Fin n)
      (P : Matrix (Fin n) (Fin n) K),
      obj'.fitted = some f ∧ f.transitionMatrix = ⟨n, n, V⟩ ∧
      (∀ t : Fin (T + 1), f.labels[(t : ℕ)]? = some (l t : ℕ)) ∧
      ColStochastic P ∧ (∀ j k, (∃ t : Fin T, l t.castSucc = k) → V j k = some (P j k)) ∧
      ∀ Q : Matrix (Fin n) (Fin n) K, oneStepError P l ≤ oneStepError Q l ∧
        (oneStepError Q l = oneStepError P l →
          ∀ t : Fin T, ∀ j, Q j (l t.castSucc) = P j (l t.castSucc)) := by
  obtain ⟨f, n, V, l, P, hf, hV, hlen, hlab, hP, hVP, hfr⟩ := fit_fractions hl h hT
  refine ⟨f, n, V, l, P, hf, hV, hlab, hP, ?_, fun Q => ?_⟩
  · rintro j k ⟨t, rfl⟩
    refine hVP j _ ?_
    rw [visits_eq_hits hlen hlab]
    exact hits_pos (fun t : Fin T => l t.castSucc) t
  · have key : oneStepError Q l = oneStepError P l +
        ∑ t : Fin T, ∑ j, (P j (l t.castSucc) - Q j (l t.castSucc)) ^ 2 := by
      have h0 : ∑ t : Fin T, ∑ j, (P j (l t.castSucc) - Q j (l t.castSucc)) *
          ((if l t.succ = j then 1 else 0) - P j (l t.castSucc)) = 0 := by
        rw [Finset.sum_comm]
        refine Finset.sum_eq_zero fun j _ => ?_
        exact fractions_orthogonal (fun t : Fin T => l t.castSucc) (fun t : Fin T => l t.succ) hfr
          (fun k => P j k - Q j k) j
      have h1 : oneStepError Q l = oneStepError P l +
          ∑ t : Fin T, ∑ j, (P j (l t.castSucc) - Q j (l t.castSucc)) ^ 2 +
          2 * ∑ t : Fin T, ∑ j, (P j (l t.castSucc) - Q j (l t.castSucc)) *
            ((if l t.succ = j then 1 else 0) - P j (l t.castSucc)) := by
        unfold oneStepError
        simp only [Finset.mul_sum, ← Finset.sum_add_distrib]
        refine Finset.sum_congr rfl fun t _ => Finset.sum_congr rfl fun j _ => ?_
        ring
      rw [h1, h0, mul_zero, add_zero]
    have hnn : ∀ t : Fin T, 0 ≤ ∑ j, (P j (l t.castSucc) - Q j (l t.castSucc)) ^ 2 :=
      fun t => Finset.sum_nonneg fun j _ => sq_nonneg _
    refine ⟨?_, fun he t j => ?_⟩
    · rw [key]
      exact le_add_of_nonneg_right (Finset.sum_nonneg fun t _ => hnn t)
    · rw [key] at he
      have h0 := (Finset.sum_eq_zero_iff_of_nonneg fun t _ => hnn t).1 (add_eq_left.1 he) t
        (Finset.mem_univ _)
      have h1 := (Finset.sum_eq_zero_iff_of_nonneg fun j _ => sq_nonneg _).1 h0 j (Finset.mem_univ _)
      exact (sub_eq_zero.1 (pow_eq_zero_iff (two_ne_zero)|>.1 h1)).symm

/-- **C128, frequencies.**  If the samples of `Y` are put in the clusters the fitted samples but the last
are in, and every cluster is left at least once in the fitted data, the one-step predictions for `Y` add
up to the numbers of fitted samples but the first in the clusters. -/
theorem C128_frequencies (hl : lib.Lawful) {obj : KMCrom lib} (hr : obj.Reachable)
    {f : KMCromFitted lib} (hf : obj.fitted = some f) {Y : Arr2 K} {w : lib.Weights}
    (hp : lib.predict f.kmeans Y w = Py.ok f.labels.dropLast)
    (hv : ∀ k : ℕ, k < f.transitionMatrix.cols → 0 < visits f.labels k) :
    ∃ (n : ℕ) (P : Matrix (Fin Y.rows) (Fin n) K),
      obj.predict Y w 1 = Py.ok ⟨Y.rows, n, fun i j => some (P i j)⟩ ∧
      ∀ j, ∑ i, P i j = (arrivals f.labels j : K) := by
  obtain ⟨n, M, start, P, hn, hM, hstart, hpred, hP, -⟩ :=
    C46_predict_distribution_partial hl hr hf hp hv 1
  obtain ⟨n', -, hn', hT', -, hlt⟩ := hr.coherent hl f hf
  have hnn : n' = n := by
    have := hn'.symm.trans hn
    simpa using this
  subst hnn
  refine ⟨n', P, hpred, fun j => ?_⟩
  have hlen : f.labels.dropLast.length = Y.rows := hl.predict_length _ _ _ _ hp
  have hdl := f.labels.length_dropLast
  have h1 : ∀ i, P i j = M j (start i) := by
    intro i
    have := congrFun (hP i) j
    refine this.trans ?_
    simp [chain]
  rw [Finset.sum_congr rfl fun i _ => h1 i]
  have hne : f.labels ≠ [] := by
    intro h0
    have hcols : 0 < f.transitionMatrix.cols := by
      rw [hT']
      obtain ⟨m, hm, hn2, -⟩ := hr.coherent hl f hf
      have : m = n' := by
        have := hn2.symm.trans hn
        simpa using this
      subst this
      exact hm
    have := hv 0 hcols
    rw [h0] at this
    simp [visits] at this
  obtain ⟨T, hT⟩ : ∃ T, f.labels.length = T + 1 :=
    ⟨f.labels.length - 1, by have := List.length_pos_iff.2 hne; omega⟩
  have hrows : Y.rows = T := by omega
  obtain ⟨r, c, y⟩ := Y
  change r = T at hrows
  subst hrows
  obtain ⟨l, hlab⟩ := exists_labels hT hlt
  have hs : ∀ i : Fin r, start i = l i.castSucc := by
    intro i
    have h2 := hstart i
    have h3 := hlab i.castSucc
    have h4 : f.labels.dropLast[(i : ℕ)]? = f.labels[(i : ℕ)]? := by
      rw [List.getElem?_dropLast, if_pos (by omega)]
    have h5 : some (start i : ℕ) = some (l i.castSucc : ℕ) :=
      h2.symm.trans (h4.trans h3)
    exact Fin.ext (Option.some.inj h5)
  have hfr : ∀ j k, M j k * hits (fun t : Fin r => l t.castSucc) k =
      pairHits (fun t : Fin r => l t.castSucc) (fun t : Fin r => l t.succ) k j := by
    intro j k
    rw [← visits_eq_hits hT hlab k, ← moves_eq_pairs hT hlab k j, hM, div_mul_cancel₀]
    have : 0 < visits f.labels k := hv k (by rw [hT']; exact k.2)
    exact_mod_cast this.ne'
  have horth := fractions_orthogonal (fun t : Fin r => l t.castSucc) (fun t : Fin r => l t.succ) hfr
    (fun _ => (1 : K)) j
  simp only [one_mul, Finset.sum_sub_distrib] at horth
  rw [sub_eq_zero] at horth
  have hstarts : ∑ i : Fin r, M j (start i) = ∑ i : Fin r, M j (l i.castSucc) :=
    Finset.sum_congr rfl fun i _ => by rw [hs i]
  refine hstarts.trans (horth.symm.trans ?_)
  unfold arrivals
  rw [hT, Nat.add_sub_cancel, Finset.card_filter, Finset.sum_range, Nat.cast_sum]
  refine Finset.sum_congr rfl fun t _ => ?_
  have h2 : f.labels[(t : ℕ) + 1]? = some (l t.succ : ℕ) := hlab t.succ
  rw [h2]
  by_cases h3 : l t.succ = j
  · simp [h3]
  · have h4 : (l t.succ : ℕ) ≠ j := fun h => h3 (Fin.ext h)
    simp [h3, h4]

end

/-! ### C129 -/

/-- **C129.**  Two models with `n` clusters, one of which numbers the clusters `σ 0, σ 1, …` where the
other numbers them `0, 1, …`, have transition matrices and predictions that differ by these numbers
only, for any horizon, and NaN in the corresponding places. -/
theorem C129_relabelled {K : Type} [Field K] [LinearOrder K] {lib lib' : KMeansLib K}
    (hl : lib.Lawful) (hl' : lib'.Lawful)
    {obj : KMCrom lib} {obj' : KMCrom lib'} (hr : obj.Reachable) (hr' : obj'.Reachable)
    {f : KMCromFitted lib} {f' : KMCromFitted lib'} (hf : obj.fitted = some f)
    (hf' : obj'.fitted = some f') {n : ℕ} (hn : obj.nClusters = .int n) (hn' : obj'.nClusters = .int n)
    {X : Arr2 K} {w : lib.Weights} {w' : lib'.Weights} {labels labels' : List ℕ}
    (hp : lib.predict f.kmeans X w = Py.ok labels) (hp' : lib'.predict f'.kmeans X w' = Py.ok labels')
    (σ : Equiv.Perm (Fin n)) (τ : ℕ → ℕ) (hτ : ∀ j : Fin n, τ j = σ j)
    (hlab : f'.labels = f.labels.map τ) (hlab' : labels' = labels.map τ) (h : ℤ) :
    ∃ (V V' : Fin n → Fin n → Option K) (P P' : Fin X.rows → Fin n → Option K),
      f.transitionMatrix = ⟨n, n, V⟩ ∧ f'.transitionMatrix = ⟨n, n, V'⟩ ∧
      (∀ j k, V' (σ j) (σ k) = V j k) ∧
      obj.predict X w h = Py.ok ⟨X.rows, n, P⟩ ∧ obj'.predict X w' h = Py.ok ⟨X.rows, n, P'⟩ ∧
      ∀ i j, P' i (σ j) = P i j := by
  obtain ⟨n₁, -, hn₁, hT, hc, hlt⟩ := hr.coherent hl f hf
  obtain ⟨n₂, -, hn₂, hT', hc', -⟩ := hr'.coherent hl' f' hf'
  have e1 : n₁ = n := by
    have := hn₁.symm.trans hn
    simpa using this
  have e2 : n₂ = n := by
    have := hn₂.symm.trans hn'
    simpa using this
  subst e1 e2
  have hplt : ∀ x ∈ labels, x < n₂ := fun x hx => hc ▸ hl.predict_labels _ _ _ _ hp x hx
  have hinj : ∀ x < n₂, ∀ j : Fin n₂, τ x = τ j ↔ x = j := by
    intro x hx j
    constructor
    · intro hxj
      have h1 := hτ ⟨x, hx⟩
      have h2 := hτ j
      have h3 : σ ⟨x, hx⟩ = σ j := Fin.ext (h1.symm.trans (hxj.trans h2))
      exact congrArg Fin.val (σ.injective h3)
    · rintro rfl
      rfl
  have hpl : labels.length = X.rows := hl.predict_length _ _ _ _ hp
  obtain ⟨r, c, x⟩ := X
  change labels.length = r at hpl
  subst hpl
  have hV : ∀ j k : Fin n₂, (transitionEntry f'.labels (σ j) (σ k) : Option K) =
      transitionEntry f.labels j k := by
    intro j k
    rw [transitionEntry_eq, transitionEntry_eq, hlab, ← hτ j, ← hτ k,
      moves_map (fun x hx => hinj x (hlt x hx) k) (fun x hx => hinj x (hlt x hx) j),
      visits_map (fun x hx => hinj x (hlt x hx) k)]
  have hcount : ∀ m : ℕ, clusterCount (NumArg.int m : NumArg K) = Py.ok m := by
    intro m
    unfold clusterCount
    simp
  have hpred : obj.predict (⟨labels.length, c, x⟩ : Arr2 K) w h =
      propagate ⟨n₂, n₂, fun j k => transitionEntry f.labels j k⟩ h.toNat (oneHot labels n₂) := by
    unfold KMCrom.predict
    rw [KMCrom.getFitted_eq_ok.2 hf, Py.ok_bind, hp, Py.ok_bind, hn, hcount, Py.ok_bind, hT]
    by_cases h0 : h = 0
    · subst h0
      rfl
    · exact if_neg h0
  have hpred' : obj'.predict (⟨labels.length, c, x⟩ : Arr2 K) w' h =
      propagate ⟨n₂, n₂, fun j k => transitionEntry f'.labels j k⟩ h.toNat
        (oneHot (labels.map τ) n₂) := by
    unfold KMCrom.predict
    rw [KMCrom.getFitted_eq_ok.2 hf', Py.ok_bind, hp', Py.ok_bind, hn', hcount, Py.ok_bind, hT',
      hlab']
    by_cases h0 : h = 0
    · subst h0
      rfl
    · exact if_neg h0
  have ho : (oneHot (labels.map τ) n₂ : Arr2 (Option K)) = ⟨labels.length, n₂, fun i j =>
      some (if τ (labels.get i) = j then 1 else 0)⟩ := by
    unfold oneHot
    have : ∀ (l : List ℕ) (m : ℕ) (e : l.length = m),
        (⟨l.length, n₂, fun i j => some (if l.get i = j then 1 else 0)⟩ : Arr2 (Option K)) =
          ⟨m, n₂, fun i j => some (if l.get (Fin.cast e.symm i) = j then 1 else 0)⟩ := by
      rintro l m rfl
      rfl
    rw [this (labels.map τ) labels.length (List.length_map _)]
    congr 1
    funext i j
    simp
  refine ⟨_, _, _, _, hT, hT', hV, hpred.trans (propagate_iterate _ _ _),
    hpred'.trans ((congrArg _ ho).trans (propagate_iterate _ _ _)), ?_⟩
  refine nanStep_perm σ hV h.toNat fun i j => ?_
  have := hinj (labels.get i) (hplt _ (List.get_mem _ _)) j
  rw [hτ j] at this
  simp only [this]

/-! ### Concrete cases -/

/-- A clustering library that puts the samples in the clusters listed in the keyword arguments, for data
with that many samples. -/
def listKM (K : Type) [Zero K] : KMeansLib K where
  Obj := NumArg K × List ℕ
  Kwargs := List ℕ
  Weights := Unit
  new := fun n kw => (n, kw)
  fit := fun km X _ => match km.1 with
    | .int z => if 1 ≤ z ∧ km.2.length = X.rows ∧ ∀ l ∈ km.2, l < z.toNat then Py.ok km
      else Py.raise .valueError
    | _ => Py.raise .typeError
  fitPredict := fun _ _ _ => Py.raise .valueError
  fitTransform := fun _ _ _ => Py.raise .valueError
  predict := fun km X _ => match km.1 with
    | .int z => if X.rows ≤ km.2.length ∧ ∀ l ∈ km.2, l < z.toNat then Py.ok (km.2.take X.rows)
      else Py.raise .valueError
    | _ => Py.raise .typeError
  transform := fun _ _ => Py.raise .valueError
  centers := fun km => match km.1 with
    | .int z => ⟨z.toNat, 1, fun _ _ => 0⟩
    | _ => ⟨0, 1, fun _ _ => 0⟩
  labels := fun km => km.2
  inertia := fun _ => 0
  nIter := fun _ => 1

theorem listKM_lawful (K : Type) [Zero K] : (listKM K).Lawful where
  fit_clusters := by
    intro n kw X w km h
    simp only [listKM] at h
    split at h
    · next z =>
      split at h
      · next hc =>
        have := Py.ok.inj h
        subst this
        exact ⟨z, rfl, hc.1, by change ((z.toNat : ℕ) : ℤ) = z; omega⟩
      · cases h
    · cases h
  fit_length := by
    intro km X w km' h
    simp only [listKM] at h
    split at h
    · split at h
      · next hc =>
        have := Py.ok.inj h
        subst this
        exact hc.2.1
      · cases h
    · cases h
  fit_labels := by
    intro km X w km' h
    simp only [listKM] at h
    split at h
    · next z hz =>
      split at h
      · next hc =>
        have := Py.ok.inj h
        subst this
        obtain ⟨n, l⟩ := km
        change n = .int z at hz
        subst hz
        exact hc.2.2
      · cases h
    · cases h
  refit_predict := by
    intro km X w r h
    cases h
  refit_transform := by
    intro km X w r h
    cases h
  predict_length := by
    intro km X w l h
    simp only [listKM] at h
    split at h
    · split at h
      · next hc =>
        have := Py.ok.inj h
        subst this
        simp [hc.1]
      · cases h
    · cases h
  predict_labels := by
    intro km X w l h
    simp only [listKM] at h
    split at h
    · next z hz =>
      split at h
      · next hc =>
        have := Py.ok.inj h
        subst this
        obtain ⟨n, l⟩ := km
        change n = .int z at hz
        subst hz
        exact fun i hi => hc.2 i (List.mem_of_mem_take hi)
      · cases h
    · cases h

/-- Data with `T` samples. -/
def blank (K : Type) [Zero K] (T : ℕ) : Arr2 K := ⟨T, 1, fun _ _ => 0⟩

theorem listKM_fit {K : Type} [DivisionRing K] {l : List ℕ} {z : ℤ} (hz : 1 ≤ z)
    (hl : ∀ x ∈ l, x < z.toNat) :
    (⟨.int z, l, none⟩ : KMCrom (listKM K)).fit (blank K l.length) () =
      Py.ok ⟨.int z, l, some (fittedOf (lib := listKM K) (.int z, l))⟩ := by
  refine KMCrom.fit_of_ok (lib := listKM K) (km := (.int z, l)) ?_
  exact if_pos ⟨hz, rfl, hl⟩

/-- Labels 0, 0, 1, 0: half of the moves from cluster 0 stay, all of those from cluster 1 go to 0.
No matrix predicts the next labels with a squared error below 1. -/
example (Q : Matrix (Fin 2) (Fin 2) ℚ) :
    1 ≤ oneStepError Q (![0, 0, 1, 0] : Fin 4 → Fin 2) := by
  obtain ⟨f, n, V, l, P, hf, hV, hlab, hP, hVP, hmin⟩ := C128_least_squares (listKM_lawful ℚ)
    (listKM_fit (K := ℚ) (l := [0, 0, 1, 0]) (z := 2) (by norm_num) (by decide)) (T := 3) rfl
  have hf' := Option.some.inj hf
  subst hf'
  have hn : (2 : ℕ) = n := congrArg Arr2.rows hV
  subst hn
  have hV' : (fun j k => transitionEntry [0, 0, 1, 0] (j : Fin 2) (k : Fin 2)) = V := by
    injection hV
  have hl : l = ![0, 0, 1, 0] := by
    funext t
    have := hlab t
    refine Fin.ext ?_
    fin_cases t <;> exact (Option.some.inj this).symm
  subst hl
  refine le_trans (le_of_eq ?_) (hmin Q).1
  have v0 : visits [0, 0, 1, 0] 0 = 2 := by decide
  have v1 : visits [0, 0, 1, 0] 1 = 1 := by decide
  have m00 : moves [0, 0, 1, 0] 0 0 = 1 := by decide
  have m01 : moves [0, 0, 1, 0] 0 1 = 1 := by decide
  have m10 : moves [0, 0, 1, 0] 1 0 = 1 := by decide
  have m11 : moves [0, 0, 1, 0] 1 1 = 0 := by decide
  have p00 := hVP 0 0 ⟨0, rfl⟩
  have p10 := hVP 1 0 ⟨0, rfl⟩
  have p01 := hVP 0 1 ⟨2, rfl⟩
  have p11 := hVP 1 1 ⟨2, rfl⟩
  rw [← hV'] at p00 p10 p01 p11
  simp only [transitionEntry_eq, countRatio] at p00 p10 p01 p11
  simp [v0, v1, m00, m01, m10, m11] at p00 p10 p01 p11
  unfold oneStepError
  simp [Fin.sum_univ_succ, ← p00, ← p10, ← p01, ← p11]
  norm_num

/-- C128_frequencies: the predictions from 0, 0, 1 add up to two samples in cluster 0 and one in 1. -/
example : ∃ (n : ℕ) (P : Matrix (Fin 3) (Fin n) ℚ),
    (⟨.int 2, [0, 0, 1, 0], some (fittedOf (lib := listKM ℚ) (.int 2, [0, 0, 1, 0]))⟩ :
      KMCrom (listKM ℚ)).predict (blank ℚ 3) () 1 = Py.ok ⟨3, n, fun i j => some (P i j)⟩ ∧
    ∀ j : Fin n, ∑ i, P i j = if (j : ℕ) = 0 then 2 else 1 := by
  obtain ⟨n, P, hP, hs⟩ := C128_frequencies (listKM_lawful ℚ)
    (KMCrom.Reachable.fit (KMCrom.Reachable.new _ _)
      (listKM_fit (K := ℚ) (l := [0, 0, 1, 0]) (z := 2) (by norm_num) (by decide))) rfl
    (Y := blank ℚ 3) (w := ()) rfl (by
      intro k hk
      change 0 < visits [0, 0, 1, 0] k
      have hk2 : k < 2 := hk
      interval_cases k <;> decide)
  refine ⟨n, P, hP, fun j => ?_⟩
  have hn : n = 2 := by
    obtain ⟨n', hn', -, -, hp'⟩ := KMCrom.predict_eq (listKM_lawful ℚ)
      (KMCrom.Reachable.fit (KMCrom.Reachable.new _ _)
        (listKM_fit (K := ℚ) (l := [0, 0, 1, 0]) (z := 2) (by norm_num) (by decide))) rfl
      (X := blank ℚ 3) (w := ()) (labels := [0, 0, 1]) rfl 1
    have h2 : (2 : ℤ) = n' := NumArg.int.inj hn'
    have h3 : n' = 2 := by omega
    subst h3
    have e := hP.symm.trans (hp'.trans (propagate_iterate _ 1 _))
    exact congrArg Arr2.cols (Py.ok.inj e)
  subst hn
  refine (hs j).trans ?_
  have a0 : arrivals [0, 0, 1, 0] 0 = 2 := by decide
  have a1 : arrivals [0, 0, 1, 0] 1 = 1 := by decide
  change ((arrivals [0, 0, 1, 0] j : ℕ) : ℚ) = _
  fin_cases j <;> simp [a0, a1]

/-- C129 for the labels 0, 0, 1, 0 and 1, 1, 0, 1, whatever the horizon. -/
example (h : ℤ) := C129_relabelled (listKM_lawful ℚ) (listKM_lawful ℚ)
  (KMCrom.Reachable.fit (KMCrom.Reachable.new _ _)
    (listKM_fit (K := ℚ) (l := [0, 0, 1, 0]) (z := 2) (by norm_num) (by decide)))
  (KMCrom.Reachable.fit (KMCrom.Reachable.new _ _)
    (listKM_fit (K := ℚ) (l := [1, 1, 0, 1]) (z := 2) (by norm_num) (by decide)))
  rfl rfl (n := 2) rfl rfl (X := blank ℚ 3) (w := ()) (w' := ()) (labels := [0, 0, 1])
  (labels' := [1, 1, 0]) rfl rfl (Equiv.swap 0 1) (fun x => 1 - x)
  (by intro j; fin_cases j <;> rfl) rfl rfl h

end Reor
