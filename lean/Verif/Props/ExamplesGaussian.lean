import Verif.Proofs.Examples
import Verif.Props.FEMBounds

/-!
C105: the data of the Gaussian clusters example.
-/

set_option linter.unusedSectionVars false

namespace Reor

open scoped BigOperators Matrix
open Spec

variable {K : Type} [Field K] [LinearOrder K] [IsStrictOrderedRing K]

/-! ### Specification -/

/-- Number of times at or before `t` at which the regime changes: every `T / (n + 1)` samples, `n`
times. -/
def changesUpTo (T n t : ℕ) : ℕ := ((Finset.range n).filter fun i => (i + 1) * (T / (n + 1)) ≤ t).card

/-- The cluster at time `t`: the clusters follow each other cyclically. -/
def clusterAt (T n t : ℕ) : Fin 3 := ⟨changesUpTo T n t % 3, Nat.mod_lt _ (by norm_num)⟩

/-- State of the generator after `m` draws, of the clusters in turn. -/
def drawState (R : DataRng K) (g : R.G) : ℕ → R.G
  | 0 => g
  | m + 1 => (R.mvn (clusterMeans ⟨m % 3, Nat.mod_lt _ (by norm_num)⟩)
      (clusterCovariances ⟨m % 3, Nat.mod_lt _ (by norm_num)⟩) (drawState R g m)).2

/-! ### Affiliations -/

theorem count_prefix {L t m : ℕ} (h1 : m * L ≤ t) (h2 : t < (m + 1) * L) {n : ℕ} (hm : m ≤ n) :
    ((Finset.range n).filter fun i => (i + 1) * L ≤ t).card = m := by
  have : (Finset.range n).filter (fun i => (i + 1) * L ≤ t) = Finset.range m := by
    ext i
    simp only [Finset.mem_filter, Finset.mem_range]
    constructor
    · rintro ⟨-, hi⟩
      by_contra hc
      have : (m + 1) * L ≤ (i + 1) * L := Nat.mul_le_mul_right _ (by omega)
      omega
    · intro hi
      have : (i + 1) * L ≤ m * L := Nat.mul_le_mul_right _ (by omega)
      exact ⟨by omega, by omega⟩
  rw [this, Finset.card_range]

theorem count_all {L t n : ℕ} (h : n * L ≤ t) :
    ((Finset.range n).filter fun i => (i + 1) * L ≤ t).card = n := by
  rw [Finset.filter_true_of_mem, Finset.card_range]
  intro i hi
  have : (i + 1) * L ≤ n * L := Nat.mul_le_mul_right _ (by simpa using hi)
  omega

theorem gaussianGamma_eq (T n : ℕ) :
    (gaussianGamma T n : Matrix (Fin T) (Fin 3) K) = pointWeights fun t => clusterAt T n t := by
  set L := T / (n + 1) with hL
  have key := foldl_range_inv (fun (s : Matrix (Fin T) (Fin 3) K × Fin 3) i =>
      (setOnes s.1 (i * L) ((i + 1) * L) s.2, s.2 + 1))
    (fun m s => (s.2 : ℕ) = m % 3 ∧ (m ≤ n → ∀ (t : Fin T) (j : Fin 3),
      s.1 t j = if (t : ℕ) < m * L ∧ j = clusterAt T n t then 1 else 0)) (fun _ _ => 0, 0)
    ⟨rfl, fun _ t j => by simp⟩ (by
      rintro m ⟨G, c⟩ ⟨hc, hG⟩
      refine ⟨?_, fun hm t j => ?_⟩
      · simp only at hc ⊢
        rw [Fin.val_add, hc]
        simp
      · have hG := hG (by omega) t j
        simp only [setOnes] at hG hc ⊢
        rw [hG]
        by_cases h1 : (t : ℕ) < m * L
        · simp only [h1, true_and]
          rw [if_neg (by omega)]
          have : (t : ℕ) < (m + 1) * L := lt_of_lt_of_le h1 (Nat.mul_le_mul_right _ (by omega))
          simp only [this, true_and]
        · simp only [h1, false_and, if_false]
          by_cases h2 : (t : ℕ) < (m + 1) * L
          · have h3 : changesUpTo T n t = m := count_prefix (by omega) h2 (by omega)
            have h4 : clusterAt T n t = c := Fin.ext (by
              change changesUpTo T n t % 3 = c
              rw [h3, hc])
            simp only [h2, h4, true_and, not_lt.1 h1]
          · simp only [h2, false_and, and_false, if_false]) n
  obtain ⟨hc, hG⟩ := key
  have hG := hG le_rfl
  ext t j
  change setOnes _ (n * L) T _ t j = if j = clusterAt T n t then 1 else 0
  simp only [setOnes]
  rw [hG t j]
  by_cases h1 : (t : ℕ) < n * L
  · rw [if_neg (by omega)]
    simp only [h1, true_and]
  · have h3 : changesUpTo T n t = n := count_all (not_lt.1 h1)
    have h4 : clusterAt T n t = ((List.range n).foldl (fun (s : Matrix (Fin T) (Fin 3) K × Fin 3) i =>
      (setOnes s.1 (i * L) ((i + 1) * L) s.2, s.2 + 1)) (fun _ _ => 0, 0)).2 := Fin.ext (by
        change changesUpTo T n t % 3 = _
        rw [h3, hc])
    rw [h4]
    simp only [h1, false_and, if_false, not_lt.1 h1, t.2, true_and]
    rfl

/-- C105.  Every sample belongs to exactly one cluster, the one it should by the list of changes. -/
theorem C105_affiliations (R : DataRng K) (T n : ℕ) (g : R.G) (t : Fin T) (j : Fin 3) :
    (gaussianData R T n g).1.2 t j = if j = clusterAt T n t then 1 else 0 :=
  congrFun (congrFun (gaussianGamma_eq T n) t) j

/-! ### Regime changes -/

theorem changesUpTo_succ {T n t : ℕ} (hn : n < T) :
    changesUpTo T n (t + 1) = changesUpTo T n t +
      if ∃ i < n, (i + 1) * (T / (n + 1)) = t + 1 then 1 else 0 := by
  have hL : 0 < T / (n + 1) := Nat.div_pos (by omega) (by omega)
  set L := T / (n + 1) with hLdef
  unfold changesUpTo
  rw [← hLdef]
  have hsplit : (Finset.range n).filter (fun i => (i + 1) * L ≤ t + 1) =
      (Finset.range n).filter (fun i => (i + 1) * L ≤ t) ∪
        (Finset.range n).filter (fun i => (i + 1) * L = t + 1) := by
    ext i
    simp only [Finset.mem_filter, Finset.mem_union]
    constructor
    · rintro ⟨h1, h2⟩
      rcases Nat.lt_or_ge t ((i + 1) * L) with h | h
      · exact Or.inr ⟨h1, by omega⟩
      · exact Or.inl ⟨h1, h⟩
    · rintro (⟨h1, h2⟩ | ⟨h1, h2⟩)
      · exact ⟨h1, by omega⟩
      · exact ⟨h1, by omega⟩
  rw [hsplit, Finset.card_union_of_disjoint]
  · congr 1
    by_cases h : ∃ i < n, (i + 1) * L = t + 1
    · rw [if_pos h]
      obtain ⟨i, hi, he⟩ := h
      rw [Finset.card_eq_one]
      refine ⟨i, ?_⟩
      ext j
      simp only [Finset.mem_filter, Finset.mem_range, Finset.mem_singleton]
      constructor
      · rintro ⟨-, hj⟩
        have := Nat.eq_of_mul_eq_mul_right hL (hj.trans he.symm)
        omega
      · rintro rfl
        exact ⟨hi, he⟩
    · rw [if_neg h, Finset.card_eq_zero]
      ext j
      simp only [Finset.mem_filter, Finset.mem_range, Finset.notMem_empty, iff_false]
      exact fun hj => h ⟨j, hj.1, hj.2⟩
  · rw [Finset.disjoint_left]
    intro i hi hj
    simp only [Finset.mem_filter] at hi hj
    omega

/-- C105.  The regime changes as many times as asked for, if there are more samples than changes;
otherwise there is only one regime. -/
theorem C105_number_of_changes (T n : ℕ) :
    ((Finset.range (T - 1)).filter fun t => clusterAt T n (t + 1) ≠ clusterAt T n t).card =
      if n < T then n else 0 := by
  by_cases hn : n < T
  · rw [if_pos hn]
    have hL : 0 < T / (n + 1) := Nat.div_pos (by omega) (by omega)
    have hLT : (n + 1) * (T / (n + 1)) ≤ T := Nat.mul_div_le T (n + 1)
    have hne : ∀ t, clusterAt T n (t + 1) ≠ clusterAt T n t ↔
        ∃ i < n, (i + 1) * (T / (n + 1)) = t + 1 := by
      intro t
      have h1 := changesUpTo_succ (t := t) hn
      by_cases h : ∃ i < n, (i + 1) * (T / (n + 1)) = t + 1
      · rw [if_pos h] at h1
        simp only [h, iff_true]
        intro he
        have := congrArg Fin.val he
        simp only [clusterAt] at this
        omega
      · rw [if_neg h] at h1
        simp only [h, iff_false, not_not]
        unfold clusterAt
        simp only [h1, Nat.add_zero]
    have himg : (Finset.range (T - 1)).filter (fun t => clusterAt T n (t + 1) ≠ clusterAt T n t) =
        (Finset.range n).image fun i => (i + 1) * (T / (n + 1)) - 1 := by
      ext t
      rw [Finset.mem_filter, hne t]
      simp only [Finset.mem_range, Finset.mem_image]
      constructor
      · rintro ⟨-, i, hi, he⟩
        exact ⟨i, hi, by omega⟩
      · rintro ⟨i, hi, he⟩
        have h1 : (i + 1) * (T / (n + 1)) ≤ n * (T / (n + 1)) := Nat.mul_le_mul_right _ (by omega)
        have h2 : 1 ≤ (i + 1) * (T / (n + 1)) := Nat.mul_pos (by omega) hL
        have h3 : (n + 1) * (T / (n + 1)) = n * (T / (n + 1)) + T / (n + 1) := by ring
        exact ⟨by omega, i, hi, by omega⟩
    rw [himg, Finset.card_image_of_injOn, Finset.card_range]
    intro i _ j _ he
    have h1 : 1 ≤ (i + 1) * (T / (n + 1)) := Nat.mul_pos (by omega) hL
    have h2 : 1 ≤ (j + 1) * (T / (n + 1)) := Nat.mul_pos (by omega) hL
    simp only at he
    have := Nat.eq_of_mul_eq_mul_right hL (show (i + 1) * (T / (n + 1)) = (j + 1) * (T / (n + 1)) by
      omega)
    omega
  · rw [if_neg hn, Finset.card_eq_zero, Finset.filter_eq_empty_iff]
    intro t _
    have h0 : T / (n + 1) = 0 := Nat.div_eq_of_lt (by omega)
    simp [clusterAt, changesUpTo, h0]

/-- C105.  Too few samples: all belong to the cluster after `n` changes. -/
theorem C105_too_few_samples {T n : ℕ} (h : T ≤ n) (t : ℕ) : clusterAt T n t = ⟨n % 3, Nat.mod_lt _ (by norm_num)⟩ := by
  have h0 : T / (n + 1) = 0 := Nat.div_eq_of_lt (by omega)
  simp [clusterAt, changesUpTo, h0]

/-- C105.  The true affiliations are among those that the constraints of the fit allow, if its bound is
at least the number of changes. -/
theorem C105_admissible (R : DataRng K) (T n : ℕ) (g : R.G) {b : K} (hb : (n : K) ≤ b) :
    TvAdmissible (some b) (gaussianData R T n g).1.2 := by
  have he : (gaussianData R T n g).1.2 = pointWeights fun t : Fin T => clusterAt T n t :=
    gaussianGamma_eq T n
  rw [he]
  refine ⟨pointWeights_stochastic _, fun b' hb' i => ?_⟩
  cases hb'
  refine (totalVariation_point _ i).le.trans (le_trans (Nat.cast_le.2 ?_) hb)
  have hle : ((Finset.range (T - 1)).filter fun t => clusterAt T n (t + 1) ≠ clusterAt T n t).card ≤ n := by
    rw [C105_number_of_changes]
    split <;> omega
  refine le_trans ?_ hle
  refine Finset.card_le_card_of_injOn (fun t : Fin (T - 1) => (t : ℕ)) ?_ ?_
  · intro t ht
    simp only [Finset.coe_filter, Finset.mem_univ, true_and, Set.mem_ofPred_eq, Finset.mem_range] at ht ⊢
    refine ⟨t.2, fun hc => ht ?_⟩
    rw [hc]
  · intro a _ b _ h
    exact Fin.ext h

/-! ### Samples -/

theorem drawState_add (R : DataRng K) (g : R.G) (m c : ℕ) :
    drawState R g (3 * m + c) = drawState R (drawState R g (3 * m)) c := by
  induction c with
  | zero => rfl
  | succ c ih =>
    have : (3 * m + c) % 3 = c % 3 := by omega
    change (R.mvn (clusterMeans ⟨(3 * m + c) % 3, _⟩) (clusterCovariances ⟨(3 * m + c) % 3, _⟩)
      (drawState R g (3 * m + c))).2 = _
    simp only [this, ih]
    rfl

theorem gaussianDraws_eq (R : DataRng K) (g : R.G) :
    (∀ j : Fin 3, (gaussianDraws R g).1 j =
      (R.mvn (clusterMeans j) (clusterCovariances j) (drawState R g j)).1) ∧
    (gaussianDraws R g).2 = drawState R g 3 := by
  have hl : List.finRange 3 = [0, 1, 2] := rfl
  unfold gaussianDraws
  rw [hl]
  simp only [List.foldl_cons, List.foldl_nil]
  refine ⟨fun j => ?_, rfl⟩
  fin_cases j
  · simp only [Fin.zero_eta, Fin.isValue, ne_eq, Fin.reduceEq, not_false_eq_true,
      Function.update_of_ne, Function.update_self]
    rfl
  · simp only [Fin.mk_one, Fin.isValue, ne_eq, Fin.reduceEq, not_false_eq_true,
      Function.update_of_ne, Function.update_self]
    rfl
  · simp only [Fin.reduceFinMk, Fin.isValue, Function.update_self]
    rfl

/-- C105.  Every sample is a draw from its cluster; the three clusters are drawn from in turn at each
sample, whichever is used. -/
theorem C105_samples (R : DataRng K) (T n : ℕ) (g : R.G) (t : Fin T) :
    (gaussianData R T n g).1.1 t = (R.mvn (clusterMeans (clusterAt T n t))
      (clusterCovariances (clusterAt T n t)) (drawState R g (3 * t + clusterAt T n t))).1 ∧
    (gaussianData R T n g).2 = drawState R g (3 * T) := by
  have key := foldl_finRange_inv (T := T) (fun (s : Matrix (Fin T) (Fin 2) K × R.G) i =>
      (Function.update s.1 i (fun d => ∑ j, (gaussianGamma T n : Matrix (Fin T) (Fin 3) K) i j *
        (gaussianDraws R s.2).1 j d), (gaussianDraws R s.2).2))
    (fun m s => s.2 = drawState R g (3 * m) ∧ ∀ t : Fin T, (t : ℕ) < m →
      s.1 t = (R.mvn (clusterMeans (clusterAt T n t)) (clusterCovariances (clusterAt T n t))
        (drawState R g (3 * t + clusterAt T n t))).1) (fun _ _ => 0, g)
    ⟨rfl, fun t ht => by omega⟩ (by
      rintro i ⟨X, g'⟩ ⟨hg, hX⟩
      simp only at hg hX ⊢
      subst hg
      obtain ⟨h1, h2⟩ := gaussianDraws_eq R (drawState R g (3 * i))
      refine ⟨?_, fun t ht => ?_⟩
      · rw [h2, ← drawState_add]
        rfl
      · rcases Nat.lt_or_ge t i with hlt | hge
        · have hne : t ≠ i := fun h => by
            rw [h] at hlt
            omega
          exact (Function.update_of_ne hne _ _).trans (hX t hlt)
        · have : t = i := Fin.ext (by omega)
          subst this
          refine (Function.update_self _ _ _).trans ?_
          have hsum : ∀ d, (∑ j, (gaussianGamma T n : Matrix (Fin T) (Fin 3) K) t j *
              (gaussianDraws R (drawState R g (3 * t))).1 j d) =
              (gaussianDraws R (drawState R g (3 * t))).1 (clusterAt T n t) d := by
            intro d
            rw [gaussianGamma_eq]
            simp [pointWeights]
          funext d
          rw [hsum d, h1, drawState_add])
  exact ⟨key.2 t t.2, key.1⟩

/-! ### Concrete cases -/

/-- Ten samples and three changes: regimes of two samples, the last one of four. -/
example : (List.range 10).map (fun t => clusterAt 10 3 t) = [0, 0, 1, 1, 2, 2, 0, 0, 0, 0] := by decide

/-- Three samples and four changes: one regime. -/
example : (List.range 3).map (fun t => clusterAt 3 4 t) = [1, 1, 1] := by decide

/-- A generator that counts its draws and returns the means. -/
def meanRng (K : Type) [Field K] : DataRng K where
  G := ℕ
  normal := fun _ g => (fun _ => 1, g + 1)
  normal2 := fun _ _ g => (fun _ _ => 0, g + 1)
  normal3 := fun _ _ _ g => (fun _ _ _ => 1, g + 1)
  normal4 := fun _ _ _ _ g => (fun _ _ _ _ => 1, g + 1)
  mvn := fun m _ g => (m, g + 1)
  choice := fun _ g => (0, g + 1)
  uniform := fun low _ g => (low, g + 1)
  uniform1 := fun low _ _ g => (fun _ => low, g + 1)

theorem meanRng_lawful : (meanRng K).Lawful :=
  ⟨fun _ _ h => h, fun _ _ _ h => ⟨le_rfl, h⟩, fun _ _ _ _ _ h => ⟨le_rfl, h⟩⟩

/-- With draws equal to the means, the third sample of ten is the second mean. -/
example : (gaussianData (meanRng ℚ) 10 3 (0 : ℕ)).1.1 2 = ![0, -1 / 2] := by
  rw [(C105_samples (meanRng ℚ) 10 3 (0 : ℕ) 2).1]
  rfl

example : TvAdmissible (some (3 : ℚ)) (gaussianData (meanRng ℚ) 10 3 (0 : ℕ)).1.2 :=
  C105_admissible _ _ _ _ (by norm_num)

end Reor
