import Verif.Model.CROM
import Verif.Spec
import Mathlib.Algebra.BigOperators.Group.Finset.Basic
import Mathlib.Algebra.Order.BigOperators.Group.Finset
import Mathlib.Algebra.BigOperators.Ring.Finset
import Mathlib.Tactic.FieldSimp
import Mathlib.Tactic.Ring

/-!
Lemmas on the k-means CROM model.
-/

namespace Reor

open scoped BigOperators
open Spec

variable {K : Type}

/-! ### Counting -/

theorem sum_dropLast_map (g : ℕ → ℕ) : ∀ l : List ℕ,
    (l.map g).dropLast.sum = ∑ t ∈ Finset.range (l.length - 1), ((l[t]?).map g).getD 0
  | [] => by simp
  | [a] => by simp
  | a :: b :: l => by
    have ih := sum_dropLast_map g (b :: l)
    simp only [List.map_cons, List.dropLast_cons_cons, List.sum_cons, List.length_cons,
      Nat.add_sub_cancel] at ih ⊢
    rw [Finset.sum_range_succ', ih, add_comm]
    simp

theorem sum_zipWith_map (f g : ℕ → ℕ) : ∀ l : List ℕ,
    (List.zipWith (· * ·) (l.map f).tail (l.map g).dropLast).sum =
      ∑ t ∈ Finset.range (l.length - 1),
        ((l[t + 1]?).map f).getD 0 * ((l[t]?).map g).getD 0
  | [] => by simp
  | [a] => by simp
  | a :: b :: l => by
    have ih := sum_zipWith_map f g (b :: l)
    simp only [List.map_cons, List.dropLast_cons_cons, List.tail_cons, List.zipWith_cons_cons,
      List.sum_cons, List.length_cons, Nat.add_sub_cancel] at ih ⊢
    rw [Finset.sum_range_succ', ih, add_comm]
    simp

theorem indicator_getD (o : Option ℕ) (j : ℕ) :
    (o.map fun l => if l = j then 1 else 0).getD 0 = if o = some j then 1 else 0 := by
  cases o <;> simp

theorem transitionEntry_eq [DivisionRing K] (labels : List ℕ) (j k : ℕ) :
    (transitionEntry labels j k : Option K) = countRatio (moves labels k j) (visits labels k) := by
  unfold transitionEntry indicator
  simp only
  congr 1
  · rw [sum_zipWith_map]
    simp only [indicator_getD]
    unfold moves
    rw [Finset.card_filter]
    refine Finset.sum_congr rfl fun t _ => ?_
    by_cases h1 : labels[t]? = some k <;> by_cases h2 : labels[t + 1]? = some j <;> simp [h1, h2]
  · rw [sum_dropLast_map]
    simp only [indicator_getD]
    unfold visits
    rw [Finset.card_filter]

/-- Every visit followed by another label is followed by one of the labels. -/
theorem sum_moves (labels : List ℕ) (n k : ℕ) (h : ∀ l ∈ labels, l < n) :
    ∑ j : Fin n, moves labels k j = visits labels k := by
  unfold moves visits
  simp only [Finset.card_filter]
  rw [Finset.sum_comm]
  refine Finset.sum_congr rfl fun t ht => ?_
  rw [Finset.mem_range] at ht
  have hlt : t + 1 < labels.length := by omega
  have hl : labels[t + 1]? = some labels[t + 1] := List.getElem?_eq_getElem hlt
  have hb := h _ (List.getElem_mem hlt)
  by_cases h1 : labels[t]? = some k
  · rw [if_pos h1, Finset.sum_eq_single (⟨labels[t + 1], hb⟩ : Fin n)]
    · simp [h1]
    · intro b _ hne
      rw [if_neg]
      rintro ⟨-, h3⟩
      rw [hl] at h3
      exact hne (Fin.ext (Option.some.inj h3).symm)
    · simp
  · simp [h1]

theorem moves_le_visits (labels : List ℕ) (k j : ℕ) : moves labels k j ≤ visits labels k :=
  Finset.card_le_card fun t ht => by
    rw [Finset.mem_filter] at ht ⊢
    exact ⟨ht.1, ht.2.1⟩

/-! ### NaN arithmetic -/

theorem nanSum_some [AddCommMonoid K] {n : ℕ} (f : Fin n → K) :
    nanSum (fun i => some (f i)) = some (∑ i, f i) := by
  unfold nanSum
  rw [if_neg (by simp)]
  simp

theorem nanSum_none [AddCommMonoid K] {n : ℕ} {f : Fin n → Option K} {i : Fin n} (h : f i = none) :
    nanSum f = none := by
  unfold nanSum
  rw [if_pos ⟨i, by rw [h]; rfl⟩]

/-- `labels.dot(T.T)` for finite arrays. -/
theorem nanDot_some [Field K] {m n : ℕ} (A : Matrix (Fin m) (Fin n) K)
    (M : Matrix (Fin n) (Fin n) K) :
    nanDot ⟨m, n, fun i j => some (A i j)⟩ (Arr2.transpose ⟨n, n, fun i j => some (M i j)⟩) =
      Py.ok ⟨m, n, fun i j => some (∑ l, M j l * A i l)⟩ := by
  unfold nanDot
  refine (dif_pos (show n = n from rfl)).trans ?_
  congr 2
  funext i j
  have : (fun l => nanMul (some (A i l)) (some (M j l))) = fun l => some (M j l * A i l) := by
    funext l
    simp [nanMul, mul_comm]
  exact (congrArg nanSum this).trans (nanSum_some _)

/-- A NaN column of the transition matrix makes every entry of the product NaN. -/
theorem nanDot_nan [Field K] {m n : ℕ} (A : Matrix (Fin m) (Fin n) (Option K))
    (M : Matrix (Fin n) (Fin n) (Option K)) (k : Fin n) (hk : ∀ j, M j k = none) :
    nanDot ⟨m, n, A⟩ (Arr2.transpose ⟨n, n, M⟩) = Py.ok ⟨m, n, fun _ _ => none⟩ := by
  unfold nanDot
  refine (dif_pos (show n = n from rfl)).trans ?_
  congr 2
  funext i j
  refine nanSum_none (i := k) ?_
  have h2 : ∀ x : Option K, nanMul x none = none := by intro x; cases x <;> rfl
  exact (congrArg (nanMul (A i k)) (hk j)).trans (h2 _)

theorem propagate_some [Field K] [LinearOrder K] {m n : ℕ} (M : Matrix (Fin n) (Fin n) K)
    (start : Fin m → Fin n) : ∀ h h0 : ℕ,
    propagate ⟨n, n, fun i j => some (M i j)⟩ h
      ⟨m, n, fun i j => some (chain M (start i) h0 j)⟩ =
      Py.ok ⟨m, n, fun i j => some (chain M (start i) (h0 + h) j)⟩
  | 0, _ => rfl
  | h + 1, h0 => by
    unfold propagate
    rw [nanDot_some (fun i j => chain M (start i) h0 j) M, Py.ok_bind]
    have := propagate_some M start h (h0 + 1)
    rw [show h0 + (h + 1) = h0 + 1 + h by omega]
    exact this

theorem propagate_nan [Field K] {m n : ℕ} (M : Matrix (Fin n) (Fin n) (Option K)) (k : Fin n)
    (hk : ∀ j, M j k = none) : ∀ (h : ℕ) (A : Matrix (Fin m) (Fin n) (Option K)),
    propagate ⟨n, n, M⟩ (h + 1) ⟨m, n, A⟩ = Py.ok ⟨m, n, fun _ _ => none⟩
  | 0, A => by
    unfold propagate
    rw [nanDot_nan A M k hk]
    rfl
  | h + 1, A => by
    unfold propagate
    rw [nanDot_nan A M k hk, Py.ok_bind]
    exact propagate_nan M k hk h _

/-- The chain keeps probability vectors. -/
theorem chain_isProb [Field K] [LinearOrder K] [IsStrictOrderedRing K] {n : ℕ}
    {M : Matrix (Fin n) (Fin n) K} (hM : ColStochastic M) (k : Fin n) :
    ∀ h, IsProb (chain M k h)
  | 0 => by
    constructor
    · intro j
      unfold chain
      split <;> simp
    · unfold chain
      simp
  | h + 1 => by
    have ih := chain_isProb hM k h
    constructor
    · intro j
      exact Finset.sum_nonneg fun l _ => mul_nonneg ((hM l).1 j) (ih.1 l)
    · change ∑ j, ∑ l, M j l * chain M k h l = 1
      rw [Finset.sum_comm]
      simp only [← Finset.sum_mul]
      rw [← ih.2]
      refine Finset.sum_congr rfl fun l _ => ?_
      rw [(hM l).2, one_mul]

/-! ### The estimator -/

variable {lib : KMeansLib K}

/-- What every object in use satisfies: the number of clusters, the transition matrix and the inner
k-means object agree, and the matrix is the one of the last `fit`. -/
def KMCrom.Coherent [DivisionRing K] (obj : KMCrom lib) : Prop :=
  ∀ f, obj.fitted = some f → ∃ n : ℕ, 1 ≤ n ∧ obj.nClusters = .int n ∧
    f.transitionMatrix = ⟨n, n, fun j k => transitionEntry f.labels j k⟩ ∧
    (lib.centers f.kmeans).rows = n ∧ ∀ l ∈ f.labels, l < n

/-- The attributes set by a fit that returned `km`. -/
def fittedOf [DivisionRing K] (km : lib.Obj) : KMCromFitted lib where
  clusterCenters := lib.centers km
  labels := lib.labels km
  inertia := lib.inertia km
  nIter := lib.nIter km
  kmeans := km
  transitionMatrix := ⟨(lib.centers km).rows, (lib.centers km).rows,
    fun j k => transitionEntry (lib.labels km) j k⟩

theorem KMCrom.fit_eq_ok [DivisionRing K] {obj obj' : KMCrom lib} {X : Arr2 K} {w : lib.Weights}
    (h : obj.fit X w = Py.ok obj') : ∃ km, lib.fit (lib.new obj.nClusters obj.kwargs) X w = Py.ok km ∧
      obj' = { obj with fitted := some (fittedOf km) } := by
  unfold KMCrom.fit kmeansMarkovCrom at h
  obtain ⟨r, hr, h⟩ := Py.bind_eq_ok.1 h
  obtain ⟨km, hkm, hr⟩ := Py.bind_eq_ok.1 hr
  refine ⟨km, hkm, ?_⟩
  have hr' := Py.ok.inj hr
  subst hr'
  exact (Py.ok.inj h).symm

theorem KMCrom.fit_of_ok [DivisionRing K] {obj : KMCrom lib} {X : Arr2 K} {w : lib.Weights}
    {km : lib.Obj} (h : lib.fit (lib.new obj.nClusters obj.kwargs) X w = Py.ok km) :
    obj.fit X w = Py.ok { obj with fitted := some (fittedOf km) } := by
  unfold KMCrom.fit kmeansMarkovCrom
  rw [h]
  rfl

theorem KMCrom.getFitted_eq_ok {obj : KMCrom lib} {f : KMCromFitted lib} :
    obj.getFitted = Py.ok f ↔ obj.fitted = some f := by
  unfold KMCrom.getFitted
  cases obj.fitted <;> simp

theorem KMCrom.fitPredict_eq_ok {obj : KMCrom lib} {X : Arr2 K} {w : lib.Weights}
    {r : KMCrom lib × List ℕ} (h : obj.fitPredict X w = Py.ok r) :
    ∃ f q, obj.fitted = some f ∧ lib.fitPredict f.kmeans X w = Py.ok q ∧
      r = ({ obj with fitted := some { f with kmeans := q.1 } }, q.2) := by
  unfold KMCrom.fitPredict at h
  obtain ⟨f, hf, h⟩ := Py.bind_eq_ok.1 h
  obtain ⟨q, hq, h⟩ := Py.bind_eq_ok.1 h
  exact ⟨f, q, KMCrom.getFitted_eq_ok.1 hf, hq, (Py.ok.inj h).symm⟩

theorem KMCrom.fitTransform_eq_ok {obj : KMCrom lib} {X : Arr2 K} {w : lib.Weights}
    {r : KMCrom lib × Arr2 K} (h : obj.fitTransform X w = Py.ok r) :
    ∃ f q, obj.fitted = some f ∧ lib.fitTransform f.kmeans X w = Py.ok q ∧
      r = ({ obj with fitted := some { f with kmeans := q.1 } }, q.2) := by
  unfold KMCrom.fitTransform at h
  obtain ⟨f, hf, h⟩ := Py.bind_eq_ok.1 h
  obtain ⟨q, hq, h⟩ := Py.bind_eq_ok.1 h
  exact ⟨f, q, KMCrom.getFitted_eq_ok.1 hf, hq, (Py.ok.inj h).symm⟩

theorem KMCrom.Reachable.coherent [DivisionRing K] (hl : lib.Lawful) {obj : KMCrom lib}
    (h : obj.Reachable) : obj.Coherent := by
  induction h with
  | new n kw => intro f hf; exact absurd hf (by simp)
  | @fit obj obj' X w _ h ih =>
    obtain ⟨km, hkm, rfl⟩ := KMCrom.fit_eq_ok h
    intro f hf
    have hf' := Option.some.inj hf
    subst hf'
    obtain ⟨z, hz, h1, hz'⟩ := hl.fit_clusters _ _ _ _ _ hkm
    refine ⟨(lib.centers km).rows, by omega, ?_, rfl, rfl, hl.fit_labels _ _ _ _ hkm⟩
    exact hz.trans (by rw [hz'])
  | @fitPredict obj r X w _ h ih =>
    obtain ⟨f, q, hf, hq, rfl⟩ := KMCrom.fitPredict_eq_ok h
    intro f' hf'
    have hf'' := Option.some.inj hf'
    subst hf''
    obtain ⟨n, h1, hn, hT, hc, hlab⟩ := ih f hf
    exact ⟨n, h1, hn, hT, (hl.refit_predict _ _ _ _ hq).trans hc, hlab⟩
  | @fitTransform obj r X w _ h ih =>
    obtain ⟨f, q, hf, hq, rfl⟩ := KMCrom.fitTransform_eq_ok h
    intro f' hf'
    have hf'' := Option.some.inj hf'
    subst hf''
    obtain ⟨n, h1, hn, hT, hc, hlab⟩ := ih f hf
    exact ⟨n, h1, hn, hT, (hl.refit_transform _ _ _ _ hq).trans hc, hlab⟩

/-- The initial rows are those of the chain after no step. -/
theorem oneHot_eq [Field K] [LinearOrder K] (labels : List ℕ) (n : ℕ)
    (hlab : ∀ l ∈ labels, l < n) (M : Matrix (Fin n) (Fin n) K) :
    (oneHot labels n : Arr2 (Option K)) = ⟨labels.length, n, fun i j =>
      some (chain M (⟨labels.get i, hlab _ (List.get_mem _ _)⟩ : Fin n) 0 j)⟩ := by
  unfold oneHot chain
  congr 1
  funext i j
  simp only [Fin.ext_iff]

theorem KMCrom.predict_eq [Field K] [LinearOrder K] (hl : lib.Lawful) {obj : KMCrom lib}
    (hr : obj.Reachable) {f : KMCromFitted lib} (hf : obj.fitted = some f) {X : Arr2 K}
    {w : lib.Weights} {labels : List ℕ} (hp : lib.predict f.kmeans X w = Py.ok labels) (h : ℕ) :
    ∃ n : ℕ, obj.nClusters = .int n ∧ (∀ l ∈ f.labels, l < n) ∧ (∀ l ∈ labels, l < n) ∧
      obj.predict X w h = propagate ⟨n, n, fun j k => transitionEntry f.labels j k⟩ h
        (oneHot labels n) := by
  obtain ⟨n, h1, hn, hT, hc, hlab⟩ := hr.coherent hl f hf
  refine ⟨n, hn, hlab, fun l hm => hc ▸ hl.predict_labels _ _ _ _ hp l hm, ?_⟩
  have hcount : clusterCount obj.nClusters = Py.ok n := by
    rw [hn]
    unfold clusterCount
    simp
  unfold KMCrom.predict
  rw [KMCrom.getFitted_eq_ok.2 hf, Py.ok_bind, hp, Py.ok_bind, hcount, Py.ok_bind]
  simp only
  rw [hT]
  by_cases h0 : (h : ℤ) = 0
  · rw [if_pos h0]
    have : h = 0 := by omega
    subst this
    rfl
  · rw [if_neg h0, Int.toNat_natCast]

end Reor
