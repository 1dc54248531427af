import Verif.Proofs.CROMLikelihood
import Verif.Props.CROM

/-!
The transition matrix of k-means CROM as an estimate.
-/

namespace Reor

set_option linter.unusedSectionVars false

open scoped BigOperators
open Spec

variable {lib : KMeansLib ℝ}

/-! ### C117: the transition matrix is the maximum-likelihood estimate -/

/-- The finite entries of a transition matrix. -/
def KMCromFitted.Entries (f : KMCromFitted lib) (Q : ℕ → ℕ → ℝ) : Prop :=
  ∀ (j : Fin f.transitionMatrix.rows) (k : Fin f.transitionMatrix.cols),
    0 < visits f.labels k → f.transitionMatrix.val j k = some (Q j k)

/-- What the entries are. -/
theorem entries_mul_visits (hl : lib.Lawful) {obj obj' : KMCrom lib} {X : Arr2 ℝ} {w : lib.Weights}
    (h : obj.fit X w = Py.ok obj') : ∃ f n, obj'.fitted = some f ∧ f.clusterCenters.rows = n ∧
      (∀ l ∈ f.labels, l < n) ∧ ∀ Q, f.Entries Q → ∀ j < n, ∀ k < n,
        Q j k * visits f.labels k = moves f.labels k j := by
  obtain ⟨km, hkm, rfl⟩ := KMCrom.fit_eq_ok h
  refine ⟨fittedOf km, _, rfl, rfl, hl.fit_labels _ _ _ _ hkm, fun Q hQ j hj k hk => ?_⟩
  rcases Nat.eq_zero_or_pos (visits (fittedOf km).labels k) with h0 | h0
  · have := moves_le_visits (fittedOf km).labels k j
    rw [h0] at this
    rw [h0, Nat.le_zero.1 this]
    simp
  · have h1 := hQ ⟨j, hj⟩ ⟨k, hk⟩ h0
    have h2 : (fittedOf km).transitionMatrix.val ⟨j, hj⟩ ⟨k, hk⟩ =
        if visits (fittedOf km).labels k = 0 then none
        else some ((moves (fittedOf km).labels k j : ℝ) / (visits (fittedOf km).labels k : ℝ)) :=
      transitionEntry_eq _ _ _
    rw [if_neg h0.ne'] at h2
    have h3 := Option.some.inj (h1.symm.trans h2)
    rw [h3, div_mul_cancel₀]
    exact_mod_cast h0.ne'

/-- C117.  Among all transition probabilities, those of the fitted transition matrix make the label
sequence of the training data most likely, and they are the only ones that do (for the labels with a
successor). -/
theorem C117_transition_matrix_maximum_likelihood (hl : lib.Lawful) {obj obj' : KMCrom lib}
    {X : Arr2 ℝ} {w : lib.Weights} (h : obj.fit X w = Py.ok obj') :
    ∃ f, obj'.fitted = some f ∧ ∀ Q, f.Entries Q → 0 < pathProb Q f.labels ∧
      ∀ P : ℕ → ℕ → ℝ, (∀ j k, 0 ≤ P j k) →
        (∀ k, ∑ j ∈ Finset.range f.clusterCenters.rows, P j k ≤ 1) →
        pathProb P f.labels ≤ pathProb Q f.labels ∧
        (pathProb P f.labels = pathProb Q f.labels → ∀ j < f.clusterCenters.rows,
          ∀ k < f.clusterCenters.rows, 0 < visits f.labels k → P j k = Q j k) := by
  obtain ⟨f, n, hf, hn, hlab, hQ⟩ := entries_mul_visits hl h
  refine ⟨f, hf, fun Q hE => ?_⟩
  rw [hn]
  have hQ := hQ Q hE
  have hcol : ∀ (P : ℕ → ℕ → ℝ), (∀ j k, 0 ≤ P j k) → (∀ k, ∑ j ∈ Finset.range n, P j k ≤ 1) →
      ∀ k < n, ∏ j ∈ Finset.range n, P j k ^ moves f.labels k j ≤
        ∏ j ∈ Finset.range n, Q j k ^ moves f.labels k j ∧
      (∏ j ∈ Finset.range n, P j k ^ moves f.labels k j =
        ∏ j ∈ Finset.range n, Q j k ^ moves f.labels k j → 0 < visits f.labels k →
        ∀ j < n, P j k = Q j k) ∧ 0 < ∏ j ∈ Finset.range n, Q j k ^ moves f.labels k j := by
    intro P hP hs k hk
    rcases Nat.eq_zero_or_pos (visits f.labels k) with h0 | h0
    · have hm : ∀ j, moves f.labels k j = 0 := fun j =>
        Nat.le_zero.1 (h0 ▸ moves_le_visits f.labels k j)
      simp only [hm, pow_zero, Finset.prod_const_one, le_refl, true_and, one_pos, and_true]
      intro _ h1
      omega
    · have hsum : ∑ j ∈ Finset.range n, moves f.labels k j = visits f.labels k := by
        rw [Finset.sum_range]
        exact sum_moves f.labels n k hlab
      obtain ⟨h1, h2, h3⟩ := gibbs (fun j => moves f.labels k j) (visits f.labels k) hsum
        (fun j => P j k) (fun j => Q j k) (fun j hj => hQ j hj k hk) h0 (fun j _ => hP j k) (hs k)
      exact ⟨h1, fun h _ => h2 h, h3⟩
  have hpos : 0 < pathProb Q f.labels := by
    rw [pathProb_eq Q n f.labels hlab]
    exact Finset.prod_pos fun k hk => (hcol 0 (fun _ _ => le_refl 0) (fun k => by simp) k
      (Finset.mem_range.1 hk)).2.2
  refine ⟨hpos, fun P hP hs => ?_⟩
  rw [pathProb_eq P n f.labels hlab, pathProb_eq Q n f.labels hlab]
  have hnn : ∀ k ∈ Finset.range n, 0 ≤ ∏ j ∈ Finset.range n, P j k ^ moves f.labels k j :=
    fun k _ => Finset.prod_nonneg fun j _ => pow_nonneg (hP j k) _
  refine ⟨Finset.prod_le_prod hnn fun k hk => (hcol P hP hs k (Finset.mem_range.1 hk)).1,
    fun heq j hj k hk hv => ?_⟩
  obtain ⟨h1, h2, -⟩ := hcol P hP hs k hk
  refine h2 (le_antisymm h1 ?_) hv j hj
  by_contra hlt
  have hPpos : ∀ k ∈ Finset.range n, 0 < ∏ j ∈ Finset.range n, P j k ^ moves f.labels k j := by
    intro k hk
    refine lt_of_le_of_ne (hnn k hk) fun h0 => ?_
    rw [pathProb_eq Q n f.labels hlab, ← heq, Finset.prod_eq_zero hk h0.symm] at hpos
    exact lt_irrefl _ hpos
  exact absurd heq (ne_of_lt (Finset.prod_lt_prod hPpos
    (fun k hk => (hcol P hP hs k (Finset.mem_range.1 hk)).1)
    ⟨k, Finset.mem_range.2 hk, not_le.1 hlt⟩))

/-- C117: one step of the fitted chain takes the frequencies of the labels, the last sample left out,
to those with the first sample left out; if the first and the last label agree, these frequencies are
stationary. -/
theorem C117_label_frequencies_balance (hl : lib.Lawful) {obj obj' : KMCrom lib}
    {X : Arr2 ℝ} {w : lib.Weights} (h : obj.fit X w = Py.ok obj') :
    ∃ f, obj'.fitted = some f ∧ ∀ Q, f.Entries Q → ∀ j < f.clusterCenters.rows,
      ∑ k ∈ Finset.range f.clusterCenters.rows, Q j k * visits f.labels k = arrivals f.labels j ∧
      (f.labels.head? = f.labels.getLast? →
        ∑ k ∈ Finset.range f.clusterCenters.rows, Q j k * visits f.labels k = visits f.labels j) := by
  obtain ⟨f, n, hf, hn, hlab, hQ⟩ := entries_mul_visits hl h
  refine ⟨f, hf, fun Q hE j hj => ?_⟩
  rw [hn] at hj ⊢
  have h1 : ∑ k ∈ Finset.range n, Q j k * visits f.labels k = arrivals f.labels j := by
    rw [← sum_moves_to f.labels n j hlab, Nat.cast_sum]
    exact Finset.sum_congr rfl fun k hk => hQ Q hE j hj k (Finset.mem_range.1 hk)
  refine ⟨h1, fun he => ?_⟩
  have h2 := visits_add_last f.labels j
  rw [he] at h2
  rw [h1]
  exact_mod_cast (Nat.add_right_cancel h2).symm

/-! ### A concrete case

Two clusters: samples below and above zero. -/

/-- Labels by the sign of the sum of the features. -/
noncomputable def signLabels (X : Arr2 ℝ) : List ℕ :=
  (List.finRange X.rows).map fun i => if 0 < ∑ d : Fin X.cols, X.val i d then 1 else 0

/-- The number of clusters must be 2. -/
noncomputable def signAssign (n : NumArg ℝ) (X : Arr2 ℝ) : Py (List ℕ) :=
  match n with
  | .int 2 => Py.ok (signLabels X)
  | _ => Py.raise .valueError

/-- A clustering library following `signLabels`. -/
noncomputable def signKM : KMeansLib ℝ where
  Obj := NumArg ℝ × List ℕ
  Kwargs := Unit
  Weights := Unit
  new := fun n _ => (n, [])
  fit := fun km X _ => signAssign km.1 X >>= fun l => Py.ok (km.1, l)
  fitPredict := fun km X _ => signAssign km.1 X >>= fun l => Py.ok ((km.1, l), l)
  fitTransform := fun km X _ => signAssign km.1 X >>= fun l =>
    Py.ok ((km.1, l), ⟨X.rows, 2, fun _ _ => 0⟩)
  predict := fun km X _ => signAssign km.1 X
  transform := fun _ X => Py.ok ⟨X.rows, 2, fun _ _ => 0⟩
  centers := fun _ => ⟨2, 1, fun i _ => if (i : ℕ) = 0 then -1 else 1⟩
  labels := fun km => km.2
  inertia := fun _ => 0
  nIter := fun _ => 1

theorem signAssign_eq_ok {n : NumArg ℝ} {X : Arr2 ℝ} {l : List ℕ} (h : signAssign n X = Py.ok l) :
    n = .int 2 ∧ l = signLabels X := by
  unfold signAssign at h
  split at h
  · exact ⟨rfl, (Py.ok.inj h).symm⟩
  · cases h

theorem signLabels_lt (X : Arr2 ℝ) : ∀ l ∈ signLabels X, l < 2 := by
  intro l hl
  obtain ⟨i, -, rfl⟩ := List.mem_map.1 hl
  split <;> omega

theorem signKM_lawful : signKM.Lawful where
  fit_clusters := by
    intro n kw X w km h
    obtain ⟨l, hl, hr⟩ := Py.bind_eq_ok.1 h
    exact ⟨2, (signAssign_eq_ok hl).1, by omega, rfl⟩
  fit_length := by
    intro km X w km' h
    obtain ⟨l, hl, hr⟩ := Py.bind_eq_ok.1 h
    have hr' := Py.ok.inj hr
    subst hr'
    obtain ⟨-, rfl⟩ := signAssign_eq_ok hl
    change (signLabels X).length = _
    simp [signLabels]
  fit_labels := by
    intro km X w km' h
    obtain ⟨l, hl, hr⟩ := Py.bind_eq_ok.1 h
    have hr' := Py.ok.inj hr
    subst hr'
    obtain ⟨-, rfl⟩ := signAssign_eq_ok hl
    exact signLabels_lt X
  refit_predict := fun _ _ _ _ _ => rfl
  refit_transform := fun _ _ _ _ _ => rfl
  predict_length := by
    intro km X w l h
    obtain ⟨-, rfl⟩ := signAssign_eq_ok h
    simp [signLabels]
  predict_labels := by
    intro km X w l h
    obtain ⟨-, rfl⟩ := signAssign_eq_ok h
    exact signLabels_lt X

/-- C117: the series -1, 2, 3, -1 has the labels 0, 1, 1, 0, whose first and last agree, and the most
likely transition probabilities are 1 from 0 to 1, and one half each from 1. -/
example : ∃ obj' f, (⟨.int 2, (), none⟩ : KMCrom signKM).fit ⟨4, 1, fun i _ => ![-1, 2, 3, -1] i⟩ () =
      Py.ok obj' ∧ obj'.fitted = some f ∧ f.labels = [0, 1, 1, 0] ∧
      f.Entries (fun j k => if k = 0 then (if j = 1 then 1 else 0) else 1 / 2) := by
  have hlab : signLabels ⟨4, 1, fun i _ => ![-1, 2, 3, -1] i⟩ = [0, 1, 1, 0] := by
    simp [signLabels, List.finRange_succ]
  refine ⟨_, fittedOf (lib := signKM) ((.int 2, [0, 1, 1, 0]) : NumArg ℝ × List ℕ),
    KMCrom.fit_of_ok (km := ((.int 2, [0, 1, 1, 0]) : NumArg ℝ × List ℕ)) ?_, rfl, rfl, ?_⟩
  · rw [← hlab]
    rfl
  · intro (j : Fin 2) (k : Fin 2) _
    refine (transitionEntry_eq [0, 1, 1, 0] j k).trans ?_
    have hm : ∀ j k : Fin 2, moves [0, 1, 1, 0] k j = if (k : ℕ) = 0 ∧ (j : ℕ) = 0 then 0 else 1 := by
      decide
    have hv : ∀ k : Fin 2, visits [0, 1, 1, 0] k = (k : ℕ) + 1 := by decide
    rw [hm, hv]
    unfold countRatio
    fin_cases j <;> fin_cases k <;> norm_num

end Reor
