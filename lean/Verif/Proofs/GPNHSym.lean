import Verif.Proofs.GPNHFit
import Verif.Proofs.KernelAASym

/-!
Two GPNH fits side by side: the second data set is the first one rotated, translated and with its
samples relabelled; the dictionary is moved in the same way and its elements are relabelled.
-/

namespace Reor

set_option linter.unusedSectionVars false

open scoped BigOperators Matrix
open Spec

variable {K : Type} [Field K] [LinearOrder K] [IsStrictOrderedRing K]
variable {T D k : ℕ}

/-! ### Relabelling -/

theorem centring_submatrix (ρ : Equiv.Perm (Fin k)) :
    (centring k : Matrix (Fin k) (Fin k) K).submatrix ρ ρ = centring k := by
  ext i j
  simp [centring]

theorem gpnhCost_submatrix (eps : K) (π : Equiv.Perm (Fin T)) (ρ : Equiv.Perm (Fin k))
    (X : Matrix (Fin T) (Fin D) K) (W : Matrix (Fin T) (Fin k) K) (S : Matrix (Fin k) (Fin D) K) :
    gpnhCost eps (X.submatrix π (1 : Equiv.Perm (Fin D))) (W.submatrix π ρ)
      (S.submatrix ρ (1 : Equiv.Perm (Fin D))) = gpnhCost eps X W S := by
  have e1 : X.submatrix π (1 : Equiv.Perm (Fin D)) -
      W.submatrix π ρ * S.submatrix ρ (1 : Equiv.Perm (Fin D)) =
        (X - W * S).submatrix π (1 : Equiv.Perm (Fin D)) := by
    rw [Matrix.submatrix_mul_equiv]; rfl
  have e2 : centring k * S.submatrix ρ (1 : Equiv.Perm (Fin D)) =
      (centring k * S).submatrix ρ (1 : Equiv.Perm (Fin D)) := by
    conv_lhs => rw [← centring_submatrix ρ]
    rw [Matrix.submatrix_mul_equiv]
  rw [gpnhCost_eq, gpnhCost_eq, e1, e2, frobSq_eq_inner, inner_submatrix, inner_submatrix,
    ← frobSq_eq_inner]

theorem gradSOf_submatrix (eps : K) (π : Equiv.Perm (Fin T)) (ρ : Equiv.Perm (Fin k))
    (X : Matrix (Fin T) (Fin D) K) (W : Matrix (Fin T) (Fin k) K) (S : Matrix (Fin k) (Fin D) K) :
    gradSOf eps (X.submatrix π (1 : Equiv.Perm (Fin D))) (W.submatrix π ρ)
      (S.submatrix ρ (1 : Equiv.Perm (Fin D))) =
        (gradSOf eps X W S).submatrix ρ (1 : Equiv.Perm (Fin D)) := by
  have e2 : centring k * S.submatrix ρ (1 : Equiv.Perm (Fin D)) =
      (centring k * S).submatrix ρ (1 : Equiv.Perm (Fin D)) := by
    conv_lhs => rw [← centring_submatrix ρ]
    rw [Matrix.submatrix_mul_equiv]
  unfold gradSOf
  simp only [e2, Matrix.transpose_submatrix, Matrix.submatrix_mul_equiv]
  rfl

theorem gradWOf_submatrix (π : Equiv.Perm (Fin T)) (ρ : Equiv.Perm (Fin k))
    (X : Matrix (Fin T) (Fin D) K) (W : Matrix (Fin T) (Fin k) K) (S : Matrix (Fin k) (Fin D) K) :
    gradWOf (X.submatrix π (1 : Equiv.Perm (Fin D))) (W.submatrix π ρ)
      (S.submatrix ρ (1 : Equiv.Perm (Fin D))) = (gradWOf X W S).submatrix π ρ := by
  unfold gradWOf
  simp only [Matrix.transpose_submatrix, Matrix.submatrix_mul_equiv]
  rfl

/-! ### Rotating and translating -/

/-- The rows of `M` rotated by `Q` and translated by `b`. -/
def moveRows {m : ℕ} (Q : Matrix (Fin D) (Fin D) K) (b : Fin D → K) (M : Matrix (Fin m) (Fin D) K) :
    Matrix (Fin m) (Fin D) K := M * Q + Matrix.vecMulVec 1 b

theorem moveRows_apply {m : ℕ} (Q : Matrix (Fin D) (Fin D) K) (b : Fin D → K)
    (M : Matrix (Fin m) (Fin D) K) (i : Fin m) (d : Fin D) :
    moveRows Q b M i d = (M * Q) i d + b d := by
  simp [moveRows]

theorem inner_rotate {m : ℕ} {Q : Matrix (Fin D) (Fin D) K} (hQ : Q * Qᵀ = 1)
    (M N : Matrix (Fin m) (Fin D) K) : inner (M * Q) (N * Q) = inner M N := by
  rw [inner_mul_right, Matrix.mul_assoc, hQ, Matrix.mul_one]

/-- There is no translation, or the rows of the weights have sum 1. -/
def SumsW (b : Fin D → K) (W : Matrix (Fin T) (Fin k) K) : Prop := b = 0 ∨ ∀ i, ∑ a, W i a = 1

theorem SumsW.mul {b : Fin D → K} {W : Matrix (Fin T) (Fin k) K} (h : SumsW b W) :
    W * Matrix.vecMulVec 1 b = Matrix.vecMulVec (1 : Fin T → K) b := by
  rcases h with rfl | h
  · simp
  · rw [Matrix.mul_vecMulVec]
    congr 1
    ext i
    simp [Matrix.mulVec, dotProduct, h]

theorem SumsW.residual {b : Fin D → K} {W : Matrix (Fin T) (Fin k) K} (h : SumsW b W)
    (Q : Matrix (Fin D) (Fin D) K) (X : Matrix (Fin T) (Fin D) K) (S : Matrix (Fin k) (Fin D) K) :
    moveRows Q b X - W * moveRows Q b S = (X - W * S) * Q := by
  unfold moveRows
  rw [Matrix.mul_add, h.mul, Matrix.sub_mul, Matrix.mul_assoc]
  abel

theorem centring_mul_move (Q : Matrix (Fin D) (Fin D) K) (b : Fin D → K)
    (S : Matrix (Fin k) (Fin D) K) :
    (centring k : Matrix (Fin k) (Fin k) K) * moveRows Q b S = centring k * S * Q := by
  have e : (centring k : Matrix (Fin k) (Fin k) K) * Matrix.vecMulVec (1 : Fin k → K) b = 0 := by
    ext i d
    rw [centring_mul_apply]
    simp [Matrix.vecMulVec_apply]
  unfold moveRows
  rw [Matrix.mul_add, e, add_zero, Matrix.mul_assoc]

theorem gpnhCost_move (eps : K) {Q : Matrix (Fin D) (Fin D) K} (hQ : Q * Qᵀ = 1) {b : Fin D → K}
    {W : Matrix (Fin T) (Fin k) K} (h : SumsW b W) (X : Matrix (Fin T) (Fin D) K)
    (S : Matrix (Fin k) (Fin D) K) :
    gpnhCost eps (moveRows Q b X) W (moveRows Q b S) = gpnhCost eps X W S := by
  have e1 : inner (centring k * moveRows Q b S) (moveRows Q b S) = inner (centring k * S) S := by
    rw [centring_mul_move, Matrix.mul_assoc, inner_centring_comm, centring_mul_move,
      inner_rotate hQ]
  rw [gpnhCost_eq, gpnhCost_eq, h.residual, e1, frobSq_eq_inner, inner_rotate hQ, ← frobSq_eq_inner]

theorem gradSOf_move (eps : K) {Q : Matrix (Fin D) (Fin D) K} {b : Fin D → K}
    {W : Matrix (Fin T) (Fin k) K} (h : SumsW b W) (X : Matrix (Fin T) (Fin D) K)
    (S : Matrix (Fin k) (Fin D) K) :
    gradSOf eps (moveRows Q b X) W (moveRows Q b S) = gradSOf eps X W S * Q := by
  have e : ∀ (X : Matrix (Fin T) (Fin D) K) (S : Matrix (Fin k) (Fin D) K), gradSOf eps X W S =
      (4 * eps / ((k : K) * ((k : K) - 1) * (D : K))) • (centring k * S) +
        (-2 / ((D : K) * (T : K))) • (Wᵀ * (X - W * S)) := by
    intro X S
    unfold gradSOf
    rw [Matrix.mul_sub, smul_sub, ← Matrix.mul_assoc, add_assoc, neg_div, neg_smul, neg_smul]
    abel
  rw [e, e, h.residual, centring_mul_move, Matrix.add_mul, Matrix.smul_mul, Matrix.smul_mul,
    ← Matrix.mul_assoc Wᵀ]

theorem gradWOf_move {Q : Matrix (Fin D) (Fin D) K} (hQ : Q * Qᵀ = 1) {b : Fin D → K}
    {W : Matrix (Fin T) (Fin k) K} (h : SumsW b W) (X : Matrix (Fin T) (Fin D) K)
    (S : Matrix (Fin k) (Fin D) K) :
    ∃ c : Fin T → K, (b = 0 → c = 0) ∧
      gradWOf (moveRows Q b X) W (moveRows Q b S) = fun i a => gradWOf X W S i a + c i := by
  have e : ∀ (X : Matrix (Fin T) (Fin D) K) (S : Matrix (Fin k) (Fin D) K), gradWOf X W S =
      (-2 / ((D : K) * (T : K))) • ((X - W * S) * Sᵀ) := by
    intro X S
    unfold gradWOf
    rw [Matrix.sub_mul, smul_sub, Matrix.mul_assoc, neg_div, neg_smul, neg_smul]
    abel
  have e2 : (X - W * S) * Q * (moveRows Q b S)ᵀ =
      (X - W * S) * Sᵀ + Matrix.vecMulVec (((X - W * S) * Q) *ᵥ b) 1 := by
    unfold moveRows
    rw [Matrix.transpose_add, Matrix.transpose_mul, Matrix.transpose_vecMulVec, Matrix.mul_add,
      Matrix.mul_vecMulVec, ← Matrix.mul_assoc ((X - W * S) * Q), Matrix.mul_assoc (X - W * S) Q,
      hQ, Matrix.mul_one]
  refine ⟨fun i => (-2 / ((D : K) * (T : K))) * (((X - W * S) * Q) *ᵥ b) i, ?_, ?_⟩
  · rintro rfl
    ext i
    simp
  · rw [e, e, h.residual, e2]
    ext i a
    simp only [Matrix.smul_apply, Matrix.add_apply, Matrix.vecMulVec_apply, smul_eq_mul,
      Pi.one_apply]
    ring

/-! ### Both together -/

section

variable {π : Equiv.Perm (Fin T)} {ρ : Equiv.Perm (Fin k)} {Q : Matrix (Fin D) (Fin D) K}
  {b : Fin D → K} {X X' : Matrix (Fin T) (Fin D) K} {W W' : Matrix (Fin T) (Fin k) K}
  {S S' : Matrix (Fin k) (Fin D) K}

/-- `M'` is `M` moved, with the rows relabelled. -/
def Moved {m : ℕ} (π : Equiv.Perm (Fin m)) (Q : Matrix (Fin D) (Fin D) K) (b : Fin D → K)
    (M M' : Matrix (Fin m) (Fin D) K) : Prop :=
  M'.submatrix π (1 : Equiv.Perm (Fin D)) = moveRows Q b M

theorem gpnhCost_rel (hQ : Q * Qᵀ = 1) (hX : Moved π Q b X X') (hW : W'.submatrix π ρ = W)
    (hS : Moved ρ Q b S S') (h : SumsW b W) (eps : K) :
    gpnhCost eps X' W' S' = gpnhCost eps X W S := by
  rw [← gpnhCost_submatrix eps π ρ, hX, hW, hS, gpnhCost_move eps hQ h]

theorem gradSOf_rel (hX : Moved π Q b X X') (hW : W'.submatrix π ρ = W)
    (hS : Moved ρ Q b S S') (h : SumsW b W) (eps : K) :
    Moved ρ Q 0 (gradSOf eps X W S) (gradSOf eps X' W' S') := by
  unfold Moved
  rw [← gradSOf_submatrix eps π ρ, hX, hW, hS, gradSOf_move eps h]
  simp [moveRows]

theorem gradWOf_rel (hQ : Q * Qᵀ = 1) (hX : Moved π Q b X X') (hW : W'.submatrix π ρ = W)
    (hS : Moved ρ Q b S S') (h : SumsW b W) :
    ∃ c : Fin T → K, (b = 0 → c = 0) ∧
      (gradWOf X' W' S').submatrix π ρ = fun i a => gradWOf X W S i a + c i := by
  rw [← gradWOf_submatrix π ρ, hX, hW, hS]
  exact gradWOf_move hQ h X S

theorem SumsW.move (h : SumsW b W) (M : Matrix (Fin T) (Fin k) K) (x : K) :
    SumsW b (W + x • (simplexProjectRows M - W)) :=
  h.imp id fun h => move_sum h (projectedStep_sum h M) x

theorem Moved.step {G G' : Matrix (Fin k) (Fin D) K} (hS : Moved ρ Q b S S') (hG : Moved ρ Q 0 G G')
    (x : K) : Moved ρ Q b (S + x • G) (S' + x • G') := by
  unfold Moved at *
  have e : (S' + x • G').submatrix ρ (1 : Equiv.Perm (Fin D)) =
      S'.submatrix ρ (1 : Equiv.Perm (Fin D)) + x • G'.submatrix ρ (1 : Equiv.Perm (Fin D)) := rfl
  rw [e, hS, hG]
  unfold moveRows
  have e0 : Matrix.vecMulVec (1 : Fin k → K) (0 : Fin D → K) = 0 := by ext; simp
  rw [Matrix.add_mul, Matrix.smul_mul, e0, add_zero]
  abel

theorem Moved.smul {G G' : Matrix (Fin k) (Fin D) K} (hG : Moved ρ Q 0 G G')
    (x : K) : Moved ρ Q 0 (x • G) (x • G') := by
  have h0 : Moved ρ Q 0 (0 : Matrix (Fin k) (Fin D) K) 0 := by
    unfold Moved moveRows
    simp
  simpa using h0.step hG x

theorem Moved.inner {G G' H H' : Matrix (Fin k) (Fin D) K} (hQ : Q * Qᵀ = 1)
    (hG : Moved ρ Q 0 G G') (hH : Moved ρ Q 0 H H') : Spec.inner G' H' = Spec.inner G H := by
  rw [← inner_submatrix ρ (1 : Equiv.Perm (Fin D)), hG, hH]
  simp [moveRows, inner_rotate hQ]

end

namespace GPNHState

variable {π : Equiv.Perm (Fin T)} {ρ : Equiv.Perm (Fin k)} {Q : Matrix (Fin D) (Fin D) K}
  {b : Fin D → K}

/-- The state of the second fit is that of the first one moved and relabelled. -/
structure SymRel (π : Equiv.Perm (Fin T)) (ρ : Equiv.Perm (Fin k)) (Q : Matrix (Fin D) (Fin D) K)
    (b : Fin D → K) (s t : GPNHState T D k K) : Prop where
  SStS : s.SSt = s.S * s.Sᵀ
  SStT : t.SSt = t.S * t.Sᵀ
  X : Moved π Q b s.X t.X
  Gamma : t.Gamma.submatrix π ρ = s.Gamma
  S : Moved ρ Q b s.S t.S
  sums : SumsW b s.Gamma
  alphaS : t.alphaS = s.alphaS
  alphaGamma : t.alphaGamma = s.alphaGamma
  fSMem : t.fSMem = s.fSMem
  fGammaMem : t.fGammaMem = s.fGammaMem

theorem updateWeights_sym (hQ : Q * Qᵀ = 1) {cfg : LSConfig K} {eps : K}
    {s t : GPNHState T D k K} (h : SymRel π ρ Q b s t) :
    PyRel (SymRel π ρ Q b) (s.updateWeights cfg eps) (t.updateWeights cfg eps) := by
  obtain ⟨hs, ht, eX, eW, eS, hsums, aS, aG, mS, mG⟩ := h
  obtain ⟨c, hc0, hc⟩ := gradWOf_rel hQ eX eW eS hsums
  have hinc := projectedStep_rel eW hc s.alphaGamma
  have hsum := hsums.imp id fun h =>
    projectedStep_sum h (s.Gamma - s.alphaGamma • gradWOf s.X s.Gamma s.S)
  unfold updateWeights weightsLineSearch
  simp only [prepareWeights_eq, aG, mG, Py.bind_assoc, Py.pure_eq, Py.ok_bind]
  rw [evaluateCost_eq _ _ rfl, evaluateCost_eq _ _ rfl]
  simp only [mulSum_eq_inner]
  rw [gpnhCost_rel hQ eX eW eS hsums, inner_rel (hsum.imp hc0 id) hinc hc]
  refine (lineSearch_retry (weightsTrial_retriable eps) (weightsTrial_retriable eps)
    fun x => ?_).bind ?_
  · simp only [weightsTrial]
    rw [evaluateCost_eq _ _ rfl, evaluateCost_eq _ _ rfl]
    exact (gpnhCost_rel hQ eX (submatrix_move eW hinc x) eS (hsums.move _ x) eps).symm
  · rintro ⟨m1, l1, s1, c1, n1⟩ ⟨m2, l2, s2, c2, n2⟩ ⟨h1, h2, h3, h4⟩
    simp only at h1 h2 h3 h4
    subst h1; subst h2; subst h3; subst h4
    have eW' := submatrix_move eW hinc l1
    have sW' := hsums.move (s.Gamma - s.alphaGamma • gradWOf s.X s.Gamma s.S) l1
    obtain ⟨c', hc0', hc'⟩ := gradWOf_rel hQ eX eW' eS sW'
    have hd := sub_rel hc' hc
    simp only [PyRel, weightsTrial]
    refine ⟨rfl, rfl, eX, eW', eS, sW', aS, ?_, mS, rfl⟩
    rw [gradGamma_update _ rfl rfl, gradGamma_update _ rfl rfl]
    simp only [updateWeightsGradient]
    rw [inner_rel (hsum.imp (fun h => by rw [hc0 h, hc0' h]; exact sub_self _) id) hinc hd,
      inner_rel0 hinc hinc]

theorem updateDictionary_sym (hQ : Q * Qᵀ = 1) {cfg : LSConfig K} {eps : K}
    {s t : GPNHState T D k K} (h : SymRel π ρ Q b s t) :
    PyRel (SymRel π ρ Q b) (s.updateDictionary cfg eps) (t.updateDictionary cfg eps) := by
  obtain ⟨hs, ht, eX, eW, eS, hsums, aS, aG, mS, mG⟩ := h
  have hc := gradSOf_rel eX eW eS hsums eps
  have hinc : Moved ρ Q 0 (-(s.alphaS • gradSOf eps s.X s.Gamma s.S))
      (-(s.alphaS • gradSOf eps t.X t.Gamma t.S)) := by
    have := hc.smul (-s.alphaS)
    simpa using this
  unfold updateDictionary dictionaryLineSearch
  simp only [prepareDictionary_eq, aS, mS, Py.bind_assoc, Py.pure_eq, Py.ok_bind]
  rw [evaluateCost_eq _ _ rfl, evaluateCost_eq _ _ rfl]
  simp only [mulSum_eq_inner]
  rw [gpnhCost_rel hQ eX eW eS hsums, hinc.inner hQ hc]
  refine (lineSearch_retry (dictionaryTrial_retriable eps) (dictionaryTrial_retriable eps)
    fun x => ?_).bind ?_
  · simp only [dictionaryTrial]
    rw [evaluateCost_eq _ _ rfl, evaluateCost_eq _ _ rfl]
    exact (gpnhCost_rel hQ eX eW (eS.step hinc x) hsums eps).symm
  · rintro ⟨m1, l1, s1, c1, n1⟩ ⟨m2, l2, s2, c2, n2⟩ ⟨h1, h2, h3, h4⟩
    simp only at h1 h2 h3 h4
    subst h1; subst h2; subst h3; subst h4
    have eS' := eS.step hinc l1
    have hc' := gradSOf_rel eX eW eS' hsums eps
    have hd := hc'.step hc (-1)
    rw [neg_one_smul, neg_one_smul, ← sub_eq_add_neg, ← sub_eq_add_neg] at hd
    simp only [PyRel]
    rw [updateDictionaryGradient_eq, gradS_update _ _ rfl rfl]
    conv => arg 6; rw [updateDictionaryGradient_eq, gradS_update _ _ rfl rfl]
    simp only [dictionaryTrial]
    refine ⟨rfl, rfl, eX, eW, eS', hsums, ?_, aG, rfl, mG⟩
    simp only
    rw [hinc.inner hQ hd, hinc.inner hQ hinc]

end GPNHState

theorem gpnhIterate_sym {π : Equiv.Perm (Fin T)} {ρ : Equiv.Perm (Fin k)}
    {Q : Matrix (Fin D) (Fin D) K} {b : Fin D → K} (hQ : Q * Qᵀ = 1) {cfg : LSConfig K} {eps : K}
    {require : Bool} {tol : K} {maxIter : ℕ} {ud uw : Bool} {s t : GPNHState T D k K}
    (h : GPNHState.SymRel π ρ Q b s t) :
    PyRel (fun r r' => GPNHState.SymRel π ρ Q b r.state r'.state ∧ r.cost = r'.cost ∧
        r.nIter = r'.nIter ∧ r.trace = r'.trace)
      (gpnhIterate cfg eps require tol maxIter ud uw s)
      (gpnhIterate cfg eps require tol maxIter ud uw t) := by
  unfold gpnhIterate
  by_cases h0 : D * T = 0
  · rw [if_pos h0, if_pos h0]
    rfl
  · rw [if_neg h0, if_neg h0]
    refine iterate_rel (R := GPNHState.SymRel π ρ Q b) ?_ ?_ h
    · intro s t hst
      refine ⟨hst, ?_⟩
      rw [GPNHState.evaluateCost_eq _ _ hst.SStS, GPNHState.evaluateCost_eq _ _ hst.SStT]
      exact (gpnhCost_rel hQ hst.X hst.Gamma hst.S hst.sums eps).symm
    · cases ud <;> cases uw <;> simp only [Bool.false_eq_true, if_false, if_true, List.nil_append,
        List.append_nil, List.singleton_append, List.forall₂_cons, List.forall₂_nil_left_iff, and_true]
      · exact fun s t h => GPNHState.updateWeights_sym hQ h
      · exact fun s t h => GPNHState.updateDictionary_sym hQ h
      · exact ⟨fun s t h => GPNHState.updateDictionary_sym hQ h,
          fun s t h => GPNHState.updateWeights_sym hQ h⟩

/-! ### Starts -/

/-- Two dictionaries handed to a fit: none at all, or the second is the first one moved. -/
def MovedArg (Q : Matrix (Fin D) (Fin D) K) (b : Fin D → K) (d d' : Option (Arr2 K)) : Prop :=
  (d = none ∧ d' = none) ∨ ∃ (m : ℕ) (C C' : Matrix (Fin m) (Fin D) K),
    d = some (Arr2.of C) ∧ d' = some (Arr2.of C') ∧ ∀ i j, C' i j = (C * Q) i j + b j

theorem moved_one_iff {m : ℕ} {Q : Matrix (Fin D) (Fin D) K} {b : Fin D → K}
    {M M' : Matrix (Fin m) (Fin D) K} :
    Moved 1 Q b M M' ↔ ∀ i j, M' i j = (M * Q) i j + b j := by
  unfold Moved
  rw [submatrix_eq_iff]
  simp only [moveRows_apply, Equiv.Perm.coe_one, id_eq]

theorem gpnhCheckInitDictionary_of {m p : ℕ} (S : Matrix (Fin m) (Fin p) K) :
    gpnhCheckInitDictionary (some (Arr2.of S)) m p =
      if m = 0 ∨ p = 0 then Py.raise .valueError else Py.ok S := by
  unfold gpnhCheckInitDictionary checkArray
  have e2 : checkArrayShape (Arr2.of S) m p = Py.ok S := by
    unfold checkArrayShape
    exact dif_pos ⟨rfl, rfl⟩
  by_cases h : m = 0 ∨ p = 0
  · rw [if_pos h]
    have e : (if (Arr2.of S).rows = 0 ∨ (Arr2.of S).cols = 0 then
        (Py.raise .valueError : Py (Arr2 K)) else Py.ok (Arr2.of S)) = Py.raise .valueError :=
      if_pos h
    simp only [e, Py.raise_bind]
  · rw [if_neg h]
    have e : (if (Arr2.of S).rows = 0 ∨ (Arr2.of S).cols = 0 then
        (Py.raise .valueError : Py (Arr2 K)) else Py.ok (Arr2.of S)) = Py.ok (Arr2.of S) := if_neg h
    simp only [e, Py.ok_bind, e2]

theorem gpnhCheckInitDictionary_mismatch {m p m' p' : ℕ} (S : Matrix (Fin m) (Fin p) K)
    (h : ¬ (m = m' ∧ p = p')) :
    gpnhCheckInitDictionary (some (Arr2.of S)) m' p' = Py.raise .valueError := by
  unfold gpnhCheckInitDictionary checkArray
  have e2 : checkArrayShape (Arr2.of S) m' p' = Py.raise .valueError := by
    unfold checkArrayShape
    exact dif_neg h
  by_cases h0 : (Arr2.of S).rows = 0 ∨ (Arr2.of S).cols = 0
  · simp only [if_pos h0, Py.raise_bind]
  · simp only [if_neg h0, Py.ok_bind, e2]

theorem gpnhCheckInitDictionary_moved {Q : Matrix (Fin D) (Fin D) K} {b : Fin D → K}
    {d d' : Option (Arr2 K)} (h : MovedArg Q b d d') (k : ℕ) :
    PyRel (Moved 1 Q b) (gpnhCheckInitDictionary d k D) (gpnhCheckInitDictionary d' k D) := by
  rcases h with ⟨rfl, rfl⟩ | ⟨m, C, C', rfl, rfl, h⟩
  · rfl
  · by_cases hm : m = k
    · subst hm
      rw [gpnhCheckInitDictionary_of, gpnhCheckInitDictionary_of]
      split_ifs
      · rfl
      · exact moved_one_iff.2 h
    · rw [gpnhCheckInitDictionary_mismatch _ fun h => hm h.1,
        gpnhCheckInitDictionary_mismatch _ fun h => hm h.1]
      rfl

theorem gram_moved {Q : Matrix (Fin D) (Fin D) K} (hQ : Q * Qᵀ = 1) {b : Fin D → K}
    {X Y : Matrix (Fin T) (Fin D) K} (h : Moved 1 Q b X Y) :
    ∃ u, Y * Yᵀ = shiftKernel (X * Xᵀ) u := by
  have h' := moved_one_iff.1 h
  refine ⟨fun i => ∑ l, (X * Q) i l * b l + (∑ l, b l ^ 2) / 2, ?_⟩
  have e1 : X * Xᵀ = (X * Q) * (X * Q)ᵀ := by
    rw [Matrix.transpose_mul, Matrix.mul_assoc, ← Matrix.mul_assoc Q, hQ, Matrix.one_mul]
  rw [e1]
  generalize hZ : X * Q = Z at h'
  ext i j
  unfold shiftKernel
  rw [Matrix.mul_apply, Matrix.mul_apply]
  simp only [Matrix.transpose_apply, h']
  have e2 : ∀ l, (Z i l + b l) * (Z j l + b l) =
      Z i l * Z j l + (Z i l * b l + Z j l * b l) + b l ^ 2 := by intro l; ring
  simp only [e2, Finset.sum_add_distrib]
  ring

theorem gpnhInitDictionaryFurthestSum_moved (env : Env K) {Q : Matrix (Fin D) (Fin D) K}
    (hQ : Q * Qᵀ = 1) {b : Fin D → K} {X Y : Matrix (Fin T) (Fin D) K} (h : Moved 1 Q b X Y) (k : ℕ)
    (kw : InitKwargs) (g : env.rng.G) :
    PyRel (fun a a' => Moved 1 Q b a.1 a'.1 ∧ a'.2 = a.2)
      (gpnhInitDictionaryFurthestSum env X k kw g)
      (gpnhInitDictionaryFurthestSum env Y k kw g) := by
  obtain ⟨u, hu⟩ := gram_moved hQ h
  unfold gpnhInitDictionaryFurthestSum
  have e : furthestSumRows env (Y * Yᵀ) k kw g = furthestSumRows env (X * Xᵀ) k kw g := by
    unfold furthestSumRows
    rw [hu, dissimilarities_shift]
  simp only [e]
  refine PyRel.bind_same fun r => ?_
  refine ⟨moved_one_iff.2 fun i j => ?_, rfl⟩
  exact moved_one_iff.1 h (r.1 i) j

theorem gpnhStart_moved (env : Env K) {Q : Matrix (Fin D) (Fin D) K}
    (hQ : Q * Qᵀ = 1) {b : Fin D → K} {X Y : Matrix (Fin T) (Fin D) K} (h : Moved 1 Q b X Y) (k : ℕ)
    {init : Option String} {d d' : Option (Arr2 K)} (hd : MovedArg Q b d d')
    (weights : Option (Arr2 K)) (ud uw : Bool)
    (hinit : init = some "custom" ∨ init = some "furthest_sum" ∨ (ud = false ∧ uw = true))
    (kw : InitKwargs) (g : env.rng.G) :
    PyRel (fun a a' => Moved 1 Q b a.1.1 a'.1.1 ∧ a'.1.2 = a.1.2 ∧ a'.2 = a.2)
      (gpnhStart env X k init d weights ud uw kw g)
      (gpnhStart env Y k init d' weights ud uw kw g) := by
  unfold gpnhStart
  by_cases h1 : init = some "custom"
  · rw [if_pos h1, if_pos h1]
    refine PyRel.bind_same fun w => ?_
    refine (gpnhCheckInitDictionary_moved hd k).bind fun a a' ha => ?_
    exact ⟨ha, rfl, rfl⟩
  rw [if_neg h1, if_neg h1]
  by_cases h2 : ud = false ∧ uw = true
  · rw [if_pos h2, if_pos h2]
    refine (gpnhCheckInitDictionary_moved hd k).bind fun a a' ha => ?_
    refine PyRel.bind_same fun w => ?_
    exact ⟨ha, rfl, rfl⟩
  rw [if_neg h2, if_neg h2]
  have hfs : init = some "furthest_sum" := (hinit.resolve_left h1).resolve_right h2
  subst hfs
  have e : ∀ (Z : Matrix (Fin T) (Fin D) K),
      gpnhInitDictionary env Z k (some "furthest_sum") kw g =
        gpnhInitDictionaryFurthestSum env Z k kw g := fun Z => rfl
  by_cases h3 : ud = true ∧ uw = false
  · rw [if_pos h3, if_pos h3]
    refine PyRel.bind_same fun w => ?_
    rw [e, e]
    refine (gpnhInitDictionaryFurthestSum_moved env hQ h k kw g).bind fun a a' ha => ?_
    exact ⟨ha.1, rfl, ha.2⟩
  · rw [if_neg h3, if_neg h3]
    unfold gpnhInitBoth
    simp only [Option.getD_some]
    rw [e, e]
    refine (gpnhInitDictionaryFurthestSum_moved env hQ h k kw g).bind fun a a' ha => ?_
    rw [ha.2]
    refine PyRel.bind_same fun w => ?_
    exact ⟨ha.1, rfl, rfl⟩

/-- The rows of the weights of the start have sum 1, unless those of the caller have not. -/
theorem gpnhStart_weights_sums {env : Env K} (hR : env.rng.Lawful) {k : ℕ} (hk : 1 ≤ k)
    {X : Matrix (Fin T) (Fin D) K} {init : Option String}
    {dictionary weights : Option (Arr2 K)} {ud uw : Bool} {kw : InitKwargs} {g : env.rng.G}
    (hw : (init = some "custom" ∨ uw = false) → ∀ W, weights = some W → ∀ i, ∑ a, W.val i a = 1)
    {start : (Matrix (Fin k) (Fin D) K × Matrix (Fin T) (Fin k) K) × env.rng.G}
    (h : gpnhStart env X k init dictionary weights ud uw kw g = Py.ok start) :
    ∀ i, ∑ a, start.1.2 i a = 1 := by
  by_cases hc : init = some "custom"
  · subst hc
    exact hw (Or.inl rfl) _ (gpnhStart_custom h).2.1
  unfold gpnhStart at h
  rw [if_neg hc] at h
  split_ifs at h with h2 h3
  · obtain ⟨d, -, h⟩ := Py.bind_eq_ok.1 h
    obtain ⟨w, hw', h⟩ := Py.bind_eq_ok.1 h
    simp only [Py.pure_eq, Py.ok.injEq] at h
    subst h
    exact fun i => (gpnhInitWeights_ok hR hk hw' i).2
  · obtain ⟨w, hw', h⟩ := Py.bind_eq_ok.1 h
    obtain ⟨d, -, h⟩ := Py.bind_eq_ok.1 h
    simp only [Py.pure_eq, Py.ok.injEq] at h
    subst h
    exact hw (Or.inr h3.2) _ (gpnhCheckInitWeights_ok hw').1
  · unfold gpnhInitBoth at h
    obtain ⟨d, -, h⟩ := Py.bind_eq_ok.1 h
    obtain ⟨w, hw', h⟩ := Py.bind_eq_ok.1 h
    simp only [Py.pure_eq, Py.ok.injEq] at h
    subst h
    exact fun i => (gpnhInitWeights_ok hR hk hw' i).2

/-! ### Fits -/

/-- The second fit ends with the same weights, cost and history as the first and a dictionary that
is moved; the elements are relabelled. -/
def FitMoved (R : Rng K) (π : Equiv.Perm (Fin T)) (ρ : Equiv.Perm (Fin k))
    (Q : Matrix (Fin D) (Fin D) K) (b : Fin D → K) (r r' : GPNHObj R × FitInfo K) : Prop :=
  r'.2 = r.2 ∧ ∃ (W W' : Matrix (Fin T) (Fin k) K) (S S' : Matrix (Fin k) (Fin D) K),
    r.1.Gamma = some (Arr2.of W) ∧ r.1.S = some (Arr2.of S) ∧
    r'.1 = { r.1 with Gamma := some (Arr2.of W'), S := some (Arr2.of S') } ∧
    W'.submatrix π ρ = W ∧ Moved ρ Q b S S' ∧ SumsW b W

theorem initializeWorkspace_sym {π : Equiv.Perm (Fin T)} {ρ : Equiv.Perm (Fin k)}
    {Q : Matrix (Fin D) (Fin D) K} {b : Fin D → K} {cfg : LSConfig K}
    {X X' : Matrix (Fin T) (Fin D) K} {W W' : Matrix (Fin T) (Fin k) K}
    {S S' : Matrix (Fin k) (Fin D) K} (hX : Moved π Q b X X') (hW : W'.submatrix π ρ = W)
    (hS : Moved ρ Q b S S') (h : SumsW b W) :
    GPNHState.SymRel π ρ Q b (GPNHState.initializeWorkspace cfg X W S)
      (GPNHState.initializeWorkspace cfg X' W' S') :=
  ⟨rfl, rfl, hX, hW, hS, h, rfl, rfl, rfl, rfl⟩

/-- The iteration and what follows it, for corresponding starts. -/
theorem gpnhFinish_sym {env : Env K} (obj o : GPNHObj env.rng) {π : Equiv.Perm (Fin T)}
    {ρ : Equiv.Perm (Fin k)} {Q : Matrix (Fin D) (Fin D) K} {b : Fin D → K} (hQ : Q * Qᵀ = 1)
    {X X' : Matrix (Fin T) (Fin D) K} {W W' : Matrix (Fin T) (Fin k) K}
    {S S' : Matrix (Fin k) (Fin D) K} (hX : Moved π Q b X X') (hW : W'.submatrix π ρ = W)
    (hS : Moved ρ Q b S S') (h : SumsW b W) {m : ℕ} {tol : K} {ud uw : Bool} :
    PyRel (FitMoved env.rng π ρ Q b)
      (gpnhIterate obj.ls obj.epsilonStates obj.require tol m ud uw
        (GPNHState.initializeWorkspace obj.ls X W S) >>= fun r =>
          Py.ok ({ o with Gamma := some (Arr2.of r.state.Gamma), S := some (Arr2.of r.state.S) },
            ({ cost := r.cost, nIter := r.nIter, warned := decide (r.nIter = m ∧ tol > 0),
               trace := r.trace } : FitInfo K)))
      (gpnhIterate obj.ls obj.epsilonStates obj.require tol m ud uw
        (GPNHState.initializeWorkspace obj.ls X' W' S') >>= fun r =>
          Py.ok ({ o with Gamma := some (Arr2.of r.state.Gamma), S := some (Arr2.of r.state.S) },
            ({ cost := r.cost, nIter := r.nIter, warned := decide (r.nIter = m ∧ tol > 0),
               trace := r.trace } : FitInfo K))) := by
  refine (gpnhIterate_sym hQ (initializeWorkspace_sym hX hW hS h)).bind fun r r' hr => ?_
  obtain ⟨hs, hc, hn, ht⟩ := hr
  refine ⟨?_, _, _, _, _, rfl, rfl, rfl, hs.Gamma, hs.S, hs.sums⟩
  simp only [hc, hn, ht]

theorem gpnhConvexCoding_moved {env : Env K} (hR : env.rng.Lawful) (obj : GPNHObj env.rng)
    {Q : Matrix (Fin D) (Fin D) K} (hQ : Q * Qᵀ = 1) {b : Fin D → K}
    {X Y : Matrix (Fin T) (Fin D) K} (h : Moved 1 Q b X Y) {d d' : Option (Arr2 K)}
    (hd : MovedArg Q b d d') (weights : Option (Arr2 K)) (ud uw : Bool) (kw : InitKwargs)
    (hinit : obj.init = some "custom" ∨ obj.init = some "furthest_sum" ∨ (ud = false ∧ uw = true))
    (hw : (obj.init = some "custom" ∨ uw = false) →
      ∀ W, weights = some W → ∀ i, ∑ a, W.val i a = 1) :
    PyRel (fun r r' => ∃ k, FitMoved env.rng (1 : Equiv.Perm (Fin T)) (1 : Equiv.Perm (Fin k)) Q b
        r r')
      (gpnhConvexCoding env obj (Arr2.of X) d weights ud uw kw)
      (gpnhConvexCoding env obj (Arr2.of Y) d' weights ud uw kw) := by
  unfold gpnhConvexCoding
  simp only
  change PyRel _ (checkParams (defaultComponents obj.nComponents D) obj.maxIterations
    obj.tolerance >>= _) (checkParams (defaultComponents obj.nComponents D) obj.maxIterations
    obj.tolerance >>= _)
  cases hp : checkParams (defaultComponents obj.nComponents D) obj.maxIterations obj.tolerance with
  | raise e => rfl
  | diverge => trivial
  | ok p =>
    simp only [Py.ok_bind]
    have hk := (checkParams_ok hp).2.2.2.1
    refine PyRel.bind ((gpnhStart_moved env hQ h p.1 hd weights ud uw hinit kw
      obj.randomState).imp fun a a' ha _ hP => And.intro hP (gpnhStart_weights_sums hR hk hw ha))
      fun a a' ha => ?_
    obtain ⟨⟨h1, h2, h3⟩, h4⟩ := ha
    rw [h3, h2]
    exact (gpnhFinish_sym obj { obj with
      nComponents := defaultComponents obj.nComponents D, randomState := a.2 } (ρ := 1)
      (W' := a.1.2) (W := a.1.2) hQ h rfl h1 (Or.inr h4)).mono fun _ _ h => ⟨_, h⟩

/-- Two custom fits, the second with samples and dictionary elements relabelled. -/
theorem gpnhConvexCoding_relabel {env : Env K} (obj : GPNHObj env.rng)
    (hinit : obj.init = some "custom") (π : Equiv.Perm (Fin T)) (ρ : Equiv.Perm (Fin k))
    {X X' : Matrix (Fin T) (Fin D) K} (hX : ∀ t d, X' (π t) d = X t d)
    {W W' : Matrix (Fin T) (Fin k) K} (hW : ∀ t a, W' (π t) (ρ a) = W t a)
    {S S' : Matrix (Fin k) (Fin D) K} (hS : ∀ a d, S' (ρ a) d = S a d) (ud uw : Bool)
    (kw : InitKwargs) :
    PyRel (FitMoved (D := D) env.rng π ρ 1 0)
      (gpnhConvexCoding env obj (Arr2.of X) (some (Arr2.of S)) (some (Arr2.of W)) ud uw kw)
      (gpnhConvexCoding env obj (Arr2.of X') (some (Arr2.of S')) (some (Arr2.of W')) ud uw kw) := by
  have hm : ∀ {m : ℕ} (τ : Equiv.Perm (Fin m)) (M M' : Matrix (Fin m) (Fin D) K),
      Moved τ 1 0 M M' ↔ ∀ a d, M' (τ a) d = M a d := by
    intro m τ M M'
    unfold Moved
    rw [submatrix_eq_iff]
    simp [moveRows]
  have hQ : (1 : Matrix (Fin D) (Fin D) K) * 1ᵀ = 1 := by simp
  unfold gpnhConvexCoding
  simp only
  change PyRel _ (checkParams (defaultComponents obj.nComponents D) obj.maxIterations
    obj.tolerance >>= _) (checkParams (defaultComponents obj.nComponents D) obj.maxIterations
    obj.tolerance >>= _)
  refine PyRel.bind_same fun p => ?_
  obtain ⟨k', q⟩ := p
  unfold gpnhStart
  rw [if_pos hinit, if_pos hinit]
  by_cases hk : k' = k
  swap
  · change PyRel _ ((gpnhCheckInitWeights (some (Arr2.of W)) T k' >>= _) >>= _)
      ((gpnhCheckInitWeights (some (Arr2.of W')) T k' >>= _) >>= _)
    rw [gpnhCheckInitWeights_mismatch _ fun h => hk h.2.symm,
      gpnhCheckInitWeights_mismatch _ fun h => hk h.2.symm]
    rfl
  subst hk
  have eW : W'.submatrix π ρ = W := submatrix_eq_iff.2 hW
  have e1 : PyRel (fun w w' => w'.submatrix π ρ = w) (gpnhCheckInitWeights (some (Arr2.of W)) T k')
      (gpnhCheckInitWeights (some (Arr2.of W')) T k') := by
    rw [← eW, gpnhCheckInitWeights_submatrix]
    cases gpnhCheckInitWeights (some (Arr2.of W')) T k' <;> simp [PyRel, Py.ok_bind]
  have e2 : PyRel (Moved ρ 1 0) (gpnhCheckInitDictionary (some (Arr2.of S)) k' D)
      (gpnhCheckInitDictionary (some (Arr2.of S')) k' D) := by
    rw [gpnhCheckInitDictionary_of, gpnhCheckInitDictionary_of]
    split_ifs
    · rfl
    · exact (hm ρ S S').2 hS
  have e3 : PyRel (fun a a' => Moved ρ 1 0 a.1.1 a'.1.1 ∧ a'.1.2.submatrix π ρ = a.1.2 ∧ a'.2 = a.2)
      (gpnhCheckInitWeights (some (Arr2.of W)) T k' >>= fun w =>
        gpnhCheckInitDictionary (some (Arr2.of S)) k' D >>= fun d => pure ((d, w), obj.randomState))
      (gpnhCheckInitWeights (some (Arr2.of W')) T k' >>= fun w =>
        gpnhCheckInitDictionary (some (Arr2.of S')) k' D >>= fun d =>
          pure ((d, w), obj.randomState)) :=
    e1.bind fun w w' hw => e2.bind fun d d' hd => ⟨hd, hw, rfl⟩
  refine e3.bind fun a a' ha => ?_
  obtain ⟨h1, h2, h3⟩ := ha
  rw [h3]
  exact gpnhFinish_sym obj { obj with
    nComponents := defaultComponents obj.nComponents D, randomState := a.2 } hQ
    ((hm π X X').2 hX) h2 h1 (Or.inl rfl)

end Reor
