import Verif.Model.MTDHeap
import Verif.Proofs.GPNHHeap

/-!
`src/reor/mtd_convex_coding.py` with arrays in memory does what the model on values does, and touches
only its own arrays.
-/

set_option linter.unusedSectionVars false

namespace Reor

open scoped BigOperators Matrix

variable {K : Type} [Field K] [LinearOrder K] [IsStrictOrderedRing K]

theorem ofRow_asRow {n : ℕ} (v : Fin n → K) : ofRow (asRow v) = v := rfl

theorem asRow_ofRow {n : ℕ} (M : Matrix (Fin 1) (Fin n) K) : asRow (ofRow M) = M := by
  funext i j
  rw [Subsingleton.elim i 0]
  rfl

theorem unstack_stack {p m n : ℕ} (A : Fin p → Matrix (Fin m) (Fin n) K) : unstack (stack A) = A := by
  funext i l j
  change A (finProdFinEquiv.symm (finProdFinEquiv (i, l))).1
    (finProdFinEquiv.symm (finProdFinEquiv (i, l))).2 j = _
  rw [Equiv.symm_apply_apply]

theorem stack_unstack {p m n : ℕ} (M : Matrix (Fin (p * m)) (Fin n) K) : stack (unstack M) = M := by
  funext r j
  change M (finProdFinEquiv ((finProdFinEquiv.symm r).1, (finProdFinEquiv.symm r).2)) j = _
  rw [Prod.mk.eta, Equiv.apply_symm_apply]

namespace MTDMem

variable {T D k p : ℕ} {h0 : Heap K} {n0 : ℕ}

/-- The object in memory has the values `t`, in arrays of its own. -/
structure Sim (h0 : Heap K) (n0 : ℕ) (s : MTDMem K) (t : MTDState T D k p K) : Prop where
  safe : s.Safe (mtdShape T D k p) h0 n0
  eq : rd T D k p s = t

variable {s : MTDMem K} {t : MTDState T D k p K}

theorem Sim.keeps (h : Sim h0 n0 s t) : h0.Keeps s.heap n0 := h.safe.keeps

/-- `rd` in terms of all values. -/
theorem rd_eq_of_values {s' : MTDMem K} {V : (a : MTDAttr) → Matrix (Fin (mtdShape T D k p a).1)
    (Fin (mtdShape T D k p a).2) K} (hV : s'.values (mtdShape T D k p) = V) :
    rd T D k p s' =
      { X := V .X, Gamma := V .Gamma, S := V .S, GtG := V .GtG, GtX := V .GtX, XSt := V .XSt
        SSt := V .SSt, GammaOld := V .GammaOld, gradGamma := V .gradGamma
        incrGamma := V .incrGamma, SOld := V .SOld, gradS := V .gradS, incrS := V .incrS
        alphaGamma := s'.rest.alphaGamma, alphaS := s'.rest.alphaS, fSMem := s'.rest.fSMem
        fGammaMem := s'.rest.fGammaMem
        orderWeights := ofRow (V .orderWeights)
        transitionMatrices := unstack (V .transitionMatrices)
        Z := V .Z
        orderWeightsOld := ofRow (V .orderWeightsOld)
        gradOrderWeights := ofRow (V .gradOrderWeights)
        incrOrderWeights := ofRow (V .incrOrderWeights)
        transitionMatricesOld := unstack (V .transitionMatricesOld)
        gradTransitionMatrices := unstack (V .gradTransitionMatrices)
        incrTransitionMatrices := unstack (V .incrTransitionMatrices)
        alphaParameters := s'.rest.alphaParameters
        fParametersMem := s'.rest.fParametersMem } := by
  subst hV
  rfl

theorem rd_assign_X (hv : s.Valid) (M : Matrix (Fin T) (Fin D) K) :
    rd T D k p (s.assign .X M) = { rd T D k p s with X := M } :=
  (rd_eq_of_values (HState.values_assign (shape := mtdShape T D k p) hv .X M)).trans rfl

theorem Sim.assign_X (h : Sim h0 n0 s t) {M N : Matrix (Fin T) (Fin D) K} (e : M = N) :
    Sim h0 n0 (s.assign .X M) { t with X := N } :=
  ⟨h.safe.assign .X M, by rw [rd_assign_X h.safe.valid, h.eq, e]⟩

theorem rd_augment_X (ho : s.Owns (mtdShape T D k p) n0 fun _ => True) (M : Matrix (Fin T) (Fin D) K) :
    rd T D k p (s.augment .X M) = { rd T D k p s with X := M } :=
  (rd_eq_of_values (HState.values_augment (shape := mtdShape T D k p) ho .X M)).trans rfl

theorem Sim.augment_X (h : Sim h0 n0 s t) {M N : Matrix (Fin T) (Fin D) K} (e : M = N) :
    Sim h0 n0 (s.augment .X M) { t with X := N } :=
  ⟨h.safe.augment .X M, by rw [rd_augment_X h.safe.owns, h.eq, e]⟩

theorem rd_assign_Gamma (hv : s.Valid) (M : Matrix (Fin T) (Fin k) K) :
    rd T D k p (s.assign .Gamma M) = { rd T D k p s with Gamma := M } :=
  (rd_eq_of_values (HState.values_assign (shape := mtdShape T D k p) hv .Gamma M)).trans rfl

theorem Sim.assign_Gamma (h : Sim h0 n0 s t) {M N : Matrix (Fin T) (Fin k) K} (e : M = N) :
    Sim h0 n0 (s.assign .Gamma M) { t with Gamma := N } :=
  ⟨h.safe.assign .Gamma M, by rw [rd_assign_Gamma h.safe.valid, h.eq, e]⟩

theorem rd_augment_Gamma (ho : s.Owns (mtdShape T D k p) n0 fun _ => True) (M : Matrix (Fin T) (Fin k) K) :
    rd T D k p (s.augment .Gamma M) = { rd T D k p s with Gamma := M } :=
  (rd_eq_of_values (HState.values_augment (shape := mtdShape T D k p) ho .Gamma M)).trans rfl

theorem Sim.augment_Gamma (h : Sim h0 n0 s t) {M N : Matrix (Fin T) (Fin k) K} (e : M = N) :
    Sim h0 n0 (s.augment .Gamma M) { t with Gamma := N } :=
  ⟨h.safe.augment .Gamma M, by rw [rd_augment_Gamma h.safe.owns, h.eq, e]⟩

theorem rd_assign_S (hv : s.Valid) (M : Matrix (Fin k) (Fin D) K) :
    rd T D k p (s.assign .S M) = { rd T D k p s with S := M } :=
  (rd_eq_of_values (HState.values_assign (shape := mtdShape T D k p) hv .S M)).trans rfl

theorem Sim.assign_S (h : Sim h0 n0 s t) {M N : Matrix (Fin k) (Fin D) K} (e : M = N) :
    Sim h0 n0 (s.assign .S M) { t with S := N } :=
  ⟨h.safe.assign .S M, by rw [rd_assign_S h.safe.valid, h.eq, e]⟩

theorem rd_augment_S (ho : s.Owns (mtdShape T D k p) n0 fun _ => True) (M : Matrix (Fin k) (Fin D) K) :
    rd T D k p (s.augment .S M) = { rd T D k p s with S := M } :=
  (rd_eq_of_values (HState.values_augment (shape := mtdShape T D k p) ho .S M)).trans rfl

theorem Sim.augment_S (h : Sim h0 n0 s t) {M N : Matrix (Fin k) (Fin D) K} (e : M = N) :
    Sim h0 n0 (s.augment .S M) { t with S := N } :=
  ⟨h.safe.augment .S M, by rw [rd_augment_S h.safe.owns, h.eq, e]⟩

theorem rd_assign_GtG (hv : s.Valid) (M : Matrix (Fin k) (Fin k) K) :
    rd T D k p (s.assign .GtG M) = { rd T D k p s with GtG := M } :=
  (rd_eq_of_values (HState.values_assign (shape := mtdShape T D k p) hv .GtG M)).trans rfl

theorem Sim.assign_GtG (h : Sim h0 n0 s t) {M N : Matrix (Fin k) (Fin k) K} (e : M = N) :
    Sim h0 n0 (s.assign .GtG M) { t with GtG := N } :=
  ⟨h.safe.assign .GtG M, by rw [rd_assign_GtG h.safe.valid, h.eq, e]⟩

theorem rd_augment_GtG (ho : s.Owns (mtdShape T D k p) n0 fun _ => True) (M : Matrix (Fin k) (Fin k) K) :
    rd T D k p (s.augment .GtG M) = { rd T D k p s with GtG := M } :=
  (rd_eq_of_values (HState.values_augment (shape := mtdShape T D k p) ho .GtG M)).trans rfl

theorem Sim.augment_GtG (h : Sim h0 n0 s t) {M N : Matrix (Fin k) (Fin k) K} (e : M = N) :
    Sim h0 n0 (s.augment .GtG M) { t with GtG := N } :=
  ⟨h.safe.augment .GtG M, by rw [rd_augment_GtG h.safe.owns, h.eq, e]⟩

theorem rd_assign_GtX (hv : s.Valid) (M : Matrix (Fin k) (Fin D) K) :
    rd T D k p (s.assign .GtX M) = { rd T D k p s with GtX := M } :=
  (rd_eq_of_values (HState.values_assign (shape := mtdShape T D k p) hv .GtX M)).trans rfl

theorem Sim.assign_GtX (h : Sim h0 n0 s t) {M N : Matrix (Fin k) (Fin D) K} (e : M = N) :
    Sim h0 n0 (s.assign .GtX M) { t with GtX := N } :=
  ⟨h.safe.assign .GtX M, by rw [rd_assign_GtX h.safe.valid, h.eq, e]⟩

theorem rd_augment_GtX (ho : s.Owns (mtdShape T D k p) n0 fun _ => True) (M : Matrix (Fin k) (Fin D) K) :
    rd T D k p (s.augment .GtX M) = { rd T D k p s with GtX := M } :=
  (rd_eq_of_values (HState.values_augment (shape := mtdShape T D k p) ho .GtX M)).trans rfl

theorem Sim.augment_GtX (h : Sim h0 n0 s t) {M N : Matrix (Fin k) (Fin D) K} (e : M = N) :
    Sim h0 n0 (s.augment .GtX M) { t with GtX := N } :=
  ⟨h.safe.augment .GtX M, by rw [rd_augment_GtX h.safe.owns, h.eq, e]⟩

theorem rd_assign_XSt (hv : s.Valid) (M : Matrix (Fin T) (Fin k) K) :
    rd T D k p (s.assign .XSt M) = { rd T D k p s with XSt := M } :=
  (rd_eq_of_values (HState.values_assign (shape := mtdShape T D k p) hv .XSt M)).trans rfl

theorem Sim.assign_XSt (h : Sim h0 n0 s t) {M N : Matrix (Fin T) (Fin k) K} (e : M = N) :
    Sim h0 n0 (s.assign .XSt M) { t with XSt := N } :=
  ⟨h.safe.assign .XSt M, by rw [rd_assign_XSt h.safe.valid, h.eq, e]⟩

theorem rd_augment_XSt (ho : s.Owns (mtdShape T D k p) n0 fun _ => True) (M : Matrix (Fin T) (Fin k) K) :
    rd T D k p (s.augment .XSt M) = { rd T D k p s with XSt := M } :=
  (rd_eq_of_values (HState.values_augment (shape := mtdShape T D k p) ho .XSt M)).trans rfl

theorem Sim.augment_XSt (h : Sim h0 n0 s t) {M N : Matrix (Fin T) (Fin k) K} (e : M = N) :
    Sim h0 n0 (s.augment .XSt M) { t with XSt := N } :=
  ⟨h.safe.augment .XSt M, by rw [rd_augment_XSt h.safe.owns, h.eq, e]⟩

theorem rd_assign_SSt (hv : s.Valid) (M : Matrix (Fin k) (Fin k) K) :
    rd T D k p (s.assign .SSt M) = { rd T D k p s with SSt := M } :=
  (rd_eq_of_values (HState.values_assign (shape := mtdShape T D k p) hv .SSt M)).trans rfl

theorem Sim.assign_SSt (h : Sim h0 n0 s t) {M N : Matrix (Fin k) (Fin k) K} (e : M = N) :
    Sim h0 n0 (s.assign .SSt M) { t with SSt := N } :=
  ⟨h.safe.assign .SSt M, by rw [rd_assign_SSt h.safe.valid, h.eq, e]⟩

theorem rd_augment_SSt (ho : s.Owns (mtdShape T D k p) n0 fun _ => True) (M : Matrix (Fin k) (Fin k) K) :
    rd T D k p (s.augment .SSt M) = { rd T D k p s with SSt := M } :=
  (rd_eq_of_values (HState.values_augment (shape := mtdShape T D k p) ho .SSt M)).trans rfl

theorem Sim.augment_SSt (h : Sim h0 n0 s t) {M N : Matrix (Fin k) (Fin k) K} (e : M = N) :
    Sim h0 n0 (s.augment .SSt M) { t with SSt := N } :=
  ⟨h.safe.augment .SSt M, by rw [rd_augment_SSt h.safe.owns, h.eq, e]⟩

theorem rd_assign_Z (hv : s.Valid) (M : Matrix (Fin T) (Fin k) K) :
    rd T D k p (s.assign .Z M) = { rd T D k p s with Z := M } :=
  (rd_eq_of_values (HState.values_assign (shape := mtdShape T D k p) hv .Z M)).trans rfl

theorem Sim.assign_Z (h : Sim h0 n0 s t) {M N : Matrix (Fin T) (Fin k) K} (e : M = N) :
    Sim h0 n0 (s.assign .Z M) { t with Z := N } :=
  ⟨h.safe.assign .Z M, by rw [rd_assign_Z h.safe.valid, h.eq, e]⟩

theorem rd_augment_Z (ho : s.Owns (mtdShape T D k p) n0 fun _ => True) (M : Matrix (Fin T) (Fin k) K) :
    rd T D k p (s.augment .Z M) = { rd T D k p s with Z := M } :=
  (rd_eq_of_values (HState.values_augment (shape := mtdShape T D k p) ho .Z M)).trans rfl

theorem Sim.augment_Z (h : Sim h0 n0 s t) {M N : Matrix (Fin T) (Fin k) K} (e : M = N) :
    Sim h0 n0 (s.augment .Z M) { t with Z := N } :=
  ⟨h.safe.augment .Z M, by rw [rd_augment_Z h.safe.owns, h.eq, e]⟩

theorem rd_assign_GammaOld (hv : s.Valid) (M : Matrix (Fin T) (Fin k) K) :
    rd T D k p (s.assign .GammaOld M) = { rd T D k p s with GammaOld := M } :=
  (rd_eq_of_values (HState.values_assign (shape := mtdShape T D k p) hv .GammaOld M)).trans rfl

theorem Sim.assign_GammaOld (h : Sim h0 n0 s t) {M N : Matrix (Fin T) (Fin k) K} (e : M = N) :
    Sim h0 n0 (s.assign .GammaOld M) { t with GammaOld := N } :=
  ⟨h.safe.assign .GammaOld M, by rw [rd_assign_GammaOld h.safe.valid, h.eq, e]⟩

theorem rd_augment_GammaOld (ho : s.Owns (mtdShape T D k p) n0 fun _ => True) (M : Matrix (Fin T) (Fin k) K) :
    rd T D k p (s.augment .GammaOld M) = { rd T D k p s with GammaOld := M } :=
  (rd_eq_of_values (HState.values_augment (shape := mtdShape T D k p) ho .GammaOld M)).trans rfl

theorem Sim.augment_GammaOld (h : Sim h0 n0 s t) {M N : Matrix (Fin T) (Fin k) K} (e : M = N) :
    Sim h0 n0 (s.augment .GammaOld M) { t with GammaOld := N } :=
  ⟨h.safe.augment .GammaOld M, by rw [rd_augment_GammaOld h.safe.owns, h.eq, e]⟩

theorem rd_assign_gradGamma (hv : s.Valid) (M : Matrix (Fin T) (Fin k) K) :
    rd T D k p (s.assign .gradGamma M) = { rd T D k p s with gradGamma := M } :=
  (rd_eq_of_values (HState.values_assign (shape := mtdShape T D k p) hv .gradGamma M)).trans rfl

theorem Sim.assign_gradGamma (h : Sim h0 n0 s t) {M N : Matrix (Fin T) (Fin k) K} (e : M = N) :
    Sim h0 n0 (s.assign .gradGamma M) { t with gradGamma := N } :=
  ⟨h.safe.assign .gradGamma M, by rw [rd_assign_gradGamma h.safe.valid, h.eq, e]⟩

theorem rd_augment_gradGamma (ho : s.Owns (mtdShape T D k p) n0 fun _ => True) (M : Matrix (Fin T) (Fin k) K) :
    rd T D k p (s.augment .gradGamma M) = { rd T D k p s with gradGamma := M } :=
  (rd_eq_of_values (HState.values_augment (shape := mtdShape T D k p) ho .gradGamma M)).trans rfl

theorem Sim.augment_gradGamma (h : Sim h0 n0 s t) {M N : Matrix (Fin T) (Fin k) K} (e : M = N) :
    Sim h0 n0 (s.augment .gradGamma M) { t with gradGamma := N } :=
  ⟨h.safe.augment .gradGamma M, by rw [rd_augment_gradGamma h.safe.owns, h.eq, e]⟩

theorem rd_assign_incrGamma (hv : s.Valid) (M : Matrix (Fin T) (Fin k) K) :
    rd T D k p (s.assign .incrGamma M) = { rd T D k p s with incrGamma := M } :=
  (rd_eq_of_values (HState.values_assign (shape := mtdShape T D k p) hv .incrGamma M)).trans rfl

theorem Sim.assign_incrGamma (h : Sim h0 n0 s t) {M N : Matrix (Fin T) (Fin k) K} (e : M = N) :
    Sim h0 n0 (s.assign .incrGamma M) { t with incrGamma := N } :=
  ⟨h.safe.assign .incrGamma M, by rw [rd_assign_incrGamma h.safe.valid, h.eq, e]⟩

theorem rd_augment_incrGamma (ho : s.Owns (mtdShape T D k p) n0 fun _ => True) (M : Matrix (Fin T) (Fin k) K) :
    rd T D k p (s.augment .incrGamma M) = { rd T D k p s with incrGamma := M } :=
  (rd_eq_of_values (HState.values_augment (shape := mtdShape T D k p) ho .incrGamma M)).trans rfl

theorem Sim.augment_incrGamma (h : Sim h0 n0 s t) {M N : Matrix (Fin T) (Fin k) K} (e : M = N) :
    Sim h0 n0 (s.augment .incrGamma M) { t with incrGamma := N } :=
  ⟨h.safe.augment .incrGamma M, by rw [rd_augment_incrGamma h.safe.owns, h.eq, e]⟩

theorem rd_assign_SOld (hv : s.Valid) (M : Matrix (Fin k) (Fin D) K) :
    rd T D k p (s.assign .SOld M) = { rd T D k p s with SOld := M } :=
  (rd_eq_of_values (HState.values_assign (shape := mtdShape T D k p) hv .SOld M)).trans rfl

theorem Sim.assign_SOld (h : Sim h0 n0 s t) {M N : Matrix (Fin k) (Fin D) K} (e : M = N) :
    Sim h0 n0 (s.assign .SOld M) { t with SOld := N } :=
  ⟨h.safe.assign .SOld M, by rw [rd_assign_SOld h.safe.valid, h.eq, e]⟩

theorem rd_augment_SOld (ho : s.Owns (mtdShape T D k p) n0 fun _ => True) (M : Matrix (Fin k) (Fin D) K) :
    rd T D k p (s.augment .SOld M) = { rd T D k p s with SOld := M } :=
  (rd_eq_of_values (HState.values_augment (shape := mtdShape T D k p) ho .SOld M)).trans rfl

theorem Sim.augment_SOld (h : Sim h0 n0 s t) {M N : Matrix (Fin k) (Fin D) K} (e : M = N) :
    Sim h0 n0 (s.augment .SOld M) { t with SOld := N } :=
  ⟨h.safe.augment .SOld M, by rw [rd_augment_SOld h.safe.owns, h.eq, e]⟩

theorem rd_assign_gradS (hv : s.Valid) (M : Matrix (Fin k) (Fin D) K) :
    rd T D k p (s.assign .gradS M) = { rd T D k p s with gradS := M } :=
  (rd_eq_of_values (HState.values_assign (shape := mtdShape T D k p) hv .gradS M)).trans rfl

theorem Sim.assign_gradS (h : Sim h0 n0 s t) {M N : Matrix (Fin k) (Fin D) K} (e : M = N) :
    Sim h0 n0 (s.assign .gradS M) { t with gradS := N } :=
  ⟨h.safe.assign .gradS M, by rw [rd_assign_gradS h.safe.valid, h.eq, e]⟩

theorem rd_augment_gradS (ho : s.Owns (mtdShape T D k p) n0 fun _ => True) (M : Matrix (Fin k) (Fin D) K) :
    rd T D k p (s.augment .gradS M) = { rd T D k p s with gradS := M } :=
  (rd_eq_of_values (HState.values_augment (shape := mtdShape T D k p) ho .gradS M)).trans rfl

theorem Sim.augment_gradS (h : Sim h0 n0 s t) {M N : Matrix (Fin k) (Fin D) K} (e : M = N) :
    Sim h0 n0 (s.augment .gradS M) { t with gradS := N } :=
  ⟨h.safe.augment .gradS M, by rw [rd_augment_gradS h.safe.owns, h.eq, e]⟩

theorem rd_assign_incrS (hv : s.Valid) (M : Matrix (Fin k) (Fin D) K) :
    rd T D k p (s.assign .incrS M) = { rd T D k p s with incrS := M } :=
  (rd_eq_of_values (HState.values_assign (shape := mtdShape T D k p) hv .incrS M)).trans rfl

theorem Sim.assign_incrS (h : Sim h0 n0 s t) {M N : Matrix (Fin k) (Fin D) K} (e : M = N) :
    Sim h0 n0 (s.assign .incrS M) { t with incrS := N } :=
  ⟨h.safe.assign .incrS M, by rw [rd_assign_incrS h.safe.valid, h.eq, e]⟩

theorem rd_augment_incrS (ho : s.Owns (mtdShape T D k p) n0 fun _ => True) (M : Matrix (Fin k) (Fin D) K) :
    rd T D k p (s.augment .incrS M) = { rd T D k p s with incrS := M } :=
  (rd_eq_of_values (HState.values_augment (shape := mtdShape T D k p) ho .incrS M)).trans rfl

theorem Sim.augment_incrS (h : Sim h0 n0 s t) {M N : Matrix (Fin k) (Fin D) K} (e : M = N) :
    Sim h0 n0 (s.augment .incrS M) { t with incrS := N } :=
  ⟨h.safe.augment .incrS M, by rw [rd_augment_incrS h.safe.owns, h.eq, e]⟩

theorem rd_assign_orderWeights (hv : s.Valid) (M : Fin p → K) :
    rd T D k p (s.assign .orderWeights (asRow M)) = { rd T D k p s with orderWeights := M } :=
  (rd_eq_of_values (HState.values_assign (shape := mtdShape T D k p) hv .orderWeights (asRow M))).trans rfl

theorem Sim.assign_orderWeights (h : Sim h0 n0 s t) {M N : Fin p → K} (e : M = N) :
    Sim h0 n0 (s.assign .orderWeights (asRow M)) { t with orderWeights := N } :=
  ⟨h.safe.assign .orderWeights (asRow M), by rw [rd_assign_orderWeights h.safe.valid, h.eq, e]⟩

theorem rd_augment_orderWeights (ho : s.Owns (mtdShape T D k p) n0 fun _ => True) (M : Fin p → K) :
    rd T D k p (s.augment .orderWeights (asRow M)) = { rd T D k p s with orderWeights := M } :=
  (rd_eq_of_values (HState.values_augment (shape := mtdShape T D k p) ho .orderWeights (asRow M))).trans rfl

theorem Sim.augment_orderWeights (h : Sim h0 n0 s t) {M N : Fin p → K} (e : M = N) :
    Sim h0 n0 (s.augment .orderWeights (asRow M)) { t with orderWeights := N } :=
  ⟨h.safe.augment .orderWeights (asRow M), by rw [rd_augment_orderWeights h.safe.owns, h.eq, e]⟩

theorem rd_assign_orderWeightsOld (hv : s.Valid) (M : Fin p → K) :
    rd T D k p (s.assign .orderWeightsOld (asRow M)) = { rd T D k p s with orderWeightsOld := M } :=
  (rd_eq_of_values (HState.values_assign (shape := mtdShape T D k p) hv .orderWeightsOld (asRow M))).trans rfl

theorem Sim.assign_orderWeightsOld (h : Sim h0 n0 s t) {M N : Fin p → K} (e : M = N) :
    Sim h0 n0 (s.assign .orderWeightsOld (asRow M)) { t with orderWeightsOld := N } :=
  ⟨h.safe.assign .orderWeightsOld (asRow M), by rw [rd_assign_orderWeightsOld h.safe.valid, h.eq, e]⟩

theorem rd_augment_orderWeightsOld (ho : s.Owns (mtdShape T D k p) n0 fun _ => True) (M : Fin p → K) :
    rd T D k p (s.augment .orderWeightsOld (asRow M)) = { rd T D k p s with orderWeightsOld := M } :=
  (rd_eq_of_values (HState.values_augment (shape := mtdShape T D k p) ho .orderWeightsOld (asRow M))).trans rfl

theorem Sim.augment_orderWeightsOld (h : Sim h0 n0 s t) {M N : Fin p → K} (e : M = N) :
    Sim h0 n0 (s.augment .orderWeightsOld (asRow M)) { t with orderWeightsOld := N } :=
  ⟨h.safe.augment .orderWeightsOld (asRow M), by rw [rd_augment_orderWeightsOld h.safe.owns, h.eq, e]⟩

theorem rd_assign_gradOrderWeights (hv : s.Valid) (M : Fin p → K) :
    rd T D k p (s.assign .gradOrderWeights (asRow M)) = { rd T D k p s with gradOrderWeights := M } :=
  (rd_eq_of_values (HState.values_assign (shape := mtdShape T D k p) hv .gradOrderWeights (asRow M))).trans rfl

theorem Sim.assign_gradOrderWeights (h : Sim h0 n0 s t) {M N : Fin p → K} (e : M = N) :
    Sim h0 n0 (s.assign .gradOrderWeights (asRow M)) { t with gradOrderWeights := N } :=
  ⟨h.safe.assign .gradOrderWeights (asRow M), by rw [rd_assign_gradOrderWeights h.safe.valid, h.eq, e]⟩

theorem rd_augment_gradOrderWeights (ho : s.Owns (mtdShape T D k p) n0 fun _ => True) (M : Fin p → K) :
    rd T D k p (s.augment .gradOrderWeights (asRow M)) = { rd T D k p s with gradOrderWeights := M } :=
  (rd_eq_of_values (HState.values_augment (shape := mtdShape T D k p) ho .gradOrderWeights (asRow M))).trans rfl

theorem Sim.augment_gradOrderWeights (h : Sim h0 n0 s t) {M N : Fin p → K} (e : M = N) :
    Sim h0 n0 (s.augment .gradOrderWeights (asRow M)) { t with gradOrderWeights := N } :=
  ⟨h.safe.augment .gradOrderWeights (asRow M), by rw [rd_augment_gradOrderWeights h.safe.owns, h.eq, e]⟩

theorem rd_assign_incrOrderWeights (hv : s.Valid) (M : Fin p → K) :
    rd T D k p (s.assign .incrOrderWeights (asRow M)) = { rd T D k p s with incrOrderWeights := M } :=
  (rd_eq_of_values (HState.values_assign (shape := mtdShape T D k p) hv .incrOrderWeights (asRow M))).trans rfl

theorem Sim.assign_incrOrderWeights (h : Sim h0 n0 s t) {M N : Fin p → K} (e : M = N) :
    Sim h0 n0 (s.assign .incrOrderWeights (asRow M)) { t with incrOrderWeights := N } :=
  ⟨h.safe.assign .incrOrderWeights (asRow M), by rw [rd_assign_incrOrderWeights h.safe.valid, h.eq, e]⟩

theorem rd_augment_incrOrderWeights (ho : s.Owns (mtdShape T D k p) n0 fun _ => True) (M : Fin p → K) :
    rd T D k p (s.augment .incrOrderWeights (asRow M)) = { rd T D k p s with incrOrderWeights := M } :=
  (rd_eq_of_values (HState.values_augment (shape := mtdShape T D k p) ho .incrOrderWeights (asRow M))).trans rfl

theorem Sim.augment_incrOrderWeights (h : Sim h0 n0 s t) {M N : Fin p → K} (e : M = N) :
    Sim h0 n0 (s.augment .incrOrderWeights (asRow M)) { t with incrOrderWeights := N } :=
  ⟨h.safe.augment .incrOrderWeights (asRow M), by rw [rd_augment_incrOrderWeights h.safe.owns, h.eq, e]⟩

theorem rd_assign_transitionMatrices (hv : s.Valid) (M : Fin p → Matrix (Fin k) (Fin k) K) :
    rd T D k p (s.assign .transitionMatrices (stack M)) = { rd T D k p s with transitionMatrices := M } :=
  (rd_eq_of_values (HState.values_assign (shape := mtdShape T D k p) hv .transitionMatrices (stack M))).trans (by
    conv_rhs => rw [← unstack_stack M]
    rfl)

theorem Sim.assign_transitionMatrices (h : Sim h0 n0 s t) {M N : Fin p → Matrix (Fin k) (Fin k) K} (e : M = N) :
    Sim h0 n0 (s.assign .transitionMatrices (stack M)) { t with transitionMatrices := N } :=
  ⟨h.safe.assign .transitionMatrices (stack M), by rw [rd_assign_transitionMatrices h.safe.valid, h.eq, e]⟩

theorem rd_augment_transitionMatrices (ho : s.Owns (mtdShape T D k p) n0 fun _ => True) (M : Fin p → Matrix (Fin k) (Fin k) K) :
    rd T D k p (s.augment .transitionMatrices (stack M)) = { rd T D k p s with transitionMatrices := M } :=
  (rd_eq_of_values (HState.values_augment (shape := mtdShape T D k p) ho .transitionMatrices (stack M))).trans (by
    conv_rhs => rw [← unstack_stack M]
    rfl)

theorem Sim.augment_transitionMatrices (h : Sim h0 n0 s t) {M N : Fin p → Matrix (Fin k) (Fin k) K} (e : M = N) :
    Sim h0 n0 (s.augment .transitionMatrices (stack M)) { t with transitionMatrices := N } :=
  ⟨h.safe.augment .transitionMatrices (stack M), by rw [rd_augment_transitionMatrices h.safe.owns, h.eq, e]⟩

theorem rd_assign_transitionMatricesOld (hv : s.Valid) (M : Fin p → Matrix (Fin k) (Fin k) K) :
    rd T D k p (s.assign .transitionMatricesOld (stack M)) = { rd T D k p s with transitionMatricesOld := M } :=
  (rd_eq_of_values (HState.values_assign (shape := mtdShape T D k p) hv .transitionMatricesOld (stack M))).trans (by
    conv_rhs => rw [← unstack_stack M]
    rfl)

theorem Sim.assign_transitionMatricesOld (h : Sim h0 n0 s t) {M N : Fin p → Matrix (Fin k) (Fin k) K} (e : M = N) :
    Sim h0 n0 (s.assign .transitionMatricesOld (stack M)) { t with transitionMatricesOld := N } :=
  ⟨h.safe.assign .transitionMatricesOld (stack M), by rw [rd_assign_transitionMatricesOld h.safe.valid, h.eq, e]⟩

theorem rd_augment_transitionMatricesOld (ho : s.Owns (mtdShape T D k p) n0 fun _ => True) (M : Fin p → Matrix (Fin k) (Fin k) K) :
    rd T D k p (s.augment .transitionMatricesOld (stack M)) = { rd T D k p s with transitionMatricesOld := M } :=
  (rd_eq_of_values (HState.values_augment (shape := mtdShape T D k p) ho .transitionMatricesOld (stack M))).trans (by
    conv_rhs => rw [← unstack_stack M]
    rfl)

theorem Sim.augment_transitionMatricesOld (h : Sim h0 n0 s t) {M N : Fin p → Matrix (Fin k) (Fin k) K} (e : M = N) :
    Sim h0 n0 (s.augment .transitionMatricesOld (stack M)) { t with transitionMatricesOld := N } :=
  ⟨h.safe.augment .transitionMatricesOld (stack M), by rw [rd_augment_transitionMatricesOld h.safe.owns, h.eq, e]⟩

theorem rd_assign_gradTransitionMatrices (hv : s.Valid) (M : Fin p → Matrix (Fin k) (Fin k) K) :
    rd T D k p (s.assign .gradTransitionMatrices (stack M)) = { rd T D k p s with gradTransitionMatrices := M } :=
  (rd_eq_of_values (HState.values_assign (shape := mtdShape T D k p) hv .gradTransitionMatrices (stack M))).trans (by
    conv_rhs => rw [← unstack_stack M]
    rfl)

theorem Sim.assign_gradTransitionMatrices (h : Sim h0 n0 s t) {M N : Fin p → Matrix (Fin k) (Fin k) K} (e : M = N) :
    Sim h0 n0 (s.assign .gradTransitionMatrices (stack M)) { t with gradTransitionMatrices := N } :=
  ⟨h.safe.assign .gradTransitionMatrices (stack M), by rw [rd_assign_gradTransitionMatrices h.safe.valid, h.eq, e]⟩

theorem rd_augment_gradTransitionMatrices (ho : s.Owns (mtdShape T D k p) n0 fun _ => True) (M : Fin p → Matrix (Fin k) (Fin k) K) :
    rd T D k p (s.augment .gradTransitionMatrices (stack M)) = { rd T D k p s with gradTransitionMatrices := M } :=
  (rd_eq_of_values (HState.values_augment (shape := mtdShape T D k p) ho .gradTransitionMatrices (stack M))).trans (by
    conv_rhs => rw [← unstack_stack M]
    rfl)

theorem Sim.augment_gradTransitionMatrices (h : Sim h0 n0 s t) {M N : Fin p → Matrix (Fin k) (Fin k) K} (e : M = N) :
    Sim h0 n0 (s.augment .gradTransitionMatrices (stack M)) { t with gradTransitionMatrices := N } :=
  ⟨h.safe.augment .gradTransitionMatrices (stack M), by rw [rd_augment_gradTransitionMatrices h.safe.owns, h.eq, e]⟩

theorem rd_assign_incrTransitionMatrices (hv : s.Valid) (M : Fin p → Matrix (Fin k) (Fin k) K) :
    rd T D k p (s.assign .incrTransitionMatrices (stack M)) = { rd T D k p s with incrTransitionMatrices := M } :=
  (rd_eq_of_values (HState.values_assign (shape := mtdShape T D k p) hv .incrTransitionMatrices (stack M))).trans (by
    conv_rhs => rw [← unstack_stack M]
    rfl)

theorem Sim.assign_incrTransitionMatrices (h : Sim h0 n0 s t) {M N : Fin p → Matrix (Fin k) (Fin k) K} (e : M = N) :
    Sim h0 n0 (s.assign .incrTransitionMatrices (stack M)) { t with incrTransitionMatrices := N } :=
  ⟨h.safe.assign .incrTransitionMatrices (stack M), by rw [rd_assign_incrTransitionMatrices h.safe.valid, h.eq, e]⟩

theorem rd_augment_incrTransitionMatrices (ho : s.Owns (mtdShape T D k p) n0 fun _ => True) (M : Fin p → Matrix (Fin k) (Fin k) K) :
    rd T D k p (s.augment .incrTransitionMatrices (stack M)) = { rd T D k p s with incrTransitionMatrices := M } :=
  (rd_eq_of_values (HState.values_augment (shape := mtdShape T D k p) ho .incrTransitionMatrices (stack M))).trans (by
    conv_rhs => rw [← unstack_stack M]
    rfl)

theorem Sim.augment_incrTransitionMatrices (h : Sim h0 n0 s t) {M N : Fin p → Matrix (Fin k) (Fin k) K} (e : M = N) :
    Sim h0 n0 (s.augment .incrTransitionMatrices (stack M)) { t with incrTransitionMatrices := N } :=
  ⟨h.safe.augment .incrTransitionMatrices (stack M), by rw [rd_augment_incrTransitionMatrices h.safe.owns, h.eq, e]⟩

theorem rd_assign_deltaGradGamma (hv : s.Valid) (M : Matrix (Fin T) (Fin k) K) :
    rd T D k p (s.assign .deltaGradGamma M) = rd T D k p s :=
  (rd_eq_of_values (HState.values_assign (shape := mtdShape T D k p) hv .deltaGradGamma M)).trans rfl

theorem deltaGradGamma_assign (hv : s.Valid) (M : Matrix (Fin T) (Fin k) K) :
    deltaGradGamma T D k p (s.assign .deltaGradGamma M) = M :=
  (congrFun (HState.values_assign (shape := mtdShape T D k p) hv .deltaGradGamma M) .deltaGradGamma).trans
    (Function.update_self ..)

theorem Sim.assign_deltaGradGamma (h : Sim h0 n0 s t) (M : Matrix (Fin T) (Fin k) K) :
    Sim h0 n0 (s.assign .deltaGradGamma M) t :=
  ⟨h.safe.assign .deltaGradGamma M, by rw [rd_assign_deltaGradGamma h.safe.valid, h.eq]⟩

theorem rd_assign_deltaGradS (hv : s.Valid) (M : Matrix (Fin k) (Fin D) K) :
    rd T D k p (s.assign .deltaGradS M) = rd T D k p s :=
  (rd_eq_of_values (HState.values_assign (shape := mtdShape T D k p) hv .deltaGradS M)).trans rfl

theorem deltaGradS_assign (hv : s.Valid) (M : Matrix (Fin k) (Fin D) K) :
    deltaGradS T D k p (s.assign .deltaGradS M) = M :=
  (congrFun (HState.values_assign (shape := mtdShape T D k p) hv .deltaGradS M) .deltaGradS).trans
    (Function.update_self ..)

theorem Sim.assign_deltaGradS (h : Sim h0 n0 s t) (M : Matrix (Fin k) (Fin D) K) :
    Sim h0 n0 (s.assign .deltaGradS M) t :=
  ⟨h.safe.assign .deltaGradS M, by rw [rd_assign_deltaGradS h.safe.valid, h.eq]⟩

theorem rd_assign_deltaGradOrderWeights (hv : s.Valid) (M : Fin p → K) :
    rd T D k p (s.assign .deltaGradOrderWeights (asRow M)) = rd T D k p s :=
  (rd_eq_of_values (HState.values_assign (shape := mtdShape T D k p) hv .deltaGradOrderWeights (asRow M))).trans rfl

theorem deltaGradOrderWeights_assign (hv : s.Valid) (M : Fin p → K) :
    deltaGradOrderWeights T D k p (s.assign .deltaGradOrderWeights (asRow M)) = M :=
  (congrArg ofRow ((congrFun (HState.values_assign (shape := mtdShape T D k p) hv .deltaGradOrderWeights (asRow M))
    .deltaGradOrderWeights).trans (Function.update_self ..))).trans (rfl)

theorem Sim.assign_deltaGradOrderWeights (h : Sim h0 n0 s t) (M : Fin p → K) :
    Sim h0 n0 (s.assign .deltaGradOrderWeights (asRow M)) t :=
  ⟨h.safe.assign .deltaGradOrderWeights (asRow M), by rw [rd_assign_deltaGradOrderWeights h.safe.valid, h.eq]⟩

theorem rd_assign_deltaGradTransitionMatrices (hv : s.Valid) (M : Fin p → Matrix (Fin k) (Fin k) K) :
    rd T D k p (s.assign .deltaGradTransitionMatrices (stack M)) = rd T D k p s :=
  (rd_eq_of_values (HState.values_assign (shape := mtdShape T D k p) hv .deltaGradTransitionMatrices (stack M))).trans rfl

theorem deltaGradTransitionMatrices_assign (hv : s.Valid) (M : Fin p → Matrix (Fin k) (Fin k) K) :
    deltaGradTransitionMatrices T D k p (s.assign .deltaGradTransitionMatrices (stack M)) = M :=
  (congrArg unstack ((congrFun (HState.values_assign (shape := mtdShape T D k p) hv .deltaGradTransitionMatrices (stack M))
    .deltaGradTransitionMatrices).trans (Function.update_self ..))).trans (unstack_stack M)

theorem Sim.assign_deltaGradTransitionMatrices (h : Sim h0 n0 s t) (M : Fin p → Matrix (Fin k) (Fin k) K) :
    Sim h0 n0 (s.assign .deltaGradTransitionMatrices (stack M)) t :=
  ⟨h.safe.assign .deltaGradTransitionMatrices (stack M), by rw [rd_assign_deltaGradTransitionMatrices h.safe.valid, h.eq]⟩

theorem Sim.set_fSMem (h : Sim h0 n0 s t) (m : List K) :
    Sim h0 n0 ({ s with rest := { s.rest with fSMem := m } } : MTDMem K) { t with fSMem := m } := by
  refine ⟨h.safe.rest _, ?_⟩
  rw [← h.eq]
  rfl

theorem Sim.set_fGammaMem (h : Sim h0 n0 s t) (m : List K) :
    Sim h0 n0 ({ s with rest := { s.rest with fGammaMem := m } } : MTDMem K) { t with fGammaMem := m } := by
  refine ⟨h.safe.rest _, ?_⟩
  rw [← h.eq]
  rfl

theorem Sim.set_fParametersMem (h : Sim h0 n0 s t) (m : List K) :
    Sim h0 n0 ({ s with rest := { s.rest with fParametersMem := m } } : MTDMem K) { t with fParametersMem := m } := by
  refine ⟨h.safe.rest _, ?_⟩
  rw [← h.eq]
  rfl

theorem Sim.set_alphaS (h : Sim h0 n0 s t) {m m' : K} (e : m = m') :
    Sim h0 n0 ({ s with rest := { s.rest with alphaS := m } } : MTDMem K) { t with alphaS := m' } := by
  refine ⟨h.safe.rest _, ?_⟩
  rw [← h.eq, e]
  rfl

theorem Sim.set_alphaGamma (h : Sim h0 n0 s t) {m m' : K} (e : m = m') :
    Sim h0 n0 ({ s with rest := { s.rest with alphaGamma := m } } : MTDMem K) { t with alphaGamma := m' } := by
  refine ⟨h.safe.rest _, ?_⟩
  rw [← h.eq, e]
  rfl

theorem Sim.set_alphaParameters (h : Sim h0 n0 s t) {m m' : K} (e : m = m') :
    Sim h0 n0 ({ s with rest := { s.rest with alphaParameters := m } } : MTDMem K) { t with alphaParameters := m' } := by
  refine ⟨h.safe.rest _, ?_⟩
  rw [← h.eq, e]
  rfl

end MTDMem

end Reor
