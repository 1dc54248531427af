import Verif.Model.GPNHHeap
import Verif.Proofs.Heap
import Verif.Proofs.GPNHFit

/-!
`src/reor/gpnh_convex_coding.py` with arrays in memory does what the model on values does, and touches
only its own arrays.
-/

set_option linter.unusedSectionVars false

namespace Reor

open scoped BigOperators Matrix

variable {K : Type} [Field K] [LinearOrder K] [IsStrictOrderedRing K]

namespace GPNHMem

variable {T D k : ℕ} {h0 : Heap K} {n0 : ℕ}

/-- The object in memory has the values `t`, in arrays of its own. -/
structure Sim (h0 : Heap K) (n0 : ℕ) (s : GPNHMem K) (t : GPNHState T D k K) : Prop where
  safe : s.Safe (gpnhShape T D k) h0 n0
  eq : rd T D k s = t

variable {s : GPNHMem K} {t : GPNHState T D k K}

/-- `rd` in terms of all values. -/
theorem rd_eq_of_values {s' : GPNHMem K} {V : (a : GPNHAttr) → Matrix (Fin (gpnhShape T D k a).1)
    (Fin (gpnhShape T D k a).2) K} (hV : s'.values (gpnhShape T D k) = V) :
    rd T D k s' =
      { X := V .X, Gamma := V .Gamma, S := V .S, GtG := V .GtG, GtX := V .GtX, XSt := V .XSt
        SSt := V .SSt, GammaOld := V .GammaOld, gradGamma := V .gradGamma
        incrGamma := V .incrGamma, SOld := V .SOld, gradS := V .gradS, incrS := V .incrS
        alphaGamma := s'.rest.alphaGamma, alphaS := s'.rest.alphaS, fSMem := s'.rest.fSMem
        fGammaMem := s'.rest.fGammaMem } := by
  subst hV
  rfl

theorem rd_assign_X (hv : s.Valid) (M : Matrix (Fin T) (Fin D) K) :
    rd T D k (s.assign .X M) = { rd T D k s with X := M } :=
  rd_eq_of_values (HState.values_assign (shape := gpnhShape T D k) hv .X M)

theorem Sim.assign_X (h : Sim h0 n0 s t) {M N : Matrix (Fin T) (Fin D) K} (e : M = N) :
    Sim h0 n0 (s.assign .X M) { t with X := N } :=
  ⟨h.safe.assign .X M, by rw [rd_assign_X h.safe.valid, h.eq, e]⟩

theorem rd_augment_X (ho : s.Owns (gpnhShape T D k) n0 fun _ => True) (M : Matrix (Fin T) (Fin D) K) :
    rd T D k (s.augment .X M) = { rd T D k s with X := M } :=
  rd_eq_of_values (HState.values_augment (shape := gpnhShape T D k) ho .X M)

theorem Sim.augment_X (h : Sim h0 n0 s t) {M N : Matrix (Fin T) (Fin D) K} (e : M = N) :
    Sim h0 n0 (s.augment .X M) { t with X := N } :=
  ⟨h.safe.augment .X M, by rw [rd_augment_X h.safe.owns, h.eq, e]⟩

theorem rd_assign_Gamma (hv : s.Valid) (M : Matrix (Fin T) (Fin k) K) :
    rd T D k (s.assign .Gamma M) = { rd T D k s with Gamma := M } :=
  rd_eq_of_values (HState.values_assign (shape := gpnhShape T D k) hv .Gamma M)

theorem Sim.assign_Gamma (h : Sim h0 n0 s t) {M N : Matrix (Fin T) (Fin k) K} (e : M = N) :
    Sim h0 n0 (s.assign .Gamma M) { t with Gamma := N } :=
  ⟨h.safe.assign .Gamma M, by rw [rd_assign_Gamma h.safe.valid, h.eq, e]⟩

theorem rd_augment_Gamma (ho : s.Owns (gpnhShape T D k) n0 fun _ => True) (M : Matrix (Fin T) (Fin k) K) :
    rd T D k (s.augment .Gamma M) = { rd T D k s with Gamma := M } :=
  rd_eq_of_values (HState.values_augment (shape := gpnhShape T D k) ho .Gamma M)

theorem Sim.augment_Gamma (h : Sim h0 n0 s t) {M N : Matrix (Fin T) (Fin k) K} (e : M = N) :
    Sim h0 n0 (s.augment .Gamma M) { t with Gamma := N } :=
  ⟨h.safe.augment .Gamma M, by rw [rd_augment_Gamma h.safe.owns, h.eq, e]⟩

theorem rd_assign_S (hv : s.Valid) (M : Matrix (Fin k) (Fin D) K) :
    rd T D k (s.assign .S M) = { rd T D k s with S := M } :=
  rd_eq_of_values (HState.values_assign (shape := gpnhShape T D k) hv .S M)

theorem Sim.assign_S (h : Sim h0 n0 s t) {M N : Matrix (Fin k) (Fin D) K} (e : M = N) :
    Sim h0 n0 (s.assign .S M) { t with S := N } :=
  ⟨h.safe.assign .S M, by rw [rd_assign_S h.safe.valid, h.eq, e]⟩

theorem rd_augment_S (ho : s.Owns (gpnhShape T D k) n0 fun _ => True) (M : Matrix (Fin k) (Fin D) K) :
    rd T D k (s.augment .S M) = { rd T D k s with S := M } :=
  rd_eq_of_values (HState.values_augment (shape := gpnhShape T D k) ho .S M)

theorem Sim.augment_S (h : Sim h0 n0 s t) {M N : Matrix (Fin k) (Fin D) K} (e : M = N) :
    Sim h0 n0 (s.augment .S M) { t with S := N } :=
  ⟨h.safe.augment .S M, by rw [rd_augment_S h.safe.owns, h.eq, e]⟩

theorem rd_assign_GtG (hv : s.Valid) (M : Matrix (Fin k) (Fin k) K) :
    rd T D k (s.assign .GtG M) = { rd T D k s with GtG := M } :=
  rd_eq_of_values (HState.values_assign (shape := gpnhShape T D k) hv .GtG M)

theorem Sim.assign_GtG (h : Sim h0 n0 s t) {M N : Matrix (Fin k) (Fin k) K} (e : M = N) :
    Sim h0 n0 (s.assign .GtG M) { t with GtG := N } :=
  ⟨h.safe.assign .GtG M, by rw [rd_assign_GtG h.safe.valid, h.eq, e]⟩

theorem rd_augment_GtG (ho : s.Owns (gpnhShape T D k) n0 fun _ => True) (M : Matrix (Fin k) (Fin k) K) :
    rd T D k (s.augment .GtG M) = { rd T D k s with GtG := M } :=
  rd_eq_of_values (HState.values_augment (shape := gpnhShape T D k) ho .GtG M)

theorem Sim.augment_GtG (h : Sim h0 n0 s t) {M N : Matrix (Fin k) (Fin k) K} (e : M = N) :
    Sim h0 n0 (s.augment .GtG M) { t with GtG := N } :=
  ⟨h.safe.augment .GtG M, by rw [rd_augment_GtG h.safe.owns, h.eq, e]⟩

theorem rd_assign_GtX (hv : s.Valid) (M : Matrix (Fin k) (Fin D) K) :
    rd T D k (s.assign .GtX M) = { rd T D k s with GtX := M } :=
  rd_eq_of_values (HState.values_assign (shape := gpnhShape T D k) hv .GtX M)

theorem Sim.assign_GtX (h : Sim h0 n0 s t) {M N : Matrix (Fin k) (Fin D) K} (e : M = N) :
    Sim h0 n0 (s.assign .GtX M) { t with GtX := N } :=
  ⟨h.safe.assign .GtX M, by rw [rd_assign_GtX h.safe.valid, h.eq, e]⟩

theorem rd_augment_GtX (ho : s.Owns (gpnhShape T D k) n0 fun _ => True) (M : Matrix (Fin k) (Fin D) K) :
    rd T D k (s.augment .GtX M) = { rd T D k s with GtX := M } :=
  rd_eq_of_values (HState.values_augment (shape := gpnhShape T D k) ho .GtX M)

theorem Sim.augment_GtX (h : Sim h0 n0 s t) {M N : Matrix (Fin k) (Fin D) K} (e : M = N) :
    Sim h0 n0 (s.augment .GtX M) { t with GtX := N } :=
  ⟨h.safe.augment .GtX M, by rw [rd_augment_GtX h.safe.owns, h.eq, e]⟩

theorem rd_assign_XSt (hv : s.Valid) (M : Matrix (Fin T) (Fin k) K) :
    rd T D k (s.assign .XSt M) = { rd T D k s with XSt := M } :=
  rd_eq_of_values (HState.values_assign (shape := gpnhShape T D k) hv .XSt M)

theorem Sim.assign_XSt (h : Sim h0 n0 s t) {M N : Matrix (Fin T) (Fin k) K} (e : M = N) :
    Sim h0 n0 (s.assign .XSt M) { t with XSt := N } :=
  ⟨h.safe.assign .XSt M, by rw [rd_assign_XSt h.safe.valid, h.eq, e]⟩

theorem rd_augment_XSt (ho : s.Owns (gpnhShape T D k) n0 fun _ => True) (M : Matrix (Fin T) (Fin k) K) :
    rd T D k (s.augment .XSt M) = { rd T D k s with XSt := M } :=
  rd_eq_of_values (HState.values_augment (shape := gpnhShape T D k) ho .XSt M)

theorem Sim.augment_XSt (h : Sim h0 n0 s t) {M N : Matrix (Fin T) (Fin k) K} (e : M = N) :
    Sim h0 n0 (s.augment .XSt M) { t with XSt := N } :=
  ⟨h.safe.augment .XSt M, by rw [rd_augment_XSt h.safe.owns, h.eq, e]⟩

theorem rd_assign_SSt (hv : s.Valid) (M : Matrix (Fin k) (Fin k) K) :
    rd T D k (s.assign .SSt M) = { rd T D k s with SSt := M } :=
  rd_eq_of_values (HState.values_assign (shape := gpnhShape T D k) hv .SSt M)

theorem Sim.assign_SSt (h : Sim h0 n0 s t) {M N : Matrix (Fin k) (Fin k) K} (e : M = N) :
    Sim h0 n0 (s.assign .SSt M) { t with SSt := N } :=
  ⟨h.safe.assign .SSt M, by rw [rd_assign_SSt h.safe.valid, h.eq, e]⟩

theorem rd_augment_SSt (ho : s.Owns (gpnhShape T D k) n0 fun _ => True) (M : Matrix (Fin k) (Fin k) K) :
    rd T D k (s.augment .SSt M) = { rd T D k s with SSt := M } :=
  rd_eq_of_values (HState.values_augment (shape := gpnhShape T D k) ho .SSt M)

theorem Sim.augment_SSt (h : Sim h0 n0 s t) {M N : Matrix (Fin k) (Fin k) K} (e : M = N) :
    Sim h0 n0 (s.augment .SSt M) { t with SSt := N } :=
  ⟨h.safe.augment .SSt M, by rw [rd_augment_SSt h.safe.owns, h.eq, e]⟩

theorem rd_assign_GammaOld (hv : s.Valid) (M : Matrix (Fin T) (Fin k) K) :
    rd T D k (s.assign .GammaOld M) = { rd T D k s with GammaOld := M } :=
  rd_eq_of_values (HState.values_assign (shape := gpnhShape T D k) hv .GammaOld M)

theorem Sim.assign_GammaOld (h : Sim h0 n0 s t) {M N : Matrix (Fin T) (Fin k) K} (e : M = N) :
    Sim h0 n0 (s.assign .GammaOld M) { t with GammaOld := N } :=
  ⟨h.safe.assign .GammaOld M, by rw [rd_assign_GammaOld h.safe.valid, h.eq, e]⟩

theorem rd_augment_GammaOld (ho : s.Owns (gpnhShape T D k) n0 fun _ => True) (M : Matrix (Fin T) (Fin k) K) :
    rd T D k (s.augment .GammaOld M) = { rd T D k s with GammaOld := M } :=
  rd_eq_of_values (HState.values_augment (shape := gpnhShape T D k) ho .GammaOld M)

theorem Sim.augment_GammaOld (h : Sim h0 n0 s t) {M N : Matrix (Fin T) (Fin k) K} (e : M = N) :
    Sim h0 n0 (s.augment .GammaOld M) { t with GammaOld := N } :=
  ⟨h.safe.augment .GammaOld M, by rw [rd_augment_GammaOld h.safe.owns, h.eq, e]⟩

theorem rd_assign_gradGamma (hv : s.Valid) (M : Matrix (Fin T) (Fin k) K) :
    rd T D k (s.assign .gradGamma M) = { rd T D k s with gradGamma := M } :=
  rd_eq_of_values (HState.values_assign (shape := gpnhShape T D k) hv .gradGamma M)

theorem Sim.assign_gradGamma (h : Sim h0 n0 s t) {M N : Matrix (Fin T) (Fin k) K} (e : M = N) :
    Sim h0 n0 (s.assign .gradGamma M) { t with gradGamma := N } :=
  ⟨h.safe.assign .gradGamma M, by rw [rd_assign_gradGamma h.safe.valid, h.eq, e]⟩

theorem rd_augment_gradGamma (ho : s.Owns (gpnhShape T D k) n0 fun _ => True) (M : Matrix (Fin T) (Fin k) K) :
    rd T D k (s.augment .gradGamma M) = { rd T D k s with gradGamma := M } :=
  rd_eq_of_values (HState.values_augment (shape := gpnhShape T D k) ho .gradGamma M)

theorem Sim.augment_gradGamma (h : Sim h0 n0 s t) {M N : Matrix (Fin T) (Fin k) K} (e : M = N) :
    Sim h0 n0 (s.augment .gradGamma M) { t with gradGamma := N } :=
  ⟨h.safe.augment .gradGamma M, by rw [rd_augment_gradGamma h.safe.owns, h.eq, e]⟩

theorem rd_assign_incrGamma (hv : s.Valid) (M : Matrix (Fin T) (Fin k) K) :
    rd T D k (s.assign .incrGamma M) = { rd T D k s with incrGamma := M } :=
  rd_eq_of_values (HState.values_assign (shape := gpnhShape T D k) hv .incrGamma M)

theorem Sim.assign_incrGamma (h : Sim h0 n0 s t) {M N : Matrix (Fin T) (Fin k) K} (e : M = N) :
    Sim h0 n0 (s.assign .incrGamma M) { t with incrGamma := N } :=
  ⟨h.safe.assign .incrGamma M, by rw [rd_assign_incrGamma h.safe.valid, h.eq, e]⟩

theorem rd_augment_incrGamma (ho : s.Owns (gpnhShape T D k) n0 fun _ => True) (M : Matrix (Fin T) (Fin k) K) :
    rd T D k (s.augment .incrGamma M) = { rd T D k s with incrGamma := M } :=
  rd_eq_of_values (HState.values_augment (shape := gpnhShape T D k) ho .incrGamma M)

theorem Sim.augment_incrGamma (h : Sim h0 n0 s t) {M N : Matrix (Fin T) (Fin k) K} (e : M = N) :
    Sim h0 n0 (s.augment .incrGamma M) { t with incrGamma := N } :=
  ⟨h.safe.augment .incrGamma M, by rw [rd_augment_incrGamma h.safe.owns, h.eq, e]⟩

theorem rd_assign_SOld (hv : s.Valid) (M : Matrix (Fin k) (Fin D) K) :
    rd T D k (s.assign .SOld M) = { rd T D k s with SOld := M } :=
  rd_eq_of_values (HState.values_assign (shape := gpnhShape T D k) hv .SOld M)

theorem Sim.assign_SOld (h : Sim h0 n0 s t) {M N : Matrix (Fin k) (Fin D) K} (e : M = N) :
    Sim h0 n0 (s.assign .SOld M) { t with SOld := N } :=
  ⟨h.safe.assign .SOld M, by rw [rd_assign_SOld h.safe.valid, h.eq, e]⟩

theorem rd_augment_SOld (ho : s.Owns (gpnhShape T D k) n0 fun _ => True) (M : Matrix (Fin k) (Fin D) K) :
    rd T D k (s.augment .SOld M) = { rd T D k s with SOld := M } :=
  rd_eq_of_values (HState.values_augment (shape := gpnhShape T D k) ho .SOld M)

theorem Sim.augment_SOld (h : Sim h0 n0 s t) {M N : Matrix (Fin k) (Fin D) K} (e : M = N) :
    Sim h0 n0 (s.augment .SOld M) { t with SOld := N } :=
  ⟨h.safe.augment .SOld M, by rw [rd_augment_SOld h.safe.owns, h.eq, e]⟩

theorem rd_assign_gradS (hv : s.Valid) (M : Matrix (Fin k) (Fin D) K) :
    rd T D k (s.assign .gradS M) = { rd T D k s with gradS := M } :=
  rd_eq_of_values (HState.values_assign (shape := gpnhShape T D k) hv .gradS M)

theorem Sim.assign_gradS (h : Sim h0 n0 s t) {M N : Matrix (Fin k) (Fin D) K} (e : M = N) :
    Sim h0 n0 (s.assign .gradS M) { t with gradS := N } :=
  ⟨h.safe.assign .gradS M, by rw [rd_assign_gradS h.safe.valid, h.eq, e]⟩

theorem rd_augment_gradS (ho : s.Owns (gpnhShape T D k) n0 fun _ => True) (M : Matrix (Fin k) (Fin D) K) :
    rd T D k (s.augment .gradS M) = { rd T D k s with gradS := M } :=
  rd_eq_of_values (HState.values_augment (shape := gpnhShape T D k) ho .gradS M)

theorem Sim.augment_gradS (h : Sim h0 n0 s t) {M N : Matrix (Fin k) (Fin D) K} (e : M = N) :
    Sim h0 n0 (s.augment .gradS M) { t with gradS := N } :=
  ⟨h.safe.augment .gradS M, by rw [rd_augment_gradS h.safe.owns, h.eq, e]⟩

theorem rd_assign_incrS (hv : s.Valid) (M : Matrix (Fin k) (Fin D) K) :
    rd T D k (s.assign .incrS M) = { rd T D k s with incrS := M } :=
  rd_eq_of_values (HState.values_assign (shape := gpnhShape T D k) hv .incrS M)

theorem Sim.assign_incrS (h : Sim h0 n0 s t) {M N : Matrix (Fin k) (Fin D) K} (e : M = N) :
    Sim h0 n0 (s.assign .incrS M) { t with incrS := N } :=
  ⟨h.safe.assign .incrS M, by rw [rd_assign_incrS h.safe.valid, h.eq, e]⟩

theorem rd_augment_incrS (ho : s.Owns (gpnhShape T D k) n0 fun _ => True) (M : Matrix (Fin k) (Fin D) K) :
    rd T D k (s.augment .incrS M) = { rd T D k s with incrS := M } :=
  rd_eq_of_values (HState.values_augment (shape := gpnhShape T D k) ho .incrS M)

theorem Sim.augment_incrS (h : Sim h0 n0 s t) {M N : Matrix (Fin k) (Fin D) K} (e : M = N) :
    Sim h0 n0 (s.augment .incrS M) { t with incrS := N } :=
  ⟨h.safe.augment .incrS M, by rw [rd_augment_incrS h.safe.owns, h.eq, e]⟩

theorem rd_assign_deltaGradGamma (hv : s.Valid) (M : Matrix (Fin T) (Fin k) K) :
    rd T D k (s.assign .deltaGradGamma M) = rd T D k s :=
  (rd_eq_of_values (HState.values_assign (shape := gpnhShape T D k) hv .deltaGradGamma M)).trans rfl

theorem deltaGradGamma_assign (hv : s.Valid) (M : Matrix (Fin T) (Fin k) K) :
    deltaGradGamma T D k (s.assign .deltaGradGamma M) = M :=
  (congrFun (HState.values_assign (shape := gpnhShape T D k) hv .deltaGradGamma M) .deltaGradGamma).trans
    (Function.update_self ..)

theorem Sim.assign_deltaGradGamma (h : Sim h0 n0 s t) (M : Matrix (Fin T) (Fin k) K) :
    Sim h0 n0 (s.assign .deltaGradGamma M) t :=
  ⟨h.safe.assign .deltaGradGamma M, by rw [rd_assign_deltaGradGamma h.safe.valid, h.eq]⟩

theorem rd_assign_deltaGradS (hv : s.Valid) (M : Matrix (Fin k) (Fin D) K) :
    rd T D k (s.assign .deltaGradS M) = rd T D k s :=
  (rd_eq_of_values (HState.values_assign (shape := gpnhShape T D k) hv .deltaGradS M)).trans rfl

theorem deltaGradS_assign (hv : s.Valid) (M : Matrix (Fin k) (Fin D) K) :
    deltaGradS T D k (s.assign .deltaGradS M) = M :=
  (congrFun (HState.values_assign (shape := gpnhShape T D k) hv .deltaGradS M) .deltaGradS).trans
    (Function.update_self ..)

theorem Sim.assign_deltaGradS (h : Sim h0 n0 s t) (M : Matrix (Fin k) (Fin D) K) :
    Sim h0 n0 (s.assign .deltaGradS M) t :=
  ⟨h.safe.assign .deltaGradS M, by rw [rd_assign_deltaGradS h.safe.valid, h.eq]⟩

theorem Sim.evaluateCost (h : Sim h0 n0 s t) (eps : K) :
    GPNHMem.evaluateCost T D k eps s = t.evaluateCost eps := by
  unfold GPNHMem.evaluateCost
  rw [h.eq]

theorem Sim.dictionaryPenaltyGradient (h : Sim h0 n0 s t) (eps : K) :
    Sim h0 n0 (GPNHMem.dictionaryPenaltyGradient T D k eps s) (t.dictionaryPenaltyGradient eps) := by
  unfold GPNHMem.dictionaryPenaltyGradient GPNHState.dictionaryPenaltyGradient
  split_ifs with hk
  · exact h.assign_gradS rfl
  · exact h.assign_gradS (by rw [h.eq])

theorem Sim.updateDictionaryGradient (h : Sim h0 n0 s t) (eps : K) :
    Sim h0 n0 (GPNHMem.updateDictionaryGradient T D k eps s) (t.updateDictionaryGradient eps) := by
  have h1 := h.dictionaryPenaltyGradient eps
  have h2 := h1.augment_gradS (M := _) (N := _) (congrArg (fun u : GPNHState T D k K =>
    u.gradS + (-2 * (1 / ((D : K) * (T : K)))) • u.GtX) h1.eq)
  exact h2.augment_gradS (congrArg (fun u : GPNHState T D k K =>
    u.gradS + (2 * (1 / ((D : K) * (T : K)))) • (u.GtG * u.S)) h2.eq)

theorem Sim.dictionaryFirst (h : Sim h0 n0 s t) (ht : t.SOld = t.S) (eps : K) :
    Sim h0 n0 (GPNHMem.dictionaryFirst T D k eps s).1 (t.dictionaryTrial eps 1).1 ∧
      (GPNHMem.dictionaryFirst T D k eps s).2 = (t.dictionaryTrial eps 1).2 := by
  have h1 : Sim h0 n0 (s.augment .S ((rd T D k s).S + (rd T D k s).incrS))
      { t with S := t.SOld + (1 : K) • t.incrS } :=
    h.augment_S (by rw [h.eq, one_smul, ht])
  have h2 := h1.assign_SSt (M := _) (N := _)
    (congrArg (fun u : GPNHState T D k K => u.S * u.Sᵀ) h1.eq)
  exact ⟨h2, h2.evaluateCost eps⟩

theorem Sim.dictionaryTrial (h : Sim h0 n0 s t) (eps step : K) :
    Sim h0 n0 (GPNHMem.dictionaryTrial T D k eps s step).1 (t.dictionaryTrial eps step).1 ∧
      (GPNHMem.dictionaryTrial T D k eps s step).2 = (t.dictionaryTrial eps step).2 := by
  have h1 : Sim h0 n0 (s.assign .S ((rd T D k s).SOld + step • (rd T D k s).incrS))
      { t with S := t.SOld + step • t.incrS } :=
    h.assign_S (by rw [h.eq])
  have h2 := h1.assign_SSt (M := _) (N := _)
    (congrArg (fun u : GPNHState T D k K => u.S * u.Sᵀ) h1.eq)
  exact ⟨h2, h2.evaluateCost eps⟩

theorem Sim.setFSMem (h : Sim h0 n0 s t) (m : List K) :
    Sim h0 n0 ({ s with rest := { s.rest with fSMem := m } } : GPNHMem K)
      { t with fSMem := m } := by
  refine ⟨h.safe.rest _, ?_⟩
  rw [← h.eq]
  rfl

theorem Sim.setFGammaMem (h : Sim h0 n0 s t) (m : List K) :
    Sim h0 n0 ({ s with rest := { s.rest with fGammaMem := m } } : GPNHMem K)
      { t with fGammaMem := m } := by
  refine ⟨h.safe.rest _, ?_⟩
  rw [← h.eq]
  rfl

theorem Sim.setAlphaS (h : Sim h0 n0 s t) {m m' : K} (e : m = m') :
    Sim h0 n0 ({ s with rest := { s.rest with alphaS := m } } : GPNHMem K)
      { t with alphaS := m' } := by
  refine ⟨h.safe.rest _, ?_⟩
  rw [← h.eq, e]
  rfl

theorem Sim.setAlphaGamma (h : Sim h0 n0 s t) {m m' : K} (e : m = m') :
    Sim h0 n0 ({ s with rest := { s.rest with alphaGamma := m } } : GPNHMem K)
      { t with alphaGamma := m' } := by
  refine ⟨h.safe.rest _, ?_⟩
  rw [← h.eq, e]
  rfl

theorem Sim.keeps (h : Sim h0 n0 s t) : h0.Keeps s.heap n0 := h.safe.keeps

theorem Sim.dictionaryLineSearch (h : Sim h0 n0 s t) (cfg : LSConfig K) (eps : K) :
    HRel h0 n0 (fun r r' => Sim h0 n0 r.1 r'.1 ∧ r.2 = r'.2)
      (GPNHMem.dictionaryLineSearch T D k cfg eps s) (t.dictionaryLineSearch cfg eps) := by
  have h1 : Sim h0 n0 (s.assign .SOld (rd T D k s).S) { t with SOld := t.S } :=
    h.assign_SOld (by rw [h.eq])
  refine HRel.bind
    (x := hLineSearch cfg (GPNHMem.dictionaryFirst T D k eps) (GPNHMem.dictionaryTrial T D k eps)
      (s.assign .SOld (rd T D k s).S).rest.fSMem (s.assign .SOld (rd T D k s).S)
      (GPNHMem.evaluateCost T D k eps s)
      (mulSum (rd T D k (s.assign .SOld (rd T D k s).S)).incrS
        (rd T D k (s.assign .SOld (rd T D k s).S)).gradS))
    (y := lineSearch cfg (GPNHState.dictionaryTrial eps) t.fSMem { t with SOld := t.S }
      (t.evaluateCost eps) (mulSum t.incrS t.gradS))
    (P := fun r r' => Sim h0 n0 r.state r'.state ∧ r.mem = r'.mem ∧ r.stepSize = r'.stepSize) ?_ ?_
  · rw [h.evaluateCost eps, h1.eq,
      show (s.assign .SOld (rd T D k s).S).rest.fSMem = t.fSMem from
        (congrArg (fun u : GPNHState T D k K => u.fSMem) h1.eq).trans rfl]
    exact hLineSearch_rel (R := fun s t => Sim h0 n0 s t) (fun _ _ h => h.keeps)
      (fun s t a h => h.dictionaryTrial eps a) h1 (h1.dictionaryFirst rfl eps)
  rintro a b ⟨h2, e1, e2⟩
  refine ⟨?_, e2⟩
  simp only [e1]
  exact h2.setFSMem _

theorem Sim.prepareDictionary (h : Sim h0 n0 s t) (eps : K) :
    Sim h0 n0 (GPNHMem.prepareDictionary T D k eps s) (t.prepareDictionary eps) := by
  have h1 := h.assign_SSt (M := _) (N := _)
    (congrArg (fun u : GPNHState T D k K => u.S * u.Sᵀ) h.eq)
  have h2 := h1.assign_GtX (M := _) (N := _)
    (congrArg (fun u : GPNHState T D k K => u.Gammaᵀ * u.X) h1.eq)
  have h3 := h2.assign_GtG (M := _) (N := _)
    (congrArg (fun u : GPNHState T D k K => u.Gammaᵀ * u.Gamma) h2.eq)
  have h4 := h3.updateDictionaryGradient eps
  have h5 := h4.assign_incrS (M := _) (N := _)
    (congrArg (fun u : GPNHState T D k K => u.S - u.alphaS • u.gradS) h4.eq)
  exact h5.augment_incrS (congrArg (fun u : GPNHState T D k K => u.incrS - u.S) h5.eq)

theorem deltaGradS_updateDictionaryGradient (h : s.Safe (gpnhShape T D k) h0 n0) (eps : K) :
    deltaGradS T D k (GPNHMem.updateDictionaryGradient T D k eps s) = deltaGradS T D k s := by
  have key : ∀ (s : GPNHMem K), s.Safe (gpnhShape T D k) h0 n0 → ∀ M : Matrix (Fin k) (Fin D) K,
      deltaGradS T D k (s.augment .gradS M) = deltaGradS T D k s := fun s hs M =>
    (congrFun (HState.values_augment (shape := gpnhShape T D k) hs.owns .gradS M) .deltaGradS).trans
      (Function.update_of_ne (by decide) ..)
  have key' : ∀ (s : GPNHMem K), s.Safe (gpnhShape T D k) h0 n0 → ∀ M : Matrix (Fin k) (Fin D) K,
      deltaGradS T D k (s.assign .gradS M) = deltaGradS T D k s := fun s hs M =>
    (congrFun (HState.values_assign (shape := gpnhShape T D k) hs.valid .gradS M) .deltaGradS).trans
      (Function.update_of_ne (by decide) ..)
  have h1 : (GPNHMem.dictionaryPenaltyGradient T D k eps s).Safe (gpnhShape T D k) h0 n0 ∧
      deltaGradS T D k (GPNHMem.dictionaryPenaltyGradient T D k eps s) = deltaGradS T D k s := by
    unfold GPNHMem.dictionaryPenaltyGradient
    split_ifs
    · exact ⟨h.assign _ _, key' s h _⟩
    · exact ⟨h.assign _ _, key' s h _⟩
  unfold GPNHMem.updateDictionaryGradient
  exact ((key _ (h1.1.augment _ _) _).trans (key _ h1.1 _)).trans h1.2

theorem Sim.finishDictionary (h : Sim h0 n0 s t) (cfg : LSConfig K) (eps step : K) :
    Sim h0 n0 (GPNHMem.finishDictionary T D k cfg eps s step)
      { t.updateDictionaryGradient eps with
        alphaS := nextSpgAlpha
          (step * mulSum (t.updateDictionaryGradient eps).incrS
            ((t.updateDictionaryGradient eps).gradS - t.gradS))
          (step ^ 2 * mulSum (t.updateDictionaryGradient eps).incrS
            (t.updateDictionaryGradient eps).incrS) cfg.alphaMin cfg.alphaMax } := by
  have h1 := h.assign_deltaGradS (rd T D k s).gradS
  have h2 := h1.updateDictionaryGradient eps
  have e2 : deltaGradS T D k (GPNHMem.updateDictionaryGradient T D k eps
      (s.assign .deltaGradS (rd T D k s).gradS)) = t.gradS := by
    rw [deltaGradS_updateDictionaryGradient h1.safe, deltaGradS_assign h.safe.valid, h.eq]
  have h3 := h2.assign_deltaGradS ((rd T D k (GPNHMem.updateDictionaryGradient T D k eps
      (s.assign .deltaGradS (rd T D k s).gradS))).gradS - deltaGradS T D k
        (GPNHMem.updateDictionaryGradient T D k eps (s.assign .deltaGradS (rd T D k s).gradS)))
  unfold GPNHMem.finishDictionary
  refine h3.setAlphaS ?_
  rw [h3.eq, deltaGradS_assign h2.safe.valid, e2, h2.eq]

theorem Sim.updateDictionary (h : Sim h0 n0 s t) (cfg : LSConfig K) (eps : K) :
    HRel h0 n0 (Sim h0 n0) (GPNHMem.updateDictionary T D k cfg eps s)
      (t.updateDictionary cfg eps) := by
  unfold GPNHMem.updateDictionary GPNHState.updateDictionary
  refine HRel.bind ((h.prepareDictionary eps).dictionaryLineSearch cfg eps) ?_
  rintro ⟨a, x⟩ ⟨b, y⟩ ⟨h1, e⟩
  obtain rfl : x = y := e
  exact h1.finishDictionary cfg eps x

theorem Sim.updateWeightsGradient (h : Sim h0 n0 s t) :
    Sim h0 n0 (GPNHMem.updateWeightsGradient T D k s) t.updateWeightsGradient := by
  have h1 := h.assign_gradGamma (M := 0) (N := 0) rfl
  have h2 := h1.augment_gradGamma (M := _) (N := _) (congrArg (fun u : GPNHState T D k K =>
    u.gradGamma + (-2 * (1 / ((D : K) * (T : K)))) • u.XSt) h1.eq)
  exact h2.augment_gradGamma (congrArg (fun u : GPNHState T D k K =>
    u.gradGamma + (2 * (1 / ((D : K) * (T : K)))) • (u.Gamma * u.SSt)) h2.eq)

theorem Sim.weightsFirst (h : Sim h0 n0 s t) (ht : t.GammaOld = t.Gamma) (eps : K) :
    Sim h0 n0 (GPNHMem.weightsFirst T D k eps s).1 (t.weightsTrial eps 1).1 ∧
      (GPNHMem.weightsFirst T D k eps s).2 = (t.weightsTrial eps 1).2 := by
  have h1 : Sim h0 n0 (s.augment .Gamma ((rd T D k s).Gamma + (rd T D k s).incrGamma))
      { t with Gamma := t.GammaOld + (1 : K) • t.incrGamma } :=
    h.augment_Gamma (by rw [h.eq, one_smul, ht])
  exact ⟨h1, h1.evaluateCost eps⟩

theorem Sim.weightsTrial (h : Sim h0 n0 s t) (eps step : K) :
    Sim h0 n0 (GPNHMem.weightsTrial T D k eps s step).1 (t.weightsTrial eps step).1 ∧
      (GPNHMem.weightsTrial T D k eps s step).2 = (t.weightsTrial eps step).2 := by
  have h1 : Sim h0 n0 (s.assign .Gamma ((rd T D k s).GammaOld + step • (rd T D k s).incrGamma))
      { t with Gamma := t.GammaOld + step • t.incrGamma } :=
    h.assign_Gamma (by rw [h.eq])
  exact ⟨h1, h1.evaluateCost eps⟩

theorem Sim.weightsLineSearch (h : Sim h0 n0 s t) (cfg : LSConfig K) (eps : K) :
    HRel h0 n0 (fun r r' => Sim h0 n0 r.1 r'.1 ∧ r.2 = r'.2)
      (GPNHMem.weightsLineSearch T D k cfg eps s) (t.weightsLineSearch cfg eps) := by
  have h1 : Sim h0 n0 (s.assign .GammaOld (rd T D k s).Gamma) { t with GammaOld := t.Gamma } :=
    h.assign_GammaOld (by rw [h.eq])
  refine HRel.bind
    (x := hLineSearch cfg (GPNHMem.weightsFirst T D k eps) (GPNHMem.weightsTrial T D k eps)
      (s.assign .GammaOld (rd T D k s).Gamma).rest.fGammaMem (s.assign .GammaOld (rd T D k s).Gamma)
      (GPNHMem.evaluateCost T D k eps s)
      (mulSum (rd T D k (s.assign .GammaOld (rd T D k s).Gamma)).incrGamma
        (rd T D k (s.assign .GammaOld (rd T D k s).Gamma)).gradGamma))
    (y := lineSearch cfg (GPNHState.weightsTrial eps) t.fGammaMem { t with GammaOld := t.Gamma }
      (t.evaluateCost eps) (mulSum t.incrGamma t.gradGamma))
    (P := fun r r' => Sim h0 n0 r.state r'.state ∧ r.mem = r'.mem ∧ r.stepSize = r'.stepSize) ?_ ?_
  · rw [h.evaluateCost eps, h1.eq,
      show (s.assign .GammaOld (rd T D k s).Gamma).rest.fGammaMem = t.fGammaMem from
        (congrArg (fun u : GPNHState T D k K => u.fGammaMem) h1.eq).trans rfl]
    exact hLineSearch_rel (R := fun s t => Sim h0 n0 s t) (fun _ _ h => h.keeps)
      (fun s t a h => h.weightsTrial eps a) h1 (h1.weightsFirst rfl eps)
  rintro a b ⟨h2, e1, e2⟩
  refine ⟨?_, e2⟩
  simp only [e1]
  exact h2.setFGammaMem _

theorem Sim.prepareWeights (h : Sim h0 n0 s t) :
    Sim h0 n0 (GPNHMem.prepareWeights T D k s) t.prepareWeights := by
  have h1 := h.assign_SSt (M := _) (N := _)
    (congrArg (fun u : GPNHState T D k K => u.S * u.Sᵀ) h.eq)
  have h2 := h1.assign_XSt (M := _) (N := _)
    (congrArg (fun u : GPNHState T D k K => u.X * u.Sᵀ) h1.eq)
  have h4 := h2.updateWeightsGradient
  have h5 := h4.assign_incrGamma (M := _) (N := _)
    (congrArg (fun u : GPNHState T D k K => u.Gamma - u.alphaGamma • u.gradGamma) h4.eq)
  have h6 := h5.augment_incrGamma (M := _) (N := _)
    (congrArg (fun u : GPNHState T D k K => simplexProjectRows u.incrGamma) h5.eq)
  exact h6.augment_incrGamma
    (congrArg (fun u : GPNHState T D k K => u.incrGamma - u.Gamma) h6.eq)

theorem deltaGradGamma_updateWeightsGradient (h : s.Safe (gpnhShape T D k) h0 n0) :
    deltaGradGamma T D k (GPNHMem.updateWeightsGradient T D k s) = deltaGradGamma T D k s := by
  have key : ∀ (s : GPNHMem K), s.Safe (gpnhShape T D k) h0 n0 → ∀ M : Matrix (Fin T) (Fin k) K,
      deltaGradGamma T D k (s.augment .gradGamma M) = deltaGradGamma T D k s := fun s hs M =>
    (congrFun (HState.values_augment (shape := gpnhShape T D k) hs.owns .gradGamma M)
      .deltaGradGamma).trans (Function.update_of_ne (by decide) ..)
  have key' : ∀ (s : GPNHMem K), s.Safe (gpnhShape T D k) h0 n0 → ∀ M : Matrix (Fin T) (Fin k) K,
      deltaGradGamma T D k (s.assign .gradGamma M) = deltaGradGamma T D k s := fun s hs M =>
    (congrFun (HState.values_assign (shape := gpnhShape T D k) hs.valid .gradGamma M)
      .deltaGradGamma).trans (Function.update_of_ne (by decide) ..)
  unfold GPNHMem.updateWeightsGradient
  exact ((key _ ((h.assign _ _).augment _ _) _).trans (key _ (h.assign _ _) _)).trans (key' s h _)

theorem Sim.finishWeights (h : Sim h0 n0 s t) (cfg : LSConfig K) (step : K) :
    Sim h0 n0 (GPNHMem.finishWeights T D k cfg s step)
      { t.updateWeightsGradient with
        alphaGamma := nextSpgAlpha
          (step * mulSum t.updateWeightsGradient.incrGamma
            (t.updateWeightsGradient.gradGamma - t.gradGamma))
          (step ^ 2 * mulSum t.updateWeightsGradient.incrGamma
            t.updateWeightsGradient.incrGamma) cfg.alphaMin cfg.alphaMax } := by
  have h1 := h.assign_deltaGradGamma (rd T D k s).gradGamma
  have h2 := h1.updateWeightsGradient
  have e2 : deltaGradGamma T D k (GPNHMem.updateWeightsGradient T D k
      (s.assign .deltaGradGamma (rd T D k s).gradGamma)) = t.gradGamma := by
    rw [deltaGradGamma_updateWeightsGradient h1.safe, deltaGradGamma_assign h.safe.valid, h.eq]
  have h3 := h2.assign_deltaGradGamma ((rd T D k (GPNHMem.updateWeightsGradient T D k
      (s.assign .deltaGradGamma (rd T D k s).gradGamma))).gradGamma - deltaGradGamma T D k
        (GPNHMem.updateWeightsGradient T D k (s.assign .deltaGradGamma (rd T D k s).gradGamma)))
  unfold GPNHMem.finishWeights
  refine h3.setAlphaGamma ?_
  rw [h3.eq, deltaGradGamma_assign h2.safe.valid, e2, h2.eq]

theorem Sim.updateWeights (h : Sim h0 n0 s t) (cfg : LSConfig K) (eps : K) :
    HRel h0 n0 (Sim h0 n0) (GPNHMem.updateWeights T D k cfg eps s)
      (t.updateWeights cfg eps) := by
  unfold GPNHMem.updateWeights GPNHState.updateWeights
  refine HRel.bind (h.prepareWeights.weightsLineSearch cfg eps) ?_
  rintro ⟨a, x⟩ ⟨b, y⟩ ⟨h1, e⟩
  obtain rfl : x = y := e
  exact h1.finishWeights cfg x

theorem Sim.iterate (h : Sim h0 n0 s t) (cfg : LSConfig K) (eps : K) (require : Bool) (tol : K)
    (maxIter : ℕ) (ud uw : Bool) :
    HRel h0 n0 (fun r r' => Sim h0 n0 r.state r'.state ∧ r.cost = r'.cost ∧ r.nIter = r'.nIter ∧
        r.trace = r'.trace)
      (GPNHMem.iterate T D k cfg eps require tol maxIter ud uw s)
      (gpnhIterate cfg eps require tol maxIter ud uw t) := by
  unfold GPNHMem.iterate gpnhIterate
  by_cases hz : D * T = 0
  · rw [if_pos hz, if_pos hz]
    exact ⟨rfl, h.keeps⟩
  · rw [if_neg hz, if_neg hz]
    refine hIterate_rel (R := fun s t => Sim h0 n0 s t) (fun _ _ h => h.keeps)
      (fun s t h => ⟨h, h.evaluateCost eps⟩) ?_ h
    refine List.rel_append ?_ ?_
    · cases ud
      · exact .nil
      · exact .cons (fun s t h => h.updateDictionary cfg eps) .nil
    · cases uw
      · exact .nil
      · exact .cons (fun s t h => h.updateWeights cfg eps) .nil

theorem Sim.initializeWorkspace (cfg : LSConfig K) {h : Heap K} (hk : h0.Keeps h n0)
    {data weights dictionary : ℕ} (hd : data < h.next) (hw : weights < h.next)
    (hs : dictionary < h.next) {X : Matrix (Fin T) (Fin D) K} {G : Matrix (Fin T) (Fin k) K}
    {S : Matrix (Fin k) (Fin D) K} (hX : h.cell data = Arr2.of X) (hG : h.cell weights = Arr2.of G)
    (hS : h.cell dictionary = Arr2.of S) :
    Sim h0 n0 (GPNHMem.initializeWorkspace T D k cfg h data weights dictionary)
      (GPNHState.initializeWorkspace cfg X G S) := by
  unfold GPNHMem.initializeWorkspace
  extract_lets s0 s1 s2 s3 s4 s5 s6 s7 s8 s9 s10 s11 s12 s13 s14
  have v0 : s0.Valid := fun _ => hd
  have v1 : s1.Valid := v0.assign _ _
  have v2 : s2.Valid := v1.assign _ _
  have v3 : s3.Valid := v2.assign _ _
  have v4 : s4.Valid := v3.assign _ _
  have v5 : s5.Valid := v4.assign _ _
  have v6 : s6.Valid := v5.assign _ _
  have v7 : s7.Valid := v6.assign _ _
  have v8 : s8.Valid := v7.assign _ _
  have v9 : s9.Valid := v8.assign _ _
  have v10 : s10.Valid := v9.assign _ _
  have v11 : s11.Valid := v10.assign _ _
  have v12 : s12.Valid := v11.assign _ _
  have v13 : s13.Valid := v12.assign _ _
  have v14 : s14.Valid := v13.assign _ _
  have k0 : h0.Keeps s0.heap n0 := hk
  have k1 : h0.Keeps s1.heap n0 := HState.keeps_assign k0 _ _
  have k2 : h0.Keeps s2.heap n0 := HState.keeps_assign k1 _ _
  have k3 : h0.Keeps s3.heap n0 := HState.keeps_assign k2 _ _
  have k4 : h0.Keeps s4.heap n0 := HState.keeps_assign k3 _ _
  have k5 : h0.Keeps s5.heap n0 := HState.keeps_assign k4 _ _
  have k6 : h0.Keeps s6.heap n0 := HState.keeps_assign k5 _ _
  have k7 : h0.Keeps s7.heap n0 := HState.keeps_assign k6 _ _
  have k8 : h0.Keeps s8.heap n0 := HState.keeps_assign k7 _ _
  have k9 : h0.Keeps s9.heap n0 := HState.keeps_assign k8 _ _
  have k10 : h0.Keeps s10.heap n0 := HState.keeps_assign k9 _ _
  have k11 : h0.Keeps s11.heap n0 := HState.keeps_assign k10 _ _
  have k12 : h0.Keeps s12.heap n0 := HState.keeps_assign k11 _ _
  have k13 : h0.Keeps s13.heap n0 := HState.keeps_assign k12 _ _
  have k14 : h0.Keeps s14.heap n0 := HState.keeps_assign k13 _ _
  have o0 : s0.Owns (gpnhShape T D k) n0 fun _ => False :=
    ⟨fun _ h => h.elim, fun _ _ h => h.elim⟩
  have o1 := o0.assign v0 k0.1 .X ((s0.heap.cell data).at T D)
  have o2 := o1.assign v1 k1.1 .Gamma ((s1.heap.cell weights).at T k)
  have o3 := o2.assign v2 k2.1 .S ((s2.heap.cell dictionary).at k D)
  have o4 := o3.assign v3 k3.1 .GtG ((rd T D k s3).Gammaᵀ * (rd T D k s3).Gamma)
  have o5 := o4.assign v4 k4.1 .GtX ((rd T D k s4).Gammaᵀ * (rd T D k s4).X)
  have o6 := o5.assign v5 k5.1 .XSt ((rd T D k s5).X * (rd T D k s5).Sᵀ)
  have o7 := o6.assign v6 k6.1 .SSt ((rd T D k s6).S * (rd T D k s6).Sᵀ)
  have o8 := o7.assign v7 k7.1 .GammaOld (rd T D k s7).Gamma
  have o9 := o8.assign v8 k8.1 .gradGamma (0 : Matrix (Fin T) (Fin k) K)
  have o10 := o9.assign v9 k9.1 .deltaGradGamma (0 : Matrix (Fin T) (Fin k) K)
  have o11 := o10.assign v10 k10.1 .incrGamma (0 : Matrix (Fin T) (Fin k) K)
  have o12 := o11.assign v11 k11.1 .SOld (rd T D k s11).S
  have o13 := o12.assign v12 k12.1 .gradS (0 : Matrix (Fin k) (Fin D) K)
  have o14 := o13.assign v13 k13.1 .deltaGradS (0 : Matrix (Fin k) (Fin D) K)
  have o15 := o14.assign v14 k14.1 .incrS (0 : Matrix (Fin k) (Fin D) K)
  refine ⟨⟨v14.assign _ _, o15.mono fun a _ => by cases a <;> simp, HState.keeps_assign k14 _ _⟩, ?_⟩
  have c0 : s0.heap.cell data = Arr2.of X := hX
  have c1 : s1.heap.cell weights = Arr2.of G := (HState.cell_assign hw _ _).trans hG
  have c2 : s2.heap.cell dictionary = Arr2.of S :=
    (HState.cell_assign (Nat.lt_succ_of_lt hs) _ _).trans ((HState.cell_assign hs _ _).trans hS)
  have r1 := rd_assign_X (T := T) (D := D) (k := k) v0 ((s0.heap.cell data).at T D)
  have r2 := (rd_assign_Gamma (T := T) (D := D) (k := k) v1 ((s1.heap.cell weights).at T k))
  have r3 := (rd_assign_S (T := T) (D := D) (k := k) v2 ((s2.heap.cell dictionary).at k D))
  have e3 : (rd T D k s3).X = X ∧ (rd T D k s3).Gamma = G ∧ (rd T D k s3).S = S := by
    refine ⟨?_, ?_, ?_⟩
    · refine (congrArg GPNHState.X r3).trans ((congrArg GPNHState.X r2).trans
        ((congrArg GPNHState.X r1).trans ?_))
      change (s0.heap.cell data).at T D = X
      rw [c0, Arr2.at_of]
    · refine (congrArg GPNHState.Gamma r3).trans ((congrArg GPNHState.Gamma r2).trans ?_)
      change (s1.heap.cell weights).at T k = G
      rw [c1, Arr2.at_of]
    · refine (congrArg GPNHState.S r3).trans ?_
      change (s2.heap.cell dictionary).at k D = S
      rw [c2, Arr2.at_of]
  have f3 : s3.rest = s0.rest := rfl
  have q4 := rd_assign_GtG (T := T) (D := D) (k := k) v3
    ((rd T D k s3).Gammaᵀ * (rd T D k s3).Gamma)
  have q5 := rd_assign_GtX (T := T) (D := D) (k := k) v4
    ((rd T D k s4).Gammaᵀ * (rd T D k s4).X)
  have q6 := rd_assign_XSt (T := T) (D := D) (k := k) v5 ((rd T D k s5).X * (rd T D k s5).Sᵀ)
  have q7 := rd_assign_SSt (T := T) (D := D) (k := k) v6 ((rd T D k s6).S * (rd T D k s6).Sᵀ)
  have q8 := rd_assign_GammaOld (T := T) (D := D) (k := k) v7 (rd T D k s7).Gamma
  have q9 := rd_assign_gradGamma (T := T) (D := D) (k := k) v8 0
  have q10 := rd_assign_deltaGradGamma (T := T) (D := D) (k := k) v9 0
  have q11 := rd_assign_incrGamma (T := T) (D := D) (k := k) v10 0
  have q12 := rd_assign_SOld (T := T) (D := D) (k := k) v11 (rd T D k s11).S
  have q13 := rd_assign_gradS (T := T) (D := D) (k := k) v12 0
  have q14 := rd_assign_deltaGradS (T := T) (D := D) (k := k) v13 0
  have q15 := rd_assign_incrS (T := T) (D := D) (k := k) v14 0
  obtain ⟨e31, e32, e33⟩ := e3
  have z4 : rd T D k s4 = { rd T D k s3 with GtG := Gᵀ * G } := q4.trans (by rw [e32])
  have z5 : rd T D k s5 = { rd T D k s4 with GtX := Gᵀ * X } :=
    q5.trans (by rw [z4, e31, e32])
  have z6 : rd T D k s6 = { rd T D k s5 with XSt := X * Sᵀ } :=
    q6.trans (by rw [z5, z4, e31, e33])
  have z7 : rd T D k s7 = { rd T D k s6 with SSt := S * Sᵀ } :=
    q7.trans (by rw [z6, z5, z4, e33])
  have z8 : rd T D k s8 = { rd T D k s7 with GammaOld := G } :=
    q8.trans (by rw [z7, z6, z5, z4, e32])
  have z12 : rd T D k s12 = { rd T D k s11 with SOld := S } := by
    refine q12.trans ?_
    have : (rd T D k s11).S = S := by
      refine (congrArg GPNHState.S q11).trans ?_
      refine (congrArg GPNHState.S q10).trans ?_
      refine (congrArg GPNHState.S q9).trans ?_
      refine (congrArg GPNHState.S z8).trans ?_
      rw [z7, z6, z5, z4, e33]
    rw [this]
  have z9 : rd T D k s9 = { rd T D k s8 with gradGamma := 0 } := q9
  have z10 : rd T D k s10 = rd T D k s9 := q10
  have z11 : rd T D k s11 = { rd T D k s10 with incrGamma := 0 } := q11
  have z13 : rd T D k s13 = { rd T D k s12 with gradS := 0 } := q13
  have z14 : rd T D k s14 = rd T D k s13 := q14
  refine q15.trans ?_
  rw [z14, z13, z12, z11, z10, z9, z8, z7, z6, z5, z4]
  simp only [e31, e32, e33]
  rfl

end GPNHMem

/-! ### The estimator -/

theorem gpnhCheckInitWeights_addr {h : Heap K} {w : Option ℕ} {m n : ℕ} {M : Matrix (Fin m) (Fin n) K}
    (hh : h.Has w) (e : gpnhCheckInitWeights (w.map h.cell) m n = Py.ok M) :
    argAddr w < h.next ∧ h.cell (argAddr w) = Arr2.of M := by
  have h1 := (gpnhCheckInitWeights_ok e).1
  cases w with
  | none => cases h1
  | some x => exact ⟨hh x rfl, Option.some.inj h1⟩

theorem gpnhCheckInitDictionary_addr {h : Heap K} {w : Option ℕ} {m n : ℕ}
    {M : Matrix (Fin m) (Fin n) K} (hh : h.Has w)
    (e : gpnhCheckInitDictionary (w.map h.cell) m n = Py.ok M) :
    argAddr w < h.next ∧ h.cell (argAddr w) = Arr2.of M := by
  have h1 := gpnhCheckInitDictionary_ok e
  cases w with
  | none => cases h1.1
  | some x => exact ⟨hh x rfl, Option.some.inj h1.1⟩

/-- The starting arrays: their values, in memory. -/
def StartRel {G : Type} (h0 : Heap K) {a b c d : ℕ} (r : (Heap K × ℕ × ℕ) × G)
    (r' : (Matrix (Fin a) (Fin b) K × Matrix (Fin c) (Fin d) K) × G) : Prop :=
  h0.Keeps r.1.1 h0.next ∧ r.1.2.1 < r.1.1.next ∧ r.1.2.2 < r.1.1.next ∧
    r.1.1.cell r.1.2.1 = Arr2.of r'.1.1 ∧ r.1.1.cell r.1.2.2 = Arr2.of r'.1.2 ∧ r.2 = r'.2

theorem hGpnhStart_rel (env : Env K) (h : Heap K) {T D : ℕ} (data : Matrix (Fin T) (Fin D) K) (k : ℕ)
    (init : Option String) {dictionary weights : Option ℕ} (hd : h.Has dictionary)
    (hw : h.Has weights) (ud uw : Bool) (kw : InitKwargs) (g : env.rng.G) :
    HRel h h.next (StartRel h)
      (hGpnhStart env h data k init dictionary weights ud uw kw g)
      (gpnhStart env data k init (dictionary.map h.cell) (weights.map h.cell) ud uw kw g) := by
  have hk := h.keeps_refl le_rfl
  unfold hGpnhStart gpnhStart
  split_ifs with h1 h2 h3
  · refine (HRel.lift hk _).bind fun a w hw' => (HRel.lift hk _).bind fun b d hd' => ?_
    have p := gpnhCheckInitDictionary_addr hd hd'.2
    have q := gpnhCheckInitWeights_addr hw hw'.2
    exact ⟨hk, p.1, q.1, p.2, q.2, rfl⟩
  · refine (HRel.lift hk _).bind fun a d hd' => (HRel.lift hk _).bind fun b w hw' => ?_
    have p := gpnhCheckInitDictionary_addr hd hd'.2
    obtain ⟨rfl, -⟩ := hw'
    exact ⟨hk.alloc _, Nat.lt_succ_of_lt p.1, Nat.lt_succ_self _,
      (h.cell_alloc_lt _ p.1).trans p.2, h.cell_alloc _, rfl⟩
  · refine (HRel.lift hk _).bind fun a w hw' => (HRel.lift hk _).bind fun b d hd' => ?_
    have p := gpnhCheckInitWeights_addr hw hw'.2
    obtain ⟨rfl, -⟩ := hd'
    exact ⟨hk.alloc _, Nat.lt_succ_self _, Nat.lt_succ_of_lt p.1, h.cell_alloc _,
      (h.cell_alloc_lt _ p.1).trans p.2, rfl⟩
  · refine ((HRel.lift hk (gpnhInitBoth env data k init kw g)).bind
      (g := fun r => pure r) fun a b hab => ?_).of_bind_pure
    obtain ⟨rfl, -⟩ := hab
    exact ⟨(hk.alloc _).alloc _, by change h.next < h.next + 1 + 1; omega,
      by change h.next + 1 < h.next + 1 + 1; omega,
      (Heap.cell_alloc_lt _ _ (Nat.lt_succ_self _)).trans (h.cell_alloc _),
      Heap.cell_alloc _ _, rfl⟩

/-- What an estimator call does to memory: the arrays that were there are as before, the object has the
values the model on values computes, and its weights and dictionary are new arrays. -/
def GPNHCallRel (env : Env K) (h : Heap K) (r : Heap K × GPNHHObj env.rng × FitInfo K)
    (r' : GPNHObj env.rng × FitInfo K) : Prop :=
  h.Keeps r.1 h.next ∧ r.2.1.deref r.1 = r'.1 ∧ r.2.2 = r'.2 ∧
    ∃ a b, r.2.1.Gamma = some a ∧ r.2.1.S = some b ∧ a ≠ b ∧ h.next ≤ a ∧ h.next ≤ b ∧
      a < r.1.next ∧ b < r.1.next

theorem hGpnhConvexCoding_rel (env : Env K) (h : Heap K) (obj : GPNHHObj env.rng) {data : ℕ}
    (hdata : data < h.next) {dictionary weights : Option ℕ} (hd : h.Has dictionary)
    (hw : h.Has weights) (ho : h.Has obj.dictionary_) (ud uw : Bool) (kw : InitKwargs) :
    HRel h h.next (GPNHCallRel env h)
      (hGpnhConvexCoding env h obj data dictionary weights ud uw kw)
      (gpnhConvexCoding env (obj.deref h) (h.cell data) (dictionary.map h.cell) (weights.map h.cell)
        ud uw kw) := by
  have hk := h.keeps_refl le_rfl
  unfold hGpnhConvexCoding gpnhConvexCoding
  refine (HRel.lift hk _).bind fun p p' hp => ?_
  obtain ⟨rfl, -⟩ := hp
  refine (hGpnhStart_rel env h (h.cell data).val p.1 obj.init hd hw ud uw kw obj.randomState).bind
    fun st st' hst => ?_
  obtain ⟨k1, d1, w1, cd, cw, hg⟩ := hst
  have hs := GPNHMem.Sim.initializeWorkspace obj.ls k1 (lt_of_lt_of_le hdata k1.1) w1 d1
    (X := (h.cell data).val) (k1.2 data hdata) cw cd
  refine (hs.iterate obj.ls obj.epsilonStates obj.require p.2.2 p.2.1 ud uw).bind fun r r' hr => ?_
  obtain ⟨h1, h2, h3, h4⟩ := hr
  refine ⟨h1.keeps, ?_, ?_, r.state.addr .Gamma, r.state.addr .S, rfl, rfl, ?_,
    (h1.safe.owns.1 _ trivial).1, (h1.safe.owns.1 _ trivial).1, h1.safe.valid _, h1.safe.valid _⟩
  · unfold GPNHHObj.deref
    simp only [Option.map_some, hg, ho.map h1.keeps]
    have eG : r.state.heap.cell (r.state.addr .Gamma) = Arr2.of r'.state.Gamma :=
      (h1.safe.owns.cell (a := GPNHAttr.Gamma) trivial).trans
        (congrArg (fun u : GPNHState _ _ _ K => Arr2.of u.Gamma) h1.eq)
    have eS : r.state.heap.cell (r.state.addr .S) = Arr2.of r'.state.S :=
      (h1.safe.owns.cell (a := GPNHAttr.S) trivial).trans
        (congrArg (fun u : GPNHState _ _ _ K => Arr2.of u.S) h1.eq)
    rw [eG, eS]
  · simp only [h2, h3, h4]
  · intro e
    cases h1.safe.owns.2 _ _ trivial e trivial

end Reor
