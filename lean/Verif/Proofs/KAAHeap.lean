import Verif.Model.KAAHeap
import Verif.Proofs.GPNHHeap
import Verif.Proofs.KernelAAObj

/-!
`src/reor/archetypal_analysis.py` with arrays in memory does what the model on values does, and touches
only its own arrays.
-/

set_option linter.unusedSectionVars false

namespace Reor

open scoped BigOperators Matrix

variable {K : Type} [Field K] [LinearOrder K] [IsStrictOrderedRing K]

namespace KAAMem

variable {n k : ℕ} {h0 : Heap K} {n0 : ℕ}

/-- The object in memory has the values `t`, in arrays of its own. -/
structure Sim (h0 : Heap K) (n0 : ℕ) (s : KAAMem K) (t : KAAState n k K) : Prop where
  safe : s.Safe (kaaShape n k) h0 n0
  eq : rd n k s = t

variable {s : KAAMem K} {t : KAAState n k K}

theorem Sim.keeps (h : Sim h0 n0 s t) : h0.Keeps s.heap n0 := h.safe.keeps

/-- `rd` in terms of all values. -/
theorem rd_eq_of_values {s' : KAAMem K} {V : (a : KAAAttr) → Matrix (Fin (kaaShape n k a).1)
    (Fin (kaaShape n k a).2) K} (hV : s'.values (kaaShape n k) = V) :
    rd n k s' =
      { Kmat := V .Kmat, S := V .S, C := V .C, alpha := V .alpha (0 : Fin 1)
        traceK := s'.rest.traceK, CK := V .CK, CKCt := V .CKCt, CKS := V .CKS, StS := V .StS
        COld := V .COld, gradC := V .gradC, incrC := V .incrC
        gradAlpha := V .gradAlpha (0 : Fin 1), incrAlpha := V .incrAlpha
        SOld := V .SOld, gradS := V .gradS, incrS := V .incrS
        alphaC := s'.rest.alphaC, alphaS := s'.rest.alphaS, alphaAlpha := s'.rest.alphaAlpha
        fSMem := s'.rest.fSMem, fCMem := s'.rest.fCMem, fAlphaMem := s'.rest.fAlphaMem } := by
  subst hV
  rfl

theorem rd_assign_Kmat (hv : s.Valid) (M : Matrix (Fin n) (Fin n) K) :
    rd n k (s.assign .Kmat M) = { rd n k s with Kmat := M } :=
  rd_eq_of_values (HState.values_assign (shape := kaaShape n k) hv .Kmat M)

theorem Sim.assign_Kmat (h : Sim h0 n0 s t) {M N : Matrix (Fin n) (Fin n) K} (e : M = N) :
    Sim h0 n0 (s.assign .Kmat M) { t with Kmat := N } :=
  ⟨h.safe.assign .Kmat M, by rw [rd_assign_Kmat h.safe.valid, h.eq, e]⟩

theorem rd_assign_S (hv : s.Valid) (M : Matrix (Fin n) (Fin k) K) :
    rd n k (s.assign .S M) = { rd n k s with S := M } :=
  rd_eq_of_values (HState.values_assign (shape := kaaShape n k) hv .S M)

theorem Sim.assign_S (h : Sim h0 n0 s t) {M N : Matrix (Fin n) (Fin k) K} (e : M = N) :
    Sim h0 n0 (s.assign .S M) { t with S := N } :=
  ⟨h.safe.assign .S M, by rw [rd_assign_S h.safe.valid, h.eq, e]⟩

theorem rd_assign_C (hv : s.Valid) (M : Matrix (Fin k) (Fin n) K) :
    rd n k (s.assign .C M) = { rd n k s with C := M } :=
  rd_eq_of_values (HState.values_assign (shape := kaaShape n k) hv .C M)

theorem Sim.assign_C (h : Sim h0 n0 s t) {M N : Matrix (Fin k) (Fin n) K} (e : M = N) :
    Sim h0 n0 (s.assign .C M) { t with C := N } :=
  ⟨h.safe.assign .C M, by rw [rd_assign_C h.safe.valid, h.eq, e]⟩

theorem rd_assign_CK (hv : s.Valid) (M : Matrix (Fin k) (Fin n) K) :
    rd n k (s.assign .CK M) = { rd n k s with CK := M } :=
  rd_eq_of_values (HState.values_assign (shape := kaaShape n k) hv .CK M)

theorem Sim.assign_CK (h : Sim h0 n0 s t) {M N : Matrix (Fin k) (Fin n) K} (e : M = N) :
    Sim h0 n0 (s.assign .CK M) { t with CK := N } :=
  ⟨h.safe.assign .CK M, by rw [rd_assign_CK h.safe.valid, h.eq, e]⟩

theorem rd_assign_CKCt (hv : s.Valid) (M : Matrix (Fin k) (Fin k) K) :
    rd n k (s.assign .CKCt M) = { rd n k s with CKCt := M } :=
  rd_eq_of_values (HState.values_assign (shape := kaaShape n k) hv .CKCt M)

theorem Sim.assign_CKCt (h : Sim h0 n0 s t) {M N : Matrix (Fin k) (Fin k) K} (e : M = N) :
    Sim h0 n0 (s.assign .CKCt M) { t with CKCt := N } :=
  ⟨h.safe.assign .CKCt M, by rw [rd_assign_CKCt h.safe.valid, h.eq, e]⟩

theorem rd_assign_CKS (hv : s.Valid) (M : Matrix (Fin k) (Fin k) K) :
    rd n k (s.assign .CKS M) = { rd n k s with CKS := M } :=
  rd_eq_of_values (HState.values_assign (shape := kaaShape n k) hv .CKS M)

theorem Sim.assign_CKS (h : Sim h0 n0 s t) {M N : Matrix (Fin k) (Fin k) K} (e : M = N) :
    Sim h0 n0 (s.assign .CKS M) { t with CKS := N } :=
  ⟨h.safe.assign .CKS M, by rw [rd_assign_CKS h.safe.valid, h.eq, e]⟩

theorem rd_assign_StS (hv : s.Valid) (M : Matrix (Fin k) (Fin k) K) :
    rd n k (s.assign .StS M) = { rd n k s with StS := M } :=
  rd_eq_of_values (HState.values_assign (shape := kaaShape n k) hv .StS M)

theorem Sim.assign_StS (h : Sim h0 n0 s t) {M N : Matrix (Fin k) (Fin k) K} (e : M = N) :
    Sim h0 n0 (s.assign .StS M) { t with StS := N } :=
  ⟨h.safe.assign .StS M, by rw [rd_assign_StS h.safe.valid, h.eq, e]⟩

theorem rd_assign_COld (hv : s.Valid) (M : Matrix (Fin k) (Fin n) K) :
    rd n k (s.assign .COld M) = { rd n k s with COld := M } :=
  rd_eq_of_values (HState.values_assign (shape := kaaShape n k) hv .COld M)

theorem Sim.assign_COld (h : Sim h0 n0 s t) {M N : Matrix (Fin k) (Fin n) K} (e : M = N) :
    Sim h0 n0 (s.assign .COld M) { t with COld := N } :=
  ⟨h.safe.assign .COld M, by rw [rd_assign_COld h.safe.valid, h.eq, e]⟩

theorem rd_assign_gradC (hv : s.Valid) (M : Matrix (Fin k) (Fin n) K) :
    rd n k (s.assign .gradC M) = { rd n k s with gradC := M } :=
  rd_eq_of_values (HState.values_assign (shape := kaaShape n k) hv .gradC M)

theorem Sim.assign_gradC (h : Sim h0 n0 s t) {M N : Matrix (Fin k) (Fin n) K} (e : M = N) :
    Sim h0 n0 (s.assign .gradC M) { t with gradC := N } :=
  ⟨h.safe.assign .gradC M, by rw [rd_assign_gradC h.safe.valid, h.eq, e]⟩

theorem rd_assign_incrC (hv : s.Valid) (M : Matrix (Fin k) (Fin n) K) :
    rd n k (s.assign .incrC M) = { rd n k s with incrC := M } :=
  rd_eq_of_values (HState.values_assign (shape := kaaShape n k) hv .incrC M)

theorem Sim.assign_incrC (h : Sim h0 n0 s t) {M N : Matrix (Fin k) (Fin n) K} (e : M = N) :
    Sim h0 n0 (s.assign .incrC M) { t with incrC := N } :=
  ⟨h.safe.assign .incrC M, by rw [rd_assign_incrC h.safe.valid, h.eq, e]⟩

theorem rd_assign_incrAlpha (hv : s.Valid) (M : Matrix (Fin k) (Fin k) K) :
    rd n k (s.assign .incrAlpha M) = { rd n k s with incrAlpha := M } :=
  rd_eq_of_values (HState.values_assign (shape := kaaShape n k) hv .incrAlpha M)

theorem Sim.assign_incrAlpha (h : Sim h0 n0 s t) {M N : Matrix (Fin k) (Fin k) K} (e : M = N) :
    Sim h0 n0 (s.assign .incrAlpha M) { t with incrAlpha := N } :=
  ⟨h.safe.assign .incrAlpha M, by rw [rd_assign_incrAlpha h.safe.valid, h.eq, e]⟩

theorem rd_assign_SOld (hv : s.Valid) (M : Matrix (Fin n) (Fin k) K) :
    rd n k (s.assign .SOld M) = { rd n k s with SOld := M } :=
  rd_eq_of_values (HState.values_assign (shape := kaaShape n k) hv .SOld M)

theorem Sim.assign_SOld (h : Sim h0 n0 s t) {M N : Matrix (Fin n) (Fin k) K} (e : M = N) :
    Sim h0 n0 (s.assign .SOld M) { t with SOld := N } :=
  ⟨h.safe.assign .SOld M, by rw [rd_assign_SOld h.safe.valid, h.eq, e]⟩

theorem rd_assign_gradS (hv : s.Valid) (M : Matrix (Fin n) (Fin k) K) :
    rd n k (s.assign .gradS M) = { rd n k s with gradS := M } :=
  rd_eq_of_values (HState.values_assign (shape := kaaShape n k) hv .gradS M)

theorem Sim.assign_gradS (h : Sim h0 n0 s t) {M N : Matrix (Fin n) (Fin k) K} (e : M = N) :
    Sim h0 n0 (s.assign .gradS M) { t with gradS := N } :=
  ⟨h.safe.assign .gradS M, by rw [rd_assign_gradS h.safe.valid, h.eq, e]⟩

theorem rd_assign_incrS (hv : s.Valid) (M : Matrix (Fin n) (Fin k) K) :
    rd n k (s.assign .incrS M) = { rd n k s with incrS := M } :=
  rd_eq_of_values (HState.values_assign (shape := kaaShape n k) hv .incrS M)

theorem Sim.assign_incrS (h : Sim h0 n0 s t) {M N : Matrix (Fin n) (Fin k) K} (e : M = N) :
    Sim h0 n0 (s.assign .incrS M) { t with incrS := N } :=
  ⟨h.safe.assign .incrS M, by rw [rd_assign_incrS h.safe.valid, h.eq, e]⟩

theorem rd_augment_S (ho : s.Owns (kaaShape n k) n0 fun _ => True)
    (M : Matrix (Fin n) (Fin k) K) :
    rd n k (s.augment .S M) = { rd n k s with S := M } :=
  rd_eq_of_values (HState.values_augment (shape := kaaShape n k) ho .S M)

theorem Sim.augment_S (h : Sim h0 n0 s t) {M N : Matrix (Fin n) (Fin k) K} (e : M = N) :
    Sim h0 n0 (s.augment .S M) { t with S := N } :=
  ⟨h.safe.augment .S M, by rw [rd_augment_S h.safe.owns, h.eq, e]⟩

theorem rd_augment_C (ho : s.Owns (kaaShape n k) n0 fun _ => True)
    (M : Matrix (Fin k) (Fin n) K) :
    rd n k (s.augment .C M) = { rd n k s with C := M } :=
  rd_eq_of_values (HState.values_augment (shape := kaaShape n k) ho .C M)

theorem Sim.augment_C (h : Sim h0 n0 s t) {M N : Matrix (Fin k) (Fin n) K} (e : M = N) :
    Sim h0 n0 (s.augment .C M) { t with C := N } :=
  ⟨h.safe.augment .C M, by rw [rd_augment_C h.safe.owns, h.eq, e]⟩

theorem rd_augment_CK (ho : s.Owns (kaaShape n k) n0 fun _ => True)
    (M : Matrix (Fin k) (Fin n) K) :
    rd n k (s.augment .CK M) = { rd n k s with CK := M } :=
  rd_eq_of_values (HState.values_augment (shape := kaaShape n k) ho .CK M)

theorem Sim.augment_CK (h : Sim h0 n0 s t) {M N : Matrix (Fin k) (Fin n) K} (e : M = N) :
    Sim h0 n0 (s.augment .CK M) { t with CK := N } :=
  ⟨h.safe.augment .CK M, by rw [rd_augment_CK h.safe.owns, h.eq, e]⟩

theorem rd_augment_CKCt (ho : s.Owns (kaaShape n k) n0 fun _ => True)
    (M : Matrix (Fin k) (Fin k) K) :
    rd n k (s.augment .CKCt M) = { rd n k s with CKCt := M } :=
  rd_eq_of_values (HState.values_augment (shape := kaaShape n k) ho .CKCt M)

theorem Sim.augment_CKCt (h : Sim h0 n0 s t) {M N : Matrix (Fin k) (Fin k) K} (e : M = N) :
    Sim h0 n0 (s.augment .CKCt M) { t with CKCt := N } :=
  ⟨h.safe.augment .CKCt M, by rw [rd_augment_CKCt h.safe.owns, h.eq, e]⟩

theorem rd_augment_StS (ho : s.Owns (kaaShape n k) n0 fun _ => True)
    (M : Matrix (Fin k) (Fin k) K) :
    rd n k (s.augment .StS M) = { rd n k s with StS := M } :=
  rd_eq_of_values (HState.values_augment (shape := kaaShape n k) ho .StS M)

theorem Sim.augment_StS (h : Sim h0 n0 s t) {M N : Matrix (Fin k) (Fin k) K} (e : M = N) :
    Sim h0 n0 (s.augment .StS M) { t with StS := N } :=
  ⟨h.safe.augment .StS M, by rw [rd_augment_StS h.safe.owns, h.eq, e]⟩

theorem rd_augment_gradC (ho : s.Owns (kaaShape n k) n0 fun _ => True)
    (M : Matrix (Fin k) (Fin n) K) :
    rd n k (s.augment .gradC M) = { rd n k s with gradC := M } :=
  rd_eq_of_values (HState.values_augment (shape := kaaShape n k) ho .gradC M)

theorem Sim.augment_gradC (h : Sim h0 n0 s t) {M N : Matrix (Fin k) (Fin n) K} (e : M = N) :
    Sim h0 n0 (s.augment .gradC M) { t with gradC := N } :=
  ⟨h.safe.augment .gradC M, by rw [rd_augment_gradC h.safe.owns, h.eq, e]⟩

theorem rd_augment_incrC (ho : s.Owns (kaaShape n k) n0 fun _ => True)
    (M : Matrix (Fin k) (Fin n) K) :
    rd n k (s.augment .incrC M) = { rd n k s with incrC := M } :=
  rd_eq_of_values (HState.values_augment (shape := kaaShape n k) ho .incrC M)

theorem Sim.augment_incrC (h : Sim h0 n0 s t) {M N : Matrix (Fin k) (Fin n) K} (e : M = N) :
    Sim h0 n0 (s.augment .incrC M) { t with incrC := N } :=
  ⟨h.safe.augment .incrC M, by rw [rd_augment_incrC h.safe.owns, h.eq, e]⟩

theorem rd_augment_incrAlpha (ho : s.Owns (kaaShape n k) n0 fun _ => True)
    (M : Matrix (Fin k) (Fin k) K) :
    rd n k (s.augment .incrAlpha M) = { rd n k s with incrAlpha := M } :=
  rd_eq_of_values (HState.values_augment (shape := kaaShape n k) ho .incrAlpha M)

theorem Sim.augment_incrAlpha (h : Sim h0 n0 s t) {M N : Matrix (Fin k) (Fin k) K} (e : M = N) :
    Sim h0 n0 (s.augment .incrAlpha M) { t with incrAlpha := N } :=
  ⟨h.safe.augment .incrAlpha M, by rw [rd_augment_incrAlpha h.safe.owns, h.eq, e]⟩

theorem rd_augment_gradS (ho : s.Owns (kaaShape n k) n0 fun _ => True)
    (M : Matrix (Fin n) (Fin k) K) :
    rd n k (s.augment .gradS M) = { rd n k s with gradS := M } :=
  rd_eq_of_values (HState.values_augment (shape := kaaShape n k) ho .gradS M)

theorem Sim.augment_gradS (h : Sim h0 n0 s t) {M N : Matrix (Fin n) (Fin k) K} (e : M = N) :
    Sim h0 n0 (s.augment .gradS M) { t with gradS := N } :=
  ⟨h.safe.augment .gradS M, by rw [rd_augment_gradS h.safe.owns, h.eq, e]⟩

theorem rd_augment_incrS (ho : s.Owns (kaaShape n k) n0 fun _ => True)
    (M : Matrix (Fin n) (Fin k) K) :
    rd n k (s.augment .incrS M) = { rd n k s with incrS := M } :=
  rd_eq_of_values (HState.values_augment (shape := kaaShape n k) ho .incrS M)

theorem Sim.augment_incrS (h : Sim h0 n0 s t) {M N : Matrix (Fin n) (Fin k) K} (e : M = N) :
    Sim h0 n0 (s.augment .incrS M) { t with incrS := N } :=
  ⟨h.safe.augment .incrS M, by rw [rd_augment_incrS h.safe.owns, h.eq, e]⟩

theorem rd_assign_alpha (hv : s.Valid) (v : Fin k → K) :
    rd n k (s.assign .alpha (rowVec v)) = { rd n k s with alpha := v } :=
  rd_eq_of_values (HState.values_assign (shape := kaaShape n k) hv .alpha (rowVec v))

theorem Sim.assign_alpha (h : Sim h0 n0 s t) {v w : Fin k → K} (e : v = w) :
    Sim h0 n0 (s.assign .alpha (rowVec v)) { t with alpha := w } :=
  ⟨h.safe.assign .alpha (rowVec v), by rw [rd_assign_alpha h.safe.valid, h.eq, e]⟩

theorem rd_assign_gradAlpha (hv : s.Valid) (v : Fin k → K) :
    rd n k (s.assign .gradAlpha (rowVec v)) = { rd n k s with gradAlpha := v } :=
  rd_eq_of_values (HState.values_assign (shape := kaaShape n k) hv .gradAlpha (rowVec v))

theorem Sim.assign_gradAlpha (h : Sim h0 n0 s t) {v w : Fin k → K} (e : v = w) :
    Sim h0 n0 (s.assign .gradAlpha (rowVec v)) { t with gradAlpha := w } :=
  ⟨h.safe.assign .gradAlpha (rowVec v), by rw [rd_assign_gradAlpha h.safe.valid, h.eq, e]⟩

theorem rd_assign_deltaGradC (hv : s.Valid) (M : Matrix (Fin k) (Fin n) K) :
    rd n k (s.assign .deltaGradC M) = rd n k s :=
  (rd_eq_of_values (HState.values_assign (shape := kaaShape n k) hv .deltaGradC M)).trans rfl

theorem Sim.assign_deltaGradC (h : Sim h0 n0 s t) (M : Matrix (Fin k) (Fin n) K) :
    Sim h0 n0 (s.assign .deltaGradC M) t :=
  ⟨h.safe.assign .deltaGradC M, by rw [rd_assign_deltaGradC h.safe.valid, h.eq]⟩

theorem rd_assign_deltaGradS (hv : s.Valid) (M : Matrix (Fin n) (Fin k) K) :
    rd n k (s.assign .deltaGradS M) = rd n k s :=
  (rd_eq_of_values (HState.values_assign (shape := kaaShape n k) hv .deltaGradS M)).trans rfl

theorem Sim.assign_deltaGradS (h : Sim h0 n0 s t) (M : Matrix (Fin n) (Fin k) K) :
    Sim h0 n0 (s.assign .deltaGradS M) t :=
  ⟨h.safe.assign .deltaGradS M, by rw [rd_assign_deltaGradS h.safe.valid, h.eq]⟩

theorem rd_assign_deltaGradAlpha (hv : s.Valid) (M : Matrix (Fin 1) (Fin k) K) :
    rd n k (s.assign .deltaGradAlpha M) = rd n k s :=
  (rd_eq_of_values (HState.values_assign (shape := kaaShape n k) hv .deltaGradAlpha M)).trans rfl

theorem Sim.assign_deltaGradAlpha (h : Sim h0 n0 s t) (M : Matrix (Fin 1) (Fin k) K) :
    Sim h0 n0 (s.assign .deltaGradAlpha M) t :=
  ⟨h.safe.assign .deltaGradAlpha M, by rw [rd_assign_deltaGradAlpha h.safe.valid, h.eq]⟩

theorem rd_assign_alphaOld (hv : s.Valid) (M : Matrix (Fin 1) (Fin k) K) :
    rd n k (s.assign .alphaOld M) = rd n k s :=
  (rd_eq_of_values (HState.values_assign (shape := kaaShape n k) hv .alphaOld M)).trans rfl

theorem Sim.assign_alphaOld (h : Sim h0 n0 s t) (M : Matrix (Fin 1) (Fin k) K) :
    Sim h0 n0 (s.assign .alphaOld M) t :=
  ⟨h.safe.assign .alphaOld M, by rw [rd_assign_alphaOld h.safe.valid, h.eq]⟩

theorem deltaGradC_assign (hv : s.Valid) (M : Matrix (Fin k) (Fin n) K) :
    deltaGradC n k (s.assign .deltaGradC M) = M :=
  (congrFun (HState.values_assign (shape := kaaShape n k) hv .deltaGradC M) .deltaGradC).trans
    (Function.update_self ..)

theorem deltaGradS_assign (hv : s.Valid) (M : Matrix (Fin n) (Fin k) K) :
    deltaGradS n k (s.assign .deltaGradS M) = M :=
  (congrFun (HState.values_assign (shape := kaaShape n k) hv .deltaGradS M) .deltaGradS).trans
    (Function.update_self ..)

theorem deltaGradAlpha_assign (hv : s.Valid) (v : Fin k → K) :
    deltaGradAlpha n k (s.assign .deltaGradAlpha (rowVec v)) = v :=
  congrArg (fun M : Matrix (Fin 1) (Fin k) K => M 0)
    ((congrFun (HState.values_assign (shape := kaaShape n k) hv .deltaGradAlpha (rowVec v))
      .deltaGradAlpha).trans (Function.update_self ..))

/-- Reading an attribute other than the one assigned or changed. -/
theorem val_assign_of_ne (h : s.Safe (kaaShape n k) h0 n0) {a b : KAAAttr} (hab : b ≠ a)
    (M : Matrix (Fin (kaaShape n k a).1) (Fin (kaaShape n k a).2) K) :
    (s.assign a M).val (kaaShape n k) b = s.val (kaaShape n k) b :=
  (congrFun (HState.values_assign (shape := kaaShape n k) h.valid a M) b).trans
    (Function.update_of_ne hab ..)

@[inherit_doc val_assign_of_ne]
theorem val_augment_of_ne (h : s.Safe (kaaShape n k) h0 n0) {a b : KAAAttr} (hab : b ≠ a)
    (M : Matrix (Fin (kaaShape n k a).1) (Fin (kaaShape n k a).2) K) :
    (s.augment a M).val (kaaShape n k) b = s.val (kaaShape n k) b :=
  (congrFun (HState.values_augment (shape := kaaShape n k) h.owns a M) b).trans
    (Function.update_of_ne hab ..)

theorem Sim.setFSMem (h : Sim h0 n0 s t) {m m' : List K} (e : m = m') :
    Sim h0 n0 ({ s with rest := { s.rest with fSMem := m } } : KAAMem K) { t with fSMem := m' } := by
  refine ⟨h.safe.rest _, ?_⟩
  rw [← h.eq, e]
  rfl

theorem Sim.setFCMem (h : Sim h0 n0 s t) {m m' : List K} (e : m = m') :
    Sim h0 n0 ({ s with rest := { s.rest with fCMem := m } } : KAAMem K) { t with fCMem := m' } := by
  refine ⟨h.safe.rest _, ?_⟩
  rw [← h.eq, e]
  rfl

theorem Sim.setFAlphaMem (h : Sim h0 n0 s t) {m m' : List K} (e : m = m') :
    Sim h0 n0 ({ s with rest := { s.rest with fAlphaMem := m } } : KAAMem K) { t with fAlphaMem := m' } := by
  refine ⟨h.safe.rest _, ?_⟩
  rw [← h.eq, e]
  rfl

theorem Sim.setAlphaS (h : Sim h0 n0 s t) {m m' : K} (e : m = m') :
    Sim h0 n0 ({ s with rest := { s.rest with alphaS := m } } : KAAMem K) { t with alphaS := m' } := by
  refine ⟨h.safe.rest _, ?_⟩
  rw [← h.eq, e]
  rfl

theorem Sim.setAlphaC (h : Sim h0 n0 s t) {m m' : K} (e : m = m') :
    Sim h0 n0 ({ s with rest := { s.rest with alphaC := m } } : KAAMem K) { t with alphaC := m' } := by
  refine ⟨h.safe.rest _, ?_⟩
  rw [← h.eq, e]
  rfl

theorem Sim.setAlphaAlpha (h : Sim h0 n0 s t) {m m' : K} (e : m = m') :
    Sim h0 n0 ({ s with rest := { s.rest with alphaAlpha := m } } : KAAMem K) { t with alphaAlpha := m' } := by
  refine ⟨h.safe.rest _, ?_⟩
  rw [← h.eq, e]
  rfl

theorem Sim.setTraceK (h : Sim h0 n0 s t) {m m' : K} (e : m = m') :
    Sim h0 n0 ({ s with rest := { s.rest with traceK := m } } : KAAMem K) { t with traceK := m' } := by
  refine ⟨h.safe.rest _, ?_⟩
  rw [← h.eq, e]
  rfl

theorem Sim.refreshCK (h : Sim h0 n0 s t) (delta : K) :
    Sim h0 n0 (KAAMem.refreshCK n k delta s) (t.refreshCK delta) := by
  have h1 := h.assign_CK (M := _) (N := _) (congrArg (fun u : KAAState n k K => u.C * u.Kmat) h.eq)
  unfold KAAMem.refreshCK KAAState.refreshCK
  by_cases hd : delta > 0
  · simp only [if_pos hd]
    have h2 := h1.assign_CK (M := _) (N := _) (congrArg (fun u : KAAState n k K => u.diagAlpha * u.CK) h1.eq)
    have h3 := h2.assign_CKCt (M := _) (N := _) (congrArg (fun u : KAAState n k K => u.CK * u.Cᵀ) h2.eq)
    exact h3.assign_CKCt (congrArg (fun u : KAAState n k K => u.CKCt * u.diagAlpha) h3.eq)
  · simp only [if_neg hd]
    exact h1.assign_CKCt (congrArg (fun u : KAAState n k K => u.CK * u.Cᵀ) h1.eq)

/-- Scaling `CK` in place. -/
theorem Sim.scaleCK (h : Sim h0 n0 s t) (delta : K) :
    Sim h0 n0 (if delta > 0 then s.augment .CK ((rd n k s).diagAlpha * (rd n k s).CK) else s)
      (if delta > 0 then { t with CK := t.diagAlpha * t.CK } else t) := by
  by_cases hd : delta > 0
  · rw [if_pos hd, if_pos hd]
    exact h.augment_CK (congrArg (fun u : KAAState n k K => u.diagAlpha * u.CK) h.eq)
  · rw [if_neg hd, if_neg hd]
    exact h

/-- Scaling `CKCt` in place. -/
theorem Sim.scaleCKCt (h : Sim h0 n0 s t) (delta : K) :
    Sim h0 n0 (if delta > 0 then s.augment .CKCt ((rd n k s).CKCt * (rd n k s).diagAlpha) else s)
      (if delta > 0 then { t with CKCt := t.CKCt * t.diagAlpha } else t) := by
  by_cases hd : delta > 0
  · rw [if_pos hd, if_pos hd]
    exact h.augment_CKCt (congrArg (fun u : KAAState n k K => u.CKCt * u.diagAlpha) h.eq)
  · rw [if_neg hd, if_neg hd]
    exact h

theorem Sim.evaluateCost (h : Sim h0 n0 s t) (delta : K) :
    Sim h0 n0 (KAAMem.evaluateCost n k delta s).1 (t.evaluateCost delta).1 ∧
      (KAAMem.evaluateCost n k delta s).2 = (t.evaluateCost delta).2 := by
  have h1 := h.augment_StS (M := _) (N := _) (congrArg (fun u : KAAState n k K => u.Sᵀ * u.S) h.eq)
  have h2 := h1.augment_CK (M := _) (N := _) (congrArg (fun u : KAAState n k K => u.C * u.Kmat) h1.eq)
  have h3 := h2.scaleCK delta
  have h4 := h3.augment_CKCt (M := _) (N := _) (congrArg (fun u : KAAState n k K => u.CK * u.Cᵀ) h3.eq)
  have h5 := h4.scaleCKCt delta
  exact ⟨h5, congrArg (fun u : KAAState n k K => (u.StS * u.CKCt).trace - 2 * (u.S * u.CK).trace + u.Kmat.trace) h5.eq⟩

theorem Sim.updateWeightsGradient (h : Sim h0 n0 s t) (delta : K) :
    Sim h0 n0 (KAAMem.updateWeightsGradient n k delta s) (t.updateWeightsGradient delta) := by
  have h1 := h.assign_gradS (M := _) (N := _) (congrArg (fun u : KAAState n k K => u.Kmatᵀ * ((-2 : K) • u.Cᵀ)) h.eq)
  unfold KAAMem.updateWeightsGradient KAAState.updateWeightsGradient
  by_cases hd : delta > 0
  · simp only [if_pos hd]
    have h2 := h1.assign_gradS (M := _) (N := _) (congrArg (fun u : KAAState n k K => u.gradS * u.diagAlpha) h1.eq)
    exact h2.augment_gradS (congrArg (fun u : KAAState n k K => u.gradS + u.S * ((2 : K) • u.CKCt)) h2.eq)
  · simp only [if_neg hd]
    exact h1.augment_gradS (congrArg (fun u : KAAState n k K => u.gradS + u.S * ((2 : K) • u.CKCt)) h1.eq)

theorem deltaGradS_updateWeightsGradient (h : s.Safe (kaaShape n k) h0 n0) (delta : K) :
    deltaGradS n k (KAAMem.updateWeightsGradient n k delta s) = deltaGradS n k s := by
  have a1 := h.assign .gradS ((rd n k s).Kmatᵀ * ((-2 : K) • (rd n k s).Cᵀ))
  unfold KAAMem.updateWeightsGradient deltaGradS
  by_cases hd : delta > 0
  · simp only [if_pos hd]
    refine (val_augment_of_ne (a1.assign .gradS _) (by decide) _).trans ?_
    refine (val_assign_of_ne a1 (by decide) _).trans ?_
    exact val_assign_of_ne h (by decide) _
  · simp only [if_neg hd]
    refine (val_augment_of_ne a1 (by decide) _).trans ?_
    exact val_assign_of_ne h (by decide) _

theorem Sim.weightsFirst (h : Sim h0 n0 s t) (ht : t.SOld = t.S) :
    Sim h0 n0 (KAAMem.weightsFirst n k s).1 (t.weightsTrial 1).1 ∧
      (KAAMem.weightsFirst n k s).2 = (t.weightsTrial 1).2 := by
  have h1 : Sim h0 n0 (s.augment .S ((rd n k s).S + (rd n k s).incrS))
      { t with S := t.SOld + (1 : K) • t.incrS } :=
    h.augment_S (by rw [h.eq, one_smul, ht])
  have h2 := h1.assign_StS (M := _) (N := _) (congrArg (fun u : KAAState n k K => u.Sᵀ * u.S) h1.eq)
  exact ⟨h2, congrArg (fun u : KAAState n k K => u.cachedCost) h2.eq⟩

theorem Sim.weightsTrial (h : Sim h0 n0 s t) (step : K) :
    Sim h0 n0 (KAAMem.weightsTrial n k s step).1 (t.weightsTrial step).1 ∧
      (KAAMem.weightsTrial n k s step).2 = (t.weightsTrial step).2 := by
  have h1 : Sim h0 n0 (s.assign .S ((rd n k s).SOld + step • (rd n k s).incrS))
      { t with S := t.SOld + step • t.incrS } :=
    h.assign_S (by rw [h.eq])
  have h2 := h1.assign_StS (M := _) (N := _) (congrArg (fun u : KAAState n k K => u.Sᵀ * u.S) h1.eq)
  exact ⟨h2, congrArg (fun u : KAAState n k K => u.cachedCost) h2.eq⟩

theorem Sim.dictionaryFirst (h : Sim h0 n0 s t) (ht : t.COld = t.C) (delta : K) :
    Sim h0 n0 (KAAMem.dictionaryFirst n k delta s).1 (t.dictionaryTrial delta 1).1 ∧
      (KAAMem.dictionaryFirst n k delta s).2 = (t.dictionaryTrial delta 1).2 := by
  have h1 : Sim h0 n0 (s.augment .C ((rd n k s).C + (rd n k s).incrC))
      { t with C := t.COld + (1 : K) • t.incrC } :=
    h.augment_C (by rw [h.eq, one_smul, ht])
  have h2 := h1.refreshCK delta
  exact ⟨h2, congrArg (fun u : KAAState n k K => u.cachedCost) h2.eq⟩

theorem Sim.dictionaryTrial (h : Sim h0 n0 s t) (delta step : K) :
    Sim h0 n0 (KAAMem.dictionaryTrial n k delta s step).1 (t.dictionaryTrial delta step).1 ∧
      (KAAMem.dictionaryTrial n k delta s step).2 = (t.dictionaryTrial delta step).2 := by
  have h1 : Sim h0 n0 (s.assign .C ((rd n k s).COld + step • (rd n k s).incrC))
      { t with C := t.COld + step • t.incrC } :=
    h.assign_C (by rw [h.eq])
  have h2 := h1.refreshCK delta
  exact ⟨h2, congrArg (fun u : KAAState n k K => u.cachedCost) h2.eq⟩

theorem Sim.weightsLineSearch (h : Sim h0 n0 s t) (cfg : LSConfig K) :
    HRel h0 n0 (fun r r' => Sim h0 n0 r.1 r'.1 ∧ r.2 = r'.2)
      (KAAMem.weightsLineSearch n k cfg s) (t.weightsLineSearch cfg) := by
  have h1 : Sim h0 n0 (s.assign .SOld (rd n k s).S) { t with SOld := t.S } :=
    h.assign_SOld (by rw [h.eq])
  refine HRel.bind
    (x := hLineSearch cfg (KAAMem.weightsFirst n k) (KAAMem.weightsTrial n k)
      (s.assign .SOld (rd n k s).S).rest.fSMem (s.assign .SOld (rd n k s).S)
      (rd n k s).cachedCost
      (mulSum (rd n k (s.assign .SOld (rd n k s).S)).incrS
        (rd n k (s.assign .SOld (rd n k s).S)).gradS))
    (y := lineSearch cfg KAAState.weightsTrial t.fSMem { t with SOld := t.S }
      t.cachedCost (mulSum t.incrS t.gradS))
    (P := fun r r' => Sim h0 n0 r.state r'.state ∧ r.mem = r'.mem ∧ r.stepSize = r'.stepSize) ?_ ?_
  · rw [h1.eq, show (rd n k s).cachedCost = t.cachedCost by rw [h.eq],
      show (s.assign .SOld (rd n k s).S).rest.fSMem = t.fSMem from
        (congrArg (fun u : KAAState n k K => u.fSMem) h1.eq).trans rfl]
    exact hLineSearch_rel (R := fun s t => Sim h0 n0 s t) (fun _ _ h => h.keeps)
      (fun s t a h => h.weightsTrial a) h1 (h1.weightsFirst rfl)
  rintro a b ⟨h2, e1, e2⟩
  exact ⟨h2.setFSMem e1, e2⟩

theorem Sim.dictionaryLineSearch (h : Sim h0 n0 s t) (cfg : LSConfig K) (delta : K) :
    HRel h0 n0 (fun r r' => Sim h0 n0 r.1 r'.1 ∧ r.2 = r'.2)
      (KAAMem.dictionaryLineSearch n k cfg delta s) (t.dictionaryLineSearch cfg delta) := by
  have h1 : Sim h0 n0 (s.assign .COld (rd n k s).C) { t with COld := t.C } :=
    h.assign_COld (by rw [h.eq])
  refine HRel.bind
    (x := hLineSearch cfg (KAAMem.dictionaryFirst n k delta) (KAAMem.dictionaryTrial n k delta)
      (s.assign .COld (rd n k s).C).rest.fCMem (s.assign .COld (rd n k s).C)
      (rd n k s).cachedCost
      (mulSum (rd n k (s.assign .COld (rd n k s).C)).incrC
        (rd n k (s.assign .COld (rd n k s).C)).gradC))
    (y := lineSearch cfg (KAAState.dictionaryTrial delta) t.fCMem { t with COld := t.C }
      t.cachedCost (mulSum t.incrC t.gradC))
    (P := fun r r' => Sim h0 n0 r.state r'.state ∧ r.mem = r'.mem ∧ r.stepSize = r'.stepSize) ?_ ?_
  · rw [h1.eq, show (rd n k s).cachedCost = t.cachedCost by rw [h.eq],
      show (s.assign .COld (rd n k s).C).rest.fCMem = t.fCMem from
        (congrArg (fun u : KAAState n k K => u.fCMem) h1.eq).trans rfl]
    exact hLineSearch_rel (R := fun s t => Sim h0 n0 s t) (fun _ _ h => h.keeps)
      (fun s t a h => h.dictionaryTrial delta a) h1 (h1.dictionaryFirst rfl delta)
  rintro a b ⟨h2, e1, e2⟩
  exact ⟨h2.setFCMem e1, e2⟩

theorem Sim.prepareWeights (h : Sim h0 n0 s t) (delta : K) :
    Sim h0 n0 (KAAMem.prepareWeights n k delta s) (t.prepareWeights delta) := by
  have h1 := h.refreshCK delta
  have h4 := h1.updateWeightsGradient delta
  have h5 := h4.assign_incrS (M := _) (N := _) (congrArg (fun u : KAAState n k K => u.S - u.alphaS • u.gradS) h4.eq)
  have h6 := h5.augment_incrS (M := _) (N := _) (congrArg (fun u : KAAState n k K => simplexProjectRows u.incrS) h5.eq)
  exact h6.augment_incrS (congrArg (fun u : KAAState n k K => u.incrS - u.S) h6.eq)

theorem Sim.finishWeights (h : Sim h0 n0 s t) (cfg : LSConfig K) (delta step : K) :
    Sim h0 n0 (KAAMem.finishWeights n k cfg delta s step)
      { t.updateWeightsGradient delta with
        alphaS := nextSpgAlpha
          (step * mulSum (t.updateWeightsGradient delta).incrS
            ((t.updateWeightsGradient delta).gradS - t.gradS))
          (step ^ 2 * mulSum (t.updateWeightsGradient delta).incrS
            (t.updateWeightsGradient delta).incrS) cfg.alphaMin cfg.alphaMax } := by
  have h1 := h.assign_deltaGradS (rd n k s).gradS
  have h2 := h1.updateWeightsGradient delta
  have e2 : deltaGradS n k (KAAMem.updateWeightsGradient n k delta
      (s.assign .deltaGradS (rd n k s).gradS)) = t.gradS := by
    rw [deltaGradS_updateWeightsGradient h1.safe, deltaGradS_assign h.safe.valid, h.eq]
  have h3 := h2.assign_deltaGradS ((rd n k (KAAMem.updateWeightsGradient n k delta
      (s.assign .deltaGradS (rd n k s).gradS))).gradS - deltaGradS n k
        (KAAMem.updateWeightsGradient n k delta (s.assign .deltaGradS (rd n k s).gradS)))
  unfold KAAMem.finishWeights
  refine h3.setAlphaS ?_
  rw [h3.eq, deltaGradS_assign h2.safe.valid, e2, h2.eq]

theorem Sim.updateWeights (h : Sim h0 n0 s t) (cfg : LSConfig K) (delta : K) :
    HRel h0 n0 (Sim h0 n0) (KAAMem.updateWeights n k cfg delta s) (t.updateWeights cfg delta) := by
  unfold KAAMem.updateWeights KAAState.updateWeights
  refine HRel.bind ((h.prepareWeights delta).weightsLineSearch cfg) ?_
  rintro ⟨a, x⟩ ⟨b, y⟩ ⟨h1, e⟩
  obtain rfl : x = y := e
  exact h1.finishWeights cfg delta x

theorem Sim.updateDictionaryGradient (h : Sim h0 n0 s t) (delta : K) :
    Sim h0 n0 (KAAMem.updateDictionaryGradient n k delta s) (t.updateDictionaryGradient delta) := by
  have h1 := h.assign_gradC (M := _) (N := _) (congrArg (fun u : KAAState n k K => u.Sᵀ * ((-2 : K) • u.Kmatᵀ)) h.eq)
  have h2 := h1.augment_gradC (M := _) (N := _)
    (congrArg (fun u : KAAState n k K => u.gradC + (2 : K) • (u.StS * u.CK)) h1.eq)
  unfold KAAMem.updateDictionaryGradient KAAState.updateDictionaryGradient
  by_cases hd : delta > 0
  · simp only [if_pos hd]
    exact h2.assign_gradC (congrArg (fun u : KAAState n k K => u.diagAlpha * u.gradC) h2.eq)
  · simp only [if_neg hd]
    exact h2

theorem deltaGradC_updateDictionaryGradient (h : s.Safe (kaaShape n k) h0 n0) (delta : K) :
    deltaGradC n k (KAAMem.updateDictionaryGradient n k delta s) = deltaGradC n k s := by
  have a1 := h.assign .gradC ((rd n k s).Sᵀ * ((-2 : K) • (rd n k s).Kmatᵀ))
  unfold KAAMem.updateDictionaryGradient deltaGradC
  by_cases hd : delta > 0
  · simp only [if_pos hd]
    refine (val_assign_of_ne (a1.augment .gradC _) (by decide) _).trans ?_
    refine (val_augment_of_ne a1 (by decide) _).trans ?_
    exact val_assign_of_ne h (by decide) _
  · simp only [if_neg hd]
    refine (val_augment_of_ne a1 (by decide) _).trans ?_
    exact val_assign_of_ne h (by decide) _

theorem Sim.prepareDictionary (h : Sim h0 n0 s t) (delta : K) :
    Sim h0 n0 (KAAMem.prepareDictionary n k delta s) (t.prepareDictionary delta) := by
  have h0' := h.assign_StS (M := _) (N := _) (congrArg (fun u : KAAState n k K => u.Sᵀ * u.S) h.eq)
  have h1 := h0'.refreshCK delta
  have h4 := h1.updateDictionaryGradient delta
  have h5 := h4.assign_incrC (M := _) (N := _) (congrArg (fun u : KAAState n k K => u.C - u.alphaC • u.gradC) h4.eq)
  have h6 := h5.augment_incrC (M := _) (N := _) (congrArg (fun u : KAAState n k K => simplexProjectRows u.incrC) h5.eq)
  exact h6.augment_incrC (congrArg (fun u : KAAState n k K => u.incrC - u.C) h6.eq)

theorem Sim.finishDictionary (h : Sim h0 n0 s t) (cfg : LSConfig K) (delta step : K) :
    Sim h0 n0 (KAAMem.finishDictionary n k cfg delta s step)
      { t.updateDictionaryGradient delta with
        alphaC := nextSpgAlpha
          (step * mulSum (t.updateDictionaryGradient delta).incrC
            ((t.updateDictionaryGradient delta).gradC - t.gradC))
          (step ^ 2 * mulSum (t.updateDictionaryGradient delta).incrC
            (t.updateDictionaryGradient delta).incrC) cfg.alphaMin cfg.alphaMax } := by
  have h1 := h.assign_deltaGradC (rd n k s).gradC
  have h2 := h1.updateDictionaryGradient delta
  have e2 : deltaGradC n k (KAAMem.updateDictionaryGradient n k delta
      (s.assign .deltaGradC (rd n k s).gradC)) = t.gradC := by
    rw [deltaGradC_updateDictionaryGradient h1.safe, deltaGradC_assign h.safe.valid, h.eq]
  have h3 := h2.assign_deltaGradC ((rd n k (KAAMem.updateDictionaryGradient n k delta
      (s.assign .deltaGradC (rd n k s).gradC))).gradC - deltaGradC n k
        (KAAMem.updateDictionaryGradient n k delta (s.assign .deltaGradC (rd n k s).gradC)))
  unfold KAAMem.finishDictionary
  refine h3.setAlphaC ?_
  rw [h3.eq, deltaGradC_assign h2.safe.valid, e2, h2.eq]

theorem Sim.updateDictionaryCore (h : Sim h0 n0 s t) (cfg : LSConfig K) (delta : K) :
    HRel h0 n0 (Sim h0 n0) (KAAMem.updateDictionaryCore n k cfg delta s)
      (t.updateDictionaryCore cfg delta) := by
  unfold KAAMem.updateDictionaryCore KAAState.updateDictionaryCore
  refine HRel.bind ((h.prepareDictionary delta).dictionaryLineSearch cfg delta) ?_
  rintro ⟨a, x⟩ ⟨b, y⟩ ⟨h1, e⟩
  obtain rfl : x = y := e
  exact h1.finishDictionary cfg delta x

theorem Sim.updateScaleFactorsGradient (h : Sim h0 n0 s t) :
    Sim h0 n0 (KAAMem.updateScaleFactorsGradient n k s) t.updateScaleFactorsGradient := by
  unfold KAAMem.updateScaleFactorsGradient KAAState.updateScaleFactorsGradient
  exact h.assign_gradAlpha (by rw [h.eq])

theorem Sim.scaleFactorsLineSearch (h : Sim h0 n0 s t) (cfg : LSConfig K) :
    HRel h0 n0 (fun r r' => Sim h0 n0 r.1 r'.1 ∧ r.2 = r'.2)
      (KAAMem.scaleFactorsLineSearch n k cfg s) (t.scaleFactorsLineSearch cfg) := by
  unfold KAAMem.scaleFactorsLineSearch KAAState.scaleFactorsLineSearch
  rw [h.eq, show s.rest.fAlphaMem = t.fAlphaMem from congrArg (fun u : KAAState n k K => u.fAlphaMem) h.eq]
  refine HRel.bind (HRel.lift h.keeps _) ?_
  rintro a b ⟨rfl, -⟩
  exact ⟨h.setFAlphaMem rfl, rfl⟩

theorem Sim.prepareScaleFactors (h : Sim h0 n0 s t) (delta : K) :
    Sim h0 n0 (KAAMem.prepareScaleFactors n k delta s) (t.prepareScaleFactors delta) := by
  obtain ⟨hs, rfl⟩ := h
  have h : Sim h0 n0 s (rd n k s) := ⟨hs, rfl⟩
  have h1 := h.assign_CK (M := _) (N := _) (congrArg (fun u : KAAState n k K => u.C * u.Kmat) h.eq)
  have h2 := h1.assign_CKS (M := _) (N := _) (congrArg (fun u : KAAState n k K => u.CK * u.S) h1.eq)
  have h3 := h2.assign_CKCt (M := _) (N := _) (congrArg (fun u : KAAState n k K => u.CK * u.Cᵀ) h2.eq)
  have h4 := h3.updateScaleFactorsGradient
  have h5 := h4.assign_incrAlpha (M := _) (N := _)
    (congrArg (fun u : KAAState n k K => (Matrix.of fun i j => (rd n k s).diagAlpha i j - u.alphaAlpha * u.gradAlpha j :
      Matrix (Fin k) (Fin k) K)) h4.eq)
  have h6 := h5.assign_incrAlpha (M := _) (N := _)
    (congrArg (fun u : KAAState n k K => (Matrix.of fun i j => min (u.incrAlpha i j) (1 - delta) :
      Matrix (Fin k) (Fin k) K)) h5.eq)
  have h7 := h6.assign_incrAlpha (M := _) (N := _)
    (congrArg (fun u : KAAState n k K => (Matrix.of fun i j => max (u.incrAlpha i j) (1 + delta) :
      Matrix (Fin k) (Fin k) K)) h6.eq)
  have h8 := h7.augment_incrAlpha (M := _) (N := _)
    (congrArg (fun u : KAAState n k K => u.incrAlpha - (rd n k s).diagAlpha) h7.eq)
  exact h8

theorem deltaGradAlpha_updateScaleFactorsGradient (h : s.Safe (kaaShape n k) h0 n0) :
    deltaGradAlpha n k (KAAMem.updateScaleFactorsGradient n k s) = deltaGradAlpha n k s :=
  congrArg (fun M : Matrix (Fin 1) (Fin k) K => M 0)
    (val_assign_of_ne h (a := .gradAlpha) (b := .deltaGradAlpha) (by decide) _)

theorem Sim.finishScaleFactors (h : Sim h0 n0 s t) (cfg : LSConfig K) (step : K) :
    Sim h0 n0 (KAAMem.finishScaleFactors n k cfg s step)
      { t.updateScaleFactorsGradient with
        alphaAlpha := nextSpgAlpha
          (step * ∑ i, ∑ j, t.updateScaleFactorsGradient.incrAlpha i j *
            (t.updateScaleFactorsGradient.gradAlpha j - t.gradAlpha j))
          (step ^ 2 * mulSum t.updateScaleFactorsGradient.incrAlpha
            t.updateScaleFactorsGradient.incrAlpha) cfg.alphaMin cfg.alphaMax } := by
  have h1 := h.assign_deltaGradAlpha (rowVec (rd n k s).gradAlpha)
  have h2 := h1.updateScaleFactorsGradient
  have e2 : deltaGradAlpha n k (KAAMem.updateScaleFactorsGradient n k
      (s.assign .deltaGradAlpha (rowVec (rd n k s).gradAlpha))) = t.gradAlpha := by
    rw [deltaGradAlpha_updateScaleFactorsGradient h1.safe, deltaGradAlpha_assign h.safe.valid, h.eq]
  have h3 := h2.assign_deltaGradAlpha (rowVec fun j => (rd n k (KAAMem.updateScaleFactorsGradient n k
      (s.assign .deltaGradAlpha (rowVec (rd n k s).gradAlpha)))).gradAlpha j - deltaGradAlpha n k
        (KAAMem.updateScaleFactorsGradient n k
          (s.assign .deltaGradAlpha (rowVec (rd n k s).gradAlpha))) j)
  unfold KAAMem.finishScaleFactors
  refine h3.setAlphaAlpha ?_
  rw [h3.eq, deltaGradAlpha_assign h2.safe.valid, e2, h2.eq]

theorem Sim.updateScaleFactors (h : Sim h0 n0 s t) (cfg : LSConfig K) (delta : K) :
    HRel h0 n0 (Sim h0 n0) (KAAMem.updateScaleFactors n k cfg delta s)
      (t.updateScaleFactors cfg delta) := by
  unfold KAAMem.updateScaleFactors KAAState.updateScaleFactors
  refine HRel.bind ((h.prepareScaleFactors delta).scaleFactorsLineSearch cfg) ?_
  rintro ⟨a, x⟩ ⟨b, y⟩ ⟨h1, e⟩
  obtain rfl : x = y := e
  exact h1.finishScaleFactors cfg x

theorem Sim.updateDictionary (h : Sim h0 n0 s t) (cfg : LSConfig K) (delta : K) :
    HRel h0 n0 (Sim h0 n0) (KAAMem.updateDictionary n k cfg delta s)
      (t.updateDictionary cfg delta) := by
  unfold KAAMem.updateDictionary KAAState.updateDictionary
  refine HRel.bind (h.updateDictionaryCore cfg delta) fun a b hab => ?_
  by_cases hd : delta > 0
  · rw [if_pos hd, if_pos hd]
    exact hab.updateScaleFactors cfg delta
  · rw [if_neg hd, if_neg hd]
    exact hab

theorem Sim.iterate (h : Sim h0 n0 s t) (cfg : LSConfig K) (delta : K) (require : Bool) (tol : K)
    (maxIter : ℕ) (ud uw : Bool) :
    HRel h0 n0 (fun r r' => Sim h0 n0 r.state r'.state ∧ r.cost = r'.cost ∧ r.nIter = r'.nIter ∧
        r.trace = r'.trace)
      (KAAMem.iterate n k cfg delta require tol maxIter ud uw s)
      (kaaIterate cfg delta require tol maxIter ud uw t) := by
  unfold KAAMem.iterate kaaIterate
  refine hIterate_rel (R := fun s t => Sim h0 n0 s t) (fun _ _ h => h.keeps)
    (fun s t h => h.evaluateCost delta) ?_ h
  refine List.rel_append ?_ ?_
  · cases ud
    · exact .nil
    · exact .cons (fun s t h => h.updateDictionary cfg delta) .nil
  · cases uw
    · exact .nil
    · exact .cons (fun s t h => h.updateWeights cfg delta) .nil

theorem Sim.initializeWorkspace (cfg : LSConfig K) {h : Heap K} (hk : h0.Keeps h n0)
    {kernel weights dictionary : ℕ} (hd : kernel < h.next) (hw : weights < h.next)
    (hs : dictionary < h.next) {X : Matrix (Fin n) (Fin n) K} {S : Matrix (Fin n) (Fin k) K}
    {C : Matrix (Fin k) (Fin n) K} (hX : h.cell kernel = Arr2.of X) (hS : h.cell weights = Arr2.of S)
    (hC : h.cell dictionary = Arr2.of C) :
    Sim h0 n0 (KAAMem.initializeWorkspace n k cfg h kernel weights dictionary)
      (KAAState.initializeWorkspace cfg X S C) := by
  unfold KAAMem.initializeWorkspace
  extract_lets s0 s1 s2 s3 s4 r4 s5 s6 s7 s8 s9 s10 s11 s12 s13 s14 s15 s16 s17 s18 s19 s20
  have v0 : s0.Valid := fun _ => hd
  have k0 : h0.Keeps s0.heap n0 := hk
  have o0 : s0.Owns (kaaShape n k) n0 fun _ => False :=
    ⟨fun _ h => h.elim, fun _ _ h => h.elim⟩
  have v1 : s1.Valid := v0.assign _ _
  have k1 : h0.Keeps s1.heap n0 := HState.keeps_assign k0 _ _
  have o1 : s1.Owns (kaaShape n k) n0 _ := o0.assign v0 k0.1 .Kmat ((s0.heap.cell kernel).at n n)
  have v2 : s2.Valid := v1.assign _ _
  have k2 : h0.Keeps s2.heap n0 := HState.keeps_assign k1 _ _
  have o2 : s2.Owns (kaaShape n k) n0 _ := o1.assign v1 k1.1 .S ((s1.heap.cell weights).at n k)
  have v3 : s3.Valid := v2.assign _ _
  have k3 : h0.Keeps s3.heap n0 := HState.keeps_assign k2 _ _
  have o3 : s3.Owns (kaaShape n k) n0 _ := o2.assign v2 k2.1 .C ((s2.heap.cell dictionary).at k n)
  have v4 : s4.Valid := v3.assign _ _
  have k4 : h0.Keeps s4.heap n0 := HState.keeps_assign k3 _ _
  have o4 : s4.Owns (kaaShape n k) n0 _ := o3.assign v3 k3.1 .alpha (rowVec fun _ : Fin k => (1 : K))
  have v5 : s5.Valid := v4
  have k5 : h0.Keeps s5.heap n0 := k4
  have o5 : s5.Owns (kaaShape n k) n0 _ := o4
  have v6 : s6.Valid := v5.assign _ _
  have k6 : h0.Keeps s6.heap n0 := HState.keeps_assign k5 _ _
  have o6 : s6.Owns (kaaShape n k) n0 _ := o5.assign v5 k5.1 .CK ((rd n k s5).C * (rd n k s5).Kmat)
  have v7 : s7.Valid := v6.assign _ _
  have k7 : h0.Keeps s7.heap n0 := HState.keeps_assign k6 _ _
  have o7 : s7.Owns (kaaShape n k) n0 _ := o6.assign v6 k6.1 .CKCt ((rd n k s6).CK * (rd n k s6).Cᵀ)
  have v8 : s8.Valid := v7.assign _ _
  have k8 : h0.Keeps s8.heap n0 := HState.keeps_assign k7 _ _
  have o8 : s8.Owns (kaaShape n k) n0 _ := o7.assign v7 k7.1 .CKS ((rd n k s7).CK * (rd n k s7).S)
  have v9 : s9.Valid := v8.assign _ _
  have k9 : h0.Keeps s9.heap n0 := HState.keeps_assign k8 _ _
  have o9 : s9.Owns (kaaShape n k) n0 _ := o8.assign v8 k8.1 .StS ((rd n k s8).Sᵀ * (rd n k s8).S)
  have v10 : s10.Valid := v9.assign _ _
  have k10 : h0.Keeps s10.heap n0 := HState.keeps_assign k9 _ _
  have o10 : s10.Owns (kaaShape n k) n0 _ := o9.assign v9 k9.1 .COld (rd n k s9).C
  have v11 : s11.Valid := v10.assign _ _
  have k11 : h0.Keeps s11.heap n0 := HState.keeps_assign k10 _ _
  have o11 : s11.Owns (kaaShape n k) n0 _ := o10.assign v10 k10.1 .gradC (0 : Matrix (Fin k) (Fin n) K)
  have v12 : s12.Valid := v11.assign _ _
  have k12 : h0.Keeps s12.heap n0 := HState.keeps_assign k11 _ _
  have o12 : s12.Owns (kaaShape n k) n0 _ := o11.assign v11 k11.1 .deltaGradC (0 : Matrix (Fin k) (Fin n) K)
  have v13 : s13.Valid := v12.assign _ _
  have k13 : h0.Keeps s13.heap n0 := HState.keeps_assign k12 _ _
  have o13 : s13.Owns (kaaShape n k) n0 _ := o12.assign v12 k12.1 .incrC (0 : Matrix (Fin k) (Fin n) K)
  have v14 : s14.Valid := v13.assign _ _
  have k14 : h0.Keeps s14.heap n0 := HState.keeps_assign k13 _ _
  have o14 : s14.Owns (kaaShape n k) n0 _ := o13.assign v13 k13.1 .alphaOld (rowVec (rd n k s13).alpha)
  have v15 : s15.Valid := v14.assign _ _
  have k15 : h0.Keeps s15.heap n0 := HState.keeps_assign k14 _ _
  have o15 : s15.Owns (kaaShape n k) n0 _ := o14.assign v14 k14.1 .gradAlpha (rowVec fun _ : Fin k => (0 : K))
  have v16 : s16.Valid := v15.assign _ _
  have k16 : h0.Keeps s16.heap n0 := HState.keeps_assign k15 _ _
  have o16 : s16.Owns (kaaShape n k) n0 _ := o15.assign v15 k15.1 .deltaGradAlpha (rowVec fun _ : Fin k => (0 : K))
  have v17 : s17.Valid := v16.assign _ _
  have k17 : h0.Keeps s17.heap n0 := HState.keeps_assign k16 _ _
  have o17 : s17.Owns (kaaShape n k) n0 _ := o16.assign v16 k16.1 .incrAlpha (0 : Matrix (Fin k) (Fin k) K)
  have v18 : s18.Valid := v17.assign _ _
  have k18 : h0.Keeps s18.heap n0 := HState.keeps_assign k17 _ _
  have o18 : s18.Owns (kaaShape n k) n0 _ := o17.assign v17 k17.1 .SOld (rd n k s17).S
  have v19 : s19.Valid := v18.assign _ _
  have k19 : h0.Keeps s19.heap n0 := HState.keeps_assign k18 _ _
  have o19 : s19.Owns (kaaShape n k) n0 _ := o18.assign v18 k18.1 .gradS (0 : Matrix (Fin n) (Fin k) K)
  have v20 : s20.Valid := v19.assign _ _
  have k20 : h0.Keeps s20.heap n0 := HState.keeps_assign k19 _ _
  have o20 : s20.Owns (kaaShape n k) n0 _ := o19.assign v19 k19.1 .deltaGradS (0 : Matrix (Fin n) (Fin k) K)
  have o21 := o20.assign v20 k20.1 .incrS (0 : Matrix (Fin n) (Fin k) K)
  refine ⟨⟨v20.assign _ _, o21.mono fun a _ => by cases a <;> simp,
    HState.keeps_assign k20 _ _⟩, ?_⟩
  have c0 : s0.heap.cell kernel = Arr2.of X := hX
  have c1 : s1.heap.cell weights = Arr2.of S := (HState.cell_assign hw _ _).trans hS
  have c2 : s2.heap.cell dictionary = Arr2.of C :=
    (HState.cell_assign (Nat.lt_succ_of_lt hs) _ _).trans ((HState.cell_assign hs _ _).trans hC)
  have z1 : rd n k s1 = { rd n k s0 with Kmat := X } :=
    (rd_assign_Kmat v0 _).trans (by rw [c0, Arr2.at_of])
  have x1 : (rd n k s1).Kmat = X := by rw [z1]
  have z2 : rd n k s2 = { rd n k s1 with S := S } :=
    (rd_assign_S v1 _).trans (by rw [c1, Arr2.at_of])
  have x2 : (rd n k s2).Kmat = X := by rw [z2, x1]
  have y2 : (rd n k s2).S = S := by rw [z2]
  have z3 : rd n k s3 = { rd n k s2 with C := C } :=
    (rd_assign_C v2 _).trans (by rw [c2, Arr2.at_of])
  have x3 : (rd n k s3).Kmat = X := by rw [z3, x2]
  have y3 : (rd n k s3).S = S := by rw [z3, y2]
  have d3 : (rd n k s3).C = C := by rw [z3]
  have z4 : rd n k s4 = { rd n k s3 with alpha := (fun _ => 1) } :=
    rd_assign_alpha v3 _
  have x4 : (rd n k s4).Kmat = X := by rw [z4, x3]
  have y4 : (rd n k s4).S = S := by rw [z4, y3]
  have d4 : (rd n k s4).C = C := by rw [z4, d3]
  have z5 : rd n k s5 = { rd n k s4 with traceK := X.trace } := by
    rw [← x4]
    rfl
  have x5 : (rd n k s5).Kmat = X := by rw [z5, x4]
  have y5 : (rd n k s5).S = S := by rw [z5, y4]
  have d5 : (rd n k s5).C = C := by rw [z5, d4]
  have z6 : rd n k s6 = { rd n k s5 with CK := C * X } :=
    (rd_assign_CK v5 _).trans (by rw [x5, d5])
  have x6 : (rd n k s6).Kmat = X := by rw [z6, x5]
  have y6 : (rd n k s6).S = S := by rw [z6, y5]
  have d6 : (rd n k s6).C = C := by rw [z6, d5]
  have ck6 : (rd n k s6).CK = C * X := by rw [z6]
  have z7 : rd n k s7 = { rd n k s6 with CKCt := C * X * Cᵀ } :=
    (rd_assign_CKCt v6 _).trans (by rw [d6, ck6])
  have x7 : (rd n k s7).Kmat = X := by rw [z7, x6]
  have y7 : (rd n k s7).S = S := by rw [z7, y6]
  have d7 : (rd n k s7).C = C := by rw [z7, d6]
  have ck7 : (rd n k s7).CK = C * X := by rw [z7, ck6]
  have z8 : rd n k s8 = { rd n k s7 with CKS := C * X * S } :=
    (rd_assign_CKS v7 _).trans (by rw [y7, ck7])
  have x8 : (rd n k s8).Kmat = X := by rw [z8, x7]
  have y8 : (rd n k s8).S = S := by rw [z8, y7]
  have d8 : (rd n k s8).C = C := by rw [z8, d7]
  have ck8 : (rd n k s8).CK = C * X := by rw [z8, ck7]
  have z9 : rd n k s9 = { rd n k s8 with StS := Sᵀ * S } :=
    (rd_assign_StS v8 _).trans (by rw [y8])
  have x9 : (rd n k s9).Kmat = X := by rw [z9, x8]
  have y9 : (rd n k s9).S = S := by rw [z9, y8]
  have d9 : (rd n k s9).C = C := by rw [z9, d8]
  have ck9 : (rd n k s9).CK = C * X := by rw [z9, ck8]
  have z10 : rd n k s10 = { rd n k s9 with COld := C } :=
    (rd_assign_COld v9 _).trans (by rw [d9])
  have x10 : (rd n k s10).Kmat = X := by rw [z10, x9]
  have y10 : (rd n k s10).S = S := by rw [z10, y9]
  have d10 : (rd n k s10).C = C := by rw [z10, d9]
  have ck10 : (rd n k s10).CK = C * X := by rw [z10, ck9]
  have z11 : rd n k s11 = { rd n k s10 with gradC := 0 } :=
    rd_assign_gradC v10 _
  have x11 : (rd n k s11).Kmat = X := by rw [z11, x10]
  have y11 : (rd n k s11).S = S := by rw [z11, y10]
  have d11 : (rd n k s11).C = C := by rw [z11, d10]
  have ck11 : (rd n k s11).CK = C * X := by rw [z11, ck10]
  have z12 : rd n k s12 = rd n k s11 := rd_assign_deltaGradC v11 _
  have x12 : (rd n k s12).Kmat = X := by rw [z12, x11]
  have y12 : (rd n k s12).S = S := by rw [z12, y11]
  have d12 : (rd n k s12).C = C := by rw [z12, d11]
  have ck12 : (rd n k s12).CK = C * X := by rw [z12, ck11]
  have z13 : rd n k s13 = { rd n k s12 with incrC := 0 } :=
    rd_assign_incrC v12 _
  have x13 : (rd n k s13).Kmat = X := by rw [z13, x12]
  have y13 : (rd n k s13).S = S := by rw [z13, y12]
  have d13 : (rd n k s13).C = C := by rw [z13, d12]
  have ck13 : (rd n k s13).CK = C * X := by rw [z13, ck12]
  have z14 : rd n k s14 = rd n k s13 := rd_assign_alphaOld v13 _
  have x14 : (rd n k s14).Kmat = X := by rw [z14, x13]
  have y14 : (rd n k s14).S = S := by rw [z14, y13]
  have d14 : (rd n k s14).C = C := by rw [z14, d13]
  have ck14 : (rd n k s14).CK = C * X := by rw [z14, ck13]
  have z15 : rd n k s15 = { rd n k s14 with gradAlpha := 0 } :=
    rd_assign_gradAlpha v14 _
  have x15 : (rd n k s15).Kmat = X := by rw [z15, x14]
  have y15 : (rd n k s15).S = S := by rw [z15, y14]
  have d15 : (rd n k s15).C = C := by rw [z15, d14]
  have ck15 : (rd n k s15).CK = C * X := by rw [z15, ck14]
  have z16 : rd n k s16 = rd n k s15 := rd_assign_deltaGradAlpha v15 _
  have x16 : (rd n k s16).Kmat = X := by rw [z16, x15]
  have y16 : (rd n k s16).S = S := by rw [z16, y15]
  have d16 : (rd n k s16).C = C := by rw [z16, d15]
  have ck16 : (rd n k s16).CK = C * X := by rw [z16, ck15]
  have z17 : rd n k s17 = { rd n k s16 with incrAlpha := 0 } :=
    rd_assign_incrAlpha v16 _
  have x17 : (rd n k s17).Kmat = X := by rw [z17, x16]
  have y17 : (rd n k s17).S = S := by rw [z17, y16]
  have d17 : (rd n k s17).C = C := by rw [z17, d16]
  have ck17 : (rd n k s17).CK = C * X := by rw [z17, ck16]
  have z18 : rd n k s18 = { rd n k s17 with SOld := S } :=
    (rd_assign_SOld v17 _).trans (by rw [y17])
  have x18 : (rd n k s18).Kmat = X := by rw [z18, x17]
  have y18 : (rd n k s18).S = S := by rw [z18, y17]
  have d18 : (rd n k s18).C = C := by rw [z18, d17]
  have ck18 : (rd n k s18).CK = C * X := by rw [z18, ck17]
  have z19 : rd n k s19 = { rd n k s18 with gradS := 0 } :=
    rd_assign_gradS v18 _
  have x19 : (rd n k s19).Kmat = X := by rw [z19, x18]
  have y19 : (rd n k s19).S = S := by rw [z19, y18]
  have d19 : (rd n k s19).C = C := by rw [z19, d18]
  have ck19 : (rd n k s19).CK = C * X := by rw [z19, ck18]
  have z20 : rd n k s20 = rd n k s19 := rd_assign_deltaGradS v19 _
  have x20 : (rd n k s20).Kmat = X := by rw [z20, x19]
  have y20 : (rd n k s20).S = S := by rw [z20, y19]
  have d20 : (rd n k s20).C = C := by rw [z20, d19]
  have ck20 : (rd n k s20).CK = C * X := by rw [z20, ck19]
  refine (rd_assign_incrS v20 _).trans ?_
  rw [z20, z19, z18, z17, z16, z15, z14, z13, z12, z11, z10, z9, z8, z7, z6, z5, z4, z3, z2, z1]
  rfl

end KAAMem

/-! ### The estimator -/

theorem Arr2.of_cast {A : Arr2 K} {m n : ℕ} (hm : A.rows = m) (hn : A.cols = n) :
    Arr2.of (A.cast hm hn) = A := by
  subst hm hn
  rfl

theorem hKaaStart_rel (env : Env K) (h : Heap K) {n : ℕ} (kernel : Matrix (Fin n) (Fin n) K) (k : ℕ)
    (init : Option String) {dictionary weights : Option ℕ} (hd : h.Has dictionary)
    (hw : h.Has weights) (ud uw : Bool) (kw : InitKwargs) (g : env.rng.G) :
    HRel h h.next (StartRel h)
      (hKaaStart env h kernel k init dictionary weights ud uw kw g)
      (kaaStart env kernel k init (dictionary.map h.cell) (weights.map h.cell) ud uw kw g) := by
  have hk := h.keeps_refl le_rfl
  unfold hKaaStart kaaStart
  simp only [kaaCheckInitWeights_eq, kaaCheckInitDictionary_eq]
  split_ifs with h1 h2 h3
  · refine (HRel.lift hk _).bind fun a w hw' => (HRel.lift hk _).bind fun b d hd' => ?_
    have p := gpnhCheckInitWeights_addr hd hd'.2
    have q := gpnhCheckInitWeights_addr hw hw'.2
    exact ⟨hk, p.1, q.1, p.2, q.2, rfl⟩
  · refine (HRel.lift hk _).bind fun a d hd' => (HRel.lift hk _).bind fun b w hw' => ?_
    have p := gpnhCheckInitWeights_addr hd hd'.2
    obtain ⟨rfl, -⟩ := hw'
    exact ⟨hk.alloc _, Nat.lt_succ_of_lt p.1, Nat.lt_succ_self _,
      (h.cell_alloc_lt _ p.1).trans p.2, h.cell_alloc _, rfl⟩
  · refine (HRel.lift hk _).bind fun a w hw' => (HRel.lift hk _).bind fun b d hd' => ?_
    have p := gpnhCheckInitWeights_addr hw hw'.2
    obtain ⟨rfl, -⟩ := hd'
    exact ⟨hk.alloc _, Nat.lt_succ_self _, Nat.lt_succ_of_lt p.1, h.cell_alloc _,
      (h.cell_alloc_lt _ p.1).trans p.2, rfl⟩
  · refine ((HRel.lift hk (kaaInitBoth env kernel k init kw g)).bind
      (g := fun r => pure r) fun a b hab => ?_).of_bind_pure
    obtain ⟨rfl, -⟩ := hab
    exact ⟨(hk.alloc _).alloc _, by change h.next < h.next + 1 + 1; omega,
      by change h.next + 1 < h.next + 1 + 1; omega,
      (Heap.cell_alloc_lt _ _ (Nat.lt_succ_self _)).trans (h.cell_alloc _),
      Heap.cell_alloc _ _, rfl⟩

/-- What an estimator call does to memory. -/
def KAACallRel (env : Env K) (h : Heap K) (r : Heap K × KAAHObj env.rng × FitInfo K)
    (r' : KAAObj env.rng × FitInfo K) : Prop :=
  h.Keeps r.1 h.next ∧ r.2.1.deref r.1 = r'.1 ∧ r.2.2 = r'.2 ∧
    ∃ a b c, r.2.1.S = some a ∧ r.2.1.C = some b ∧ r.2.1.Kmat = some c ∧ a ≠ b ∧ a ≠ c ∧ b ≠ c ∧
      h.next ≤ a ∧ h.next ≤ b ∧ h.next ≤ c ∧ a < r.1.next ∧ b < r.1.next ∧ c < r.1.next

theorem hKernelAA_rel (env : Env K) (h : Heap K) (obj : KAAHObj env.rng) {kernel : ℕ}
    (hdata : kernel < h.next) {dictionary weights : Option ℕ} (hd : h.Has dictionary)
    (hw : h.Has weights) (ho : h.Has obj.dictionary_) (ud uw : Bool) (kw : InitKwargs) :
    HRel h h.next (KAACallRel env h)
      (hKernelAA env h obj kernel dictionary weights ud uw kw)
      (kernelAA env (obj.deref h) (h.cell kernel) (dictionary.map h.cell) (weights.map h.cell)
        ud uw kw) := by
  have hk := h.keeps_refl le_rfl
  unfold hKernelAA kernelAA
  by_cases hc : (h.cell kernel).cols = (h.cell kernel).rows
  swap
  · rw [dif_neg hc, dif_neg hc]
    exact ⟨rfl, hk⟩
  rw [dif_pos hc, dif_pos hc]
  unfold kernelAASquare
  refine (HRel.lift hk _).bind fun p p' hp => ?_
  obtain ⟨rfl, -⟩ := hp
  refine (hKaaStart_rel env h ((h.cell kernel).cast rfl hc) p.1 obj.init hd hw ud uw kw
    obj.randomState.start).bind fun st st' hst => ?_
  obtain ⟨k1, d1, w1, cd, cw, hg⟩ := hst
  have hs := KAAMem.Sim.initializeWorkspace obj.ls k1 (lt_of_lt_of_le hdata k1.1) w1 d1
    (X := (h.cell kernel).cast rfl hc)
    ((k1.2 kernel hdata).trans (Arr2.of_cast (A := h.cell kernel) rfl hc).symm) cw cd
  refine (hs.iterate obj.ls obj.delta obj.require p.2.2 p.2.1 ud uw).bind_of fun r r' hr hr' => ?_
  obtain ⟨h1, h2, h3, h4⟩ := hr
  refine ⟨h1.keeps, ?_, ?_, r.state.addr .S, r.state.addr .C, r.state.addr .Kmat, rfl, rfl, rfl, ?_, ?_,
    ?_, (h1.safe.owns.1 _ trivial).1, (h1.safe.owns.1 _ trivial).1, (h1.safe.owns.1 _ trivial).1,
    h1.safe.valid _, h1.safe.valid _, h1.safe.valid _⟩
  · unfold KAAHObj.deref
    simp only [Option.map_some, hg, ho.map h1.keeps]
    have eS : r.state.heap.cell (r.state.addr .S) = Arr2.of r'.state.S :=
      (h1.safe.owns.cell (a := KAAAttr.S) trivial).trans
        (congrArg (fun u : KAAState _ _ K => Arr2.of u.S) h1.eq)
    have eC : r.state.heap.cell (r.state.addr .C) = Arr2.of r'.state.C :=
      (h1.safe.owns.cell (a := KAAAttr.C) trivial).trans
        (congrArg (fun u : KAAState _ _ K => Arr2.of u.C) h1.eq)
    have eK : r.state.heap.cell (r.state.addr .Kmat) = Arr2.of r'.state.Kmat :=
      (h1.safe.owns.cell (a := KAAAttr.Kmat) trivial).trans
        (congrArg (fun u : KAAState _ _ K => Arr2.of u.Kmat) h1.eq)
    have hK : r'.state.Kmat = (h.cell kernel).cast rfl hc :=
      (kaaIterate_inv (Inv := fun _ _ => True) (fun _ _ _ _ _ _ _ => trivial)
        (fun _ _ _ _ _ _ _ => trivial) (KAAState.initializeWorkspace_good _ _ _ _) trivial hr').1.Kmat
    rw [eS, eC, eK, hK]
  · simp only [h2, h3, h4]
  all_goals
    intro e
    cases h1.safe.owns.2 _ _ trivial e trivial

end Reor
