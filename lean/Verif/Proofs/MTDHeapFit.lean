import Verif.Proofs.MTDHeap
import Verif.Proofs.MTDFit

/-!
`src/reor/mtd_convex_coding.py` with arrays in memory: starting points and estimator calls.
-/

set_option linter.unusedSectionVars false

namespace Reor

open scoped BigOperators Matrix

variable {K : Type} [Field K] [LinearOrder K] [IsStrictOrderedRing K]

/-- Arguments that are arrays of `h`, when they are not `None`. -/
def MTDHArgs.Has (h : Heap K) (a : MTDHArgs) : Prop :=
  h.Has a.dictionary ∧ h.Has a.weights ∧ h.Has a.orderWeights ∧
    h.Has (a.transitionMatrices.map Ref3.addr)

theorem MTDHArgs.Has.deref {h0 h : Heap K} {a : MTDHArgs} (ha : a.Has h0)
    (hk : h0.Keeps h h0.next) : a.deref h = a.deref h0 := by
  obtain ⟨d, w, o, t⟩ := a
  obtain ⟨h1, h2, h3, h4⟩ := ha
  have e3 : (o.map fun x => (h.cell x).asArr1) = o.map fun x => (h0.cell x).asArr1 := by
    cases o with
    | none => rfl
    | some x => exact congrArg (fun A : Arr2 K => some A.asArr1) (hk.2 x (h3 x rfl))
  have e4 : t.map (Ref3.read h) = t.map (Ref3.read h0) := by
    cases t with
    | none => rfl
    | some x =>
      have : h.cell x.addr = h0.cell x.addr := hk.2 x.addr (h4 x.addr rfl)
      simp only [Option.map_some, Ref3.read, this]
  unfold MTDHArgs.deref
  simp only [e3, e4]
  rw [show d.map h.cell = d.map h0.cell from Heap.Has.map h1 hk,
    show w.map h.cell = w.map h0.cell from Heap.Has.map h2 hk]

theorem mtdCheckInitOrderWeights_addr {h : Heap K} {w : Option ℕ} {p : ℕ} {v : Fin p → K}
    (hh : h.Has w)
    (e : mtdCheckInitOrderWeights (w.map fun x => (h.cell x).asArr1) p = Py.ok v) :
    argAddr w < h.next ∧ ofRow ((h.cell (argAddr w)).at 1 p) = v := by
  have h1 := (mtdCheckInitOrderWeights_ok e).1
  cases w with
  | none => cases h1
  | some x =>
    refine ⟨hh x rfl, ?_⟩
    change ofRow ((h.cell x).at 1 p) = v
    have h2 : (h.cell x).asArr1 = Arr1.of v := Option.some.inj h1
    unfold Arr2.asArr1 Arr1.of at h2
    obtain ⟨h3, h4⟩ := Arr1.mk.inj h2
    subst h3
    exact eq_of_heq h4

theorem mtdCheckInitTransitionMatrices_addr {h : Heap K} {w : Option Ref3} {p k : ℕ}
    {A : Fin p → Matrix (Fin k) (Fin k) K} (hh : h.Has (w.map Ref3.addr))
    (e : mtdCheckInitTransitionMatrices (w.map (Ref3.read h)) p k = Py.ok A) :
    argAddr (w.map Ref3.addr) < h.next ∧
      unstack ((h.cell (argAddr (w.map Ref3.addr))).at (p * k) k) = A := by
  have h1 := (mtdCheckInitTransitionMatrices_ok e).1
  cases w with
  | none => cases h1
  | some x =>
    refine ⟨hh x.addr rfl, ?_⟩
    change unstack ((h.cell x.addr).at (p * k) k) = A
    have h2 : Ref3.read h x = Arr3.of A := Option.some.inj h1
    obtain ⟨a, n, m, l⟩ := x
    unfold Ref3.read Arr3.of at h2
    obtain ⟨h3, h4, h5, h6⟩ := Arr3.mk.inj h2
    simp only at h3 h4 h5 h6
    subst h3 h4 h5
    exact eq_of_heq h6

/-- Two steps that keep the arrays there are. -/
theorem Heap.Keeps.trans {h0 h1 h2 : Heap K} (a : h0.Keeps h1 h0.next) (b : h1.Keeps h2 h1.next) :
    h0.Keeps h2 h0.next :=
  ⟨a.1.trans b.1, fun x hx => (b.2 x (lt_of_lt_of_le hx a.1)).trans (a.2 x hx)⟩

section Start

variable (env : Env K) {h0 h : Heap K} (hk : h0.Keeps h h0.next) {T D : ℕ}
  (data : Matrix (Fin T) (Fin D) K) (k p : ℕ) (init : Option String) {args : MTDHArgs}
  (ha : args.Has h0) (fl : MTDFlags) (kw : InitKwargs) (g : env.rng.G)
include hk ha

theorem hMtdStartDictionary_rel :
    HRel h0 h0.next (fun r r' => h.Keeps r.1.1 h.next ∧ r.1.2 < r.1.1.next ∧
        (r.1.1.cell r.1.2).at k D = r'.1 ∧ r.2 = r'.2)
      (hMtdStartDictionary env h data k init args fl kw g)
      (mtdStartDictionary env data k init (args.deref h0) fl kw g) := by
  unfold hMtdStartDictionary mtdStartDictionary
  split_ifs
  · refine ((HRel.lift hk (mtdInitDictionary env data k init kw g)).bind
      (g := fun r => pure r) fun a b hab => ?_).of_bind_pure
    obtain ⟨rfl, -⟩ := hab
    refine ⟨(h.keeps_refl le_rfl).alloc _, Nat.lt_succ_self _, ?_, rfl⟩
    change ((h.alloc _).cell h.next).at k D = _
    rw [h.cell_alloc, Arr2.at_of]
  · rw [ha.deref hk]
    refine (HRel.lift hk _).bind fun a d hd' => ?_
    obtain ⟨rfl, hd⟩ := hd'
    have q := gpnhCheckInitDictionary_addr ha.1 hd
    refine ⟨h.keeps_refl le_rfl, lt_of_lt_of_le q.1 hk.1, ?_, rfl⟩
    change (h.cell (argAddr args.dictionary)).at k D = _
    rw [hk.2 _ q.1, q.2, Arr2.at_of]

theorem hMtdStartWeights_rel :
    HRel h0 h0.next (fun r r' => h.Keeps r.1.1 h.next ∧ r.1.2 < r.1.1.next ∧
        (r.1.1.cell r.1.2).at T k = r'.1 ∧ r.2 = r'.2)
      (hMtdStartWeights env h T k init args fl kw g)
      (mtdStartWeights env T k init (args.deref h0) fl kw g) := by
  unfold hMtdStartWeights mtdStartWeights
  split_ifs
  · refine ((HRel.lift hk (mtdInitWeights env T k init kw g)).bind
      (g := fun r => pure r) fun a b hab => ?_).of_bind_pure
    obtain ⟨rfl, -⟩ := hab
    refine ⟨(h.keeps_refl le_rfl).alloc _, Nat.lt_succ_self _, ?_, rfl⟩
    change ((h.alloc _).cell h.next).at T k = _
    rw [h.cell_alloc, Arr2.at_of]
  · rw [ha.deref hk]
    refine (HRel.lift hk _).bind fun a d hd' => ?_
    obtain ⟨rfl, hd⟩ := hd'
    have q := gpnhCheckInitWeights_addr ha.2.1 hd
    refine ⟨h.keeps_refl le_rfl, lt_of_lt_of_le q.1 hk.1, ?_, rfl⟩
    change (h.cell (argAddr args.weights)).at T k = _
    rw [hk.2 _ q.1, q.2, Arr2.at_of]

theorem hMtdStartParameters_rel :
    HRel h0 h0.next (fun r r' => h.Keeps r.1.1 h.next ∧ r.1.2.1 < r.1.1.next ∧
        r.1.2.2 < r.1.1.next ∧ ofRow ((r.1.1.cell r.1.2.1).at 1 p) = r'.1.1 ∧
        unstack ((r.1.1.cell r.1.2.2).at (p * k) k) = r'.1.2 ∧ r.2 = r'.2)
      (hMtdStartParameters env h k p init args fl kw g)
      (mtdStartParameters env k p init (args.deref h0) fl kw g) := by
  unfold hMtdStartParameters mtdStartParameters
  split_ifs
  · refine ((HRel.lift hk (mtdInitParameters env k p init kw g)).bind
      (g := fun r => pure r) fun a b hab => ?_).of_bind_pure
    obtain ⟨rfl, -⟩ := hab
    refine ⟨((h.keeps_refl le_rfl).alloc _).alloc _, by change h.next < h.next + 1 + 1; omega,
      by change h.next + 1 < h.next + 1 + 1; omega, ?_, ?_, rfl⟩
    · change ofRow ((((h.alloc _).alloc _).cell h.next).at 1 p) = _
      rw [Heap.cell_alloc_lt _ _ (show h.next < (h.alloc (Arr2.of (asRow a.1.1))).next from Nat.lt_succ_self _),
        h.cell_alloc, Arr2.at_of, ofRow_asRow]
    · refine (congrArg (fun A : Arr2 K => unstack (A.at (p * k) k))
        (Heap.cell_alloc (h.alloc (Arr2.of (asRow a.1.1))) (Arr2.of (stack a.1.2)))).trans ?_
      rw [Arr2.at_of, unstack_stack]
  · rw [ha.deref hk]
    refine (HRel.lift hk _).bind fun a d hd' => (HRel.lift hk _).bind fun a' d' he' => ?_
    obtain ⟨rfl, hd⟩ := hd'
    obtain ⟨rfl, he⟩ := he'
    have q := mtdCheckInitOrderWeights_addr ha.2.2.1 hd
    have q' := mtdCheckInitTransitionMatrices_addr ha.2.2.2 he
    refine ⟨h.keeps_refl le_rfl, lt_of_lt_of_le q.1 hk.1, lt_of_lt_of_le q'.1 hk.1, ?_, ?_, rfl⟩
    · change ofRow ((h.cell (argAddr args.orderWeights)).at 1 p) = _
      rw [hk.2 _ q.1, q.2]
    · change unstack ((h.cell (argAddr (args.transitionMatrices.map Ref3.addr))).at (p * k) k) = _
      rw [hk.2 _ q'.1, q'.2]

end Start

/-- The starting arrays: their values, in memory. -/
structure MTDStartRel {T D k p : ℕ} (h0 h : Heap K) (r : MTDStartRefs) (x : MTDPoint T D k p K) :
    Prop where
  keeps : h0.Keeps h h0.next
  dictionary : r.dictionary < h.next ∧ (h.cell r.dictionary).at k D = x.1
  weights : r.weights < h.next ∧ (h.cell r.weights).at T k = x.2.1
  orderWeights : r.orderWeights < h.next ∧ ofRow ((h.cell r.orderWeights).at 1 p) = x.2.2.1
  transitionMatrices : r.transitionMatrices < h.next ∧
    unstack ((h.cell r.transitionMatrices).at (p * k) k) = x.2.2.2

theorem hMtdStart_rel (env : Env K) (h : Heap K) {T D : ℕ} (data : Matrix (Fin T) (Fin D) K)
    (k p : ℕ) (init : Option String) {args : MTDHArgs} (ha : args.Has h) (fl : MTDFlags)
    (kw : InitKwargs) (g : env.rng.G) :
    HRel h h.next (fun r r' => MTDStartRel h r.1.1 r.1.2 r'.1 ∧ r.2 = r'.2)
      (hMtdStart env h data k p init args fl kw g)
      (mtdStart env data k p init (args.deref h) fl kw g) := by
  have hk := h.keeps_refl le_rfl
  unfold hMtdStart mtdStart
  split_ifs with h1
  · refine (HRel.lift hk _).bind fun _ w hw' => (HRel.lift hk _).bind fun _ d hd' =>
      (HRel.lift hk _).bind fun _ o ho' => (HRel.lift hk _).bind fun _ a ha' => ?_
    have p1 := gpnhCheckInitWeights_addr ha.2.1 hw'.2
    have p2 := gpnhCheckInitDictionary_addr ha.1 hd'.2
    have p3 := mtdCheckInitOrderWeights_addr ha.2.2.1 ho'.2
    have p4 := mtdCheckInitTransitionMatrices_addr ha.2.2.2 ha'.2
    exact ⟨⟨hk, ⟨p2.1, by rw [p2.2, Arr2.at_of]⟩, ⟨p1.1, by rw [p1.2, Arr2.at_of]⟩, p3, p4⟩, rfl⟩
  · refine (hMtdStartDictionary_rel env hk data k init ha fl kw g).bind fun d d' hd => ?_
    obtain ⟨k1, d1, d2, d3⟩ := hd
    rw [← d3]
    refine (hMtdStartWeights_rel env (T := T) (hk.trans k1) k init ha fl kw d.2).bind
      fun w w' hw => ?_
    obtain ⟨k2, w1, w2, w3⟩ := hw
    rw [← w3]
    refine (hMtdStartParameters_rel env ((hk.trans k1).trans k2) k p init ha fl kw w.2).bind
      fun a a' ha => ?_
    obtain ⟨k3, a1, a2, a3, a4, a5⟩ := ha
    refine ⟨⟨((hk.trans k1).trans k2).trans k3, ⟨?_, ?_⟩, ⟨?_, ?_⟩, ⟨a1, a3⟩, ⟨a2, a4⟩⟩, a5⟩
    · exact lt_of_lt_of_le d1 (k2.1.trans k3.1)
    · change (a.1.1.cell d.1.2).at k D = d'.1
      rw [k3.2 _ (lt_of_lt_of_le d1 k2.1), k2.2 _ d1, d2]
    · exact lt_of_lt_of_le w1 k3.1
    · change (a.1.1.cell w.1.2).at T k = w'.1
      rw [k3.2 _ w1, w2]

/-- What an estimator call does to memory: the arrays that were there are as before, the object has
the values the model on values computes, and its four arrays are new. -/
def MTDCallRel (env : Env K) {p : ℕ} (h : Heap K) (r : Heap K × MTDHObj env.rng p × FitInfo K)
    (r' : MTDObj env.rng p × FitInfo K) : Prop :=
  h.Keeps r.1 h.next ∧ r.2.1.deref r.1 = r'.1 ∧ r.2.2 = r'.2 ∧
    ∃ v, r.2.1.vars = some v ∧
      [v.Gamma, v.S, v.orderWeights, v.transitionMatrices].Nodup ∧
      (∀ x ∈ [v.Gamma, v.S, v.orderWeights, v.transitionMatrices], h.next ≤ x ∧ x < r.1.next) ∧
      r.1.cell v.Gamma = Arr2.of ((r.1.cell v.Gamma).at v.T v.k) ∧
      r.1.cell v.S = Arr2.of ((r.1.cell v.S).at v.k v.D) ∧
      r.1.cell v.orderWeights = Arr2.of ((r.1.cell v.orderWeights).at 1 p) ∧
      r.1.cell v.transitionMatrices =
        Arr2.of ((r.1.cell v.transitionMatrices).at (p * v.k) v.k)

theorem hMtdConvexCoding_rel (env : Env K) {p : ℕ} (h : Heap K) (obj : MTDHObj env.rng p) {data : ℕ}
    (hdata : data < h.next) {args : MTDHArgs} (ha : args.Has h) (ho : h.Has obj.dictionary_)
    (fl : MTDFlags) (kw : InitKwargs) :
    HRel h h.next (MTDCallRel env h)
      (hMtdConvexCoding env h obj data args fl kw)
      (mtdConvexCoding env (obj.deref h) (h.cell data) (args.deref h) fl kw) := by
  have hk := h.keeps_refl le_rfl
  unfold hMtdConvexCoding mtdConvexCoding
  refine (HRel.lift hk _).bind fun q q' hq => ?_
  obtain ⟨rfl, -⟩ := hq
  refine (hMtdStart_rel env h (h.cell data).val q.1 p obj.init ha fl kw obj.randomState).bind
    fun st st' hst => ?_
  obtain ⟨hst, hg⟩ := hst
  unfold hMtdSolve mtdSolve
  by_cases hp : p = 0
  · rw [if_pos hp, if_pos hp]
    exact ⟨rfl, hst.keeps⟩
  rw [if_neg hp, if_neg hp]
  have hs := MTDMem.Sim.initializeWorkspace obj.config hst.keeps
    (lt_of_lt_of_le hdata hst.keeps.1) hst.weights.1 hst.dictionary.1 hst.orderWeights.1
    hst.transitionMatrices.1 (X := (h.cell data).val)
    (by rw [hst.keeps.2 data hdata]; exact Arr2.at_of _)
    hst.weights.2 hst.dictionary.2 hst.orderWeights.2 hst.transitionMatrices.2
  refine (hs.iterate obj.config obj.require q.2.2 q.2.1 fl.updateDictionary fl.updateWeights
    fl.updateParameters).bind fun r r' hr => ?_
  obtain ⟨h1, h2, h3, h4⟩ := hr
  have own := fun a => h1.safe.owns.cell (a := a) trivial
  have ne : ∀ a b, a ≠ b → r.state.addr a ≠ r.state.addr b := fun a b hab e =>
    hab (h1.safe.owns.2 a b trivial e trivial)
  refine ⟨h1.keeps, ?_, ?_, _, rfl, ?_, ?_, own .Gamma, own .S, own .orderWeights,
    own .transitionMatrices⟩
  · have e := h1.eq
    unfold MTDHObj.deref MTDRefs.deref
    simp only [Option.map_some, hg, ho.map h1.keeps]
    rw [← e]
    rfl
  · simp only [h2, h3, h4]
  · simp only [List.nodup_cons, List.mem_cons, List.not_mem_nil, not_or, or_false, not_false_eq_true,
      List.nodup_nil, and_true]
    exact ⟨⟨ne _ _ (by decide), ne _ _ (by decide), ne _ _ (by decide)⟩,
      ⟨ne _ _ (by decide), ne _ _ (by decide)⟩, ne _ _ (by decide)⟩
  · intro x hx
    simp only [List.mem_cons, List.not_mem_nil, or_false] at hx
    rcases hx with rfl | rfl | rfl | rfl <;>
    exact ⟨(h1.safe.owns.1 _ trivial).1, h1.safe.valid _⟩

end Reor
