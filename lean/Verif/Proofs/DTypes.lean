import Verif.Model.DTypes
import Verif.Proofs.MTDDescent
import Verif.Proofs.GPNHCROM

/-!
Lemmas about checks of dtypes in front of the updates.
-/

namespace Reor

set_option linter.unusedSectionVars false

open scoped BigOperators Matrix
open Spec

variable {K : Type} [Field K] [LinearOrder K] [IsStrictOrderedRing K]
variable {σ : Type}

/-! ### Checks -/

theorem guardPhase_ok (f : σ → Py σ) : guardPhase (Py.ok ()) f = f := by
  funext s; rfl

theorem guardPhase_raise (e : PyErr) (f : σ → Py σ) (s : σ) :
    guardPhase (Py.raise e) f s = Py.raise e := rfl

theorem kaaDictionaryTypes_eq (delta : K) (t : KAATypes) :
    kaaDictionaryTypes delta t =
      if t.C = .int ∨ (t.S = .int ∧ t.Kmat = .int) then Py.raise .typeError else Py.ok () := by
  obtain ⟨a, b, c⟩ := t
  by_cases hd : delta > 0 <;> cases a <;> cases b <;> cases c <;>
    simp [kaaDictionaryTypes, kaaCKType, DType.join, inPlace, hd]

theorem kaaWeightsTypes_eq (delta : K) (t : KAATypes) :
    kaaWeightsTypes delta t =
      if t.S = .int ∨ (delta ≤ 0 ∧ t.Kmat = .int ∧ t.C = .int) then Py.raise .typeError
      else Py.ok () := by
  obtain ⟨a, b, c⟩ := t
  by_cases hd : delta > 0
  · have hd' : ¬ delta ≤ 0 := not_le.2 hd
    cases a <;> cases b <;> cases c <;>
      simp [kaaWeightsTypes, DType.join, inPlace, hd, hd']
  · have hd' : delta ≤ 0 := not_lt.1 hd
    cases a <;> cases b <;> cases c <;>
      simp [kaaWeightsTypes, kaaCKType, DType.join, inPlace, hd, hd']

theorem kaaCostTypes_eq (delta : K) (t : KAATypes) :
    kaaCostTypes delta t =
      if delta > 0 ∧ t.Kmat = .int ∧ t.C = .int then Py.raise .valueError else Py.ok () := by
  obtain ⟨a, b, c⟩ := t
  by_cases hd : delta > 0 <;> cases a <;> cases b <;> cases c <;>
    simp [kaaCostTypes, DType.join, dotOut, hd]

theorem gpnhDictionaryTypes_eq (k : ℕ) (t : GPNHTypes) :
    gpnhDictionaryTypes k t = if t.S = .int then Py.raise .typeError else Py.ok () := by
  obtain ⟨a, b⟩ := t
  by_cases hk : k = 1 <;> cases b <;> simp [gpnhDictionaryTypes, inPlace, hk]

theorem gpnhWeightsTypes_eq (t : GPNHTypes) :
    gpnhWeightsTypes t = if t.Gamma = .int then Py.raise .typeError else Py.ok () := by
  obtain ⟨a, b⟩ := t
  cases a <;> simp [gpnhWeightsTypes, inPlace]

theorem mtdPredictedWeightsTypes_float (p : ℕ) {t : MTDTypes} (h : t.Gamma = .float) :
    mtdPredictedWeightsTypes p t = Py.ok () := by
  unfold mtdPredictedWeightsTypes inPlace
  rw [h]
  split_ifs <;> rfl

theorem mtdParametersTypes_int (p : ℕ) {t : MTDTypes} (h : t.transitionMatrices = .int)
    (hG : t.Gamma = .float) : mtdParametersTypes p t = Py.raise .typeError := by
  unfold mtdParametersTypes
  rw [mtdPredictedWeightsTypes_float p hG, h]
  cases t.orderWeights <;> rfl

theorem mtdParametersTypes_not_ok (p : ℕ) {t : MTDTypes} (h : t.transitionMatrices = .int) (u : Unit) :
    mtdParametersTypes p t ≠ Py.ok u := by
  intro hu
  unfold mtdParametersTypes at hu
  obtain ⟨_, -, hu⟩ := Py.bind_eq_ok.1 hu
  obtain ⟨_, -, hu⟩ := Py.bind_eq_ok.1 hu
  rw [h] at hu
  simp [inPlace] at hu

theorem mtdParametersTypes_float (p : ℕ) {t : MTDTypes} (h : t.transitionMatrices = .float)
    (hw : t.orderWeights = .float) (hG : t.Gamma = .float) :
    mtdParametersTypes p t = Py.ok () := by
  unfold mtdParametersTypes
  rw [mtdPredictedWeightsTypes_float p hG, h, hw]
  rfl

/-! ### Guarded loops -/

/-- Updates with their checks. -/
def guarded (l : List (Py Unit × (σ → Py σ))) : List (σ → Py σ) :=
  l.map fun x => guardPhase x.1 x.2

theorem guarded_ok {l : List (Py Unit × (σ → Py σ))} (h : ∀ x ∈ l, x.1 = Py.ok ()) :
    guarded l = l.map Prod.snd := by
  unfold guarded
  refine List.map_congr_left fun x hx => ?_
  rw [h x hx, guardPhase_ok]

theorem runPhases_guarded {evalCost : σ → σ × K} {require : Bool} {oldCost : K} {e : PyErr} :
    ∀ {l : List (Py Unit × (σ → Py σ))}, (∀ x ∈ l, x.1 = Py.ok () ∨ x.1 = Py.raise e) →
      (∃ x ∈ l, x.1 = Py.raise e) → ∀ {s : σ} {c : K} {r : σ × K},
      runPhases evalCost require oldCost (l.map Prod.snd) s c = Py.ok r →
      runPhases evalCost require oldCost (guarded l) s c = Py.raise e
  | [], _, h, s, c, r, _ => by simp at h
  | x :: l, hall, hex, s, c, r, h => by
    simp only [guarded, List.map_cons, runPhases] at h ⊢
    rcases hall x (by simp) with hx | hx
    · rw [hx, guardPhase_ok]
      obtain ⟨s', hs', h⟩ := Py.bind_eq_ok.1 h
      rw [hs', Py.ok_bind]
      split_ifs at h with hc
      rw [if_neg hc]
      refine runPhases_guarded (fun y hy => hall y (by simp [hy])) ?_ h
      obtain ⟨y, hy, hye⟩ := hex
      rcases List.mem_cons.1 hy with rfl | hy
      · rw [hx] at hye; simp at hye
      · exact ⟨y, hy, hye⟩
    · rw [hx, guardPhase_raise]; rfl

/-- If the loop without the checks returns and some check fails, the loop with the checks fails with
the exception of the check. -/
theorem iterate_guarded {evalCost : σ → σ × K} {require : Bool} {tol : K} {maxIter : ℕ} {e : PyErr}
    {l : List (Py Unit × (σ → Py σ))} (hall : ∀ x ∈ l, x.1 = Py.ok () ∨ x.1 = Py.raise e)
    (hex : ∃ x ∈ l, x.1 = Py.raise e) {s : σ} {r : IterResult σ K}
    (h : iterate evalCost require tol maxIter (l.map Prod.snd) s = Py.ok r) :
    iterate evalCost require tol maxIter (guarded l) s = Py.raise e := by
  unfold iterate at h ⊢
  cases hm : List.range maxIter with
  | nil => rw [hm] at h; simp [iterateLoop] at h
  | cons i is =>
    rw [hm] at h
    simp only [iterateLoop] at h ⊢
    obtain ⟨q, hq, -⟩ := Py.bind_eq_ok.1 h
    rw [runPhases_guarded hall hex hq]
    rfl

theorem runPhases_blocked {evalCost : σ → σ × K} {require : Bool} {oldCost : K} :
    ∀ {phases : List (σ → Py σ)} {f : σ → Py σ}, f ∈ phases → (∀ s s', f s ≠ Py.ok s') →
      ∀ {s : σ} {c : K} {r : σ × K}, runPhases evalCost require oldCost phases s c ≠ Py.ok r
  | [], f, hf, _, s, c, r => by simp at hf
  | g :: ps, f, hf, hb, s, c, r => by
    intro h
    simp only [runPhases] at h
    obtain ⟨s', hs', h⟩ := Py.bind_eq_ok.1 h
    rcases List.mem_cons.1 hf with rfl | hf
    · exact hb _ _ hs'
    · split_ifs at h with hc
      exact runPhases_blocked hf hb h

/-- A loop with an update that never returns never returns. -/
theorem iterate_blocked {evalCost : σ → σ × K} {require : Bool} {tol : K} {maxIter : ℕ}
    {phases : List (σ → Py σ)} {f : σ → Py σ} (hf : f ∈ phases) (hb : ∀ s s', f s ≠ Py.ok s')
    {s : σ} {r : IterResult σ K} : iterate evalCost require tol maxIter phases s ≠ Py.ok r := by
  intro h
  unfold iterate at h
  cases hm : List.range maxIter with
  | nil => rw [hm] at h; simp [iterateLoop] at h
  | cons i is =>
    rw [hm] at h
    simp only [iterateLoop] at h
    obtain ⟨q, hq, -⟩ := Py.bind_eq_ok.1 h
    exact runPhases_blocked hf hb hq

theorem guardPhase_blocked {check : Py Unit} (hc : ∀ u, check ≠ Py.ok u) (f : σ → Py σ) (s s' : σ) :
    guardPhase check f s ≠ Py.ok s' := by
  intro h
  obtain ⟨u, hu, -⟩ := Py.bind_eq_ok.1 h
  exact hc u hu

theorem iterate_first_raise {evalCost : σ → σ × K} {require : Bool} {tol : K} {maxIter : ℕ}
    (hm : 0 < maxIter) {e : PyErr} {f : σ → Py σ} (hf : ∀ s, f s = Py.raise e)
    {ps : List (σ → Py σ)} {s : σ} :
    iterate evalCost require tol maxIter (f :: ps) s = Py.raise e := by
  obtain ⟨m, rfl⟩ := Nat.exists_eq_succ_of_ne_zero hm.ne'
  simp [iterate, List.range_succ_eq_map, iterateLoop, runPhases, hf]

theorem runPhases_raise_last {evalCost : σ → σ × K} {require : Bool} {oldCost : K} {Inv : σ → Prop}
    (he : ∀ s, Inv s → Inv (evalCost s).1) (hid : ∀ s, evalCost (evalCost s).1 = evalCost s)
    {e : PyErr} {f : σ → Py σ} (hf : ∀ s, f s = Py.raise e) :
    ∀ {ps : List (σ → Py σ)},
      (∀ p ∈ ps, ∀ s, Inv s → ∃ s', p s = Py.ok s' ∧ Inv s' ∧ (evalCost s').2 ≤ (evalCost s).2) →
      ∀ {s : σ} {c : K}, Inv s → (evalCost s).2 ≤ oldCost →
      runPhases evalCost require oldCost (ps ++ [f]) s c = Py.raise e
  | [], _, s, c, _, _ => by simp [runPhases, hf]
  | p :: ps, hp, s, c, hs, hle => by
    obtain ⟨s', hs', hI, hc⟩ := hp p (by simp) s hs
    simp only [List.cons_append, runPhases, hs', Py.ok_bind]
    rw [if_neg (fun h => absurd h.1 (not_lt.2 (hc.trans hle)))]
    refine runPhases_raise_last he hid hf (fun q hq => hp q (by simp [hq])) (he _ hI) ?_
    rw [hid]
    exact hc.trans hle

/-- If all updates but the last go through without raising the cost, the loop ends with the
exception of the last one. -/
theorem iterate_raise_last {evalCost : σ → σ × K} (hid : ∀ s, evalCost (evalCost s).1 = evalCost s)
    {require : Bool} {tol : K} {maxIter : ℕ} (hm : 0 < maxIter) {Inv : σ → Prop}
    (he : ∀ s, Inv s → Inv (evalCost s).1)
    {e : PyErr} {f : σ → Py σ} (hf : ∀ s, f s = Py.raise e) {ps : List (σ → Py σ)}
    (hp : ∀ p ∈ ps, ∀ s, Inv s →
      ∃ s', p s = Py.ok s' ∧ Inv s' ∧ (evalCost s').2 ≤ (evalCost s).2)
    {s : σ} (hs : Inv s) :
    iterate evalCost require tol maxIter (ps ++ [f]) s = Py.raise e := by
  obtain ⟨m, rfl⟩ := Nat.exists_eq_succ_of_ne_zero hm.ne'
  unfold iterate
  simp only [List.range_succ_eq_map, iterateLoop]
  rw [runPhases_raise_last he hid hf hp (he _ hs) (le_of_eq (by rw [hid]))]
  rfl

/-! ### Kernel archetypal analysis -/

/-- The updates of `KernelAA` with their checks. -/
def kaaGuarded {n k : ℕ} (cfg : LSConfig K) (delta : K) (ud uw : Bool) (t : KAATypes) :
    List (Py Unit × (KAAState n k K → Py (KAAState n k K))) :=
  (if ud then [(kaaDictionaryTypes delta t, KAAState.updateDictionary cfg delta)] else []) ++
    (if uw then [(kaaWeightsTypes delta t, KAAState.updateWeights cfg delta)] else [])

theorem kaaIterateT_eq {n k : ℕ} (cfg : LSConfig K) (delta : K) (require : Bool) (tol : K)
    (maxIter : ℕ) (ud uw : Bool) (t : KAATypes) (s : KAAState n k K) :
    kaaIterateT cfg delta require tol maxIter ud uw t s =
      (kaaCostTypes delta t >>= fun _ =>
        iterate (KAAState.evaluateCost delta) require tol maxIter
          (guarded (kaaGuarded cfg delta ud uw t)) s) := by
  unfold kaaIterateT
  cases ud <;> cases uw <;> rfl

theorem kaaGuarded_snd {n k : ℕ} (cfg : LSConfig K) (delta : K) (ud uw : Bool) (t : KAATypes) :
    (kaaGuarded (n := n) (k := k) cfg delta ud uw t).map Prod.snd =
      (if ud then [KAAState.updateDictionary cfg delta] else []) ++
        (if uw then [KAAState.updateWeights cfg delta] else []) := by
  cases ud <;> cases uw <;> rfl

/-- No check fails. -/
def KAATypes.Fine (delta : K) (t : KAATypes) (ud uw : Bool) : Prop :=
  ¬ (0 < delta ∧ t.Kmat = .int ∧ t.C = .int) ∧
  (ud = true → t.C = .float ∧ ¬ (t.S = .int ∧ t.Kmat = .int)) ∧
  (uw = true → t.S = .float ∧ ¬ (t.Kmat = .int ∧ t.C = .int))

theorem kaaIterateT_fine {n k : ℕ} {cfg : LSConfig K} {delta : K} {require : Bool} {tol : K}
    {maxIter : ℕ} {ud uw : Bool} {t : KAATypes} (h : t.Fine delta ud uw) (s : KAAState n k K) :
    kaaIterateT cfg delta require tol maxIter ud uw t s =
      kaaIterate cfg delta require tol maxIter ud uw s := by
  obtain ⟨h0, h1, h2⟩ := h
  rw [kaaIterateT_eq, kaaCostTypes_eq, if_neg h0, Py.ok_bind, guarded_ok, kaaGuarded_snd]
  · rfl
  · intro x hx
    unfold kaaGuarded at hx
    rcases List.mem_append.1 hx with hx | hx
    · cases ud with
      | false => simp at hx
      | true =>
        obtain ⟨a, b⟩ := h1 rfl
        simp only [if_true, List.mem_singleton] at hx
        rw [hx, kaaDictionaryTypes_eq, if_neg]
        rw [a]
        simpa using b
    · cases uw with
      | false => simp at hx
      | true =>
        obtain ⟨a, b⟩ := h2 rfl
        simp only [if_true, List.mem_singleton] at hx
        rw [hx, kaaWeightsTypes_eq, if_neg]
        rw [a]
        simp only [reduceCtorEq, false_or, not_and]
        intro _ c d
        exact b ⟨c, d⟩

theorem kaaIterateT_raise {n k : ℕ} {cfg : LSConfig K} {delta : K} {require : Bool} {tol : K}
    {maxIter : ℕ} {ud uw : Bool} {t : KAATypes}
    (h0 : ¬ (0 < delta ∧ t.Kmat = .int ∧ t.C = .int))
    (h : (ud = true ∧ t.C = .int) ∨ (uw = true ∧ t.S = .int)) {s : KAAState n k K}
    {r : IterResult (KAAState n k K) K}
    (hr : kaaIterate cfg delta require tol maxIter ud uw s = Py.ok r) :
    kaaIterateT cfg delta require tol maxIter ud uw t s = Py.raise .typeError := by
  rw [kaaIterateT_eq, kaaCostTypes_eq, if_neg h0, Py.ok_bind]
  refine iterate_guarded (r := r) ?_ ?_ ?_
  · intro x hx
    unfold kaaGuarded at hx
    rcases List.mem_append.1 hx with hx | hx
    · cases ud with
      | false => simp at hx
      | true =>
        simp only [if_true, List.mem_singleton] at hx
        rw [hx, kaaDictionaryTypes_eq]
        split_ifs
        · exact Or.inr rfl
        · exact Or.inl rfl
    · cases uw with
      | false => simp at hx
      | true =>
        simp only [if_true, List.mem_singleton] at hx
        rw [hx, kaaWeightsTypes_eq]
        split_ifs
        · exact Or.inr rfl
        · exact Or.inl rfl
  · rcases h with ⟨rfl, h⟩ | ⟨rfl, h⟩
    · refine ⟨(kaaDictionaryTypes delta t, KAAState.updateDictionary cfg delta), ?_, ?_⟩
      · simp [kaaGuarded]
      · rw [kaaDictionaryTypes_eq, if_pos (Or.inl h)]
    · refine ⟨(kaaWeightsTypes delta t, KAAState.updateWeights cfg delta), ?_, ?_⟩
      · simp [kaaGuarded]
      · rw [kaaWeightsTypes_eq, if_pos (Or.inl h)]
  · rw [kaaGuarded_snd]
    exact hr

theorem kaaIterateT_not_ok {n k : ℕ} {cfg : LSConfig K} {delta : K} {require : Bool} {tol : K}
    {maxIter : ℕ} {ud uw : Bool} {t : KAATypes}
    (h : (ud = true ∧ t.C = .int) ∨ (uw = true ∧ t.S = .int)) {s : KAAState n k K}
    {r : IterResult (KAAState n k K) K} :
    kaaIterateT cfg delta require tol maxIter ud uw t s ≠ Py.ok r := by
  rw [kaaIterateT_eq]
  intro hr
  obtain ⟨_, -, hr⟩ := Py.bind_eq_ok.1 hr
  rcases h with ⟨rfl, h⟩ | ⟨rfl, h⟩
  · refine iterate_blocked (f := guardPhase (kaaDictionaryTypes delta t)
      (KAAState.updateDictionary cfg delta)) ?_ (guardPhase_blocked (fun u => ?_) _) hr
    · simp [guarded, kaaGuarded]
    · rw [kaaDictionaryTypes_eq, if_pos (Or.inl h)]
      simp
  · refine iterate_blocked (f := guardPhase (kaaWeightsTypes delta t)
      (KAAState.updateWeights cfg delta)) ?_ (guardPhase_blocked (fun u => ?_) _) hr
    · simp [guarded, kaaGuarded]
    · rw [kaaWeightsTypes_eq, if_pos (Or.inl h)]
      simp

theorem kaaIterateT_first {n k : ℕ} {cfg : LSConfig K} {delta : K} {require : Bool} {tol : K}
    {maxIter : ℕ} (hm : 0 < maxIter) {uw : Bool} {t : KAATypes} (hd : delta ≤ 0)
    (h : t.C = .int) {s : KAAState n k K} :
    kaaIterateT cfg delta require tol maxIter true uw t s = Py.raise .typeError := by
  rw [kaaIterateT_eq, kaaCostTypes_eq, if_neg (fun h => absurd h.1 (not_lt.2 hd)), Py.ok_bind]
  refine iterate_first_raise hm (ps := guarded
    (if uw then [(kaaWeightsTypes delta t, KAAState.updateWeights cfg delta)] else []))
    (f := guardPhase (kaaDictionaryTypes delta t) (KAAState.updateDictionary cfg delta))
    (fun s => ?_)
  rw [kaaDictionaryTypes_eq, if_pos (Or.inl h), guardPhase_raise]

theorem kaaIterateT_cost {n k : ℕ} {cfg : LSConfig K} {delta : K} {require : Bool} {tol : K}
    {maxIter : ℕ} {ud uw : Bool} {t : KAATypes} (hd : 0 < delta) (hK : t.Kmat = .int)
    (h : t.C = .int) {s : KAAState n k K} :
    kaaIterateT cfg delta require tol maxIter ud uw t s = Py.raise .valueError := by
  rw [kaaIterateT_eq, kaaCostTypes_eq, if_pos ⟨hd, hK, h⟩]
  rfl

/-- The start types when all factors are made by the estimator. -/
theorem kaaStartTypes_default {init : Option String}
    (hinit : init = none ∨ init = some "furthest_sum") (a b c : DType) (uw : Bool) :
    (kaaStartTypes init a b c true uw).C = a ∧ (kaaStartTypes init a b c true uw).Kmat = a := by
  rcases hinit with rfl | rfl <;> cases uw <;>
    simp [kaaStartTypes, kaaDictionaryType]

theorem kernelAASquareT_congr {env : Env K} {obj : KAAObj env.rng} {t : ArgTypes} {n : ℕ}
    {kernel : Matrix (Fin n) (Fin n) K} {dictionary weights : Option (Arr2 K)} {ud uw : Bool}
    {kw : InitKwargs}
    (h : (kaaStartTypes obj.init t.data t.dictionary t.weights ud uw).Fine obj.delta ud uw) :
    kernelAASquareT env obj t kernel dictionary weights ud uw kw =
      kernelAASquare env obj kernel dictionary weights ud uw kw := by
  unfold kernelAASquareT kernelAASquare
  simp only [kaaIterateT_fine h]

theorem kernelAAT_congr {env : Env K} {obj : KAAObj env.rng} {t : ArgTypes} {kernel : Arr2 K}
    {dictionary weights : Option (Arr2 K)} {ud uw : Bool} {kw : InitKwargs}
    (h : (kaaStartTypes obj.init t.data t.dictionary t.weights ud uw).Fine obj.delta ud uw) :
    kernelAAT env obj t kernel dictionary weights ud uw kw =
      kernelAA env obj kernel dictionary weights ud uw kw := by
  unfold kernelAAT kernelAA
  split
  · exact kernelAASquareT_congr h
  · rfl

theorem kernelAAT_raise {env : Env K} {obj : KAAObj env.rng} {t : ArgTypes} {kernel : Arr2 K}
    {dictionary weights : Option (Arr2 K)} {ud uw : Bool} {kw : InitKwargs} {T : KAATypes}
    (hT : kaaStartTypes obj.init t.data t.dictionary t.weights ud uw = T) {e : PyErr}
    (he : ∀ (k maxIter : ℕ) (tol : K) (s : KAAState kernel.rows k K)
      (r : IterResult (KAAState kernel.rows k K) K), 0 < maxIter →
      kaaIterate obj.ls obj.delta obj.require tol maxIter ud uw s = Py.ok r →
      kaaIterateT obj.ls obj.delta obj.require tol maxIter ud uw T s = Py.raise e)
    {r : KAAObj env.rng × FitInfo K}
    (h : kernelAA env obj kernel dictionary weights ud uw kw = Py.ok r) :
    kernelAAT env obj t kernel dictionary weights ud uw kw = Py.raise e := by
  unfold kernelAA at h
  unfold kernelAAT
  split at h
  · rename_i hsq
    rw [dif_pos hsq]
    unfold kernelAASquare at h
    unfold kernelAASquareT
    simp only at h ⊢
    obtain ⟨p, hp, h⟩ := Py.bind_eq_ok.1 h
    obtain ⟨start, hst, h⟩ := Py.bind_eq_ok.1 h
    obtain ⟨q, hq, h⟩ := Py.bind_eq_ok.1 h
    rw [hp, Py.ok_bind, hst, Py.ok_bind, hT,
      he _ _ _ _ _ (checkParams_ok hp).2.2.2.2.1 hq]
    rfl
  · simp at h

theorem kernelAAT_not_ok {env : Env K} {obj : KAAObj env.rng} {t : ArgTypes} {kernel : Arr2 K}
    {dictionary weights : Option (Arr2 K)} {ud uw : Bool} {kw : InitKwargs}
    (h : (ud = true ∧ (kaaStartTypes obj.init t.data t.dictionary t.weights ud uw).C = .int) ∨
      (uw = true ∧ (kaaStartTypes obj.init t.data t.dictionary t.weights ud uw).S = .int))
    (r : KAAObj env.rng × FitInfo K) :
    kernelAAT env obj t kernel dictionary weights ud uw kw ≠ Py.ok r := by
  intro hr
  unfold kernelAAT at hr
  split at hr
  · unfold kernelAASquareT at hr
    simp only at hr
    obtain ⟨p, hp, hr⟩ := Py.bind_eq_ok.1 hr
    obtain ⟨start, hst, hr⟩ := Py.bind_eq_ok.1 hr
    obtain ⟨q, hq, hr⟩ := Py.bind_eq_ok.1 hr
    exact kaaIterateT_not_ok h hq
  · simp at hr

/-! ### GPNH convex coding -/

/-- The updates of `GPNHConvexCoding` with their checks. -/
def gpnhGuarded {T D k : ℕ} (cfg : LSConfig K) (eps : K) (ud uw : Bool) (t : GPNHTypes) :
    List (Py Unit × (GPNHState T D k K → Py (GPNHState T D k K))) :=
  (if ud then [(gpnhDictionaryTypes k t, GPNHState.updateDictionary cfg eps)] else []) ++
    (if uw then [(gpnhWeightsTypes t, GPNHState.updateWeights cfg eps)] else [])

theorem gpnhIterateT_eq {T D k : ℕ} (cfg : LSConfig K) (eps : K) (require : Bool) (tol : K)
    (maxIter : ℕ) (ud uw : Bool) (t : GPNHTypes) (s : GPNHState T D k K) :
    gpnhIterateT cfg eps require tol maxIter ud uw t s =
      if D * T = 0 then Py.raise .zeroDivisionError
      else iterate (fun s => (s, s.evaluateCost eps)) require tol maxIter
        (guarded (gpnhGuarded cfg eps ud uw t)) s := by
  unfold gpnhIterateT
  cases ud <;> cases uw <;> rfl

theorem gpnhGuarded_snd {T D k : ℕ} (cfg : LSConfig K) (eps : K) (ud uw : Bool) (t : GPNHTypes) :
    (gpnhGuarded (T := T) (D := D) (k := k) cfg eps ud uw t).map Prod.snd =
      (if ud then [GPNHState.updateDictionary cfg eps] else []) ++
        (if uw then [GPNHState.updateWeights cfg eps] else []) := by
  cases ud <;> cases uw <;> rfl

theorem gpnhIterateT_fine {T D k : ℕ} {cfg : LSConfig K} {eps : K} {require : Bool} {tol : K}
    {maxIter : ℕ} {ud uw : Bool} {t : GPNHTypes} (h1 : ud = true → t.S = .float)
    (h2 : uw = true → t.Gamma = .float) (s : GPNHState T D k K) :
    gpnhIterateT cfg eps require tol maxIter ud uw t s =
      gpnhIterate cfg eps require tol maxIter ud uw s := by
  rw [gpnhIterateT_eq, guarded_ok, gpnhGuarded_snd]
  · rfl
  · intro x hx
    unfold gpnhGuarded at hx
    rcases List.mem_append.1 hx with hx | hx
    · cases ud with
      | false => simp at hx
      | true =>
        simp only [if_true, List.mem_singleton] at hx
        rw [hx, gpnhDictionaryTypes_eq, h1 rfl]
        rfl
    · cases uw with
      | false => simp at hx
      | true =>
        simp only [if_true, List.mem_singleton] at hx
        rw [hx, gpnhWeightsTypes_eq, h2 rfl]
        rfl

theorem gpnhIterateT_raise {T D k : ℕ} {cfg : LSConfig K} {eps : K} {require : Bool} {tol : K}
    {maxIter : ℕ} {ud uw : Bool} {t : GPNHTypes}
    (h : (ud = true ∧ t.S = .int) ∨ (uw = true ∧ t.Gamma = .int)) {s : GPNHState T D k K}
    {r : IterResult (GPNHState T D k K) K}
    (hr : gpnhIterate cfg eps require tol maxIter ud uw s = Py.ok r) :
    gpnhIterateT cfg eps require tol maxIter ud uw t s = Py.raise .typeError := by
  unfold gpnhIterate at hr
  rw [gpnhIterateT_eq]
  by_cases hDT : D * T = 0
  · rw [if_pos hDT] at hr; simp at hr
  rw [if_neg hDT] at hr ⊢
  refine iterate_guarded (r := r) ?_ ?_ ?_
  · intro x hx
    unfold gpnhGuarded at hx
    rcases List.mem_append.1 hx with hx | hx
    · cases ud with
      | false => simp at hx
      | true =>
        simp only [if_true, List.mem_singleton] at hx
        rw [hx, gpnhDictionaryTypes_eq]
        split_ifs
        · exact Or.inr rfl
        · exact Or.inl rfl
    · cases uw with
      | false => simp at hx
      | true =>
        simp only [if_true, List.mem_singleton] at hx
        rw [hx, gpnhWeightsTypes_eq]
        split_ifs
        · exact Or.inr rfl
        · exact Or.inl rfl
  · rcases h with ⟨rfl, h⟩ | ⟨rfl, h⟩
    · refine ⟨(gpnhDictionaryTypes k t, GPNHState.updateDictionary cfg eps), ?_, ?_⟩
      · simp [gpnhGuarded]
      · rw [gpnhDictionaryTypes_eq, if_pos h]
    · refine ⟨(gpnhWeightsTypes t, GPNHState.updateWeights cfg eps), ?_, ?_⟩
      · simp [gpnhGuarded]
      · rw [gpnhWeightsTypes_eq, if_pos h]
  · rw [gpnhGuarded_snd]
    exact hr

theorem gpnhIterateT_not_ok {T D k : ℕ} {cfg : LSConfig K} {eps : K} {require : Bool} {tol : K}
    {maxIter : ℕ} {ud uw : Bool} {t : GPNHTypes}
    (h : (ud = true ∧ t.S = .int) ∨ (uw = true ∧ t.Gamma = .int)) {s : GPNHState T D k K}
    {r : IterResult (GPNHState T D k K) K} :
    gpnhIterateT cfg eps require tol maxIter ud uw t s ≠ Py.ok r := by
  rw [gpnhIterateT_eq]
  intro hr
  split_ifs at hr
  rcases h with ⟨rfl, h⟩ | ⟨rfl, h⟩
  · refine iterate_blocked (f := guardPhase (gpnhDictionaryTypes k t)
      (GPNHState.updateDictionary cfg eps)) ?_ (guardPhase_blocked (fun u => ?_) _) hr
    · simp [guarded, gpnhGuarded]
    · rw [gpnhDictionaryTypes_eq, if_pos h]
      simp
  · refine iterate_blocked (f := guardPhase (gpnhWeightsTypes t)
      (GPNHState.updateWeights cfg eps)) ?_ (guardPhase_blocked (fun u => ?_) _) hr
    · simp [guarded, gpnhGuarded]
    · rw [gpnhWeightsTypes_eq, if_pos h]
      simp

theorem gpnhConvexCodingT_congr {env : Env K} {obj : GPNHObj env.rng} {t : ArgTypes} {data : Arr2 K}
    {dictionary weights : Option (Arr2 K)} {ud uw : Bool} {kw : InitKwargs}
    (h1 : ud = true → (gpnhStartTypes obj.init t ud uw).S = .float)
    (h2 : uw = true → (gpnhStartTypes obj.init t ud uw).Gamma = .float) :
    gpnhConvexCodingT env obj t data dictionary weights ud uw kw =
      gpnhConvexCoding env obj data dictionary weights ud uw kw := by
  unfold gpnhConvexCodingT gpnhConvexCoding
  simp only [gpnhIterateT_fine h1 h2]

theorem gpnhConvexCodingT_raise {env : Env K} {obj : GPNHObj env.rng} {t : ArgTypes} {data : Arr2 K}
    {dictionary weights : Option (Arr2 K)} {ud uw : Bool} {kw : InitKwargs}
    (h : (ud = true ∧ (gpnhStartTypes obj.init t ud uw).S = .int) ∨
      (uw = true ∧ (gpnhStartTypes obj.init t ud uw).Gamma = .int))
    {r : GPNHObj env.rng × FitInfo K}
    (hr : gpnhConvexCoding env obj data dictionary weights ud uw kw = Py.ok r) :
    gpnhConvexCodingT env obj t data dictionary weights ud uw kw = Py.raise .typeError := by
  unfold gpnhConvexCoding at hr
  unfold gpnhConvexCodingT
  simp only at hr ⊢
  obtain ⟨p, hp, hr⟩ := Py.bind_eq_ok.1 hr
  obtain ⟨start, hst, hr⟩ := Py.bind_eq_ok.1 hr
  obtain ⟨q, hq, hr⟩ := Py.bind_eq_ok.1 hr
  rw [hp, Py.ok_bind, hst, Py.ok_bind, gpnhIterateT_raise h hq]
  rfl

theorem gpnhConvexCodingT_not_ok {env : Env K} {obj : GPNHObj env.rng} {t : ArgTypes}
    {data : Arr2 K} {dictionary weights : Option (Arr2 K)} {ud uw : Bool} {kw : InitKwargs}
    (h : (ud = true ∧ (gpnhStartTypes obj.init t ud uw).S = .int) ∨
      (uw = true ∧ (gpnhStartTypes obj.init t ud uw).Gamma = .int))
    (r : GPNHObj env.rng × FitInfo K) :
    gpnhConvexCodingT env obj t data dictionary weights ud uw kw ≠ Py.ok r := by
  intro hr
  unfold gpnhConvexCodingT at hr
  simp only at hr
  obtain ⟨p, hp, hr⟩ := Py.bind_eq_ok.1 hr
  obtain ⟨start, hst, hr⟩ := Py.bind_eq_ok.1 hr
  obtain ⟨q, hq, hr⟩ := Py.bind_eq_ok.1 hr
  exact gpnhIterateT_not_ok h hq

/-! ### Convex coding with a mixture transition model -/

theorem DType.store_float [FloorRing K] (x : K) : DType.float.store x = x := rfl

theorem mtdStartT_float [FloorRing K] {env : Env K} {T D k p : ℕ} {data : Matrix (Fin T) (Fin D) K}
    {init : Option String} {args : MTDArgs K} {fl : MTDFlags} {kw : InitKwargs} {g : env.rng.G} :
    mtdStartT env .float data k p init args fl kw g =
      mtdStart env data k p init args fl kw g := by
  unfold mtdStartT
  cases mtdStart env data k p init args fl kw g with
  | ok start => simp only [Py.ok_bind, DType.store_float, Py.pure_eq, ite_self]
  | raise e => rfl
  | diverge => rfl

/-- All dtypes are floating point. -/
def MTDTypes.float : MTDTypes := ⟨⟨.float, .float⟩, .float, .float⟩

theorem mtdIterateT_float {T D k p : ℕ} {c : MTDConfig p K} {require : Bool} {tol : K}
    {maxIter : ℕ} {fl : MTDFlags} {s : MTDState T D k p K} :
    mtdIterateT c require tol maxIter fl MTDTypes.float s =
      mtdIterate c require tol maxIter fl.updateDictionary fl.updateWeights fl.updateParameters
        s := by
  unfold mtdIterateT mtdIterate
  have h1 : gpnhDictionaryTypes k MTDTypes.float.toGPNHTypes = Py.ok () := by
    rw [gpnhDictionaryTypes_eq]; rfl
  have h2 : mtdWeightsTypes MTDTypes.float = Py.ok () := by
    unfold mtdWeightsTypes
    rw [gpnhWeightsTypes_eq]; rfl
  have h3 : mtdParametersTypes p MTDTypes.float = Py.ok () := mtdParametersTypes_float p rfl rfl rfl
  simp only [h1, h2, h3, guardPhase_ok]

theorem mtdStartTypes_float (init : Option String) (fl : MTDFlags) :
    mtdStartTypes init ⟨⟨.float, .float, .float⟩, .float, .float⟩ fl = MTDTypes.float := by
  unfold mtdStartTypes gpnhDictionaryType MTDTypes.float
  simp [DType.join]

theorem mtdSolveT_float {T D k p : ℕ} {c : MTDConfig p K} {require : Bool} {tol : K}
    {maxIter : ℕ} {fl : MTDFlags} {X : Matrix (Fin T) (Fin D) K} {pt : MTDPoint T D k p K} :
    mtdSolveT c require tol maxIter fl MTDTypes.float X pt =
      mtdSolve c require tol maxIter fl X pt := by
  unfold mtdSolveT mtdSolve
  rw [mtdPredictedWeightsTypes_float p rfl, Py.ok_bind, mtdIterateT_float]

theorem mtdSolveT_not_ok {T D k p : ℕ} {c : MTDConfig p K} {require : Bool} {tol : K}
    {maxIter : ℕ} {fl : MTDFlags} {t : MTDTypes} {X : Matrix (Fin T) (Fin D) K}
    {pt : MTDPoint T D k p K} (hfl : fl.updateParameters = true) (h : t.transitionMatrices = .int)
    (r : IterResult (MTDState T D k p K) K) :
    mtdSolveT c require tol maxIter fl t X pt ≠ Py.ok r := by
  intro hr
  unfold mtdSolveT at hr
  split_ifs at hr
  obtain ⟨_, -, hr⟩ := Py.bind_eq_ok.1 hr
  unfold mtdIterateT at hr
  rw [hfl] at hr
  by_cases h1 : D * T = 0
  · rw [if_pos h1] at hr; simp at hr
  rw [if_neg h1] at hr
  by_cases h2 : k ≠ 1 ∧ T = c.maxLag
  · rw [if_pos h2] at hr; simp at hr
  rw [if_neg h2] at hr
  refine iterate_blocked (f := guardPhase (mtdParametersTypes p t) (MTDState.updateParameters c))
    ?_ (guardPhase_blocked (mtdParametersTypes_not_ok p h) _) hr
  simp

/-- What the updates of the dictionary and the weights need and keep, whatever the parameters. -/
structure MTDState.HalfReady {T D k p : ℕ} (c : MTDConfig p K) (s : MTDState T D k p K) : Prop where
  good : s.Good c
  stoch : RowStochastic s.Gamma
  alphaS : 0 < s.alphaS
  alphaGamma : 0 < s.alphaGamma
  memS : ∃ m, s.fSMem = [m]
  memG : ∃ m, s.fGammaMem = [m]

theorem mtd_halfReady_phases [Archimedean K] {T D k p : ℕ} {c : MTDConfig p K}
    (h1 : 0 < c.ls.sigmaOne) (h2 : c.ls.sigmaTwo < 1) (hg0 : 0 ≤ c.ls.gamma) (hg1 : c.ls.gamma < 1)
    (ht : c.ls.stepSizeTolerance = 0) (ha0 : 0 < c.ls.alphaMin) (ha1 : c.ls.alphaMin ≤ c.ls.alphaMax)
    (hk : 1 ≤ k) (hT : T ≠ c.maxLag) :
    ∀ f ∈ [MTDState.updateDictionary (T := T) (D := D) (k := k) c, MTDState.updateWeights c],
      ∀ s, s.HalfReady c →
      ∃ s', f s = Py.ok s' ∧ s'.HalfReady c ∧ s'.evaluateCost c ≤ s.evaluateCost c := by
  intro f hf s hs
  obtain ⟨mS, hmS⟩ := hs.memS
  obtain ⟨mG, hmG⟩ := hs.memG
  simp only [List.mem_cons, List.not_mem_nil, or_false] at hf
  rcases hf with rfl | rfl
  · obtain ⟨s', h⟩ := MTDState.updateDictionary_succeeds hs.good h1 h2 hg1 hs.alphaS
      (by rw [hmS]; simp)
    obtain ⟨lam, hl⟩ := MTDState.updateDictionary_post hs.good h
    have hmem : s'.fSMem = [s.objective c] := by rw [hl.fSMem, hmS]; rfl
    refine ⟨s', h, ⟨hl.good, by rw [hl.Gamma]; exact hs.stoch, ?_,
      by rw [hl.alphaGamma]; exact hs.alphaGamma, ⟨_, hmem⟩, ⟨mG, by rw [hl.fGammaMem, hmG]⟩⟩, ?_⟩
    · obtain ⟨b, q, -, hb⟩ := hl.alpha
      rw [hb]; exact nextSpgAlpha_pos ha0 ha1
    · rw [MTDState.evaluateCost_eq hl.good, MTDState.evaluateCost_eq hs.good]
      exact accept_descends hmem (hl.pos h1 h2) hg0 (slope_nonpos hs.alphaS
        (s.slopeS_eq c) (mul_nonneg (sq_nonneg _) (frobSq_nonneg _))) ht hl.accept
  · obtain ⟨s', h⟩ := MTDState.updateWeights_succeeds hs.good hT h1 h2 hg1 hk hs.stoch
      hs.alphaGamma (by rw [hmG]; simp)
    obtain ⟨lam, hl⟩ := MTDState.updateWeights_post hs.good h
    have hmem : s'.fGammaMem = [s.objective c] := by rw [hl.fGammaMem, hmG]; rfl
    refine ⟨s', h, ⟨hl.good, hl.stochastic (LSConfig.safe_of_sigma h1 h2) hk
      (fun _ => hs.alphaGamma.le) hs.stoch, by rw [hl.alphaS]; exact hs.alphaS, ?_,
      ⟨mS, by rw [hl.fSMem, hmS]⟩, ⟨_, hmem⟩⟩, ?_⟩
    · obtain ⟨b, q, -, hb⟩ := hl.alpha
      rw [hb]; exact nextSpgAlpha_pos ha0 ha1
    · rw [MTDState.evaluateCost_eq hl.good, MTDState.evaluateCost_eq hs.good]
      exact accept_descends hmem (hl.pos h1 h2) hg0 (slope_nonpos hs.alphaGamma
        (MTDState.slopeW_le hk hs.stoch) (frobSq_nonneg _)) ht hl.accept

theorem mtdSolveT_raise [Archimedean K] {T D k p : ℕ} {c : MTDConfig p K}
    (h1 : 0 < c.ls.sigmaOne) (h2 : c.ls.sigmaTwo < 1) (hg0 : 0 ≤ c.ls.gamma) (hg1 : c.ls.gamma < 1)
    (ht : c.ls.stepSizeTolerance = 0) (ha0 : 0 < c.ls.alphaMin) (ha1 : c.ls.alphaMin ≤ c.ls.alphaMax)
    (hmem : c.ls.memory = 1) (hk : 1 ≤ k) (hp : 1 ≤ p) (hDT : D * T ≠ 0) (hT : T ≠ c.maxLag)
    {require : Bool} {tol : K} {maxIter : ℕ} (hm : 0 < maxIter) {t : MTDTypes}
    (hG : t.Gamma = .float) (hS : t.S = .float) (hA : t.transitionMatrices = .int)
    {X : Matrix (Fin T) (Fin D) K} {pt : MTDPoint T D k p K} (hW : RowStochastic pt.2.1) :
    mtdSolveT c require tol maxIter {} t X pt = Py.raise .typeError := by
  unfold mtdSolveT mtdIterateT
  rw [if_neg (by omega), mtdPredictedWeightsTypes_float p hG, Py.ok_bind, if_neg hDT,
    if_neg (fun h => hT h.2)]
  have e1 : gpnhDictionaryTypes k t.toGPNHTypes = Py.ok () := by
    rw [gpnhDictionaryTypes_eq, hS]; rfl
  have e2 : mtdWeightsTypes t = Py.ok () := by
    unfold mtdWeightsTypes
    rw [gpnhWeightsTypes_eq, hG]; rfl
  have e3 : mtdParametersTypes p t = Py.raise .typeError := mtdParametersTypes_int p hA hG
  simp only [if_true, e1, e2, e3, guardPhase_ok]
  have hr : List.replicate c.ls.memory (0 : K) = [0] := by rw [hmem]; rfl
  refine iterate_raise_last (evalCost := fun s : MTDState T D k p K => (s, s.evaluateCost c))
    (fun _ => rfl) hm (Inv := MTDState.HalfReady c) (fun _ h => h) (fun s => rfl)
    (ps := [MTDState.updateDictionary c, MTDState.updateWeights c])
    (mtd_halfReady_phases h1 h2 hg0 hg1 ht ha0 ha1 hk hT)
    (s := MTDState.initializeWorkspace c X pt.2.1 pt.1 pt.2.2.1 pt.2.2.2) ?_
  exact ⟨mtdInitialState_good c X pt, hW, one_pos, one_pos, ⟨0, hr⟩, ⟨0, hr⟩⟩

/-! ### The two-step estimator -/

theorem cromParametersTypes_int (t : DType) (u : Unit) : cromParametersTypes t .int ≠ Py.ok u := by
  cases t <;> simp [cromParametersTypes, inPlace]

theorem cromSolveT_float {T k p : ℕ} {c : CROMConfig p K} {require : Bool} {tol : K} {maxIter : ℕ}
    {W : Matrix (Fin T) (Fin k) K} {w : Fin p → K} {A : Fin p → Matrix (Fin k) (Fin k) K} :
    cromSolveT c require tol maxIter .float .float W w A =
      cromSolve c require tol maxIter W w A := by
  unfold cromSolveT cromSolve
  have h : cromParametersTypes .float .float = Py.ok () := rfl
  have h' : inPlace .float .float = Py.ok () := rfl
  simp only [h, h', guardPhase_ok, Py.ok_bind]

theorem cromSolveT_not_ok {T k p : ℕ} {c : CROMConfig p K} {require : Bool} {tol : K} {maxIter : ℕ}
    {t : DType} {W : Matrix (Fin T) (Fin k) K} {w : Fin p → K}
    {A : Fin p → Matrix (Fin k) (Fin k) K} (r : IterResult (CROMState T k p K) K) :
    cromSolveT c require tol maxIter t .int W w A ≠ Py.ok r := by
  intro hr
  unfold cromSolveT at hr
  by_cases h1 : p = 0
  · rw [if_pos h1] at hr; simp at hr
  rw [if_neg h1] at hr
  by_cases h2 : (∃ i, c.lags i = 0) ∧ c.maxLag < T
  · rw [if_pos h2] at hr; simp at hr
  rw [if_neg h2] at hr
  obtain ⟨_, -, hr⟩ := Py.bind_eq_ok.1 hr
  by_cases h3 : k ≠ 1 ∧ T = c.maxLag
  · rw [if_pos h3] at hr; simp at hr
  rw [if_neg h3] at hr
  exact iterate_blocked (f := guardPhase (cromParametersTypes t .int)
    (CROMState.updateParameters c)) (by simp) (guardPhase_blocked (cromParametersTypes_int t) _) hr

theorem cromSolveT_raise {T k p : ℕ} {c : CROMConfig p K} {require : Bool} {tol : K} {maxIter : ℕ}
    (hm : 0 < maxIter) (hp : p ≠ 0) (hlag : ¬ ((∃ i, c.lags i = 0) ∧ c.maxLag < T))
    (hT : ¬ (k ≠ 1 ∧ T = c.maxLag)) {W : Matrix (Fin T) (Fin k) K} {w : Fin p → K}
    {A : Fin p → Matrix (Fin k) (Fin k) K} :
    cromSolveT c require tol maxIter .float .int W w A = Py.raise .typeError := by
  unfold cromSolveT
  have h' : inPlace .float .float = Py.ok () := rfl
  rw [if_neg hp, if_neg hlag, h', Py.ok_bind, if_neg hT]
  exact iterate_first_raise hm (fun s => rfl)

theorem cromSolve_eq_ok_conds {T k p : ℕ} {c : CROMConfig p K} {require : Bool} {tol : K}
    {maxIter : ℕ} {W : Matrix (Fin T) (Fin k) K} {w : Fin p → K}
    {A : Fin p → Matrix (Fin k) (Fin k) K} {r : IterResult (CROMState T k p K) K}
    (h : cromSolve c require tol maxIter W w A = Py.ok r) :
    p ≠ 0 ∧ ¬ ((∃ i, c.lags i = 0) ∧ c.maxLag < T) ∧ ¬ (k ≠ 1 ∧ T = c.maxLag) := by
  unfold cromSolve at h
  split_ifs at h with a b c
  exact ⟨a, b, c⟩

end Reor
