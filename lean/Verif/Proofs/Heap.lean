import Verif.Model.Heap
import Verif.Proofs.Rel

/-!
Code on memory compared with code on values.
-/

set_option linter.unusedSectionVars false

namespace Reor

variable {K : Type} {ι τ : Type} [DecidableEq ι]

/-- The memory below `n0` is as in `h0`. -/
def Heap.Keeps (h0 h : Heap K) (n0 : ℕ) : Prop := n0 ≤ h.next ∧ ∀ a < n0, h.cell a = h0.cell a

/-- Related outcomes: exceptions leave the memory below `n0` as in `h0`. -/
def HRel {α β : Type} (h0 : Heap K) (n0 : ℕ) (P : α → β → Prop) : HPy K α → Py β → Prop
  | .ok a, .ok b => P a b
  | .raise e h, .raise e' => e = e' ∧ h0.Keeps h n0
  | .diverge, .diverge => True
  | _, _ => False

section Bind

variable {α β γ δ : Type} {h0 : Heap K} {n0 : ℕ}

@[simp] theorem HPy.pure_eq (a : α) : (pure a : HPy K α) = HPy.ok a := rfl
@[simp] theorem HPy.ok_bind (a : α) (f : α → HPy K β) : (HPy.ok a >>= f) = f a := rfl
@[simp] theorem HPy.raise_bind (e : PyErr) (h : Heap K) (f : α → HPy K β) :
    ((HPy.raise e h : HPy K α) >>= f) = HPy.raise e h := rfl
@[simp] theorem HPy.diverge_bind (f : α → HPy K β) : ((HPy.diverge : HPy K α) >>= f) = HPy.diverge :=
  rfl

theorem HPy.bind_eq_ok {x : HPy K α} {f : α → HPy K β} {b : β} :
    (x >>= f) = HPy.ok b ↔ ∃ a, x = HPy.ok a ∧ f a = HPy.ok b := by
  cases x <;> simp

theorem HRel.bind {P : α → β → Prop} {Q : γ → δ → Prop} {x : HPy K α} {y : Py β} {f : α → HPy K γ}
    {g : β → Py δ} (h : HRel h0 n0 P x y) (hfg : ∀ a b, P a b → HRel h0 n0 Q (f a) (g b)) :
    HRel h0 n0 Q (x >>= f) (y >>= g) := by
  cases x <;> cases y <;> simp only [HRel] at h
  · exact hfg _ _ h
  · exact h
  · exact trivial

theorem HRel.bind_of {P : α → β → Prop} {Q : γ → δ → Prop} {x : HPy K α} {y : Py β}
    {f : α → HPy K γ} {g : β → Py δ} (h : HRel h0 n0 P x y)
    (hfg : ∀ a b, P a b → y = Py.ok b → HRel h0 n0 Q (f a) (g b)) :
    HRel h0 n0 Q (x >>= f) (y >>= g) := by
  cases x <;> cases y <;> simp only [HRel] at h
  · exact hfg _ _ h rfl
  · exact h
  · exact trivial

theorem HRel.mono {P Q : α → β → Prop} {x : HPy K α} {y : Py β} (h : HRel h0 n0 P x y)
    (hPQ : ∀ a b, P a b → Q a b) : HRel h0 n0 Q x y := by
  cases x <;> cases y <;> simp only [HRel] at h ⊢
  · exact hPQ _ _ h
  · exact h

theorem HRel.of_bind_pure {P : α → β → Prop} {x : HPy K α} {y : Py β}
    (h : HRel h0 n0 P x (y >>= fun r => pure r)) : HRel h0 n0 P x y := by
  cases y <;> exact h

theorem HRel.lift {h : Heap K} (hk : h0.Keeps h n0) (y : Py α) :
    HRel h0 n0 (fun a b => a = b ∧ y = Py.ok b) (HPy.lift h y) y := by
  cases y
  · exact ⟨rfl, rfl⟩
  · exact ⟨rfl, hk⟩
  · exact trivial

end Bind

/-! ### Attributes -/

theorem Arr2.at_of [Zero K] {m n : ℕ} (M : Matrix (Fin m) (Fin n) K) : (Arr2.of M).at m n = M := by
  funext i j
  change (if h : m = m ∧ n = n then _ else _) = _
  rw [dif_pos ⟨rfl, rfl⟩]
  rfl

theorem Arr2.of_at [Zero K] {A : Arr2 K} {m n : ℕ} (hm : A.rows = m) (hn : A.cols = n) :
    Arr2.of (A.at m n) = A := by
  subst hm hn
  exact congrArg Arr2.of (Arr2.at_of A.val)

section Attributes

variable [Zero K] {shape : ι → ℕ × ℕ} {s : HState ι τ K} {h0 : Heap K} {n0 : ℕ}

/-- All attributes are arrays that exist. -/
def HState.Valid (s : HState ι τ K) : Prop := ∀ a, s.addr a < s.heap.next

/-- The attributes in `A` have their own arrays, of the right shapes, all made since the memory had
size `n0`. -/
def HState.Owns (shape : ι → ℕ × ℕ) (n0 : ℕ) (A : ι → Prop) (s : HState ι τ K) : Prop :=
  (∀ a, A a → n0 ≤ s.addr a ∧ ((s.heap.cell (s.addr a)).rows = (shape a).1 ∧
    (s.heap.cell (s.addr a)).cols = (shape a).2)) ∧
  ∀ a b, A a → s.addr a = s.addr b → A b → a = b

/-- The values of the attributes. -/
def HState.values (shape : ι → ℕ × ℕ) (s : HState ι τ K) :
    (a : ι) → Matrix (Fin (shape a).1) (Fin (shape a).2) K := s.val shape

theorem HState.val_of {a : ι} {M : Matrix (Fin (shape a).1) (Fin (shape a).2) K}
    (h : s.heap.cell (s.addr a) = Arr2.of M) : s.val shape a = M := by
  unfold HState.val
  rw [h]
  exact Arr2.at_of M

theorem HState.val_congr {s s' : HState ι τ K} {a : ι}
    (h : s'.heap.cell (s'.addr a) = s.heap.cell (s.addr a)) : s'.val shape a = s.val shape a := by
  unfold HState.val
  rw [h]

theorem HState.Valid.assign (hv : s.Valid) (a : ι) {m n : ℕ} (M : Matrix (Fin m) (Fin n) K) :
    (s.assign a M).Valid := by
  intro b
  change Function.update s.addr a s.heap.next b < s.heap.next + 1
  by_cases hb : b = a
  · subst hb
    rw [Function.update_self]
    omega
  · rw [Function.update_of_ne hb]
    have := hv b
    omega

theorem HState.Valid.augment (hv : s.Valid) (a : ι) {m n : ℕ} (M : Matrix (Fin m) (Fin n) K) :
    (s.augment a M).Valid := hv

theorem HState.Owns.assign {A : ι → Prop} (hv : s.Valid) (hn : n0 ≤ s.heap.next)
    (ho : s.Owns shape n0 A) (a : ι) (M : Matrix (Fin (shape a).1) (Fin (shape a).2) K) :
    (s.assign a M).Owns shape n0 (fun b => b = a ∨ A b) := by
  have key : ∀ b, (s.assign a M).addr b = if b = a then s.heap.next else s.addr b := by
    intro b
    change Function.update s.addr a s.heap.next b = _
    rw [Function.update_apply]
  refine ⟨fun b hb => ?_, fun b c hb h hc => ?_⟩
  · rw [key]
    change _ ∧ ((Function.update s.heap.cell s.heap.next (Arr2.of M) _).rows = _ ∧
      (Function.update s.heap.cell s.heap.next (Arr2.of M) _).cols = _)
    split_ifs with h
    · subst h
      rw [Function.update_self]
      exact ⟨hn, rfl, rfl⟩
    · rw [Function.update_of_ne (hv b).ne]
      exact ho.1 b (by tauto)
  · rw [key, key] at h
    have h1 := hv b
    have h2 := hv c
    split_ifs at h with e1 e2 e2
    · rw [e1, e2]
    · omega
    · omega
    · exact ho.2 b c (by tauto) h (by tauto)

theorem HState.Owns.augment (ho : s.Owns shape n0 fun _ => True) (a : ι)
    (M : Matrix (Fin (shape a).1) (Fin (shape a).2) K) :
    (s.augment a M).Owns shape n0 fun _ => True := by
  refine ⟨fun b _ => ⟨(ho.1 b trivial).1, ?_⟩, ho.2⟩
  change ((Function.update s.heap.cell (s.addr a) (Arr2.of M) (s.addr b)).rows = _ ∧
      (Function.update s.heap.cell (s.addr a) (Arr2.of M) (s.addr b)).cols = _)
  by_cases h : b = a
  · subst h
    rw [Function.update_self]
    exact ⟨rfl, rfl⟩
  · rw [Function.update_of_ne fun e => h (ho.2 b a trivial e trivial)]
    exact (ho.1 b trivial).2

theorem HState.Owns.mono {A B : ι → Prop} (ho : s.Owns shape n0 A) (h : ∀ a, B a → A a) :
    s.Owns shape n0 B :=
  ⟨fun a ha => ho.1 a (h a ha), fun a b ha e hb => ho.2 a b (h a ha) e (h b hb)⟩

theorem HState.Owns.cell {A : ι → Prop} (ho : s.Owns shape n0 A) {a : ι} (ha : A a) :
    s.heap.cell (s.addr a) = Arr2.of (s.val shape a) :=
  (Arr2.of_at (ho.1 a ha).2.1 (ho.1 a ha).2.2).symm

theorem HState.values_assign (hv : s.Valid) (a : ι) (M : Matrix (Fin (shape a).1) (Fin (shape a).2) K) :
    (s.assign a M).values shape = Function.update (s.values shape) a M := by
  funext b
  by_cases hb : b = a
  · subst hb
    rw [Function.update_self]
    refine HState.val_of ?_
    change Function.update s.heap.cell s.heap.next _ (Function.update s.addr b s.heap.next b) = _
    rw [Function.update_self, Function.update_self]
  · rw [Function.update_of_ne hb]
    refine HState.val_congr ?_
    change Function.update s.heap.cell s.heap.next _ (Function.update s.addr a s.heap.next b) = _
    rw [Function.update_of_ne hb, Function.update_of_ne (hv b).ne]

theorem HState.values_augment (ho : s.Owns shape n0 fun _ => True) (a : ι)
    (M : Matrix (Fin (shape a).1) (Fin (shape a).2) K) :
    (s.augment a M).values shape = Function.update (s.values shape) a M := by
  funext b
  by_cases hb : b = a
  · subst hb
    rw [Function.update_self]
    refine HState.val_of ?_
    exact Function.update_self ..
  · rw [Function.update_of_ne hb]
    refine HState.val_congr ?_
    change Function.update s.heap.cell (s.addr a) _ (s.addr b) = _
    rw [Function.update_of_ne]
    exact fun h => hb (ho.2 b a trivial h trivial)

theorem HState.keeps_assign (hk : h0.Keeps s.heap n0) (a : ι) {m n : ℕ}
    (M : Matrix (Fin m) (Fin n) K) : h0.Keeps (s.assign a M).heap n0 := by
  refine ⟨Nat.le_succ_of_le hk.1, fun b hb => ?_⟩
  change Function.update s.heap.cell s.heap.next _ b = _
  rw [Function.update_of_ne (lt_of_lt_of_le hb hk.1).ne]
  exact hk.2 b hb

theorem HState.keeps_augment (hk : h0.Keeps s.heap n0) (ho : s.Owns shape n0 fun _ => True) (a : ι)
    {m n : ℕ} (M : Matrix (Fin m) (Fin n) K) : h0.Keeps (s.augment a M).heap n0 := by
  refine ⟨hk.1, fun b hb => ?_⟩
  change Function.update s.heap.cell (s.addr a) _ b = _
  rw [Function.update_of_ne (lt_of_lt_of_le hb (ho.1 a trivial).1).ne]
  exact hk.2 b hb

theorem HState.cell_assign {b : ℕ} (hb : b < s.heap.next) (a : ι) {m n : ℕ}
    (M : Matrix (Fin m) (Fin n) K) : (s.assign a M).heap.cell b = s.heap.cell b :=
  Function.update_of_ne hb.ne ..

/-- The state during a fit: every attribute has its own new array, and older arrays are untouched. -/
structure HState.Safe (shape : ι → ℕ × ℕ) (h0 : Heap K) (n0 : ℕ) (s : HState ι τ K) : Prop where
  valid : s.Valid
  owns : s.Owns shape n0 fun _ => True
  keeps : h0.Keeps s.heap n0

theorem HState.Safe.assign (h : s.Safe shape h0 n0) (a : ι)
    (M : Matrix (Fin (shape a).1) (Fin (shape a).2) K) : (s.assign a M).Safe shape h0 n0 :=
  ⟨h.valid.assign a M, (h.owns.assign h.valid h.keeps.1 a M).mono fun _ _ => Or.inr trivial,
    HState.keeps_assign h.keeps a M⟩

theorem HState.Safe.augment (h : s.Safe shape h0 n0) (a : ι)
    (M : Matrix (Fin (shape a).1) (Fin (shape a).2) K) : (s.augment a M).Safe shape h0 n0 :=
  ⟨h.valid.augment a M, h.owns.augment a M, HState.keeps_augment h.keeps h.owns a M⟩

theorem HState.Safe.rest (h : s.Safe shape h0 n0) (r : τ) :
    ({ s with rest := r } : HState ι τ K).Safe shape h0 n0 :=
  ⟨h.valid, h.owns, h.keeps⟩

end Attributes

/-! ### New arrays -/

theorem Heap.keeps_refl (h : Heap K) {n0 : ℕ} (hn : n0 ≤ h.next) : h.Keeps h n0 := ⟨hn, fun _ _ => rfl⟩

theorem Heap.Keeps.alloc {h0 h : Heap K} {n0 : ℕ} (hk : h0.Keeps h n0) (A : Arr2 K) :
    h0.Keeps (h.alloc A) n0 := by
  refine ⟨Nat.le_succ_of_le hk.1, fun b hb => ?_⟩
  change Function.update h.cell h.next _ b = _
  rw [Function.update_of_ne (lt_of_lt_of_le hb hk.1).ne]
  exact hk.2 b hb

theorem Heap.cell_alloc (h : Heap K) (A : Arr2 K) : (h.alloc A).cell h.next = A :=
  Function.update_self ..

theorem Heap.cell_alloc_lt (h : Heap K) (A : Arr2 K) {a : ℕ} (ha : a < h.next) :
    (h.alloc A).cell a = h.cell a := Function.update_of_ne ha.ne ..

/-- An optional argument or attribute that is an array of `h`, when it is not `None`. -/
def Heap.Has (h : Heap K) (a : Option ℕ) : Prop := ∀ x, a = some x → x < h.next

theorem Heap.Has.map {h0 h : Heap K} {a : Option ℕ} (ha : h0.Has a) (hk : h0.Keeps h h0.next) :
    a.map h.cell = a.map h0.cell := by
  cases a with
  | none => rfl
  | some x => exact congrArg some (hk.2 x (ha x rfl))

/-! ### Loops -/

section Loops

variable {K : Type} [Field K] [LinearOrder K] [IsStrictOrderedRing K] {σ : Type}
variable {h0 : Heap K} {n0 : ℕ} {R : HState ι τ K → σ → Prop}

theorem hLineSearch_rel {cfg : LSConfig K} {first : HState ι τ K → HState ι τ K × K}
    {trial : HState ι τ K → K → HState ι τ K × K} {trial' : σ → K → σ × K}
    (hk : ∀ s t, R s t → h0.Keeps s.heap n0)
    (ht : ∀ s t a, R s t → R (trial s a).1 (trial' t a).1 ∧ (trial s a).2 = (trial' t a).2)
    {mem : List K} {s : HState ι τ K} {t : σ} {f0 δ : K} (hR : R s t)
    (hf : R (first s).1 (trial' t 1).1 ∧ (first s).2 = (trial' t 1).2) :
    HRel h0 n0 (fun r r' => R r.state r'.state ∧ r.mem = r'.mem ∧ r.stepSize = r'.stepSize)
      (hLineSearch cfg first trial mem s f0 δ) (lineSearch cfg trial' mem t f0 δ) := by
  unfold hLineSearch lineSearch
  cases mem with
  | nil => exact ⟨rfl, hk s t hR⟩
  | cons a rest =>
    obtain ⟨M, hM, -, -⟩ := foldMax_spec (rest ++ [f0]) (by simp)
    simp only [hM]
    obtain ⟨h1, h2⟩ := hf
    rw [← h2]
    rcases backtrack_rel ht h1 (cfg := cfg) (fMax := M) (δ := δ) (f0 := f0) (step := 1)
      (c := (first s).2) (n := 0) with ⟨e1, e2⟩ | ⟨r, t', e1, e2, h3⟩
    · rw [e1, e2]
      exact trivial
    · rw [e1, e2]
      exact ⟨h3, rfl, rfl⟩

theorem hRunPhases_rel {evalCost : HState ι τ K → HState ι τ K × K} {evalCost' : σ → σ × K}
    (hk : ∀ s t, R s t → h0.Keeps s.heap n0)
    (he : ∀ s t, R s t → R (evalCost s).1 (evalCost' t).1 ∧ (evalCost s).2 = (evalCost' t).2)
    {require : Bool} {oldCost : K} :
    ∀ {phases : List (HState ι τ K → HPy K (HState ι τ K))} {phases' : List (σ → Py σ)},
      List.Forall₂ (fun p q => ∀ s t, R s t → HRel h0 n0 R (p s) (q t)) phases phases' →
    ∀ {s : HState ι τ K} {t : σ} {c : K}, R s t →
      HRel h0 n0 (fun r r' => R r.1 r'.1 ∧ r.2 = r'.2)
        (hRunPhases evalCost require oldCost phases s c)
        (runPhases evalCost' require oldCost phases' t c)
  | _, _, .nil, s, t, c, hR => ⟨hR, rfl⟩
  | _, _, .cons hp hps, s, t, c, hR => by
    simp only [hRunPhases, runPhases]
    refine (hp s t hR).bind fun a b hab => ?_
    obtain ⟨h1, h2⟩ := he a b hab
    rw [← h2]
    split_ifs with hc
    · exact ⟨rfl, hk _ _ h1⟩
    · exact hRunPhases_rel hk he hps h1

theorem hIterateLoop_rel {evalCost : HState ι τ K → HState ι τ K × K} {evalCost' : σ → σ × K}
    (hk : ∀ s t, R s t → h0.Keeps s.heap n0)
    (he : ∀ s t, R s t → R (evalCost s).1 (evalCost' t).1 ∧ (evalCost s).2 = (evalCost' t).2)
    {require : Bool} {tol : K} {phases : List (HState ι τ K → HPy K (HState ι τ K))}
    {phases' : List (σ → Py σ)}
    (hp : List.Forall₂ (fun p q => ∀ s t, R s t → HRel h0 n0 R (p s) (q t)) phases phases') :
    ∀ {is : List ℕ} {s : HState ι τ K} {t : σ} {c : K} {last : Option ℕ} {tr : List K}, R s t →
      HRel h0 n0 (fun r r' => R r.state r'.state ∧ r.cost = r'.cost ∧ r.nIter = r'.nIter ∧
          r.trace = r'.trace)
        (hIterateLoop evalCost require tol phases is s c last tr)
        (iterateLoop evalCost' require tol phases' is t c last tr)
  | [], s, t, c, last, tr, hR => by
    cases last with
    | none => exact ⟨rfl, hk _ _ hR⟩
    | some n => exact ⟨hR, rfl, rfl, rfl⟩
  | i :: is, s, t, c, last, tr, hR => by
    simp only [hIterateLoop, iterateLoop]
    refine (hRunPhases_rel hk he hp hR).bind fun a b hab => ?_
    rw [← hab.2]
    split_ifs with hc
    · exact ⟨hab.1, rfl, rfl, rfl⟩
    · exact hIterateLoop_rel hk he hp hab.1

theorem hIterate_rel {evalCost : HState ι τ K → HState ι τ K × K} {evalCost' : σ → σ × K}
    (hk : ∀ s t, R s t → h0.Keeps s.heap n0)
    (he : ∀ s t, R s t → R (evalCost s).1 (evalCost' t).1 ∧ (evalCost s).2 = (evalCost' t).2)
    {require : Bool} {tol : K} {maxIter : ℕ}
    {phases : List (HState ι τ K → HPy K (HState ι τ K))} {phases' : List (σ → Py σ)}
    (hp : List.Forall₂ (fun p q => ∀ s t, R s t → HRel h0 n0 R (p s) (q t)) phases phases')
    {s : HState ι τ K} {t : σ} (hR : R s t) :
    HRel h0 n0 (fun r r' => R r.state r'.state ∧ r.cost = r'.cost ∧ r.nIter = r'.nIter ∧
          r.trace = r'.trace)
      (hIterate evalCost require tol maxIter phases s)
      (iterate evalCost' require tol maxIter phases' t) := by
  unfold hIterate iterate
  obtain ⟨h1, h2⟩ := he s t hR
  simp only [← h2]
  exact hIterateLoop_rel hk he hp h1

end Loops

end Reor
