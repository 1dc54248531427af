import Verif.Proofs.LineSearch
import Verif.Proofs.Descent

/-!
Running two line searches, or two outer loops, side by side.
-/

namespace Reor

set_option linter.unusedSectionVars false

variable {K : Type} [Field K] [LinearOrder K] [IsStrictOrderedRing K]
variable {σ τ α β γ δ' : Type}

/-- Equal outcomes, up to a relation between the values. -/
def PyRel (P : α → β → Prop) : Py α → Py β → Prop
  | .ok a, .ok b => P a b
  | .raise e, .raise e' => e = e'
  | .diverge, .diverge => True
  | _, _ => False

theorem PyRel.bind {P : α → β → Prop} {Q : γ → δ' → Prop} {x : Py α} {y : Py β} {f : α → Py γ}
    {g : β → Py δ'} (h : PyRel P x y) (hfg : ∀ a b, P a b → PyRel Q (f a) (g b)) :
    PyRel Q (x >>= f) (y >>= g) := by
  cases x <;> cases y <;> simp only [PyRel, Py.ok_bind, Py.raise_bind, Py.diverge_bind] at h ⊢
  · exact hfg _ _ h
  · exact h

theorem PyRel.ok {P : α → β → Prop} {a : α} {b : β} (h : P a b) : PyRel P (Py.ok a) (Py.ok b) := h

theorem PyRel.bind_same {Q : γ → δ' → Prop} {x : Py α} {f : α → Py γ} {g : α → Py δ'}
    (h : ∀ a, PyRel Q (f a) (g a)) : PyRel Q (x >>= f) (x >>= g) := by
  cases x
  · exact h _
  · exact rfl
  · exact trivial

theorem Py.bind_assoc {x : Py α} {f : α → Py β} {g : β → Py γ} :
    (x >>= f) >>= g = x >>= fun a => f a >>= g := by
  cases x <;> rfl

theorem PyRel.mono {P Q : α → β → Prop} {x : Py α} {y : Py β} (h : PyRel P x y)
    (hPQ : ∀ a b, P a b → Q a b) : PyRel Q x y := by
  cases x <;> cases y <;> simp only [PyRel] at h ⊢
  · exact hPQ _ _ h
  · exact h

theorem PyRel.trans_eq {P : α → β → Prop} {x : Py α} {y : Py β} {f : α → γ} {g : β → γ}
    (h : PyRel P x y) (hfg : ∀ a b, P a b → f a = g b) :
    (x >>= fun a => Py.ok (f a)) = (y >>= fun b => Py.ok (g b)) := by
  cases x <;> cases y <;> simp only [PyRel] at h ⊢
  · simp [hfg _ _ h]
  · simp [h]
  · simp

theorem backtrack_rel_le {cfg : LSConfig K} {trial : σ → K → σ × K} {trial' : τ → K → τ × K}
    {R : σ → τ → Prop}
    (ht : ∀ s t a, R s t → R (trial s a).1 (trial' t a).1 ∧ (trial s a).2 = (trial' t a).2)
    {fMax δ f0 step : K} {s : σ} {t : τ} (hR : R s t) {c : K} {n : ℕ} {r : K × σ × K × ℕ}
    (h : backtrack cfg trial fMax δ f0 step s c n = some r) :
    ∃ t', backtrack cfg trial' fMax δ f0 step t c n = some (r.1, t', r.2.2) ∧ R r.2.1 t' := by
  have key := backtrack.partial_correctness cfg trial fMax δ f0
    (motive := fun step s c n r => ∀ t, R s t → ∃ t',
      backtrack cfg trial' fMax δ f0 step t c n = some (r.1, t', r.2.2) ∧ R r.2.1 t')
    (by
      intro bt ih step s c n r hr t hR
      simp only at hr
      rw [backtrack_unfold]
      by_cases hc : c > fMax + cfg.gamma * δ * step
      · rw [if_pos hc] at hr ⊢
        simp only
        obtain ⟨h1, h2⟩ := ht s t
          (nextSpgStepLength step δ f0 c cfg.sigmaOne cfg.sigmaTwo) hR
        split_ifs at hr ⊢ with htol
        · simp only [Option.some.injEq] at hr
          subst hr
          exact ⟨_, by rw [h2], h1⟩
        · rw [← h2]
          exact ih _ _ _ _ r hr _ h1
      · rw [if_neg hc] at hr ⊢
        simp only [Option.some.injEq] at hr
        subst hr
        exact ⟨t, rfl, hR⟩)
    step s c n r h
  exact key t hR

theorem backtrack_rel {cfg : LSConfig K} {trial : σ → K → σ × K} {trial' : τ → K → τ × K}
    {R : σ → τ → Prop}
    (ht : ∀ s t a, R s t → R (trial s a).1 (trial' t a).1 ∧ (trial s a).2 = (trial' t a).2)
    {fMax δ f0 step : K} {s : σ} {t : τ} (hR : R s t) {c : K} {n : ℕ} :
    (backtrack cfg trial fMax δ f0 step s c n = none ∧
      backtrack cfg trial' fMax δ f0 step t c n = none) ∨
    ∃ r t', backtrack cfg trial fMax δ f0 step s c n = some r ∧
      backtrack cfg trial' fMax δ f0 step t c n = some (r.1, t', r.2.2) ∧ R r.2.1 t' := by
  cases h : backtrack cfg trial fMax δ f0 step s c n with
  | some r =>
    obtain ⟨t', h1, h2⟩ := backtrack_rel_le ht hR h
    exact Or.inr ⟨r, t', rfl, h1, h2⟩
  | none =>
    cases h' : backtrack cfg trial' fMax δ f0 step t c n with
    | none => exact Or.inl ⟨rfl, rfl⟩
    | some r =>
      obtain ⟨t', h1, h2⟩ := backtrack_rel_le (R := fun a b => R b a) (trial := trial')
        (trial' := trial) (fun s t a hs => ⟨(ht t s a hs).1, (ht t s a hs).2.symm⟩) hR h'
      rw [h] at h1
      simp at h1

/-- Two line searches whose trials correspond have corresponding outcomes. -/
theorem lineSearch_rel {cfg : LSConfig K} {trial : σ → K → σ × K} {trial' : τ → K → τ × K}
    {R : σ → τ → Prop}
    (ht : ∀ s t a, R s t → R (trial s a).1 (trial' t a).1 ∧ (trial s a).2 = (trial' t a).2)
    {mem : List K} {s : σ} {t : τ} (hR : R s t) {f0 δ : K} :
    PyRel (fun r r' => R r.state r'.state ∧ r.mem = r'.mem ∧ r.stepSize = r'.stepSize ∧
        r.mem.length = mem.length)
      (lineSearch cfg trial mem s f0 δ) (lineSearch cfg trial' mem t f0 δ) := by
  unfold lineSearch
  cases mem with
  | nil => simp [PyRel]
  | cons a rest =>
    obtain ⟨M, hM, -, -⟩ := foldMax_spec (rest ++ [f0]) (by simp)
    simp only [hM]
    obtain ⟨h1, h2⟩ := ht s t 1 hR
    rw [← h2]
    rcases backtrack_rel ht h1 (cfg := cfg) (fMax := M) (δ := δ) (f0 := f0) (step := 1)
      (c := (trial s 1).2) (n := 0) with ⟨e1, e2⟩ | ⟨r, t', e1, e2, h3⟩
    · rw [e1, e2]; simp [PyRel]
    · rw [e1, e2]
      simp only [PyRel]
      exact ⟨h3, trivial, trivial, by simp⟩

theorem runPhases_rel {evalCost : σ → σ × K} {evalCost' : τ → τ × K} {R : σ → τ → Prop}
    (he : ∀ s t, R s t → R (evalCost s).1 (evalCost' t).1 ∧ (evalCost s).2 = (evalCost' t).2)
    {require : Bool} {oldCost : K} :
    ∀ {phases : List (σ → Py σ)} {phases' : List (τ → Py τ)},
      List.Forall₂ (fun p q => ∀ s t, R s t → PyRel R (p s) (q t)) phases phases' →
    ∀ {s : σ} {t : τ} {c : K}, R s t →
      PyRel (fun r r' => R r.1 r'.1 ∧ r.2 = r'.2) (runPhases evalCost require oldCost phases s c)
        (runPhases evalCost' require oldCost phases' t c)
  | _, _, .nil, s, t, c, hR => by simpa [runPhases, PyRel] using hR
  | _, _, .cons hp hps, s, t, c, hR => by
    simp only [runPhases]
    refine (hp s t hR).bind fun a b hab => ?_
    obtain ⟨h1, h2⟩ := he a b hab
    rw [← h2]
    split_ifs with hc
    · simp [PyRel]
    · exact runPhases_rel he hps h1

theorem iterateLoop_rel {evalCost : σ → σ × K} {evalCost' : τ → τ × K} {R : σ → τ → Prop}
    (he : ∀ s t, R s t → R (evalCost s).1 (evalCost' t).1 ∧ (evalCost s).2 = (evalCost' t).2)
    {require : Bool} {tol : K} {phases : List (σ → Py σ)} {phases' : List (τ → Py τ)}
    (hp : List.Forall₂ (fun p q => ∀ s t, R s t → PyRel R (p s) (q t)) phases phases') :
    ∀ {is : List ℕ} {s : σ} {t : τ} {c : K} {last : Option ℕ} {tr : List K}, R s t →
      PyRel (fun r r' => R r.state r'.state ∧ r.cost = r'.cost ∧ r.nIter = r'.nIter ∧
          r.trace = r'.trace)
        (iterateLoop evalCost require tol phases is s c last tr)
        (iterateLoop evalCost' require tol phases' is t c last tr)
  | [], s, t, c, last, tr, hR => by
    cases last <;> simp [iterateLoop, PyRel, hR]
  | i :: is, s, t, c, last, tr, hR => by
    simp only [iterateLoop]
    refine (runPhases_rel he hp hR).bind fun a b hab => ?_
    rw [← hab.2]
    split_ifs with hc
    · simpa [PyRel] using hab.1
    · exact iterateLoop_rel he hp hab.1

/-- Two outer loops whose updates correspond have corresponding outcomes. -/
theorem iterate_rel {evalCost : σ → σ × K} {evalCost' : τ → τ × K} {R : σ → τ → Prop}
    (he : ∀ s t, R s t → R (evalCost s).1 (evalCost' t).1 ∧ (evalCost s).2 = (evalCost' t).2)
    {require : Bool} {tol : K} {maxIter : ℕ} {phases : List (σ → Py σ)}
    {phases' : List (τ → Py τ)}
    (hp : List.Forall₂ (fun p q => ∀ s t, R s t → PyRel R (p s) (q t)) phases phases')
    {s : σ} {t : τ} (hR : R s t) :
    PyRel (fun r r' => R r.state r'.state ∧ r.cost = r'.cost ∧ r.nIter = r'.nIter ∧
          r.trace = r'.trace)
      (iterate evalCost require tol maxIter phases s)
      (iterate evalCost' require tol maxIter phases' t) := by
  unfold iterate
  obtain ⟨h1, h2⟩ := he s t hR
  simp only [← h2]
  exact iterateLoop_rel he hp h1

/-- Equal outcomes, up to a relation between the values, unless the first one runs forever. -/
def PyLe (P : α → β → Prop) (x : Py α) (y : Py β) : Prop := x = Py.diverge ∨ PyRel P x y

theorem PyLe.bind {P : α → β → Prop} {Q : γ → δ' → Prop} {x : Py α} {y : Py β} {f : α → Py γ}
    {g : β → Py δ'} (h : PyLe P x y) (hfg : ∀ a b, P a b → PyLe Q (f a) (g b)) :
    PyLe Q (x >>= f) (y >>= g) := by
  rcases h with h | h
  · subst h
    exact Or.inl rfl
  · cases x <;> cases y <;> simp only [PyRel] at h
    · exact hfg _ _ h
    · exact Or.inr h
    · exact Or.inl rfl

theorem runPhases_relLe {evalCost : σ → σ × K} {evalCost' : τ → τ × K} {R : σ → τ → Prop}
    (he : ∀ s t, R s t → R (evalCost s).1 (evalCost' t).1 ∧ (evalCost s).2 = (evalCost' t).2)
    {require : Bool} {oldCost : K} :
    ∀ {phases : List (σ → Py σ)} {phases' : List (τ → Py τ)},
      List.Forall₂ (fun p q => ∀ s t, R s t → PyLe R (p s) (q t)) phases phases' →
    ∀ {s : σ} {t : τ} {c : K}, R s t →
      PyLe (fun r r' => R r.1 r'.1 ∧ r.2 = r'.2) (runPhases evalCost require oldCost phases s c)
        (runPhases evalCost' require oldCost phases' t c)
  | _, _, .nil, s, t, c, hR => Or.inr (by simpa [runPhases, PyRel] using hR)
  | _, _, .cons hp hps, s, t, c, hR => by
    simp only [runPhases]
    refine (hp s t hR).bind fun a b hab => ?_
    obtain ⟨h1, h2⟩ := he a b hab
    rw [← h2]
    split_ifs with hc
    · exact Or.inr (by simp [PyRel])
    · exact runPhases_relLe he hps h1

theorem iterateLoop_le {evalCost : σ → σ × K} {evalCost' : τ → τ × K} {R : σ → τ → Prop}
    (he : ∀ s t, R s t → R (evalCost s).1 (evalCost' t).1 ∧ (evalCost s).2 = (evalCost' t).2)
    {require : Bool} {tol : K} {phases : List (σ → Py σ)} {phases' : List (τ → Py τ)}
    (hp : List.Forall₂ (fun p q => ∀ s t, R s t → PyLe R (p s) (q t)) phases phases') :
    ∀ {is : List ℕ} {s : σ} {t : τ} {c : K} {last : Option ℕ} {tr : List K}, R s t →
      PyLe (fun r r' => R r.state r'.state ∧ r.cost = r'.cost ∧ r.nIter = r'.nIter ∧
          r.trace = r'.trace)
        (iterateLoop evalCost require tol phases is s c last tr)
        (iterateLoop evalCost' require tol phases' is t c last tr)
  | [], s, t, c, last, tr, hR => by
    cases last <;> exact Or.inr (by simp [iterateLoop, PyRel, hR])
  | i :: is, s, t, c, last, tr, hR => by
    simp only [iterateLoop]
    refine (runPhases_relLe he hp hR).bind fun a b hab => ?_
    rw [← hab.2]
    split_ifs with hc
    · exact Or.inr (by simpa [PyRel] using hab.1)
    · exact iterateLoop_le he hp hab.1

/-- Two outer loops whose updates correspond have corresponding outcomes, unless the first one runs
forever. -/
theorem iterate_le {evalCost : σ → σ × K} {evalCost' : τ → τ × K} {R : σ → τ → Prop}
    (he : ∀ s t, R s t → R (evalCost s).1 (evalCost' t).1 ∧ (evalCost s).2 = (evalCost' t).2)
    {require : Bool} {tol : K} {maxIter : ℕ} {phases : List (σ → Py σ)}
    {phases' : List (τ → Py τ)}
    (hp : List.Forall₂ (fun p q => ∀ s t, R s t → PyLe R (p s) (q t)) phases phases')
    {s : σ} {t : τ} (hR : R s t) :
    PyLe (fun r r' => R r.state r'.state ∧ r.cost = r'.cost ∧ r.nIter = r'.nIter ∧
          r.trace = r'.trace)
      (iterate evalCost require tol maxIter phases s)
      (iterate evalCost' require tol maxIter phases' t) := by
  unfold iterate
  obtain ⟨h1, h2⟩ := he s t hR
  simp only [← h2]
  exact iterateLoop_le he hp h1

/-- A line search along a quadratic with a sufficiently negative slope succeeds without a step floor
and does not increase the cost. -/
theorem lineSearch_quadratic [Archimedean K] {cfg : LSConfig K} {trial : σ → K → σ × K}
    (h1 : 0 < cfg.sigmaOne) (h2 : cfg.sigmaTwo < 1) (hg0 : 0 ≤ cfg.gamma) (hg1 : cfg.gamma < 1)
    (ht : cfg.stepSizeTolerance = 0) (hre : Retriable trial) {m0 : K} {s : σ} {f0 δ q N alpha : K}
    (hquad : ∀ lam, (trial s lam).2 = f0 + lam * δ + lam ^ 2 * q) (ha : 0 < alpha)
    (hδ : N + alpha * δ ≤ 0) (hN : 0 ≤ N) (hq : N = 0 → q = 0) :
    ∃ r, lineSearch cfg trial [m0] s f0 δ = Py.ok r ∧ r.cost ≤ f0 := by
  obtain ⟨L, hL, hqL⟩ : ∃ L, 0 ≤ L ∧ q ≤ L * N := by
    rcases hN.eq_or_lt with h | h
    · exact ⟨0, le_rfl, by rw [hq h.symm]; simp⟩
    · exact ⟨|q| / N, by positivity, by rw [div_mul_cancel₀ _ h.ne']; exact le_abs_self q⟩
  obtain ⟨l, hl, hlA⟩ := exists_lstar hg1 (mul_nonneg ha.le hL)
  obtain ⟨M, hM⟩ := exists_pow_shrink_le h2 hl
  have harm : ∀ lam, 0 < lam → lam ≤ 1 → lam ≤ l →
      (trial s lam).2 ≤ f0 + cfg.gamma * δ * lam := by
    intro lam h0 _ hl'
    rw [hquad]
    exact armijo_of_quadratic hqL hL ha hδ hN h0.le
      ((mul_le_mul_of_nonneg_right hl' (mul_nonneg ha.le hL)).trans hlA)
  obtain ⟨r, hr⟩ := lineSearch_terminates_armijo' h1 h2 hre (mem := [m0]) (by simp) harm M hM
  refine ⟨r, hr, ?_⟩
  have hd := lineSearch_descends' h1 h2 hre harm (by rw [ht]; exact h1.le)
    (by rw [ht]; linarith) hr
  obtain ⟨hp, -⟩ := lineSearch_spec hre hr
  have hneg := slope_nonpos ha hδ hN
  have : cfg.gamma * δ * r.stepSize ≤ 0 :=
    mul_nonpos_of_nonpos_of_nonneg (mul_nonpos_of_nonneg_of_nonpos hg0 hneg) (hp.pos_sigma h1).le
  linarith

end Reor
