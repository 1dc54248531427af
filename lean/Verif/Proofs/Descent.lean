import Verif.Model.Descent
import Mathlib.Data.List.Chain
import Mathlib.Tactic.Linarith

/-!
Lemmas on the outer loop, generic in the state and the updates.
-/

namespace Reor

set_option linter.unusedSectionVars false

variable {K : Type} [Field K] [LinearOrder K] [IsStrictOrderedRing K]
variable {σ : Type}

theorem runPhases_inv {evalCost : σ → σ × K} {require : Bool} {oldCost : K} {Inv : σ → Prop}
    (he : ∀ s, Inv s → Inv (evalCost s).1) :
    ∀ {phases : List (σ → Py σ)},
      (∀ p ∈ phases, ∀ s s', Inv s → p s = Py.ok s' → Inv s') →
    ∀ {s : σ} {c : K} {r : σ × K}, Inv s →
      runPhases evalCost require oldCost phases s c = Py.ok r → Inv r.1
  | [], _, s, c, r, hs, h => by
    simp only [runPhases, Py.ok.injEq] at h
    subst h; exact hs
  | p :: ps, hp, s, c, r, hs, h => by
    simp only [runPhases] at h
    obtain ⟨s', hs', h⟩ := Py.bind_eq_ok.1 h
    have h1 := hp p (by simp) s s' hs hs'
    split_ifs at h with hc
    exact runPhases_inv he (fun q hq => hp q (by simp [hq])) (he _ h1) h

theorem iterateLoop_inv {evalCost : σ → σ × K} {require : Bool} {tol : K} {Inv : σ → Prop}
    {phases : List (σ → Py σ)} (he : ∀ s, Inv s → Inv (evalCost s).1)
    (hp : ∀ p ∈ phases, ∀ s s', Inv s → p s = Py.ok s' → Inv s') :
    ∀ {is : List ℕ} {s : σ} {c : K} {last : Option ℕ} {tr : List K} {r : IterResult σ K}, Inv s →
      iterateLoop evalCost require tol phases is s c last tr = Py.ok r → Inv r.state
  | [], s, c, last, tr, r, hs, h => by
    cases last with
    | none => simp [iterateLoop] at h
    | some n => simp only [iterateLoop, Py.ok.injEq] at h; subst h; exact hs
  | i :: is, s, c, last, tr, r, hs, h => by
    simp only [iterateLoop] at h
    obtain ⟨q, hq, h⟩ := Py.bind_eq_ok.1 h
    have h1 := runPhases_inv he hp hs hq
    split_ifs at h with hc
    · simp only [Py.ok.injEq] at h; subst h; exact h1
    · exact iterateLoop_inv he hp h1 h

theorem iterate_inv {evalCost : σ → σ × K} {require : Bool} {tol : K} {maxIter : ℕ}
    {Inv : σ → Prop} {phases : List (σ → Py σ)} (he : ∀ s, Inv s → Inv (evalCost s).1)
    (hp : ∀ p ∈ phases, ∀ s s', Inv s → p s = Py.ok s' → Inv s') {s : σ} {r : IterResult σ K}
    (hs : Inv s) (h : iterate evalCost require tol maxIter phases s = Py.ok r) : Inv r.state :=
  iterateLoop_inv he hp (he _ hs) h

/-- The number reported is the cost of the state reached. -/
theorem runPhases_cost {evalCost : σ → σ × K} (hid : ∀ s, evalCost (evalCost s).1 = evalCost s)
    {require : Bool} {oldCost : K} :
    ∀ {phases : List (σ → Py σ)} {s : σ} {c : K} {r : σ × K}, evalCost s = (s, c) →
      runPhases evalCost require oldCost phases s c = Py.ok r → evalCost r.1 = r
  | [], s, c, r, hs, h => by
    simp only [runPhases, Py.ok.injEq] at h
    subst h; exact hs
  | p :: ps, s, c, r, hs, h => by
    simp only [runPhases] at h
    obtain ⟨s', hs', h⟩ := Py.bind_eq_ok.1 h
    split_ifs at h with hc
    exact runPhases_cost hid (by rw [hid]) h

theorem iterateLoop_cost {evalCost : σ → σ × K} (hid : ∀ s, evalCost (evalCost s).1 = evalCost s)
    {require : Bool} {tol : K} {phases : List (σ → Py σ)} :
    ∀ {is : List ℕ} {s : σ} {c : K} {last : Option ℕ} {tr : List K} {r : IterResult σ K},
      evalCost s = (s, c) →
      iterateLoop evalCost require tol phases is s c last tr = Py.ok r →
      evalCost r.state = (r.state, r.cost)
  | [], s, c, last, tr, r, hs, h => by
    cases last with
    | none => simp [iterateLoop] at h
    | some n => simp only [iterateLoop, Py.ok.injEq] at h; subst h; exact hs
  | i :: is, s, c, last, tr, r, hs, h => by
    simp only [iterateLoop] at h
    obtain ⟨q, hq, h⟩ := Py.bind_eq_ok.1 h
    have h1 := runPhases_cost hid hs hq
    split_ifs at h with hc
    · simp only [Py.ok.injEq] at h; subst h; exact h1
    · exact iterateLoop_cost hid h1 h

theorem iterate_cost {evalCost : σ → σ × K} (hid : ∀ s, evalCost (evalCost s).1 = evalCost s)
    {require : Bool} {tol : K} {maxIter : ℕ} {phases : List (σ → Py σ)} {s : σ}
    {r : IterResult σ K} (h : iterate evalCost require tol maxIter phases s = Py.ok r) :
    evalCost r.state = (r.state, r.cost) :=
  iterateLoop_cost hid (hid s) h

theorem runPhases_le {evalCost : σ → σ × K} {oldCost : K} :
    ∀ {phases : List (σ → Py σ)} {s : σ} {c : K} {r : σ × K}, c ≤ oldCost →
      runPhases evalCost true oldCost phases s c = Py.ok r → r.2 ≤ oldCost
  | [], s, c, r, hs, h => by
    simp only [runPhases, Py.ok.injEq] at h
    subst h; exact hs
  | p :: ps, s, c, r, hs, h => by
    simp only [runPhases] at h
    obtain ⟨s', hs', h⟩ := Py.bind_eq_ok.1 h
    split_ifs at h with hc
    have : (evalCost s').2 ≤ oldCost := by
      by_contra hlt
      exact hc ⟨by simpa using hlt, by trivial⟩
    exact runPhases_le this h

/-- The costs of the iterations form a non-increasing list that continues the earlier ones and ends
with the reported cost. -/
theorem iterateLoop_trace {evalCost : σ → σ × K} {tol : K} {phases : List (σ → Py σ)} :
    ∀ {is : List ℕ} {s : σ} {c : K} {last : Option ℕ} {tr : List K} {r : IterResult σ K},
      iterateLoop evalCost true tol phases is s c last tr = Py.ok r →
      ∃ l, r.trace = tr ++ l ∧ (c :: l).IsChain (· ≥ ·) ∧ r.cost = (c :: l).getLast (by simp)
  | [], s, c, last, tr, r, h => by
    cases last with
    | none => simp [iterateLoop] at h
    | some n =>
      simp only [iterateLoop, Py.ok.injEq] at h; subst h
      exact ⟨[], by simp, by simp, by simp⟩
  | i :: is, s, c, last, tr, r, h => by
    simp only [iterateLoop] at h
    obtain ⟨q, hq, h⟩ := Py.bind_eq_ok.1 h
    have h1 : q.2 ≤ c := runPhases_le le_rfl hq
    split_ifs at h with hc
    · simp only [Py.ok.injEq] at h; subst h
      exact ⟨[q.2], by simp, by simpa using h1, by simp⟩
    · obtain ⟨l, hl, hch, hlast⟩ := iterateLoop_trace h
      refine ⟨q.2 :: l, by simp [hl], ?_, by simpa using hlast⟩
      exact List.IsChain.cons_cons h1 hch

theorem isChain_ge_getLast {l : List K} {c : K} (h : (c :: l).IsChain (· ≥ ·)) :
    (c :: l).getLast (by simp) ≤ c := by
  induction l generalizing c with
  | nil => simp
  | cons a l ih =>
    rw [List.isChain_cons_cons] at h
    simpa using le_trans (ih h.2) h.1

theorem iterate_monotone {evalCost : σ → σ × K} {tol : K} {maxIter : ℕ}
    {phases : List (σ → Py σ)} {s : σ} {r : IterResult σ K}
    (h : iterate evalCost true tol maxIter phases s = Py.ok r) :
    ((evalCost s).2 :: r.trace).IsChain (· ≥ ·) ∧ r.cost ≤ (evalCost s).2 := by
  obtain ⟨l, hl, hch, hlast⟩ := iterateLoop_trace h
  have : r.trace = l := by simpa using hl
  rw [this]
  exact ⟨hch, hlast ▸ isChain_ge_getLast hch⟩

/-- The reported iteration index is one of the loop indices. -/
theorem iterateLoop_nIter {evalCost : σ → σ × K} {require : Bool} {tol : K}
    {phases : List (σ → Py σ)} :
    ∀ {is : List ℕ} {s : σ} {c : K} {last : Option ℕ} {tr : List K} {r : IterResult σ K},
      iterateLoop evalCost require tol phases is s c last tr = Py.ok r →
      r.nIter ∈ is ∨ last = some r.nIter
  | [], s, c, last, tr, r, h => by
    cases last with
    | none => simp [iterateLoop] at h
    | some n => simp only [iterateLoop, Py.ok.injEq] at h; subst h; simp
  | i :: is, s, c, last, tr, r, h => by
    simp only [iterateLoop] at h
    obtain ⟨q, hq, h⟩ := Py.bind_eq_ok.1 h
    split_ifs at h with hc
    · simp only [Py.ok.injEq] at h; subst h; simp
    · rcases iterateLoop_nIter h with h | h
      · simp [h]
      · simp at h; simp [h]

theorem iterate_nIter_lt {evalCost : σ → σ × K} {require : Bool} {tol : K} {maxIter : ℕ}
    {phases : List (σ → Py σ)} {s : σ} {r : IterResult σ K}
    (h : iterate evalCost require tol maxIter phases s = Py.ok r) : r.nIter < maxIter := by
  rcases iterateLoop_nIter h with h | h
  · simpa using h
  · simp at h

/-- One cost per iteration, and the index is that of the last iteration. -/
theorem iterateLoop_trace_length {evalCost : σ → σ × K} {require : Bool} {tol : K}
    {phases : List (σ → Py σ)} :
    ∀ {n a : ℕ} {s : σ} {c : K} {last : Option ℕ} {tr : List K} {r : IterResult σ K},
      tr.length = a → (∀ m, last = some m → m + 1 = a) →
      iterateLoop evalCost require tol phases (List.range' a n) s c last tr = Py.ok r →
      r.trace.length = r.nIter + 1
  | 0, a, s, c, last, tr, r, htr, hl, h => by
    cases last with
    | none => simp [iterateLoop] at h
    | some m =>
      simp only [List.range'_zero, iterateLoop, Py.ok.injEq] at h; subst h
      rw [htr, hl m rfl]
  | n + 1, a, s, c, last, tr, r, htr, hl, h => by
    rw [List.range'_succ] at h
    simp only [iterateLoop] at h
    obtain ⟨q, hq, h⟩ := Py.bind_eq_ok.1 h
    split_ifs at h with hc
    · simp only [Py.ok.injEq] at h; subst h; simp [htr]
    · exact iterateLoop_trace_length (a := a + 1) (by simp [htr]) (by simp) h

theorem iterate_trace_length {evalCost : σ → σ × K} {require : Bool} {tol : K} {maxIter : ℕ}
    {phases : List (σ → Py σ)} {s : σ} {r : IterResult σ K}
    (h : iterate evalCost require tol maxIter phases s = Py.ok r) :
    r.trace.length = r.nIter + 1 := by
  unfold iterate at h
  rw [List.range_eq_range'] at h
  exact iterateLoop_trace_length (a := 0) rfl (by simp) h

/-- If every update succeeds without raising the cost, so does the whole loop, whether or not
monotonicity is required. -/
theorem runPhases_ok {evalCost : σ → σ × K} (hid : ∀ s, evalCost (evalCost s).1 = evalCost s)
    {require : Bool} {oldCost : K} {Inv : σ → Prop} (he : ∀ s, Inv s → Inv (evalCost s).1) :
    ∀ {phases : List (σ → Py σ)},
      (∀ p ∈ phases, ∀ s, Inv s → ∃ s', p s = Py.ok s' ∧ Inv s' ∧
        (evalCost s').2 ≤ (evalCost s).2) →
    ∀ {s : σ} {c : K}, Inv s → evalCost s = (s, c) → c ≤ oldCost →
      ∃ r, runPhases evalCost require oldCost phases s c = Py.ok r ∧ Inv r.1 ∧ evalCost r.1 = r ∧
        r.2 ≤ c
  | [], _, s, c, hs, hc, hle => ⟨(s, c), rfl, hs, hc, le_rfl⟩
  | p :: ps, hp, s, c, hs, hc, hle => by
    obtain ⟨s', hs', hi, hlt⟩ := hp p (by simp) s hs
    have hcs : (evalCost s).2 = c := by rw [hc]
    have hlt' : (evalCost s').2 ≤ oldCost := by linarith
    obtain ⟨r, hr, hri, hrc, hrl⟩ := runPhases_ok hid (require := require) (oldCost := oldCost) he
      (phases := ps)
      (fun q hq => hp q (List.mem_cons_of_mem _ hq)) (he _ hi) (hid s') hlt'
    refine ⟨r, ?_, hri, hrc, by linarith⟩
    simp only [runPhases, hs', Py.ok_bind]
    rw [if_neg (by intro h; exact absurd h.1 (not_lt.2 hlt'))]
    exact hr

theorem iterateLoop_ok {evalCost : σ → σ × K} (hid : ∀ s, evalCost (evalCost s).1 = evalCost s)
    {require : Bool} {tol : K} {Inv : σ → Prop} (he : ∀ s, Inv s → Inv (evalCost s).1)
    {phases : List (σ → Py σ)}
    (hp : ∀ p ∈ phases, ∀ s, Inv s → ∃ s', p s = Py.ok s' ∧ Inv s' ∧
        (evalCost s').2 ≤ (evalCost s).2) :
    ∀ {is : List ℕ} {s : σ} {c : K} {last : Option ℕ} {tr : List K}, Inv s →
      evalCost s = (s, c) → (is ≠ [] ∨ last ≠ none) →
      ∃ r, iterateLoop evalCost require tol phases is s c last tr = Py.ok r ∧ r.cost ≤ c
  | [], s, c, last, tr, hs, hc, hne => by
    cases last with
    | none => simp at hne
    | some n => exact ⟨_, rfl, le_rfl⟩
  | i :: is, s, c, last, tr, hs, hc, hne => by
    obtain ⟨q, hq, hqi, hqc, hql⟩ := runPhases_ok hid (require := require) (oldCost := c) he hp hs hc
      le_rfl
    simp only [iterateLoop, hq, Py.ok_bind]
    split_ifs with h
    · exact ⟨_, rfl, hql⟩
    · obtain ⟨r, hr, hrl⟩ := iterateLoop_ok hid (require := require) (tol := tol) he hp (is := is)
        (last := some i) (tr := tr ++ [q.2]) hqi hqc (Or.inr (by simp))
      exact ⟨r, hr, le_trans hrl hql⟩

theorem iterate_ok {evalCost : σ → σ × K} (hid : ∀ s, evalCost (evalCost s).1 = evalCost s)
    {require : Bool} {tol : K} {maxIter : ℕ} {Inv : σ → Prop}
    (he : ∀ s, Inv s → Inv (evalCost s).1) {phases : List (σ → Py σ)}
    (hp : ∀ p ∈ phases, ∀ s, Inv s → ∃ s', p s = Py.ok s' ∧ Inv s' ∧
        (evalCost s').2 ≤ (evalCost s).2) {s : σ} (hs : Inv s) (hm : 0 < maxIter) :
    ∃ r, iterate evalCost require tol maxIter phases s = Py.ok r ∧ r.cost ≤ (evalCost s).2 := by
  refine iterateLoop_ok hid he hp (he _ hs) (hid s) (Or.inl ?_)
  simpa using hm.ne'

/-- Where the exceptions of the loop come from. -/
theorem runPhases_raise {evalCost : σ → σ × K} {require : Bool} {oldCost : K} {Inv : σ → Prop}
    (he : ∀ s, Inv s → Inv (evalCost s).1) {e : PyErr} :
    ∀ {phases : List (σ → Py σ)},
      (∀ p ∈ phases, ∀ s s', Inv s → p s = Py.ok s' → Inv s') →
    ∀ {s : σ} {c : K}, Inv s →
      runPhases evalCost require oldCost phases s c = Py.raise e →
      (∃ p ∈ phases, ∃ s, Inv s ∧ p s = Py.raise e) ∨ (e = .runtimeError ∧ require = true)
  | [], _, s, c, hs, h => by simp [runPhases] at h
  | p :: ps, hp, s, c, hs, h => by
    simp only [runPhases] at h
    rcases Py.bind_eq_raise.1 h with h | ⟨s', hs', h⟩
    · exact Or.inl ⟨p, by simp, s, hs, h⟩
    · have h1 := hp p (by simp) s s' hs hs'
      split_ifs at h with hc
      · simp at h; exact Or.inr ⟨h.symm, hc.2⟩
      · rcases runPhases_raise he (fun q hq => hp q (by simp [hq])) (he _ h1) h with
          ⟨q, hq, h⟩ | h
        · exact Or.inl ⟨q, by simp [hq], h⟩
        · exact Or.inr h

theorem iterateLoop_raise {evalCost : σ → σ × K} {require : Bool} {tol : K} {Inv : σ → Prop}
    (he : ∀ s, Inv s → Inv (evalCost s).1) {e : PyErr} {phases : List (σ → Py σ)}
    (hp : ∀ p ∈ phases, ∀ s s', Inv s → p s = Py.ok s' → Inv s') :
    ∀ {is : List ℕ} {s : σ} {c : K} {last : Option ℕ} {tr : List K}, Inv s →
      iterateLoop evalCost require tol phases is s c last tr = Py.raise e →
      (∃ p ∈ phases, ∃ s, Inv s ∧ p s = Py.raise e) ∨ (e = .runtimeError ∧ require = true) ∨
        (is = [] ∧ last = none)
  | [], s, c, last, tr, hs, h => by
    cases last with
    | none => simp
    | some n => simp [iterateLoop] at h
  | i :: is, s, c, last, tr, hs, h => by
    simp only [iterateLoop] at h
    rcases Py.bind_eq_raise.1 h with h | ⟨q, hq, h⟩
    · rcases runPhases_raise he hp hs h with h | h
      · exact Or.inl h
      · exact Or.inr (Or.inl h)
    · split_ifs at h with hc
      rcases iterateLoop_raise he hp (runPhases_inv he hp hs hq) h with h | h | h
      · exact Or.inl h
      · exact Or.inr (Or.inl h)
      · simp at h

theorem iterate_raise {evalCost : σ → σ × K} {require : Bool} {tol : K} {maxIter : ℕ}
    {Inv : σ → Prop} (he : ∀ s, Inv s → Inv (evalCost s).1) {e : PyErr}
    {phases : List (σ → Py σ)} (hp : ∀ p ∈ phases, ∀ s s', Inv s → p s = Py.ok s' → Inv s')
    {s : σ} (hs : Inv s) (hm : 0 < maxIter)
    (h : iterate evalCost require tol maxIter phases s = Py.raise e) :
    (∃ p ∈ phases, ∃ s, Inv s ∧ p s = Py.raise e) ∨ (e = .runtimeError ∧ require = true) := by
  rcases iterateLoop_raise he hp (he _ hs) h with h | h | h
  · exact Or.inl h
  · exact Or.inr h
  · have := h.1
    simp at this
    omega

/-- The loop diverges only if an update does. -/
theorem runPhases_diverge {evalCost : σ → σ × K} {require : Bool} {oldCost : K} {Inv : σ → Prop}
    (he : ∀ s, Inv s → Inv (evalCost s).1) :
    ∀ {phases : List (σ → Py σ)},
      (∀ p ∈ phases, ∀ s s', Inv s → p s = Py.ok s' → Inv s') →
    ∀ {s : σ} {c : K}, Inv s →
      runPhases evalCost require oldCost phases s c = Py.diverge →
      ∃ p ∈ phases, ∃ s, Inv s ∧ p s = Py.diverge
  | [], _, s, c, hs, h => by simp [runPhases] at h
  | p :: ps, hp, s, c, hs, h => by
    simp only [runPhases] at h
    rcases Py.bind_eq_diverge.1 h with h | ⟨s', hs', h⟩
    · exact ⟨p, by simp, s, hs, h⟩
    · have h1 := hp p (by simp) s s' hs hs'
      split_ifs at h with hc
      obtain ⟨q, hq, h⟩ := runPhases_diverge he (fun q hq => hp q (by simp [hq])) (he _ h1) h
      exact ⟨q, by simp [hq], h⟩

theorem iterateLoop_diverge {evalCost : σ → σ × K} {require : Bool} {tol : K} {Inv : σ → Prop}
    (he : ∀ s, Inv s → Inv (evalCost s).1) {phases : List (σ → Py σ)}
    (hp : ∀ p ∈ phases, ∀ s s', Inv s → p s = Py.ok s' → Inv s') :
    ∀ {is : List ℕ} {s : σ} {c : K} {last : Option ℕ} {tr : List K}, Inv s →
      iterateLoop evalCost require tol phases is s c last tr = Py.diverge →
      ∃ p ∈ phases, ∃ s, Inv s ∧ p s = Py.diverge
  | [], s, c, last, tr, hs, h => by cases last <;> simp [iterateLoop] at h
  | i :: is, s, c, last, tr, hs, h => by
    simp only [iterateLoop] at h
    rcases Py.bind_eq_diverge.1 h with h | ⟨q, hq, h⟩
    · exact runPhases_diverge he hp hs h
    · split_ifs at h with hc
      exact iterateLoop_diverge he hp (runPhases_inv he hp hs hq) h

theorem iterate_diverge {evalCost : σ → σ × K} {require : Bool} {tol : K} {maxIter : ℕ}
    {Inv : σ → Prop} (he : ∀ s, Inv s → Inv (evalCost s).1)
    {phases : List (σ → Py σ)} (hp : ∀ p ∈ phases, ∀ s s', Inv s → p s = Py.ok s' → Inv s')
    {s : σ} (hs : Inv s) (h : iterate evalCost require tol maxIter phases s = Py.diverge) :
    ∃ p ∈ phases, ∃ s, Inv s ∧ p s = Py.diverge :=
  iterateLoop_diverge he hp (he _ hs) h

end Reor
