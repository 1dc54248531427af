import Verif.Proofs.GPNHFit
import Verif.Proofs.FEMRun

/-!
Lemmas on when the outer loops stop.
-/

namespace Reor

set_option linter.unusedSectionVars false

open Spec

variable {K : Type} [Field K] [LinearOrder K] [IsStrictOrderedRing K]

theorem stopsBy_one {tol c x : K} {m : ℕ} (hm : 1 ≤ m) (h : 1 < m → |x - c| < tol) :
    StopsBy tol m c [x] :=
  ⟨[], c, x, rfl, by simp, by simpa using hm, by simpa using h⟩

theorem stopsBy_cons {tol c x : K} {m : ℕ} {l : List K} (h0 : ¬ |x - c| < tol)
    (h : StopsBy tol m x l) : StopsBy tol (m + 1) c (x :: l) := by
  obtain ⟨e, prev, last, he, hch, hlen, hfin⟩ := h
  refine ⟨c :: e, prev, last, by rw [he]; rfl, ?_, by simpa using hlen, by simpa using hfin⟩
  cases e with
  | nil =>
    have : prev = x := by simpa using (List.cons.inj he).1.symm
    subst this
    simpa using not_lt.1 h0
  | cons a e =>
    have : a = x := (List.cons.inj he).1.symm
    subst this
    exact List.IsChain.cons_cons (not_lt.1 h0) hch

/-- With monotone costs, a run makes few iterations. -/
theorem chain_sum_le {tol : K} : ∀ {l : List K} {c : K},
    (c :: l).IsChain (fun a b => tol ≤ |b - a|) → (c :: l).IsChain (· ≥ ·) →
    l.length * tol ≤ c - (c :: l).getLast (by simp)
  | [], c, _, _ => by simp
  | x :: l, c, h1, h2 => by
    rw [List.isChain_cons_cons] at h1 h2
    have ih := chain_sum_le h1.2 h2.2
    have h3 : tol ≤ c - x := by
      have h4 := h1.1
      rw [abs_of_nonpos (by linarith [h2.1])] at h4
      linarith
    simp only [List.length_cons, Nat.cast_add, Nat.cast_one, List.getLast_cons_cons]
    linarith

theorem StopsBy.length_le {tol start : K} {m : ℕ} {costs : List K} (h : StopsBy tol m start costs)
    (hmono : (start :: costs).IsChain (· ≥ ·)) {c : K} (hc : costs.getLast? = some c) :
    (costs.length - 1 : ℕ) * tol ≤ start - c := by
  obtain ⟨e, prev, last, he, hch, -, -⟩ := h
  have hlast : last = c := by
    have h1 : (start :: costs).getLast? = some last := by rw [he]; simp
    rw [List.getLast?_cons, hc] at h1
    simpa using h1.symm
  have hlen : costs.length = e.length + 1 := by
    have := congrArg List.length he
    simp at this
    omega
  have hmono' : (e ++ [prev]).IsChain (· ≥ ·) := by
    rw [he] at hmono
    rw [show e ++ [prev, last] = (e ++ [prev]) ++ [last] by simp] at hmono
    exact hmono.left_of_append
  have hpl : last ≤ prev := by
    rw [he] at hmono
    have := hmono.right_of_append
    simpa using this
  rw [← hlast]
  rw [hlen, Nat.add_sub_cancel]
  cases e with
  | nil =>
    have : start = prev := by simpa using (List.cons.inj he).1
    subst this
    simp
    linarith
  | cons a e =>
    have : start = a := (List.cons.inj he).1
    subst this
    have := chain_sum_le (l := e ++ [prev]) hch hmono'
    simp only [List.length_append, List.length_cons, List.length_nil] at this
    rw [List.getLast_cons (by simp), List.getLast_append_singleton] at this
    simp only [List.length_cons]
    linarith

theorem StopsBy.length_of_zero {start : K} {m : ℕ} {costs : List K} (h : StopsBy 0 m start costs) :
    costs.length = m := by
  obtain ⟨e, prev, last, -, -, hlen, hfin⟩ := h
  by_contra hne
  exact absurd (hfin (by omega)) (not_lt.2 (abs_nonneg _))

/-! ### The loop of the factorizations -/

section Loop

variable {σ : Type} {evalCost : σ → σ × K} {require : Bool} {tol : K} {phases : List (σ → Py σ)}

theorem iterateLoop_stops : ∀ {is : List ℕ} {s : σ} {c : K} {last : Option ℕ} {tr : List K}
    {r : IterResult σ K}, is ≠ [] →
    iterateLoop evalCost require tol phases is s c last tr = Py.ok r →
    ∃ costs, r.trace = tr ++ costs ∧ StopsBy tol is.length c costs ∧ costs.getLast? = some r.cost
  | [], _, _, _, _, _, h, _ => absurd rfl h
  | i :: is, s, c, last, tr, r, _, h => by
    simp only [iterateLoop] at h
    obtain ⟨q, hq, h⟩ := Py.bind_eq_ok.1 h
    split_ifs at h with hc
    · obtain rfl := Py.ok.inj h
      exact ⟨[q.2], rfl, stopsBy_one (by simp) fun _ => hc, rfl⟩
    · cases is with
      | nil =>
        simp only [iterateLoop, Py.ok.injEq] at h
        subst h
        exact ⟨[q.2], rfl, stopsBy_one (by simp) (by simp), rfl⟩
      | cons j is =>
        obtain ⟨costs, h1, h2, h3⟩ := iterateLoop_stops (by simp) h
        refine ⟨q.2 :: costs, by simp [h1], stopsBy_cons hc h2, ?_⟩
        rw [List.getLast?_cons, h3]
        rfl

theorem iterate_stops {maxIter : ℕ} (hm : 0 < maxIter) {s : σ} {r : IterResult σ K}
    (h : iterate evalCost require tol maxIter phases s = Py.ok r) :
    StopsBy tol maxIter (evalCost s).2 r.trace ∧ r.trace.getLast? = some r.cost := by
  obtain ⟨costs, h1, h2, h3⟩ := iterateLoop_stops (by simpa using hm.ne') h
  rw [List.nil_append] at h1
  rw [h1]
  exact ⟨by simpa using h2, h3⟩

/-- Fewer iterations give the beginning of the same run, and the same run if it is long enough. -/
theorem iterateLoop_prefix {js : List ℕ} : ∀ {is : List ℕ} {s : σ} {c : K} {last : Option ℕ}
    {tr : List K} {r' : IterResult σ K}, (is ≠ [] ∨ last ≠ none) →
    iterateLoop evalCost require tol phases (is ++ js) s c last tr = Py.ok r' →
    ∃ r, iterateLoop evalCost require tol phases is s c last tr = Py.ok r ∧ r.trace = r'.trace.take (tr.length + is.length) ∧
      (r'.trace.length ≤ tr.length + is.length → r = r')
  | [], s, c, last, tr, r', hne, h => by
    cases last with
    | none => simp at hne
    | some n =>
      cases js with
      | nil =>
        simp only [List.append_nil, iterateLoop, Py.ok.injEq] at h
        subst h
        exact ⟨_, rfl, by simp, fun _ => rfl⟩
      | cons j js =>
        obtain ⟨costs, h1, -, h3⟩ := iterateLoop_stops (by simp) h
        refine ⟨⟨s, c, n, tr⟩, rfl, by simp [h1], fun hlen => ?_⟩
        rw [h1, List.length_append, List.length_nil] at hlen
        have : costs = [] := List.length_eq_zero_iff.1 (by omega)
        simp [this] at h3
  | i :: is, s, c, last, tr, r', _, h => by
    simp only [List.cons_append, iterateLoop] at h ⊢
    obtain ⟨q, hq, h⟩ := Py.bind_eq_ok.1 h
    rw [hq, Py.ok_bind]
    split_ifs at h ⊢ with hc
    · obtain rfl := Py.ok.inj h
      exact ⟨_, rfl, by simp [List.take_append], fun _ => rfl⟩
    · obtain ⟨r, h1, h2, h3⟩ := iterateLoop_prefix (Or.inr (by simp)) h
      have he : (tr ++ [q.2]).length + is.length = tr.length + (i :: is).length := by
        simp only [List.length_append, List.length_cons, List.length_nil]
        omega
      rw [he] at h2 h3
      exact ⟨r, h1, h2, h3⟩

theorem range_append_range' {m m' : ℕ} (h : m ≤ m') :
    List.range m' = List.range m ++ List.range' m (m' - m) := by
  obtain ⟨d, rfl⟩ := Nat.exists_eq_add_of_le h
  rw [List.range_eq_range', List.range_eq_range', Nat.add_sub_cancel_left]
  have := List.range'_append (s := 0) (m := m) (n := d) (step := 1)
  simpa using this.symm

theorem iterate_prefix {m m' : ℕ} (hm : 0 < m) (hle : m ≤ m') {s : σ} {r' : IterResult σ K}
    (h : iterate evalCost require tol m' phases s = Py.ok r') :
    ∃ r, iterate evalCost require tol m phases s = Py.ok r ∧ r.trace = r'.trace.take m ∧
      (r'.trace.length ≤ m → r = r') := by
  unfold iterate at h ⊢
  rw [range_append_range' hle] at h
  obtain ⟨r, h1, h2, h3⟩ := iterateLoop_prefix (Or.inl (by simpa using hm.ne')) h
  exact ⟨r, h1, by simpa using h2, by simpa using h3⟩

end Loop

/-! ### The loop of FEM-BV -/

section FEM

variable {P : Type} {T k e : ℕ} {comp : FEMComp P T k K} {solver : LPSolver K}
  {con : Option (FEMConstraints (k * T + e) K)} {require : Bool} {tol : K} {up uw : Bool}

theorem femLoop_stops : ∀ {is : List ℕ} {s : FEMState P T k K} {c : K} {last : Option ℕ}
    {tr : List K} {fl : ℕ} {r : FEMResult P T k K}, is ≠ [] →
    femLoop comp solver con require tol up uw is s c last tr fl = Py.ok r →
    ∃ costs, r.trace = tr ++ costs ∧ StopsBy tol is.length c costs ∧ costs.getLast? = some r.cost
  | [], _, _, _, _, _, _, h, _ => absurd rfl h
  | i :: is, s, c, last, tr, fl, r, _, h => by
    rw [femLoop_cons] at h
    obtain ⟨q, hq, h⟩ := Py.bind_eq_ok.1 h
    by_cases hc : |q.1.2 - c| < tol
    · rw [if_pos hc] at h
      obtain rfl := Py.ok.inj h
      exact ⟨[q.1.2], rfl, stopsBy_one (by simp) fun _ => hc, rfl⟩
    · rw [if_neg hc] at h
      cases is with
      | nil =>
        simp only [femLoop, Py.ok.injEq] at h
        subst h
        exact ⟨[q.1.2], rfl, stopsBy_one (by simp) (by simp), rfl⟩
      | cons j is =>
        obtain ⟨costs, h1, h2, h3⟩ := femLoop_stops (by simp) h
        refine ⟨q.1.2 :: costs, by simp [h1], stopsBy_cons hc h2, ?_⟩
        rw [List.getLast?_cons, h3]
        rfl

theorem femIterate_stops {maxIter : ℕ} (hm : 0 < maxIter) {s : FEMState P T k K}
    {r : FEMResult P T k K}
    (h : femIterate comp solver con require tol maxIter up uw s = Py.ok r) :
    StopsBy tol maxIter (s.evaluateCost comp).2 r.trace ∧ r.trace.getLast? = some r.cost := by
  obtain ⟨costs, h1, h2, h3⟩ := femLoop_stops (by simpa using hm.ne') h
  rw [List.nil_append] at h1
  rw [h1]
  exact ⟨by simpa using h2, h3⟩

theorem femLoop_prefix {js : List ℕ} : ∀ {is : List ℕ} {s : FEMState P T k K} {c : K}
    {last : Option ℕ} {tr : List K} {fl : ℕ} {r' : FEMResult P T k K}, (is ≠ [] ∨ last ≠ none) →
    femLoop comp solver con require tol up uw (is ++ js) s c last tr fl = Py.ok r' →
    ∃ r, femLoop comp solver con require tol up uw is s c last tr fl = Py.ok r ∧
      r.trace = r'.trace.take (tr.length + is.length) ∧
      (r'.trace.length ≤ tr.length + is.length → r = r')
  | [], s, c, last, tr, fl, r', hne, h => by
    cases last with
    | none => simp at hne
    | some n =>
      cases js with
      | nil =>
        simp only [List.append_nil, femLoop, Py.ok.injEq] at h
        subst h
        exact ⟨_, rfl, by simp, fun _ => rfl⟩
      | cons j js =>
        obtain ⟨costs, h1, -, h3⟩ := femLoop_stops (by simp) h
        refine ⟨⟨s, c, n, tr, fl⟩, rfl, by simp [h1], fun hlen => ?_⟩
        rw [h1, List.length_append, List.length_nil] at hlen
        have : costs = [] := List.length_eq_zero_iff.1 (by omega)
        simp [this] at h3
  | i :: is, s, c, last, tr, fl, r', _, h => by
    rw [List.cons_append, femLoop_cons] at h
    rw [femLoop_cons]
    obtain ⟨q, hq, h⟩ := Py.bind_eq_ok.1 h
    rw [hq, Py.ok_bind]
    by_cases hc : |q.1.2 - c| < tol
    · rw [if_pos hc] at h ⊢
      obtain rfl := Py.ok.inj h
      exact ⟨_, rfl, by simp [List.take_append], fun _ => rfl⟩
    · rw [if_neg hc] at h ⊢
      obtain ⟨r, h1, h2, h3⟩ := femLoop_prefix (Or.inr (by simp)) h
      have he : (tr ++ [q.1.2]).length + is.length = tr.length + (i :: is).length := by
        simp only [List.length_append, List.length_cons, List.length_nil]
        omega
      rw [he] at h2 h3
      exact ⟨r, h1, h2, h3⟩

theorem femIterate_prefix {m m' : ℕ} (hm : 0 < m) (hle : m ≤ m') {s : FEMState P T k K}
    {r' : FEMResult P T k K}
    (h : femIterate comp solver con require tol m' up uw s = Py.ok r') :
    ∃ r, femIterate comp solver con require tol m up uw s = Py.ok r ∧ r.trace = r'.trace.take m ∧
      (r'.trace.length ≤ m → r = r') := by
  unfold femIterate at h ⊢
  rw [range_append_range' hle] at h
  obtain ⟨r, h1, h2, h3⟩ := femLoop_prefix (Or.inl (by simpa using hm.ne')) h
  exact ⟨r, h1, by simpa using h2, by simpa using h3⟩

/-- One cost per iteration. -/
theorem femLoop_trace_length : ∀ {n a : ℕ} {s : FEMState P T k K} {c : K} {last : Option ℕ}
    {tr : List K} {fl : ℕ} {r : FEMResult P T k K},
    tr.length = a → (∀ m, last = some m → m + 1 = a) →
    femLoop comp solver con require tol up uw (List.range' a n) s c last tr fl = Py.ok r →
    r.trace.length = r.nIter + 1
  | 0, a, s, c, last, tr, fl, r, htr, hl, h => by
    cases last with
    | none => simp [femLoop] at h
    | some m =>
      simp only [List.range'_zero, femLoop, Py.ok.injEq] at h; subst h
      rw [htr, hl m rfl]
  | n + 1, a, s, c, last, tr, fl, r, htr, hl, h => by
    rw [List.range'_succ, femLoop_cons] at h
    obtain ⟨q, hq, h⟩ := Py.bind_eq_ok.1 h
    by_cases hc : |q.1.2 - c| < tol
    · rw [if_pos hc] at h
      simp only [Py.ok.injEq] at h; subst h; simp [htr]
    · rw [if_neg hc] at h
      exact femLoop_trace_length (a := a + 1) (by simp [htr]) (by simp) h

theorem femIterate_trace_length {m : ℕ} {s : FEMState P T k K} {r : FEMResult P T k K}
    (h : femIterate comp solver con require tol m up uw s = Py.ok r) :
    r.trace.length = r.nIter + 1 := by
  unfold femIterate at h
  rw [List.range_eq_range'] at h
  exact femLoop_trace_length (a := 0) rfl (by simp) h

end FEM

/-! ### Consequences -/

/-- The iterations after the first. -/
theorem StopsBy.length_le_head {tol start x : K} {m : ℕ} {l : List K}
    (h : StopsBy tol m start (x :: l)) (hmono : (x :: l).IsChain (· ≥ ·)) {c : K}
    (hc : (x :: l).getLast? = some c) : (l.length - 1 : ℕ) * tol ≤ x - c := by
  cases l with
  | nil =>
    have : x = c := by simpa using hc
    simp [this]
  | cons y l =>
    obtain ⟨e, prev, last, he, hch, hlen, hfin⟩ := h
    cases e with
    | nil => simp at he
    | cons a e =>
      have he' : x :: y :: l = e ++ [prev, last] := (List.cons.inj he).2
      refine StopsBy.length_le (m := m - 1) ⟨e, prev, last, he', ?_, ?_, ?_⟩ hmono (by simpa using hc)
      · have := hch
        rw [List.cons_append, List.isChain_cons] at this
        exact this.2
      · simp only [List.length_cons] at hlen ⊢
        omega
      · intro hlt
        refine hfin ?_
        simp only [List.length_cons] at hlt ⊢
        omega

/-- A run of fewer iterations ends with a cost that is not smaller. -/
theorem last_take_ge {l : List K} (h : l.IsChain (· ≥ ·)) {m : ℕ} {a b : K}
    (ha : (l.take m).getLast? = some a) (hb : l.getLast? = some b) : b ≤ a := by
  have hp : l.Pairwise (· ≥ ·) := List.isChain_iff_pairwise.1 h
  by_cases hd : l.drop m = []
  · rw [List.take_of_length_le (by simpa using hd)] at ha
    rw [ha] at hb
    exact (Option.some.inj hb).ge
  · rw [← List.take_append_drop m l] at hp hb
    rw [List.getLast?_append_of_ne_nil _ hd] at hb
    exact (List.pairwise_append.1 hp).2.2 _ (List.mem_of_getLast? ha) _ (List.mem_of_getLast? hb)

/-! ### Settings -/

/-- The tolerance of a fit is the number that was set. -/
theorem checkParams_tolerance {c m t : NumArg K} {p : ℕ × ℕ × K}
    (h : checkParams c m t = Py.ok p) :
    t = .real p.2.2 ∨ ∃ z : ℤ, t = .int z ∧ (z : K) = p.2.2 := by
  obtain ⟨p', hp', -, -, -, -, -, h6⟩ := checkParams_valid (checkParams_ok h).1
  rw [h] at hp'
  obtain rfl := Py.ok.inj hp'
  exact h6

/-- Only the number of iterations is different. -/
theorem checkParams_maxIter {c mi t : NumArg K} {p : ℕ × ℕ × K}
    (h : checkParams c mi t = Py.ok p) {m : ℕ} (hm : 0 < m) :
    checkParams c (.int m) t = Py.ok (p.1, m, p.2.2) := by
  obtain ⟨hv, hc, -, h1, -, h2⟩ := checkParams_ok h
  obtain ⟨p', hp', hc', hm', -, -, -, ht'⟩ := checkParams_valid
    (show ValidParams c (.int (m : ℤ)) t from ⟨hv.1, ⟨m, rfl, by omega⟩, hv.2.2⟩)
  rw [hp']
  have e1 : p'.1 = p.1 := by
    rw [hc] at hc'
    simpa using hc'.symm
  have e2 : p'.2.1 = m := by simpa using hm'.symm
  have e3 : p'.2.2 = p.2.2 := by
    rcases checkParams_tolerance h with h' | ⟨y', h', hy'⟩ <;> rcases ht' with h'' | ⟨y, h'', hy⟩ <;>
      rw [h''] at h' <;> simp at h'
    · exact h'
    · rw [← hy, ← hy', h']
  rw [← e1, ← e2, ← e3]

end Reor
