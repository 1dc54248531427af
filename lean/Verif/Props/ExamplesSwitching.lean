import Verif.Props.ExamplesGaussian
import Mathlib.Data.Nat.Count

/-!
C106: the data of the switching autoregressive example.
-/

set_option linter.unusedSectionVars false

namespace Reor

open scoped BigOperators Matrix
open Spec

variable {K : Type} [Field K] [LinearOrder K] [IsStrictOrderedRing K]

/-! ### Specification -/

/-- The autoregressive part of a vector autoregressive process. -/
def lagSum {T n order : ℕ} (A : Fin order → Matrix (Fin n) (Fin n) K) (X : Matrix (Fin T) (Fin n) K)
    (t : Fin T) (d : Fin n) : K := ∑ i : Fin order, ∑ e, A i d e * X (lagged t i) e

/-- Number of changes of the regime before sample `t`, when a regime lasts `R` samples, the first of
them including the `order` samples at the start. -/
def regimeIndex (order R t : ℕ) : ℕ :=
  if order < R then t / R else if t ≤ order then 0 else (t - order - 1) / max R 1 + 1

/-- The component after `i` changes, from `c`. -/
def componentAfter {k : ℕ} (c : Fin k) (i : ℕ) : Fin k :=
  ⟨(c + i) % k, Nat.mod_lt _ (lt_of_le_of_lt (Nat.zero_le _) c.2)⟩

/-- State of the generator after `m` calls of `rng.normal(size=(n,))`. -/
def normalState (R : DataRng K) (n : ℕ) (g : R.G) : ℕ → R.G
  | 0 => g
  | m + 1 => (R.normal n (normalState R n g m)).2

/-! ### The start -/

theorem initialRows_ok {R : DataRng K} {T n : ℕ} {empty : Matrix (Fin T) (Fin n) K} {order : ℕ}
    {g : R.G} {r : Matrix (Fin T) (Fin n) K × R.G} (h : initialRows R empty order g = Py.ok r) :
    order ≤ T ∧ r.2 = normalState R n g order ∧
      ∀ t : Fin T, r.1 t = if (t : ℕ) < order then (R.normal n (normalState R n g t)).1
        else empty t := by
  unfold initialRows at h
  split_ifs at h with hT
  have hT : order ≤ T := not_lt.1 hT
  have h := Py.ok.inj h
  subst h
  have key := foldl_finRange_inv (T := T) (fun (s : Matrix (Fin T) (Fin n) K × R.G) (i : Fin T) =>
    if (i : ℕ) < order then
      (Function.update s.1 i (R.normal n s.2).1, (R.normal n s.2).2)
    else s) (fun m s => s.2 = normalState R n g (min m order) ∧
      ∀ t : Fin T, s.1 t = if (t : ℕ) < min m order then (R.normal n (normalState R n g t)).1
        else empty t) (empty, g) ⟨by simp [normalState], fun t => by simp⟩ (by
      rintro i ⟨X, g'⟩ ⟨h1, h2⟩
      simp only at h1 h2
      by_cases hi : (i : ℕ) < order
      · rw [if_pos hi]
        rw [min_eq_left hi.le] at h1 h2
        rw [min_eq_left (by omega : (i : ℕ) + 1 ≤ order)]
        subst h1
        refine ⟨rfl, fun t => ?_⟩
        by_cases hti : t = i
        · subst hti
          refine (Function.update_self _ _ _).trans ?_
          rw [if_pos (by omega)]
        · refine (Function.update_of_ne hti _ _).trans ((h2 t).trans ?_)
          have : (t : ℕ) ≠ i := fun h => hti (Fin.ext h)
          by_cases ht : (t : ℕ) < i
          · rw [if_pos ht, if_pos (by omega)]
          · rw [if_neg ht, if_neg (by omega)]
      · rw [if_neg hi]
        rw [min_eq_right (by omega : order ≤ (i : ℕ))] at h1 h2
        rw [min_eq_right (by omega : order ≤ (i : ℕ) + 1)]
        exact ⟨h1, h2⟩)
  rw [min_eq_right hT] at key
  exact ⟨hT, key⟩

/-- C106.  With fewer samples than the order there is an IndexError, and with enough of them the start
succeeds. -/
theorem C106_order (R : DataRng K) (n T k nSwitches order : ℕ) (v : K)
    (emptyX : Matrix (Fin T) (Fin n) K) (emptyW : Matrix (Fin T) (Fin k) K) (g : R.G) (hR : R.Lawful)
    (hk : 0 < k) :
    (T < order → switchingData R n T k nSwitches order v emptyX emptyW g = Py.raise .indexError) ∧
    (order ≤ T → ∃ r, switchingData R n T k nSwitches order v emptyX emptyW g = Py.ok r) := by
  constructor
  · intro h
    unfold switchingData initialRows
    rw [if_pos h]
    rfl
  · intro h
    unfold switchingData initialRows chooseComponent
    rw [if_neg (by omega)]
    simp only [Py.ok_bind]
    rw [dif_pos (hR.choice_lt _ _ hk)]
    exact ⟨_, rfl⟩

/-! ### The loop -/

section Run

variable {R : DataRng K} {T n k order : ℕ} (A : Fin k → Fin order → Matrix (Fin n) (Fin n) K)
  (v : K) (Rmax : ℕ) (s0 : SwitchState R T n k)

/-- The states of the loop. -/
def switchRun : ℕ → SwitchState R T n k
  | 0 => s0
  | m + 1 => if h : order ≤ m ∧ m < T then switchStep R A v Rmax (switchRun m) ⟨m, h.2⟩
    else switchRun m

theorem switchRun_start {m : ℕ} (hm : m ≤ order) : switchRun A v Rmax s0 m = s0 := by
  induction m with
  | zero => rfl
  | succ m ih =>
    rw [switchRun, dif_neg (by omega)]
    exact ih (by omega)

theorem switchRun_fold (ho : order ≤ T) :
    ((List.finRange T).filter fun t : Fin T => order ≤ (t : ℕ)).foldl (switchStep R A v Rmax) s0 =
      switchRun A v Rmax s0 T := by
  refine foldl_from_inv order ho (switchStep R A v Rmax)
    (fun m s => s = switchRun A v Rmax s0 m) s0 (switchRun_start A v Rmax s0 le_rfl).symm ?_
  intro t s ht hs
  rw [switchRun, dif_pos ⟨ht, t.2⟩, hs]

theorem foldl_update_row {k n order : ℕ} (c : Fin k) (f : Fin order → Fin n → K)
    (mu : Fin k → Fin n → K) :
    (List.finRange order).foldl (fun (mu : Fin k → Fin n → K) i =>
      Function.update mu c (fun d => mu c d + f i d)) mu =
      Function.update mu c (fun d => mu c d + ∑ i, f i d) := by
  have key := foldl_finRange_inv (T := order) (fun (mu : Fin k → Fin n → K) i =>
    Function.update mu c (fun d => mu c d + f i d))
    (fun m mu' => mu' = Function.update mu c (fun d => mu c d + ∑ i : Fin order,
      if (i : ℕ) < m then f i d else 0)) mu (by simp) (by
      rintro i mu' rfl
      have hs : ∀ d, (∑ j : Fin order, if (j : ℕ) < (i : ℕ) + 1 then f j d else 0) =
          (∑ j : Fin order, if (j : ℕ) < (i : ℕ) then f j d else 0) + f i d := by
        intro d
        have h1 : ∀ j : Fin order, (if (j : ℕ) < (i : ℕ) + 1 then f j d else 0) =
            (if (j : ℕ) < (i : ℕ) then f j d else 0) + if j = i then f i d else 0 := by
          intro j
          by_cases hj : j = i
          · subst hj
            simp
          · have : (j : ℕ) ≠ i := fun h => hj (Fin.ext h)
            by_cases hlt : (j : ℕ) < i
            · rw [if_pos (by omega), if_pos hlt, if_neg hj, add_zero]
            · rw [if_neg (by omega), if_neg hlt, if_neg hj, add_zero]
        simp only [h1, Finset.sum_add_distrib, Finset.sum_ite_eq', Finset.mem_univ, if_true]
      funext j
      by_cases hj : j = c
      · subst hj
        simp only [Function.update_self]
        funext d
        rw [hs d]
        ring
      · simp only [Function.update_of_ne hj])
  rw [key]
  simp only [Fin.is_lt, if_true]

theorem addLags_eq (X : Matrix (Fin T) (Fin n) K) (t : Fin T) (c : Fin k)
    (mu : Matrix (Fin k) (Fin n) K) :
    addLags X A t c mu = Function.update mu c (fun d => mu c d + lagSum (A c) X t d) :=
  foldl_update_row c (fun i d => ∑ e, A c i d e * X (lagged t i) e) mu

theorem switchRun_zero : switchRun A v Rmax s0 0 = s0 := rfl

theorem switchRun_succ {m : ℕ} (h1 : order ≤ m) (h2 : m < T) :
    switchRun A v Rmax s0 (m + 1) =
      switchStep R A v Rmax (switchRun A v Rmax s0 m) ⟨m, h2⟩ := by
  rw [switchRun, dif_pos ⟨h1, h2⟩]

theorem switchRun_skip {m : ℕ} (h : ¬ order ≤ m) :
    switchRun A v Rmax s0 (m + 1) = switchRun A v Rmax s0 m := by
  rw [switchRun, dif_neg (fun hc => h hc.1)]

attribute [local irreducible] switchRun

theorem switchStep_X (s : SwitchState R T n k) (t : Fin T) :
    (switchStep R A v Rmax s t).X = Function.update s.X t
      (R.mvn (addLags s.X A t s.component s.mu s.component) (noiseCov n v) s.g).1 := by
  unfold switchStep
  simp only
  split <;> rfl

theorem switchStep_mu (s : SwitchState R T n k) (t : Fin T) :
    (switchStep R A v Rmax s t).mu = addLags s.X A t s.component s.mu := by
  unfold switchStep
  simp only
  split <;> rfl

theorem update_row_apply {k n : ℕ} (mu : Fin k → Fin n → K) (c : Fin k) (f : Fin k → Fin n → K)
    (j : Fin k) (d : Fin n) :
    Function.update mu c (fun d => mu c d + f c d) j d = mu j d + if c = j then f j d else 0 := by
  rw [Function.update_apply]
  by_cases hj : c = j
  · subst hj
    simp only [if_true]
  · rw [if_neg hj, if_neg (Ne.symm hj), add_zero]

theorem switchStep_mu_apply (s : SwitchState R T n k) (t : Fin T) (j : Fin k) (d : Fin n) :
    (switchStep R A v Rmax s t).mu j d =
      s.mu j d + if s.component = j then lagSum (A j) s.X t d else 0 :=
  (congrFun (congrFun ((switchStep_mu A v Rmax s t).trans (addLags_eq A s.X t s.component s.mu)) j)
    d).trans (update_row_apply s.mu s.component (fun j d => lagSum (A j) s.X t d) j d)

theorem switchStep_weights (s : SwitchState R T n k) (t : Fin T) :
    (switchStep R A v Rmax s t).weights =
      Function.update s.weights t (Function.update (s.weights t) s.component 1) := by
  unfold switchStep
  simp only
  split <;> rfl

theorem switchRun_X_later {r : Fin T} {m m' : ℕ} (hr : (r : ℕ) < m) (hm : m ≤ m') (hm' : m' ≤ T) :
    (switchRun A v Rmax s0 m').X r = (switchRun A v Rmax s0 m).X r := by
  induction m', hm using Nat.le_induction with
  | base => rfl
  | succ m' hmm ih =>
    by_cases h : order ≤ m'
    · rw [switchRun_succ A v Rmax s0 h (by omega), switchStep_X]
      refine (Function.update_of_ne ?_ _ _).trans (ih (by omega))
      intro he
      rw [he] at hr
      simp only at hr
      omega
    · rw [switchRun_skip A v Rmax s0 h]
      exact ih (by omega)

theorem switchRun_X_early {r : Fin T} {m : ℕ} (hr : m ≤ r) :
    (switchRun A v Rmax s0 m).X r = s0.X r := by
  induction m with
  | zero => rw [switchRun_zero]
  | succ m ih =>
    by_cases h : order ≤ m
    · rw [switchRun_succ A v Rmax s0 h (by omega), switchStep_X]
      refine (Function.update_of_ne ?_ _ _).trans (ih (by omega))
      intro he
      rw [he] at hr
      simp only at hr
      omega
    · rw [switchRun_skip A v Rmax s0 h]
      exact ih (by omega)

theorem switchRun_weights {t : Fin T} {m : ℕ} (hm : m ≤ T) (j : Fin k) :
    (switchRun A v Rmax s0 m).weights t j =
      if order ≤ (t : ℕ) ∧ (t : ℕ) < m ∧ j = (switchRun A v Rmax s0 t).component then 1
      else s0.weights t j := by
  induction m with
  | zero => simp [switchRun_zero]
  | succ m ih =>
    have ih := ih (by omega)
    by_cases h : order ≤ m
    · have hmT : m < T := by omega
      rw [switchRun_succ A v Rmax s0 h hmT, switchStep_weights]
      set s := switchRun A v Rmax s0 m with hs
      by_cases ht : t = ⟨m, hmT⟩
      · subst ht
        have hval : Function.update s.weights ⟨m, hmT⟩
            (Function.update (s.weights ⟨m, hmT⟩) s.component 1) ⟨m, hmT⟩ j =
            Function.update (s.weights ⟨m, hmT⟩) s.component 1 j :=
          congrFun (Function.update_self _ _ _) j
        refine hval.trans ?_
        rw [Function.update_apply, ih]
        simp only [h, true_and, Nat.lt_succ_self, lt_irrefl, false_and, if_false]
        rfl
      · have hne : (t : ℕ) ≠ m := fun he => ht (Fin.ext he)
        have hval : Function.update s.weights ⟨m, hmT⟩
            (Function.update (s.weights ⟨m, hmT⟩) s.component 1) t j = s.weights t j :=
          congrFun (Function.update_of_ne ht _ _) j
        refine hval.trans (ih.trans ?_)
        have : (t : ℕ) < m + 1 ↔ (t : ℕ) < m := by omega
        simp only [this]
    · rw [switchRun_skip A v Rmax s0 h, ih]
      have h1 : ¬ (order ≤ (t : ℕ) ∧ (t : ℕ) < m ∧ j = (switchRun A v Rmax s0 t).component) := by omega
      have h2 : ¬ (order ≤ (t : ℕ) ∧ (t : ℕ) < m + 1 ∧ j = (switchRun A v Rmax s0 t).component) := by
        omega
      rw [if_neg h1, if_neg h2]

theorem lagSum_congr {B : Fin order → Matrix (Fin n) (Fin n) K} {X Y : Matrix (Fin T) (Fin n) K}
    {t : Fin T} (ht : order ≤ (t : ℕ)) (h : ∀ r : Fin T, (r : ℕ) < t → X r = Y r) (d : Fin n) :
    lagSum B X t d = lagSum B Y t d := by
  unfold lagSum
  refine Finset.sum_congr rfl fun i _ => Finset.sum_congr rfl fun e _ => ?_
  rw [h (lagged t i) (by simp only [lagged]; omega)]

theorem sum_until_succ {m : ℕ} (h : order ≤ m) (hm : m < T) (p : ℕ → Prop) [DecidablePred p]
    (f : Fin T → K) :
    (∑ u : Fin T, if order ≤ (u : ℕ) ∧ (u : ℕ) < m + 1 ∧ p u then f u else 0) =
      (∑ u : Fin T, if order ≤ (u : ℕ) ∧ (u : ℕ) < m ∧ p u then f u else 0) +
        if p m then f ⟨m, hm⟩ else 0 := by
  have h1 : ∀ u : Fin T, (if order ≤ (u : ℕ) ∧ (u : ℕ) < m + 1 ∧ p u then f u else 0) =
      (if order ≤ (u : ℕ) ∧ (u : ℕ) < m ∧ p u then f u else 0) +
      if u = ⟨m, hm⟩ then (if p m then f ⟨m, hm⟩ else 0) else 0 := by
    intro u
    by_cases hu : u = ⟨m, hm⟩
    · subst hu
      simp only [h, Nat.lt_succ_self, true_and, lt_irrefl, false_and, and_false, if_false,
        if_true, zero_add]
    · have hne : (u : ℕ) ≠ m := fun he => hu (Fin.ext he)
      have : (u : ℕ) < m + 1 ↔ (u : ℕ) < m := by omega
      simp only [this, if_neg hu, add_zero]
  simp only [h1, Finset.sum_add_distrib, Finset.sum_ite_eq', Finset.mem_univ, if_true]

/-- The means: every sample adds its autoregressive part to the mean of its component. -/
theorem switchRun_mu {m : ℕ} (hm : m ≤ T) (j : Fin k) (d : Fin n) :
    (switchRun A v Rmax s0 m).mu j d = s0.mu j d + ∑ u : Fin T,
      if order ≤ (u : ℕ) ∧ (u : ℕ) < m ∧ (switchRun A v Rmax s0 u).component = j then
        lagSum (A j) (switchRun A v Rmax s0 T).X u d else 0 := by
  induction m with
  | zero => simp [switchRun_zero]
  | succ m ih =>
    have ih := ih (by omega)
    by_cases h : order ≤ m
    · have hmT : m < T := by omega
      have hlag : ∀ B : Fin order → Matrix (Fin n) (Fin n) K,
          lagSum B (switchRun A v Rmax s0 m).X ⟨m, hmT⟩ d =
            lagSum B (switchRun A v Rmax s0 T).X ⟨m, hmT⟩ d := fun B =>
        lagSum_congr (t := ⟨m, hmT⟩) h (fun r hr =>
          (switchRun_X_later A v Rmax s0 (r := r) (m := m) (m' := T) hr hmT.le le_rfl).symm) d
      have hsum := sum_until_succ h hmT (fun u => (switchRun A v Rmax s0 u).component = j)
          (fun u => lagSum (A j) (switchRun A v Rmax s0 T).X u d)
      have hst := switchStep_mu_apply A v Rmax (switchRun A v Rmax s0 m) ⟨m, hmT⟩ j d
      rw [hlag, ih, add_assoc] at hst
      rw [switchRun_succ A v Rmax s0 h hmT]
      exact hst.trans (congrArg (fun z => s0.mu j d + z) hsum.symm)
    · rw [switchRun_skip A v Rmax s0 h, ih]
      congr 1
      refine Finset.sum_congr rfl fun u _ => ?_
      rw [if_neg (by omega), if_neg (by omega)]

/-- The samples. -/
theorem switchRun_X {t : Fin T} (ht : order ≤ (t : ℕ)) :
    (switchRun A v Rmax s0 T).X t = (R.mvn (fun d =>
      s0.mu (switchRun A v Rmax s0 t).component d + ∑ u : Fin T,
        if order ≤ (u : ℕ) ∧ (u : ℕ) ≤ t ∧
            (switchRun A v Rmax s0 u).component = (switchRun A v Rmax s0 t).component then
          lagSum (A (switchRun A v Rmax s0 t).component) (switchRun A v Rmax s0 T).X u d else 0)
      (noiseCov n v) (switchRun A v Rmax s0 t).g).1 := by
  rw [switchRun_X_later A v Rmax s0 (Nat.lt_succ_self t) t.2 le_rfl,
    switchRun_succ A v Rmax s0 ht t.2, switchStep_X]
  refine (Function.update_self _ _ _).trans ?_
  congr 2
  rw [← switchStep_mu A v Rmax (switchRun A v Rmax s0 t) t]
  have := switchRun_succ A v Rmax s0 ht t.2
  funext d
  have hmu := switchRun_mu A v Rmax s0 (m := (t : ℕ) + 1) t.2 (switchRun A v Rmax s0 t).component d
  rw [this] at hmu
  simp only [Nat.lt_succ_iff] at hmu
  exact hmu

/-! Components. -/

theorem div_succ_cases {m R : ℕ} (hR : 0 < R) :
    (m % R + 1 ≥ R → (m + 1) / R = m / R + 1 ∧ (m + 1) % R = 0) ∧
    (¬ m % R + 1 ≥ R → (m + 1) / R = m / R ∧ (m + 1) % R = m % R + 1) := by
  have h0 := Nat.div_add_mod m R
  have h1 := Nat.mod_lt m hR
  constructor
  · intro h
    refine (Nat.div_mod_unique hR).2 ⟨?_, hR⟩
    have : R * (m / R + 1) = R * (m / R) + R := by ring
    omega
  · intro h
    exact (Nat.div_mod_unique hR).2 ⟨by omega, by omega⟩

theorem nextComponent_after {c : Fin k} {i : ℕ} :
    nextComponent (componentAfter c i) = componentAfter c (i + 1) := by
  refine Fin.ext ?_
  simp only [nextComponent, componentAfter]
  rw [Nat.mod_add_mod, Nat.add_assoc]

theorem switchStep_component (s : SwitchState R T n k) (t : Fin T) :
    ((switchStep R A v Rmax s t).component, (switchStep R A v Rmax s t).residence) =
      if s.residence + 1 ≥ Rmax then (nextComponent s.component, 0)
      else (s.component, s.residence + 1) := by
  unfold switchStep
  simp only
  split <;> rfl

theorem switchRun_component (hres : s0.residence = order) {m : ℕ} (h1 : order ≤ m) (h2 : m ≤ T) :
    (switchRun A v Rmax s0 m).component = componentAfter s0.component (regimeIndex order Rmax m) ∧
    (switchRun A v Rmax s0 m).residence =
      if order < Rmax then m % Rmax else if m ≤ order then order else (m - order - 1) % max Rmax 1 := by
  induction m, h1 using Nat.le_induction with
  | base =>
    rw [switchRun_start A v Rmax s0 le_rfl]
    constructor
    · unfold regimeIndex
      refine Fin.ext ?_
      by_cases h : order < Rmax
      · rw [if_pos h, Nat.div_eq_of_lt h]
        simp [componentAfter, Nat.mod_eq_of_lt s0.component.2]
      · rw [if_neg h, if_pos le_rfl]
        simp [componentAfter, Nat.mod_eq_of_lt s0.component.2]
    · by_cases h : order < Rmax
      · rw [if_pos h, Nat.mod_eq_of_lt h, hres]
      · rw [if_neg h, if_pos le_rfl, hres]
  | succ m hm ih =>
    obtain ⟨ih1, ih2⟩ := ih (by omega)
    have hst := switchStep_component A v Rmax (switchRun A v Rmax s0 m) ⟨m, by omega⟩
    rw [← switchRun_succ A v Rmax s0 hm (by omega), ih1, ih2, nextComponent_after] at hst
    have e1 : (switchRun A v Rmax s0 (m + 1)).component = _ := congrArg Prod.fst hst
    have e2 : (switchRun A v Rmax s0 (m + 1)).residence = _ := congrArg Prod.snd hst
    rw [e1, e2]
    unfold regimeIndex
    by_cases h : order < Rmax
    · simp only [if_pos h]
      obtain ⟨d1, d2⟩ := div_succ_cases (m := m) (by omega : 0 < Rmax)
      by_cases hc : m % Rmax + 1 ≥ Rmax
      · rw [if_pos hc]
        rw [(d1 hc).1, (d1 hc).2]
        exact ⟨rfl, rfl⟩
      · rw [if_neg hc]
        rw [(d2 hc).1, (d2 hc).2]
        exact ⟨rfl, rfl⟩
    · simp only [if_neg h]
      rw [if_neg (by omega : ¬ m + 1 ≤ order), if_neg (by omega : ¬ m + 1 ≤ order)]
      by_cases hmo : m ≤ order
      · have hmeq : m = order := by omega
        subst hmeq
        simp only [le_refl, if_true]
        rw [if_pos (by omega)]
        simp
      · simp only [if_neg hmo]
        have hsub : m + 1 - order - 1 = (m - order - 1) + 1 := by omega
        rw [hsub]
        obtain ⟨d1, d2⟩ := div_succ_cases (m := m - order - 1) (by omega : 0 < max Rmax 1)
        by_cases hc : (m - order - 1) % max Rmax 1 + 1 ≥ Rmax
        · rw [if_pos hc]
          have hc' : (m - order - 1) % max Rmax 1 + 1 ≥ max Rmax 1 := by omega
          rw [(d1 hc').1, (d1 hc').2]
          exact ⟨rfl, rfl⟩
        · rw [if_neg hc]
          have hc' : ¬ (m - order - 1) % max Rmax 1 + 1 ≥ max Rmax 1 := by omega
          rw [(d2 hc').1, (d2 hc').2]
          exact ⟨rfl, rfl⟩

end Run

/-! ### The data -/

/-- C106.  What the example returns.  The components follow each other cyclically in regimes of equal
length, from one chosen at random.  A sample is drawn around the mean of its component *to which the
autoregressive parts of all samples so far in that component have been added*, not only its own; the
means returned have all of them added.  The weights are one for the component of the sample and
otherwise what happened to be in memory. -/
theorem C106_samples {R : DataRng K} {n T k nSwitches order : ℕ} {v : K}
    {emptyX : Matrix (Fin T) (Fin n) K} {emptyW : Matrix (Fin T) (Fin k) K} {g g' : R.G}
    {r : SwitchResult K T n k order}
    (h : switchingData R n T k nSwitches order v emptyX emptyW g = Py.ok (r, g')) :
    ∃ (c0 : Fin k) (mu0 : Matrix (Fin k) (Fin n) K) (c : Fin T → Fin k) (state : Fin T → R.G),
      order ≤ T ∧ mu0 = (R.normal2 k n (normalState R n g order)).1 ∧
      (∀ t, c t = componentAfter c0 (regimeIndex order (maxResidence T nSwitches)
        (max (t : ℕ) order))) ∧
      (∀ t : Fin T, (t : ℕ) < order → r.X t = (R.normal n (normalState R n g t)).1) ∧
      (∀ t : Fin T, order ≤ (t : ℕ) → r.X t = (R.mvn (fun d => mu0 (c t) d + ∑ u : Fin T,
        if order ≤ (u : ℕ) ∧ (u : ℕ) ≤ t ∧ c u = c t then lagSum (r.A (c t)) r.X u d else 0)
          (noiseCov n v) (state t)).1) ∧
      (∀ j d, r.mu j d = mu0 j d + ∑ u : Fin T,
        if order ≤ (u : ℕ) ∧ c u = j then lagSum (r.A j) r.X u d else 0) ∧
      ∀ t j, r.weights t j = if j = c t then 1 else emptyW t j := by
  unfold switchingData at h
  obtain ⟨x, hx, h⟩ := Py.bind_eq_ok.1 h
  obtain ⟨hT, hx2, hx1⟩ := initialRows_ok hx
  extract_lets mu A at h
  obtain ⟨c, hc, h⟩ := Py.bind_eq_ok.1 h
  extract_lets w0 s at h
  have h' := (Prod.mk.inj (Py.ok.inj h)).1
  clear h
  set M := maxResidence T nSwitches with hM
  generalize hs0 : (⟨x.1, w0, mu.1, c.1, order, c.2⟩ : SwitchState R T n k) = s0
  have hs : s = switchRun A.1 v M s0 T := by
    rw [← hs0]
    exact switchRun_fold A.1 v M _ hT
  have e1 : s0.residence = order := by rw [← hs0]
  have e2 : s0.component = c.1 := by rw [← hs0]
  have e3 : s0.mu = mu.1 := by rw [← hs0]
  have e4 : s0.X = x.1 := by rw [← hs0]
  have e5 : s0.weights = w0 := by rw [← hs0]
  rw [hs] at h'
  subst h'
  have hcomp : ∀ t : Fin T, (switchRun A.1 v M s0 t).component =
      componentAfter c.1 (regimeIndex order M (max (t : ℕ) order)) := by
    intro t
    rw [← e2]
    rcases Nat.lt_or_ge t order with ht | ht
    · rw [switchRun_start A.1 v M s0 ht.le, max_eq_right ht.le]
      have := (switchRun_component A.1 v M s0 e1 le_rfl hT).1
      rw [switchRun_start A.1 v M s0 le_rfl] at this
      exact this
    · rw [max_eq_left ht]
      exact (switchRun_component A.1 v M s0 e1 ht t.2.le).1
  refine ⟨c.1, mu.1, fun t => (switchRun A.1 v M s0 t).component,
    fun t => (switchRun A.1 v M s0 t).g, hT, ?_, hcomp, ?_, ?_, ?_, ?_⟩
  · change (R.normal2 k n x.2).1 = _
    rw [hx2]
  · intro t ht
    have h1 := switchRun_X_later A.1 v M s0 (r := t) (m := order) ht hT le_rfl
    rw [switchRun_start A.1 v M s0 le_rfl, e4] at h1
    exact h1.trans ((hx1 t).trans (if_pos ht))
  · intro t ht
    have h1 := switchRun_X A.1 v M s0 ht
    rw [e3] at h1
    exact h1
  · intro j d
    have h1 := switchRun_mu A.1 v M s0 le_rfl j d
    rw [e3] at h1
    refine h1.trans ?_
    simp only [Fin.is_lt, true_and]
  · intro t j
    refine (switchRun_weights A.1 v M s0 le_rfl j).trans ?_
    rw [e5]
    change (if _ then (1 : K) else if (t : ℕ) < order ∧ j = c.1 then 1 else emptyW t j) = _
    rcases Nat.lt_or_ge t order with ht | ht
    · rw [if_neg (by omega)]
      have : (switchRun A.1 v M s0 t).component = c.1 := by
        rw [switchRun_start A.1 v M s0 ht.le, e2]
      simp only [ht, true_and, this]
    · simp only [ht, t.2, true_and]
      have : ¬ (t : ℕ) < order := by omega
      simp only [this, false_and, if_false]

/-- C106.  For order 0 the data are as they should be: every sample is drawn around the returned mean of
its component. -/
theorem C106_order_zero_partial {R : DataRng K} {n T k nSwitches : ℕ} {v : K}
    {emptyX : Matrix (Fin T) (Fin n) K} {emptyW : Matrix (Fin T) (Fin k) K} {g g' : R.G}
    {r : SwitchResult K T n k 0}
    (h : switchingData R n T k nSwitches 0 v emptyX emptyW g = Py.ok (r, g')) :
    ∃ (c : Fin T → Fin k) (state : Fin T → R.G),
      (∀ t, r.weights t (c t) = 1) ∧
      ∀ t, r.X t = (R.mvn (fun d => r.mu (c t) d + lagSum (r.A (c t)) r.X t d) (noiseCov n v)
        (state t)).1 := by
  obtain ⟨c0, mu0, c, state, -, -, -, -, hX, hmu, hw⟩ := C106_samples h
  refine ⟨c, state, fun t => (hw t (c t)).trans (if_pos rfl), fun t => ?_⟩
  rw [hX t (Nat.zero_le _)]
  congr 2
  funext d
  rw [hmu (c t) d]
  simp [lagSum]

/-- C106 fails for positive order: with draws equal to the means, the samples of the one component are
1, 1, 2, which no mean gives (`A` is 1: the third would be equal to the second). -/
theorem C106_not_autoregressive : ∃ (R : DataRng ℚ) (r : SwitchResult ℚ 3 1 1 1) (g g' : R.G),
    R.Lawful ∧
    switchingData R 1 3 1 0 1 1 (fun _ _ => 0) (fun _ _ => 0) g = Py.ok (r, g') ∧
    ¬ ∃ (mu : Matrix (Fin 1) (Fin 1) ℚ) (state : Fin 3 → R.G), ∀ t : Fin 3, 1 ≤ (t : ℕ) →
      r.X t = (R.mvn (fun d => mu 0 d + lagSum (r.A 0) r.X t d) (noiseCov 1 1) (state t)).1 := by
  obtain ⟨⟨r, g'⟩, h⟩ := (C106_order (meanRng ℚ) 1 3 1 0 1 1 (fun _ _ => 0) (fun _ _ => 0) (0 : ℕ)
    meanRng_lawful Nat.one_pos).2 (by norm_num)
  refine ⟨meanRng ℚ, r, (0 : ℕ), g', meanRng_lawful, h, ?_⟩
  rintro ⟨mu, state, hmu⟩
  have hA : ∀ i d e, r.A 0 i d e = 1 := by
    unfold switchingData at h
    obtain ⟨x, hx, h⟩ := Py.bind_eq_ok.1 h
    extract_lets m A at h
    obtain ⟨c, hc, h⟩ := Py.bind_eq_ok.1 h
    have h' := (Prod.mk.inj (Py.ok.inj h)).1
    subst h'
    intro i d e
    rfl
  obtain ⟨c0, mu0, c, st, -, hm0, -, h0, hX, -, -⟩ := C106_samples h
  have e0 : r.X 0 0 = 1 := congrFun (h0 0 (by norm_num)) 0
  have hc : ∀ u, c u = 0 := fun u => Subsingleton.elim _ _
  have e1 : r.X 1 0 = 1 := by
    have := congrFun (hX 1 (by norm_num)) 0
    change r.X 1 0 = _ + _ at this
    simp only [Fin.sum_univ_succ, Fin.sum_univ_zero, hm0] at this
    simp [hc, lagSum, hA, lagged, meanRng] at this
    rw [this]
    exact e0
  have e2 : r.X 2 0 = 2 := by
    have := congrFun (hX 2 (by norm_num)) 0
    change r.X 2 0 = _ + _ at this
    simp only [Fin.sum_univ_succ, Fin.sum_univ_zero, hm0] at this
    simp [hc, lagSum, hA, lagged, meanRng] at this
    rw [this]
    have e0' : r.X 0 0 = 1 := e0
    linarith
  have m1 := congrFun (hmu 1 (by norm_num)) 0
  have m2 := congrFun (hmu 2 (by norm_num)) 0
  change r.X 1 0 = mu 0 0 + _ at m1
  change r.X 2 0 = mu 0 0 + _ at m2
  simp [lagSum, hA, lagged] at m1 m2
  have m1' : r.X 1 0 = mu 0 0 + r.X 0 0 := m1
  have m2' : r.X 2 0 = mu 0 0 + r.X 1 0 := m2
  linarith

/-! ### Number of switches -/

theorem componentAfter_succ_ne {k : ℕ} (hk : 2 ≤ k) (c : Fin k) (i : ℕ) :
    componentAfter c (i + 1) ≠ componentAfter c i := by
  intro h
  have h := congrArg Fin.val h
  simp only [componentAfter] at h
  have h1 : 1 % k = 0 % k := Nat.ModEq.add_left_cancel' ((c : ℕ) + i)
    (show ((c : ℕ) + i) + 1 ≡ ((c : ℕ) + i) + 0 [MOD k] by
      simpa [Nat.ModEq, Nat.add_assoc] using h)
  rw [Nat.mod_eq_of_lt (by omega), Nat.zero_mod] at h1
  omega

/-- C106.  If the order is below the length of a regime, all regimes have that length (but the last). -/
theorem C106_regimes {order M t : ℕ} (ho : order < M) :
    regimeIndex order M (max t order) = t / M := by
  unfold regimeIndex
  rw [if_pos ho]
  rcases Nat.lt_or_ge t order with ht | ht
  · rw [max_eq_right ht.le, Nat.div_eq_of_lt ho, Nat.div_eq_of_lt (by omega)]
  · rw [max_eq_left ht]

/-- C106.  With two or more components and an order below the length of a regime, the component changes
as many times as whole regimes fit before the last sample. -/
theorem C106_number_of_switches {T k order : ℕ} (hk : 2 ≤ k) (c : Fin k) {nSwitches : ℕ}
    (ho : order < maxResidence T nSwitches) :
    ((Finset.range (T - 1)).filter fun t =>
      componentAfter c (regimeIndex order (maxResidence T nSwitches) (max (t + 1) order)) ≠
        componentAfter c (regimeIndex order (maxResidence T nSwitches) (max t order))).card =
      (T - 1) / maxResidence T nSwitches := by
  set M := maxResidence T nSwitches with hM
  rw [← Nat.card_multiples (T - 1) M]
  congr 1
  refine Finset.filter_congr fun t _ => ?_
  rw [C106_regimes ho, C106_regimes ho, Nat.succ_div]
  by_cases hd : M ∣ t + 1
  · rw [if_pos hd]
    simp only [hd, iff_true]
    exact componentAfter_succ_ne hk c _
  · rw [if_neg hd]
    simp [hd]

/-- C106.  That is the number asked for exactly if the samples can be divided evenly into regimes (or no
change is asked for). -/
theorem C106_switches_as_requested {T nSwitches : ℕ} (hT : nSwitches < T) :
    (T - 1) / maxResidence T nSwitches = nSwitches ↔ nSwitches = 0 ∨ (nSwitches + 1) ∣ T := by
  unfold maxResidence
  by_cases h0 : nSwitches = 0
  · subst h0
    simp only [if_true, true_or, iff_true]
    exact Nat.div_eq_of_lt (by omega)
  · rw [if_neg h0]
    simp only [h0, false_or]
    have hq : 0 < T / (nSwitches + 1) := Nat.div_pos (by omega) (by omega)
    set q := T / (nSwitches + 1) with hqdef
    have hdm := Nat.div_add_mod T (nSwitches + 1)
    rw [← hqdef] at hdm
    have hmul : (nSwitches + 1) * q = nSwitches * q + q := by ring
    constructor
    · intro h
      refine Nat.dvd_of_mod_eq_zero ?_
      by_contra hr
      have : nSwitches + 1 ≤ (T - 1) / q := by
        rw [Nat.le_div_iff_mul_le hq]
        omega
      omega
    · intro h
      have hr := Nat.mod_eq_zero_of_dvd h
      rw [hr] at hdm
      refine Nat.div_eq_of_lt_le ?_ ?_
      · omega
      · omega

/-! ### Concrete cases -/

/-- The defaults: 500 samples, three switches, order 1. -/
example : maxResidence 500 3 = 125 ∧ (500 - 1) / maxResidence 500 3 = 3 := by decide

/-- Ten samples and three switches: there are four. -/
example : (List.range 10).map (regimeIndex 1 (maxResidence 10 3)) = [0, 0, 1, 1, 2, 2, 3, 3, 4, 4] := by
  decide

/-- An order above the length of a regime. -/
example : (List.range 10).map (regimeIndex 4 (maxResidence 10 3)) = [0, 0, 0, 0, 0, 1, 1, 2, 2, 3] := by
  decide

/-- The example runs with the draws of `meanRng`. -/
example : ∃ r, switchingData (meanRng ℚ) 2 500 2 3 1 1 (fun _ _ => 0) (fun _ _ => 0) (0 : ℕ) =
    Py.ok r :=
  (C106_order (meanRng ℚ) 2 500 2 3 1 1 _ _ (0 : ℕ) meanRng_lawful (by norm_num)).2 (by norm_num)

end Reor
