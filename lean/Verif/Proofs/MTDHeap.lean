import Verif.Proofs.MTDHeapAttr

/-!
`src/reor/mtd_convex_coding.py` with arrays in memory: the solver follows the model on values.
-/

set_option linter.unusedSectionVars false

namespace Reor

open scoped BigOperators Matrix

variable {K : Type} [Field K] [LinearOrder K] [IsStrictOrderedRing K]

/-- A loop that replaces the entries of `A` one after the other. -/
theorem foldl_update {ι α : Type} [DecidableEq ι] (f : ι → α → α) :
    ∀ (l : List ι) (A : ι → α), l.Nodup →
      l.foldl (fun A i => Function.update A i (f i (A i))) A =
        fun i => if i ∈ l then f i (A i) else A i
  | [], A, _ => by simp
  | i :: l, A, h => by
    rw [List.foldl_cons, foldl_update f l _ (List.nodup_cons.1 h).2]
    have hi := (List.nodup_cons.1 h).1
    funext j
    by_cases hj : j = i
    · subst hj
      simp [hi]
    · simp [hj]

theorem foldl_update_finRange {p : ℕ} {α : Type} (f : Fin p → α → α) (A : Fin p → α) :
    (List.finRange p).foldl (fun A i => Function.update A i (f i (A i))) A = fun i => f i (A i) := by
  rw [foldl_update f _ _ (List.nodup_finRange p)]
  simp

namespace MTDMem

variable {T D k p : ℕ} {h0 : Heap K} {n0 : ℕ} {s : MTDMem K} {t : MTDState T D k p K}
variable (c : MTDConfig p K)

theorem Sim.evaluateCost (h : Sim h0 n0 s t) :
    MTDMem.evaluateCost T D k c s = t.evaluateCost c := by
  unfold MTDMem.evaluateCost
  rw [h.eq]

theorem Sim.predictedLoop : ∀ (l : List (Fin p)) {s : MTDMem K} {t : MTDState T D k p K},
    Sim h0 n0 s t →
    Sim h0 n0 (l.foldl (predictedStep T D k c) s)
      { t with
        Z := l.foldl (fun Z i => fun u j =>
          if c.maxLag ≤ u then
            let r := (u : ℕ) - c.maxLag
            Z u j + t.orderWeights i *
              ∑ l, rowAt t.Gamma (c.maxLag - c.lags i + r) l * (t.transitionMatrices i)ᵀ l j
          else Z u j) t.Z }
  | [], _, _, h => h
  | i :: l, s, t, h => by
    have h1 := h.augment_Z (M := _) (N := _) (congrArg (fun u : MTDState T D k p K =>
      (Matrix.of fun (t : Fin T) (j : Fin k) =>
        if c.maxLag ≤ t then
          u.Z t j + u.orderWeights i *
            ∑ l, rowAt u.Gamma (c.maxLag - c.lags i + ((t : ℕ) - c.maxLag)) l *
              (u.transitionMatrices i)ᵀ l j
        else u.Z t j)) h.eq)
    exact Sim.predictedLoop l h1

theorem Sim.updatePredictedWeights (h : Sim h0 n0 s t) :
    Sim h0 n0 (MTDMem.updatePredictedWeights T D k c s) (t.updatePredictedWeights c) := by
  have h1 := h.assign_Z (M := 0) (N := 0) rfl
  have h2 := h1.augment_Z (M := _) (N := _) (congrArg (fun u : MTDState T D k p K =>
    (Matrix.of fun (t : Fin T) (j : Fin k) =>
      if (t : ℕ) < c.maxLag then u.Gamma t j else u.Z t j)) h1.eq)
  exact Sim.predictedLoop c (List.finRange p) h2

theorem Sim.dictionaryPenaltyGradient (h : Sim h0 n0 s t) :
    Sim h0 n0 (MTDMem.dictionaryPenaltyGradient T D k c s)
      { t with toGPNHState := t.toGPNHState.dictionaryPenaltyGradient c.epsilonStates } := by
  unfold MTDMem.dictionaryPenaltyGradient GPNHState.dictionaryPenaltyGradient
  split_ifs with hk
  · exact h.assign_gradS rfl
  · exact h.assign_gradS (by rw [h.eq])

theorem Sim.updateDictionaryGradient (h : Sim h0 n0 s t) :
    Sim h0 n0 (MTDMem.updateDictionaryGradient T D k c s) (t.updateDictionaryGradient c) := by
  have h1 := h.dictionaryPenaltyGradient c
  have h2 := h1.augment_gradS (M := _) (N := _) (congrArg (fun u : MTDState T D k p K =>
    u.gradS + (-2 * (1 / ((D : K) * (T : K)))) • u.GtX) h1.eq)
  exact h2.augment_gradS (congrArg (fun u : MTDState T D k p K =>
    u.gradS + (2 * (1 / ((D : K) * (T : K)))) • (u.GtG * u.S)) h2.eq)

theorem Sim.dictionaryFirst (h : Sim h0 n0 s t) (ht : t.SOld = t.S) :
    Sim h0 n0 (MTDMem.dictionaryFirst T D k c s).1 (t.dictionaryTrial c 1).1 ∧
      (MTDMem.dictionaryFirst T D k c s).2 = (t.dictionaryTrial c 1).2 := by
  have h1 : Sim h0 n0 (s.augment .S ((rd T D k p s).S + (rd T D k p s).incrS))
      { t with S := t.SOld + (1 : K) • t.incrS } :=
    h.augment_S (by rw [h.eq, one_smul, ht])
  have h2 := h1.assign_SSt (M := _) (N := _)
    (congrArg (fun u : MTDState T D k p K => u.S * u.Sᵀ) h1.eq)
  exact ⟨h2, h2.evaluateCost c⟩

theorem Sim.dictionaryTrial (h : Sim h0 n0 s t) (step : K) :
    Sim h0 n0 (MTDMem.dictionaryTrial T D k c s step).1 (t.dictionaryTrial c step).1 ∧
      (MTDMem.dictionaryTrial T D k c s step).2 = (t.dictionaryTrial c step).2 := by
  have h1 : Sim h0 n0 (s.assign .S ((rd T D k p s).SOld + step • (rd T D k p s).incrS))
      { t with S := t.SOld + step • t.incrS } :=
    h.assign_S (by rw [h.eq])
  have h2 := h1.assign_SSt (M := _) (N := _)
    (congrArg (fun u : MTDState T D k p K => u.S * u.Sᵀ) h1.eq)
  exact ⟨h2, h2.evaluateCost c⟩

theorem Sim.dictionaryLineSearch (h : Sim h0 n0 s t) :
    HRel h0 n0 (fun r r' => Sim h0 n0 r.1 r'.1 ∧ r.2 = r'.2)
      (MTDMem.dictionaryLineSearch T D k c s) (t.dictionaryLineSearch c) := by
  have h1 : Sim h0 n0 (s.assign .SOld (rd T D k p s).S) { t with SOld := t.S } :=
    h.assign_SOld (by rw [h.eq])
  refine HRel.bind
    (x := hLineSearch c.ls (MTDMem.dictionaryFirst T D k c) (MTDMem.dictionaryTrial T D k c)
      (s.assign .SOld (rd T D k p s).S).rest.fSMem (s.assign .SOld (rd T D k p s).S)
      (MTDMem.evaluateCost T D k c s)
      (mulSum (rd T D k p (s.assign .SOld (rd T D k p s).S)).incrS
        (rd T D k p (s.assign .SOld (rd T D k p s).S)).gradS))
    (y := lineSearch c.ls (MTDState.dictionaryTrial c) t.fSMem { t with SOld := t.S }
      (t.evaluateCost c) (mulSum t.incrS t.gradS))
    (P := fun r r' => Sim h0 n0 r.state r'.state ∧ r.mem = r'.mem ∧ r.stepSize = r'.stepSize) ?_ ?_
  · rw [h.evaluateCost c, h1.eq,
      show (s.assign .SOld (rd T D k p s).S).rest.fSMem = t.fSMem from
        (congrArg (fun u : MTDState T D k p K => u.fSMem) h1.eq).trans rfl]
    exact hLineSearch_rel (R := fun s t => Sim h0 n0 s t) (fun _ _ h => h.keeps)
      (fun s t a h => h.dictionaryTrial c a) h1 (h1.dictionaryFirst c rfl)
  rintro a b ⟨h2, e1, e2⟩
  refine ⟨?_, e2⟩
  simp only [e1]
  exact h2.set_fSMem _

theorem Sim.prepareDictionary (h : Sim h0 n0 s t) :
    Sim h0 n0 (MTDMem.prepareDictionary T D k c s) (t.prepareDictionary c) := by
  have h1 := h.assign_SSt (M := _) (N := _)
    (congrArg (fun u : MTDState T D k p K => u.S * u.Sᵀ) h.eq)
  have h2 := h1.assign_GtX (M := _) (N := _)
    (congrArg (fun u : MTDState T D k p K => u.Gammaᵀ * u.X) h1.eq)
  have h3 := h2.assign_GtG (M := _) (N := _)
    (congrArg (fun u : MTDState T D k p K => u.Gammaᵀ * u.Gamma) h2.eq)
  have h4 := h3.updateDictionaryGradient c
  have h5 := h4.assign_incrS (M := _) (N := _)
    (congrArg (fun u : MTDState T D k p K => u.S - u.alphaS • u.gradS) h4.eq)
  exact h5.augment_incrS (congrArg (fun u : MTDState T D k p K => u.incrS - u.S) h5.eq)

/-! Other attributes are left alone. -/

/-- A state that differs from `s` in the attributes `A` only. -/
def Only (T D k p : ℕ) (h0 : Heap K) (n0 : ℕ) (A : MTDAttr → Prop) (s s' : MTDMem K) : Prop :=
  s'.Safe (mtdShape T D k p) h0 n0 ∧
    ∀ a, ¬ A a → s'.val (mtdShape T D k p) a = s.val (mtdShape T D k p) a

theorem Only.refl {A : MTDAttr → Prop} (h : s.Safe (mtdShape T D k p) h0 n0) :
    Only T D k p h0 n0 A s s := ⟨h, fun _ _ => rfl⟩

theorem Only.assign {A : MTDAttr → Prop} {s' : MTDMem K} (h : Only T D k p h0 n0 A s s')
    {a : MTDAttr} (ha : A a)
    (M : Matrix (Fin (mtdShape T D k p a).1) (Fin (mtdShape T D k p a).2) K) :
    Only T D k p h0 n0 A s (s'.assign a M) :=
  ⟨h.1.assign a M, fun b hb =>
    ((congrFun (HState.values_assign (shape := mtdShape T D k p) h.1.valid a M) b).trans
      (Function.update_of_ne (fun e : b = a => hb (e ▸ ha)) ..)).trans (h.2 b hb)⟩

theorem Only.augment {A : MTDAttr → Prop} {s' : MTDMem K} (h : Only T D k p h0 n0 A s s')
    {a : MTDAttr} (ha : A a)
    (M : Matrix (Fin (mtdShape T D k p a).1) (Fin (mtdShape T D k p a).2) K) :
    Only T D k p h0 n0 A s (s'.augment a M) :=
  ⟨h.1.augment a M, fun b hb =>
    ((congrFun (HState.values_augment (shape := mtdShape T D k p) h.1.owns a M) b).trans
      (Function.update_of_ne (fun e : b = a => hb (e ▸ ha)) ..)).trans (h.2 b hb)⟩

theorem Only.foldl {A : MTDAttr → Prop} {f : MTDMem K → Fin p → MTDMem K}
    (hf : ∀ s' i, Only T D k p h0 n0 A s s' → Only T D k p h0 n0 A s (f s' i)) :
    ∀ (l : List (Fin p)) {s' : MTDMem K}, Only T D k p h0 n0 A s s' →
      Only T D k p h0 n0 A s (l.foldl f s')
  | [], _, h => h
  | i :: l, s', h => Only.foldl hf l (hf s' i h)

theorem updateDictionaryGradient_only (h : s.Safe (mtdShape T D k p) h0 n0) :
    Only T D k p h0 n0 (fun a => a = .gradS) s (MTDMem.updateDictionaryGradient T D k c s) := by
  have h1 : Only T D k p h0 n0 (fun a => a = .gradS) s
      (MTDMem.dictionaryPenaltyGradient T D k c s) := by
    unfold MTDMem.dictionaryPenaltyGradient
    split_ifs
    · exact (Only.refl (A := fun a => a = .gradS) h).assign (a := .gradS) rfl _
    · exact (Only.refl (A := fun a => a = .gradS) h).assign (a := .gradS) rfl _
  exact (h1.augment (a := .gradS) rfl _).augment (a := .gradS) rfl _

theorem updateWeightsGradient_only (h : s.Safe (mtdShape T D k p) h0 n0) :
    Only T D k p h0 n0 (fun a => a = .gradGamma) s (MTDMem.updateWeightsGradient T D k c s) := by
  have h1 : Only T D k p h0 n0 (fun a => a = .gradGamma) s
      ((List.finRange p).foldl (penaltyStep T D k c
        ((rd T D k p (s.assign .gradGamma (0 : Matrix (Fin T) (Fin k) K))).Gamma -
          (rd T D k p (s.assign .gradGamma (0 : Matrix (Fin T) (Fin k) K))).Z))
        (s.assign .gradGamma (0 : Matrix (Fin T) (Fin k) K))) :=
    Only.foldl (A := fun a => a = .gradGamma)
      (fun s' i hs => hs.augment (a := .gradGamma) rfl _) _
      ((Only.refl (A := fun a => a = .gradGamma) h).assign (a := .gradGamma) rfl _)
  exact ((h1.augment (a := .gradGamma) rfl _).augment (a := .gradGamma) rfl _).augment
    (a := .gradGamma) rfl _

theorem updateParametersGradient_only (h : s.Safe (mtdShape T D k p) h0 n0) :
    Only T D k p h0 n0 (fun a => a = .gradOrderWeights ∨ a = .gradTransitionMatrices) s
      (MTDMem.updateParametersGradient T D k c s) := by
  refine Only.foldl ?_ _ ?_
  · exact fun s' i hs => (hs.augment (a := .gradOrderWeights) (Or.inl rfl) _).augment
      (a := .gradTransitionMatrices) (Or.inr rfl) _
  · exact ((Only.refl h).assign (a := .gradOrderWeights) (Or.inl rfl) _).assign
      (a := .gradTransitionMatrices) (Or.inr rfl) _

theorem Sim.finishDictionary (h : Sim h0 n0 s t) (step : K) :
    Sim h0 n0 (MTDMem.finishDictionary T D k c s step)
      { t.updateDictionaryGradient c with
        alphaS := nextSpgAlpha
          (step * mulSum (t.updateDictionaryGradient c).incrS
            ((t.updateDictionaryGradient c).gradS - t.gradS))
          (step ^ 2 * mulSum (t.updateDictionaryGradient c).incrS
            (t.updateDictionaryGradient c).incrS) c.ls.alphaMin c.ls.alphaMax } := by
  have h1 := h.assign_deltaGradS (rd T D k p s).gradS
  have h2 := h1.updateDictionaryGradient c
  have e2 : deltaGradS T D k p (MTDMem.updateDictionaryGradient T D k c
      (s.assign .deltaGradS (rd T D k p s).gradS)) = t.gradS :=
    ((updateDictionaryGradient_only c h1.safe).2 .deltaGradS (by decide)).trans
      ((deltaGradS_assign h.safe.valid _).trans
        (congrArg (fun u : MTDState T D k p K => u.gradS) h.eq))
  have h3 := h2.assign_deltaGradS ((rd T D k p (MTDMem.updateDictionaryGradient T D k c
      (s.assign .deltaGradS (rd T D k p s).gradS))).gradS - deltaGradS T D k p
        (MTDMem.updateDictionaryGradient T D k c (s.assign .deltaGradS (rd T D k p s).gradS)))
  unfold MTDMem.finishDictionary
  refine h3.set_alphaS ?_
  rw [h3.eq, deltaGradS_assign h2.safe.valid, e2, h2.eq]

theorem Sim.updateDictionary (h : Sim h0 n0 s t) :
    HRel h0 n0 (Sim h0 n0) (MTDMem.updateDictionary T D k c s) (t.updateDictionary c) := by
  unfold MTDMem.updateDictionary MTDState.updateDictionary
  refine HRel.bind ((h.prepareDictionary c).dictionaryLineSearch c) ?_
  rintro ⟨a, x⟩ ⟨b, y⟩ ⟨h1, e⟩
  obtain rfl : x = y := e
  exact h1.finishDictionary c x

/-! Weights. -/

theorem Sim.penaltyLoop (R : Matrix (Fin T) (Fin k) K) :
    ∀ (l : List (Fin p)) {s : MTDMem K} {t : MTDState T D k p K}, Sim h0 n0 s t →
    Sim h0 n0 (l.foldl (penaltyStep T D k c R) s)
      { t with
        gradGamma := l.foldl (fun G i => fun u j =>
          if (u : ℕ) < T - c.lags i then
            G u j + -2 * c.epsilonWeights * t.weightsNormalization c * t.orderWeights i *
              ∑ l, rowAt R (c.lags i + u) l * t.transitionMatrices i l j
          else G u j) t.gradGamma }
  | [], _, _, h => h
  | i :: l, s, t, h => by
    have h1 := h.augment_gradGamma (M := _) (N := _) (congrArg (fun u : MTDState T D k p K =>
      (Matrix.of fun (t : Fin T) (j : Fin k) =>
        if (t : ℕ) < T - c.lags i then
          u.gradGamma t j + -2 * c.epsilonWeights * u.weightsNormalization c * u.orderWeights i *
            ∑ l, rowAt R (c.lags i + t) l * u.transitionMatrices i l j
        else u.gradGamma t j)) h.eq)
    exact Sim.penaltyLoop R l h1

theorem Sim.weightsPenaltyGradient (h : Sim h0 n0 s t) :
    Sim h0 n0 (MTDMem.weightsPenaltyGradient T D k c s) (t.weightsPenaltyGradient c) := by
  have h1 := h.assign_gradGamma (M := 0) (N := 0) rfl
  have h2 := Sim.penaltyLoop c (t.Gamma - t.Z) (List.finRange p) h1
  have h3 := h2.augment_gradGamma (M := _) (N := _) (congrArg (fun u : MTDState T D k p K =>
    (Matrix.of fun (t : Fin T) (j : Fin k) =>
      if c.maxLag ≤ t then
        u.gradGamma t j + 2 * c.epsilonWeights * u.weightsNormalization c *
          (u.Gamma t j - u.Z t j)
      else u.gradGamma t j)) h2.eq)
  have e : (rd T D k p (s.assign .gradGamma (0 : Matrix (Fin T) (Fin k) K))).Gamma -
      (rd T D k p (s.assign .gradGamma (0 : Matrix (Fin T) (Fin k) K))).Z = t.Gamma - t.Z := by
    rw [h1.eq]
  unfold MTDMem.weightsPenaltyGradient
  simp only [e]
  exact h3

theorem Sim.updateWeightsGradient (h : Sim h0 n0 s t) :
    Sim h0 n0 (MTDMem.updateWeightsGradient T D k c s) (t.updateWeightsGradient c) := by
  have h1 := h.weightsPenaltyGradient c
  have h2 := h1.augment_gradGamma (M := _) (N := _) (congrArg (fun u : MTDState T D k p K =>
    u.gradGamma + (-2 * (1 / ((D : K) * (T : K)))) • u.XSt) h1.eq)
  exact h2.augment_gradGamma (congrArg (fun u : MTDState T D k p K =>
    u.gradGamma + (2 * (1 / ((D : K) * (T : K)))) • (u.Gamma * u.SSt)) h2.eq)

theorem Sim.weightsFirst (h : Sim h0 n0 s t) (ht : t.GammaOld = t.Gamma) :
    Sim h0 n0 (MTDMem.weightsFirst T D k c s).1 (t.weightsTrial c 1).1 ∧
      (MTDMem.weightsFirst T D k c s).2 = (t.weightsTrial c 1).2 := by
  have h1 : Sim h0 n0 (s.augment .Gamma ((rd T D k p s).Gamma + (rd T D k p s).incrGamma))
      { t with Gamma := t.GammaOld + (1 : K) • t.incrGamma } :=
    h.augment_Gamma (by rw [h.eq, one_smul, ht])
  have h2 := h1.updatePredictedWeights c
  exact ⟨h2, h2.evaluateCost c⟩

theorem Sim.weightsTrial (h : Sim h0 n0 s t) (step : K) :
    Sim h0 n0 (MTDMem.weightsTrial T D k c s step).1 (t.weightsTrial c step).1 ∧
      (MTDMem.weightsTrial T D k c s step).2 = (t.weightsTrial c step).2 := by
  have h1 : Sim h0 n0
      (s.assign .Gamma ((rd T D k p s).GammaOld + step • (rd T D k p s).incrGamma))
      { t with Gamma := t.GammaOld + step • t.incrGamma } :=
    h.assign_Gamma (by rw [h.eq])
  have h2 := h1.updatePredictedWeights c
  exact ⟨h2, h2.evaluateCost c⟩

theorem Sim.weightsLineSearch (h : Sim h0 n0 s t) :
    HRel h0 n0 (fun r r' => Sim h0 n0 r.1 r'.1 ∧ r.2 = r'.2)
      (MTDMem.weightsLineSearch T D k c s) (t.weightsLineSearch c) := by
  have h1 : Sim h0 n0 (s.assign .GammaOld (rd T D k p s).Gamma) { t with GammaOld := t.Gamma } :=
    h.assign_GammaOld (by rw [h.eq])
  refine HRel.bind
    (x := hLineSearch c.ls (MTDMem.weightsFirst T D k c) (MTDMem.weightsTrial T D k c)
      (s.assign .GammaOld (rd T D k p s).Gamma).rest.fGammaMem
      (s.assign .GammaOld (rd T D k p s).Gamma)
      (MTDMem.evaluateCost T D k c s)
      (mulSum (rd T D k p (s.assign .GammaOld (rd T D k p s).Gamma)).incrGamma
        (rd T D k p (s.assign .GammaOld (rd T D k p s).Gamma)).gradGamma))
    (y := lineSearch c.ls (MTDState.weightsTrial c) t.fGammaMem { t with GammaOld := t.Gamma }
      (t.evaluateCost c) (mulSum t.incrGamma t.gradGamma))
    (P := fun r r' => Sim h0 n0 r.state r'.state ∧ r.mem = r'.mem ∧ r.stepSize = r'.stepSize) ?_ ?_
  · rw [h.evaluateCost c, h1.eq,
      show (s.assign .GammaOld (rd T D k p s).Gamma).rest.fGammaMem = t.fGammaMem from
        (congrArg (fun u : MTDState T D k p K => u.fGammaMem) h1.eq).trans rfl]
    exact hLineSearch_rel (R := fun s t => Sim h0 n0 s t) (fun _ _ h => h.keeps)
      (fun s t a h => h.weightsTrial c a) h1 (h1.weightsFirst c rfl)
  rintro a b ⟨h2, e1, e2⟩
  refine ⟨?_, e2⟩
  simp only [e1]
  exact h2.set_fGammaMem _

theorem Sim.prepareWeights (h : Sim h0 n0 s t) :
    Sim h0 n0 (MTDMem.prepareWeights T D k c s) (t.prepareWeights c) := by
  have h1 := h.assign_SSt (M := _) (N := _)
    (congrArg (fun u : MTDState T D k p K => u.S * u.Sᵀ) h.eq)
  have h2 := h1.assign_XSt (M := _) (N := _)
    (congrArg (fun u : MTDState T D k p K => u.X * u.Sᵀ) h1.eq)
  have h4 := h2.updateWeightsGradient c
  have h5 := h4.assign_incrGamma (M := _) (N := _)
    (congrArg (fun u : MTDState T D k p K => u.Gamma - u.alphaGamma • u.gradGamma) h4.eq)
  have h6 := h5.augment_incrGamma (M := _) (N := _)
    (congrArg (fun u : MTDState T D k p K => simplexProjectRows u.incrGamma) h5.eq)
  exact h6.augment_incrGamma
    (congrArg (fun u : MTDState T D k p K => u.incrGamma - u.Gamma) h6.eq)

theorem Sim.finishWeights (h : Sim h0 n0 s t) (step : K) :
    Sim h0 n0 (MTDMem.finishWeights T D k c s step)
      { t.updateWeightsGradient c with
        alphaGamma := nextSpgAlpha
          (step * mulSum (t.updateWeightsGradient c).incrGamma
            ((t.updateWeightsGradient c).gradGamma - t.gradGamma))
          (step ^ 2 * mulSum (t.updateWeightsGradient c).incrGamma
            (t.updateWeightsGradient c).incrGamma) c.ls.alphaMin c.ls.alphaMax } := by
  have h1 := h.assign_deltaGradGamma (rd T D k p s).gradGamma
  have h2 := h1.updateWeightsGradient c
  have e2 : deltaGradGamma T D k p (MTDMem.updateWeightsGradient T D k c
      (s.assign .deltaGradGamma (rd T D k p s).gradGamma)) = t.gradGamma :=
    ((updateWeightsGradient_only c h1.safe).2 .deltaGradGamma (by decide)).trans
      ((deltaGradGamma_assign h.safe.valid _).trans
        (congrArg (fun u : MTDState T D k p K => u.gradGamma) h.eq))
  have h3 := h2.assign_deltaGradGamma ((rd T D k p (MTDMem.updateWeightsGradient T D k c
      (s.assign .deltaGradGamma (rd T D k p s).gradGamma))).gradGamma - deltaGradGamma T D k p
        (MTDMem.updateWeightsGradient T D k c
          (s.assign .deltaGradGamma (rd T D k p s).gradGamma)))
  unfold MTDMem.finishWeights
  refine h3.set_alphaGamma ?_
  rw [h3.eq, deltaGradGamma_assign h2.safe.valid, e2, h2.eq]

theorem Sim.updateWeights (h : Sim h0 n0 s t) :
    HRel h0 n0 (Sim h0 n0) (MTDMem.updateWeights T D k c s) (t.updateWeights c) := by
  unfold MTDMem.updateWeights MTDState.updateWeights
  split_ifs with hT
  · exact ⟨rfl, h.keeps⟩
  · unfold MTDState.finishWeights
    refine HRel.bind ((h.prepareWeights c).weightsLineSearch c) ?_
    rintro ⟨a, x⟩ ⟨b, y⟩ ⟨h1, e⟩
    obtain rfl : x = y := e
    exact h1.finishWeights c x

/-! Parameters. -/

/-- The rows of the weights the lag `i` looks at. -/
abbrev lagged (c : MTDConfig p K) (t : MTDState T D k p K) (i : Fin p) :
    Matrix (Fin (T - c.maxLag)) (Fin k) K := fun r =>
  rowAt t.Gamma (c.maxLag - c.lags i + r)

theorem Sim.parametersGradientLoop (R : Matrix (Fin (T - c.maxLag)) (Fin k) K) :
    ∀ (l : List (Fin p)) {s : MTDMem K} {t : MTDState T D k p K}, Sim h0 n0 s t →
    Sim h0 n0 (l.foldl (parametersGradientStep T D k c R) s)
      { t with
        gradOrderWeights := l.foldl (fun A i => Function.update A i
          (-2 * c.epsilonWeights * t.weightsNormalization c *
            (R * t.transitionMatrices i *
              (lagged c t i)ᵀ).trace)) t.gradOrderWeights
        gradTransitionMatrices := l.foldl (fun A i => Function.update A i
          ((-2 * c.epsilonWeights * t.weightsNormalization c * t.orderWeights i) •
            (Rᵀ * (lagged c t i)))) t.gradTransitionMatrices }
  | [], _, _, h => h
  | i :: l, s, t, h => by
    have h1 := h.augment_gradOrderWeights (M := _) (N := _)
      (congrArg (fun u : MTDState T D k p K => Function.update u.gradOrderWeights i
        (-2 * c.epsilonWeights * u.weightsNormalization c *
          (R * u.transitionMatrices i *
            (lagged c u i)ᵀ).trace)) h.eq)
    have h2 := h1.augment_gradTransitionMatrices (M := _) (N := _)
      (congrArg (fun u : MTDState T D k p K => Function.update u.gradTransitionMatrices i
        ((-2 * c.epsilonWeights * u.weightsNormalization c * u.orderWeights i) •
          (Rᵀ * (lagged c u i)))) h1.eq)
    exact Sim.parametersGradientLoop R l h2

theorem Sim.updateParametersGradient (h : Sim h0 n0 s t) :
    Sim h0 n0 (MTDMem.updateParametersGradient T D k c s) (t.updateParametersGradient c) := by
  have h1 := h.assign_gradOrderWeights (M := 0) (N := 0) rfl
  have h2 := h1.assign_gradTransitionMatrices (M := 0) (N := 0) rfl
  let R : Matrix (Fin (T - c.maxLag)) (Fin k) K := fun r => rowAt (t.Gamma - t.Z) (c.maxLag + r)
  have h3 := Sim.parametersGradientLoop c R (List.finRange p) h2
  unfold MTDMem.updateParametersGradient
  rw [h.eq]
  refine ⟨h3.safe, h3.eq.trans ?_⟩
  have e1 := foldl_update_finRange (fun (i : Fin p) (_ : K) =>
    -2 * c.epsilonWeights * t.weightsNormalization c *
      (R * t.transitionMatrices i * (lagged c t i)ᵀ).trace) 0
  have e2 := foldl_update_finRange (fun (i : Fin p) (_ : Matrix (Fin k) (Fin k) K) =>
    (-2 * c.epsilonWeights * t.weightsNormalization c * t.orderWeights i) •
      (Rᵀ * lagged c t i)) 0
  change ({ t with gradOrderWeights := _, gradTransitionMatrices := _ } : MTDState T D k p K) =
    { t with gradOrderWeights := _, gradTransitionMatrices := _ }
  congr 1

theorem Sim.parametersFirst (h : Sim h0 n0 s t) (hw : t.orderWeightsOld = t.orderWeights)
    (hA : t.transitionMatricesOld = t.transitionMatrices) :
    Sim h0 n0 (MTDMem.parametersFirst T D k c s).1 (t.parametersTrial c 1).1 ∧
      (MTDMem.parametersFirst T D k c s).2 = (t.parametersTrial c 1).2 := by
  have h1 : Sim h0 n0 (s.augment .orderWeights
        (asRow ((rd T D k p s).orderWeights + (rd T D k p s).incrOrderWeights)))
      { t with orderWeights := t.orderWeightsOld + (1 : K) • t.incrOrderWeights } :=
    h.augment_orderWeights (by rw [h.eq, one_smul, hw])
  have h2 := h1.augment_transitionMatrices
    (M := (rd T D k p _).transitionMatrices + (rd T D k p _).incrTransitionMatrices)
    (N := t.transitionMatricesOld + (1 : K) • t.incrTransitionMatrices)
    (by rw [one_smul, hA, h1.eq])
  have h3 := h2.updatePredictedWeights c
  exact ⟨h3, h3.evaluateCost c⟩

theorem Sim.parametersTrial (h : Sim h0 n0 s t) (step : K) :
    Sim h0 n0 (MTDMem.parametersTrial T D k c s step).1 (t.parametersTrial c step).1 ∧
      (MTDMem.parametersTrial T D k c s step).2 = (t.parametersTrial c step).2 := by
  have h1 := h.assign_orderWeights (M := _) (N := _) (congrArg (fun u : MTDState T D k p K =>
    u.orderWeightsOld + step • u.incrOrderWeights) h.eq)
  have h2 := h1.assign_transitionMatrices (M := _) (N := _)
    (congrArg (fun u : MTDState T D k p K =>
      u.transitionMatricesOld + step • u.incrTransitionMatrices) h1.eq)
  have h3 := h2.updatePredictedWeights c
  exact ⟨h3, h3.evaluateCost c⟩

theorem Sim.parametersLineSearch (h : Sim h0 n0 s t) :
    HRel h0 n0 (fun r r' => Sim h0 n0 r.1 r'.1 ∧ r.2 = r'.2)
      (MTDMem.parametersLineSearch T D k c s) (t.parametersLineSearch c) := by
  have h1 := h.assign_orderWeightsOld (M := (rd T D k p s).orderWeights) (N := t.orderWeights)
    (by rw [h.eq])
  have h2 := h1.assign_transitionMatricesOld (M := (rd T D k p _).transitionMatrices)
    (N := t.transitionMatrices) (by rw [h1.eq])
  unfold MTDMem.parametersLineSearch MTDState.parametersLineSearch
  extract_lets f0 s1 s2 n1 g0 t1 t2 n2
  have e0 : f0 = g0 := h.evaluateCost c
  have e1 : n1 = n2 := congrArg (fun u : MTDState T D k p K =>
    vecMulSum u.incrOrderWeights u.gradOrderWeights +
      mulSum3 u.incrTransitionMatrices u.gradTransitionMatrices) h2.eq
  have e2 : s2.rest.fParametersMem = t2.fParametersMem :=
    congrArg (fun u : MTDState T D k p K => u.fParametersMem) h2.eq
  refine HRel.bind (P := fun r r' => Sim h0 n0 r.state r'.state ∧ r.mem = r'.mem ∧
    r.stepSize = r'.stepSize) ?_ ?_
  · rw [e0, e1, e2]
    exact hLineSearch_rel (R := fun s t => Sim h0 n0 s t) (fun _ _ h => h.keeps)
      (fun s t a h => h.parametersTrial c a) h2 (h2.parametersFirst c rfl rfl)
  rintro a b ⟨h3, e1, e2⟩
  refine ⟨?_, e2⟩
  simp only [e1]
  exact h3.set_fParametersMem _

theorem Sim.projectLoop : ∀ (l : List (Fin p)) {s : MTDMem K} {t : MTDState T D k p K},
    Sim h0 n0 s t →
    Sim h0 n0 (l.foldl (projectStep T D k) s)
      { t with
        incrTransitionMatrices := l.foldl (fun A i => Function.update A i
          (simplexProjectColumns (A i))) t.incrTransitionMatrices }
  | [], _, _, h => h
  | i :: l, s, t, h => by
    have h1 := h.augment_incrTransitionMatrices (M := _) (N := _)
      (congrArg (fun u : MTDState T D k p K => Function.update u.incrTransitionMatrices i
        (simplexProjectColumns (u.incrTransitionMatrices i))) h.eq)
    exact Sim.projectLoop l h1

theorem Sim.prepareParameters (h : Sim h0 n0 s t) :
    Sim h0 n0 (MTDMem.prepareParameters T D k c s) (t.prepareParameters c) := by
  have h1 := (h.updatePredictedWeights c).updateParametersGradient c
  have h2 := h1.assign_incrOrderWeights (M := _) (N := _) (congrArg (fun u : MTDState T D k p K =>
    u.orderWeights - u.alphaParameters • u.gradOrderWeights) h1.eq)
  have h3 := h2.assign_incrTransitionMatrices (M := _) (N := _)
    (congrArg (fun u : MTDState T D k p K =>
      u.transitionMatrices - u.alphaParameters • u.gradTransitionMatrices) h2.eq)
  have h4 := h3.assign_incrOrderWeights (M := _) (N := _) (congrArg (fun u : MTDState T D k p K =>
    simplexProjectVector u.incrOrderWeights) h3.eq)
  have h5 := Sim.projectLoop (List.finRange p) h4
  rw [foldl_update_finRange (fun _ (A : Matrix (Fin k) (Fin k) K) => simplexProjectColumns A)] at h5
  have h6 := h5.augment_incrOrderWeights (M := _) (N := _) (congrArg (fun u : MTDState T D k p K =>
    u.incrOrderWeights - u.orderWeights) h5.eq)
  exact h6.augment_incrTransitionMatrices (congrArg (fun u : MTDState T D k p K =>
    u.incrTransitionMatrices - u.transitionMatrices) h6.eq)

theorem Sim.finishParameters (h : Sim h0 n0 s t) (step : K) :
    Sim h0 n0 (MTDMem.finishParameters T D k c s step)
      { t.updateParametersGradient c with
        alphaParameters := nextSpgAlpha
          (step * (vecMulSum (t.updateParametersGradient c).incrOrderWeights
              ((t.updateParametersGradient c).gradOrderWeights - t.gradOrderWeights) +
            mulSum3 (t.updateParametersGradient c).incrTransitionMatrices
              ((t.updateParametersGradient c).gradTransitionMatrices - t.gradTransitionMatrices)))
          (step ^ 2 * (vecMulSum (t.updateParametersGradient c).incrOrderWeights
              (t.updateParametersGradient c).incrOrderWeights +
            mulSum3 (t.updateParametersGradient c).incrTransitionMatrices
              (t.updateParametersGradient c).incrTransitionMatrices))
          c.ls.alphaMin c.ls.alphaMax } := by
  unfold MTDMem.finishParameters
  extract_lets s1 s2 s3 s4 s5 sk be
  have h1 : Sim h0 n0 s1 t := h.assign_deltaGradOrderWeights _
  have h2 : Sim h0 n0 s2 t := h1.assign_deltaGradTransitionMatrices _
  have h3 : Sim h0 n0 s3 (t.updateParametersGradient c) := h2.updateParametersGradient c
  have h4 : Sim h0 n0 s4 (t.updateParametersGradient c) := h3.assign_deltaGradOrderWeights _
  have h5 : Sim h0 n0 s5 (t.updateParametersGradient c) := h4.assign_deltaGradTransitionMatrices _
  have o3 := updateParametersGradient_only c h2.safe
  have w2 : deltaGradOrderWeights T D k p s2 = t.gradOrderWeights :=
    (congrArg ofRow (((Only.refl h1.safe).assign (A := fun a => a = .deltaGradTransitionMatrices)
      (a := .deltaGradTransitionMatrices) rfl _).2 .deltaGradOrderWeights (by decide))).trans
      ((deltaGradOrderWeights_assign h.safe.valid _).trans
        (congrArg (fun u : MTDState T D k p K => u.gradOrderWeights) h.eq))
  have a2 : deltaGradTransitionMatrices T D k p s2 = t.gradTransitionMatrices :=
    (deltaGradTransitionMatrices_assign h1.safe.valid _).trans
        (congrArg (fun u : MTDState T D k p K => u.gradTransitionMatrices) h1.eq)
  have w3 : deltaGradOrderWeights T D k p s3 = t.gradOrderWeights :=
    (congrArg ofRow (o3.2 .deltaGradOrderWeights (by decide))).trans w2
  have a3 : deltaGradTransitionMatrices T D k p s3 = t.gradTransitionMatrices :=
    (congrArg unstack (o3.2 .deltaGradTransitionMatrices (by decide))).trans a2
  have w4 : deltaGradOrderWeights T D k p s4 =
      (t.updateParametersGradient c).gradOrderWeights - t.gradOrderWeights := by
    refine (deltaGradOrderWeights_assign h3.safe.valid _).trans ?_
    rw [w3, h3.eq]
  have a4 : deltaGradTransitionMatrices T D k p s4 = t.gradTransitionMatrices :=
    (congrArg unstack (((Only.refl h3.safe).assign (A := fun a => a = .deltaGradOrderWeights)
      (a := .deltaGradOrderWeights) rfl _).2 .deltaGradTransitionMatrices (by decide))).trans a3
  have w5 : deltaGradOrderWeights T D k p s5 =
      (t.updateParametersGradient c).gradOrderWeights - t.gradOrderWeights :=
    (congrArg ofRow (((Only.refl h4.safe).assign (A := fun a => a = .deltaGradTransitionMatrices)
      (a := .deltaGradTransitionMatrices) rfl _).2 .deltaGradOrderWeights (by decide))).trans w4
  have a5 : deltaGradTransitionMatrices T D k p s5 =
      (t.updateParametersGradient c).gradTransitionMatrices - t.gradTransitionMatrices := by
    refine (deltaGradTransitionMatrices_assign h4.safe.valid _).trans ?_
    rw [a4, h4.eq]
  refine h5.set_alphaParameters ?_
  simp only [sk, be, h5.eq, w5, a5]

theorem Sim.updateParameters (h : Sim h0 n0 s t) :
    HRel h0 n0 (Sim h0 n0) (MTDMem.updateParameters T D k c s) (t.updateParameters c) := by
  unfold MTDMem.updateParameters MTDState.updateParameters
  split_ifs with hT
  · exact ⟨rfl, h.keeps⟩
  · unfold MTDState.finishParameters
    refine HRel.bind ((h.prepareParameters c).parametersLineSearch c) ?_
    rintro ⟨a, x⟩ ⟨b, y⟩ ⟨h1, e⟩
    obtain rfl : x = y := e
    exact h1.finishParameters c x

theorem Sim.iterate (h : Sim h0 n0 s t) (require : Bool) (tol : K) (maxIter : ℕ)
    (ud uw up : Bool) :
    HRel h0 n0 (fun r r' => Sim h0 n0 r.state r'.state ∧ r.cost = r'.cost ∧ r.nIter = r'.nIter ∧
        r.trace = r'.trace)
      (MTDMem.iterate T D k c require tol maxIter ud uw up s)
      (mtdIterate c require tol maxIter ud uw up t) := by
  unfold MTDMem.iterate mtdIterate
  split_ifs with hz hT
  · exact ⟨rfl, h.keeps⟩
  · exact ⟨rfl, h.keeps⟩
  all_goals
    refine hIterate_rel (R := fun s t => Sim h0 n0 s t) (fun _ _ h => h.keeps)
      (fun s t h => ⟨h, h.evaluateCost c⟩) ?_ h
    refine List.rel_append (List.rel_append ?_ ?_) ?_
    all_goals
      first
      | exact .nil
      | exact .cons (fun s t h => h.updateDictionary c) .nil
      | exact .cons (fun s t h => h.updateWeights c) .nil
      | exact .cons (fun s t h => h.updateParameters c) .nil

theorem Sim.initializeWorkspace {h : Heap K} (hk : h0.Keeps h n0)
    {data weights dictionary orderWeights transitionMatrices : ℕ} (hd : data < h.next)
    (hw : weights < h.next) (hs : dictionary < h.next) (ho : orderWeights < h.next)
    (ha : transitionMatrices < h.next) {X : Matrix (Fin T) (Fin D) K} {G : Matrix (Fin T) (Fin k) K}
    {S : Matrix (Fin k) (Fin D) K} {ow : Fin p → K} {A : Fin p → Matrix (Fin k) (Fin k) K}
    (hX : (h.cell data).at T D = X) (hG : (h.cell weights).at T k = G)
    (hS : (h.cell dictionary).at k D = S) (hO : ofRow ((h.cell orderWeights).at 1 p) = ow)
    (hA : unstack ((h.cell transitionMatrices).at (p * k) k) = A) :
    Sim h0 n0 (MTDMem.initializeWorkspace T D k c h data weights dictionary orderWeights
        transitionMatrices)
      (MTDState.initializeWorkspace c X G S ow A) := by
  unfold MTDMem.initializeWorkspace
  extract_lets s0 s1 s2 s3 s4 s5 s6 s7 s8 s9 s10 s11 s12 s13 s14 s15 s16 s17 s18 s19 s20 s21 s22 s23 s24 s25 s26
  unfold MTDState.initializeWorkspace
  refine Sim.updatePredictedWeights c ?_
  have v0 : s0.Valid := fun _ => hd
  have v1 : s1.Valid := v0.assign _ _
  have v2 : s2.Valid := v1.assign _ _
  have v3 : s3.Valid := v2.assign _ _
  have v4 : s4.Valid := v3.assign _ _
  have v5 : s5.Valid := v4.assign _ _
  have v6 : s6.Valid := v5.assign _ _
  have v7 : s7.Valid := v6.assign _ _
  have v8 : s8.Valid := v7.assign _ _
  have v9 : s9.Valid := v8.assign _ _
  have v10 : s10.Valid := v9.assign _ _
  have v11 : s11.Valid := v10.assign _ _
  have v12 : s12.Valid := v11.assign _ _
  have v13 : s13.Valid := v12.assign _ _
  have v14 : s14.Valid := v13.assign _ _
  have v15 : s15.Valid := v14.assign _ _
  have v16 : s16.Valid := v15.assign _ _
  have v17 : s17.Valid := v16.assign _ _
  have v18 : s18.Valid := v17.assign _ _
  have v19 : s19.Valid := v18.assign _ _
  have v20 : s20.Valid := v19.assign _ _
  have v21 : s21.Valid := v20.assign _ _
  have v22 : s22.Valid := v21.assign _ _
  have v23 : s23.Valid := v22.assign _ _
  have v24 : s24.Valid := v23.assign _ _
  have v25 : s25.Valid := v24.assign _ _
  have k0 : h0.Keeps s0.heap n0 := hk
  have k1 : h0.Keeps s1.heap n0 := HState.keeps_assign k0 _ _
  have k2 : h0.Keeps s2.heap n0 := HState.keeps_assign k1 _ _
  have k3 : h0.Keeps s3.heap n0 := HState.keeps_assign k2 _ _
  have k4 : h0.Keeps s4.heap n0 := HState.keeps_assign k3 _ _
  have k5 : h0.Keeps s5.heap n0 := HState.keeps_assign k4 _ _
  have k6 : h0.Keeps s6.heap n0 := HState.keeps_assign k5 _ _
  have k7 : h0.Keeps s7.heap n0 := HState.keeps_assign k6 _ _
  have k8 : h0.Keeps s8.heap n0 := HState.keeps_assign k7 _ _
  have k9 : h0.Keeps s9.heap n0 := HState.keeps_assign k8 _ _
  have k10 : h0.Keeps s10.heap n0 := HState.keeps_assign k9 _ _
  have k11 : h0.Keeps s11.heap n0 := HState.keeps_assign k10 _ _
  have k12 : h0.Keeps s12.heap n0 := HState.keeps_assign k11 _ _
  have k13 : h0.Keeps s13.heap n0 := HState.keeps_assign k12 _ _
  have k14 : h0.Keeps s14.heap n0 := HState.keeps_assign k13 _ _
  have k15 : h0.Keeps s15.heap n0 := HState.keeps_assign k14 _ _
  have k16 : h0.Keeps s16.heap n0 := HState.keeps_assign k15 _ _
  have k17 : h0.Keeps s17.heap n0 := HState.keeps_assign k16 _ _
  have k18 : h0.Keeps s18.heap n0 := HState.keeps_assign k17 _ _
  have k19 : h0.Keeps s19.heap n0 := HState.keeps_assign k18 _ _
  have k20 : h0.Keeps s20.heap n0 := HState.keeps_assign k19 _ _
  have k21 : h0.Keeps s21.heap n0 := HState.keeps_assign k20 _ _
  have k22 : h0.Keeps s22.heap n0 := HState.keeps_assign k21 _ _
  have k23 : h0.Keeps s23.heap n0 := HState.keeps_assign k22 _ _
  have k24 : h0.Keeps s24.heap n0 := HState.keeps_assign k23 _ _
  have k25 : h0.Keeps s25.heap n0 := HState.keeps_assign k24 _ _
  have o0 : s0.Owns (mtdShape T D k p) n0 fun _ => False :=
    ⟨fun _ h => h.elim, fun _ _ h => h.elim⟩
  have o1 := o0.assign v0 k0.1 .X ((s0.heap.cell data).at T D)
  have o2 := o1.assign v1 k1.1 .Gamma ((s1.heap.cell weights).at T k)
  have o3 := o2.assign v2 k2.1 .S ((s2.heap.cell dictionary).at k D)
  have o4 := o3.assign v3 k3.1 .orderWeights ((s3.heap.cell orderWeights).at 1 p)
  have o5 := o4.assign v4 k4.1 .transitionMatrices ((s4.heap.cell transitionMatrices).at (p * k) k)
  have o6 := o5.assign v5 k5.1 .GtG ((rd T D k p s5).Gammaᵀ * (rd T D k p s5).Gamma)
  have o7 := o6.assign v6 k6.1 .GtX ((rd T D k p s6).Gammaᵀ * (rd T D k p s6).X)
  have o8 := o7.assign v7 k7.1 .XSt ((rd T D k p s7).X * (rd T D k p s7).Sᵀ)
  have o9 := o8.assign v8 k8.1 .SSt ((rd T D k p s8).S * (rd T D k p s8).Sᵀ)
  have o10 := o9.assign v9 k9.1 .Z (0 : Matrix (Fin T) (Fin k) K)
  have o11 := o10.assign v10 k10.1 .GammaOld (rd T D k p s10).Gamma
  have o12 := o11.assign v11 k11.1 .gradGamma (0 : Matrix (Fin T) (Fin k) K)
  have o13 := o12.assign v12 k12.1 .deltaGradGamma (0 : Matrix (Fin T) (Fin k) K)
  have o14 := o13.assign v13 k13.1 .incrGamma (0 : Matrix (Fin T) (Fin k) K)
  have o15 := o14.assign v14 k14.1 .SOld (rd T D k p s14).S
  have o16 := o15.assign v15 k15.1 .gradS (0 : Matrix (Fin k) (Fin D) K)
  have o17 := o16.assign v16 k16.1 .deltaGradS (0 : Matrix (Fin k) (Fin D) K)
  have o18 := o17.assign v17 k17.1 .incrS (0 : Matrix (Fin k) (Fin D) K)
  have o19 := o18.assign v18 k18.1 .orderWeightsOld (asRow (rd T D k p s18).orderWeights)
  have o20 := o19.assign v19 k19.1 .gradOrderWeights (asRow (0 : Fin p → K))
  have o21 := o20.assign v20 k20.1 .deltaGradOrderWeights (asRow (0 : Fin p → K))
  have o22 := o21.assign v21 k21.1 .incrOrderWeights (asRow (0 : Fin p → K))
  have o23 := o22.assign v22 k22.1 .transitionMatricesOld (stack (rd T D k p s22).transitionMatrices)
  have o24 := o23.assign v23 k23.1 .gradTransitionMatrices (stack (0 : Fin p → Matrix (Fin k) (Fin k) K))
  have o25 := o24.assign v24 k24.1 .deltaGradTransitionMatrices (stack (0 : Fin p → Matrix (Fin k) (Fin k) K))
  have o26 := o25.assign v25 k25.1 .incrTransitionMatrices (stack (0 : Fin p → Matrix (Fin k) (Fin k) K))
  refine ⟨⟨v25.assign _ _, o26.mono fun a _ => by cases a <;> simp, HState.keeps_assign k25 _ _⟩, ?_⟩
  have hw0 : weights < s0.heap.next := hw
  have hs0 : dictionary < s0.heap.next := hs
  have ho0 : orderWeights < s0.heap.next := ho
  have ha0 : transitionMatrices < s0.heap.next := ha
  have c1 : s1.heap.cell weights = h.cell weights := HState.cell_assign hw0 _ _
  have c2 : s2.heap.cell dictionary = h.cell dictionary :=
    (HState.cell_assign (Nat.lt_succ_of_lt hs0) _ _).trans (HState.cell_assign hs0 _ _)
  have c3 : s3.heap.cell orderWeights = h.cell orderWeights :=
    (HState.cell_assign (Nat.lt_succ_of_lt (Nat.lt_succ_of_lt ho0)) _ _).trans
      ((HState.cell_assign (Nat.lt_succ_of_lt ho0) _ _).trans (HState.cell_assign ho0 _ _))
  have c4 : s4.heap.cell transitionMatrices = h.cell transitionMatrices :=
    (HState.cell_assign (Nat.lt_succ_of_lt (Nat.lt_succ_of_lt (Nat.lt_succ_of_lt ha0))) _ _).trans
      ((HState.cell_assign (Nat.lt_succ_of_lt (Nat.lt_succ_of_lt ha0)) _ _).trans
        ((HState.cell_assign (Nat.lt_succ_of_lt ha0) _ _).trans (HState.cell_assign ha0 _ _)))
  have q6 := rd_assign_GtG (T := T) (D := D) (k := k) (p := p) v5 ((rd T D k p s5).Gammaᵀ * (rd T D k p s5).Gamma)
  have q7 := rd_assign_GtX (T := T) (D := D) (k := k) (p := p) v6 ((rd T D k p s6).Gammaᵀ * (rd T D k p s6).X)
  have q8 := rd_assign_XSt (T := T) (D := D) (k := k) (p := p) v7 ((rd T D k p s7).X * (rd T D k p s7).Sᵀ)
  have q9 := rd_assign_SSt (T := T) (D := D) (k := k) (p := p) v8 ((rd T D k p s8).S * (rd T D k p s8).Sᵀ)
  have q10 := rd_assign_Z (T := T) (D := D) (k := k) (p := p) v9 (0 : Matrix (Fin T) (Fin k) K)
  have q11 := rd_assign_GammaOld (T := T) (D := D) (k := k) (p := p) v10 (rd T D k p s10).Gamma
  have q12 := rd_assign_gradGamma (T := T) (D := D) (k := k) (p := p) v11 (0 : Matrix (Fin T) (Fin k) K)
  have q13 := rd_assign_deltaGradGamma (T := T) (D := D) (k := k) (p := p) v12 (0 : Matrix (Fin T) (Fin k) K)
  have q14 := rd_assign_incrGamma (T := T) (D := D) (k := k) (p := p) v13 (0 : Matrix (Fin T) (Fin k) K)
  have q15 := rd_assign_SOld (T := T) (D := D) (k := k) (p := p) v14 (rd T D k p s14).S
  have q16 := rd_assign_gradS (T := T) (D := D) (k := k) (p := p) v15 (0 : Matrix (Fin k) (Fin D) K)
  have q17 := rd_assign_deltaGradS (T := T) (D := D) (k := k) (p := p) v16 (0 : Matrix (Fin k) (Fin D) K)
  have q18 := rd_assign_incrS (T := T) (D := D) (k := k) (p := p) v17 (0 : Matrix (Fin k) (Fin D) K)
  have q19 := rd_assign_orderWeightsOld (T := T) (D := D) (k := k) (p := p) v18 (rd T D k p s18).orderWeights
  have q20 := rd_assign_gradOrderWeights (T := T) (D := D) (k := k) (p := p) v19 (0 : Fin p → K)
  have q21 := rd_assign_deltaGradOrderWeights (T := T) (D := D) (k := k) (p := p) v20 (0 : Fin p → K)
  have q22 := rd_assign_incrOrderWeights (T := T) (D := D) (k := k) (p := p) v21 (0 : Fin p → K)
  have q23 := rd_assign_transitionMatricesOld (T := T) (D := D) (k := k) (p := p) v22 (rd T D k p s22).transitionMatrices
  have q24 := rd_assign_gradTransitionMatrices (T := T) (D := D) (k := k) (p := p) v23 (0 : Fin p → Matrix (Fin k) (Fin k) K)
  have q25 := rd_assign_deltaGradTransitionMatrices (T := T) (D := D) (k := k) (p := p) v24 (0 : Fin p → Matrix (Fin k) (Fin k) K)
  have q26 := rd_assign_incrTransitionMatrices (T := T) (D := D) (k := k) (p := p) v25 (0 : Fin p → Matrix (Fin k) (Fin k) K)
  have r1 : rd T D k p s1 = { rd T D k p s0 with X := X } :=
    (rd_assign_X v0 _).trans (congrArg (fun M => { rd T D k p s0 with X := M }) hX)
  have r2 : rd T D k p s2 = { rd T D k p s1 with Gamma := G } :=
    (rd_assign_Gamma v1 _).trans (congrArg (fun M => { rd T D k p s1 with Gamma := M })
      ((congrArg (fun A : Arr2 K => A.at T k) c1).trans hG))
  have r3 : rd T D k p s3 = { rd T D k p s2 with S := S } :=
    (rd_assign_S v2 _).trans (congrArg (fun M => { rd T D k p s2 with S := M })
      ((congrArg (fun A : Arr2 K => A.at k D) c2).trans hS))
  have e4 : s4 = s3.assign .orderWeights (asRow (ofRow ((s3.heap.cell orderWeights).at 1 p))) := by
    rw [asRow_ofRow]
  have r4 : rd T D k p s4 = { rd T D k p s3 with orderWeights := ow } := by
    rw [e4]
    exact (rd_assign_orderWeights v3 _).trans
      (congrArg (fun M => { rd T D k p s3 with orderWeights := M })
        ((congrArg (fun A : Arr2 K => ofRow (A.at 1 p)) c3).trans hO))
  have e5 : s5 = s4.assign .transitionMatrices
      (stack (unstack ((s4.heap.cell transitionMatrices).at (p * k) k))) := by
    rw [stack_unstack]
  have r5 : rd T D k p s5 = { rd T D k p s4 with transitionMatrices := A } := by
    rw [e5]
    exact (rd_assign_transitionMatrices v4 _).trans
      (congrArg (fun M => { rd T D k p s4 with transitionMatrices := M })
        ((congrArg (fun A : Arr2 K => unstack (A.at (p * k) k)) c4).trans hA))
  let I : MTDMem K → Prop := fun s => (rd T D k p s).X = X ∧ (rd T D k p s).Gamma = G ∧
    (rd T D k p s).S = S ∧ (rd T D k p s).orderWeights = ow ∧
    (rd T D k p s).transitionMatrices = A
  have i5 : I s5 := by
    change _ ∧ _
    rw [r5, r4, r3, r2, r1]
    exact ⟨rfl, rfl, rfl, rfl, rfl⟩
  have z6 : rd T D k p s6 = { rd T D k p s5 with GtG := Gᵀ * G } := q6.trans (by rw [i5.2.1])
  have i6 : I s6 := by
    change _ ∧ _
    rw [z6]
    exact i5
  have z7 : rd T D k p s7 = { rd T D k p s6 with GtX := Gᵀ * X } := q7.trans (by rw [i6.1, i6.2.1])
  have i7 : I s7 := by
    change _ ∧ _
    rw [z7]
    exact i6
  have z8 : rd T D k p s8 = { rd T D k p s7 with XSt := X * Sᵀ } := q8.trans (by rw [i7.1, i7.2.2.1])
  have i8 : I s8 := by
    change _ ∧ _
    rw [z8]
    exact i7
  have z9 : rd T D k p s9 = { rd T D k p s8 with SSt := S * Sᵀ } := q9.trans (by rw [i8.2.2.1])
  have i9 : I s9 := by
    change _ ∧ _
    rw [z9]
    exact i8
  have z10 : rd T D k p s10 = { rd T D k p s9 with Z := 0 } := q10
  have i10 : I s10 := by
    change _ ∧ _
    rw [z10]
    exact i9
  have z11 : rd T D k p s11 = { rd T D k p s10 with GammaOld := G } := q11.trans (by rw [i10.2.1])
  have i11 : I s11 := by
    change _ ∧ _
    rw [z11]
    exact i10
  have z12 : rd T D k p s12 = { rd T D k p s11 with gradGamma := 0 } := q12
  have i12 : I s12 := by
    change _ ∧ _
    rw [z12]
    exact i11
  have z13 : rd T D k p s13 = rd T D k p s12 := q13
  have i13 : I s13 := by
    change _ ∧ _
    rw [z13]
    exact i12
  have z14 : rd T D k p s14 = { rd T D k p s13 with incrGamma := 0 } := q14
  have i14 : I s14 := by
    change _ ∧ _
    rw [z14]
    exact i13
  have z15 : rd T D k p s15 = { rd T D k p s14 with SOld := S } := q15.trans (by rw [i14.2.2.1])
  have i15 : I s15 := by
    change _ ∧ _
    rw [z15]
    exact i14
  have z16 : rd T D k p s16 = { rd T D k p s15 with gradS := 0 } := q16
  have i16 : I s16 := by
    change _ ∧ _
    rw [z16]
    exact i15
  have z17 : rd T D k p s17 = rd T D k p s16 := q17
  have i17 : I s17 := by
    change _ ∧ _
    rw [z17]
    exact i16
  have z18 : rd T D k p s18 = { rd T D k p s17 with incrS := 0 } := q18
  have i18 : I s18 := by
    change _ ∧ _
    rw [z18]
    exact i17
  have z19 : rd T D k p s19 = { rd T D k p s18 with orderWeightsOld := ow } := q19.trans (by rw [i18.2.2.2.1])
  have i19 : I s19 := by
    change _ ∧ _
    rw [z19]
    exact i18
  have z20 : rd T D k p s20 = { rd T D k p s19 with gradOrderWeights := 0 } := q20
  have i20 : I s20 := by
    change _ ∧ _
    rw [z20]
    exact i19
  have z21 : rd T D k p s21 = rd T D k p s20 := q21
  have i21 : I s21 := by
    change _ ∧ _
    rw [z21]
    exact i20
  have z22 : rd T D k p s22 = { rd T D k p s21 with incrOrderWeights := 0 } := q22
  have i22 : I s22 := by
    change _ ∧ _
    rw [z22]
    exact i21
  have z23 : rd T D k p s23 = { rd T D k p s22 with transitionMatricesOld := A } := q23.trans (by rw [i22.2.2.2.2])
  have i23 : I s23 := by
    change _ ∧ _
    rw [z23]
    exact i22
  have z24 : rd T D k p s24 = { rd T D k p s23 with gradTransitionMatrices := 0 } := q24
  have i24 : I s24 := by
    change _ ∧ _
    rw [z24]
    exact i23
  have z25 : rd T D k p s25 = rd T D k p s24 := q25
  have i25 : I s25 := by
    change _ ∧ _
    rw [z25]
    exact i24
  refine q26.trans ?_
  rw [z25, z24, z23, z22, z21, z20, z19, z18, z17, z16, z15, z14, z13, z12, z11, z10, z9, z8, z7, z6, r5, r4, r3, r2, r1]
  rfl

end MTDMem

end Reor
