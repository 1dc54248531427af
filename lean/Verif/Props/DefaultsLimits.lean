import Verif.Props.Defaults
import Verif.Props.GPNHLimits

/-!
C102: why the theorems about the default settings bound the size of the data.  With a dictionary
entry of 2097152 the step floor of the line search ends it above the starting cost, and `transform`
with all default settings raises RuntimeError, in exact arithmetic.
-/

namespace Reor

set_option linter.unusedSectionVars false

open scoped BigOperators Matrix
open Spec

variable {K : Type} [Field K] [LinearOrder K] [IsStrictOrderedRing K]
variable {T D k : ℕ}

/-- A weights update in which every trial is refused and the step halved down to the floor. -/
theorem GPNHState.updateWeights_halves {cfg : LSConfig K} {eps : K} {s : GPNHState T D k K}
    {m : K} (hm : s.fGammaMem = [m]) {P : Matrix (Fin T) (Fin k) K}
    (hP : simplexProjectRows (s.Gamma - s.alphaGamma • gradWOf s.X s.Gamma s.S) = P)
    {f0 δ : K} {f : K → K} (hf0 : gpnhCost eps s.X s.Gamma s.S = f0)
    (hf : ∀ lam, gpnhCost eps s.X (s.Gamma + lam • (P - s.Gamma)) s.S = f lam)
    (hδ : inner (P - s.Gamma) (gradWOf s.X s.Gamma s.S) = δ) (J : ℕ)
    (hrej : ∀ j ≤ J, f0 + cfg.gamma * δ * (1 / 2) ^ j < f ((1 / 2) ^ j))
    (hhalf : ∀ j ≤ J, nextSpgStepLength ((1 / 2) ^ j) δ f0 (f ((1 / 2) ^ j)) cfg.sigmaOne
      cfg.sigmaTwo = (1 / 2) ^ (j + 1))
    (hbig : ∀ j ≤ J, cfg.stepSizeTolerance ≤ (1 / 2) ^ j)
    (hsmall : (1 / 2) ^ (J + 1) < cfg.stepSizeTolerance) :
    ∃ s', s.updateWeights cfg eps = Py.ok s' ∧ s'.X = s.X ∧
      s'.Gamma = s.Gamma + ((1 / 2 : K) ^ (J + 1)) • (P - s.Gamma) ∧ s'.S = s.S ∧
      s'.SSt = s'.S * s'.Sᵀ := by
  unfold updateWeights weightsLineSearch
  simp only [prepareWeights_eq, hP, hm]
  have key := lineSearch_halves (cfg := cfg) (m0 := m) (δ := δ) (f0 := f0) (f := f)
    (weightsTrial_retriable (T := T) (D := D) (k := k) eps)
    (s := { s with
        SSt := s.S * s.Sᵀ, XSt := s.X * s.Sᵀ, gradGamma := gradWOf s.X s.Gamma s.S
        incrGamma := P - s.Gamma, GammaOld := s.Gamma, fGammaMem := [m] })
    (fun lam => by
      simp only [weightsTrial]
      rw [evaluateCost_eq _ _ rfl]
      exact hf lam) J hrej hhalf hbig hsmall
  obtain ⟨N, key⟩ := key
  rw [evaluateCost_eq _ _ rfl]
  simp only [hf0, mulSum_eq_inner, hδ]
  rw [key]
  exact ⟨_, rfl, rfl, rfl, rfl, rfl⟩

/-- A fit whose iteration fails. -/
theorem gpnhConvexCoding_of_failure {env : Env K} {obj : GPNHObj env.rng} {data : Arr2 K}
    {dictionary weights : Option (Arr2 K)} {ud uw : Bool} {kw : InitKwargs} {p : ℕ × ℕ × K}
    (hp : checkParams (defaultComponents obj.nComponents data.cols) obj.maxIterations
      obj.tolerance = Py.ok p)
    {start : (Matrix (Fin p.1) (Fin data.cols) K × Matrix (Fin data.rows) (Fin p.1) K) × env.rng.G}
    (hstart : gpnhStart env data.val p.1 obj.init dictionary weights ud uw kw obj.randomState =
        Py.ok start) {e : PyErr}
    (hr : gpnhIterate obj.ls obj.epsilonStates obj.require p.2.2 p.2.1 ud uw
        (GPNHState.initializeWorkspace obj.ls data.val start.1.2 start.1.1) = Py.raise e) :
    gpnhConvexCoding env obj data dictionary weights ud uw kw = Py.raise e := by
  unfold gpnhConvexCoding
  simp only [hp, hstart, hr, Py.ok_bind]
  rfl

/-- A generator whose uniform draws are all 1. -/
def evenRng : Rng ℚ := { demoRng with uniform := fun _ _ g => (fun _ _ => 1, g) }

theorem evenRng_lawful : evenRng.Lawful where
  uniform_nonneg := fun _ _ _ _ _ => zero_le_one
  randint_lt := demoRng_lawful.randint_lt
  choice_length := demoRng_lawful.choice_length
  choice_nodup := demoRng_lawful.choice_nodup
  choice_lt := demoRng_lawful.choice_lt

def evenEnv : Env ℚ := ⟨evenRng, id⟩

/-- A state of the generator. -/
def evenG : evenEnv.rng.G := (0 : ℕ)

/-- A stored dictionary with an entry of `2 ** 21`, and a sample close to the middle of its two
elements. -/
def tallDict : Matrix (Fin 2) (Fin 1) ℚ := !![0; 2 ^ 21]
def tallData : Matrix (Fin 1) (Fin 1) ℚ := !![2 ^ 20 - (1 / 2) ^ 22]

/-- `GPNHConvexCoding(n_components=2)` after `self.S` has been set. -/
def tallObj : GPNHObj evenEnv.rng :=
  { nComponents := .int 2, epsilonStates := 0, init := none, tolerance := .real (1 / 10 ^ 6)
    maxIterations := .int 1000, randomState := evenG
    ls := ⟨1, 1 / 10 ^ 4, 1 / 10 ^ 3, 10 ^ 3, 1 / 10, 9 / 10, 1 / 10 ^ 12⟩, require := true
    S := some (Arr2.of tallDict) }

theorem tall_start : gpnhStart evenEnv tallData 2 none (some (Arr2.of tallDict)) none false true {}
    evenG = Py.ok ((tallDict, !![1/2, 1/2]), evenG) := by
  have hw : rightStochasticMatrix evenEnv.rng 1 2 evenG =
      Py.ok ((!![1/2, 1/2] : Matrix (Fin 1) (Fin 2) ℚ), evenG) := by
    have hu : ∀ (i : Fin 1) (j : Fin 2), (evenEnv.rng.uniform 1 2 evenG).1 i j = 1 :=
      fun _ _ => rfl
    unfold rightStochasticMatrix
    rw [if_neg (by
      push Not
      intro i
      norm_num [hu, Fin.sum_univ_two])]
    refine congrArg Py.ok (Prod.ext ?_ rfl)
    ext i j
    fin_cases i
    fin_cases j <;> norm_num [hu, Fin.sum_univ_two]
  have hd : gpnhCheckInitDictionary (some (Arr2.of tallDict)) 2 1 = Py.ok tallDict := rfl
  show (do
    let d ← gpnhCheckInitDictionary (some (Arr2.of tallDict)) 2 1
    let w ← rightStochasticMatrix evenEnv.rng 1 2 evenG
    pure ((d, w.1), w.2)) = _
  rw [hd, hw]
  rfl

theorem tall_cost (lam : ℚ) :
    gpnhCost 0 tallData (!![1/2, 1/2] + lam • (!![1, 0] - !![1/2, 1/2])) tallDict =
      (1 / 2) ^ 44 * (1 - 2 ^ 42 * lam) ^ 2 := by
  simp only [gpnhCost, tallData, tallDict, Fin.sum_univ_two, Finset.univ_unique,
    Finset.sum_singleton, Fin.default_eq_zero]
  simp
  ring

/-- The weights update ends at the step `2 ** -40`, past the minimum at `2 ** -42`. -/
theorem tall_update : ∃ s', (GPNHState.initializeWorkspace tallObj.ls tallData !![1/2, 1/2]
      tallDict).updateWeights tallObj.ls 0 = Py.ok s' ∧ s'.evaluateCost 0 = 9 * (1 / 2) ^ 44 := by
  have hgrad : gradWOf tallData !![1/2, 1/2] tallDict = !![0, 1] := by
    ext i j
    fin_cases i
    fin_cases j <;>
      norm_num [gradWOf, tallData, tallDict, Matrix.mul_apply, Fin.sum_univ_two, Matrix.vecMul,
        dotProduct]
  have hproj : simplexProjectRows ((!![1/2, 1/2] : Matrix (Fin 1) (Fin 2) ℚ) - (1 : ℚ) • !![0, 1]) =
      !![1, 0] := by
    ext i j
    rw [show simplexProjectRows ((!![1/2, 1/2] : Matrix (Fin 1) (Fin 2) ℚ) - (1 : ℚ) • !![0, 1]) i j =
      _ from congrFun (projectRows_apply _ i) j, project_eq_of_threshold (by norm_num) _ (-1/2)]
    · fin_cases i
      fin_cases j <;> norm_num
    · fin_cases i
      norm_num [Fin.sum_univ_two]
  have hpow : ∀ j ≤ 39, (1 / 2 : ℚ) ^ 39 ≤ (1 / 2) ^ j := fun j hj =>
    pow_le_pow_of_le_one (by norm_num) (by norm_num) hj
  obtain ⟨s', hu, hX, hG, hS, hSS⟩ := GPNHState.updateWeights_halves (cfg := tallObj.ls) (eps := 0)
    (s := GPNHState.initializeWorkspace tallObj.ls tallData !![1/2, 1/2] tallDict) (m := 0) rfl
    (P := !![1, 0]) (f0 := (1 / 2) ^ 44) (δ := -1/2)
    (f := fun lam => (1 / 2) ^ 44 * (1 - 2 ^ 42 * lam) ^ 2)
    (by
      show simplexProjectRows (!![1/2, 1/2] - (1 : ℚ) • gradWOf tallData !![1/2, 1/2] tallDict) = _
      rw [hgrad, hproj])
    (by
      have := tall_cost 0
      rw [zero_smul, add_zero] at this
      rw [show (1 / 2 : ℚ) ^ 44 = (1 / 2) ^ 44 * (1 - 2 ^ 42 * 0) ^ 2 by ring]
      exact this)
    tall_cost
    (by
      show inner (!![1, 0] - !![1/2, 1/2]) (gradWOf tallData !![1/2, 1/2] tallDict) = -1/2
      rw [hgrad]
      norm_num [inner, Fin.sum_univ_two])
    39
    (by
      intro j hj
      have h := hpow j hj
      have h1 : (1 / 2 : ℚ) ^ j ≤ 1 := pow_le_one₀ (by norm_num) (by norm_num)
      generalize (1 / 2 : ℚ) ^ j = x at h h1
      show (1 / 2 : ℚ) ^ 44 + 1 / 10 ^ 4 * (-1/2) * x < (1 / 2) ^ 44 * (1 - 2 ^ 42 * x) ^ 2
      norm_num at h ⊢
      nlinarith)
    (by
      intro j hj
      have h0 : (0 : ℚ) < (1 / 2) ^ j := by positivity
      rw [show (1 / 2 : ℚ) ^ (j + 1) = (1 / 2) ^ j * (1 / 2) from pow_succ _ _]
      generalize (1 / 2 : ℚ) ^ j = x at h0
      have hden : (1 / 2 : ℚ) ^ 44 * (1 - 2 ^ 42 * x) ^ 2 - (1 / 2) ^ 44 - x * (-1/2) =
          2 ^ 40 * x ^ 2 := by ring
      have htmp : -(1 / 2 : ℚ) * x ^ 2 * (-1/2) / (2 ^ 40 * x ^ 2) = (1 / 2) ^ 42 := by
        field_simp
      show nextSpgStepLength x (-1/2) ((1 / 2) ^ 44) ((1 / 2 : ℚ) ^ 44 * (1 - 2 ^ 42 * x) ^ 2)
        (1 / 10) (9 / 10) = _
      unfold nextSpgStepLength
      simp only [hden, htmp]
      rw [if_neg (by positivity), if_neg (by norm_num)]
      ring)
    (by
      intro j hj
      refine le_trans ?_ (hpow j hj)
      show (1 / 10 ^ 12 : ℚ) ≤ _
      norm_num)
    (by
      show (1 / 2 : ℚ) ^ 40 < 1 / 10 ^ 12
      norm_num)
  refine ⟨s', hu, ?_⟩
  rw [GPNHState.evaluateCost_eq _ _ hSS, hX, hG, hS]
  refine (tall_cost ((1 / 2) ^ 40)).trans ?_
  norm_num

/-- The transform fails. -/
theorem tall_transform :
    gpnhTransform evenEnv tallObj (Arr2.of tallData) = Py.raise .runtimeError := by
  have hp : checkParams (defaultComponents tallObj.nComponents 1) tallObj.maxIterations
      tallObj.tolerance = Py.ok (2, 1000, 1 / 10 ^ 6) := by
    simp [checkParams, tallObj, defaultComponents]
  obtain ⟨s', hu, hc⟩ := tall_update
  have h0 : (GPNHState.initializeWorkspace tallObj.ls tallData !![1/2, 1/2]
      tallDict).evaluateCost 0 = (1 / 2) ^ 44 := by
    rw [GPNHState.evaluateCost_eq _ _ rfl]
    have := tall_cost 0
    rw [zero_smul, add_zero] at this
    refine this.trans ?_
    norm_num
  have hr : gpnhIterate tallObj.ls 0 true (1 / 10 ^ 6) 1000 false true
      (GPNHState.initializeWorkspace tallObj.ls tallData !![1/2, 1/2] tallDict) =
        Py.raise .runtimeError := by
    unfold gpnhIterate
    rw [if_neg (by norm_num)]
    unfold iterate
    rw [List.range_succ_eq_map]
    simp only [Bool.false_eq_true, if_false, if_true, List.nil_append, iterateLoop, runPhases, hu,
      Py.ok_bind, h0, hc]
    rw [if_pos ⟨by norm_num, trivial⟩]
    rfl
  have hfit : gpnhConvexCoding evenEnv tallObj (Arr2.of tallData) (some (Arr2.of tallDict)) none
      false true {} = Py.raise .runtimeError :=
    gpnhConvexCoding_of_failure (env := evenEnv) (obj := tallObj) (data := Arr2.of tallData)
      (p := (2, 1000, 1 / 10 ^ 6)) (kw := {}) hp tall_start hr
  unfold gpnhTransform
  rw [show tallObj.S = some (Arr2.of tallDict) from rfl, hfit]
  rfl

/-- C102.  Without the bound on the dictionary the claim fails: there is a GPNH model with all
settings at their defaults and a dictionary stored in it such that `transform` of one finite sample
raises RuntimeError, because the line search was stopped by `step_size_tolerance` above the cost it
started from.  The generator is lawful and draws only positive numbers. -/
theorem C102_gpnh_transform_fails_tall_dictionary : ∃ (env : Env ℚ) (g : env.rng.G)
    (obj : GPNHObj env.rng) (S : Matrix (Fin 2) (Fin 1) ℚ) (X : Matrix (Fin 1) (Fin 1) ℚ),
    env.rng.Lawful ∧ (∀ m n g i j, 0 < (env.rng.uniform m n g).1 i j) ∧
    gpnhNew g (.int 2) = Py.ok obj ∧
    gpnhTransform env { obj with S := some (Arr2.of S) } (Arr2.of X) = Py.raise .runtimeError :=
  ⟨evenEnv, evenG, { tallObj with S := none }, tallDict, tallData, evenRng_lawful,
    fun _ _ _ _ _ => zero_lt_one, rfl, tall_transform⟩

end Reor
