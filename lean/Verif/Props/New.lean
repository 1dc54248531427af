import Verif.Model.New
import Verif.Props.Demo

/-!
C101: what the constructors of the estimators accept, reject, store and ignore.
-/

namespace Reor

set_option linter.unusedSectionVars false

variable {K : Type} [Field K] [LinearOrder K] [IsStrictOrderedRing K]

/-! ### The settings of the line search -/

/-- The memory cannot be allocated: it is a negative integer. -/
def Kwargs.NegativeMemory (kw : Kwargs K) : Prop :=
  ∃ z : ℤ, z < 0 ∧ kw.lookup "line_search_memory" = some (.int z)

/-- The memory is a number that is not an integer. -/
def Kwargs.RealMemory (kw : Kwargs K) : Prop :=
  ∃ x : K, kw.lookup "line_search_memory" = some (.real x)

/-- C101.  The settings are rejected only for their memory: a negative integer is a ValueError, a
number that is not an integer a TypeError, and everything else is accepted. -/
theorem C101_settings_outcomes (kw : Kwargs K) :
    (kw.NegativeMemory → solverSettings kw = Py.raise .valueError) ∧
    (kw.RealMemory → solverSettings kw = Py.raise .typeError) ∧
    (¬ kw.NegativeMemory → ¬ kw.RealMemory → ∃ ls, solverSettings kw = Py.ok ls) := by
  unfold solverSettings Kwargs.get Kwargs.NegativeMemory Kwargs.RealMemory
  refine ⟨?_, ?_, ?_⟩
  · rintro ⟨z, hz, h⟩
    simp [h, solverMemory, hz]
  · rintro ⟨x, h⟩
    simp [h, solverMemory]
  · intro h1 h2
    rcases h : kw.lookup "line_search_memory" with _ | (z | x | b)
    · exact ⟨_, rfl⟩
    · have hz : ¬ z < 0 := fun hz => h1 ⟨z, hz, h⟩
      simp [solverMemory, hz]
    · exact absurd ⟨x, h⟩ h2
    · exact ⟨_, rfl⟩

/-- A setting is the number supplied under its name, where truth values are 1 and 0, and the default if
there is none. -/
def Setting (kw : Kwargs K) (name : String) (default value : K) : Prop :=
  (∀ x, kw.lookup name = some (.real x) → value = x) ∧
  (∀ z : ℤ, kw.lookup name = some (.int z) → value = z) ∧
  (kw.lookup name = some (.bool true) → value = 1) ∧
  (kw.lookup name = some (.bool false) → value = 0) ∧
  (kw.lookup name = none → value = default)

/-- C101.  Each setting of the line search is read from the keyword argument of its own name, without
the prefix `line_search_` of the attribute, and has the documented default.  No range is checked. -/
theorem C101_settings_values (kw : Kwargs K) (ls : LSConfig K) (h : solverSettings kw = Py.ok ls) :
    Setting kw "gamma" (1 / 10000) ls.gamma ∧
    Setting kw "alpha_min" (1 / 1000) ls.alphaMin ∧
    Setting kw "alpha_max" 1000 ls.alphaMax ∧
    Setting kw "sigma_one" (1 / 10) ls.sigmaOne ∧
    Setting kw "sigma_two" (9 / 10) ls.sigmaTwo ∧
    Setting kw "step_size_tolerance" (1 / 1000000000000) ls.stepSizeTolerance ∧
    (∀ m : ℕ, kw.lookup "line_search_memory" = some (.int m) → ls.memory = m) ∧
    (∀ b, kw.lookup "line_search_memory" = some (.bool b) → ls.memory = if b = true then 1 else 0) ∧
    (kw.lookup "line_search_memory" = none → ls.memory = 1) := by
  unfold solverSettings at h
  obtain ⟨m, hm, h⟩ := Py.bind_eq_ok.1 h
  simp only [Py.pure_eq, Py.ok.injEq] at h
  subst h
  refine ⟨?_, ?_, ?_, ?_, ?_, ?_, ?_, ?_, ?_⟩
  iterate 6
    exact ⟨fun x hx => by simp [Kwargs.get, hx, KwVal.toNumber],
      fun z hz => by simp [Kwargs.get, hz, KwVal.toNumber],
      fun hb => by simp [Kwargs.get, hb, KwVal.toNumber],
      fun hb => by simp [Kwargs.get, hb, KwVal.toNumber],
      fun hn => by simp [Kwargs.get, hn, KwVal.toNumber] <;> norm_num⟩
  · intro m' hm'
    simp only [Kwargs.get, hm', Option.getD_some, solverMemory,
      show ¬ ((m' : ℤ) < 0) by omega, if_false, Int.toNat_natCast, Py.ok.injEq] at hm
    exact hm.symm
  · intro b hb
    simp only [Kwargs.get, hb, Option.getD_some, solverMemory, Py.ok.injEq] at hm
    exact hm.symm
  · intro hn
    simp only [Kwargs.get, hn, Option.getD_none, solverMemory,
      show ¬ ((1 : ℤ) < 0) by omega, if_false, Int.toNat_one, Py.ok.injEq] at hm
    exact hm.symm

/-- The names which the constructors look up. -/
def settingNames : List String :=
  ["line_search_memory", "gamma", "alpha_min", "alpha_max", "sigma_one", "sigma_two",
    "step_size_tolerance", "require_monotonic_cost_decrease"]

/-- C101.  No other keyword argument has any effect, and none is rejected: two dictionaries which agree
on the eight names build the same objects of all five classes. -/
theorem C101_other_keywords_ignored {R : Rng K} (kw kw' : Kwargs K)
    (h : ∀ name ∈ settingNames, kw.lookup name = kw'.lookup name) (g : R.G) (rs : RandomArg R)
    (nComponents tolerance maxIterations maxTv : NumArg K) (lags : Option (List (NumArg K)))
    (clags : LagsArg) (eps epsw delta : K) (init : Option String) :
    gpnhNew g nComponents kw eps init tolerance maxIterations =
      gpnhNew g nComponents kw' eps init tolerance maxIterations ∧
    kaaInit nComponents kw delta init tolerance maxIterations rs =
      kaaInit nComponents kw' delta init tolerance maxIterations rs ∧
    mtdNew g nComponents lags kw eps epsw init tolerance maxIterations =
      mtdNew g nComponents lags kw' eps epsw init tolerance maxIterations ∧
    cromNew g nComponents clags kw eps init tolerance maxIterations =
      cromNew g nComponents clags kw' eps init tolerance maxIterations ∧
    femKMeansNew g nComponents maxTv kw init maxIterations tolerance =
      femKMeansNew g nComponents maxTv kw' init maxIterations tolerance := by
  have hg : ∀ name ∈ settingNames, ∀ d, kw.get name d = kw'.get name d := fun name hn d => by
    rw [Kwargs.get, Kwargs.get, h name hn]
  have hs : solverSettings kw = solverSettings kw' := by
    unfold solverSettings
    rw [hg "line_search_memory" (by simp [settingNames]), hg "gamma" (by simp [settingNames]),
      hg "alpha_min" (by simp [settingNames]), hg "alpha_max" (by simp [settingNames]),
      hg "sigma_one" (by simp [settingNames]), hg "sigma_two" (by simp [settingNames]),
      hg "step_size_tolerance" (by simp [settingNames])]
  have hr := hg "require_monotonic_cost_decrease" (by simp [settingNames])
  refine ⟨?_, ?_, ?_, ?_, ?_⟩
  · simp only [gpnhNew, hs, hr]
  · simp only [kaaInit, hs, hr]
  · simp only [mtdNew, hs, hr]
  · simp only [cromNew, gpnhNew, hs, hr]
  · simp only [femKMeansNew, hr]

/-- A setting passed under the name of the attribute is ignored. -/
example : solverSettings [("line_search_gamma", KwVal.real (1 / 2 : ℚ))] = solverSettings [] ∧
    solverSettings [("gamma", KwVal.real (1 / 2 : ℚ))] ≠ solverSettings [] := by
  refine ⟨rfl, fun h => ?_⟩
  have h1 := (C101_settings_values _ _ (rfl : solverSettings ([] : Kwargs ℚ) = Py.ok _)).1.2.2.2.2 rfl
  have h2 := (C101_settings_values _ _ h).1.1 _ rfl
  rw [h1] at h2
  norm_num at h2

/-! ### The estimators -/

/-- C101.  The constructor of the GPNH model stores its arguments unchecked (they are checked when it is
fitted), and starts with nothing fitted. -/
theorem C101_gpnh_constructor {R : Rng K} (g : R.G) (nComponents tolerance maxIterations : NumArg K)
    (kw : Kwargs K) (eps : K) (init : Option String) :
    (∀ ls, solverSettings kw = Py.ok ls →
      ∃ obj, gpnhNew g nComponents kw eps init tolerance maxIterations = Py.ok obj ∧
        obj.nComponents = nComponents ∧ obj.epsilonStates = eps ∧ obj.init = init ∧
        obj.tolerance = tolerance ∧ obj.maxIterations = maxIterations ∧ obj.randomState = g ∧
        obj.ls = ls ∧ obj.Gamma = none ∧ obj.S = none ∧ obj.cost_ = none ∧ obj.dictionary_ = none ∧
        obj.nIter_ = none ∧ obj.nComponents_ = none ∧
        (kw.lookup "require_monotonic_cost_decrease" = none → obj.require = true) ∧
        ∀ b, kw.lookup "require_monotonic_cost_decrease" = some (.bool b) → obj.require = b) ∧
    (∀ e, solverSettings kw = Py.raise e →
      gpnhNew g nComponents kw eps init tolerance maxIterations = Py.raise e) := by
  constructor
  · intro ls hls
    refine ⟨_, by rw [gpnhNew, hls]; rfl, rfl, rfl, rfl, rfl, rfl, rfl, rfl, rfl, rfl, rfl, rfl, rfl,
      rfl, fun h => ?_, fun b h => ?_⟩ <;> simp [Kwargs.get, h, KwVal.truth]
  · intro e he
    rw [gpnhNew, he]
    rfl

/-- C101.  Defaults of the GPNH model: no regularisation, random start, tolerance 1e-6 and 1000
iterations. -/
theorem C101_gpnh_defaults {R : Rng K} (g : R.G) (nComponents : NumArg K) :
    gpnhNew g nComponents = Py.ok
      { nComponents := nComponents, epsilonStates := 0, init := none
        tolerance := .real (1 / 1000000), maxIterations := .int 1000, randomState := g
        ls := ⟨1, 1 / 10000, 1 / 1000, 1000, 1 / 10, 9 / 10, 1 / 1000000000000⟩, require := true } := by
  simp [gpnhNew, solverSettings, Kwargs.get, solverMemory, KwVal.toNumber, KwVal.truth]
  norm_num

/-- C101.  Kernel archetypal analysis checks `n_components` when it is constructed, before the memory:
`None` and non-negative integers pass, zero included; negative integers are a ValueError and anything
else a TypeError. -/
theorem C101_kaa_components {R : Rng K} (rs : RandomArg R) (nComponents : NumArg K) (kw : Kwargs K)
    (ls : LSConfig K) (hls : solverSettings kw = Py.ok ls) :
    ((∃ obj, kaaInit nComponents kw (randomState := rs) = Py.ok obj) ↔
      nComponents = .none ∨ ∃ m : ℕ, nComponents = .int m) ∧
    (kaaInit nComponents kw (randomState := rs) = Py.raise .valueError ↔
      ∃ z : ℤ, z < 0 ∧ nComponents = .int z) ∧
    (kaaInit nComponents kw (randomState := rs) = Py.raise .typeError ↔
      (∃ x, nComponents = .real x) ∨ nComponents = .other) := by
  rcases nComponents with _ | z | x | _
  · simp [kaaInit, kaaNew, hls]
  · by_cases hz : z < 0
    · have h1 : ¬ ∃ m : ℕ, z = m := by
        rintro ⟨m, rfl⟩
        omega
      simp only [kaaInit, kaaNew, hz, if_true, Py.raise_bind]
      simpa [hz] using h1
    · have h1 : ∃ m : ℕ, z = m := ⟨z.toNat, by omega⟩
      simp [kaaInit, kaaNew, hz, hls]
      simpa using h1
  · simp [kaaInit, kaaNew]
  · simp [kaaInit, kaaNew]

/-- C101.  A bad `n_components` is reported rather than a bad memory. -/
theorem C101_kaa_components_first {R : Rng K} (rs : RandomArg R) (kw : Kwargs K) :
    (∀ z : ℤ, z < 0 → kaaInit (.int z) kw (randomState := rs) = Py.raise .valueError) ∧
    kaaInit .other kw (randomState := rs) = Py.raise .typeError := by
  refine ⟨fun z hz => ?_, rfl⟩
  simp [kaaInit, kaaNew, hz]

/-- C101.  Defaults of kernel archetypal analysis: no relaxation, furthest sum start, tolerance 1e-4 and
1000 iterations. -/
theorem C101_kaa_defaults {R : Rng K} (rs : RandomArg R) (m : ℕ) :
    kaaInit (.int m) (randomState := rs) = Py.ok
      { nComponents := .int m, delta := 0, init := none
        tolerance := .real (1 / 10000), maxIterations := .int 1000, randomState := rs
        ls := ⟨1, 1 / 10000, 1 / 1000, 1000, 1 / 10, 9 / 10, 1 / 1000000000000⟩, require := true } := by
  simp [kaaInit, kaaNew, solverSettings, Kwargs.get, solverMemory, KwVal.toNumber, KwVal.truth,
    show ¬ ((m : ℤ) < 0) by omega]
  norm_num

/-- C101.  Defaults of the MTD model: the single lag 1, no regularisation, random start, tolerance 1e-6
and 1000 iterations. -/
theorem C101_mtd_defaults {R : Rng K} (g : R.G) (nComponents : NumArg K) :
    ∃ obj : MTDObj R 1, mtdNew g nComponents = Py.ok ⟨1, obj⟩ ∧ (∀ i, obj.lags i = 1) ∧
      obj = { nComponents := nComponents, lags := obj.lags, epsilonStates := 0, epsilonWeights := 0
              init := none, tolerance := .real (1 / 1000000), maxIterations := .int 1000
              randomState := g
              ls := ⟨1, 1 / 10000, 1 / 1000, 1000, 1 / 10, 9 / 10, 1 / 1000000000000⟩
              require := true } := by
  refine ⟨_, rfl, fun i => ?_, ?_⟩
  · have : i = 0 := Subsingleton.elim _ _
    subst this
    rfl
  · simp [Kwargs.get, KwVal.toNumber, KwVal.truth]
    norm_num

/-- C101.  The lags of the MTD model are checked first: the constructor stores them in the order given,
and a single lag which is not a positive integer is a ValueError whatever the other arguments. -/
theorem C101_mtd_lags {R : Rng K} (g : R.G) (nComponents : NumArg K) (kw : Kwargs K) :
    (∀ (ls : LSConfig K) (l : List ℕ), solverSettings kw = Py.ok ls → (∀ n ∈ l, 1 ≤ n) →
      ∃ obj : MTDObj R l.length,
        mtdNew g nComponents (some (l.map fun n : ℕ => .int n)) kw = Py.ok ⟨l.length, obj⟩ ∧
        (∀ i, obj.lags i = l.get i) ∧ obj.ls = ls ∧ obj.vars = none) ∧
    (∀ lags : List (NumArg K), (∃ l ∈ lags, ∀ z : ℤ, 1 ≤ z → l ≠ .int z) →
      mtdNew g nComponents (some lags) kw = Py.raise .valueError) := by
  constructor
  · intro ls l hls hl
    have hc : mtdCheckLags (l.map fun n : ℕ => (.int n : NumArg K)) = Py.ok l := by
      clear hls
      induction l with
      | nil => rfl
      | cons a l ih =>
        have ha : ¬ ((a : ℤ) < 1) := by
          have := hl a (by simp)
          omega
        simp only [List.map_cons, mtdCheckLags, mtdCheckLag, ha, if_false, Py.ok_bind,
          ih (fun n hn => hl n (by simp [hn])), Py.pure_eq, Int.toNat_natCast]
    unfold mtdNew mtdLags
    simp only [hc, hls, Py.ok_bind, Py.pure_eq]
    exact ⟨_, rfl, fun i => rfl, rfl, rfl⟩
  · intro lags hbad
    have hc : mtdCheckLags lags = Py.raise .valueError := by
      induction lags with
      | nil => simp at hbad
      | cons a l ih =>
        by_cases ha : ∃ z : ℤ, 1 ≤ z ∧ a = .int z
        · obtain ⟨z, hz, rfl⟩ := ha
          have h2 : mtdCheckLags l = Py.raise .valueError := by
            refine ih ?_
            obtain ⟨b, hb, h⟩ := hbad
            rcases List.mem_cons.1 hb with rfl | hb
            · exact absurd rfl (h z hz)
            · exact ⟨b, hb, h⟩
          simp only [mtdCheckLags, mtdCheckLag, show ¬ z < 1 by omega, if_false, Py.ok_bind, h2,
            Py.raise_bind]
        · have h2 : mtdCheckLag a = Py.raise .valueError := by
            rcases a with _ | z | x | _
            · rfl
            · have : z < 1 := by
                by_contra hz
                exact ha ⟨z, by omega, rfl⟩
              simp [mtdCheckLag, this]
            · rfl
            · rfl
          simp only [mtdCheckLags, h2, Py.raise_bind]
    unfold mtdNew mtdLags
    simp only [hc, Py.raise_bind]

/-- C101.  GPNH models with a reduced order model need the number of components at once: `None`, which
the base class takes to mean the number of features, is a TypeError here, and so is a number that is not
an integer; negative integers are a ValueError. -/
theorem C101_crom_components {R : Rng K} (g : R.G) (nComponents : NumArg K) (kw : Kwargs K)
    (lags : List ℕ) (ls : LSConfig K) (hls : solverSettings kw = Py.ok ls) :
    ((∃ obj, cromNew (R := R) g nComponents (.array lags) kw = Py.ok obj) ↔
      ∃ m : ℕ, nComponents = .int m) ∧
    (cromNew g nComponents (.array lags) kw = Py.raise .valueError ↔
      ∃ z : ℤ, z < 0 ∧ nComponents = .int z) ∧
    (cromNew (R := R) g nComponents (.array lags) kw = Py.raise .typeError ↔
      ∀ z : ℤ, nComponents ≠ .int z) ∧
    ∃ obj, gpnhNew (R := R) g .none kw = Py.ok obj := by
  refine ⟨?_, ?_, ?_, ⟨_, by rw [gpnhNew, hls]; rfl⟩⟩ <;>
  · rcases nComponents with _ | z | x | _
    · simp [cromNew, gpnhNew, hls, cromLags, cromCheckConstructor]
    · by_cases hz : z < 0
      · have h1 : ∀ m : ℕ, z ≠ m := by
          rintro m rfl
          omega
        simp [cromNew, gpnhNew, hls, cromLags, cromCheckConstructor, hz, h1]
      · have h1 : ∃ m : ℕ, z = m := ⟨z.toNat, by omega⟩
        simp [cromNew, gpnhNew, hls, cromLags, cromCheckConstructor, hz, h1]
    · simp [cromNew, gpnhNew, hls, cromLags, cromCheckConstructor]
    · simp [cromNew, gpnhNew, hls, cromLags, cromCheckConstructor]

/-- C101.  Its lags must be an array: a list or a tuple is an AttributeError, while the values in an
array are not checked, not even for being positive; the default is the single lag 1. -/
theorem C101_crom_lags {R : Rng K} (g : R.G) (nComponents : NumArg K) (kw : Kwargs K)
    (ls : LSConfig K) (hls : solverSettings kw = Py.ok ls) (m : ℕ) :
    (∀ l, cromNew (R := R) g nComponents (.sequence l) kw = Py.raise .attributeError) ∧
    (∀ l : List ℕ, ∃ obj : CROMObj R l.length,
      cromNew g (.int m) (.array l) kw = Py.ok ⟨l.length, obj⟩ ∧ (∀ i, obj.lags i = l.get i) ∧
      obj.vars = none ∧ obj.base.ls = ls) ∧
    (∃ obj : CROMObj R 1, cromNew g (.int m) .none kw = Py.ok ⟨1, obj⟩ ∧ (∀ i, obj.lags i = 1)) := by
  refine ⟨fun l => ?_, fun l => ?_, ?_⟩
  · simp [cromNew, gpnhNew, hls, cromLags]
  · simp only [cromNew, gpnhNew, hls, cromLags, cromCheckConstructor, Py.ok_bind, Py.pure_eq,
      show ¬ ((m : ℤ) < 0) by omega, if_false]
    exact ⟨_, rfl, fun i => rfl, rfl, rfl⟩
  · simp only [cromNew, gpnhNew, hls, cromLags, cromCheckConstructor, Py.ok_bind, Py.pure_eq,
      show ¬ ((m : ℤ) < 0) by omega, if_false]
    refine ⟨_, rfl, fun i => ?_⟩
    have : i = 0 := Subsingleton.elim _ _
    subst this
    rfl

/-- C101.  `FEMBVKMeans` rejects nothing when it is constructed; its defaults are a random start, 500
iterations, tolerance 1e-4 and, unlike the others, no check that the cost decreases. -/
theorem C101_fem_defaults {R : Rng K} (g : R.G) (nComponents maxTvNorm : NumArg K) :
    femKMeansNew g nComponents maxTvNorm =
      { nComponents := nComponents, maxTvNorm := maxTvNorm, init := some "random"
        maxIterations := .int 500, tolerance := .real (1 / 10000), randomState := g
        require := false } := by
  simp [femKMeansNew, Kwargs.get, KwVal.truth]
  norm_num

/-- The monotonicity check is on or off: by default as given, and otherwise off exactly for `False` and
zeros. -/
def CheckSetting (kw : Kwargs K) (default value : Bool) : Prop :=
  (kw.lookup "require_monotonic_cost_decrease" = none → value = default) ∧
  (∀ b, kw.lookup "require_monotonic_cost_decrease" = some (.bool b) → value = b) ∧
  (∀ z : ℤ, kw.lookup "require_monotonic_cost_decrease" = some (.int z) → (value = false ↔ z = 0)) ∧
  (∀ x : K, kw.lookup "require_monotonic_cost_decrease" = some (.real x) → (value = false ↔ x = 0))

/-- C101.  The monotonicity check of all estimators: on by default, off by default for FEM-BV, and
otherwise as set. -/
theorem C101_monotonicity_check {R : Rng K} (kw : Kwargs K) (g : R.G) (rs : RandomArg R)
    (nComponents tolerance maxIterations maxTv : NumArg K) (lags : Option (List (NumArg K)))
    (clags : LagsArg) (eps epsw delta : K) (init : Option String) :
    (∀ obj, gpnhNew g nComponents kw eps init tolerance maxIterations = Py.ok obj →
      CheckSetting kw true obj.require) ∧
    (∀ obj, kaaInit nComponents kw delta init tolerance maxIterations rs = Py.ok obj →
      CheckSetting kw true obj.require) ∧
    (∀ obj, mtdNew g nComponents lags kw eps epsw init tolerance maxIterations = Py.ok obj →
      CheckSetting kw true obj.2.require) ∧
    (∀ obj, cromNew g nComponents clags kw eps init tolerance maxIterations = Py.ok obj →
      CheckSetting kw true obj.2.base.require) ∧
    CheckSetting kw false
      (femKMeansNew g nComponents maxTv kw init maxIterations tolerance : FEMKMeansObj R).require := by
  have key : ∀ d, CheckSetting kw d (kw.get "require_monotonic_cost_decrease" (.bool d)).truth := by
    intro d
    refine ⟨fun h => ?_, fun b h => ?_, fun z h => ?_, fun x h => ?_⟩ <;>
      simp [Kwargs.get, h, KwVal.truth]
  have hg : ∀ obj, gpnhNew (R := R) g nComponents kw eps init tolerance maxIterations = Py.ok obj →
      CheckSetting kw true obj.require := by
    intro obj h
    unfold gpnhNew at h
    obtain ⟨ls, -, h⟩ := Py.bind_eq_ok.1 h
    obtain rfl := Py.ok.inj h
    exact key true
  refine ⟨hg, fun obj h => ?_, fun obj h => ?_, fun obj h => ?_, key false⟩
  · unfold kaaInit at h
    obtain ⟨o, -, h⟩ := Py.bind_eq_ok.1 h
    obtain ⟨ls, -, h⟩ := Py.bind_eq_ok.1 h
    obtain rfl := Py.ok.inj h
    exact key true
  · unfold mtdNew at h
    obtain ⟨l, -, h⟩ := Py.bind_eq_ok.1 h
    obtain ⟨ls, -, h⟩ := Py.bind_eq_ok.1 h
    obtain rfl := Py.ok.inj h
    exact key true
  · unfold cromNew at h
    obtain ⟨b, hb, h⟩ := Py.bind_eq_ok.1 h
    obtain ⟨l, -, h⟩ := Py.bind_eq_ok.1 h
    obtain ⟨u, -, h⟩ := Py.bind_eq_ok.1 h
    obtain rfl := Py.ok.inj h
    exact hg _ hb

/-- `-1` switches the check on, `0.0` off. -/
example : (femKMeansNew (R := demoRng) (0 : ℕ) (.int 2) .none
      [("require_monotonic_cost_decrease", .int (-1))] : FEMKMeansObj demoRng).require = true ∧
    (femKMeansNew (R := demoRng) (0 : ℕ) (.int 2) .none
      [("require_monotonic_cost_decrease", .real 0)] : FEMKMeansObj demoRng).require = false := by
  have h := fun kw => (C101_monotonicity_check (R := demoRng) kw (0 : ℕ) (.seed 0) (.int 2)
    (.real (1 / 10 ^ 4)) (.int 500) .none none .none 0 0 0 (some "random")).2.2.2.2
  refine ⟨?_, ((h _).2.2.2 0 rfl).2 rfl⟩
  have h1 := (h [("require_monotonic_cost_decrease", .int (-1))]).2.2.1 (-1) rfl
  exact Bool.eq_true_of_not_eq_false fun hf => by simpa using h1.1 hf

example : kaaInit (K := ℚ) (R := demoEnv.rng) (.int 0) (randomState := .seed 1) = Py.ok
      { nComponents := .int 0, delta := 0, init := none, tolerance := .real (1 / 10000)
        maxIterations := .int 1000, randomState := .seed 1
        ls := ⟨1, 1 / 10000, 1 / 1000, 1000, 1 / 10, 9 / 10, 1 / 1000000000000⟩, require := true } ∧
    kaaInit (K := ℚ) (R := demoEnv.rng) (.int (-1)) (randomState := .seed 1) =
      Py.raise .valueError := ⟨C101_kaa_defaults _ 0, rfl⟩

example : mtdNew (K := ℚ) (R := demoRng) (0 : ℕ) (.int 2) (some [.int 2, .int 0]) =
    Py.raise .valueError :=
  (C101_mtd_lags (R := demoRng) (0 : ℕ) (.int 2) []).2 _ ⟨.int 0, by simp, by
    intro z hz h
    simp only [NumArg.int.injEq] at h
    omega⟩

example : solverSettings ([("line_search_memory", .int (-2))] : Kwargs ℚ) = Py.raise .valueError ∧
    solverSettings ([("line_search_memory", .real (5 / 2))] : Kwargs ℚ) = Py.raise .typeError :=
  ⟨(C101_settings_outcomes _).1 ⟨-2, by norm_num, rfl⟩, (C101_settings_outcomes _).2.1 ⟨5 / 2, rfl⟩⟩

end Reor
