import Verif.Model.PWVARX
import Verif.Model.Failure

/-!
What a failed fit of a piecewise VARX model leaves behind, src/reor/pwvarx.py: `fit_transform` written
once more, recording at each exception the state of the object at that point.
-/

namespace Reor

open scoped BigOperators

/-- What scikit-learn leaves of an object whose method raises an exception.  `predict` changes
nothing. -/
structure PWLeft (lib : PWLib) where
  /-- the clusterer after `fit_predict(z)` has failed -/
  clusterer : lib.Clusterer → Arr2 ℝ → lib.Clusterer
  /-- the classifier after `fit(x, labels)` has failed -/
  classifier : lib.Classifier → (x : Arr2 ℝ) → (Fin x.rows → ℤ) → lib.Classifier

section

variable {K m D p s E : ℕ}

/-- The loop of `_fit_var_model`, src/reor/pwvarx.py line 132.  In a pass only the least-squares
routine (line 145) can fail, and nothing has been assigned by then. -/
noncomputable def pwLoopF (lstsq : LstSq) (trend : Bool) (y : Matrix (Fin m) (Fin D) ℝ)
    (x : Matrix (Fin m) (Fin (p * D + s * E)) ℝ) (labels : Fin m → ℤ) :
    List (Fin K) → PWState K m D p s E → Run (PWState K m D p s E) (PWState K m D p s E)
  | [], st => Run.ok st
  | k :: ks, st => do
    let st ← Run.lift st (pwStep lstsq trend y x labels st k)
    pwLoopF lstsq trend y x labels ks st

end

section

variable {lib : PWLib}

/-- The object with the arrays of the loop, which it holds from lines 114-131 of src/reor/pwvarx.py
on. -/
def PWObj.withState (obj : PWObj lib) {K m D E : ℕ} (st : PWState K m D obj.p obj.s E) : PWObj lib :=
  { obj with
    mu := if obj.includeTrend then some (Arr2.of st.mu) else obj.mu
    A := if obj.p > 0 then some ⟨_, _, _, _, st.A⟩ else obj.A
    B := if obj.s * E > 0 then some ⟨_, _, _, _, st.B⟩ else obj.B
    sigmaU := some ⟨_, _, st.sigmaU⟩
    residuals := some (Arr2.of st.residuals) }

/-- `_fit_var_model`, src/reor/pwvarx.py lines 110-172.  A number of components that is not the size of
an array is rejected by the first `np.zeros`. -/
noncomputable def PWObj.fitVarModelF (lstsq : LstSq) (obj : PWObj lib) {m D E : ℕ}
    (y : Matrix (Fin m) (Fin D) ℝ) (x : Matrix (Fin m) (Fin (obj.p * D + obj.s * E)) ℝ)
    (labels : Fin m → ℤ) : Run (PWObj lib) (PWObj lib) := do
  let K ← Run.lift obj (pwSize obj.nComponents)
  let st ← Run.within obj.withState
    (pwLoopF lstsq obj.includeTrend y x labels (List.finRange K)
      ⟨0, fun _ _ => 0, fun _ _ => 0, fun _ => some 0, 0⟩)
  pure (obj.withState st)

/-- `_cluster` and the classification, src/reor/pwvarx.py lines 101-108 and 209-213: the object holds
the clusterer (line 106) when `fit_predict` is called, and the labels and the classifier (lines 108
and 210) when `fit` is called. -/
def PWObj.classifyF (left : PWLeft lib) (obj : PWObj lib) {m N D : ℕ} (x : Matrix (Fin m) (Fin N) ℝ)
    (y : Matrix (Fin m) (Fin D) ℝ) : Run (PWObj lib) (PWObj lib × (Fin m → ℤ)) := do
  let clusterer := obj.clusterer.getD (lib.newKMeans obj.nComponents)
  let z := Arr2.of (hstack x y)
  let c ← Run.lift { obj with clusterer := some (left.clusterer clusterer z) }
    (lib.fitPredict clusterer z)
  let classifier := obj.classifier.getD lib.newSVC
  let f ← Run.lift
    { obj with
      clusterer := some c.1
      clusterLabels_ := some ⟨m, c.2⟩
      classifier := some (left.classifier classifier (Arr2.of x) c.2) }
    (lib.fit classifier (Arr2.of x) c.2)
  let obj := { obj with
    clusterer := some c.1
    classifier := some f
    clusterLabels_ := some ⟨m, c.2⟩ }
  let labels ← Run.lift obj (lib.predict f (Arr2.of x))
  pure (obj, labels)

/-- `fit_transform`, src/reor/pwvarx.py lines 174-217. -/
noncomputable def PWObj.fitTransformF (left : PWLeft lib) (lstsq : LstSq) (obj : PWObj lib)
    (endog : PWArr) (exog : Option PWArr) : Run (PWObj lib) (PWObj lib × Σ m : ℕ, Fin m → ℤ) := do
  let data := endog.matrix
  let y := lagRows (max obj.p obj.s) data.val 0
  let x ← Run.lift obj (stackPredictors obj.p obj.s data (exog.map PWArr.matrix))
  let _ ← Run.lift obj (checkAxes endog)
  let r ← obj.classifyF left x y
  let obj' ← PWObj.fitVarModelF lstsq
    { obj with clusterer := r.1.clusterer, classifier := r.1.classifier,
               clusterLabels_ := r.1.clusterLabels_ } y x r.2
  pure (obj', ⟨_, r.2⟩)

end

end Reor
