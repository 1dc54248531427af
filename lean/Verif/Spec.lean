import Mathlib.Algebra.BigOperators.Group.Finset.Basic
import Mathlib.Algebra.Order.Field.Basic
import Mathlib.Algebra.Order.Group.Abs
import Mathlib.Algebra.BigOperators.Fin
import Mathlib.LinearAlgebra.Matrix.Defs
import Mathlib.Data.Matrix.Mul

/-!
Specification vocabulary.  Nothing here refers to the model.
-/

namespace Reor.Spec

open scoped BigOperators

variable {K : Type} [Field K] [LinearOrder K]

/-- `v` is a probability vector (a point of the standard simplex). -/
def IsProb {n : ℕ} (v : Fin n → K) : Prop := (∀ i, 0 ≤ v i) ∧ ∑ i, v i = 1

/-- Every row of `A` is a probability vector. -/
def RowStochastic {m n : ℕ} (A : Matrix (Fin m) (Fin n) K) : Prop := ∀ i, IsProb (fun j => A i j)

/-- Every column of `A` is a probability vector. -/
def ColStochastic {m n : ℕ} (A : Matrix (Fin m) (Fin n) K) : Prop := ∀ j, IsProb (fun i => A i j)

/-- Squared Euclidean distance. -/
def sqDist {n : ℕ} (x y : Fin n → K) : K := ∑ i, (x i - y i) ^ 2

/-- Squared Frobenius norm. -/
def frobSq {m n : ℕ} (A : Matrix (Fin m) (Fin n) K) : K := ∑ i, ∑ j, (A i j) ^ 2

/-- Frobenius inner product. -/
def inner {m n : ℕ} (A B : Matrix (Fin m) (Fin n) K) : K := ∑ i, ∑ j, A i j * B i j

/-- Sum of the dissimilarities `d j s` over the members `s` of `sel`. -/
def sumTo (d : ℤ → ℤ → K) (sel : List ℤ) (j : ℤ) : K := (sel.map fun s => d j s).sum

/-- Total dissimilarity over the unordered pairs of positions of a list. -/
def pairTotal (d : ℤ → ℤ → K) : List ℤ → K
  | [] => 0
  | a :: l => (l.map fun s => d a s).sum + pairTotal d l

/-- The documented GPNH objective: mean squared reconstruction error plus `eps` times the mean, over
ordered pairs of distinct dictionary elements, of their squared distance per feature. (With a single
element there are no pairs: the double sum is 0.) -/
def gpnhCost {T D k : ℕ} (eps : K) (X : Matrix (Fin T) (Fin D) K) (W : Matrix (Fin T) (Fin k) K)
    (S : Matrix (Fin k) (Fin D) K) : K :=
  (∑ t, ∑ d, (X t d - ∑ i, W t i * S i d) ^ 2) / ((D : K) * (T : K)) +
    eps * ((∑ i, ∑ j, sqDist (fun d => S i d) (fun d => S j d)) /
      ((k : K) * ((k : K) - 1) * (D : K)))

/-- The kernel archetypal analysis objective: the squared distances, in the feature space with inner
products `A`, between the samples and their reconstructions; sample `t` is reconstructed by the
combination of samples with coefficients `∑ i, S t i * C i j`. -/
def kaaCost {n k : ℕ} (A : Matrix (Fin n) (Fin n) K) (S : Matrix (Fin n) (Fin k) K)
    (C : Matrix (Fin k) (Fin n) K) : K :=
  ∑ t, (A t t - 2 * ∑ j, (∑ i, S t i * C i j) * A j t +
    ∑ i, ∑ j, (∑ l, S t l * C l i) * A i j * (∑ l, S t l * C l j))

/-- Mixture transition prediction for time `t`: the sum over the lags of the order weight times the
transition matrix applied to the weights `lag` steps earlier. -/
def mtdStep {k p : ℕ} (lags : Fin p → ℕ) (w : Fin p → K) (A : Fin p → Matrix (Fin k) (Fin k) K)
    (history : ℕ → Fin k → K) (t : ℕ) : Fin k → K :=
  fun j => ∑ i, w i * ∑ l, A i j l * history (t - lags i) l

/-- The rows of a matrix as a sequence (zero after the last row). -/
def rowSeq {T k : ℕ} (W : Matrix (Fin T) (Fin k) K) (t : ℕ) : Fin k → K :=
  if h : t < T then fun j => W ⟨t, h⟩ j else fun _ => 0

/-- Number of samples having a sample at every lag before them. -/
def mtdSamples {p : ℕ} (lags : Fin p → ℕ) (T : ℕ) : ℕ :=
  (Finset.univ.filter fun t : Fin T => ∀ i, lags i ≤ t).card

/-- The MTD regulariser: `eps` times the mean, over the components and the samples having a sample
at every lag before them, of the squared difference between the weights and their mixture transition
prediction; zero for a single component. -/
def mtdPenalty {T k p : ℕ} (eps : K) (lags : Fin p → ℕ) (W : Matrix (Fin T) (Fin k) K)
    (w : Fin p → K) (A : Fin p → Matrix (Fin k) (Fin k) K) : K :=
  if k = 1 then 0
  else eps * ((∑ t : Fin T, if ∀ i, lags i ≤ t then
    sqDist (fun j => W t j) (mtdStep lags w A (rowSeq W) t) else 0) /
      ((k : K) * (mtdSamples lags T : K)))

/-- The documented MTD convex coding objective. -/
def mtdCost {T D k p : ℕ} (epsStates epsWeights : K) (lags : Fin p → ℕ)
    (X : Matrix (Fin T) (Fin D) K) (W : Matrix (Fin T) (Fin k) K) (S : Matrix (Fin k) (Fin D) K)
    (w : Fin p → K) (A : Fin p → Matrix (Fin k) (Fin k) K) : K :=
  gpnhCost epsStates X W S + mtdPenalty epsWeights lags W w A

/-- `q` follows the mixture transition recursion from time `m` on. -/
def FollowsMTD {k p : ℕ} (lags : Fin p → ℕ) (w : Fin p → K) (A : Fin p → Matrix (Fin k) (Fin k) K)
    (m : ℕ) (q : ℕ → Fin k → K) : Prop := ∀ n, m ≤ n → q n = mtdStep lags w A q n

/-- `q` continues the rows of `W` up to row `t` by the mixture transition recursion. -/
def ContinuesMTD {T k p : ℕ} (lags : Fin p → ℕ) (w : Fin p → K)
    (A : Fin p → Matrix (Fin k) (Fin k) K) (W : Matrix (Fin T) (Fin k) K) (t : Fin T)
    (q : ℕ → Fin k → K) : Prop :=
  (∀ n : Fin T, n ≤ t → q n = fun j => W n j) ∧ FollowsMTD lags w A (t + 1) q

/-- Number of times a label sequence is at `k` with another label to follow. -/
def visits (labels : List ℕ) (k : ℕ) : ℕ :=
  ((Finset.range (labels.length - 1)).filter fun t => labels[t]? = some k).card

/-- Number of times a label sequence goes from `k` to `j` in one step. -/
def moves (labels : List ℕ) (k j : ℕ) : ℕ :=
  ((Finset.range (labels.length - 1)).filter fun t =>
    labels[t]? = some k ∧ labels[t + 1]? = some j).card

/-- The distribution after `h` steps of a chain with transition probabilities `M j k` from `k` to
`j`, started in `k`. -/
def chain {n : ℕ} (M : Matrix (Fin n) (Fin n) K) (k : Fin n) : ℕ → Fin n → K
  | 0 => fun j => if k = j then 1 else 0
  | h + 1 => fun j => ∑ l, M j l * chain M k h l

/-- Total variation of a sequence: the sum of the absolute values of its steps. -/
def totalVariation {T : ℕ} (x : Fin T → K) : K :=
  ∑ t : Fin (T - 1), |x ⟨t + 1, by omega⟩ - x ⟨t, by omega⟩|

/-- Weights that are a probability vector at each time and such that the total variation of the
weight of each component stays within the bound, if there is one. -/
def TvAdmissible {T k : ℕ} (bound : Option K) (G : Matrix (Fin T) (Fin k) K) : Prop :=
  RowStochastic G ∧ ∀ b, bound = some b → ∀ i, totalVariation (fun t => G t i) ≤ b

/-- The FEM-BV clustering cost: each sample's weighted distances to the components. -/
def assignmentCost {T k : ℕ} (G D : Matrix (Fin T) (Fin k) K) : K := ∑ t, ∑ i, G t i * D t i

/-- One-step prediction of a vector autoregression with external factors, for time `t`: intercept,
the previous values of the series, the previous and the current values of the factors. -/
def varxPrediction {p s D E : ℕ} (mu : Fin D → K) (A : Fin p → Matrix (Fin D) (Fin D) K)
    (B : Fin s → Matrix (Fin D) (Fin E) K) (B0 : Matrix (Fin D) (Fin E) K) (y : ℕ → Fin D → K)
    (u : ℕ → Fin E → K) (t : ℕ) : Fin D → K :=
  fun d => mu d + ∑ i : Fin p, ∑ b, A i d b * y (t - (i + 1)) b +
    ∑ i : Fin s, ∑ e, B i d e * u (t - (i + 1)) e + ∑ e, B0 d e * u t e

/-- Weighted squared errors of predictions for the times from `L` on. -/
def weightedError {n D : ℕ} (L : ℕ) (w : Fin n → K) (y : Matrix (Fin n) (Fin D) K)
    (pred : ℕ → Fin D → K) : K :=
  ∑ t : Fin n, if L ≤ t then w t * sqDist (fun d => y t d) (pred t) else 0

/-- The samples with weight other than 0 lie in a hyperplane. -/
def InHyperplane {n D : ℕ} (w : Fin n → K) (X : Matrix (Fin n) (Fin D) K) : Prop :=
  ∃ v : Fin D → K, v ≠ 0 ∧ ∃ c, ∀ t, w t ≠ 0 → ∑ d, X t d * v d = c

/-- The least-squares objective. -/
def lsError {m n r : ℕ} (a : Matrix (Fin m) (Fin n) K) (b : Matrix (Fin m) (Fin r) K)
    (x : Matrix (Fin n) (Fin r) K) : K := frobSq (b - a * x)

/-- Line search settings for which steps along projected gradients stay between 0 and 1: either the
safeguards of the interpolation lie in this range, or the search directions are descent directions
and the required fraction of the decrease, if below one half, excludes the others. -/
def SafeSteps (gamma alphaMax sigmaOne sigmaTwo : K) : Prop :=
  (0 ≤ sigmaOne ∧ sigmaTwo ≤ 1) ∨
  (0 ≤ alphaMax ∧ (0 ≤ sigmaOne ∨ gamma ≤ 1) ∧ (sigmaTwo ≤ 1 ∨ gamma ≤ 1 / 2))

/-- What is claimed of the range of the step that a line search with these settings ends with, along a
direction with this slope. -/
structure StepBounds (gamma sigmaOne sigmaTwo slope step : K) : Prop where
  pos : 0 < sigmaOne ∨ (slope < 0 ∧ gamma ≤ 1) → 0 < step
  nonneg : 0 ≤ sigmaOne ∨ (slope ≤ 0 ∧ gamma ≤ 1) → 0 ≤ step
  le_one : 0 ≤ sigmaOne ∨ (slope ≤ 0 ∧ gamma ≤ 1) →
    sigmaTwo ≤ 1 ∨ (slope ≤ 0 ∧ gamma ≤ 1 / 2) → step ≤ 1

/-- The costs of the successive iterations of a run that starts with the cost `start` and stops as soon
as the cost changes by less than `tol`, or after `maxIter` iterations: at least one iteration is made,
no change but the last is below `tol`, and the last is unless the iterations were exhausted. -/
def StopsBy (tol : K) (maxIter : ℕ) (start : K) (costs : List K) : Prop :=
  ∃ (earlier : List K) (prev last : K), start :: costs = earlier ++ [prev, last] ∧
    (earlier ++ [prev]).IsChain (fun a b => tol ≤ |b - a|) ∧ costs.length ≤ maxIter ∧
    (costs.length < maxIter → |last - prev| < tol)

end Reor.Spec
