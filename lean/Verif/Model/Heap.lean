import Verif.Model.Arrays
import Verif.Model.LineSearch
import Verif.Model.Descent

/-!
Arrays as objects in memory.  The other model files treat arrays as values; here an array lives at an
address, attributes hold addresses, and the difference between `self.S = ...` (a new array),
`self.S += ...` (the same array, changed in place) and `self.S = other` (a second name for an array) is
kept.  The code of `src/reor/gpnh_convex_coding.py` and `src/reor/archetypal_analysis.py` is written
again in these terms in `Verif.Model.GPNHHeap` and `Verif.Model.KAAHeap`.
-/

namespace Reor

variable {K : Type}

/-- Memory: arrays at the addresses below `next`. -/
structure Heap (K : Type) where
  next : ℕ
  cell : ℕ → Arr2 K

/-- An array seen as an `m × n` matrix (arrays of other shapes do not occur and read as 0). -/
def Arr2.at [Zero K] (A : Arr2 K) (m n : ℕ) : Matrix (Fin m) (Fin n) K :=
  Matrix.of fun i j =>
    if h : A.rows = m ∧ A.cols = n then (A.cast h.1 h.2) i j else 0

/-- A new array. -/
def Heap.alloc (h : Heap K) (A : Arr2 K) : Heap K :=
  ⟨h.next + 1, Function.update h.cell h.next A⟩

/-- Overwrite the array at `a`. -/
def Heap.write (h : Heap K) (a : ℕ) (A : Arr2 K) : Heap K := ⟨h.next, Function.update h.cell a A⟩

/-- Outcome of code that works on memory; an exception leaves the memory as it is at that point. -/
inductive HPy (K α : Type) where
  | ok (a : α)
  | raise (e : PyErr) (h : Heap K)
  | diverge

namespace HPy

variable {α β : Type}

/-- Sequencing. -/
def bind (x : HPy K α) (f : α → HPy K β) : HPy K β :=
  match x with
  | ok a => f a
  | raise e h => raise e h
  | diverge => diverge

instance : Monad (HPy K) where
  pure := ok
  bind := bind

/-- Code that does not touch the memory `h`. -/
def lift (h : Heap K) : Py α → HPy K α
  | .ok a => ok a
  | .raise e => raise e h
  | .diverge => diverge

end HPy

/-- An object whose array attributes are named by `ι`: the address of each attribute, its other
attributes `rest`, and the memory. `shape` gives the shapes of the attributes. -/
structure HState (ι : Type) (τ K : Type) where
  addr : ι → ℕ
  rest : τ
  heap : Heap K

namespace HState

variable {ι τ : Type} [DecidableEq ι]

/-- The array of attribute `a`, at its shape. -/
def val [Zero K] (shape : ι → ℕ × ℕ) (s : HState ι τ K) (a : ι) :
    Matrix (Fin (shape a).1) (Fin (shape a).2) K :=
  (s.heap.cell (s.addr a)).at (shape a).1 (shape a).2

/-- `self.a = <expression with a new array as value>`. -/
def assign (s : HState ι τ K) (a : ι) {m n : ℕ} (M : Matrix (Fin m) (Fin n) K) : HState ι τ K :=
  { s with addr := Function.update s.addr a s.heap.next, heap := s.heap.alloc (Arr2.of M) }

/-- `self.a += ...` and other operations that put their result into the array of `self.a`. -/
def augment (s : HState ι τ K) (a : ι) {m n : ℕ} (M : Matrix (Fin m) (Fin n) K) : HState ι τ K :=
  { s with heap := s.heap.write (s.addr a) (Arr2.of M) }

/-- `self.a = x` for an array `x` at address `x`. -/
def bindTo (s : HState ι τ K) (a : ι) (x : ℕ) : HState ι τ K :=
  { s with addr := Function.update s.addr a x }

end HState

variable {ι τ : Type} [Field K] [LinearOrder K]

/-- A line search on memory, e.g. src/reor/gpnh_convex_coding.py lines 357-389: `first` is the full
step, made in place, `trial` the shorter ones, which make new arrays. -/
def hLineSearch (cfg : LSConfig K) (first : HState ι τ K → HState ι τ K × K)
    (trial : HState ι τ K → K → HState ι τ K × K) (mem : List K) (s : HState ι τ K)
    (currentCost incrNorm : K) : HPy K (LSResult (HState ι τ K) K) :=
  match mem with
  | [] => HPy.raise .indexError s.heap
  | _ :: rest =>
    let mem' := rest ++ [currentCost]
    match foldMax mem' with
    | none => HPy.raise .typeError s.heap
    | some fMax =>
      let r := first s
      match backtrack cfg trial fMax incrNorm currentCost 1 r.1 r.2 0 with
      | none => HPy.diverge
      | some (stepSize, s', cost, rounds) => HPy.ok ⟨mem', stepSize, s', cost, rounds⟩

/-- One iteration of `_iterate` on memory, e.g. src/reor/gpnh_convex_coding.py lines 524-536. -/
def hRunPhases (evalCost : HState ι τ K → HState ι τ K × K) (require : Bool) (oldCost : K) :
    List (HState ι τ K → HPy K (HState ι τ K)) → HState ι τ K → K → HPy K (HState ι τ K × K)
  | [], s, newCost => HPy.ok (s, newCost)
  | p :: ps, s, _ => do
    let s ← p s
    let r := evalCost s
    if r.2 > oldCost ∧ require = true then HPy.raise .runtimeError r.1.heap
    else hRunPhases evalCost require oldCost ps r.1 r.2

/-- The loop of `_iterate` on memory, e.g. src/reor/gpnh_convex_coding.py lines 519-552. -/
def hIterateLoop (evalCost : HState ι τ K → HState ι τ K × K) (require : Bool) (tolerance : K)
    (phases : List (HState ι τ K → HPy K (HState ι τ K))) :
    List ℕ → HState ι τ K → K → Option ℕ → List K → HPy K (IterResult (HState ι τ K) K)
  | [], s, newCost, last, trace =>
    match last with
    | none => HPy.raise .unboundLocalError s.heap
    | some n => HPy.ok ⟨s, newCost, n, trace⟩
  | i :: is, s, newCost, _, trace => do
    let oldCost := newCost
    let r ← hRunPhases evalCost require oldCost phases s newCost
    let costDelta := r.2 - oldCost
    if |costDelta| < tolerance then HPy.ok ⟨r.1, r.2, i, trace ++ [r.2]⟩
    else hIterateLoop evalCost require tolerance phases is r.1 r.2 (some i) (trace ++ [r.2])

/-- `_iterate` on memory. -/
def hIterate (evalCost : HState ι τ K → HState ι τ K × K) (require : Bool) (tolerance : K)
    (maxIterations : ℕ) (phases : List (HState ι τ K → HPy K (HState ι τ K))) (s : HState ι τ K) :
    HPy K (IterResult (HState ι τ K) K) :=
  let r := evalCost s
  hIterateLoop evalCost require tolerance phases (List.range maxIterations) r.1 r.2 none []

end Reor
