/-
Outcomes of Python code, and the few Python built-ins the model uses.
-/

namespace Reor

/-- Exceptions that the modelled code can raise.  `nonFinite` is not a Python exception: it marks
that numpy produced NaN or an infinity at this point (a division by zero); what the program does
with such values is outside the model. -/
inductive PyErr where
  | valueError
  | typeError
  | indexError
  | runtimeError
  | attributeError
  | zeroDivisionError
  | linAlgError
  | unboundLocalError
  | notImplementedError
  | assertionError
  | nonFinite
  deriving DecidableEq, Repr

/-- Outcome of running a piece of Python: a value, an exception, or no outcome at all. -/
inductive Py (α : Type) where
  | ok (a : α)
  | raise (e : PyErr)
  | diverge

namespace Py

variable {α β γ : Type}

/-- Sequencing: an exception or divergence of the first part is that of the whole. -/
def bind (x : Py α) (f : α → Py β) : Py β :=
  match x with
  | ok a => f a
  | raise e => raise e
  | diverge => diverge

instance : Monad Py where
  pure := ok
  bind := bind

/-- Result of a `while` loop (`none` means the loop never ends). -/
def ofLoop : Option α → Py α
  | some a => ok a
  | none => diverge

@[simp] theorem pure_eq (a : α) : (pure a : Py α) = ok a := rfl
@[simp] theorem ok_bind (a : α) (f : α → Py β) : (ok a >>= f) = f a := rfl
@[simp] theorem raise_bind (e : PyErr) (f : α → Py β) : ((raise e : Py α) >>= f) = raise e := rfl
@[simp] theorem diverge_bind (f : α → Py β) : ((diverge : Py α) >>= f) = diverge := rfl
@[simp] theorem ofLoop_some (a : α) : ofLoop (some a) = ok a := rfl
@[simp] theorem ofLoop_none : ofLoop (none : Option α) = diverge := rfl

@[simp] theorem ofLoop_eq_ok {o : Option α} {a : α} : ofLoop o = ok a ↔ o = some a := by
  cases o <;> simp [ofLoop]

theorem bind_eq_ok {x : Py α} {f : α → Py β} {b : β} :
    (x >>= f) = ok b ↔ ∃ a, x = ok a ∧ f a = ok b := by
  cases x <;> simp

theorem bind_eq_raise {x : Py α} {f : α → Py β} {e : PyErr} :
    (x >>= f) = raise e ↔ x = raise e ∨ ∃ a, x = ok a ∧ f a = raise e := by
  cases x <;> simp

theorem bind_eq_diverge {x : Py α} {f : α → Py β} :
    (x >>= f) = diverge ↔ x = diverge ∨ ∃ a, x = ok a ∧ f a = diverge := by
  cases x <;> simp

end Py

/-- `list(range(start, stop, -1))`. -/
def pyRangeDown (start stop : Int) : List Int :=
  (List.range (start - stop).toNat).map fun (j : Nat) => start - (j : Int)

/-- `l[i]` for a Python/numpy index (negative indices count from the end); `default` stands for the
IndexError case, which the callers below never reach. -/
def pyGet {α : Type} (l : List α) (i : Int) (default : α) : α :=
  if 0 ≤ i then l.getD i.toNat default else l.getD (l.length + i).toNat default

/-- `l[-m:]` for a positive `m`. -/
def pyLast {α : Type} (l : List α) (m : Nat) : List α := l.drop (l.length - m)

end Reor
