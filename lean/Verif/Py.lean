/-!
# Python values and exceptions used by the model

`bytes` objects are lists of octets; raising an exception is an `Except.error`.
This file models the Python runtime, not a file of `/repo`.
-/

namespace SY

/-- A Python `bytes` object. -/
abbrev Bytes := List UInt8

/-- The exception classes that the modelled code raises (or lets escape from the
Python library), identified by class only: messages are not modelled.
`/repo/switchyard/lib/exceptions.py` defines `NotEnoughDataError`, `Shutdown`, `NoPackets`,
`TestScenarioFailure`; the others are Python built-ins (`generic` is a bare `Exception`,
`addressValue` is `ipaddress.AddressValueError`, `structError` is `struct.error`).
`diverges` is not an exception: it marks a call that never returns, and is only produced by
functions whose literal loop is separately proved not to terminate in that case. -/
inductive PyErr
  | notEnoughData | valueError | keyError | structError | indexError | typeError
  | runtimeError | generic | addressValue | attributeError | unboundLocal | osError
  | shutdown | noPackets | testFailure | overflowError | queueEmpty | assertion | nameError
  | diverges | stopIteration
  deriving DecidableEq, Repr

/-- Result of running Python code that may raise. -/
abbrev Res (α : Type) := Except PyErr α

instance {ε α} [DecidableEq ε] [DecidableEq α] : DecidableEq (Except ε α)
  | .ok a, .ok b => if h : a = b then isTrue (by rw [h]) else isFalse (by intro e; cases e; exact h rfl)
  | .error a, .error b =>
      if h : a = b then isTrue (by rw [h]) else isFalse (by intro e; cases e; exact h rfl)
  | .ok _, .error _ => isFalse (by intro e; cases e)
  | .error _, .ok _ => isFalse (by intro e; cases e)

/-- `b'\x00' * n`. -/
def zeros (n : Nat) : Bytes := List.replicate n 0

@[simp] theorem length_zeros (n : Nat) : (zeros n).length = n := by simp [zeros]

@[simp] theorem bind_ok {α β : Type} (a : α) (f : α → Res β) :
    (Except.ok a >>= f : Res β) = f a := id rfl
@[simp] theorem bind_error {α β : Type} (e : PyErr) (f : α → Res β) :
    (Except.error e >>= f : Res β) = Except.error e := id rfl
@[simp] theorem pure_ok {α : Type} (a : α) : (pure a : Res α) = Except.ok a := rfl
@[simp] theorem throw_err {α : Type} (e : PyErr) : (throw e : Res α) = Except.error e := rfl
@[simp] theorem map_ok {α β : Type} (a : α) (f : α → β) :
    (f <$> (Except.ok a : Res α)) = Except.ok (f a) := id rfl
@[simp] theorem map_error {α β : Type} (e : PyErr) (f : α → β) :
    (f <$> (Except.error e : Res α)) = Except.error e := id rfl

theorem bind_eq_ok {α β : Type} {x : Res α} {f : α → Res β} {b : β} :
    (x >>= f) = Except.ok b ↔ ∃ a, x = Except.ok a ∧ f a = Except.ok b := by
  cases x <;> simp

theorem map_eq_ok {α β : Type} {x : Res α} {f : α → β} {b : β} :
    (f <$> x) = Except.ok b ↔ ∃ a, x = Except.ok a ∧ f a = b := by
  cases x <;> simp

/-- Did the computation return, with a result satisfying `p`?  (Used to state concrete witnesses.) -/
def Except.test {α : Type} (r : Res α) (p : α → Bool) : Bool :=
  match r with
  | .ok a => p a
  | .error _ => false

theorem Except.of_test {α : Type} {r : Res α} {p : α → Bool} (h : Except.test r p = true) :
    ∃ a, r = .ok a ∧ p a = true := by
  cases r with
  | ok a => exact ⟨a, rfl, h⟩
  | error e => cases h

/-- A Python attribute assignment that may raise: the object keeps its old state if the
setter raises. -/
def assign {α : Type} (old : α) (r : Res α) : α :=
  match r with
  | .ok new => new
  | .error _ => old

/-- A property of all octets, from the 256 cases. -/
theorem forall_uint8 {p : UInt8 → Prop} (h : ∀ n : Fin 256, p (UInt8.ofNat n.val)) (b : UInt8) :
    p b := by
  have := h ⟨b.toNat, b.toNat_lt⟩
  simpa using this

end SY
