/-!
# Outcomes of C++ code

Every modelled C++ function that can do something else than return a value returns an `Outcome`.
Undefined behaviour and endless loops are outcomes of their own, so that a theorem of the form
`f x = .ok y` says that neither occurs.
-/

namespace Verif

/-- The classes of C++ exceptions that the modelled code distinguishes or lets escape. -/
inductive Exn where
  /-- `std::out_of_range`: short `Bytestream` data, `map::at`, `stoul`/`stoi` overflow. -/
  | outOfRange
  /-- thrown by `Bytestream >> constant` when the data does not match the constant. -/
  | badMatch
  /-- `std::bad_variant_access` from `std::get` on `IppValue` (lib/polymorph.h). -/
  | badVariant
  /-- `std::logic_error` thrown explicitly by the code. -/
  | logicError
  /-- `std::invalid_argument`, e.g. from `std::stoi("")`. -/
  | invalidArgument
  deriving DecidableEq, Repr

/-- What running a piece of C++ can come to. -/
inductive Outcome (α : Type) where
  /-- normal return -/
  | ok (a : α)
  /-- an exception leaves the function -/
  | throws (e : Exn)
  /-- undefined behaviour is reached -/
  | ub
  /-- the function never returns -/
  | hang
  deriving DecidableEq, Repr

namespace Outcome

/-- Sequencing: anything but a normal return ends the computation. -/
def bind {α β : Type} : Outcome α → (α → Outcome β) → Outcome β
  | .ok a, f => f a
  | .throws e, _ => .throws e
  | .ub, _ => .ub
  | .hang, _ => .hang

instance : Monad Outcome where
  pure := .ok
  bind := bind

@[simp] theorem bind_ok {α β : Type} (a : α) (f : α → Outcome β) : (Outcome.ok a >>= f) = f a := rfl
@[simp] theorem bind_throws {α β : Type} (e : Exn) (f : α → Outcome β) :
    (Outcome.throws e >>= f) = .throws e := rfl
@[simp] theorem bind_ub {α β : Type} (f : α → Outcome β) : ((Outcome.ub : Outcome α) >>= f) = .ub := rfl
@[simp] theorem bind_hang {α β : Type} (f : α → Outcome β) :
    ((Outcome.hang : Outcome α) >>= f) = .hang := rfl
@[simp] theorem pure_eq {α : Type} (a : α) : (pure a : Outcome α) = .ok a := rfl

theorem bind_eq_ok {α β : Type} {x : Outcome α} {f : α → Outcome β} {b : β} :
    (x >>= f) = .ok b ↔ ∃ a, x = .ok a ∧ f a = .ok b := by
  cases x <;> simp

/-- The computation returns or throws: no undefined behaviour, no endless loop. -/
def Defined {α : Type} : Outcome α → Prop
  | .ok _ => True
  | .throws _ => True
  | .ub => False
  | .hang => False

instance {α : Type} (x : Outcome α) : Decidable x.Defined := by
  cases x <;> simp only [Defined] <;> infer_instance

end Outcome
end Verif
