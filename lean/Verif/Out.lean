/-!
# Outcomes of a C++ call

A call either returns a value, throws, runs into undefined behaviour or does not terminate.
-/

namespace Verif

/-- Outcome of a C++ call. -/
inductive Out (α : Type _) where
  /-- normal return -/
  | ok (a : α)
  /-- a C++ exception (`std::runtime_error`, `std::invalid_argument`, `std::out_of_range` ...) -/
  | throw (what : String)
  /-- undefined behaviour -/
  | ub (why : String)
  /-- the call does not return -/
  | diverge

namespace Out

variable {α β : Type _}

/-- sequencing -/
protected def bind (x : Out α) (f : α → Out β) : Out β :=
  match x with
  | ok a => f a
  | throw w => throw w
  | ub w => ub w
  | diverge => diverge

instance : Monad Out where
  pure := ok
  bind := Out.bind

@[simp] theorem ok_bind (a : α) (f : α → Out β) : (ok a >>= f) = f a := rfl
@[simp] theorem throw_bind (w : String) (f : α → Out β) : ((throw w : Out α) >>= f) = throw w := rfl
@[simp] theorem ub_bind (w : String) (f : α → Out β) : ((ub w : Out α) >>= f) = ub w := rfl
@[simp] theorem diverge_bind (f : α → Out β) : ((diverge : Out α) >>= f) = diverge := rfl
@[simp] theorem pure_eq (a : α) : (pure a : Out α) = ok a := rfl

theorem bind_eq_ok {x : Out α} {f : α → Out β} {b : β} :
    (x >>= f) = ok b ↔ ∃ a, x = ok a ∧ f a = ok b := by
  cases x <;> simp

theorem bind_eq_throw {x : Out α} {f : α → Out β} {w : String} :
    (x >>= f) = throw w ↔ x = throw w ∨ ∃ a, x = ok a ∧ f a = throw w := by
  cases x <;> simp

end Out

end Verif
