/-!
# Specification: the content of a property set after a history of assignments

Mentions nothing of the model.
-/

namespace Verif.Spec

/-- The value of property `i` after the assignments `h` (most recent first), initially absent: the value of
the most recent assignment to `i`. -/
def propertyAfter (h : List (Nat × Bool)) (i : Nat) : Bool :=
  match h.find? (fun a => a.1 == i) with
  | some a => a.2
  | none => false

end Verif.Spec
