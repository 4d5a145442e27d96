import Verif.Model.Trajectory

/-!
# Accessors of `trajectoryElement` that dereference a pointer

core/include/trajectoryElement.hh:70-146, 196-207.  Binding a reference to a dereferenced null pointer is undefined behaviour.
-/

noncomputable section

namespace Verif

/-- `*p` -/
def deref {α : Type} (what : String) : Option α → Out α
  | none => .ub ("null pointer dereferenced: " ++ what)
  | some a => .ok a

namespace Element

/-- `surface`, trajectoryElement.hh:70-73 -/
def surfaceRef (e : Element) : Out Surface := deref "surface" e.surface

/-- `jacobian` and `jacobianFromPrevious`, trajectoryElement.hh:84-92 -/
def jacobianRef (e : Element) : Out M5 := deref "jacobian" e.jac

/-- `measurementDimension`, trajectoryElement.hh:112-115 -/
def measurementDimension (e : Element) : Out ℕ := do
  let d ← deref "measurement directions" e.measDirs
  pure d.length

/-- `localCurvilinearSystem`, trajectoryElement.hh:130-133 -/
def frameRef (e : Element) : Out (V3 × V3) := deref "curvilinear system" e.frame

/-- `measurementDirections`, trajectoryElement.hh:136-139 -/
def measurementDirections (e : Element) : Out (List V3) := deref "measurement directions" e.measDirs

/-- `localToMeasurementProjection`, trajectoryElement.hh:142-145 -/
def projectionRef (e : Element) : Out (Fin 4 → Dbl) := deref "projection" e.proj

/-- `operator<<`, trajectoryElement.hh:196-207: the values printed, in this order -/
def print (e : Element) : Out (Dbl × Bool × Bool × Surface × M5 × M5) := do
  let surf ← e.surfaceRef
  let j ← e.jacobianRef
  let j' ← e.jacobianRef
  pure (e.arc, e.measurement, e.scatterer, surf, j, j')

end Element

end Verif
