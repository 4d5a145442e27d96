import Verif.Model.Vec
import Batteries.Data.Nat.Basic

/-!
# Surfaces and materials

Model of the interfaces `ISurface`, `ICylinder`, `SurfaceType`, `IMaterial` of
`core/include/AidaTTGeometry.hh`.  In a build with DD4hep the classes `dd4hep::rec::...` with the same
interface are used; `SurfaceType` has there in addition a property "cone" (used in
helixUtils.cc:672), and `ICylinder` a method `center()` (used in helixUtils.cc:441).
-/

open Classical

noncomputable section

namespace Verif

/-- `SurfaceType`, AidaTTGeometry.hh:130-291: its only member is `mutable std::bitset<32> _bits` -/
abbrev SurfaceType := Fin 32 → Bool

namespace SurfaceType

/-! property enum, AidaTTGeometry.hh:135-144 -/
/-- Cylinder = 0 -/
abbrev Cylinder : ℕ := 0
/-- Plane = 1 -/
abbrev Plane : ℕ := 1
/-- Sensitive = 2 -/
abbrev Sensitive : ℕ := 2
/-- Helper = 3 -/
abbrev Helper : ℕ := 3
/-- ParallelToZ = 4 -/
abbrev ParallelToZ : ℕ := 4
/-- OrthogonalToZ = 5 -/
abbrev OrthogonalToZ : ℕ := 5
/-- Invisible = 6 -/
abbrev Invisible : ℕ := 6

/-- default constructor, AidaTTGeometry.hh:147 -/
def empty : SurfaceType := fun _ => false

/-- `setProperty`, AidaTTGeometry.hh:180-183: `std::bitset::set` throws `std::out_of_range` -/
def setProperty (t : SurfaceType) (prop : ℕ) (val : Bool) : Out SurfaceType :=
  if prop < 32 then .ok (fun i => if i.val = prop then val else t i) else .throw "std::out_of_range"

/-- the constructors with one to four properties, AidaTTGeometry.hh:150-177: `_bits.set(p)` for each -/
def ofProps : List ℕ → Out SurfaceType
  | ps => ps.foldlM (fun t p => setProperty t p true) empty

/-- `isSensitive`, AidaTTGeometry.hh:186-189 -/
def isSensitive (t : SurfaceType) : Bool := t 2
/-- `isHelper`, AidaTTGeometry.hh:192-195 -/
def isHelper (t : SurfaceType) : Bool := t 3
/-- `isPlane`, AidaTTGeometry.hh:198-201 -/
def isPlane (t : SurfaceType) : Bool := t 1
/-- `isCylinder`, AidaTTGeometry.hh:204-207 -/
def isCylinder (t : SurfaceType) : Bool := t 0
/-- `isParallelToZ`, AidaTTGeometry.hh:210-213 -/
def isParallelToZ (t : SurfaceType) : Bool := t 4
/-- `isOrthogonalToZ`, AidaTTGeometry.hh:216-219 -/
def isOrthogonalToZ (t : SurfaceType) : Bool := t 5
/-- `isVisible`, AidaTTGeometry.hh:222-225 -/
def isVisible (t : SurfaceType) : Bool := !t 6
/-- `isZCylinder`, AidaTTGeometry.hh:228-231 -/
def isZCylinder (t : SurfaceType) : Bool := t 0 && t 4
/-- `isZPlane`, AidaTTGeometry.hh:234-237 -/
def isZPlane (t : SurfaceType) : Bool := t 1 && t 4
/-- `isZDisk`, AidaTTGeometry.hh:240-243 -/
def isZDisk (t : SurfaceType) : Bool := t 1 && t 5

/-- `std::bitset<32>::to_ulong` -/
def toUlong (t : SurfaceType) : ℕ := Nat.ofBits t

/-- `isSimilar`, AidaTTGeometry.hh:247-253 -/
def isSimilar (t other : SurfaceType) : Bool :=
  let otherBits := toUlong other
  let theseBits := toUlong t
  (otherBits &&& theseBits) == otherBits

/-- `checkParallelToZ`, AidaTTGeometry.hh:257-269; `normal` is `surf.normal()`.  Returns the answer and
the type with the cached bit. -/
def checkParallelToZ (t : SurfaceType) (normal : V3) (epsilon : Dbl) : Bool × SurfaceType :=
  let proj := Dbl.abs (normal.dot ⟨0, 0, 1⟩)
  let t' : SurfaceType := fun i => if i = 4 then decide (proj < epsilon) else t i
  (t' 4, t')

/-- `checkOrthogonalToZ`, AidaTTGeometry.hh:272-285 -/
def checkOrthogonalToZ (t : SurfaceType) (normal : V3) (epsilon : Dbl) : Bool × SurfaceType :=
  let proj := Dbl.abs (normal.dot ⟨0, 0, 1⟩)
  let t' : SurfaceType := fun i => if i = 5 then decide (Dbl.abs (proj - 1) < epsilon) else t i
  (t' 5, t')

/-- default `epsilon` of the two checks, AidaTTGeometry.hh:257,272 -/
def defaultEps : Dbl := (1e-6 : Dbl)

end SurfaceType

/-- `IMaterial`, AidaTTGeometry.hh:322-342 (the interaction length is not used by aidaTT) -/
structure Material where
  Z : Dbl
  A : Dbl
  density : Dbl
  radLength : Dbl

/-- `ISurface`, AidaTTGeometry.hh:54-104: arbitrary functions.  The optional argument of `normal`
defaults to `Vector3D()`, i.e. `V3.zero`; that of `insideBounds` is left at its default in all calls. -/
structure Surface where
  type : SurfaceType
  /-- property "cone" of DD4hep's `SurfaceType` -/
  isCone : Bool
  id : ℤ
  insideBounds : V3 → Bool
  u : V3 → V3
  v : V3 → V3
  normal : V3 → V3
  globalToLocal : V3 → V2
  localToGlobal : V2 → V3
  origin : V3
  innerMaterial : Material
  outerMaterial : Material
  innerThickness : Dbl
  outerThickness : Dbl
  distance : V3 → Dbl
  /-- result of `dynamic_cast<const ICylinder*>`: radius and center -/
  cyl : Option (Dbl × V3)

end Verif
