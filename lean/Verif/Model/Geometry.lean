import Verif.Model.Surface
import Verif.Model.Sort

/-!
# Geometry and magnetic field

Model of `geometry/src/DD4hepGeometry.cc` and `fields/include/ConstantSolenoidBField.hh`.
-/

open Classical

noncomputable section

namespace Verif

/-- `ConstantSolenoidBField`, ConstantSolenoidBField.hh:14-49 -/
structure ConstantSolenoidBField where
  bz : Dbl

namespace ConstantSolenoidBField

/-- `BField(const Vector3D&)`, ConstantSolenoidBField.hh:23-26 -/
def BField (f : ConstantSolenoidBField) (_x : V3) : V3 := ⟨0, 0, f.bz⟩
/-- `BField(x, y, z)`, ConstantSolenoidBField.hh:27-30 -/
def BField3 (f : ConstantSolenoidBField) (_x _y _z : Dbl) : V3 := ⟨0, 0, f.bz⟩
/-- `Bx`, ConstantSolenoidBField.hh:32-35 -/
def Bx (_f : ConstantSolenoidBField) (_x : V3) : Dbl := 0
/-- `By`, ConstantSolenoidBField.hh:36-39 -/
def By (_f : ConstantSolenoidBField) (_x : V3) : Dbl := 0
/-- `Bz`, ConstantSolenoidBField.hh:40-43 -/
def Bz (f : ConstantSolenoidBField) (_x : V3) : Dbl := f.bz

end ConstantSolenoidBField

/-- what `getSortingPolicy` reads of a surface in addition to `Surface`: the lengths along u and v
and the radii if the surface is a DD4hep `ICone` -/
structure GeoSurface where
  surf : Surface
  lengthU : Dbl
  lengthV : Dbl
  cone : Option (Dbl × Dbl)

/-- `getSortingPolicy`, DD4hepGeometry.cc:14-41.  The result is a `float`: `fl` is the narrowing.  A failing
`dynamic_cast` gives a null pointer, which is dereferenced. -/
def getSortingPolicy (fl : Dbl → Dbl) (g : GeoSurface) : Out Dbl :=
  let surf := g.surf
  if surf.type.isZCylinder then
    match surf.cyl with
    | some (radius, _) => .ok (fl radius)
    | none => .ub "null pointer: surface is not an ICylinder"
  else if surf.type.isZPlane then .ok (fl surf.origin.rho)
  else if surf.type.isZDisk then .ok (fl (Dbl.max g.lengthU g.lengthV / 2))
  else if surf.isCone then
    match g.cone with
    | some (r0, r1) => .ok (fl (Dbl.max r0 r1))
    | none => .ub "null pointer: surface is not an ICone"
  else .ok (fl surf.origin.rho)

/-- `sortSurfaces`, DD4hepGeometry.cc:44-47 -/
def sortSurfaces (fl : Dbl → Dbl) (a b : GeoSurface) : Prop :=
  match getSortingPolicy fl a, getSortingPolicy fl b with
  | .ok x, .ok y => x < y
  | _, _ => False

/-- the constructor of `DD4hepGeometry`, DD4hepGeometry.cc:50-66: the resulting `_surfaceList`.  `sL` is the list of the
surfaces of the detector provided by DD4hep, `sort` the algorithm of `std::sort`.  With at least two surfaces every
surface takes part in a comparison. -/
def buildSurfaceList (fl : Dbl → Dbl) (sort : List GeoSurface → List GeoSurface) (sL : List GeoSurface) :
    Out (List GeoSurface) :=
  if 2 ≤ sL.length ∧ ∃ g ∈ sL, ∀ x, getSortingPolicy fl g ≠ .ok x then .ub "null pointer in sortSurfaces"
  else stdSort sort (sortSurfaces fl) sL

/-- `getSurfaces`, DD4hepGeometry.cc:67-69, returns this list. -/
def getSurfaces (list : List GeoSurface) : List GeoSurface := list

/-- `getBField`, DD4hepGeometry.cc:72-79: `field` fills in the field of the detector in DD4hep units at a position, `tesla` is
the unit. -/
def getBField (tesla : Dbl) (field : V3 → V3) (xx : V3) : V3 :=
  let bfield := field xx
  V3.smul (1 / tesla) bfield

/-- the static state behind `IGeometry::instance`, DD4hepGeometry.cc:87-113: the pointer `_geom` (objects are numbered in
the order of creation) and the function-local `static bool first` -/
structure GeomState where
  geom : Option ℕ
  first : Bool
  created : ℕ

namespace GeomState

/-- program start, DD4hepGeometry.cc:87,92 -/
def init : GeomState := ⟨none, true, 0⟩

/-- `IGeometry::instance(initString)`, DD4hepGeometry.cc:90-105; `load` tells whether `fromCompact` and the construction
succeed (otherwise an exception leaves the function before the assignments) -/
def instanceInit (s : GeomState) (load : Bool) : GeomState × Out ℕ :=
  if s.first then
    if load then (⟨some s.created, false, s.created + 1⟩, .ok s.created)
    else (s, .throw "fromCompact")
  else match s.geom with
    | some g => (s, .ok g)
    | none => (s, .ub "null reference")

/-- `IGeometry::instance()`, DD4hepGeometry.cc:109-113; `load` tells whether the construction succeeds -/
def instanceDefault (s : GeomState) (load : Bool) : GeomState × Out ℕ :=
  match s.geom with
  | some g => (s, .ok g)
  | none => if load then (⟨some s.created, s.first, s.created + 1⟩, .ok s.created) else (s, .throw "construction")

/-- a call -/
inductive Call where
  /-- `instance(initString)` -/
  | withInit (load : Bool)
  /-- `instance()` -/
  | default (load : Bool)

/-- effect and result of a call -/
def step (s : GeomState) : Call → GeomState × Out ℕ
  | .withInit l => s.instanceInit l
  | .default l => s.instanceDefault l

/-- results of a sequence of calls -/
def run (s : GeomState) : List Call → List (Out ℕ)
  | [] => []
  | c :: cs => (s.step c).2 :: run (s.step c).1 cs

end GeomState

end Verif
