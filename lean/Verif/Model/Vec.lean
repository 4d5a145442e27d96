import Verif.Dbl
import Verif.Out
import Mathlib.Data.Fin.VecNotation

/-!
# Vectors and matrices

Model of `core/include/Vector3D.hh`, `core/include/Vector5.hh`, `core/include/fiveByFiveMatrix.hh`
and of `Vector2D` in `core/include/AidaTTGeometry.hh`.

With DD4hep (which CMake requires) `Vector3D` is `dd4hep::rec::Vector3D`, which has the same
interface and formulas; the in-repository class is the one modelled.
-/

open Classical

noncomputable section

namespace Verif

/-- `Vector3D`, core/include/Vector3D.hh:22-249 -/
@[ext] structure V3 where
  x : Dbl
  y : Dbl
  z : Dbl

namespace V3

/-- default constructor, Vector3D.hh:27 -/
def zero : V3 := ⟨0, 0, 0⟩

/-- a vector of finite components -/
def re (x y z : ℝ) : V3 := ⟨.fin x, .fin y, .fin z⟩

/-- const `operator[]`, Vector3D.hh:125-140 (any other index gives 0.0) -/
def get (v : V3) (i : ℤ) : Dbl :=
  if i = 0 then v.x else if i = 1 then v.y else if i = 2 then v.z else 0

/-- `phi()`, Vector3D.hh:162-165 -/
def phi (v : V3) : Dbl :=
  ifc Dbl.eqv v.x 0 ∧ Dbl.eqv v.y 0 then 0 else Dbl.atan2 v.y v.x

/-- `trans()`, Vector3D.hh:174-177 -/
def trans (v : V3) : Dbl := Dbl.sqrt (v.x * v.x + v.y * v.y)

/-- `rho()`, Vector3D.hh:168-171 -/
def rho (v : V3) : Dbl := v.trans

/-- `trans2()`, Vector3D.hh:180-183 -/
def trans2 (v : V3) : Dbl := v.x * v.x + v.y * v.y

/-- `r()`, Vector3D.hh:186-189 -/
def r (v : V3) : Dbl := Dbl.sqrt (v.x * v.x + v.y * v.y + v.z * v.z)

/-- `r2()`, Vector3D.hh:193-196 -/
def r2 (v : V3) : Dbl := v.x * v.x + v.y * v.y + v.z * v.z

/-- `theta()`, Vector3D.hh:199-202 -/
def theta (v : V3) : Dbl :=
  ifc Dbl.eqv v.x 0 ∧ Dbl.eqv v.y 0 ∧ Dbl.eqv v.z 0 then 0 else Dbl.atan2 v.rho v.z

/-- `dot`, Vector3D.hh:205-208, also `operator*(v,v)`, 308-311 -/
def dot (a b : V3) : Dbl := a.x * b.x + a.y * b.y + a.z * b.z

/-- `cross`, Vector3D.hh:212-215 -/
def cross (a b : V3) : V3 :=
  ⟨a.y * b.z - a.z * b.y, a.z * b.x - a.x * b.z, a.x * b.y - a.y * b.x⟩

/-- `unit()`, Vector3D.hh:218-222 -/
def unit (v : V3) : V3 := let n := v.r; ⟨v.x / n, v.y / n, v.z / n⟩

/-- `operator+`, Vector3D.hh:275-278 -/
def add (a b : V3) : V3 := ⟨a.x + b.x, a.y + b.y, a.z + b.z⟩

/-- `operator-`, Vector3D.hh:281-284 -/
def sub (a b : V3) : V3 := ⟨a.x - b.x, a.y - b.y, a.z - b.z⟩

/-- `operator==`, Vector3D.hh:287-293 -/
def eqv (a b : V3) : Prop := Dbl.eqv a.x b.x ∧ Dbl.eqv a.y b.y ∧ Dbl.eqv a.z b.z

/-- scalar `operator*`, Vector3D.hh:296-299 -/
def smul (s : Dbl) (v : V3) : V3 := ⟨s * v.x, s * v.y, s * v.z⟩

/-- unary `operator-`, Vector3D.hh:302-305 -/
def neg (v : V3) : V3 := ⟨-v.x, -v.y, -v.z⟩

/-- cylindrical constructor, Vector3D.hh:327-331 -/
def cylindrical (rho phi z : Dbl) : V3 := ⟨rho * Dbl.cos phi, rho * Dbl.sin phi, z⟩

/-- spherical constructor, Vector3D.hh:338-344 -/
def spherical (r phi theta : Dbl) : V3 :=
  let rst := r * Dbl.sin theta
  ⟨rst * Dbl.cos phi, rst * Dbl.sin phi, r * Dbl.cos theta⟩

/-- The state seen through non-const `operator[]`: the vector and the function-local
`static double dummy` shared by all vectors, Vector3D.hh:143-159. -/
structure Cell where
  v : V3
  dummy : Dbl

/-- `v[i] = a` through the non-const `operator[]`, Vector3D.hh:143-159 -/
def Cell.write (c : Cell) (i : ℤ) (a : Dbl) : Cell :=
  if i = 0 then { c with v := { c.v with x := a } }
  else if i = 1 then { c with v := { c.v with y := a } }
  else if i = 2 then { c with v := { c.v with z := a } }
  else { c with dummy := a }

/-- reading `v[i]` through the non-const `operator[]`, Vector3D.hh:143-159 -/
def Cell.read (c : Cell) (i : ℤ) : Dbl :=
  if i = 0 then c.v.x else if i = 1 then c.v.y else if i = 2 then c.v.z else c.dummy

end V3

instance : Add V3 := ⟨V3.add⟩
instance : Sub V3 := ⟨V3.sub⟩
instance : Neg V3 := ⟨V3.neg⟩

/-- `Vector2D`, core/include/AidaTTGeometry.hh:34-51 -/
@[ext] structure V2 where
  u : Dbl
  v : Dbl

/-- `Vector5`, core/include/Vector5.hh:20-86.  The index type is `Fin 5`: every index used by the
modelled code is a constant in range. -/
abbrev V5 := Fin 5 → Dbl

namespace V5

/-- default constructor, Vector5.hh:26 -/
def zero : V5 := fun _ => 0

/-- constructor from five doubles, Vector5.hh:41-43 -/
def mk (a b c d e : Dbl) : V5 := ![a, b, c, d, e]

/-- constructor from `std::vector<double>`, Vector5.hh:33: reads five values starting at `&o[0]`,
undefined behaviour if there are fewer. -/
def ofList (o : List Dbl) : Out V5 :=
  if h : 5 ≤ o.length then .ok (fun i => o[i.val]'(by omega))
  else .ub "Vector5: read past the end of std::vector"

/-- a vector of finite components -/
def re (f : Fin 5 → ℝ) : V5 := fun i => .fin (f i)

/-- `operator+`, Vector5.hh:62-64 -/
def add (a b : V5) : V5 := fun i => a i + b i

/-- writing one element, Vector5.hh:73-75 -/
def set (v : V5) (i : Fin 5) (a : Dbl) : V5 := fun j => if j = i then a else v j

end V5

/-- `fiveByFiveMatrix`, core/include/fiveByFiveMatrix.hh:22-86 -/
abbrev M5 := Fin 5 → Fin 5 → Dbl

namespace M5

/-- default constructor, fiveByFiveMatrix.hh:28 -/
def zero : M5 := fun _ _ => 0

/-- a matrix of finite components -/
def re (f : Fin 5 → Fin 5 → ℝ) : M5 := fun i j => .fin (f i j)

/-- constructor from `std::vector<double>`, row wise, fiveByFiveMatrix.hh:33-36: reads 25 values
starting at `&o[0]`, undefined behaviour if there are fewer. -/
def ofList (o : List Dbl) : Out M5 :=
  if h : 25 ≤ o.length then .ok (fun r c => o[5 * r.val + c.val]'(by omega))
  else .ub "fiveByFiveMatrix: read past the end of std::vector"

/-- `array()`, fiveByFiveMatrix.hh:77-79: the storage, row major -/
def array (m : M5) : List Dbl := List.ofFn (fun k : Fin 25 => m ⟨k / 5, by omega⟩ ⟨k % 5, by omega⟩)

/-- write access `m(r,c) = a`, fiveByFiveMatrix.hh:52-54 -/
def set (m : M5) (r c : Fin 5) (a : Dbl) : M5 := fun i j => if i = r ∧ j = c then a else m i j

/-- matrix product, fiveByFiveMatrix.hh:57-59 (Eigen product: sum over k in order) -/
def mul (a b : M5) : M5 := fun i j =>
  a i 0 * b 0 j + a i 1 * b 1 j + a i 2 * b 2 j + a i 3 * b 3 j + a i 4 * b 4 j

/-- matrix-vector product, fiveByFiveMatrix.hh:62-64 -/
def mulVec (a : M5) (v : V5) : V5 := fun i =>
  a i 0 * v 0 + a i 1 * v 1 + a i 2 * v 2 + a i 3 * v 3 + a i 4 * v 4

/-- `Unit()`, fiveByFiveMatrix.hh:67-69: the body is `_m.Identity();`.  `Identity()` is a static
member of `Eigen::MatrixBase` that *returns* an identity expression; the result is discarded and
`_m` is not modified. -/
def unit (m : M5) : M5 :=
  let _discarded : M5 := fun i j => if i = j then 1 else 0
  m

/-- `Transpose()` in place, fiveByFiveMatrix.hh:72-74 -/
def transpose (m : M5) : M5 := fun i j => m j i

end M5

end Verif
