import Verif.Model.SurfaceIntersection

/-!
# LCIO persistency

Model of `persistency/src/LCIOPersistency.cc`.  A track state of LCIO stores single precision numbers; the narrowing
from `double` on writing is an arbitrary function `fl` on the reals, reading a float as a double is exact.
`dd4hep::mm` is `unit_mm` (1/10, the unit of length is cm).
-/

noncomputable section

namespace Verif

/-- `EVENT::TrackState` / `IMPL::TrackStateImpl`: the content that is read or written -/
structure TrackState where
  location : ℤ
  d0 : Dbl
  phi : Dbl
  omega : Dbl
  z0 : Dbl
  tanLambda : Dbl
  /-- `getCovMatrix()`, a `std::vector<float>` -/
  cov : List Dbl
  /-- `getReferencePoint()`, a `float[3]` -/
  ref : V3

/-- conversion of a double to a float -/
def narrow (fl : ℝ → ℝ) : Dbl → Dbl
  | .fin x => .fin (fl x)
  | .inf s => .inf s
  | .nan => .nan

/-- `std::vector::at` -/
def vecAt {α : Type} (l : List α) (i : ℕ) : Out α :=
  match l[i]? with
  | some a => .ok a
  | none => .throw "std::out_of_range"

/-- `readLCIO`, LCIOPersistency.cc:21-93 -/
def readLCIO (ts : TrackState) : Out TP := do
  let param := V5.zero
  let param := param.set OMEGA (ts.omega / unit_mm)
  let param := param.set TANL ts.tanLambda
  let param := param.set PHI0 ts.phi
  let param := param.set D0 (ts.d0 * unit_mm)
  let param := param.set Z0 (ts.z0 * unit_mm)
  let refPoint : V3 := ⟨ts.ref.x * unit_mm, ts.ref.y * unit_mm, ts.ref.z * unit_mm⟩
  let c := M5.zero
  let c := c.set 0 0 ((← vecAt ts.cov 5) / (unit_mm * unit_mm))
  let c := c.set 1 1 (← vecAt ts.cov 14)
  let c := c.set 2 2 (← vecAt ts.cov 2)
  let c := c.set 3 3 ((← vecAt ts.cov 0) * unit_mm * unit_mm)
  let c := c.set 4 4 ((← vecAt ts.cov 9) * unit_mm * unit_mm)
  let c := c.set 1 0 ((← vecAt ts.cov 12) / unit_mm)
  let c := c.set 0 1 ((← vecAt ts.cov 12) / unit_mm)
  let c := c.set 2 0 ((← vecAt ts.cov 4) / unit_mm)
  let c := c.set 0 2 ((← vecAt ts.cov 4) / unit_mm)
  let c := c.set 3 0 (← vecAt ts.cov 3)
  let c := c.set 0 3 (← vecAt ts.cov 3)
  let c := c.set 4 0 (← vecAt ts.cov 8)
  let c := c.set 0 4 (← vecAt ts.cov 8)
  let c := c.set 1 2 (← vecAt ts.cov 11)
  let c := c.set 2 1 (← vecAt ts.cov 11)
  let c := c.set 1 3 ((← vecAt ts.cov 10) * unit_mm)
  let c := c.set 3 1 ((← vecAt ts.cov 10) * unit_mm)
  let c := c.set 1 4 ((← vecAt ts.cov 13) * unit_mm)
  let c := c.set 4 1 ((← vecAt ts.cov 13) * unit_mm)
  let c := c.set 3 2 ((← vecAt ts.cov 1) * unit_mm)
  let c := c.set 2 3 ((← vecAt ts.cov 1) * unit_mm)
  let c := c.set 2 4 ((← vecAt ts.cov 7) * unit_mm)
  let c := c.set 4 2 ((← vecAt ts.cov 7) * unit_mm)
  let c := c.set 3 4 ((← vecAt ts.cov 6) * unit_mm * unit_mm)
  let c := c.set 4 3 ((← vecAt ts.cov 6) * unit_mm * unit_mm)
  pure (TP.default.setAll param c refPoint)

/-- `createLCIO`, LCIOPersistency.cc:97-154 -/
def createLCIO (fl : ℝ → ℝ) (tp : TP) : TrackState :=
  let c := tp.cov
  { location := 0
    d0 := narrow fl (calculateD0 tp.hp / unit_mm)
    phi := narrow fl (calculatePhi0 tp.hp)
    omega := narrow fl (calculateOmega tp.hp * unit_mm)
    z0 := narrow fl (calculateZ0 tp.hp / unit_mm)
    tanLambda := narrow fl (calculateTanLambda tp.hp)
    cov :=
      [narrow fl (c 3 3 / (unit_mm * unit_mm)),
       narrow fl (c 3 2 / unit_mm),
       narrow fl (c 2 2),
       narrow fl (c 3 0),
       narrow fl (c 0 2 * unit_mm),
       narrow fl (c 0 0 * (unit_mm * unit_mm)),
       narrow fl (c 3 4 / (unit_mm * unit_mm)),
       narrow fl (c 2 4 / unit_mm),
       narrow fl (c 4 0),
       narrow fl (c 4 4 / (unit_mm * unit_mm)),
       narrow fl (c 1 3 / unit_mm),
       narrow fl (c 1 2),
       narrow fl (c 0 1 * unit_mm),
       narrow fl (c 1 4 / unit_mm),
       narrow fl (c 1 1)]
    ref := ⟨narrow fl (tp.rp.x / unit_mm), narrow fl (tp.rp.y / unit_mm), narrow fl (tp.rp.z / unit_mm)⟩ }

end Verif
