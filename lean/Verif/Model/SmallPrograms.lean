import Verif.Model.Trajectory
import Verif.Model.DebugTracks

/-!
# The example programs `lcio_read_example`, `intersection_calculator` and `geometry_test`

Model of `examples/lcio_read_example/lcio_read_example.cpp`, `examples/intersection_calculator/intersection_calculator.cpp` and
`examples/geometry_test/geometry_test.cpp`.  The detector description of DD4hep is an arbitrary function, files
are lists of events, and the lines printed are represented by the data in them.
-/

open Classical

noncomputable section

namespace Verif

namespace SmallPrograms

/-- DD4hep: the surfaces of the geometry after `fromCompact` of a file, and of a detector for which no file has been loaded; `none`
is an exception -/
structure Dd4hep where
  load : String → Option (List Surface)
  unloaded : Option (List Surface)

/-- `EVENT::SimTrackerHit`: the two words of the number of the cell, of type `int` -/
structure SimHit where
  cell0 : ℤ
  cell1 : ℤ

/-- an event: the collection `VXDCollection`, if there is one -/
abbrev Event := Option (List SimHit)

/-- the loop over the hits, lcio_read_example.cpp:67-80: `operator[]` of the map gives a null pointer for numbers without entry (the
entry made for it is a null pointer again) -/
def printHits (surfMap : ℤ → Option Surface) : List SimHit → Out (List (Surface × ℤ))
  | [] => .ok []
  | h :: rest =>
    match surfMap h.cell0 with
    | none => .ub "null pointer: surface"
    | some surf => do
      let more ← printHits surfMap rest
      pure ((surf, h.cell0) :: more)

/-- the loop over the events, lcio_read_example.cpp:58-86; `getCollection` throws if there is none with this name -/
def printEvents (surfMap : ℤ → Option Surface) : List Event → Out (List (Surface × ℤ))
  | [] => .ok []
  | none :: _ => .throw "DataNotAvailableException"
  | some hits :: rest => do
    let a ← printHits surfMap hits
    let b ← printEvents surfMap rest
    pure (a ++ b)

/-- `main`, lcio_read_example.cpp:18-90: the value returned and the lines printed.  `args` are the arguments after the name of the
program; `argv[2]` is a null pointer if there is only one.  `files` reads a file, `none` is an exception. -/
def readExample (dd : Dd4hep) (files : String → Option (List Event)) : List String → Out (ℕ × List (Surface × ℤ))
  | [] => .ok (1, [])
  | inFile :: more =>
    match dd.load inFile with
    | none => .throw "fromCompact"
    | some surfaces =>
      let surfMap := DebugTracks.fillSurfaces (fun _ => none) surfaces
      match more with
      | [] => .ub "std::string from a null pointer"
      | lcioFileName :: _ =>
        match files lcioFileName with
        | none => .throw "IOException"
        | some evts => do
          let l ← printEvents surfMap evts
          pure (0, l)

/-- the track of intersection_calculator.cpp:23-33 -/
def calcTrack : TP := TP.default.setHp ![(0.23 : Dbl), (0.01 : Dbl), (1.57 : Dbl), 0, 0]

/-- `main`, intersection_calculator.cpp:8-44 and 92: the value returned and the lines printed.  The name of the file is read and not
used. -/
def intersectionCalculator (dd : Dd4hep) (sort : List (Dbl × Surface) → List (Dbl × Surface)) :
    List String → Out (ℕ × List (Dbl × Surface))
  | [] => .ok (1, [])
  | _inFile :: _ =>
    match dd.unloaded with
    | none => .throw "DD4hepGeometry"
    | some surfaces => do
      let l ← ((Traj.make calcTrack).getIntersections sort surfaces).2
      pure (0, l)

/-- the loop over the surfaces, geometry_test.cpp:33-38 -/
def printIds : List Surface → List ℤ
  | [] => []
  | surf :: rest => surf.id :: printIds rest

/-- `main`, geometry_test.cpp:12-42: the status with which the program ends (`exit(1)` without argument) and the numbers printed -/
def geometryTest (dd : Dd4hep) : List String → Out (ℕ × List ℤ)
  | [] => .ok (1, [])
  | inFile :: _ =>
    match dd.load inFile with
    | none => .throw "fromCompact"
    | some sL => .ok (0, printIds sL)

end SmallPrograms

end Verif
