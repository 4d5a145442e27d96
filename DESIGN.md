# aidaTT: formal model and proofs

Source: `/repo` (AIDASoft/aidaTT, C++), read as text only; it was neither built nor run. Model and proofs: Lean 4.33 and
Mathlib, in `lean/`. `properties.jsonl` lists the 174 properties (C01 ...), `MANIFEST.json` maps each to the names of its
theorems, `seeded/LOG.jsonl` records the mutation tests of the model. Status: 79 proved, 95 partial. A
property is "partial" if the code violates it somewhere; then there is a theorem with a concrete witness (`..._false`) and a
theorem that says what does hold.

## Layout

* `lean/Verif/Dbl.lean` - the number model (`double`), `lean/Verif/Out.lean` - outcomes of a call.
* `lean/Verif/Model/*.lean` - transcription of the C++ functions; every definition cites file and lines.
* `lean/Verif/Spec/*.lean` - small specifications that do not mention the model: a charged particle in a uniform field
  (Motion), helix geometry (Helix, Perigee, Plane), the choice among candidates (Selection), a store of values (Store), a set
  of properties (PropertySet), units of LCIO (Lcio), passage through matter (Matter).
* `lean/Verif/Lemmas/*.lean` - helper lemmas.
* `lean/Verif/Props/*.lean` - the property theorems, each with a concrete case that meets its hypotheses.

## Trusted base

* Lean's kernel.
* The axioms listed below for each theorem. There are no others: no own axioms, no `sorry`, no `native_decide`, no
  `bv_decide`.
* The transcription from C++ to Lean, made by hand and cited line by line.
* The number model and the C++ semantics described in the next two sections.
* The interfaces to the external libraries: see "What is modelled".

### Axioms (from `#print axioms`)

* no axioms: `C60_two_geometries_false`, `C121_twice_false`, `C122_null`.
* `propext`, `Quot.sound`: `C60_false`, `C60_init_first_partial`, `C60_default_only_partial`, `C60_no_ub`, `C62_setProperty`, `C62_history_accepted`, `C62_built`, `C62_built_accepted`, `C62_queries`, `C62_isSimilar`, `C62_isSimilar_order`, `C121_report_partial`, `C122_empty_false`, `C123_free_partial`, `C123_after_false`, `C123_shared_false`.
* `propext`, `Classical.choice`, `Quot.sound`: every other theorem of `MANIFEST.json` (635 theorems).

## Number model

`Dbl` has the values `fin x` (x a real number), `inf s` (signed infinity) and `nan`. Operations on finite values are exact. The
special values follow IEEE 754: `x/0` is infinite for `x != 0`; `0/0`, `inf-inf` and `0*inf` are `nan`; `sqrt` of a negative
number, `asin` outside [-1,1] and `sin`/`cos` of infinities are `nan`; any comparison with `nan` is false. So division by zero,
domain errors and their propagation are visible: a theorem that says that a function returns `fin y` also says that none of
these happened on the way.

Not modelled in `Dbl`: rounding, overflow, underflow, signed zeros (zero is +0). `M_PI` is the real number pi and decimal literals are
the exact rationals. Where the narrowing to single precision matters (LCIO, sorting of the surfaces) an arbitrary rounding
function is a parameter. A theorem about a finite result is therefore a theorem about the formula, not about the last bits.
The exceptions are the models `Model/Rounded*.lean` and `Model/Rounding.lean`, where every operation is rounded to a `double`
by an arbitrary rounding to nearest, with underflow and overflow (still without signed zeros). `M_PI` and the decimal constants are rounded there, and `sin`,
`cos`, `asin`, `atan`, `atan2` and `log` are any functions with errors below one unit in the last place. These models assume that the compiler
evaluates each operation in `double` and does not contract products and sums (no fused multiply-add, no extended precision).

| model | code | properties |
|-------|------|------------|
| Rounding | the loops that normalise angles in `moveHelixTo` | C97 |
| RoundedArith | conversions of `LCIOPersistency.cc` (`double` and `float`), class `Vector3D` | C119, C120 |
| RoundedHelix | points of a track, crossings with disks | C131-C133 |
| RoundedPath | path lengths | C136 |
| RoundedMove | parameters of moved tracks | C137 |
| RoundedMoveCov | moved tracks with the covariance matrix | C154 |
| RoundedCross | crossings of circles and lines, of two circles | C139, C140 |
| RoundedCylinder | crossings with cylinders | C141 |
| RoundedPropagation | propagation Jacobians of both propagators | C142, C160 |
| RoundedPlane | crossings with planes parallel to z | C143 |
| RoundedNewton | tangent, Newton iteration, choice of the function for a surface | C144 |
| RoundedMaterial | multiple scattering, energy loss | C145, C146 |
| RoundedMomentum | direction and momentum at a surface | C147 |
| RoundedTrajectory | list of crossed surfaces | C148 |
| RoundedPositions | points and directions along a trajectory, new elements without surface | C167 |
| RoundedUtilities | projection to measurement directions, transformations of parameters, charge over momentum | C149-C151 |
| RoundedStart | momentum along a track, start helix | C152, C153, C174 |
| RoundedLines | crossings of two straight lines | C162 |
| RoundedMaterialScan | material scan of check_materials | C163 |
| RoundedMaterialList | list of materials of material_ntuples | C164 |
| RoundedHits | precisions of hits | C165 |
| RoundedRefit, RoundedRefitFalse, RoundedRefitExample | the program lcio_tracks | C166 |
| RoundedEffects, RoundedEffectsExample | the program material_effects | C168 |
| RoundedDebug | the program lcio_debug_tracks | C169 |
| RoundedCoordinates | cylindrical and spherical coordinates of `Vector3D` | C170 |
| RoundedUnitTests | the program aidaTT-unitTests | C171 |
| RoundedSmall, RoundedBarrel, RoundedDetector | the program intersection_calculator | C172 |
| RoundedPrefit | `createPreFit` of lcio_tracks | C173 |
| RoundedSeed | start helix of lcio_tracks | C161 |
| RoundedFit | results of fits, weights of scatterers | C156, C157 |
| RoundedPrepare | directions and Jacobians of a trajectory, entry of the energy loss | C158 |
| RoundedAdd | new elements of a trajectory: scatterers and measurements | C159 |

## C++ semantics

* Output parameters (`double& s, Vector3D& xx`) are threaded as values, so "left unchanged on failure" can be stated.
* Exceptions are `Out.throw`; undefined behaviour (null or out-of-range access, reading an uninitialised variable, moving an
  iterator past the end) is `Out.ub`; a loop that does not end is `Out.diverge`. An uninitialised `double` that is read is `ub`.
* `while` loops have the meaning "least number of iterations after which the condition is false, otherwise divergence".
* `std::sort` is a parameter with a specification (`IsStdSort`): any function that returns a sorted permutation when the
  comparison is a strict weak ordering. If the comparison is not one, the call is `ub`. Equal elements may come out in any order.
* Virtual interfaces (`ISurface`, `IMaterial`, `IBField`, the fitter) are records of arbitrary functions. The magnetic field is
  an arbitrary function of the position unless a theorem says it is uniform.
* Object identity, deletion and leaks are the subject of a separate model (`Model/Memory.lean`): a heap in which addresses are
  not reused, the pointers held by each trajectory and element, and programs as sequences of calls. Memory owned by standard
  containers is not part of it and `bad_alloc` does not occur. The other models copy values.
* Calls are sequential; threads are not modelled.

## What is modelled

| source | model | remarks |
|--------|-------|---------|
| core/include/Vector3D.hh | Vec, RoundedArith, RoundedCoordinates | all functions except output; conversion to `const double*` is the identity |
| core/include/Vector5.hh, fiveByFiveMatrix.hh | Vec | Eigen product, transpose and element access as documented; `MatrixBase::Identity()` is a static factory without effect on the object |
| core/include/trackParameterizationLCIO.hh, trackParameters.{hh,cc}, util/include/fitResults.hh | TrackParameters, TPStore | copy constructor and assignment are copies of the values |
| core/include/trajectory.hh, core/src/trajectory.cc | Trajectory, Memory, RoundedTrajectory, RoundedPrepare, RoundedAdd | RoundedTrajectory: `trajectoryElementAt`, `pointAt`, `getIntersectionsWithSurfaces`; RoundedPrepare: `prepareForFitting`, `tangentAt`; RoundedAdd: `addElement`, `addScatterer`, `addMeasurement`; `fit` and `getFitResults` forward to the fitter and are modelled there (Gbl) |
| core/include/trajectoryElement.hh, core/src/trajectoryElement.cc | Trajectory, ElementAccess, Memory, RoundedAdd | printing: only which data is read |
| core/include/AidaTTGeometry.hh, aidaTT-Units.hh | Surface | the surface types and `ISurface` as a record of functions |
| util/include/intersections.hh, util/src/intersections.cc | Intersections, RoundedCross | RoundedCross: `intersectStraightLineStraightLine`, `intersectCircleStraightLine`, `intersectCircleCircle` |
| util/src/helixUtils.cc | Helix, SurfaceIntersection, Rounding, RoundedHelix, RoundedPath, RoundedMove, RoundedCylinder, RoundedPlane, RoundedNewton, RoundedMomentum, RoundedStart, RoundedMoveCov | streamlog output left out; Rounding: the angles in `moveHelixTo`; RoundedHelix: `calculateXfromS`, `calculateYfromS`, `calculateZfromS`, `pointAt`, `intersectWithZDisk`; RoundedPath: `calculateSfromXY`; RoundedMove: the parameters in `moveHelixTo`; RoundedCylinder: `intersectWithZCylinder`; RoundedPlane: `intersectWithZPlane`, `calculateRadius`, `calculateXCenter`, `calculateYCenter`; RoundedMomentum: `calculatePhifromXY`; RoundedNewton: `calculateTangent`, `intersectWithSurfaceNewton`, `intersectWithZCone`, `intersectWithSurface` |
| util/src/utilities.cc | Utilities, RoundedUtilities | |
| util/src/materialUtils.cc | Material, RoundedMaterial, RoundedMomentum | log output left out; RoundedMaterial: `computeQMS`, `computeBetheBloch`, `computeEnergyLoss` for a given momentum; RoundedMomentum: the variants for a helix |
| propagations/src/*.cc | Propagation; RoundedPropagation: `getJacobian` of both propagators | |
| geometry/src/DD4hepGeometry.cc, fields/include/ConstantSolenoidBField.hh | Geometry | the detector is a list of surfaces and a field |
| persistency/src/LCIOPersistency.cc | Lcio, RoundedArith | `EVENT::TrackState` is a record of values, `float` narrowing is a parameter |
| fittingAlgorithms/src/GBLInterface.cc | Gbl, RoundedFit | `gbl::GblTrajectory` is an arbitrary function from the points to validity, fit outcome and results |
| examples/lcio_tracks/lcio_tracks.cpp | Refit, RoundedSeed, RoundedRefit, RoundedPrefit | with the settings of the source (start helix from hits, no prefit, scattering), and `createPreFit`; files are lists of events; text output left out |
| examples/material_effects/material_effects.cpp | MaterialEffects, RoundedRefit (precisions), RoundedEffects | with the settings of the source (start helix from the file); files are lists of events; tree of residuals and text output left out |
| examples/material_effects/check_materials.cpp, material_ntuples.cpp | MaterialScan, RoundedMaterialScan | command line, text output and single precision of the n-tuples left out; the list of materials of DD4hep is an arbitrary function |
| examples/lcio_tracks/lcio_debug_tracks.cpp | DebugTracks, RoundedDebug | files are lists of events; the bit field of LCIO is an arbitrary function from hits to numbers of surfaces; text output left out |
| examples/lcio_read_example/lcio_read_example.cpp | SmallPrograms | the output is a list of pairs (surface, number); detector descriptions and event files are functions of their names |
| examples/intersection_calculator/intersection_calculator.cpp | SmallPrograms, RoundedSmall | the output is the list of crossings; the geometry is that of the default constructor |
| examples/geometry_test/geometry_test.cpp | SmallPrograms | the output is the list of numbers |
| test/aidaTT-unitTests.cpp, test/unitTests/UnitTest.{hh,cc}, UnitTestSuite.{hh,cc}, matrixOps.cc | UnitTests | text output left out; counters do not overflow; pointers are addresses of objects or null; a test is the list of results of its checks, `matrixOps` in full with products of the exact model |
| test/unitTests/tpsimple.cc, constantbfield.cc, spacevectors.cc, intersectionTest.cc, resultTest.cc, helixCalculations.cc, initialTrackTest.cc, finalTrackTest.cc; addSimpleTests in test/aidaTT-unitTests.cpp | UnitTestPrograms, RoundedUnitTests | in UnitTestPrograms numbers of type `double` are real numbers (decimal constants are not rounded, M_PI_4 = π/4), numbers of type `float` are rounded; in RoundedUnitTests every operation, constant and library function rounds; objects created with `new` and never deleted are left out; LCIO's TrackStateImpl and TrackImpl are records |

## What is not modelled

* Text output (`operator<<`, streamlog), except which data of an element is read when it is printed.
* `core/src/AidaTT.cc` (a stub whose functions do nothing), headers of abstract interfaces (`IBField.hh`, `IPropagation.hh`,
  `IFittingAlgorithm.hh`, `IGeometry.hh`) beyond their use, files that are not compiled (`*_IGNORE`), code in comments.
* `examples/gbl_example/gbl_example.cpp` (not compiled, and
  uses a variable `lcdd` that is not declared), `examples/material_effects/drawx0.C` (a ROOT macro), CMake files.
* DD4hep, GBL, LCIO and Eigen themselves.
* The variant `AIDATT_USE_DD4HEP` in which `Vector3D` is the class of DD4hep: the class in `Vector3D.hh` is
  modelled.
* Destructors and copy constructors without effects on the heap; the private copy constructor and default constructor of
  `trajectory`, which nothing calls.
* Rounding (see above), threads, exhaustion of memory.

## Conventions of GBL assumed

GBL is an arbitrary function in the model.  C87 and C88 state what its arguments should mean, according to its documentation:
the projection maps the local offsets (fourth and fifth component of the Jacobian's coordinates) to offsets in the measurement
directions; the scattering precision is the inverse covariance of the kinks in the second and third component.
C127 and C128 assume in addition that the fitter minimises the sum of squares of a broken line (`IsLeastSquares` in
`LeastSquares`: corrections transported by the Jacobians, kinks at scatterers only, unique minimum) or reports failure.

## Properties

The column "module" names the file in `lean/Verif/Props`.

| id | property | module | status | remarks |
|----|----------|--------|--------|---------|
| C01 | Unit() turns any 5x5 matrix into the identity | Containers | partial | Unit() is a no-op in the code, so the claim is false (C01_unit_false, C01_unit_noop); it holds when the matrix already is the identity. |
| C02 | 5x5 matrix and vector products obey linear algebra | Containers | proved |  |
| C03 | 25 values written row by row are read back in the same order | Containers | proved |  |
| C04 | Track parameter objects remember the last value written, per component | Containers | proved |  |
| C05 | Vector products and unit vectors are geometrically correct | Vector3D | proved | cross and unit; unit of the null vector covered separately (NaN). |
| C06 | Cylindrical and spherical coordinates round trip | Vector3D | proved |  |
| C07 | pointAt stays on the circle reported by the centre and radius functions | HelixGeometry | proved |  |
| C08 | d0 is the distance of closest approach and s=0 is the closest point | HelixGeometry | proved | Under omega*d0 <= 1, which is shown to be necessary. |
| C09 | The two families of position functions agree | HelixGeometry | proved |  |
| C10 | calculateTangent is the unit direction of motion and s is transverse arc length | HelixGeometry | proved |  |
| C11 | Straight tracks (omega = 0) follow the straight line along phi0 | HelixGeometry | partial | False for y (cos instead of sin) and for pointAt (NaN); x and z hold. |
| C12 | calculateSfromXY inverts the position functions within half a turn | HelixGeometry | proved | Within half a turn and |phi0| <= 2 pi; the range of phi0 is shown to be needed. |
| C13 | calculateSfromXY works for straight tracks | HelixGeometry | partial | False: 0 is returned for every point of a straight track. |
| C14 | Moving the reference point does not move the track | MoveHelix | proved | All finite helices with non-zero curvature; also for reference points on the axis. |
| C15 | moveHelixTo returns normalised parameters and is independent of the way taken | MoveHelix | proved | For reference points off the helix axis. |
| C16 | moveHelixTo always terminates on finite input | MoveHelix | partial | Proved in exact arithmetic; for zero curvature a NaN azimuth is replaced by pi/2 (C16_nan_zero_curvature), hence the restriction. In double precision it is false for azimuths of 2^60 and more, see C97. |
| C17 | Covariance is transported by the Jacobian of the parameter change | MoveCov | partial | False: the code uses the Jacobian with respect to -d0 (C17_false). Proved: no update without the flag, symmetry and positivity preserved, F is the derivative up to the sign of d0, the unmixed entries are right for uncorrelated d0. |
| C18 | calculateStartHelix produces a helix through the given points | StartHelix | proved |  |
| C19 | Collinear start points are not silently turned into a finite helix | StartHelix | partial | False: three collinear hits give a NaN helix instead of a straight track (C19_false). |
| C20 | Momentum points along the track and has the right magnitude | Momentum | partial | Magnitude and PCA proved; direction false for Bz < 0 (C20_false). |
| C21 | q/p and momentum are reciprocal | Momentum | proved |  |
| C22 | The curvilinear frame is a right-handed orthonormal frame | LocalFrames | proved |  |
| C23 | The measurement projection matrix is the inverse of the local-to-curvilinear map | LocalFrames | proved |  |
| C24 | One-dimensional measurements get a usable orthogonal companion direction | LocalFrames | partial | Orthogonal and non-null proved; not a unit vector (C24_false). |
| C25 | Circle-line intersection is sound and complete away from tangency | Intersections | proved |  |
| C26 | Tangential circle-line intersections return genuine points | Intersections | partial | False: for a discriminant in [-1e-9, 0) a NaN point is reported (C26_window, C26_false). Proved for circles and lines that meet. |
| C27 | Circle-circle intersection is sound, complete and symmetric | Intersections | partial | False: throws for a negative signed distance of the radical line, depending on the order of the arguments (C27_throws, C27_false). Soundness and completeness proved otherwise. |
| C28 | Line-line intersection is sound and complete | Intersections | partial | False: crossing lines whose normals have negative orientation are reported as not intersecting (C28_false). Proved for positive orientation and for parallel lines. |
| C29 | Invalid circles and lines are rejected at construction | Intersections | proved |  |
| C30 | Intersection with a z-disk is on the disk plane and on the helix | SurfaceDispatch | proved |  |
| C31 | No success is reported for tracks parallel to a disk | SurfaceDispatch | partial | False in mode 0, and with bounds that accept undefined points (C31_false): success with infinite path length. |
| C32 | Intersection with a z-cylinder is on the cylinder and on the helix | SurfaceHits | proved |  |
| C33 | Intersection with a z-plane is on the plane and on the helix | SurfaceHits | partial | False for origin.normal < 0 (C33_false: point mirrored) and for near misses within the tolerance (C33_window_false: NaN point with success). Soundness and completeness proved otherwise, in the general position of C32. |
| C34 | Search mode is respected by every surface intersection | SurfaceHits | proved |  |
| C35 | Bounds checking only filters results | SurfaceDispatch | proved |  |
| C36 | An in-bounds intersection in the requested direction is found | SurfaceHits | partial | False: only the nearer of two crossings is tested against the bounds (C36_false). Proved if all crossings within half a turn are in bounds. |
| C37 | Newton intersection terminates and is accurate on success | SurfaceDispatch | proved |  |
| C38 | Unsupported surfaces give a clean failure | SurfaceDispatch | proved |  |
| C39 | Perigee-to-L3 Jacobian is the derivative of the parameter conversion | Conversions | proved |  |
| C40 | L3-to-perigee Jacobian is the inverse of perigee-to-L3 | Conversions | partial | False: L3ToPerigeeJacobian is not the inverse of perigeeToL3Jacobian (C40_false). Proved: what the matrix is the inverse of. |
| C41 | Curvilinear corrections reach all track parameters | Curvilinear | partial | False: the azimuth column is zero, the sign of the (omega, lambda) entry is wrong, and for Bz > 0 the (phi0, y_t) entry as well (C41_false, C41_deviation). Proved: the remaining entries are the partial derivatives. |
| C42 | The analytical propagation Jacobian solves the variational equation of the helix | Propagation | proved | Start and end direction must not be parallel to z (no curvilinear frame there). The matrix passed in is freshly constructed, as in prepareForFitting. |
| C43 | Propagation over zero length is the identity | Propagation | proved |  |
| C44 | Straight-line propagation is the identity plus lever arms | Propagation | partial | False for freshly constructed matrices (C44_fresh_false): the diagonal is never written. Proved for a matrix that already is the identity; the simplified propagator lacks a factor cos(dip). |
| C45 | Energy loss only rescales the curvature entry | Propagation | proved | The simplified propagator ignores the argument (C45_simplified). |
| C46 | A trajectory only grows, by exactly one element per successful add | Trajectory | proved |  |
| C47 | Trajectory elements are ordered in arc length | Trajectory | partial | The arc lengths are non-decreasing (C47_ordered). They start at 0 only if the reference point is the origin (C47_start_zero); in general the first arc length is that of the origin seen from the reference point (C47_start_false). |
| C48 | The trajectory passes through the intersection point of every added surface | Trajectory | proved | General position is assumed (GenPos): the hit is not exactly opposite on the circle, and a Newton iteration converges. |
| C49 | trajectoryElementAt finds the last element at or before s | Trajectory | partial | False for s < -1e99 (C49_false): the sentinel of the search makes the last element be used. Proved for s >= -1e99. |
| C50 | prepareForFitting orders elements and provides every Jacobian | Prepare | partial | False in three ways: the Jacobian of the second element covers the path from arc length 0 instead of from the first element (C50_start_false), the first Jacobian is the zero matrix, and energy and beta are read uninitialised for a scatterer that is not crossed inside its boundary (C50_uninitialised_false). Proved: order, content, and the path for all other elements. |
| C51 | getIntersectionsWithSurfaces returns exactly the crossed surfaces in order | Crossings | partial | False for repeated calls: the entries of earlier calls stay in the list (C51_repeat, C51_false). Proved for the first call. |
| C52 | The fitter receives the measurement precision given by the user | GblExample, GblPoints | partial | False for a one-dimensional measurement on a scatterer: the second precision handed over is the multiple scattering entry (C52_second_false, C52_false with a concrete disk). Proved for two-dimensional measurements, one-dimensional ones without scattering, and for scatterers. |
| C53 | The scatterer precision matrix is symmetric positive definite | GblPoints | proved | For a surface without thickness the multiple scattering is NaN (C53_no_thickness), so qms > 0 is a real precondition. |
| C54 | Fit results are cached per label and invalidated by a new fit | FitResults | proved | The content follows the trajectory at the time of the first request for a label; equal to that at the fit if the trajectory was not changed since. |
| C55 | Results of a failed fit are not marked valid | FitResults | partial | False: every result is marked valid (C55_always_valid), also after a failed fit (C55_false), where the number of degrees of freedom -1 becomes 4294967295. Nothing positive remains to be proved. |
| C56 | Fitted parameters are initial parameters plus transported corrections | FitResults | partial | Formula, symmetry, positive semidefiniteness and the error case are proved for finite values and a non-zero field. If the fitter numbers points from 1, as GBL does, the corrections are added to the following element (C56_label_partial). |
| C57 | LCIO write then read returns the same track | Lcio | proved |  |
| C58 | LCIO read then write returns the same track state | Lcio | proved | The location of the track state is not copied (createLCIO sets 0); fewer than 15 covariance values throw (C58_short). |
| C59 | LCIO unit conversion treats covariance consistently with the parameters | Lcio | proved |  |
| C60 | Geometry access always yields the one geometry | Geometry | partial | False: instance() followed by instance(initString) creates a second geometry (C60_false). Proved for histories that start with instance(initString) or never call it. |
| C61 | Surface list is sorted and complete | Geometry | proved | The order is that of the radius narrowed to float; a surface with the wrong dynamic type is undefined behaviour (C61_bad_cast). |
| C62 | Surface types compose and compare as property sets | SurfaceType | proved |  |
| C63 | A surface is never both parallel and orthogonal to z | SurfaceType | proved |  |
| C64 | Material effects do not depend on the orientation of the surface | Material | proved |  |
| C65 | Energy and velocity reported by computeEnergyLoss are physical | Material | partial | False when the trajectory-level overload returns early (no intersection within the bounds): energy and beta stay unset (C65_early_return_false). Proved for the path that reaches the computation. |
| C66 | The density-effect correction is continuous | Material | proved |  |
| C67 | The solenoid field is uniform | Geometry | proved |  |
| C68 | A measurement direction across the track is never rejected | LocalFrames | partial | False: a z measurement of a track at 45 degrees is rejected (C68_false); exact acceptance criterion proved. |
| C69 | Propagation Jacobians compose | Propagation | proved |  |
| C70 | Propagating forth and back is the identity | Propagation | proved |  |
| C71 | The propagation Jacobian and the helix describe the same motion | Propagation | proved |  |
| C72 | The position along a trajectory without elements is that of the reference helix | EmptyTrajectory | partial | False without elements: begin()+1 of an empty vector (C72_false). |
| C73 | Fitting a prepared trajectory hands over one point per element | GblPoints | proved |  |
| C74 | Indexed access to a vector | Vector3D | proved |  |
| C75 | computeBetheBloch is the Bethe formula | Matter | partial | False: the density correction is subtracted in full instead of half (C75_value, C75_false), so that for every material the loss becomes negative at high momentum (C75_negative_false). Proved: the exact value, and agreement for momenta below the mass. |
| C76 | computeQMS is Highland's formula | Matter | proved |  |
| C77 | The energy loss is the sum over the layers | Matter | proved | A track parallel to the surface has an infinite loss (C77_parallel). |
| C78 | Adding a surface conserves charge and balances energy | EnergyLoss | partial | False: the momentum is scaled by 1 - loss/energy, so the energy afterwards is larger than the balance (C78_energy_false), and a loss above the energy reverses the charge (C78_stopped, C78_charge_false with a concrete disk). Proved: charge kept and two-sided bounds for losses below the energy. |
| C79 | Heap objects are deleted exactly once and nothing leaks | Memory | partial | False if the inversion of a projection fails: the exception leaves the constructor of the element and exactly four objects are lost each time (C79_leak, C79_false with a concrete surface). Proved for all programs: nothing is deleted twice, no dangling or shared pointers, no leak without this exception. |
| C80 | Elements can be read and printed | ElementAccess | partial | False for the start element, which has no surface (C80_start_false), and for printing an element before prepareForFitting (C80_unprepared_false). Proved: all other references are defined, all elements but the start element can be printed after preparation. |
| C81 | Vector operators are those of Euclidean space | VectorAlgebra | proved |  |
| C82 | The field is returned in Tesla | VectorAlgebra | proved | The unit must not be zero. |
| C83 | calculatePhifromXY is the azimuth of the direction of motion | TrackMaterial | proved |  |
| C84 | Material effects of a track use its momentum at the crossing | TrackMaterial | proved |  |
| C85 | Vacuum causes no energy loss | Vacuum | partial | False for momenta not below the mass: the loss is not a number (C85_fast, C85_false) and so is the curvature of the new element (C85_track_false, Example.vacuum_scatterer). Proved: no loss for momenta below the mass. |
| C86 | A track with an undefined curvature hits no surface | Undefined | partial | False without check of the boundary: every cylinder and plane along z is reported as hit (C86_cylinder_false, C86_plane_false), measurements on cylinders are accepted at an undefined path length (C86_measurement_false), and a short sequence of calls makes prepareForFitting undefined behaviour (C86_sort, C86_false). Proved: never hit with check of the boundary; no scatterer is added. |
| C87 | The projection handed to the fitter maps displacements of the track to offsets of the measurement | FitGeometry | partial | False: the matrix is the transpose of the right one (C87_transposed, witness C87_false). Proved: right if m.V = m'.U (C87_symmetric_partial). |
| C88 | The scattering precision refers to the coordinates of the Jacobian | FitGeometry | partial | False for tracks with a dip angle: the azimuth entry is wrong by 1/cos^2 of the dip angle (C88_value, witness C88_false). Proved: right for flat tracks (C88_flat_partial). |
| C89 | The energy loss entry of the Jacobian is the derivative of q/p after the loss | LossJacobian | partial | False for particles with mass, compared with the exact kinematics (C89_false, C89_code_false) and with the change of curvature made by the code (C89_reference_false); measurements that are not scatterers change the curvature with entry 0 (C89_measurement_false). Proved: right for massless particles (C89_massless_partial). |
| C90 | Tracks can be rotated about the field axis and shifted | Symmetry | partial | False for straight tracks, for which calculateYfromS is wrong (C90_straight_false). Proved: all of it for curved tracks (moves: to reference points off the axis), with equal covariance. |
| C91 | Opposite charges are mirror images | Symmetry, SymmetryCov | partial | False for a move by exactly half a turn, where z0 differs (C91_half_turn_false). Proved: all else; for moves C91_move_partial, and C91_covariance_partial for the covariance matrix of the moved track (entries change sign with the sign pattern of the mirror). |
| C92 | Adding surfaces changes neither the slope nor the covariance matrix | TrackInvariants | proved | For all inputs. |
| C93 | A fit does not depend on what was done before | TrackInvariants | proved |  |
| C94 | A crossed surface is accepted exactly if the track is not parallel to the measurement plane | Acceptance | proved | For tracks with finite energy loss in a field along z; the cylinder example in Props/Residuals meets the hypotheses. |
| C95 | Residuals are distances along the measurement directions | Residuals | partial | False for cylinders: the azimuth is not brought back to (-pi, pi], a residual can be almost a full circumference (C95_cylinder_false). Proved: planes (C95_plane_partial). |
| C96 | The fitted azimuth is between -pi and pi | TrackInvariants | partial | False: the corrections are added to the azimuth and the sum is stored (C96_false). Proved: the azimuth is that sum, and moveHelixTo brings it back (C96_partial). |
| C97 | moveHelixTo ends in double precision | Rounding | partial | False: for an azimuth of 2^60 or more adding 2 pi does not change the number and the call never returns (C97_false). Proved for azimuths up to 2^52 (C97_partial). |
| C98 | A track with at least three hits is refitted | Refit | partial | False: for three hits the middle one is taken to be the last, the curvature is undefined and prepareForFitting is called for an empty trajectory (C98_three_hits_false); the same for hits on a line (C98_collinear_false). Proved: the start helix (C98_seed_partial) and, when the trajectory can be made, the refit (C98_refitted_partial). Model of the program with its default settings. |
| C99 | Each hit on a crossed surface is used exactly once | Refit | partial | False: of two hits with the same number the first is ignored (C99_two_hits_false); numbers are compared in the lower 32 bits (C99_number_false). Proved: which calls are made (C99_calls), and the count for hits with different numbers (C99_count_partial). |
| C100 | The state written by lcio_tracks is the fitted track | RefitState | proved | The hypothesis on the crossings is needed: the first element of the trajectory is the one with the smallest arc length. |
| C101 | The precision of a hit is the inverse square of its error | RefitHits | partial | False for hits with a covariance matrix: the radial variance is added (C101_radial_false); zero errors give infinite precisions, short matrices are read out of bounds (C101_undefined_false). Proved: hits with errors (C101_planar), and the exact value for covariance matrices (C101_covariance_partial). |
| C102 | The prefit of lcio_tracks uses at most 25 hits | RefitHits | partial | createPreFit is only called if run_prefit is set, which it is not by default. False: 49 hits are all used (C102_false). Proved: which hits are used, and that they are at least 25 and at most 49 if there are more than 25 (C102_partial). |
| C103 | Tracks are refitted independently of each other | RefitState | proved | For any state of the fitter and any index of the trajectory. |
| C104 | Failed fits are not written | RefitState | partial | False: the output does not depend on the return code of the fit (C104_false). Proved: tracks with less than three hits (C104_dropped_partial). |
| C105 | The covariance matrix of the start parameters has no influence on the fit | SeedCovariance | proved | The algorithm of std::sort is assumed to depend on the elements only by comparing them (ComparesOnly, met by merge sort). |
| C106 | The prefit of lcio_tracks ignores material and falls back to the start helix | Prefit | partial | False: measurements on material change the curvature by the energy loss (C106_loss_false); if no hit has a surface the behaviour is undefined (C106_empty_false). Proved: which hits are used, no scatterers, the parameters returned (C106_prefit_partial). |
| C107 | material_effects uses each hit where its surface is crossed | MaterialEffects | partial | False for raw hits that are not planar (C107_raw_false) and surfaces whose number does not fit into 32 bits (C107_number_false). Proved: what is added (C107_calls), and how often, if the numbers of the hits are different (C107_count_partial). |
| C108 | Precisions in material_effects | MaterialEffects | partial | False for hits whose second resolution is zero (C108_second_false, C108_false): the variance of the scattering angle takes the place of the second precision. Proved for two resolutions (C108_two_partial). |
| C109 | The state written by material_effects is the fitted track | MaterialEffects | partial | False for the reference point, which is replaced by the origin without moving the track (C109_reference_false). Proved for parameters and covariance (C109_state_partial). |
| C110 | material_effects writes exactly the events with a single track | MaterialEffects | proved | For any state of the fitter; in both directions: the program ends normally exactly if each event with a single track is refitted normally on its own. |
| C111 | The simplified propagator is motion with small angles | SimplifiedSteps | partial | False: the constant for the units of the field is missing (C111_scale_false), and for different z components of the directions steps do not compose (C111_direction_false). Proved for equal z components up to this constant (C111_motion_partial, C111_steps_partial). |
| C112 | The Newton iteration finds the crossing | NewtonSteps | partial | False: the slope is too small by the cosine of the dip angle, and for a dip of 60 degrees the iteration fails on flat surfaces (C112_false). Proved: the sequence of steps and the result for all surfaces (C112_steps), the slope (C112_slope_partial), success on flat surfaces for |tan(lambda)| up to sqrt(5)/2 (C112_converges_partial). |
| C113 | check_materials adds up the radiation lengths of the crossed surfaces | MaterialScan | partial | False for a surface without thickness: 0/0, and the total is undefined from there on (C113_thin_false, C113_false). Proved: rows (C113_rows), values for non-zero thickness (C113_value_partial), totals (C113_total). |
| C114 | check_materials uses the normal at the crossing | MaterialScan | partial | False: the point is searched again in both directions, and for a cylinder that is closer in backward direction the normal is taken behind the origin (C114_backward, C114_false). Proved for disks (C114_disk_partial), for cylinders around the z axis (C114_central), for other cylinders and planes if there is no closer crossing in backward direction (C114_cylinder_partial, C114_plane_partial). |
| C115 | The track of check_materials is almost a straight line in the given direction | MaterialScanTrack | partial | False for polar angles outside of 0 to 180 degrees (C115_false). Proved for polar angles between 0 and 180 degrees (C115_start_partial, C115_angle_partial, C115_straight_partial). |
| C116 | material_ntuples lists the sums over the materials up to the last crossing | MaterialScanTrack | partial | False if no surface is crossed: positions are 0/0 (C116_empty_false). Proved otherwise (C116_rows, C116_end). |
| C117 | Hits written by lcio_debug_tracks are on the track and on the surface | DebugTracks | partial | False: the crossing next to the reference point is taken, not the one next to the hit (C117_false). Proved: which hits are written, in which order (in C118_file), and that they are on the track and on the surface, for disks, cylinders and planes (C117_disk, C117_cylinder, C117_plane_partial). |
| C118 | lcio_debug_tracks writes exactly the events with a single track | DebugTracks | partial | False: a track without state at its last hit is a null pointer that is dereferenced (C118_null_false). Proved, in both directions: what is written if all states exist (C118_file). |
| C119 | A track state read from LCIO and written again is the same bit by bit | RoundedLcio, RoundedLcioNear | proved | The location is not kept by the code; it is not among the numbers. Too short covariance vectors throw (C119_short). C119_read and C119_write compare with the exact model of C24/C25. |
| C120 | Vector3D in double precision: identities and unit vectors | RoundedVec | partial | False for unit() of vectors whose squared length underflows or overflows: (2^-600,0,0) gives (inf,nan,nan), (2^600,0,0) gives zero (C120_short_false, C120_long_false). Proved for squared lengths between 2^-800 and 2^800 (C120_unit_partial), the identities, and error bounds of all operations (C120_nearest, C120_products). |
| C121 | A suite of unit tests reports the number of failed checks | UnitTests | partial | False for a test that has been added twice: its counter counts both runs and is added twice (C121_twice_false). Proved for different tests that exist (C121_report_partial). |
| C122 | Adding a suite adds all its tests | UnitTests | partial | False: the assertion is about the wrong suite, adding to an empty suite reads out of range (C122_empty_false), and adding a suite to itself does not end (C122_self_false). Proved: null pointers throw (C122_null); otherwise if assertions are off or this suite is not empty and has no null pointers (C122_add_partial). |
| C123 | Deleting the tests of a suite | UnitTests | partial | False: pointers stay in the list as null pointers, so running the suite again aborts or dereferences them (C123_after_false); tests shared with another suite are deleted twice (C123_shared_false). Proved: deletion, once, and nothing else (C123_free_partial). |
| C124 | The test program tells the system about failures | UnitTests, UnitTestsCompare | partial | False: the value of report() is dropped and 0 is returned (C124_exit_false; with the test matrixOps, of which 24 checks fail: C124_matrixOps_false). Proved: the numbers printed (C124_printed_partial). |
| C125 | Comparison of numbers in the unit tests | UnitTestsCompare | partial | False: arguments are converted to float first, 2^30 and 2^30+1 are equal (C125_far_false), and numbers with a difference below 2e-12 are different (C125_near_false). Proved: for arguments of type float up to rounding of the limit (C125_floats_partial), reflexivity (C125_equal), bound for accepted numbers (C125_close), infinite and undefined numbers (C125_nonfinite), roughFloatCompare (C125_rough). |
| C126 | The unit test of matrices succeeds | UnitTestsCompare | partial | False: Unit() does nothing (C01), 24 of 150 checks fail in the first run and 49 in later ones (C126_false). Proved: all other checks succeed (C126_partial). Products are those of the exact model. |
| C127 | A track through its hits is not changed by the fit | LeastSquares, LeastSquaresExample, LeastSquaresRefit | proved | The fitter GBL itself is not modelled: the hypothesis IsLeastSquares says that it minimises the sum of squares of a broken line (or reports failure); such a fitter exists (exists_leastSquares). C127_no_field: without field the fitted curvature is nan. |
| C128 | A fit does not increase chi2 | LeastSquares | proved | The fitter is any one with IsLeastSquares, see C127. |
| C129 | lcio_read_example prints for each hit the surface with its number | SmallPrograms | partial | False in general: a hit without surface or with a number whose highest bit is set gives undefined behaviour, one argument gives a null pointer, a missing collection an exception. |
| C130 | intersection_calculator lists the crossed surfaces of the detector in the file | SmallPrograms | partial | False: the file is not read into the geometry that is used (C130_file, C130_false). |
| C131 | calculateXfromS, calculateYfromS and calculateZfromS are accurate in double precision | RoundedHelix | proved | sin and cos of the C library are any functions with errors below one unit in the last place; numbers beyond 2^200 and curvatures below 2^-500 (overflow, underflow) are excluded. |
| C132 | pointAt is accurate in double precision | RoundedHelix | partial | False for nearly straight tracks: the difference of the sines loses all digits and the point does not move (C132_stuck, C132_false). C132_points_partial: error bound in units of the radius. |
| C133 | Crossings with disks are accurate in double precision | RoundedHelix | proved | See C131. |
| C134 | The program of unit tests reports no fail | UnitTestPrograms | partial | False: 24 of the 473 checks fail, all in matrixOps (C134_false); if run again, 5 checks of spacevectors and 9 of resultTest fail too (C134_again_false). C134_others_partial: all checks of the other tests succeed in the first run. Numbers of type double in the tests are exact in the model, see C135. |
| C135 | The unit tests do not fail because of rounding errors | UnitTestPrograms | proved | About the eight tests other than matrixOps, in their first run. |
| C136 | Path lengths of points of a track in double precision | RoundedPath | partial | False for nearly straight tracks: with correctly rounded library functions the result is 0 for all points where curvature times distance is below 2^-66, for every azimuth between 1 and 3 (C136_stuck, C136_false). C136_accurate_partial, C136_wide_partial: the error bounds up to 1/5 of a turn and up to almost half a turn, for tracks that turn by more than 2^-40. |
| C137 | Moved tracks in double precision | RoundedMove | partial | False for azimuths next to +-pi/2, where the sine from sqrt((1-cos)(1+cos)) has half of the digits: moving the track of curvature 2^-17 with azimuth pi/2+2^-27 to its own reference point turns it by 2^-27 and shifts it by 2^-10 (C137_turned, C137_false). C137_move_partial: the centre is that of the track turned by an angle of at most 2^-21, of the order of 2^-53 at other azimuths; bounds for azimuth, angle and height; the sense of rotation is kept. |
| C138 | The start helix made from hits of a track is that track | StartTrack | proved | Within one turn; C138_turns shows that points more than one turn apart give another slope. C138_refit assumes a fitter that minimises the sum of squares (see C127). |
| C139 | Crossings of circles and lines in double precision | RoundedCross | partial | False for lines close to a tangent: C139_missed gives a line that crosses a circle of radius 2048 in two points (found without rounding) and for which nothing is found, C139_nan one with a crossing that is not a number. C139_points_partial and C139_none: correct if the discriminant is away from zero by 2e-9 plus 2^-45 of the square of the size, with an explicit bound on the error of the points. |
| C140 | Crossings of two circles in double precision | RoundedCircles | partial | False: C140_far gives two circles of radius 1 at 2^30 from the origin whose computed crossings are at a distance of 1.41 from the second centre, C140_throws two circles that cross (found without rounding) and that give an exception. C140_points_partial: correct with an explicit bound on the error if the discriminant is above 4e-9 plus 2^-36 L M^3 (L: distance of the centres, M: bound of coordinates and radii) and the distance of the radical line above 2^-48 M^2. |
| C141 | Crossings with cylinders in double precision | RoundedCylinder | proved | C141_points: a reported point is within 2^-46 M of the cylinder and 2^-42 M (1 + |omega| M) of the track. C141_all: one of the two points is next to any crossing (square-root bound, valid also where the track touches the cylinder). C141_none, C141_found: no point for tracks that stay away, a point for tracks that pass from inside to outside. C141_select, C141_choice: choice by the mode. C141_rejects: other surfaces. Preconditions on sizes are in CylRange. |
| C142 | Propagation Jacobian in double precision | RoundedPropagation | partial | False: C142_doubled gives a step over a small angle whose derivative of the offset with respect to q/p is computed twice too large (1 - cos is 0 in double precision). C142_partial: every entry is within 2^-41 of the exact one in the units of its row and column (q/p, 1, 1, radius, radius; rows of the azimuth divided by cos lambda); C142_straight for straight tracks. |
| C143 | Crossings with planes parallel to z in double precision | RoundedPlane | partial | False with the accuracy of cylinders (C141): C143_false gives a stiff track and a plane where both computed points are farther than 1/2 from the track, because the centre of the circle is rounded; planes with the origin of the coordinates on the side of the normal are taken on the wrong side (C33_false). C143_points_partial: with the radius of the track as part of the size L, reported points are within 2^-43 L of the plane and 2^-40 |omega| L^2 of the track (NaN only for tracks that touch the plane up to the threshold of the code). C143_found, C143_none: crossings are reported, or not, if the track is clearly on both sides, or on one. C143_all: each crossing with a clear angle is next to one of two computed points, and the reported one is the choice C143_select. C143_straight: straight tracks give no crossing. C143_rejects: normals along z throw. |
| C144 | The Newton iteration in double precision | RoundedNewton | partial | False for straight tracks: C144_straight, C144_false (pointAt gives NaN, no crossing is found), and for steep tracks as without rounding (C112_false). C144_terminates: for every surface and rounding. C144_accurate, C144_cone: reported crossings. C144_found_partial: found from every start in a range in which the component of the computed normal along the track differs by at most 39 % from the derivative of the distance, in the range of sizes given; the concrete case is a cone. C144_tangent: error of calculateTangent. C144_dispatch: which function is used for which surface. |
| C145 | Multiple scattering in double precision | RoundedMaterial | proved | C145_highland: error bound. C145_positive: positive and relatively exact. C145_silicon: a concrete layer. |
| C146 | Energy loss in double precision | RoundedMaterial | proved | C146_bethe: specific loss against the formula of the code (C75: twice the density correction). C146_loss: two layers. C146_energy: energy and velocity. C146_silicon: a concrete layer. |
| C147 | Direction and momentum at a surface in double precision | RoundedMomentum | proved | C147_azimuth, C147_momentum: direction and momentum. C147_scattering: Highland at the true momentum. C147_loss: energy and velocity. C147_missed: no crossing. C147_silicon: a concrete helix and disk. |
| C148 | The list of crossed surfaces in double precision | RoundedTrajectory | partial | C148_list_partial: the list, if each crossing is computed within its tolerance, is not at an edge of the surface, and the path lengths differ by more than the tolerances. C148_disk, C148_cylinder_partial, C148_plane_partial: the first crossing with a disk, a cylinder or a plane parallel to z is computed this way. C148_missed, C148_plane_missed: no crossing is reported for cylinders and planes that the track does not reach. C148_straight: the list is always empty for straight tracks. C148_false: for a stiff track a cylinder of radius 30 is listed at path length 0. |
| C149 | Projection to the measurement directions in double precision | RoundedUtilities | partial | C149_two_partial and C149_one_partial: the error is at most 2^-41 over the square of the determinant, for azimuths and turning angles up to 8 and determinants from 2^-25 on. C149_dimension: other numbers of directions are rejected. C149_false: two parallel directions are accepted. |
| C150 | The transformation to track parameters in double precision | RoundedConversion | partial | C150_partial: errors of at most 2^-38 in the units of row and column, for slopes up to 100, curvatures and fields between 2^-100 and 2^100, every order of summation. C150_perigee_partial: relative errors of at most 2^-50 in the other two matrices. C150_false: for the slope 2^80 one entry is too small by a factor of more than 1000. |
| C151 | Charge over momentum in double precision | RoundedCharge | partial | C151_partial: the relative error is at most 2^-43 for slopes up to 100, curvatures and fields between 2^-100 and 2^100. C151_no_field: 0 without field. C151_false: for the slope 2^80 the result is too large by a factor of more than 1000. |
| C152 | Momentum along a track in double precision | RoundedTrackMomentum | proved | C152_at and C152_pca, with the range of MomRange. |
| C153 | The start helix in double precision | RoundedStart | proved | C153_start against the helix of exact arithmetic (C18), C153_track against the parameters of a track through the points. C153_far: for distances in the ratio 2^60 the computed curvature can be 0 although the points are not on a line, so the range of StartRange is needed. |
| C154 | Covariance matrix of a moved track in double precision | RoundedMoveCov | partial | Symmetric matrices do not stay symmetric: half a turn of the track with curvature 1, slope 3/2 and d0 = -4, with the single entry 2^52 + 11 for the azimuth, gives -(45 2^52 + 512) and -(45 2^52 + 480) (C154_asymmetric, C154_false). The sines and cosines in F are those of an angle that differs from the returned one by at most 2^-20, and by the order of 2^-53 for azimuths not next to +-pi/2 (C154_covariance_partial, as in C137). C154_params: the parameters are those of C137 with and without the flag. |
| C155 | geometry_test prints the numbers of all surfaces | SmallPrograms | proved | C155_lines, C155_count, C155_error. |
| C156 | Fit results in double precision | RoundedFit | proved | C156_results and C156_error, with the range of FitRange (steeper tracks: C150_false). |
| C157 | Weights of scatterers in double precision | RoundedFit | partial | C157_weight_partial for widths between 2^-400 and 2^400, C157_highland_partial with the width of Highland. C157_false: without material, and for all widths up to 2^-540, the matrix has infinities on the diagonal and NaN elsewhere. |
| C158 | Jacobians of a trajectory in double precision | RoundedPrepare | proved | C158_jacobian, C158_prepare, C158_no_material, C158_loss, C158_example. Entries that are small in the units of row and column can be wrong, see C142_false; steeper tracks: C151_false. |
| C159 | New scatterers and measurements in double precision | RoundedAdd, RoundedAddExample | proved | C159_scatterer, C159_measurement, C159_missed, C159_start, C159_thin (condition for the bound of the loss), C159_silicon (example). The tolerance contains the turn delta of C137, at most 2^-21. |
| C160 | The simplified propagator in double precision | RoundedSimplified | proved | C160_simplified, C160_exact (the same entries with exact arithmetic), C160_example. |
| C161 | The start helix of lcio_tracks in double precision | RoundedSeed | proved | C161_seed (track through the hits), C161_track (hits on a given track), C161_scaled (conversion of units), C161_covariance, C161_example. The tolerance of the position contains the turn delta of C137, at most 2^-21. |
| C162 | Crossings of two straight lines in double precision | RoundedLines | partial | C162_cross_partial: oriented areas of at least 2e-9 and of at least the product of the normal vectors over K; tolerance 15 K^2 units. C162_parallel (parallel lines), C162_none (areas clearly below 1e-9). False as stated: C162_false (negative area), C162_missed (area 1 that is lost by rounding). |
| C163 | Material scan of check_materials in double precision | RoundedMaterialScan | partial | C163_total_partial: relative error (8 + 880/c0 + 2 n) units for n crossings and the smallest cosine c0. False as stated: C163_thin_false (a surface without thickness gives 0/0 and makes all later totals not a number). |
| C164 | Detailed list of materials of material_ntuples in double precision | RoundedMaterialList | partial | C164_rows_partial and C164_end: relative errors (2 k + 4) and (3 k + 12) units for the k-th entry. False as stated: C164_empty_false (no surface crossed). |
| C165 | Precisions of hits in double precision | RoundedHits | partial | C165_planar (7 units), C165_covariance (4 units of single precision), C165_effects. False as stated for errors of zero (infinite precision) and covariance matrices with less than six entries (read out of bounds): C165_undefined_false. |
| C166 | The program lcio_tracks in double precision | RoundedRefit, RoundedRefitExample, RoundedRefitFalse | partial | False: no track with exactly three hits is refitted, for every rounding (C166_three_hits_false). Proved: which calls are made (C166_calls, C166_count_partial), one point for each element (C166_points, C166_first), the refit if the start helix and the trajectory can be made (C166_refitted_partial), the written state (C166_state), independence, events and files (C166_independent, C166_event, C166_file). |
| C167 | Positions and directions along a trajectory in double precision | RoundedPositions | partial | C167_element, C167_position_partial, C167_direction, C167_added_partial (path length of an added element). False: an added element has the parameters of the reference, so that pointAt at its path length is the start of the reference track (C167_added_false); without elements the functions are undefined (C167_empty); almost straight tracks as in C132, C136. |
| C168 | The program material_effects in double precision | RoundedEffects, RoundedEffectsExample | partial | C168_calls, C168_count_partial (hits with different numbers), C168_points, C168_refitted, C168_state_partial, C168_independent, C168_file. False: the reference point is replaced by the origin, so that results one centimetre apart are written as the same track (C168_reference_false); hits with the same number as in C107. |
| C169 | The program lcio_debug_tracks in double precision | RoundedDebug | partial | C169_file, C169_null (no state at the last hit: undefined), C169_read, C169_disk, C169_cylinder_partial and C169_plane_partial (missing: that the path lengths of the track and of the hit agree, false for tracks that turn too little, C148_false; tracks that touch a plane, as in C143). That the new hit is next to the hit of the input is false already for exact numbers (C117_false). |
| C170 | Cylindrical and spherical coordinates of Vector3D in double precision | RoundedCoordinates | proved | C170_cylindrical, C170_spherical, C170_rebuild_cylindrical, C170_rebuild_spherical, C170_squares, C170_zero, C170_axis. Outside the range the length overflows (C170_overflow). |
| C171 | The program of unit tests in double precision | RoundedUnitTests | partial | C171_false (24 fails, 449 successes, returns 0), C171_matrixOps_false, C171_again_false; C171_others_partial (all checks of the other eight tests succeed in the first run, for every rounding), C171_exact (the same as with exact numbers). |
| C172 | The program intersection_calculator in double precision | RoundedBarrel, RoundedDetector, RoundedSmall | partial | C172_false, C172_file (the file is not used); C172_disks_partial (the list for the geometry that the program does use, consisting of disks), C172_barrel_partial (the same for cylinders around the z axis), C172_detector_partial (for both). For other surfaces see C148. |
| C173 | The prefit of lcio_tracks in double precision | RoundedPrefit | partial | False: if no hit has a surface the behaviour is undefined, for every rounding (C173_empty_false). Proved: which hits are used (C173_chosen), that the trajectory can be prepared if one of the hits has a surface and the path lengths are in order (C173_prepared, C173_ordered), the measurements, the points and the parameters returned (C173_prefit_partial). |
| C174 | The start helix of points on a line in double precision | RoundedLine | partial | False: the slope is never found (C174_slope_false); with the first point between the others a straight track with tan(lambda) = 0 results, whatever the heights (C174_between_false); and no track with such hits is refitted, since no surface is taken to be crossed (C174_refit_false). Proved: curvature and tan(lambda) are zero or not a number (C174_line_partial); with the first point at the end tan(lambda) is not a number (C174_outside). |

## Method of proof

* Helix, intersections, frames, Jacobians: reduction of the model on finite values to formulas over the reals; then algebra,
  trigonometry, `HasDerivAt`, and for the propagation uniqueness of the solution of the variational equation.
* Containers and objects: induction over all sequences of operations with an invariant.
* Loops: the least iteration count; for the Newton iteration an invariant of the loop.
* Violated properties: a concrete input evaluated in the model.
