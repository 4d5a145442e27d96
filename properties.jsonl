{"id": "C01", "title": "Unit() turns any 5x5 matrix into the identity", "statement": "After calling Unit() on a fiveByFiveMatrix, the matrix read back entry by entry is the identity, whatever it held before.", "quantifier": "every prior matrix content", "why_tests_cant": "A test tries a handful of previous contents; callers rely on it for a matrix in any state (fresh, reused, result of a computation).", "anchors": ["core/include/fiveByFiveMatrix.hh: fiveByFiveMatrix::Unit"]}
{"id": "C02", "title": "5x5 matrix and vector products obey linear algebra", "statement": "For finite matrices and vectors, products computed with operator* agree with the mathematical matrix product: (A*B)*v equals A*(B*v), (A*B)*C equals A*(B*C), transposing twice restores the matrix and the transpose of a product is the reversed product of transposes (in exact arithmetic).", "quantifier": "all finite 5x5 matrices A,B,C and 5-vectors v", "why_tests_cant": "Algebraic laws over a 75-dimensional input space; a test checks isolated numbers.", "anchors": ["core/include/fiveByFiveMatrix.hh: operator*, Transpose", "core/include/Vector5.hh"]}
{"id": "C03", "title": "25 values written row by row are read back in the same order", "statement": "A matrix constructed from a vector of at least 25 numbers has entry (r,c) equal to number 5r+c, array() returns the same 25 numbers, and a shorter vector is never silently accepted as a defined result.", "quantifier": "all vectors of numbers of any length, all row/column positions", "why_tests_cant": "Needs every length and content; the short-vector case is undefined behaviour and a test may pass by accident.", "anchors": ["core/include/fiveByFiveMatrix.hh: fiveByFiveMatrix(const std::vector<double>&), array"]}
{"id": "C04", "title": "Track parameter objects remember the last value written, per component", "statement": "For any history of calls to the constructors, copy, assignment and setters of trackParameters and fitResults, each getter returns the value most recently written to that component of that object (the zero default if none), and writing one component never changes another component or another object.", "quantifier": "all finite sequences of set/copy/assign operations on any number of objects", "why_tests_cant": "Histories are unbounded; tests run one short history.", "anchors": ["core/include/trackParameters.hh: trackParameters", "core/src/trackParameters.cc", "util/include/fitResults.hh: fitResults"]}
{"id": "C05", "title": "Vector products and unit vectors are geometrically correct", "statement": "cross(a,b) is orthogonal to a and b and |a x b|^2 + (a.b)^2 = |a|^2|b|^2; unit() of a non-zero vector has length one and the same direction; unit() of the zero vector is not a finite vector.", "quantifier": "all finite 3-vectors", "why_tests_cant": "Identities over all reals including the zero vector.", "anchors": ["core/include/Vector3D.hh: dot, cross, unit, r, r2"]}
{"id": "C06", "title": "Cylindrical and spherical coordinates round trip", "statement": "A vector built from cylindrical coordinates (rho>0, phi in (-pi,pi], z) reports exactly these rho, phi, z; a vector built from spherical coordinates (r>0, phi in (-pi,pi], theta in (0,pi)) reports r, phi, theta; conversely every vector is rebuilt from its reported coordinates; trans2 and r2 are the squares of the distance from the axis and of the length.", "quantifier": "all finite vectors and all coordinates in the principal ranges, including the range end points", "why_tests_cant": "Range boundaries (phi=pi, axis points) are easily missed and the set is uncountable.", "anchors": ["core/include/Vector3D.hh: phi, rho, trans, trans2, r, r2, theta, Cylindrical and Spherical constructors"]}
{"id": "C07", "title": "pointAt stays on the circle reported by the centre and radius functions", "statement": "For non-zero curvature, every point pointAt(s) lies in the transverse plane at distance calculateRadius from (calculateXCenter, calculateYCenter), and its z is an affine function of s with slope tan(lambda).", "quantifier": "all finite helix parameters with omega != 0, all reference points, all arc lengths s", "why_tests_cant": "Consistency between four separately written formulas for every parameter value.", "anchors": ["util/src/helixUtils.cc: pointAt, calculateRadius, calculateXCenter, calculateYCenter"]}
{"id": "C08", "title": "d0 is the distance of closest approach and s=0 is the closest point", "statement": "pointAt(0) is the point (X0,Y0,refz+z0); it is at transverse distance |d0| from the reference point, and if omega*d0 <= 1 no other point of the track is closer to the reference point in the transverse plane. The condition omega*d0 <= 1 is needed.", "quantifier": "all finite helix parameters with omega != 0 and all s", "why_tests_cant": "A minimum over a continuum of arc lengths.", "anchors": ["util/include/helixUtils.hh: calculateX0, calculateY0", "util/src/helixUtils.cc: pointAt"]}
{"id": "C09", "title": "The two families of position functions agree", "statement": "pointAt(s) equals (calculateXfromS(s), calculateYfromS(s), calculateZfromS(s)).", "quantifier": "all finite helix parameters with omega != 0, all reference points, all s", "why_tests_cant": "Two independent formulas must agree everywhere.", "anchors": ["util/src/helixUtils.cc: pointAt, calculateXfromS, calculateYfromS, calculateZfromS"]}
{"id": "C10", "title": "calculateTangent is the unit direction of motion and s is transverse arc length", "statement": "calculateTangent(s) has unit length; the derivative of pointAt with respect to s is calculateTangent(s)/cos(lambda); hence the transverse speed is 1, i.e. s measures arc length in the xy plane.", "quantifier": "all finite helix parameters with omega != 0, all s", "why_tests_cant": "A derivative statement over a continuum.", "anchors": ["util/src/helixUtils.cc: calculateTangent, pointAt"]}
{"id": "C11", "title": "Straight tracks (omega = 0) follow the straight line along phi0", "statement": "For zero curvature, calculateXfromS, calculateYfromS, calculateZfromS and pointAt give the straight line starting at the point of closest approach with direction (cos phi0, sin phi0, tan lambda).", "quantifier": "all finite parameters with omega = 0, all s", "why_tests_cant": "Every direction phi0 and s; tests tend to use phi0 values where sin = cos or sin = 0.", "anchors": ["util/src/helixUtils.cc: calculateXfromS, calculateYfromS, calculateZfromS, pointAt"]}
{"id": "C12", "title": "calculateSfromXY inverts the position functions within half a turn", "statement": "For a point on the track at signed arc length s with |omega*s| < pi, calculateSfromXY returns s. Conversely every point of the circle except the one opposite to the PCA gets the s with |omega*s|<pi that reproduces it.", "quantifier": "all finite parameters with omega != 0 and |phi0| <= 2*pi, all s within half a turn", "why_tests_cant": "Branch cuts of atan2 and the wrap-around make the failure set thin.", "anchors": ["util/src/helixUtils.cc: calculateSfromXY, calculatePhifromXY"]}
{"id": "C13", "title": "calculateSfromXY works for straight tracks", "statement": "For omega = 0, the path length reported for a point of the straight track is the signed distance along the track.", "quantifier": "all finite parameters with omega = 0, all points on the track", "why_tests_cant": "Degenerate branch over a continuum.", "anchors": ["util/src/helixUtils.cc: calculateSfromXY"]}
{"id": "C14", "title": "Moving the reference point does not move the track", "statement": "After moveHelixTo(tp, ref), the parameters describe the same curve in space: there is a fixed shift D with |D| <= pi/|omega| such that pointAt_new(s) = pointAt_old(s+D) for all s, in x, y and z; the returned angle is -omega*D. The new reference point is exactly ref; omega and tan(lambda) are unchanged.", "quantifier": "all finite helix parameters with omega != 0, all old and new reference points not on the helix axis, all s", "why_tests_cant": "Equality of two curves for every parameter and reference point with several branch choices.", "anchors": ["util/src/helixUtils.cc: moveHelixTo"]}
{"id": "C15", "title": "moveHelixTo returns normalised parameters and is independent of the way taken", "statement": "After moveHelixTo the azimuth is in (-pi,pi] and omega*d0 < 1 (closest approach branch). Moving to the same point twice changes nothing more. Moving via an intermediate reference point gives the same omega, tan(lambda), phi0, d0 as moving directly, and z0 equal up to whole turns.", "quantifier": "all finite parameters with omega != 0, all chains of reference points off the axis", "why_tests_cant": "Relational property over sequences of calls.", "anchors": ["util/src/helixUtils.cc: moveHelixTo"]}
{"id": "C16", "title": "moveHelixTo always terminates on finite input", "statement": "The angle normalisation loops of moveHelixTo end for every finite azimuth; for a non-finite azimuth and a non-zero curvature the call never returns normally with a finite azimuth.", "quantifier": "all azimuth values", "why_tests_cant": "Termination is not testable.", "anchors": ["util/src/helixUtils.cc: moveHelixTo (while loops)"]}
{"id": "C17", "title": "Covariance is transported by the Jacobian of the parameter change", "statement": "With updateCovMat=true, moveHelixTo replaces the covariance C by J C J^T where J is the derivative of the new (omega, tanl, phi0, d0, z0) with respect to the old; symmetric stays symmetric and positive semidefinite stays positive semidefinite; with updateCovMat=false the covariance is untouched.", "quantifier": "all finite parameters with omega != 0, all covariance matrices, all differentiable parameter variations", "why_tests_cant": "Derivative correctness in all directions.", "anchors": ["util/src/helixUtils.cc: moveHelixTo (lines 347-406)"]}
{"id": "C18", "title": "calculateStartHelix produces a helix through the given points", "statement": "For three points not collinear in the transverse plane, the start helix has the first point as reference point and at s=0, its circle passes through all three points in the transverse plane, and tan(lambda) is the z difference of the last two points over the transverse arc between them.", "quantifier": "all triples of finite points not collinear in xy, both values of the backward flag", "why_tests_cant": "Geometric identity over nine reals with orientation cases.", "anchors": ["util/src/helixUtils.cc: calculateStartHelix"]}
{"id": "C19", "title": "Collinear start points are not silently turned into a finite helix", "statement": "If the three points given to calculateStartHelix are collinear in the transverse plane, the result does not contain a finite curvature together with finite tan(lambda).", "quantifier": "all collinear triples", "why_tests_cant": "Degenerate set of measure zero.", "anchors": ["util/src/helixUtils.cc: calculateStartHelix"]}
{"id": "C20", "title": "Momentum points along the track and has the right magnitude", "statement": "momentumAt(s) is parallel to calculateTangent(s) (same orientation), its transverse magnitude is |Bz|*conv/|omega|, constant along the track, and momentumAt(0) equals momentumAtPCA.", "quantifier": "all finite parameters with omega != 0, all s, all field values Bz", "why_tests_cant": "Needs every field sign and every s.", "anchors": ["util/src/helixUtils.cc: momentumAt, momentumAtPCA"]}
{"id": "C21", "title": "q/p and momentum are reciprocal", "statement": "|calculateQoverP| times the magnitude of momentumAtPCA is 1 for omega != 0 and Bz != 0; the sign of q/p is that of omega for Bz > 0; it is 0 for omega = 0 and any non-zero field.", "quantifier": "all finite parameters and fields", "why_tests_cant": "Identity between two modules over all inputs.", "anchors": ["util/src/utilities.cc: calculateQoverP", "util/src/helixUtils.cc: momentumAtPCA"]}
{"id": "C22", "title": "The curvilinear frame is a right-handed orthonormal frame", "statement": "calculateLocalCurvilinearSystem gives U, V which together with the track tangent at s form a right-handed orthonormal system, with U horizontal.", "quantifier": "all finite parameters and s", "why_tests_cant": "Orthonormality for every direction.", "anchors": ["util/src/utilities.cc: calculateLocalCurvilinearSystem", "util/src/helixUtils.cc: calculateTangent"]}
{"id": "C23", "title": "The measurement projection matrix is the inverse of the local-to-curvilinear map", "statement": "For two measurement directions, the matrix returned by calculateLocalToMeasurementProjectionMatrix is the two-sided inverse of the matrix of their scalar products with U,V; it throws exactly when that matrix is singular or the number of directions is neither one nor two.", "quantifier": "all finite track parameters, arc lengths and measurement directions", "why_tests_cant": "All directions incl. singular configurations.", "anchors": ["util/src/utilities.cc: calculateLocalToMeasurementProjectionMatrix"]}
{"id": "C24", "title": "One-dimensional measurements get a usable orthogonal companion direction", "statement": "With a single measurement direction m (unit vector), the companion direction used for the projection is a unit vector orthogonal to m; it is never undefined.", "quantifier": "all unit vectors m", "why_tests_cant": "The construction has degenerate directions that must be avoided for every m.", "anchors": ["util/src/utilities.cc: calculateLocalToMeasurementProjectionMatrix (1-D branch)"]}
{"id": "C25", "title": "Circle-line intersection is sound and complete away from tangency", "statement": "If the discriminant exceeds the tolerance, intersectCircleStraightLine returns exactly two points, both on the circle and on the line, and every common point is one of them; if it is below minus the tolerance it returns none and there is no common point.", "quantifier": "all circles with r >= 0 and all lines accepted by the constructors", "why_tests_cant": "Completeness quantifies over all points of the plane.", "anchors": ["util/src/intersections.cc: intersectCircleStraightLine"]}
{"id": "C26", "title": "Tangential circle-line intersections return genuine points", "statement": "Whenever intersectCircleStraightLine reports an intersection, every reported point is a finite point on both the circle and the line.", "quantifier": "all circles and lines, including near-tangent ones", "why_tests_cant": "The failing window is 1e-9 wide.", "anchors": ["util/src/intersections.cc: intersectCircleStraightLine"]}
{"id": "C27", "title": "Circle-circle intersection is sound, complete and symmetric", "statement": "intersectCircleCircle returns only points on both circles, returns all common points (away from tangency), does not throw for distinct circles, and does not depend on the order of its arguments up to order of the solutions.", "quantifier": "all pairs of non-concentric circles", "why_tests_cant": "Relational property over all pairs.", "anchors": ["util/src/intersections.cc: intersectCircleCircle"]}
{"id": "C28", "title": "Line-line intersection is sound and complete", "statement": "intersectStraightLineStraightLine returns the unique common point for non-parallel lines and none for parallel ones.", "quantifier": "all pairs of lines accepted by the constructor", "why_tests_cant": "Covers both signs of the determinant.", "anchors": ["util/src/intersections.cc: intersectStraightLineStraightLine"]}
{"id": "C29", "title": "Invalid circles and lines are rejected at construction", "statement": "Constructing a circle throws exactly for negative radius, constructing a straight line throws exactly for a negative distance or a (numerically) zero normal.", "quantifier": "all constructor arguments incl. NaN", "why_tests_cant": "All reals incl. special values.", "anchors": ["util/include/intersections.hh: circle, straightLine constructors"]}
{"id": "C30", "title": "Intersection with a z-disk is on the disk plane and on the helix", "statement": "If intersectWithZDisk reports success (tan(lambda) != 0, omega != 0), the point equals pointAt(s), its z is the disk's z, and s is the only arc length where the track has this z; success is reported exactly when s has the sign required by mode and, if requested, the point is inside bounds.", "quantifier": "all finite helices with tan(lambda), omega != 0, all disks, modes and bounds", "why_tests_cant": "Both directions of an equivalence.", "anchors": ["util/src/helixUtils.cc: intersectWithZDisk"]}
{"id": "C31", "title": "No success is reported for tracks parallel to a disk", "statement": "For tan(lambda) = 0 and a disk at a different z, intersectWithZDisk reports no intersection.", "quantifier": "all helices with tan(lambda)=0, all modes and bounds settings", "why_tests_cant": "Division by zero path.", "anchors": ["util/src/helixUtils.cc: intersectWithZDisk"]}
{"id": "C32", "title": "Intersection with a z-cylinder is on the cylinder and on the helix", "statement": "If intersectWithZCylinder reports success, the point is on the cylinder, equals pointAt(s), and |omega*s| < pi; if it reports failure with no bounds requested then no track point within half a turn with the required sign of s lies on the cylinder.", "quantifier": "all finite helices with omega != 0 and |phi0| <= 2 pi, all cylinders with positive radius, generic position (axis distinct from the helix axis, candidate points not opposite the PCA)", "why_tests_cant": "Soundness and completeness over continuum.", "anchors": ["util/src/helixUtils.cc: intersectWithZCylinder"]}
{"id": "C33", "title": "Intersection with a z-plane is on the plane and on the helix", "statement": "If intersectWithZPlane reports success, the point lies in the plane given by the surface's origin and normal, and equals pointAt(s).", "quantifier": "all finite helices with omega != 0, all planes parallel to z", "why_tests_cant": "All plane positions, incl. origin.normal < 0.", "anchors": ["util/src/helixUtils.cc: intersectWithZPlane"]}
{"id": "C34", "title": "Search mode is respected by every surface intersection", "statement": "With mode=+1 a reported s is never negative, with mode=-1 never positive; with mode=0 the reported solution is the one with the shortest |s| (cylinder: up to the 1e-4 preference for the positive one).", "quantifier": "disk, Newton, and backward search: all inputs; forward search and mode 0 on cylinders and planes: tracks and surfaces in the general position of C32 (for planes: origin.normal >= 0 and a clear crossing for mode 0)", "why_tests_cant": "All combinations of two candidate solutions.", "anchors": ["util/src/helixUtils.cc: intersectWithZCylinder, intersectWithZPlane, intersectWithZDisk, intersectWithSurfaceNewton"]}
{"id": "C35", "title": "Bounds checking only filters results", "statement": "A success with checkBounds=true implies the point is inside bounds, and the result with checkBounds=true is the result without it, restricted to points inside bounds.", "quantifier": "all helices, surfaces, modes, arbitrary bounds predicate", "why_tests_cant": "Arbitrary bounds predicate.", "anchors": ["util/src/helixUtils.cc: intersectWithZCylinder, intersectWithZPlane, intersectWithZDisk"]}
{"id": "C36", "title": "An in-bounds intersection in the requested direction is found", "statement": "If the track crosses the surface inside its bounds at some s of the requested sign within half a turn, then the intersection function with bounds checking reports success.", "quantifier": "all helices, surfaces, bounds predicates", "why_tests_cant": "Needs two-candidate situations where the nearer one is out of bounds.", "anchors": ["util/src/helixUtils.cc: intersectWithZCylinder, intersectWithZPlane"]}
{"id": "C37", "title": "Newton intersection terminates and is accurate on success", "statement": "intersectWithSurfaceNewton returns after a bounded number of distance evaluations for every surface (any distance function); on success the surface distance at the reported point is below 1e-3 mm, the point is pointAt(s) and s respects mode.", "quantifier": "all surfaces with arbitrary distance functions, all helices and start values", "why_tests_cant": "Arbitrary functions; termination.", "anchors": ["util/src/helixUtils.cc: intersectWithSurfaceNewton, intersectWithZCone"]}
{"id": "C38", "title": "Unsupported surfaces give a clean failure", "statement": "intersectWithSurface delegates by type; for a surface type it does not know it reports failure and leaves s and the point unchanged; for supported types the result equals that of the specific function.", "quantifier": "all surface type bit patterns", "why_tests_cant": "All 2^32 type patterns.", "anchors": ["util/src/helixUtils.cc: intersectWithSurface"]}
{"id": "C39", "title": "Perigee-to-L3 Jacobian is the derivative of the parameter conversion", "statement": "perigeeToL3Jacobian is the derivative of the map (kappa, theta, phi, epsilon, zp) -> (omega=-kappa, tanl=cot(theta), phi0=phi, d0=-epsilon, z0=zp), at the given parameters.", "quantifier": "all finite parameters, all directions", "why_tests_cant": "Derivative over a continuum.", "anchors": ["util/src/utilities.cc: perigeeToL3Jacobian", "util/include/utilities.hh: perigee enum"]}
{"id": "C40", "title": "L3-to-perigee Jacobian is the inverse of perigee-to-L3", "statement": "L3ToPerigeeJacobian times perigeeToL3Jacobian is the identity.", "quantifier": "all finite parameters", "why_tests_cant": "Identity over all tan(lambda).", "anchors": ["util/src/utilities.cc: L3ToPerigeeJacobian, perigeeToL3Jacobian"]}
{"id": "C41", "title": "Curvilinear corrections reach all track parameters", "statement": "curvilinearToL3Jacobian is the derivative of (omega, tanl, phi0, d0, z0) with respect to the curvilinear corrections in a solenoidal field; in particular it is invertible, and a correction of the azimuth changes phi0 by the same amount.", "quantifier": "all finite parameters with cos(lambda) != 0, all Bz != 0", "why_tests_cant": "Derivative/invertibility over a continuum.", "anchors": ["util/src/utilities.cc: curvilinearToPerigeeJacobian, curvilinearToL3Jacobian", "fittingAlgorithms/src/GBLInterface.cc: _fillResults"]}
{"id": "C42", "title": "The analytical propagation Jacobian solves the variational equation of the helix", "statement": "For a homogeneous field, non-zero curvature and no energy loss, the matrix filled by analyticalPropagation::getJacobian maps curvilinear perturbations at the start to those at the end exactly as the linearised equation of motion does.", "quantifier": "all unit start directions not along z, all fields, step lengths, momenta", "why_tests_cant": "Differential statement over a continuum.", "anchors": ["propagations/src/analyticalPropagation.cc: getJacobian"]}
{"id": "C43", "title": "Propagation over zero length is the identity", "statement": "For zero step length, equal start and end directions and no energy loss, the propagation Jacobian is the 5x5 identity.", "quantifier": "all directions and fields with non-zero curvature", "why_tests_cant": "Continuum of directions.", "anchors": ["propagations/src/analyticalPropagation.cc: getJacobian"]}
{"id": "C44", "title": "Straight-line propagation is the identity plus lever arms", "statement": "For zero field or infinite momentum the propagation Jacobian of both propagators, written into a freshly constructed matrix, is the identity plus lever-arm terms (in particular invertible).", "quantifier": "all directions, all step lengths", "why_tests_cant": "All inputs.", "anchors": ["propagations/src/analyticalPropagation.cc", "propagations/src/simplifiedPropagation.cc"]}
{"id": "C45", "title": "Energy loss only rescales the curvature entry", "statement": "Changing the energy-loss argument of the analytical propagator changes only the (q/p,q/p) entry of the Jacobian, by exactly the change of the argument.", "quantifier": "all inputs with non-zero curvature", "why_tests_cant": "Frame property over all inputs.", "anchors": ["propagations/src/analyticalPropagation.cc"]}
{"id": "C46", "title": "A trajectory only grows, by exactly one element per successful add", "statement": "addMeasurement, addScatterer and addElement never alter or reorder existing elements; apart from the implicit start element, they append exactly one element when they return true (or void) and none when they return false.", "quantifier": "all histories of add calls with any surfaces and hits", "why_tests_cant": "Unbounded histories.", "anchors": ["core/src/trajectory.cc: addMeasurement, addScatterer, addElement"]}
{"id": "C47", "title": "Trajectory elements are ordered in arc length", "statement": "After any history of addMeasurement and addScatterer calls, the arc lengths of trajectoryElements() are non-decreasing and start at 0 (for finite intersections).", "quantifier": "all histories", "why_tests_cant": "Invariant over unbounded histories, depends on intersection mode selection.", "anchors": ["core/src/trajectory.cc: addMeasurement, addScatterer", "core/include/trajectory.hh"]}
{"id": "C48", "title": "The trajectory passes through the intersection point of every added surface", "statement": "For an element added on a surface via addMeasurement/addScatterer, the element's own track parameters have the intersection point as reference point with d0=z0=0, and trajectory::pointAt at the element's arc length returns the intersection point.", "quantifier": "all finite trajectories with omega != 0, cylinder/plane/disk intersections within half a turn", "why_tests_cant": "Composition of intersection, helix move and lookup for all inputs.", "anchors": ["core/src/trajectory.cc: addMeasurement, pointAt", "util/src/helixUtils.cc: moveHelixTo"]}
{"id": "C49", "title": "trajectoryElementAt finds the last element at or before s", "statement": "On a non-empty trajectory sorted in arc length, the element used for a given s is the last one with arc length <= s, or the first element if all lie after s.", "quantifier": "all sorted sequences of elements, all s", "why_tests_cant": "All lengths and ties.", "anchors": ["core/src/trajectory.cc: trajectoryElementAt, pointAt, tangentAt"]}
{"id": "C50", "title": "prepareForFitting orders elements and provides every Jacobian", "statement": "prepareForFitting keeps the set of elements, sorts them by arc length and sets a Jacobian on every one; the i-th Jacobian covers exactly the arc from element i-1 to element i; it never reads uninitialised data.", "quantifier": "all trajectories", "why_tests_cant": "All histories, all sort outcomes.", "anchors": ["core/src/trajectory.cc: prepareForFitting"]}
{"id": "C51", "title": "getIntersectionsWithSurfaces returns exactly the crossed surfaces in order", "statement": "The returned list contains exactly the given surfaces crossed in the forward half turn, each once with its arc length, sorted by arc length, independent of earlier calls.", "quantifier": "all surface lists, all call histories", "why_tests_cant": "Histories and list permutations.", "anchors": ["core/src/trajectory.cc: getIntersectionsWithSurfaces"]}
{"id": "C52", "title": "The fitter receives the measurement precision given by the user", "statement": "For every measurement, the two precision values handed to the fitter are the user's (second value 0 for one-dimensional measurements), and the scattering entries are those computed for the surface.", "quantifier": "all precision vectors of size 1 or 2, with or without scattering", "why_tests_cant": "All combinations of dimensions and scattering.", "anchors": ["core/src/trajectory.cc: addMeasurement", "core/src/trajectoryElement.cc", "fittingAlgorithms/src/GBLInterface.cc: fit"]}
{"id": "C53", "title": "The scatterer precision matrix is symmetric positive definite", "statement": "For qms > 0 and direction cosines with c1^2+c2^2 < 1 the 2x2 precision matrix handed to the fitter is symmetric positive definite; its inverse is the multiple scattering covariance.", "quantifier": "all qms > 0 and c1,c2 with c1^2+c2^2 < 1", "why_tests_cant": "Matrix inequality over a continuum.", "anchors": ["fittingAlgorithms/src/GBLInterface.cc: fit (scatterer)"]}
{"id": "C54", "title": "Fit results are cached per label and invalidated by a new fit", "statement": "After fit(), getResults(label) returns the same object for the same label until the next fit(); after a new fit() results come from that fit only.", "quantifier": "all histories of fit and getResults calls", "why_tests_cant": "Unbounded histories.", "anchors": ["fittingAlgorithms/src/GBLInterface.cc: fit, getResults, _clear"]}
{"id": "C55", "title": "Results of a failed fit are not marked valid", "statement": "If the fit failed, the result object obtained afterwards has areValid() false.", "quantifier": "all fit outcomes", "why_tests_cant": "All outcomes of the external fitter.", "anchors": ["fittingAlgorithms/src/GBLInterface.cc: fit, _fillResults"]}
{"id": "C56", "title": "Fitted parameters are initial parameters plus transported corrections", "statement": "The estimated parameters equal the element's parameters plus J*corrections and the covariance is J C J^T (symmetric, positive semidefinite if C is), at the element with the requested label; if the fitter reports an error the parameters are the initial ones.", "quantifier": "all fitter outputs, labels and trajectories", "why_tests_cant": "All outputs of the external fitter.", "anchors": ["fittingAlgorithms/src/GBLInterface.cc: _fillResults"]}
{"id": "C57", "title": "LCIO write then read returns the same track", "statement": "readLCIO(createLCIO(tp)) equals tp for symmetric covariance up to single-precision rounding of each number; exactly if all written numbers are representable.", "quantifier": "all track parameters with symmetric covariance", "why_tests_cant": "Every entry of 15 covariances with unit factors.", "anchors": ["persistency/src/LCIOPersistency.cc: readLCIO, createLCIO"]}
{"id": "C58", "title": "LCIO read then write returns the same track state", "statement": "createLCIO(readLCIO(ts)) reproduces every parameter, the reference point and all 15 covariance entries.", "quantifier": "all track states with at least 15 covariance values", "why_tests_cant": "As above.", "anchors": ["persistency/src/LCIOPersistency.cc"]}
{"id": "C59", "title": "LCIO unit conversion treats covariance consistently with the parameters", "statement": "The covariance read from LCIO equals D C D^T, where D is the linear unit/ordering map applied to the parameters and C the symmetric matrix encoded by the 15 LCIO numbers.", "quantifier": "all track states", "why_tests_cant": "Consistency over all entries.", "anchors": ["persistency/src/LCIOPersistency.cc: readLCIO"]}
{"id": "C60", "title": "Geometry access always yields the one geometry", "statement": "Every sequence of IGeometry::instance calls after the first successful one returns the same geometry object.", "quantifier": "all call histories", "why_tests_cant": "Histories.", "anchors": ["geometry/src/DD4hepGeometry.cc: IGeometry::instance"]}
{"id": "C61", "title": "Surface list is sorted and complete", "statement": "getSurfaces contains exactly the surfaces of the detector, each once, sorted by the documented distance criterion.", "quantifier": "all detectors", "why_tests_cant": "All lists.", "anchors": ["geometry/src/DD4hepGeometry.cc: DD4hepGeometry constructor, getSortingPolicy"]}
{"id": "C62", "title": "Surface types compose and compare as property sets", "statement": "A SurfaceType built from properties has exactly these; isSimilar is the subset relation (reflexive, transitive); setting one property leaves the others unchanged; an index >= 32 is rejected.", "quantifier": "all property sets and histories of setProperty", "why_tests_cant": "2^32 states.", "anchors": ["core/include/AidaTTGeometry.hh: SurfaceType"]}
{"id": "C63", "title": "A surface is never both parallel and orthogonal to z", "statement": "With the default tolerance, for any normal checkParallelToZ and checkOrthogonalToZ are not both true.", "quantifier": "all normals", "why_tests_cant": "All reals.", "anchors": ["core/include/AidaTTGeometry.hh: checkParallelToZ, checkOrthogonalToZ"]}
{"id": "C64", "title": "Material effects do not depend on the orientation of the surface", "statement": "The multiple scattering and the energy loss computed for a surface are unchanged if its normal is flipped and inner and outer materials are exchanged, and unchanged under reversal of the momentum.", "quantifier": "all materials, thicknesses, momenta, normals", "why_tests_cant": "Symmetry over all inputs.", "anchors": ["util/src/materialUtils.cc: computeQMS, computeEnergyLoss"]}
{"id": "C65", "title": "Energy and velocity reported by computeEnergyLoss are physical", "statement": "For every finite momentum and positive mass, the reported energy satisfies E^2 = p^2 + m^2 and 0 <= beta < 1; they are set whenever the function returns.", "quantifier": "all momenta, masses, surfaces", "why_tests_cant": "All inputs incl. early return path.", "anchors": ["util/src/materialUtils.cc: computeEnergyLoss"]}
{"id": "C66", "title": "The density-effect correction is continuous", "statement": "The density correction used by computeBetheBloch has no jump between its regimes.", "quantifier": "all beta*gamma, materials", "why_tests_cant": "Continuity.", "anchors": ["util/src/materialUtils.cc: computeBetheBloch"]}
{"id": "C67", "title": "The solenoid field is uniform", "statement": "ConstantSolenoidBField returns the same field (0,0,Bz) at every position.", "quantifier": "all positions", "why_tests_cant": "All positions.", "anchors": ["fields/include/ConstantSolenoidBField.hh"]}
{"id": "C68", "title": "A measurement direction across the track is never rejected", "statement": "addMeasurement with one unit direction that is orthogonal to the track direction at the measured point obtains a projection matrix (no exception).", "quantifier": "all unit directions, all tracks", "why_tests_cant": "The failing combinations form a set of measure zero that depends on an internally invented second direction.", "anchors": ["util/src/utilities.cc: calculateLocalToMeasurementProjectionMatrix"]}
{"id": "C69", "title": "Propagation Jacobians compose", "statement": "In a homogeneous field the propagation Jacobian over w1+w2 is the product of the Jacobian over w2 and the Jacobian over w1.", "quantifier": "all fields, momenta, unit start directions and step lengths w1, w2", "why_tests_cant": "Universal identity between 25 long trigonometric expressions.", "anchors": ["propagations/src/analyticalPropagation.cc: getJacobian"]}
{"id": "C70", "title": "Propagating forth and back is the identity", "statement": "The propagation Jacobian over w followed by the one over -w from the end direction is the identity; in particular every propagation Jacobian on a curved track is invertible.", "quantifier": "all fields, momenta, unit start directions and step lengths", "why_tests_cant": "Universal matrix identity; invertibility for all inputs.", "anchors": ["propagations/src/analyticalPropagation.cc: getJacobian"]}
{"id": "C71", "title": "The propagation Jacobian and the helix describe the same motion", "statement": "The direction of the helix (calculateTangent), as function of 3D path length, obeys the equation of motion that the propagation Jacobian linearises, with the charge over momentum of calculateQoverP; so the call made by prepareForFitting yields the derivative along the helix.", "quantifier": "all helices with omega != 0, all non-zero fields along z of either sign, all arc lengths", "why_tests_cant": "Sign and unit conventions of three source files have to agree for all inputs.", "anchors": ["propagations/src/analyticalPropagation.cc: getJacobian", "util/src/utilities.cc: calculateQoverP", "util/src/helixUtils.cc: calculateTangent", "core/src/trajectory.cc: prepareForFitting"]}
{"id": "C72", "title": "The position along a trajectory without elements is that of the reference helix", "statement": "trajectory::pointAt and tangentAt on a trajectory without elements return the point and direction of the reference helix at s; with elements they use the parameters of one of the elements.", "quantifier": "all trajectories, all s", "why_tests_cant": "The failing case is undefined behaviour, which often goes unnoticed at run time.", "anchors": ["core/src/trajectory.cc: trajectoryElementAt, pointAt, tangentAt"]}
{"id": "C73", "title": "Fitting a prepared trajectory hands over one point per element", "statement": "For a trajectory built by any sequence of add calls (at least one precision per measurement) and prepared for fitting, fit() returns without undefined behaviour and hands exactly one point per element to the fitter, in arc length order, with the Jacobian of the element, a measurement exactly if the element has one and a scatterer exactly if it is one.", "quantifier": "all call sequences, surfaces, tracks, fields, propagations and fitters", "why_tests_cant": "Quantifies over call histories and all geometries.", "anchors": ["fittingAlgorithms/src/GBLInterface.cc: fit", "core/src/trajectory.cc: prepareForFitting"]}
{"id": "C74", "title": "Indexed access to a vector", "statement": "The const operator[] gives the components for 0, 1, 2 and 0 otherwise. Writing v[i] changes exactly that component, and no component if i is out of range; reading v[i] gives the last value written there, where all indices out of range share one scratch value.", "quantifier": "all vectors, values and indices", "why_tests_cant": "All integers as index.", "anchors": ["core/include/Vector3D.hh: operator[]"]}
{"id": "C75", "title": "computeBetheBloch is the Bethe formula", "statement": "For positive material constants, mass and momentum computeBetheBloch returns the Bethe formula of the Review of Particle Physics, including the density correction delta/2; in particular it is finite.", "quantifier": "all positive Z, A, density, mass and momentum", "why_tests_cant": "Universal over real parameters; the deviation is a factor in one term that only matters at high momentum.", "anchors": ["util/src/materialUtils.cc: computeBetheBloch"]}
{"id": "C76", "title": "computeQMS is Highland's formula", "statement": "For a surface with two layers of material, positive radiation lengths and total thickness, a momentum not parallel to the surface and any mass, computeQMS returns Highland's formula for the path length in radiation lengths; it is positive for a path longer than exp(-1/0.038) radiation lengths.", "quantifier": "all surfaces, momenta and masses", "why_tests_cant": "Universal over real parameters.", "anchors": ["util/src/materialUtils.cc: computeQMS"]}
{"id": "C77", "title": "The energy loss is the sum over the layers", "statement": "For a momentum not parallel to the surface computeEnergyLoss returns the sum over both layers of specific loss times density times thickness over the cosine of the incidence angle.", "quantifier": "all surfaces, momenta and masses", "why_tests_cant": "Universal over real parameters.", "anchors": ["util/src/materialUtils.cc: computeEnergyLoss"]}
{"id": "C78", "title": "Adding a surface conserves charge and balances energy", "statement": "The particle described by a new trajectory element has the same charge as before and its energy is the energy before the surface minus the computed loss.", "quantifier": "all surfaces, tracks, fields and masses", "why_tests_cant": "The failing cases need thick material or the comparison with an exact balance.", "anchors": ["core/src/trajectory.cc: addMeasurement, addScatterer"]}
{"id": "C79", "title": "Heap objects are deleted exactly once and nothing leaks", "statement": "In every program that constructs trajectories, adds measurements and scatterers, calls prepareForFitting any number of times and destroys trajectories, in any order and catching exceptions, no object is deleted twice, no pointer held by an element dangles, no two elements share an object, and after all trajectories are destroyed no object they created is left.", "quantifier": "all programs (sequences of calls on any number of trajectories), all geometries and fields", "why_tests_cant": "Quantifies over call sequences; the leak needs an exception from a constructor.", "anchors": ["core/src/trajectory.cc: ~trajectory, addMeasurement, addScatterer, prepareForFitting", "core/src/trajectoryElement.cc: ~trajectoryElement", "core/include/trajectoryElement.hh: setJacobian"]}
{"id": "C80", "title": "Elements can be read and printed", "statement": "For every trajectory a program can obtain, reading surface, measurement directions, curvilinear system and projection of any element, and printing it, is defined behaviour.", "quantifier": "all sequences of calls that add elements or prepare the fit", "why_tests_cant": "Undefined behaviour is not observable in a test; it depends on the history of calls.", "anchors": ["core/include/trajectoryElement.hh: surface, jacobian, measurementDimension, operator<<"]}
{"id": "C81", "title": "Vector operators are those of Euclidean space", "statement": "On finite vectors sum, difference, negation, scaling, scalar and vector product, length and squared length agree with the operations of three-dimensional Euclidean space; == holds exactly for equal vectors and never for a vector with an undefined component.", "quantifier": "all vectors", "why_tests_cant": "Universal over real components.", "anchors": ["core/include/Vector3D.hh: operator+, operator-, operator*, operator==, dot, cross, r, r2"]}
{"id": "C82", "title": "The field is returned in Tesla", "statement": "For every system of units and every field of the detector, getBField returns the field in Tesla.", "quantifier": "all units, fields and positions", "why_tests_cant": "Universal over fields and units; a test uses the units of one DD4hep version.", "anchors": ["geometry/src/DD4hepGeometry.cc: getBField"]}
{"id": "C83", "title": "calculatePhifromXY is the azimuth of the direction of motion", "statement": "For every track and every point on it, after any number of turns, calculatePhifromXY returns the azimuth of the tangent, in (-pi,pi]; for points off the track it is the direction of motion on the concentric circle.", "quantifier": "all tracks and points", "why_tests_cant": "Universal over tracks and points; branch errors appear only in some quadrants.", "anchors": ["util/src/helixUtils.cc: calculatePhifromXY"]}
{"id": "C84", "title": "Material effects of a track use its momentum at the crossing", "statement": "computeQMS and computeEnergyLoss for track parameters equal the functions for the position and momentum of the track where it crosses the surface, for either sign of the field; a track that does not cross gets zero; exceptions are passed on.", "quantifier": "all tracks, surfaces, fields and masses", "why_tests_cant": "Universal over tracks and fields; a wrong sign of the momentum is not visible in tests with one field.", "anchors": ["util/src/materialUtils.cc: computeQMS, computeEnergyLoss"]}
{"id": "C85", "title": "Vacuum causes no energy loss", "statement": "A surface whose materials have density zero causes no energy loss, and adding it to a trajectory leaves the curvature unchanged.", "quantifier": "all momenta, masses, thicknesses and angles", "why_tests_cant": "The failing case needs density exactly zero, where the excitation energy is divided by a plasma energy of zero.", "anchors": ["util/src/materialUtils.cc: computeBetheBloch, computeEnergyLoss", "core/src/trajectory.cc: addScatterer"]}
{"id": "C86", "title": "A track with an undefined curvature hits no surface", "statement": "If the curvature of a track is not a number, no intersection is reported, no element is added, and no sequence of calls leads to undefined behaviour in prepareForFitting.", "quantifier": "all surfaces, parameters and sequences of calls", "why_tests_cant": "Not-a-number arises only in corner cases (vacuum, degenerate seeds); undefined behaviour of std::sort is usually silent.", "anchors": ["util/src/helixUtils.cc: intersectWithSurface, intersectWithZCylinder, intersectWithZPlane, moveHelixTo", "core/src/trajectory.cc: addMeasurement, addScatterer, prepareForFitting"]}
{"id": "C87", "title": "The projection handed to the fitter maps displacements of the track to offsets of the measurement", "statement": "For a two-dimensional measurement added to a trajectory, the matrix handed to GBL maps every displacement of the track along the curvilinear directions U, V to the offsets a, b at which the displaced track meets the plane of the measurement directions.", "quantifier": "all finite track parameters, measurement directions and displacements", "why_tests_cant": "The inverse of a 2x2 matrix and its transpose coincide for the symmetric configurations used in tests; elsewhere the fit still converges, to a wrong result.", "anchors": ["util/src/utilities.cc: calculateLocalToMeasurementProjectionMatrix", "fittingAlgorithms/src/GBLInterface.cc: fit", "core/src/trajectory.cc: addMeasurement"]}
{"id": "C88", "title": "The scattering precision refers to the coordinates of the Jacobian", "statement": "The matrix handed to GBL for a scatterer is the inverse covariance of the changes of dip angle and azimuth (second and third coordinate of the Jacobian) caused by deflections with independent angles of variance qms^2 along U and V.", "quantifier": "all finite tracks and all scattering angles different from zero", "why_tests_cant": "For tracks perpendicular to the beam both agree; otherwise only the weight of the kinks in azimuth is wrong, by 1/cos^2 of the dip angle.", "anchors": ["fittingAlgorithms/src/GBLInterface.cc: fit", "core/src/trajectory.cc: addScatterer, addMeasurement", "propagations/src/analyticalPropagation.cc: getJacobian"]}
{"id": "C89", "title": "The energy loss entry of the Jacobian is the derivative of q/p after the loss", "statement": "To first order in the energy loss, the first entry of the Jacobian is the derivative of q/p after the material with respect to q/p before it at fixed energy loss, for every element at which the curvature is changed.", "quantifier": "all momenta, masses and losses", "why_tests_cant": "A test compares numbers for particles with p much larger than m, where the difference is of the order of (m/p)^2 times the loss.", "anchors": ["core/src/trajectory.cc: prepareForFitting, addMeasurement", "propagations/src/analyticalPropagation.cc: getJacobian", "util/src/materialUtils.cc: computeEnergyLoss"]}
{"id": "C90", "title": "Tracks can be rotated about the field axis and shifted", "statement": "Rotating a track about z and shifting it (azimuth plus the angle, reference point moved) rotates and shifts every point, the circle and the direction, keeps the path length of every point within half a turn, and commutes with moveHelixTo including the covariance matrix.", "quantifier": "all finite track parameters, angles, shifts, path lengths and reference points", "why_tests_cant": "A test has particular azimuths; a quadrant error or an asymmetric treatment of x and y shows only for others.", "anchors": ["util/src/helixUtils.cc: pointAt, calculateXfromS, calculateYfromS, calculateZfromS, calculateTangent, calculateSfromXY, calculateXCenter, calculateYCenter, moveHelixTo"]}
{"id": "C91", "title": "Opposite charges are mirror images", "statement": "For a track with opposite curvature, azimuth and d0 and mirrored reference point, points, direction and momentum are mirrored at the plane y = 0, and moveHelixTo gives the mirrored parameters.", "quantifier": "all curved tracks, path lengths and reference points", "why_tests_cant": "Sign conventions are usually tested for one charge; the exceptional case (a move by exactly half a turn) is never met by chance.", "anchors": ["util/src/helixUtils.cc: pointAt, calculateTangent, momentumAt, moveHelixTo"]}
{"id": "C92", "title": "Adding surfaces changes neither the slope nor the covariance matrix", "statement": "After any sequence of calls of addMeasurement, addScatterer and setMass every element of the trajectory has the slope tan(lambda) and the covariance matrix of the track the trajectory was made from, also after prepareForFitting.", "quantifier": "all tracks, surfaces, fields, sequences of calls, including undefined numbers", "why_tests_cant": "An invariant of all sequences of calls; tests cover short ones.", "anchors": ["core/src/trajectory.cc: addMeasurement, addScatterer, addElement, prepareForFitting", "util/src/helixUtils.cc: moveHelixTo"]}
{"id": "C93", "title": "A fit does not depend on what was done before", "statement": "The outcome of fit and the content of every result depend only on the trajectory that is fitted: two interfaces with arbitrary different histories that fit equal trajectories give the same outcome and, for each label, the same result, whatever other results are asked for in between.", "quantifier": "all histories of fits, result queries and changes of other trajectories, all fitters", "why_tests_cant": "Stale state shows only after particular sequences of calls.", "anchors": ["fittingAlgorithms/src/GBLInterface.cc: fit, _fillResults, _clear", "fittingAlgorithms/include/GBLInterface.hh: getResults"]}
{"id": "C94", "title": "A crossed surface is accepted exactly if the track is not parallel to the measurement plane", "statement": "For a curved track that crosses the surface within half a turn with finite energy loss, addMeasurement and addScatterer add one element at the crossing point with the parameters of the moved track and the new curvature if the track is not parallel to the plane of the measurement directions; otherwise they throw and add no element for the surface. Surfaces that are not hit are not added.", "quantifier": "all finite tracks, surfaces, positions, precisions and losses", "why_tests_cant": "The throwing case is a set of measure zero; acceptance for all others cannot be tested.", "anchors": ["core/src/trajectory.cc: addMeasurement, addScatterer", "core/src/trajectoryElement.cc: trajectoryElement", "util/src/utilities.cc: calculateLocalToMeasurementProjectionMatrix"]}
{"id": "C95", "title": "Residuals are distances along the measurement directions", "statement": "The residuals of a measurement are the components, along the measurement directions, of the vector from the crossing point of the track to the measured position, measured on the surface.", "quantifier": "all planes and cylinders, positions and tracks", "why_tests_cant": "For cylinders the failing case needs the measured position and the crossing point on different sides of the azimuth pi.", "anchors": ["core/src/trajectory.cc: addMeasurement"]}
{"id": "C96", "title": "The fitted azimuth is between -pi and pi", "statement": "The azimuth of every fitted track is in (-pi, pi].", "quantifier": "all trajectories with azimuths in this range and all fits", "why_tests_cant": "Needs a track close to the limit of the range.", "anchors": ["fittingAlgorithms/src/GBLInterface.cc: _fillResults"]}
{"id": "C97", "title": "moveHelixTo ends in double precision", "statement": "With every operation rounded to double precision (to nearest, ties in any way) the loops of moveHelixTo that bring angles into their range end for every finite azimuth, and afterwards the angle of the move and the new azimuth are between -pi and pi.", "quantifier": "all azimuths, all roundings to nearest, all values of the arcus tangens", "why_tests_cant": "The failing azimuths are far from any that a test would use, and a test cannot observe that a loop never ends.", "anchors": ["util/src/helixUtils.cc: moveHelixTo (while loops)"]}
{"id": "C98", "title": "A track with at least three hits is refitted", "statement": "The example program lcio_tracks refits every track that has at least three hits with finite positions: it makes a start helix through the first, the middle and the last hit, gives the trajectory to the fitter, and writes a track with the hits of the input, chi square and degrees of freedom of the fit, and the state of the first element.", "quantifier": "all tracks, surfaces, fitters and histories of the program", "why_tests_cant": "The program has no tests; the failing numbers of hits depend on the files given.", "anchors": ["examples/lcio_tracks/lcio_tracks.cpp: main", "util/src/helixUtils.cc: calculateStartHelix, moveHelixTo", "core/src/trajectory.cc: prepareForFitting"]}
{"id": "C99", "title": "Each hit on a crossed surface is used exactly once", "statement": "In lcio_tracks every hit (composite hits replaced by their raw hits) whose surface is crossed by the start helix becomes exactly one measurement of the trajectory; crossed surfaces with material and without hit become scatterers, others are left out; in the order of the crossings.", "quantifier": "all lists of hits and surfaces", "why_tests_cant": "Hits with equal numbers and surfaces whose 64 bit numbers agree in the lower 32 bits are rare in test events.", "anchors": ["examples/lcio_tracks/lcio_tracks.cpp: main (hitMap), getHitInfo", "core/src/trajectory.cc: getIntersectionsWithSurfaces, addMeasurement, addScatterer"]}
{"id": "C100", "title": "The state written by lcio_tracks is the fitted track", "statement": "If the start helix crosses no surface at or before its point of closest approach to the origin, the track state written by lcio_tracks is that of the fitted track: the start helix with the correction of the fit at its own reference point added, with the covariance matrix of the fit; and it is read back as this track if nothing is rounded.", "quantifier": "all tracks, surfaces, fields and fitters", "why_tests_cant": "The result of the fit is arbitrary; a test sees one fitter.", "anchors": ["examples/lcio_tracks/lcio_tracks.cpp: main", "core/src/trajectory.cc: prepareForFitting", "util/src/LCIOPersistency.cc: createLCIO, readLCIO"]}
{"id": "C101", "title": "The precision of a hit is the inverse square of its error", "statement": "The precisions that lcio_tracks gives to a measurement are the inverse squares of the errors of the hit along the two measurement directions, in the units of the library, and the second one is zero for strips.", "quantifier": "all hits", "why_tests_cant": "Wrong weights change the fit without making it fail.", "anchors": ["examples/lcio_tracks/lcio_tracks.cpp: getHitInfo"]}
{"id": "C102", "title": "The prefit of lcio_tracks uses at most 25 hits", "statement": "The hits used for the prefit are the first one and then every n-th one, in order, and at most 25 of them.", "quantifier": "all numbers of hits", "why_tests_cant": "The number used depends on the number of hits in a way that jumps at each multiple of 25.", "anchors": ["examples/lcio_tracks/lcio_tracks.cpp: main (prefit)"]}
{"id": "C103", "title": "Tracks are refitted independently of each other", "statement": "Each of the first 1000 events is written, with one output track for each input track, in the same order, and each output track is the same as if its input track were the only one given to the program.", "quantifier": "all events and all states of the fitter", "why_tests_cant": "The state is kept between tracks and events; a test would have to compare all orders.", "anchors": ["examples/lcio_tracks/lcio_tracks.cpp: main (event loop)", "fittingAlgorithms/src/GBLInterface.cc: fit", "core/src/trajectory.cc: fit"]}
{"id": "C104", "title": "Failed fits are not written", "statement": "A track whose fit fails, or that has too few hits, is written without track state.", "quantifier": "all tracks and fitters", "why_tests_cant": "Needs a fitter that fails.", "anchors": ["examples/lcio_tracks/lcio_tracks.cpp: main (fit, output)"]}
{"id": "C105", "title": "The covariance matrix of the start parameters has no influence on the fit", "statement": "Two sequences of calls that differ only in the covariance matrix of the start parameters have the same outcome call by call, and the fit returns the same value and the same results at every label, including exceptions.", "quantifier": "all start parameters, covariance matrices, histories of calls, surfaces, fields, fitters and labels", "why_tests_cant": "The covariance matrix is copied through all elements; a test compares only some matrices.", "anchors": ["core/src/trajectory.cc: addMeasurement, addScatterer, prepareForFitting", "fittingAlgorithms/src/GBLInterface.cc: fit, _fillResults"]}
{"id": "C106", "title": "The prefit of lcio_tracks ignores material and falls back to the start helix", "statement": "createPreFit fits the chosen hits that have a surface, without multiple scattering and energy loss; it returns the fitted parameters if the fit succeeds and the start helix at the origin otherwise.", "quantifier": "all hits, surfaces and fitters", "why_tests_cant": "The program has no tests, the prefit is switched off by default.", "anchors": ["examples/lcio_tracks/lcio_tracks.cpp: createPreFit"]}
{"id": "C107", "title": "material_effects uses each hit where its surface is crossed", "statement": "material_effects adds the crossed surfaces in order: the last hit with the number of the surface as measurement, or a scatterer if there is no hit and there is material; so each hit of the track is used and listed in the output as often as its surface is crossed.", "quantifier": "all tracks, hits, surfaces and sorting algorithms", "why_tests_cant": "The map of hits is filled in three ways, and needs hits with equal numbers, raw hits and surfaces with large numbers to be seen.", "anchors": ["examples/material_effects/material_effects.cpp: main (hitMap, intersections)", "core/src/trajectory.cc: getIntersectionsWithSurfaces, addMeasurement, addScatterer"]}
{"id": "C108", "title": "Precisions in material_effects", "statement": "The measurement of a hit constrains the directions with non-zero resolution, with the inverse squares of the resolutions as precisions, and no other direction.", "quantifier": "all hits, surfaces and states of the trajectory", "why_tests_cant": "A wrong weight changes the fit without making it fail.", "anchors": ["examples/material_effects/material_effects.cpp: main (precision)", "core/src/trajectory.cc: addMeasurement"]}
{"id": "C109", "title": "The state written by material_effects is the fitted track", "statement": "If the surfaces are crossed after the start, the written state is that of the fitted track: the track of the file, corrected by the fit at its reference point.", "quantifier": "all tracks, surfaces, fields and fitters", "why_tests_cant": "Tracks in test files have their reference point at the origin.", "anchors": ["examples/material_effects/material_effects.cpp: main (output)", "util/src/LCIOPersistency.cc: createLCIO, readLCIO"]}
{"id": "C110", "title": "material_effects writes exactly the events with a single track", "statement": "Exactly the events with a single track are written, in order, each as if it were the only event of the file.", "quantifier": "all files and states of the fitter", "why_tests_cant": "The map of hits and the results of the fitter survive from one event to the next.", "anchors": ["examples/material_effects/material_effects.cpp: main (event loop)", "fittingAlgorithms/src/GBLInterface.cc: fit"]}
{"id": "C111", "title": "The simplified propagator is motion with small angles", "statement": "The Jacobian of the simplified propagator carries corrections according to the linearised equation of motion for small angles in the field; steps compose, and a step back undoes a step.", "quantifier": "all path lengths, fields, directions and corrections", "why_tests_cant": "Compositions and inverses are statements about all pairs of steps; a wrong constant in one element looks like a different field.", "anchors": ["propagations/src/simplifiedPropagation.cc: getJacobian", "propagations/src/analyticalPropagation.cc: getJacobian"]}
{"id": "C112", "title": "The Newton iteration finds the crossing", "statement": "intersectWithSurfaceNewton is Newton's method with damping for the distance along the track: it steps from the best point so far, with the slope of the distance along the track, keeps a point only if it is closer, and ends at the first close point, or without success at the closest one; on a flat surface crossed by the track it finds the crossing.", "quantifier": "all surfaces with non-vanishing slope, tracks and starting points", "why_tests_cant": "The steps inside are not visible, and fail to converge only for special slopes.", "anchors": ["util/src/helixUtils.cc: intersectWithSurfaceNewton, calculateTangent"]}
{"id": "C113", "title": "check_materials adds up the radiation lengths of the crossed surfaces", "statement": "For each surface crossed by the track, in the order of the path length, check_materials and material_ntuples report the path through both layers of its material in units of their radiation lengths, and the sum over the surfaces crossed so far.", "quantifier": "all lists of surfaces, thicknesses, radiation lengths, normals and directions", "why_tests_cant": "Tests run on one detector, where all surfaces have a thickness.", "anchors": ["examples/material_effects/check_materials.cpp: main", "examples/material_effects/material_ntuples.cpp: main"]}
{"id": "C114", "title": "check_materials uses the normal at the crossing", "statement": "The angle between the track and a surface is taken with the normal at the point where the track starting at the origin crosses the surface, i.e. at the path length that is reported.", "quantifier": "all disks, planes and cylinders, curvatures and directions", "why_tests_cant": "For cylinders around the z axis both crossings are equally far away; the difference shows for other cylinders only.", "anchors": ["examples/material_effects/check_materials.cpp: main", "examples/material_effects/material_ntuples.cpp: main", "util/src/helixUtils.cc: intersectWithSurface"]}
{"id": "C115", "title": "The track of check_materials is almost a straight line in the given direction", "statement": "The track starts at the origin in the direction given by the angles; after a path s its direction has changed by at most omega s and its position is at most omega s^2/2 from the straight line.", "quantifier": "all polar and azimuthal angles, curvatures and path lengths", "why_tests_cant": "An error of the conversion of angles shows for special angles only; bounds hold for all path lengths.", "anchors": ["examples/material_effects/check_materials.cpp: main", "examples/material_effects/material_ntuples.cpp: main"]}
{"id": "C116", "title": "material_ntuples lists the sums over the materials up to the last crossing", "statement": "The entries for the detailed list of materials contain the sums of length over radiation length and over interaction length of the materials so far, at the distance passed along the line from the origin to the last crossing, and end at this crossing.", "quantifier": "all lists of materials and last crossings", "why_tests_cant": "The list comes from the detector description; tests see one list.", "anchors": ["examples/material_effects/material_ntuples.cpp: main"]}
{"id": "C117", "title": "Hits written by lcio_debug_tracks are on the track and on the surface", "statement": "For each hit of the track whose surface is crossed by the track within its boundary lcio_debug_tracks writes one hit, in the same order; it is on the track with the parameters written and on the surface, in mm, and it is the crossing next to the hit of the input.", "quantifier": "all track states, surfaces, hits and numberings", "why_tests_cant": "Which of several crossings is taken depends on the curvature and on where the state is; units cancel for tracks through the origin.", "anchors": ["examples/lcio_tracks/lcio_debug_tracks.cpp: main", "util/src/helixUtils.cc: intersectWithSurface"]}
{"id": "C118", "title": "lcio_debug_tracks writes exactly the events with a single track", "statement": "The events with exactly one track are written, in order and each with the hits of its own track; other events are not written; the program does not crash.", "quantifier": "all lists of events and tracks", "why_tests_cant": "Tests use files with one track per event that has all states.", "anchors": ["examples/lcio_tracks/lcio_debug_tracks.cpp: main"]}
{"id": "C119", "title": "A track state read from LCIO and written again is the same bit by bit", "statement": "With the arithmetic of double and float, rounding and overflow included, writing what was read from a track state gives the same float for every parameter, every coordinate of the reference point and every element of the covariance matrix.", "quantifier": "all numbers of type float, including infinities, NaN and the smallest numbers; all roundings to nearest", "why_tests_cant": "There are 2^32 numbers for each of 23 values; each passes through up to four rounded operations, and an error of one bit in one of them is not seen by comparisons with a tolerance.", "anchors": ["persistency/src/LCIOPersistency.cc: readLCIO", "persistency/src/LCIOPersistency.cc: createLCIO"]}
{"id": "C120", "title": "Vector3D in double precision: identities and unit vectors", "statement": "With rounding, the sum and the scalar product commute, the vector product changes sign when its arguments are exchanged and is zero for equal arguments, and unit() of a non-zero vector has length one and the right components up to 20 units of 2^-53.", "quantifier": "all vectors of doubles, all roundings to nearest", "why_tests_cant": "Bounds on the error hold for all numbers, tests compare some.", "anchors": ["core/include/Vector3D.hh: Vector3D"]}
{"id": "C121", "title": "A suite of unit tests reports the number of failed checks", "statement": "After run() the report of a suite prints and returns the number of failed checks of all its tests, and prints the number of successful ones, counting each check of the last run once, whatever was run before.", "quantifier": "all suites, tests, results of checks and earlier runs", "why_tests_cant": "The framework is what counts the failures of the tests; nothing tests the framework.", "anchors": ["test/unitTests/UnitTestSuite.cc: run", "test/unitTests/UnitTestSuite.cc: report", "test/unitTests/UnitTestSuite.cc: reset", "test/unitTests/UnitTest.cc: do_test", "test/unitTests/UnitTest.cc: do_fail"]}
{"id": "C122", "title": "Adding a suite adds all its tests", "statement": "addSuite appends the tests of the other suite, in their order and with counters set to zero, to this suite and changes nothing else; addTest of a null pointer throws.", "quantifier": "all suites, also empty ones and a suite added to itself, with and without assertions", "why_tests_cant": "addSuite is not used by the test program.", "anchors": ["test/unitTests/UnitTestSuite.cc: addSuite", "test/unitTests/UnitTestSuite.cc: addTest"]}
{"id": "C123", "title": "Deleting the tests of a suite", "statement": "free() deletes each test of the suite once, leaves other tests alone and can be called again; the suite can be used afterwards, and so can other suites.", "quantifier": "all suites and tests, with and without assertions", "why_tests_cant": "free is not used by the test program.", "anchors": ["test/unitTests/UnitTestSuite.cc: free", "test/unitTests/UnitTestSuite.cc: run", "test/unitTests/UnitTestSuite.cc: getNumFailed"]}
{"id": "C124", "title": "The test program tells the system about failures", "statement": "The program aidaTT-unitTests prints at the end the numbers of checks that failed and succeeded, and returns a value different from 0 if a check failed.", "quantifier": "all lists of tests and results of checks", "why_tests_cant": "A test program that always returns 0 is seen as successful by ctest, so no test can show it.", "anchors": ["test/aidaTT-unitTests.cpp: main", "test/unitTests/UnitTestSuite.cc: report"]}
{"id": "C125", "title": "Comparison of numbers in the unit tests", "statement": "floatCompare(x, y) is true if and only if x and y differ by less than 1e-9; roughFloatCompare is true whenever floatCompare is.", "quantifier": "all numbers of type double, infinite and undefined ones included, and all ways to round to the nearest", "why_tests_cant": "The comparison decides which tests fail; it is not tested itself.", "anchors": ["test/unitTests/UnitTest.cc: floatCompare", "test/unitTests/UnitTest.cc: roughFloatCompare"]}
{"id": "C126", "title": "The unit test of matrices succeeds", "statement": "All checks of the unit test matrixOps succeed whenever it is run.", "quantifier": "all runs of the test, and all ways to round to the nearest", "why_tests_cant": "The test is run once and its failures do not make the program fail (see the property about the value returned).", "anchors": ["test/unitTests/matrixOps.cc: _test", "core/include/fiveByFiveMatrix.hh: Unit"]}
{"id": "C127", "title": "A track through its hits is not changed by the fit", "statement": "If all hits are on the track (their residuals are zero), the result of a least squares fit for each element has the parameters of the element and chi2 is 0 if the fit succeeds; lcio_tracks then writes the start helix. Where the field vanishes the fitted curvature is not a number.", "quantifier": "all trajectories with finite parameters, precisions and Jacobians, all surfaces, scatterers and fields that do not vanish at the element, all least squares fitters, all calls before and between", "why_tests_cant": "Tests would have to place hits exactly on a track; they cannot do this for all tracks and geometries.", "anchors": ["core/src/trajectory.cc: addMeasurement", "core/src/trajectory.cc: addScatterer", "core/src/trajectory.cc: prepareForFitting", "fittingAlgorithms/src/GBLInterface.cc: fit", "fittingAlgorithms/src/GBLInterface.cc: getResults", "examples/lcio_tracks/lcio_tracks.cpp: main"]}
{"id": "C128", "title": "A fit does not increase chi2", "statement": "If the fit succeeds, chi2 is not negative and not larger than the sum over the measurements of the squared residuals times the precisions with respect to the track before the fit.", "quantifier": "all trajectories with finite parameters, precisions and Jacobians, precisions that are not negative, all least squares fitters", "why_tests_cant": "A test shows it for the tracks it fits; a swapped residual or precision can still give plausible numbers.", "anchors": ["core/src/trajectory.cc: addMeasurement", "core/src/trajectory.cc: prepareForFitting", "fittingAlgorithms/src/GBLInterface.cc: fit"]}
{"id": "C129", "title": "lcio_read_example prints for each hit the surface with its number", "statement": "The program lcio_read_example ends normally and prints, for each hit of the collection in each event, in order, the surface with the number of the hit.", "quantifier": "all detector descriptions, event files, arguments and numbers of hits", "why_tests_cant": "The program has no test; a hit without surface or a number with the highest bit set needs special input files.", "anchors": ["examples/lcio_read_example/lcio_read_example.cpp: main"]}
{"id": "C130", "title": "intersection_calculator lists the crossed surfaces of the detector in the file", "statement": "The program intersection_calculator prints the surfaces of the detector described in the file which the track crosses in its first half turn, in order of path length.", "quantifier": "all files, geometries, surfaces and bounds", "why_tests_cant": "The program has no test; its output is only looked at.", "anchors": ["examples/intersection_calculator/intersection_calculator.cpp: main", "core/src/trajectory.cc: getIntersectionsWithSurfaces"]}
{"id": "C131", "title": "calculateXfromS, calculateYfromS and calculateZfromS are accurate in double precision", "statement": "With rounded arithmetic the coordinates computed for a path length are finite and differ from those of the track by at most a few units of 2^-53 of the reference point, the impact parameters and the path length, also for nearly straight tracks.", "quantifier": "all parameters, reference points and path lengths up to 2^200 with a curvature of at least 2^-500, all roundings to nearest, all sin and cos with errors below one unit in the last place", "why_tests_cant": "Tests compare a few points with constants and a tolerance; they cannot bound the error for all tracks.", "anchors": ["util/src/helixUtils.cc: calculateXfromS", "util/src/helixUtils.cc: calculateYfromS", "util/src/helixUtils.cc: calculateZfromS", "util/include/helixUtils.hh: calculateX0"]}
{"id": "C132", "title": "pointAt is accurate in double precision", "statement": "With rounded arithmetic the point computed by pointAt differs from that of the track by at most a few units of 2^-53 of the reference point, the impact parameters and the path length.", "quantifier": "all parameters, reference points and path lengths up to 2^200 with a curvature of at least 2^-500, all roundings to nearest, all sin and cos with errors below one unit in the last place", "why_tests_cant": "Tests use tracks with large curvature; the loss of digits appears for nearly straight tracks only.", "anchors": ["util/src/helixUtils.cc: pointAt"]}
{"id": "C133", "title": "Crossings with disks are accurate in double precision", "statement": "With rounded arithmetic the track is at the z coordinate of the disk at the path length computed by intersectWithZDisk, and the point returned is that point of the track, within a few units of 2^-53 of the coordinates; it is reported if the mode and the bounds allow it.", "quantifier": "all disks, all parameters and reference points up to 2^200 with a curvature of at least 2^-500 and a slope of at least 2^-90, all modes and bounds, all roundings to nearest, all sin and cos with errors below one unit in the last place", "why_tests_cant": "Tests compare a few crossings with constants and a tolerance.", "anchors": ["util/src/helixUtils.cc: intersectWithZDisk"]}
{"id": "C134", "title": "The program of unit tests reports no fail", "statement": "aidaTT-unitTests runs to its end and reports that all checks of all nine tests succeed; running the tests again gives the same result.", "quantifier": "all roundings to nearest of double and float, with and without assertions", "why_tests_cant": "The tests cannot tell whether they are right; their outcome on a platform is only known by running them there.", "anchors": ["test/aidaTT-unitTests.cpp: main", "test/aidaTT-unitTests.cpp: addSimpleTests", "test/unitTests/tpsimple.cc: _test", "test/unitTests/constantbfield.cc: _test", "test/unitTests/matrixOps.cc: _test", "test/unitTests/spacevectors.cc: _test", "test/unitTests/intersectionTest.cc: _test", "test/unitTests/resultTest.cc: _test", "test/unitTests/helixCalculations.cc: _test", "test/unitTests/initialTrackTest.cc: _test", "test/unitTests/finalTrackTest.cc: _test"]}
{"id": "C135", "title": "The unit tests do not fail because of rounding errors", "statement": "All checks of the tests other than matrixOps still succeed if the numbers they compare differ from the exact values by up to 1e-12, as they do on different platforms.", "quantifier": "all roundings to nearest of double and float, all deviations of the numbers compared up to 1e-12, except for one check that compares an expression with itself", "why_tests_cant": "Running the tests on one platform shows one set of rounding errors; the comparison in float is sensitive to them near the middle between two floats.", "anchors": ["test/unitTests/UnitTest.cc: floatCompare", "test/unitTests/helixCalculations.cc: _test", "test/unitTests/intersectionTest.cc: _test", "test/unitTests/spacevectors.cc: _test", "test/unitTests/finalTrackTest.cc: _test"]}
{"id": "C136", "title": "Path lengths of points of a track in double precision", "statement": "In double precision calculateSfromXY gives the path length of a point near the track, less than 1/5 of a turn away, up to a small multiple of the distance of the point from the track and of 2^-53 of the lengths involved.", "quantifier": "all roundings to nearest, all sin, cos and atan2 with errors below one unit in the last place, all parameters without overflow, all points near the track", "why_tests_cant": "A test has tracks of ordinary curvature; the failure needs a nearly straight track, and how nearly follows from the rounding of atan2 of sine and cosine.", "anchors": ["util/src/helixUtils.cc: calculateSfromXY"]}
{"id": "C137", "title": "Moved tracks in double precision", "statement": "In double precision moveHelixTo gives parameters of the same track: the centre of the circle, the azimuth and the height at the new reference point are right up to a small multiple of 2^-53 of the lengths involved.", "quantifier": "all roundings to nearest, all sin, cos and atan2 with errors below one unit in the last place, all parameters and reference points without overflow", "why_tests_cant": "The loss of half of the digits is next to two azimuths only; a test with tolerances of 10^-9 at other azimuths passes, and no test covers all roundings.", "anchors": ["util/src/helixUtils.cc: moveHelixTo"]}
{"id": "C138", "title": "The start helix made from hits of a track is that track", "statement": "If the three points given to calculateStartHelix are on a helix, in the direction of motion (or against it, with backward) and within one turn, the result is this helix with the first point as reference point. If the first, middle and last hit are on a track, the start parameters in lcio_tracks are those of the track; if in addition no hit has a residual, the track written is this track.", "quantifier": "all helices with non-zero curvature, all points in order within one turn, both directions; all lists of hits", "why_tests_cant": "The unit tests compare one helix with fixed numbers; a wrong sign or a wrong branch of the angle shows up only for some orders and lengths of the arcs.", "anchors": ["util/src/helixUtils.cc: calculateStartHelix", "util/src/helixUtils.cc: moveHelixTo", "examples/lcio_tracks/lcio_tracks.cpp: main"]}
{"id": "C139", "title": "Crossings of circles and lines in double precision", "statement": "In double precision intersectCircleStraightLine finds two points next to the crossings whenever the line crosses the circle, and none if it does not meet it.", "quantifier": "all circles and lines with coordinates, radii and normals up to 2^100; every rounding to nearest", "why_tests_cant": "The tests use a few circles with simple numbers; the loss of precision depends on the distance of the circle from the origin and on how close the line is to a tangent.", "anchors": ["util/src/intersections.cc: intersectCircleStraightLine", "util/include/intersections.hh: straightLine::move"]}
{"id": "C140", "title": "Crossings of two circles in double precision", "statement": "In double precision intersectCircleCircle gives two points next to the two crossings of circles that cross.", "quantifier": "all pairs of circles with coordinates and radii up to 2^96; every rounding to nearest", "why_tests_cant": "The tests use circles close to the origin with simple numbers; the loss of precision depends on the ratio of the distances from the origin to the radii and to the distance of the centres.", "anchors": ["util/src/intersections.cc: intersectCircleCircle"]}
{"id": "C141", "title": "Crossings with cylinders in double precision", "statement": "In double precision intersectWithZCylinder reports points next to the track and next to the cylinder, with path length and z from calculateSfromXY and calculateZfromS; next to every crossing lies one of the two computed points; tracks that stay away from the cylinder give no point, tracks that cross it clearly do; the choice between the two points follows the mode; other surfaces are rejected.", "quantifier": "all tracks and cylinders with coordinates up to 2^100, radii of the cylinder above 2^-40 of the coordinates, axis not within 2^-40 of the centre of the track's circle; every rounding to nearest, every sin, cos, atan2 and asin with errors below one unit in the last place; all modes", "why_tests_cant": "The tests cross a few cylinders around the z axis; an argument of asin next to 1, tracks that touch the cylinder and cylinders away from the origin are not covered.", "anchors": ["util/src/helixUtils.cc: intersectWithZCylinder"]}
{"id": "C142", "title": "Propagation Jacobian in double precision", "statement": "In double precision getJacobian gives every entry of the Jacobian of the exact formulas with a small relative error.", "quantifier": "all fields, momenta, steps and pairs of directions with at most 4 rad of turn, all matrices passed in; every rounding to nearest, every sin and cos with errors below one unit in the last place", "why_tests_cant": "The test calls the function for one step with a tolerance; cancellation for small turning angles, steep directions and extreme momenta needs an analysis of all operations.", "anchors": ["propagations/src/analyticalPropagation.cc: analyticalPropagation::getJacobian"]}
{"id": "C143", "title": "Crossings with planes parallel to z in double precision", "statement": "In double precision a crossing reported by intersectWithZPlane is next to the plane and next to the track, crossings are reported if the track is on both sides of the plane and not if it stays away from it, and both crossings are among the computed points.", "quantifier": "all tracks and planes with lengths, curvatures and radii between 2^-90 and 2^90, all modes, with and without check of the bounds; every rounding to nearest, every sin and cos with errors below one unit in the last place", "why_tests_cant": "A test compares a few crossings with a tolerance; the loss of accuracy for stiff tracks and grazing incidence depends on cancellations in all operations and on the size of all inputs together.", "anchors": ["util/src/helixUtils.cc: intersectWithZPlane", "util/src/helixUtils.cc: calculateXCenter", "util/src/helixUtils.cc: calculateYCenter", "util/src/helixUtils.cc: calculateRadius", "util/src/intersections.cc: intersectCircleStraightLine"]}
{"id": "C144", "title": "The Newton iteration in double precision", "statement": "In double precision intersectWithSurfaceNewton ends after at most 101 evaluations of the distance, a reported crossing is a point where the track is closer to the surface than 1e-3 mm up to rounding errors, and a crossing next to the start is found.", "quantifier": "all surfaces (any distance and normal functions), all tracks and starts, all modes, with and without check of the bounds; every rounding to nearest, every sin, cos and atan with errors below one unit in the last place", "why_tests_cant": "A test runs a few iterations; whether rounding errors let the iteration stall just above the threshold depends on the size of all inputs together.", "anchors": ["util/src/helixUtils.cc: intersectWithSurfaceNewton", "util/src/helixUtils.cc: intersectWithZCone", "util/src/helixUtils.cc: intersectWithSurface", "util/src/helixUtils.cc: calculateTangent"]}
{"id": "C145", "title": "Multiple scattering in double precision", "statement": "computeQMS in double precision differs from Highland's formula by at most 50 + 30/cos units of 2^-53 of its largest term, where cos is the cosine of the angle between momentum and normal; between 1e-6 and 1e6 radiation lengths it is positive and relatively exact to one part in a million.", "quantifier": "all surfaces, thicknesses (also zero), radiation lengths, momenta and masses (also zero) in the range 2^-100 to 2^100 and cosines of at least 2^-20; every rounding to nearest, every log with errors below one unit in the last place", "why_tests_cant": "A test compares a few numbers with a tolerance; the factor 1 + 0.038 log x cancels and the division by the cosine amplifies, so the worst case has to be derived.", "anchors": ["util/src/materialUtils.cc: computeQMS"]}
{"id": "C146", "title": "Energy loss in double precision", "statement": "computeBetheBloch in double precision differs from the value of the same formula without rounding by at most 800 units of 2^-53 of its largest term, also where the three cases of the density correction meet; computeEnergyLoss gives the sum over both layers up to 850 + 280/cos units, and energy and velocity up to 16 and 23 units.", "quantifier": "all materials with Z between 2^-7 and 2^7, A between 2^-10 and 2^10, densities between 2^-100 and 2^100, all momenta and masses between 2^-50 and 2^50, all thicknesses (also zero) and normals, cosines of at least 2^-20; every rounding to nearest, every log, log10 and pow with errors below one unit in the last place", "why_tests_cant": "Rounding may select another case of the density correction than the exact value does; tests do not hit the momenta at which this happens.", "anchors": ["util/src/materialUtils.cc: computeBetheBloch", "util/src/materialUtils.cc: computeEnergyLoss"]}
{"id": "C147", "title": "Direction and momentum at a surface in double precision", "statement": "calculatePhifromXY gives, up to full turns, the direction of the track at a point within a distance eps of the track, with an error of at most 4 eps times the curvature plus a few units of 2^-53; the momentum used for material effects is the transverse momentum from curvature and field times the velocity of the track there, its size is independent of the error of the azimuth; the scattering angle for a helix is Highland's formula at this momentum; without a crossing both functions return 0 and leave energy and velocity untouched.", "quantifier": "all tracks with curvature between 2^-500 and 2^200, parameters up to 2^200, all path lengths, all points near the track, all fields between 2^-100 and 2^100, all surfaces, materials and normals; every rounding to nearest, all library functions with errors below one unit in the last place", "why_tests_cant": "Tests look at a few helices; the amplification of the distance from the track by the curvature and of the direction by the angle of incidence needs a derivation.", "anchors": ["util/src/helixUtils.cc: calculatePhifromXY", "util/src/materialUtils.cc: computeQMS for a helix", "util/src/materialUtils.cc: computeEnergyLoss for track parameters"]}
{"id": "C148", "title": "The list of crossed surfaces in double precision", "statement": "getIntersectionsWithSurfaces returns the surfaces that the track crosses inside their bounds within half a turn ahead, in the order in which it crosses them, and the path lengths in the list are those of the crossings within an explicit tolerance.", "quantifier": "all lists of surfaces, all tracks, every rounding to nearest, all library functions with errors below one unit in the last place, every sorting function that meets the standard", "why_tests_cant": "Tests look at a few detectors; the rounding errors of the crossing points, of their path lengths and of the limit for the path length add up differently for each track.", "anchors": ["core/src/trajectory.cc: getIntersectionsWithSurfaces", "util/src/helixUtils.cc: intersectWithSurface"]}
{"id": "C149", "title": "Projection to the measurement directions in double precision", "statement": "calculateLocalToMeasurementProjectionMatrix, with the axes of calculateLocalCurvilinearSystem, returns the inverse of the matrix of the offsets along the measurement directions within an explicit tolerance, and rejects directions for which there is no inverse.", "quantifier": "all tracks, all measurement directions, every rounding to nearest, all library functions with errors below one unit in the last place", "why_tests_cant": "The errors depend on the angles between the track and the directions; a determinant that is exactly 0 is not 0 after rounding for most directions.", "anchors": ["util/src/utilities.cc: calculateLocalCurvilinearSystem, calculateLocalToMeasurementProjectionMatrix"]}
{"id": "C150", "title": "The transformation to track parameters in double precision", "statement": "curvilinearToL3Jacobian, perigeeToL3Jacobian and L3ToPerigeeJacobian in double precision return the exact matrices within explicit tolerances, whatever the order of the sums in the product of the matrices.", "quantifier": "all tracks, all fields, every rounding to nearest, all library functions with errors below one unit in the last place, every order of summation", "why_tests_cant": "The slope goes through atan and tan, which lose accuracy for steep tracks; tests use the slopes of a few tracks.", "anchors": ["util/src/utilities.cc: curvilinearToPerigeeJacobian, perigeeToL3Jacobian, L3ToPerigeeJacobian, curvilinearToL3Jacobian"]}
{"id": "C151", "title": "Charge over momentum in double precision", "statement": "calculateQoverP returns cos(lambda) omega / (B k) with a small relative error, in particular with the right sign, and 0 without field.", "quantifier": "all tracks, all fields, every rounding to nearest, all library functions with errors below one unit in the last place", "why_tests_cant": "The cosine of the slope angle loses accuracy for steep tracks; a bound over all tracks needs a proof.", "anchors": ["util/src/utilities.cc: calculateQoverP"]}
{"id": "C152", "title": "Momentum along a track in double precision", "statement": "momentumAt and momentumAtPCA return, component by component, the transverse momentum |1/omega| B k times the velocity of the track at the path length, with errors of at most |phi0| + 2 |omega s| + 13 units of 2^-53 of the transverse momentum (9 |tan lambda| + 1 units along z).", "quantifier": "all tracks with slopes, azimuths and turning angles up to 2^30 and curvatures and fields between 2^-100 and 2^100, every rounding to nearest, all library functions with errors below one unit in the last place", "why_tests_cant": "The error grows with the number of turns; tests use a few path lengths.", "anchors": ["util/src/helixUtils.cc: momentumAt, momentumAtPCA"]}
{"id": "C153", "title": "The start helix in double precision", "statement": "calculateStartHelix in double precision returns the helix through the three points up to rounding: relative error 70 q 2^-53 of the curvature, 2^17 q 2^-53 for the slope, (250 P + 350 q + 2^16) 2^-53 for the azimuth up to full turns, where 1/q bounds the sine of the angle at the first point and P the coordinates over the distances. For three points of a track these are the parameters of this track.", "quantifier": "all triples of points with transverse distances between L/16 and L for some L between 2^-100 and 2^100, with q and P up to 2^20, both directions, every rounding to nearest, every atan2 with errors below one unit in the last place", "why_tests_cant": "Nearly straight tracks lose accuracy in proportion to q; without the condition on the distances the curvature can be 0 for points that are not on a line (C153_far).", "anchors": ["util/src/helixUtils.cc: calculateStartHelix"]}
{"id": "C154", "title": "Covariance matrix of a moved track in double precision", "statement": "moveHelixTo with covariance matrix replaces C by F C F^T, F being the matrix of C17 for the returned distance and angle, entry by entry within (21 K + 3000) 2^-53 of the sum of the magnitudes of the terms, K being the ratio of the radius and the distance of the new reference point from the axis. Symmetric matrices stay symmetric. Without the flag the matrix is unchanged; the parameters do not depend on the flag.", "quantifier": "all tracks and reference points with sizes up to 2^50, azimuths up to 4, curvatures between 2^-50 and 2^50, K up to 2^20, covariance matrices with entries up to 2^200, every rounding to nearest, every order of the sums in the products of matrices, all library functions with errors below one unit in the last place", "why_tests_cant": "The errors depend on azimuth and distance from the axis, and the order of the sums on compiler flags; the asymmetry needs entries with 53 significant bits.", "anchors": ["util/src/helixUtils.cc: moveHelixTo"]}
{"id": "C155", "title": "geometry_test prints the numbers of all surfaces", "statement": "With the name of a file geometry_test prints the number of each surface of the detector in this file, once per surface and in the order of the list, and ends with status 0. Without argument it prints nothing and ends with status 1; if the file cannot be read, it ends with the exception.", "quantifier": "all detectors, files and arguments", "why_tests_cant": "A test prints one detector; lists with equal numbers, empty detectors and unreadable files are further cases.", "anchors": ["examples/geometry_test/geometry_test.cpp: main"]}
{"id": "C156", "title": "Fit results in double precision", "statement": "The parameters of a fit result are those of the element plus J c, and its covariance matrix is J C J^T, c and C being the corrections and their covariance matrix found by General Broken Lines and J the exact matrix of C41: within 2^-37 (parameters, plus half a unit in the last place) and 2^-34 (covariance matrix) of the sums of the magnitudes in the units of C150. If General Broken Lines reports an error, the parameters are exactly those of the element. Chi2, degrees of freedom, lost weight and reference point are copied.", "quantifier": "all elements with slopes up to 100, curvatures and fields between 2^-70 and 2^70, corrections and symmetric covariance matrices with entries up to 2^200, every rounding to nearest, every order of the sums in the products of Eigen and ROOT, all library functions with errors below one unit in the last place", "why_tests_cant": "The errors depend on the order of the sums in two libraries and on the scales of five different units.", "anchors": ["fittingAlgorithms/src/GBLInterface.cc: _fillResults"]}
{"id": "C157", "title": "Weights of scatterers in double precision", "statement": "The matrix handed to General Broken Lines for a scatterer of width q is diagonal with the weight 1/q^2, in double precision with a relative error of at most 2^-51; with the width of Highland's formula computed in double precision it is the inverse square of that formula up to four parts in a million.", "quantifier": "all widths q, every rounding to nearest, all logarithms with errors below one unit in the last place; for Highland's formula between 1e-6 and 1e6 radiation lengths", "why_tests_cant": "Squares underflow only for widths that no test uses, and the product of infinity and zero depends on the order of the factors.", "anchors": ["fittingAlgorithms/src/GBLInterface.cc: fit", "core/src/trajectory.cc: addScatterer", "core/src/trajectory.cc: addMeasurement"]}
{"id": "C158", "title": "Jacobians of a trajectory in double precision", "statement": "prepareForFitting sorts the elements as with exact arithmetic, leaves a matrix of zeros in the first one (Unit() has no effect, C01), and stores in each other element a Jacobian whose entries are those of the exact calculation from the same parameters (path, charge over momentum, directions at both ends) up to 2^-31 in the units of row and column; the entry of the energy loss is 1 for elements without material, and the rounded sum of 1 and 2 dE / (beta^2 E) with a relative error of the second term of at most 2^-43 for the computed dE otherwise.", "quantifier": "all trajectories with slopes up to 100, turns up to 4 rad per step, curvatures, fields and momenta between 2^-100 and 2^100, every rounding to nearest, all library functions with errors below one unit in the last place", "why_tests_cant": "Errors of the directions, of the path and of the momentum enter all 21 entries at once; a test sees a few tracks and cannot separate them from the physics.", "anchors": ["core/src/trajectory.cc: prepareForFitting", "core/src/trajectory.cc: tangentAt", "propagations/src/analyticalPropagation.cc: getJacobian"]}
{"id": "C159", "title": "New scatterers and measurements in double precision", "statement": "If the code finds a crossing point within eps of the track at path length t, addScatterer and addMeasurement append one element: its path length is that of the last element plus t within eps and one rounding, its parameters describe the track at t with the reference point at the crossing, its curvature is that after the energy loss computed for the momentum of the track there (relative error 2^-44), its residuals are measured minus calculated local coordinates within one rounding, its weight of the scattering is the square of Highland's angle within 2 10^-6 plus the error of the momentum over the cosine, its projection is the inverse of that of the directions of the surface, and flag and identifier are the given ones. Without crossing nothing is added apart from the start element of an empty trajectory.", "quantifier": "all trajectories, surfaces, crossings less than half a turn away, curvatures between 2^-100 and 2^100, fields and masses in a wide range, losses below half of the energy, every rounding to nearest, all library functions with errors below one unit in the last place", "why_tests_cant": "The functions chain seven calculations whose errors add up; swapped positions for loss and scattering or a residual with the wrong sign change a fit by less than its resolution.", "anchors": ["core/src/trajectory.cc: addMeasurement", "core/src/trajectory.cc: addScatterer", "core/src/trajectory.cc: addElement", "core/src/trajectoryElement.cc: trajectoryElement"]}
{"id": "C160", "title": "The simplified propagator in double precision", "statement": "In double precision the simplified propagator sets the same four entries as with exact arithmetic, with relative errors of at most 2, 14, 10 and 0 units of 2^-53, and leaves all other entries of the matrix passed in as they are; charge over momentum and energy loss have no influence.", "quantifier": "all directions with z components up to 2, all path lengths and field components that are zero or between 2^-100 and 2^100 in size, all matrices passed in, every rounding to nearest", "why_tests_cant": "Relative errors for all inputs, including zeros, cannot be sampled.", "anchors": ["propagations/src/simplifiedPropagation.cc: getJacobian"]}
{"id": "C161", "title": "The start helix of lcio_tracks in double precision", "statement": "The start helix that lcio_tracks computes from the first, middle and last hit in double precision has the origin as reference point, and its curvature, slope, azimuth and point of closest approach are those of the track through the three hits, within explicit tolerances; the covariance matrix is diagonal with the numbers next to 0.01, 100, 100, 100000 and 100000.", "quantifier": "all lists of hits whose three hits have transverse distances between L/16 and L for some L between 2^-100 and 2^100, sine of the angle at the first hit of at least 2^-20 and coordinates up to 2^20 L, every rounding to nearest, all library functions with errors below one unit in the last place", "why_tests_cant": "The composition of the start helix and its move to the origin has errors that depend on all coordinates; tests sample few of them.", "anchors": ["examples/lcio_tracks/lcio_tracks.cpp: main", "util/src/helixUtils.cc: calculateStartHelix", "util/src/helixUtils.cc: moveHelixTo"]}
{"id": "C162", "title": "Crossings of two straight lines in double precision", "statement": "intersectStraightLineStraightLine in double precision reports the common point of two lines that are not parallel, within an explicit tolerance, and no point for parallel lines.", "quantifier": "all pairs of lines with normal vectors and distances from the origin between 2^-100 and 2^100 in size, every rounding to nearest", "why_tests_cant": "The quotient of two differences of rounded products loses all digits for almost parallel lines; tests use lines that cross at large angles.", "anchors": ["util/src/intersections.cc: intersectStraightLineStraightLine"]}
{"id": "C163", "title": "Material scan of check_materials in double precision", "statement": "check_materials in double precision lists the crossed surfaces in the order of the path, and the total of each row is the sum over the surfaces crossed so far of the path through their layers in units of the radiation lengths, within an explicit tolerance.", "quantifier": "all angles up to 720 degrees, all lists of surfaces with layers between 2^-100 and 2^100 in size and with a cosine of at least 2^-19 to the direction, every rounding to nearest and every accurate sin, cos and tan", "why_tests_cant": "The error depends on the angle to the surface and on the number of crossings; the printed output of single runs does not bound it.", "anchors": ["examples/material_effects/check_materials.cpp: main"]}
{"id": "C164", "title": "Detailed list of materials of material_ntuples in double precision", "statement": "material_ntuples in double precision writes for each material on the line from the origin to the last crossing the sums of length over radiation length and over interaction length so far, and the point at the summed length on that line, within explicit tolerances.", "quantifier": "all lists of up to 2^20 materials with lengths between 2^-100 and 2^100, all end points at a distance between 2^-100 and 2^100, every rounding to nearest", "why_tests_cant": "The rounding errors of three running sums and of a normalised direction accumulate over the list; a plot of the n-tuple does not show them.", "anchors": ["examples/material_effects/material_ntuples.cpp: main"]}
{"id": "C165", "title": "Precisions of hits in double precision", "statement": "For a hit with two errors in mm the programs lcio_tracks and material_effects give the trajectory the inverse squares of these errors in cm, and for a hit with a covariance matrix of single precision the inverses of the sum of the variances of x and y and of the variance of z; the position is that of the hit in cm; all within explicit tolerances.", "quantifier": "all hits with errors or variances between 2^-100 and 2^100 and with positions that are zero or in this range, every rounding to nearest of double and of single precision", "why_tests_cant": "The precisions go through a square root in single precision and back; the relative error of 4 units of single precision is not seen in a residual plot.", "anchors": ["examples/lcio_tracks/lcio_tracks.cpp: getHitInfo", "examples/material_effects/material_effects.cpp: main"]}
{"id": "C166", "title": "The program lcio_tracks in double precision", "statement": "With all numbers rounded to double precision lcio_tracks gives the fitter one point for each element of the trajectory: the start helix and, in the order of their computed path lengths, the crossed surfaces with the last hit of their number or with material. Each track with at least three hits gives an output track with the hits of the input and the state of the first element, within the tolerances of the conversion of the fit result; the output does not depend on the tracks before, and the first 1000 events are written in order.", "quantifier": "all files, tracks, surfaces, fields, fitters and histories of the program, every rounding to nearest and every mathematical library", "why_tests_cant": "A statement about all files and about all roundings; a run of the program shows the result for one library.", "anchors": ["examples/lcio_tracks/lcio_tracks.cpp: main", "core/src/trajectory.cc: getIntersectionsWithSurfaces, addMeasurement, addScatterer, prepareForFitting", "fittingAlgorithms/src/GBLInterface.cc: fit, getResults, _fillResults"]}
{"id": "C167", "title": "Positions and directions along a trajectory in double precision", "statement": "trajectoryElementAt takes the last element that does not start behind the path length; pointAt and tangentAt are the point and the direction of the track of this element at the remaining path length, within explicit tolerances; addElement appends one element at the path length of the given point, so that pointAt there is this point.", "quantifier": "all trajectories with finite, ascending path lengths, helices with curvatures between 2^-500 and 2^200, path lengths up to 2^199, every rounding to nearest, all library functions with errors below one unit in the last place", "why_tests_cant": "The remaining path length is rounded before it is used, which moves the point along the track; tests with the element at path length zero do not see it.", "anchors": ["core/src/trajectory.cc: trajectoryElementAt, pointAt, tangentAt, addElement"]}
{"id": "C168", "title": "The program material_effects in double precision", "statement": "For every event with exactly one track the program adds, in the order of the computed path lengths, the last hit with the number of a crossed surface as measurement, or a scatterer if there is none and the surface has material; the fit gets one point per element; the output track has the used hits, the numbers of the fit and the parameters of the track of the file plus the correction of the fit, within explicit tolerances. The output does not depend on earlier events.", "quantifier": "all files with any number of events, tracks and hits, all lists of surfaces, every rounding to nearest of double and float, all library functions with errors below one unit in the last place, all sorting functions, any result of the fit", "why_tests_cant": "The map of hits and the fitter are shared between the events of a file; a test with one event and well separated surfaces shows neither stale state nor the change of order by rounding.", "anchors": ["examples/material_effects/material_effects.cpp: main", "core/src/trajectory.cc: addMeasurement, addScatterer, prepareForFitting", "fittingAlgorithms/src/GBLInterface.cc: fit, getResults", "persistency/src/LCIOPersistency.cc: readLCIO, createLCIO"]}
{"id": "C169", "title": "The program lcio_debug_tracks in double precision", "statement": "Of the events of a file exactly those with a single track are written, in order, each with the state of the track and, in mm, the crossings of the track with the last surface with the number of each of its hits, within the bounds of the surface. Each new hit is next to the track with the parameters of the file and next to its surface, within explicit tolerances: on disks for all states of type float with curvature and a slope of at least 2^-90, on cylinders and planes within the range of the intersection functions.", "quantifier": "all files with any number of events, tracks and hits, all lists of surfaces, all states of type float, every rounding to nearest of double, all library functions with errors below one unit in the last place", "why_tests_cant": "The parameters are read in mm and used in cm, and 0.1 is not a double; a test sees one state, in which a wrong unit of one vanishing parameter or a tolerance that grows with the path length does not show.", "anchors": ["examples/lcio_tracks/lcio_debug_tracks.cpp: main", "util/src/helixUtils.cc: intersectWithSurface"]}
{"id": "C170", "title": "Cylindrical and spherical coordinates of Vector3D in double precision", "statement": "A vector made from cylindrical or spherical coordinates reports these coordinates, and a vector made from the coordinates of another one has the components of that one, within explicit multiples of 2^-53. The errors of the azimuth and the polar angle are relative to the angle itself, and the azimuth does not jump at a half turn; squared lengths are accurate and the angles of the zero vector are zero.", "quantifier": "all radii between 2^-400 and 2^400 (spherical coordinates: lengths and polar angles from 2^-100), all azimuths in the range of atan2, all vectors in this range, every rounding to nearest of double, all library functions with errors below one unit in the last place", "why_tests_cant": "Near a half turn the sine is a difference of almost equal numbers and atan2 has a cut; a test with a few angles does not meet the angles at which the rounding of the two components could change the sign of the azimuth.", "anchors": ["core/include/Vector3D.hh: phi", "core/include/Vector3D.hh: rho", "core/include/Vector3D.hh: trans2", "core/include/Vector3D.hh: r", "core/include/Vector3D.hh: theta", "core/include/Vector3D.hh: Vector3D (Cylindrical)", "core/include/Vector3D.hh: Vector3D (Spherical)"]}
{"id": "C171", "title": "The program of unit tests in double precision", "statement": "All tests of aidaTT-unitTests can be made and all their checks succeed in every run when each operation and each library function rounds; the program prints no fails and returns a value different from 0 exactly if there are fails.", "quantifier": "every rounding to nearest of double and of float, all libraries with errors of sin, cos, atan2 and atan below one unit in the last place (sin 0 = 0 and atan2(0, x) = 0 for x > 0), every order of the sums in the products of matrices, compiled with and without assertions", "why_tests_cant": "A run of the program shows the result with one compiler, one library and one rounding. Whether a check that compares results after a conversion to float depends on the last bit of a double is not seen from a single run.", "anchors": ["test/aidaTT-unitTests.cpp: main", "test/unitTests/tpsimple.cc", "test/unitTests/constantbfield.cc", "test/unitTests/matrixOps.cc", "test/unitTests/spacevectors.cc", "test/unitTests/intersectionTest.cc", "test/unitTests/resultTest.cc", "test/unitTests/helixCalculations.cc", "test/unitTests/initialTrackTest.cc", "test/unitTests/finalTrackTest.cc"]}
{"id": "C172", "title": "The program intersection_calculator in double precision", "statement": "intersection_calculator prints exactly the disks of the detector in the file that the track with the decimal numbers of the source crosses within their bounds in the first half turn, each as often as it is in the geometry, in the order of the path lengths, with path lengths right up to 5 units of 2^-53, and returns 0; of a detector of cylinders around the z axis it prints exactly those that the track crosses within their bounds in the first half turn, from the inside to the outside, with path lengths right up to 0.1 mm; of a detector of both it prints exactly the disks and cylinders crossed, in the order of the path lengths; without argument it prints nothing and returns 1.", "quantifier": "all geometries of disks (at most 2^190 cm of path away, not within 2^-400 of the start, 10^-13 of the half turn or 10^-12 of an edge), all geometries of cylinders (radii of 0.01 to 8 cm or 9 to 10^6 cm, differing by more than 0.02 cm, not crossed within 0.01 cm of an edge), all geometries of such disks and cylinders in any order (the radii may then be equal), every rounding to nearest of double, all libraries with errors of sin and cos below one unit in the last place, every std::sort", "why_tests_cant": "A run prints the list for one detector. Whether rounding moves a disk across the limit of half a turn or changes the sign of a path length needs disks at the limits, and the fact that the file is ignored is hidden if the geometry is already loaded.", "anchors": ["examples/intersection_calculator/intersection_calculator.cpp: main", "core/src/trajectory.cc: getIntersectionsWithSurfaces", "util/src/helixUtils.cc: intersectWithZDisk", "util/src/helixUtils.cc: intersectWithZCylinder"]}
{"id": "C173", "title": "The prefit of lcio_tracks in double precision", "statement": "createPreFit uses all hits of a track with at most 25 hits and otherwise every n/25-th one, whatever the rounding; it adds a measurement without scattering for each of them that has the number of a surface, in order, makes one point for each element, and returns the corrected parameters of the first element if the fit succeeds and the start helix at the origin otherwise.", "quantifier": "all tracks with fewer than 2^31 hits, all geometries, start helices and states of the fitter, all results of GBL, every rounding to nearest of double and all libraries", "why_tests_cant": "The step is a quotient of doubles cut to an integer; a wrong rounding would change it only for particular numbers of hits. A track none of whose hits has a surface is needed to see the undefined behaviour.", "anchors": ["examples/lcio_tracks/lcio_tracks.cpp: createPreFit", "core/src/trajectory.cc: addMeasurement, prepareForFitting, fit", "util/src/helixUtils.cc: moveHelixTo"]}
{"id": "C174", "title": "The start helix of points on a line in double precision", "statement": "For three points on a line in the transverse plane that is parallel to an axis, or on the line x = y, calculateStartHelix in double precision makes up no circle from rounding errors, a finite tan(lambda) is the slope of the line, and lcio_tracks refits tracks with such hits.", "quantifier": "all triples of points with any values of type double as coordinates, every rounding to nearest of double, all libraries and detectors", "why_tests_cant": "Tracks of random momentum never have hits on such a line; cosmic and straight tracks without field do.", "anchors": ["util/src/helixUtils.cc: calculateStartHelix", "examples/lcio_tracks/lcio_tracks.cpp: main", "core/src/trajectory.cc: getIntersectionsWithSurfaces"]}
