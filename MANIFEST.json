{
 "claims": [
  {
   "property": "C01",
   "status": "partial",
   "theorems": [
    "Verif.C01_unit_false",
    "Verif.C01_unit_noop",
    "Verif.C01_unit_partial"
   ],
   "note": "Unit() is a no-op in the code, so the claim is false (C01_unit_false, C01_unit_noop); it holds when the matrix already is the identity."
  },
  {
   "property": "C02",
   "status": "proved",
   "theorems": [
    "Verif.C02_products",
    "Verif.C02_laws"
   ],
   "note": ""
  },
  {
   "property": "C03",
   "status": "proved",
   "theorems": [
    "Verif.C03_rowwise",
    "Verif.C03_roundtrip"
   ],
   "note": ""
  },
  {
   "property": "C04",
   "status": "proved",
   "theorems": [
    "Verif.C04_last_write",
    "Verif.C04_frame",
    "Verif.C04_fitResults"
   ],
   "note": ""
  },
  {
   "property": "C05",
   "status": "proved",
   "theorems": [
    "Verif.C05_cross",
    "Verif.C05_cross_orientation",
    "Verif.C05_unit",
    "Verif.C05_unit_zero"
   ],
   "note": "cross and unit; unit of the null vector covered separately (NaN)."
  },
  {
   "property": "C06",
   "status": "proved",
   "theorems": [
    "Verif.C06_cylindrical",
    "Verif.C06_cylindrical_inv",
    "Verif.C06_squares",
    "Verif.C06_spherical",
    "Verif.C06_spherical_inv"
   ],
   "note": ""
  },
  {
   "property": "C07",
   "status": "proved",
   "theorems": [
    "Verif.C07_circle"
   ],
   "note": ""
  },
  {
   "property": "C08",
   "status": "proved",
   "theorems": [
    "Verif.C08_pca",
    "Verif.C08_closest",
    "Verif.C08_condition_needed"
   ],
   "note": "Under omega*d0 <= 1, which is shown to be necessary."
  },
  {
   "property": "C09",
   "status": "proved",
   "theorems": [
    "Verif.C09_agree"
   ],
   "note": ""
  },
  {
   "property": "C10",
   "status": "proved",
   "theorems": [
    "Verif.C10_unit",
    "Verif.C10_track",
    "Verif.C10_tangent_is_velocity"
   ],
   "note": ""
  },
  {
   "property": "C11",
   "status": "partial",
   "theorems": [
    "Verif.C11_Y_false",
    "Verif.C11_pointAt_false",
    "Verif.C11_straight_partial"
   ],
   "note": "False for y (cos instead of sin) and for pointAt (NaN); x and z hold."
  },
  {
   "property": "C12",
   "status": "proved",
   "theorems": [
    "Verif.C12_inverse",
    "Verif.C12_inverse_xy",
    "Verif.C12_phi0_range_needed"
   ],
   "note": "Within half a turn and |phi0| <= 2 pi; the range of phi0 is shown to be needed."
  },
  {
   "property": "C13",
   "status": "partial",
   "theorems": [
    "Verif.C13_straight_always_zero",
    "Verif.C13_false",
    "Verif.C13_straight_partial"
   ],
   "note": "False: 0 is returned for every point of a straight track."
  },
  {
   "property": "C14",
   "status": "proved",
   "theorems": [
    "Verif.C14_same_curve"
   ],
   "note": "All finite helices with non-zero curvature; also for reference points on the axis."
  },
  {
   "property": "C15",
   "status": "proved",
   "theorems": [
    "Verif.C15_normalised",
    "Verif.C15_idempotent",
    "Verif.C15_path_independent"
   ],
   "note": "For reference points off the helix axis."
  },
  {
   "property": "C16",
   "status": "partial",
   "theorems": [
    "Verif.C16_terminates_partial",
    "Verif.C16_infinite",
    "Verif.C16_nan",
    "Verif.C16_nan_zero_curvature"
   ],
   "note": "Proved in exact arithmetic; for zero curvature a NaN azimuth is replaced by pi/2 (C16_nan_zero_curvature), hence the restriction. In double precision it is false for azimuths of 2^60 and more, see C97."
  },
  {
   "property": "C17",
   "status": "partial",
   "theorems": [
    "Verif.C17_no_update",
    "Verif.C17_symm_psd",
    "Verif.C17_jacobian_partial",
    "Verif.C17_uncorrelated_partial",
    "Verif.C17_false"
   ],
   "note": "False: the code uses the Jacobian with respect to -d0 (C17_false). Proved: no update without the flag, symmetry and positivity preserved, F is the derivative up to the sign of d0, the unmixed entries are right for uncorrelated d0."
  },
  {
   "property": "C18",
   "status": "proved",
   "theorems": [
    "Verif.C18_start_helix"
   ],
   "note": ""
  },
  {
   "property": "C19",
   "status": "partial",
   "theorems": [
    "Verif.C19_collinear_partial",
    "Verif.C19_no_finite_curvature",
    "Verif.C19_false"
   ],
   "note": "False: three collinear hits give a NaN helix instead of a straight track (C19_false)."
  },
  {
   "property": "C20",
   "status": "partial",
   "theorems": [
    "Verif.C20_magnitude",
    "Verif.C20_pca",
    "Verif.C20_direction_partial",
    "Verif.C20_false"
   ],
   "note": "Magnitude and PCA proved; direction false for Bz < 0 (C20_false)."
  },
  {
   "property": "C21",
   "status": "proved",
   "theorems": [
    "Verif.C21_reciprocal",
    "Verif.C21_sign",
    "Verif.C21_straight",
    "Verif.C21_no_field"
   ],
   "note": ""
  },
  {
   "property": "C22",
   "status": "proved",
   "theorems": [
    "Verif.C22_frame"
   ],
   "note": ""
  },
  {
   "property": "C23",
   "status": "proved",
   "theorems": [
    "Verif.C23_inverse",
    "Verif.C23_singular",
    "Verif.C23_dimension"
   ],
   "note": ""
  },
  {
   "property": "C24",
   "status": "partial",
   "theorems": [
    "Verif.C24_companion_partial",
    "Verif.C24_false"
   ],
   "note": "Orthogonal and non-null proved; not a unit vector (C24_false)."
  },
  {
   "property": "C25",
   "status": "proved",
   "theorems": [
    "Verif.C25_two",
    "Verif.C25_none"
   ],
   "note": ""
  },
  {
   "property": "C26",
   "status": "partial",
   "theorems": [
    "Verif.C26_sound_partial",
    "Verif.C26_window",
    "Verif.C26_false"
   ],
   "note": "False: for a discriminant in [-1e-9, 0) a NaN point is reported (C26_window, C26_false). Proved for circles and lines that meet."
  },
  {
   "property": "C27",
   "status": "partial",
   "theorems": [
    "Verif.C27_sound_complete_partial",
    "Verif.C27_throws",
    "Verif.C27_false"
   ],
   "note": "False: throws for a negative signed distance of the radical line, depending on the order of the arguments (C27_throws, C27_false). Soundness and completeness proved otherwise."
  },
  {
   "property": "C28",
   "status": "partial",
   "theorems": [
    "Verif.C28_unique_partial",
    "Verif.C28_false"
   ],
   "note": "False: crossing lines whose normals have negative orientation are reported as not intersecting (C28_false). Proved for positive orientation and for parallel lines."
  },
  {
   "property": "C29",
   "status": "proved",
   "theorems": [
    "Verif.C29_circle",
    "Verif.C29_line"
   ],
   "note": ""
  },
  {
   "property": "C30",
   "status": "proved",
   "theorems": [
    "Verif.C30_disk"
   ],
   "note": ""
  },
  {
   "property": "C31",
   "status": "partial",
   "theorems": [
    "Verif.C31_partial",
    "Verif.C31_false"
   ],
   "note": "False in mode 0, and with bounds that accept undefined points (C31_false): success with infinite path length."
  },
  {
   "property": "C32",
   "status": "proved",
   "theorems": [
    "Verif.C32_sound",
    "Verif.C32_complete",
    "Verif.C32_rejects"
   ],
   "note": ""
  },
  {
   "property": "C33",
   "status": "partial",
   "theorems": [
    "Verif.C33_sound_partial",
    "Verif.C33_complete_partial",
    "Verif.C33_false",
    "Verif.C33_window_false"
   ],
   "note": "False for origin.normal < 0 (C33_false: point mirrored) and for near misses within the tolerance (C33_window_false: NaN point with success). Soundness and completeness proved otherwise, in the general position of C32."
  },
  {
   "property": "C34",
   "status": "proved",
   "theorems": [
    "Verif.C34_cylinder",
    "Verif.C34_plane",
    "Verif.C34_plane_sign",
    "Verif.C34_cylinder_backward",
    "Verif.C34_plane_backward",
    "Verif.C34_disk",
    "Verif.C34_newton"
   ],
   "note": ""
  },
  {
   "property": "C35",
   "status": "proved",
   "theorems": [
    "Verif.C35_cylinder",
    "Verif.C35_plane",
    "Verif.C35_disk",
    "Verif.C35_newton",
    "Verif.C35_cone",
    "Verif.C35_surface",
    "Verif.C35_inside"
   ],
   "note": ""
  },
  {
   "property": "C36",
   "status": "partial",
   "theorems": [
    "Verif.C36_cylinder_partial",
    "Verif.C36_plane_partial",
    "Verif.C36_false"
   ],
   "note": "False: only the nearer of two crossings is tested against the bounds (C36_false). Proved if all crossings within half a turn are in bounds."
  },
  {
   "property": "C37",
   "status": "proved",
   "theorems": [
    "Verif.C37_terminates",
    "Verif.C37_accurate",
    "Verif.C37_cone"
   ],
   "note": ""
  },
  {
   "property": "C38",
   "status": "proved",
   "theorems": [
    "Verif.C38_unsupported",
    "Verif.C38_delegates"
   ],
   "note": ""
  },
  {
   "property": "C39",
   "status": "proved",
   "theorems": [
    "Verif.C39_perigeeToL3"
   ],
   "note": ""
  },
  {
   "property": "C40",
   "status": "partial",
   "theorems": [
    "Verif.C40_false",
    "Verif.C40_transposed_partial"
   ],
   "note": "False: L3ToPerigeeJacobian is not the inverse of perigeeToL3Jacobian (C40_false). Proved: what the matrix is the inverse of."
  },
  {
   "property": "C41",
   "status": "partial",
   "theorems": [
    "Verif.C41_deviation",
    "Verif.C41_partial",
    "Verif.C41_false"
   ],
   "note": "False: the azimuth column is zero, the sign of the (omega, lambda) entry is wrong, and for Bz > 0 the (phi0, y_t) entry as well (C41_false, C41_deviation). Proved: the remaining entries are the partial derivatives."
  },
  {
   "property": "C42",
   "status": "proved",
   "theorems": [
    "Verif.C42_variational",
    "Verif.C42_solutions"
   ],
   "note": "Start and end direction must not be parallel to z (no curvilinear frame there). The matrix passed in is freshly constructed, as in prepareForFitting."
  },
  {
   "property": "C43",
   "status": "proved",
   "theorems": [
    "Verif.C43_identity"
   ],
   "note": ""
  },
  {
   "property": "C44",
   "status": "partial",
   "theorems": [
    "Verif.C44_identity_partial",
    "Verif.C44_variational_partial",
    "Verif.C44_invertible_partial",
    "Verif.C44_simplified_partial",
    "Verif.C44_fresh_false"
   ],
   "note": "False for freshly constructed matrices (C44_fresh_false): the diagonal is never written. Proved for a matrix that already is the identity; the simplified propagator lacks a factor cos(dip)."
  },
  {
   "property": "C45",
   "status": "proved",
   "theorems": [
    "Verif.C45_energyLoss",
    "Verif.C45_straight",
    "Verif.C45_simplified"
   ],
   "note": "The simplified propagator ignores the argument (C45_simplified)."
  },
  {
   "property": "C46",
   "status": "proved",
   "theorems": [
    "Verif.C46_keeps",
    "Verif.C46_count",
    "Verif.C46_setMass",
    "Verif.C46_history_prefix",
    "Verif.C46_history_count"
   ],
   "note": ""
  },
  {
   "property": "C47",
   "status": "partial",
   "theorems": [
    "Verif.C47_ordered",
    "Verif.C47_start",
    "Verif.C47_start_zero",
    "Verif.C47_start_false"
   ],
   "note": "The arc lengths are non-decreasing (C47_ordered). They start at 0 only if the reference point is the origin (C47_start_zero); in general the first arc length is that of the origin seen from the reference point (C47_start_false)."
  },
  {
   "property": "C48",
   "status": "proved",
   "theorems": [
    "Verif.C48_element",
    "Verif.C48_lookup",
    "Verif.C48_passes"
   ],
   "note": "General position is assumed (GenPos): the hit is not exactly opposite on the circle, and a Newton iteration converges."
  },
  {
   "property": "C49",
   "status": "partial",
   "theorems": [
    "Verif.C49_elementAt_partial",
    "Verif.C49_point",
    "Verif.C49_false"
   ],
   "note": "False for s < -1e99 (C49_false): the sentinel of the search makes the last element be used. Proved for s >= -1e99."
  },
  {
   "property": "C50",
   "status": "partial",
   "theorems": [
    "Verif.C50_elements",
    "Verif.C50_jacobians",
    "Verif.C50_covers_partial",
    "Verif.C50_empty",
    "Verif.C50_needs_crossing",
    "Verif.C50_defined_partial",
    "Verif.C50_start_false",
    "Verif.C50_uninitialised_false",
    "Verif.C50_example"
   ],
   "note": "False in three ways: the Jacobian of the second element covers the path from arc length 0 instead of from the first element (C50_start_false), the first Jacobian is the zero matrix, and energy and beta are read uninitialised for a scatterer that is not crossed inside its boundary (C50_uninitialised_false). Proved: order, content, and the path for all other elements."
  },
  {
   "property": "C51",
   "status": "partial",
   "theorems": [
    "Verif.C51_crossings_partial",
    "Verif.C51_defined",
    "Verif.C51_straight",
    "Verif.C51_repeat",
    "Verif.C51_false",
    "Verif.C51_cylinder",
    "Verif.C51_plane",
    "Verif.C51_disk",
    "Verif.C51_exception"
   ],
   "note": "False for repeated calls: the entries of earlier calls stay in the list (C51_repeat, C51_false). Proved for the first call."
  },
  {
   "property": "C52",
   "status": "partial",
   "theorems": [
    "Verif.C52_false",
    "Verif.C52_measurement_partial",
    "Verif.C52_scatterer",
    "Verif.C52_second_false"
   ],
   "note": "False for a one-dimensional measurement on a scatterer: the second precision handed over is the multiple scattering entry (C52_second_false, C52_false with a concrete disk). Proved for two-dimensional measurements, one-dimensional ones without scattering, and for scatterers."
  },
  {
   "property": "C53",
   "status": "proved",
   "theorems": [
    "Verif.C53_precision",
    "Verif.C53_scatterer",
    "Verif.C53_no_thickness"
   ],
   "note": "For a surface without thickness the multiple scattering is NaN (C53_no_thickness), so qms > 0 is a real precondition."
  },
  {
   "property": "C54",
   "status": "proved",
   "theorems": [
    "Verif.C54_same",
    "Verif.C54_distinct",
    "Verif.C54_cleared",
    "Verif.C54_last_fit",
    "Verif.C54_no_fit",
    "Verif.C54_failed_points"
   ],
   "note": "The content follows the trajectory at the time of the first request for a label; equal to that at the fit if the trajectory was not changed since."
  },
  {
   "property": "C55",
   "status": "partial",
   "theorems": [
    "Verif.C55_always_valid",
    "Verif.C55_false"
   ],
   "note": "False: every result is marked valid (C55_always_valid), also after a failed fit (C55_false), where the number of degrees of freedom -1 becomes 4294967295. Nothing positive remains to be proved."
  },
  {
   "property": "C56",
   "status": "partial",
   "theorems": [
    "Verif.C56_result",
    "Verif.C56_bad_label",
    "Verif.C56_label_partial",
    "Verif.C56_defined",
    "Verif.C56_example"
   ],
   "note": "Formula, symmetry, positive semidefiniteness and the error case are proved for finite values and a non-zero field. If the fitter numbers points from 1, as GBL does, the corrections are added to the following element (C56_label_partial)."
  },
  {
   "property": "C57",
   "status": "proved",
   "theorems": [
    "Verif.C57_write_read",
    "Verif.C57_exact",
    "Verif.C57_symmetric"
   ],
   "note": ""
  },
  {
   "property": "C58",
   "status": "proved",
   "theorems": [
    "Verif.C58_short",
    "Verif.C58_read_write"
   ],
   "note": "The location of the track state is not copied (createLCIO sets 0); fewer than 15 covariance values throw (C58_short)."
  },
  {
   "property": "C59",
   "status": "proved",
   "theorems": [
    "Verif.C59_covariance"
   ],
   "note": ""
  },
  {
   "property": "C60",
   "status": "partial",
   "theorems": [
    "Verif.C60_two_geometries_false",
    "Verif.C60_false",
    "Verif.C60_init_first_partial",
    "Verif.C60_default_only_partial",
    "Verif.C60_no_ub",
    "Verif.C60_constructed"
   ],
   "note": "False: instance() followed by instance(initString) creates a second geometry (C60_false). Proved for histories that start with instance(initString) or never call it."
  },
  {
   "property": "C61",
   "status": "proved",
   "theorems": [
    "Verif.C61_sorted_complete",
    "Verif.C61_nodup",
    "Verif.C61_bad_cast"
   ],
   "note": "The order is that of the radius narrowed to float; a surface with the wrong dynamic type is undefined behaviour (C61_bad_cast)."
  },
  {
   "property": "C62",
   "status": "proved",
   "theorems": [
    "Verif.C62_setProperty",
    "Verif.C62_history",
    "Verif.C62_history_accepted",
    "Verif.C62_built",
    "Verif.C62_built_accepted",
    "Verif.C62_queries",
    "Verif.C62_isSimilar",
    "Verif.C62_isSimilar_order"
   ],
   "note": ""
  },
  {
   "property": "C63",
   "status": "proved",
   "theorems": [
    "Verif.C63_exclusive",
    "Verif.C63_default",
    "Verif.C63_cached",
    "Verif.C63_meaning"
   ],
   "note": ""
  },
  {
   "property": "C64",
   "status": "proved",
   "theorems": [
    "Verif.C64_scattering_flip",
    "Verif.C64_energyLoss_flip",
    "Verif.C64_scattering_reversed",
    "Verif.C64_energyLoss_reversed"
   ],
   "note": ""
  },
  {
   "property": "C65",
   "status": "partial",
   "theorems": [
    "Verif.C65_energy_beta_partial",
    "Verif.C65_early_return_false",
    "Verif.C65_track_partial"
   ],
   "note": "False when the trajectory-level overload returns early (no intersection within the bounds): energy and beta stay unset (C65_early_return_false). Proved for the path that reaches the computation."
  },
  {
   "property": "C66",
   "status": "proved",
   "theorems": [
    "Verif.C66_continuous_x",
    "Verif.C66_continuous_momentum"
   ],
   "note": ""
  },
  {
   "property": "C67",
   "status": "proved",
   "theorems": [
    "Verif.C67_uniform"
   ],
   "note": ""
  },
  {
   "property": "C68",
   "status": "partial",
   "theorems": [
    "Verif.C68_accepted_partial",
    "Verif.C68_false"
   ],
   "note": "False: a z measurement of a track at 45 degrees is rejected (C68_false); exact acceptance criterion proved."
  },
  {
   "property": "C69",
   "status": "proved",
   "theorems": [
    "Verif.C69_steps"
   ],
   "note": ""
  },
  {
   "property": "C70",
   "status": "proved",
   "theorems": [
    "Verif.C70_back"
   ],
   "note": ""
  },
  {
   "property": "C71",
   "status": "proved",
   "theorems": [
    "Verif.C71_helix_motion",
    "Verif.C71_helix_jacobian"
   ],
   "note": ""
  },
  {
   "property": "C72",
   "status": "partial",
   "theorems": [
    "Verif.C72_false",
    "Verif.C72_start_partial",
    "Verif.C72_defined"
   ],
   "note": "False without elements: begin()+1 of an empty vector (C72_false)."
  },
  {
   "property": "C73",
   "status": "proved",
   "theorems": [
    "Verif.C73_points",
    "Verif.C73_unprepared",
    "Verif.C73_no_precision"
   ],
   "note": ""
  },
  {
   "property": "C74",
   "status": "proved",
   "theorems": [
    "Verif.C74_const",
    "Verif.C74_write",
    "Verif.C74_read"
   ],
   "note": ""
  },
  {
   "property": "C75",
   "status": "partial",
   "theorems": [
    "Verif.C75_value",
    "Verif.C75_slow_partial",
    "Verif.C75_false",
    "Verif.C75_negative_false"
   ],
   "note": "False: the density correction is subtracted in full instead of half (C75_value, C75_false), so that for every material the loss becomes negative at high momentum (C75_negative_false). Proved: the exact value, and agreement for momenta below the mass."
  },
  {
   "property": "C76",
   "status": "proved",
   "theorems": [
    "Verif.C76_highland",
    "Verif.C76_positive"
   ],
   "note": ""
  },
  {
   "property": "C77",
   "status": "proved",
   "theorems": [
    "Verif.C77_sum",
    "Verif.C77_parallel"
   ],
   "note": "A track parallel to the surface has an infinite loss (C77_parallel)."
  },
  {
   "property": "C78",
   "status": "partial",
   "theorems": [
    "Verif.C78_bounds_partial",
    "Verif.C78_energy_false",
    "Verif.C78_stopped",
    "Verif.C78_elements",
    "Verif.C78_charge_false"
   ],
   "note": "False: the momentum is scaled by 1 - loss/energy, so the energy afterwards is larger than the balance (C78_energy_false), and a loss above the energy reverses the charge (C78_stopped, C78_charge_false with a concrete disk). Proved: charge kept and two-sided bounds for losses below the energy."
  },
  {
   "property": "C79",
   "status": "partial",
   "theorems": [
    "Verif.C79_deleted_once",
    "Verif.C79_owners",
    "Verif.C79_leak",
    "Verif.C79_no_leak_partial",
    "Verif.C79_false",
    "Verif.C79_example"
   ],
   "note": "False if the inversion of a projection fails: the exception leaves the constructor of the element and exactly four objects are lost each time (C79_leak, C79_false with a concrete surface). Proved for all programs: nothing is deleted twice, no dangling or shared pointers, no leak without this exception."
  },
  {
   "property": "C80",
   "status": "partial",
   "theorems": [
    "Verif.C80_references",
    "Verif.C80_print",
    "Verif.C80_printable_partial",
    "Verif.C80_start_false",
    "Verif.C80_unprepared_false",
    "Verif.C80_example"
   ],
   "note": "False for the start element, which has no surface (C80_start_false), and for printing an element before prepareForFitting (C80_unprepared_false). Proved: all other references are defined, all elements but the start element can be printed after preparation."
  },
  {
   "property": "C81",
   "status": "proved",
   "theorems": [
    "Verif.C81_space",
    "Verif.C81_equality"
   ],
   "note": ""
  },
  {
   "property": "C82",
   "status": "proved",
   "theorems": [
    "Verif.C82_tesla"
   ],
   "note": "The unit must not be zero."
  },
  {
   "property": "C83",
   "status": "proved",
   "theorems": [
    "Verif.C83_azimuth",
    "Verif.C83_straight",
    "Verif.C83_concentric"
   ],
   "note": ""
  },
  {
   "property": "C84",
   "status": "proved",
   "theorems": [
    "Verif.C84_crossing",
    "Verif.C84_momentum",
    "Verif.C84_missed",
    "Verif.C84_exception"
   ],
   "note": ""
  },
  {
   "property": "C85",
   "status": "partial",
   "theorems": [
    "Verif.C85_fast",
    "Verif.C85_track_false",
    "Verif.C85_slow_partial",
    "Verif.C85_false"
   ],
   "note": "False for momenta not below the mass: the loss is not a number (C85_fast, C85_false) and so is the curvature of the new element (C85_track_false, Example.vacuum_scatterer). Proved: no loss for momenta below the mass."
  },
  {
   "property": "C86",
   "status": "partial",
   "theorems": [
    "Verif.C86_cylinder_false",
    "Verif.C86_plane_false",
    "Verif.C86_point",
    "Verif.C86_bounds_partial",
    "Verif.C86_scatterer_partial",
    "Verif.C86_measurement_false",
    "Verif.C86_sort",
    "Verif.C86_false"
   ],
   "note": "False without check of the boundary: every cylinder and plane along z is reported as hit (C86_cylinder_false, C86_plane_false), measurements on cylinders are accepted at an undefined path length (C86_measurement_false), and a short sequence of calls makes prepareForFitting undefined behaviour (C86_sort, C86_false). Proved: never hit with check of the boundary; no scatterer is added."
  },
  {
   "property": "C87",
   "status": "partial",
   "theorems": [
    "Verif.C87_transposed",
    "Verif.C87_symmetric_partial",
    "Verif.C87_false"
   ],
   "note": "False: the matrix is the transpose of the right one (C87_transposed, witness C87_false). Proved: right if m.V = m'.U (C87_symmetric_partial)."
  },
  {
   "property": "C88",
   "status": "partial",
   "theorems": [
    "Verif.C88_value",
    "Verif.C88_flat_partial",
    "Verif.C88_false"
   ],
   "note": "False for tracks with a dip angle: the azimuth entry is wrong by 1/cos^2 of the dip angle (C88_value, witness C88_false). Proved: right for flat tracks (C88_flat_partial)."
  },
  {
   "property": "C89",
   "status": "partial",
   "theorems": [
    "Verif.C89_derivative",
    "Verif.C89_first_order",
    "Verif.C89_entry",
    "Verif.C89_false",
    "Verif.C89_massless_partial",
    "Verif.C89_jacobian",
    "Verif.C89_reference",
    "Verif.C89_reference_false",
    "Verif.C89_code_false",
    "Verif.C89_measurement_false"
   ],
   "note": "False for particles with mass, compared with the exact kinematics (C89_false, C89_code_false) and with the change of curvature made by the code (C89_reference_false); measurements that are not scatterers change the curvature with entry 0 (C89_measurement_false). Proved: right for massless particles (C89_massless_partial)."
  },
  {
   "property": "C90",
   "status": "partial",
   "theorems": [
    "Verif.C90_point_partial",
    "Verif.C90_xyz_partial",
    "Verif.C90_tangent",
    "Verif.C90_path",
    "Verif.C90_center",
    "Verif.C90_move_partial",
    "Verif.C90_straight_false"
   ],
   "note": "False for straight tracks, for which calculateYfromS is wrong (C90_straight_false). Proved: all of it for curved tracks (moves: to reference points off the axis), with equal covariance."
  },
  {
   "property": "C91",
   "status": "partial",
   "theorems": [
    "Verif.C91_point",
    "Verif.C91_tangent",
    "Verif.C91_momentum",
    "Verif.C91_move_partial",
    "Verif.C91_half_turn_false",
    "Verif.C91_covariance_partial"
   ],
   "note": "False for a move by exactly half a turn, where z0 differs (C91_half_turn_false). Proved: all else; for moves C91_move_partial, and C91_covariance_partial for the covariance matrix of the moved track (entries change sign with the sign pattern of the mirror)."
  },
  {
   "property": "C92",
   "status": "proved",
   "theorems": [
    "Verif.C92_elements",
    "Verif.C92_prepared"
   ],
   "note": "For all inputs."
  },
  {
   "property": "C93",
   "status": "proved",
   "theorems": [
    "Verif.C93_outcome",
    "Verif.C93_results"
   ],
   "note": ""
  },
  {
   "property": "C94",
   "status": "proved",
   "theorems": [
    "Verif.C94_measurement",
    "Verif.C94_parallel",
    "Verif.C94_scatterer",
    "Verif.C94_missed"
   ],
   "note": "For tracks with finite energy loss in a field along z; the cylinder example in Props/Residuals meets the hypotheses."
  },
  {
   "property": "C95",
   "status": "partial",
   "theorems": [
    "Verif.C95_plane_partial",
    "Verif.C95_cylinder_false"
   ],
   "note": "False for cylinders: the azimuth is not brought back to (-pi, pi], a residual can be almost a full circumference (C95_cylinder_false). Proved: planes (C95_plane_partial)."
  },
  {
   "property": "C96",
   "status": "partial",
   "theorems": [
    "Verif.C96_false",
    "Verif.C96_partial"
   ],
   "note": "False: the corrections are added to the azimuth and the sum is stored (C96_false). Proved: the azimuth is that sum, and moveHelixTo brings it back (C96_partial)."
  },
  {
   "property": "C97",
   "status": "partial",
   "theorems": [
    "Verif.C97_partial",
    "Verif.C97_false"
   ],
   "note": "False: for an azimuth of 2^60 or more adding 2 pi does not change the number and the call never returns (C97_false). Proved for azimuths up to 2^52 (C97_partial)."
  },
  {
   "property": "C98",
   "status": "partial",
   "theorems": [
    "Verif.C98_collinear_false",
    "Verif.C98_three_hits_false",
    "Verif.C98_seed_partial",
    "Verif.C98_refitted_partial",
    "Verif.C98_ndf"
   ],
   "note": "False: for three hits the middle one is taken to be the last, the curvature is undefined and prepareForFitting is called for an empty trajectory (C98_three_hits_false); the same for hits on a line (C98_collinear_false). Proved: the start helix (C98_seed_partial) and, when the trajectory can be made, the refit (C98_refitted_partial). Model of the program with its default settings."
  },
  {
   "property": "C99",
   "status": "partial",
   "theorems": [
    "Verif.C99_calls",
    "Verif.C99_count_partial",
    "Verif.C99_two_hits_false",
    "Verif.C99_number_false",
    "Verif.C99_numbers"
   ],
   "note": "False: of two hits with the same number the first is ignored (C99_two_hits_false); numbers are compared in the lower 32 bits (C99_number_false). Proved: which calls are made (C99_calls), and the count for hits with different numbers (C99_count_partial)."
  },
  {
   "property": "C100",
   "status": "proved",
   "theorems": [
    "Verif.C100_first",
    "Verif.C100_state"
   ],
   "note": "The hypothesis on the crossings is needed: the first element of the trajectory is the one with the smallest arc length."
  },
  {
   "property": "C101",
   "status": "partial",
   "theorems": [
    "Verif.C101_planar",
    "Verif.C101_covariance_partial",
    "Verif.C101_radial_false",
    "Verif.C101_undefined_false"
   ],
   "note": "False for hits with a covariance matrix: the radial variance is added (C101_radial_false); zero errors give infinite precisions, short matrices are read out of bounds (C101_undefined_false). Proved: hits with errors (C101_planar), and the exact value for covariance matrices (C101_covariance_partial)."
  },
  {
   "property": "C102",
   "status": "partial",
   "theorems": [
    "Verif.C102_partial",
    "Verif.C102_false"
   ],
   "note": "createPreFit is only called if run_prefit is set, which it is not by default. False: 49 hits are all used (C102_false). Proved: which hits are used, and that they are at least 25 and at most 49 if there are more than 25 (C102_partial)."
  },
  {
   "property": "C103",
   "status": "proved",
   "theorems": [
    "Verif.C103_independent",
    "Verif.C103_event",
    "Verif.C103_file"
   ],
   "note": "For any state of the fitter and any index of the trajectory."
  },
  {
   "property": "C104",
   "status": "partial",
   "theorems": [
    "Verif.C104_false",
    "Verif.C104_dropped_partial"
   ],
   "note": "False: the output does not depend on the return code of the fit (C104_false). Proved: tracks with less than three hits (C104_dropped_partial)."
  },
  {
   "property": "C105",
   "status": "proved",
   "theorems": [
    "Verif.C105_calls",
    "Verif.C105_fit"
   ],
   "note": "The algorithm of std::sort is assumed to depend on the elements only by comparing them (ComparesOnly, met by merge sort)."
  },
  {
   "property": "C106",
   "status": "partial",
   "theorems": [
    "Verif.C106_prefit_partial",
    "Verif.C106_empty_false",
    "Verif.C106_loss_false"
   ],
   "note": "False: measurements on material change the curvature by the energy loss (C106_loss_false); if no hit has a surface the behaviour is undefined (C106_empty_false). Proved: which hits are used, no scatterers, the parameters returned (C106_prefit_partial)."
  },
  {
   "property": "C107",
   "status": "partial",
   "theorems": [
    "Verif.C107_calls",
    "Verif.C107_count_partial",
    "Verif.C107_raw_false",
    "Verif.C107_number_false"
   ],
   "note": "False for raw hits that are not planar (C107_raw_false) and surfaces whose number does not fit into 32 bits (C107_number_false). Proved: what is added (C107_calls), and how often, if the numbers of the hits are different (C107_count_partial)."
  },
  {
   "property": "C108",
   "status": "partial",
   "theorems": [
    "Verif.C108_two_partial",
    "Verif.C108_second_false",
    "Verif.C108_false"
   ],
   "note": "False for hits whose second resolution is zero (C108_second_false, C108_false): the variance of the scattering angle takes the place of the second precision. Proved for two resolutions (C108_two_partial)."
  },
  {
   "property": "C109",
   "status": "partial",
   "theorems": [
    "Verif.C109_state_partial",
    "Verif.C109_reference_false"
   ],
   "note": "False for the reference point, which is replaced by the origin without moving the track (C109_reference_false). Proved for parameters and covariance (C109_state_partial)."
  },
  {
   "property": "C110",
   "status": "proved",
   "theorems": [
    "Verif.C110_file"
   ],
   "note": "For any state of the fitter; in both directions: the program ends normally exactly if each event with a single track is refitted normally on its own."
  },
  {
   "property": "C111",
   "status": "partial",
   "theorems": [
    "Verif.C111_motion_partial",
    "Verif.C111_steps_partial",
    "Verif.C111_direction_false",
    "Verif.C111_scale_false"
   ],
   "note": "False: the constant for the units of the field is missing (C111_scale_false), and for different z components of the directions steps do not compose (C111_direction_false). Proved for equal z components up to this constant (C111_motion_partial, C111_steps_partial)."
  },
  {
   "property": "C112",
   "status": "partial",
   "theorems": [
    "Verif.C112_steps",
    "Verif.C112_slope_partial",
    "Verif.C112_converges_partial",
    "Verif.C112_false"
   ],
   "note": "False: the slope is too small by the cosine of the dip angle, and for a dip of 60 degrees the iteration fails on flat surfaces (C112_false). Proved: the sequence of steps and the result for all surfaces (C112_steps), the slope (C112_slope_partial), success on flat surfaces for |tan(lambda)| up to sqrt(5)/2 (C112_converges_partial)."
  },
  {
   "property": "C113",
   "status": "partial",
   "theorems": [
    "Verif.C113_rows",
    "Verif.C113_value_partial",
    "Verif.C113_total",
    "Verif.C113_thin_false",
    "Verif.C113_false"
   ],
   "note": "False for a surface without thickness: 0/0, and the total is undefined from there on (C113_thin_false, C113_false). Proved: rows (C113_rows), values for non-zero thickness (C113_value_partial), totals (C113_total)."
  },
  {
   "property": "C114",
   "status": "partial",
   "theorems": [
    "Verif.C114_disk_partial",
    "Verif.C114_cylinder_partial",
    "Verif.C114_backward",
    "Verif.C114_central",
    "Verif.C114_plane_partial",
    "Verif.C114_false"
   ],
   "note": "False: the point is searched again in both directions, and for a cylinder that is closer in backward direction the normal is taken behind the origin (C114_backward, C114_false). Proved for disks (C114_disk_partial), for cylinders around the z axis (C114_central), for other cylinders and planes if there is no closer crossing in backward direction (C114_cylinder_partial, C114_plane_partial)."
  },
  {
   "property": "C115",
   "status": "partial",
   "theorems": [
    "Verif.C115_start_partial",
    "Verif.C115_angle_partial",
    "Verif.C115_straight_partial",
    "Verif.C115_false",
    "Verif.C115_radians"
   ],
   "note": "False for polar angles outside of 0 to 180 degrees (C115_false). Proved for polar angles between 0 and 180 degrees (C115_start_partial, C115_angle_partial, C115_straight_partial)."
  },
  {
   "property": "C116",
   "status": "partial",
   "theorems": [
    "Verif.C116_rows",
    "Verif.C116_end",
    "Verif.C116_empty_false"
   ],
   "note": "False if no surface is crossed: positions are 0/0 (C116_empty_false). Proved otherwise (C116_rows, C116_end)."
  },
  {
   "property": "C117",
   "status": "partial",
   "theorems": [
    "Verif.C117_disk",
    "Verif.C117_cylinder",
    "Verif.C117_plane_partial",
    "Verif.C117_false"
   ],
   "note": "False: the crossing next to the reference point is taken, not the one next to the hit (C117_false). Proved: which hits are written, in which order (in C118_file), and that they are on the track and on the surface, for disks, cylinders and planes (C117_disk, C117_cylinder, C117_plane_partial)."
  },
  {
   "property": "C118",
   "status": "partial",
   "theorems": [
    "Verif.C118_file",
    "Verif.C118_null_false"
   ],
   "note": "False: a track without state at its last hit is a null pointer that is dereferenced (C118_null_false). Proved, in both directions: what is written if all states exist (C118_file)."
  },
  {
   "property": "C119",
   "status": "proved",
   "theorems": [
    "Verif.C119_exact",
    "Verif.C119_short",
    "Verif.C119_read",
    "Verif.C119_write"
   ],
   "note": "The location is not kept by the code; it is not among the numbers. Too short covariance vectors throw (C119_short). C119_read and C119_write compare with the exact model of C24/C25."
  },
  {
   "property": "C120",
   "status": "partial",
   "theorems": [
    "Verif.C120_commute",
    "Verif.C120_antisymmetric",
    "Verif.C120_cross_self",
    "Verif.C120_unit_partial",
    "Verif.C120_short_false",
    "Verif.C120_long_false",
    "Verif.C120_nearest",
    "Verif.C120_products"
   ],
   "note": "False for unit() of vectors whose squared length underflows or overflows: (2^-600,0,0) gives (inf,nan,nan), (2^600,0,0) gives zero (C120_short_false, C120_long_false). Proved for squared lengths between 2^-800 and 2^800 (C120_unit_partial), the identities, and error bounds of all operations (C120_nearest, C120_products)."
  },
  {
   "property": "C121",
   "status": "partial",
   "theorems": [
    "Verif.C121_report_partial",
    "Verif.C121_twice_false"
   ],
   "note": "False for a test that has been added twice: its counter counts both runs and is added twice (C121_twice_false). Proved for different tests that exist (C121_report_partial)."
  },
  {
   "property": "C122",
   "status": "partial",
   "theorems": [
    "Verif.C122_null",
    "Verif.C122_add_partial",
    "Verif.C122_empty_false",
    "Verif.C122_self_false"
   ],
   "note": "False: the assertion is about the wrong suite, adding to an empty suite reads out of range (C122_empty_false), and adding a suite to itself does not end (C122_self_false). Proved: null pointers throw (C122_null); otherwise if assertions are off or this suite is not empty and has no null pointers (C122_add_partial)."
  },
  {
   "property": "C123",
   "status": "partial",
   "theorems": [
    "Verif.C123_free_partial",
    "Verif.C123_after_false",
    "Verif.C123_shared_false"
   ],
   "note": "False: pointers stay in the list as null pointers, so running the suite again aborts or dereferences them (C123_after_false); tests shared with another suite are deleted twice (C123_shared_false). Proved: deletion, once, and nothing else (C123_free_partial)."
  },
  {
   "property": "C124",
   "status": "partial",
   "theorems": [
    "Verif.C124_printed_partial",
    "Verif.C124_exit_false",
    "Verif.C124_matrixOps_false"
   ],
   "note": "False: the value of report() is dropped and 0 is returned (C124_exit_false; with the test matrixOps, of which 24 checks fail: C124_matrixOps_false). Proved: the numbers printed (C124_printed_partial)."
  },
  {
   "property": "C125",
   "status": "partial",
   "theorems": [
    "Verif.C125_equal",
    "Verif.C125_close",
    "Verif.C125_floats_partial",
    "Verif.C125_far_false",
    "Verif.C125_near_false",
    "Verif.C125_nonfinite",
    "Verif.C125_rough"
   ],
   "note": "False: arguments are converted to float first, 2^30 and 2^30+1 are equal (C125_far_false), and numbers with a difference below 2e-12 are different (C125_near_false). Proved: for arguments of type float up to rounding of the limit (C125_floats_partial), reflexivity (C125_equal), bound for accepted numbers (C125_close), infinite and undefined numbers (C125_nonfinite), roughFloatCompare (C125_rough)."
  },
  {
   "property": "C126",
   "status": "partial",
   "theorems": [
    "Verif.C126_false",
    "Verif.C126_partial"
   ],
   "note": "False: Unit() does nothing (C01), 24 of 150 checks fail in the first run and 49 in later ones (C126_false). Proved: all other checks succeed (C126_partial). Products are those of the exact model."
  },
  {
   "property": "C127",
   "status": "proved",
   "theorems": [
    "Verif.C127_unchanged",
    "Verif.C127_example",
    "Verif.C127_no_field",
    "Verif.C127_refit"
   ],
   "note": "The fitter GBL itself is not modelled: the hypothesis IsLeastSquares says that it minimises the sum of squares of a broken line (or reports failure); such a fitter exists (exists_leastSquares). C127_no_field: without field the fitted curvature is nan."
  },
  {
   "property": "C128",
   "status": "proved",
   "theorems": [
    "Verif.C128_improves"
   ],
   "note": "The fitter is any one with IsLeastSquares, see C127."
  },
  {
   "property": "C129",
   "status": "partial",
   "theorems": [
    "Verif.C129_lines_partial",
    "Verif.C129_status",
    "Verif.C129_defined_partial",
    "Verif.C129_unknown_false",
    "Verif.C129_argument_false",
    "Verif.C129_collection_false",
    "Verif.C129_number_false"
   ],
   "note": "False in general: a hit without surface or with a number whose highest bit is set gives undefined behaviour, one argument gives a null pointer, a missing collection an exception."
  },
  {
   "property": "C130",
   "status": "partial",
   "theorems": [
    "Verif.C130_file",
    "Verif.C130_status",
    "Verif.C130_list_partial",
    "Verif.C130_disk",
    "Verif.C130_false"
   ],
   "note": "False: the file is not read into the geometry that is used (C130_file, C130_false)."
  },
  {
   "property": "C131",
   "status": "proved",
   "theorems": [
    "Verif.C131_points"
   ],
   "note": "sin and cos of the C library are any functions with errors below one unit in the last place; numbers beyond 2^200 and curvatures below 2^-500 (overflow, underflow) are excluded."
  },
  {
   "property": "C132",
   "status": "partial",
   "theorems": [
    "Verif.C132_points_partial",
    "Verif.C132_stuck",
    "Verif.C132_false"
   ],
   "note": "False for nearly straight tracks: the difference of the sines loses all digits and the point does not move (C132_stuck, C132_false). C132_points_partial: error bound in units of the radius."
  },
  {
   "property": "C133",
   "status": "proved",
   "theorems": [
    "Verif.C133_disk"
   ],
   "note": "See C131."
  },
  {
   "property": "C134",
   "status": "partial",
   "theorems": [
    "Verif.C134_false",
    "Verif.C134_others_partial",
    "Verif.C134_again_false"
   ],
   "note": "False: 24 of the 473 checks fail, all in matrixOps (C134_false); if run again, 5 checks of spacevectors and 9 of resultTest fail too (C134_again_false). C134_others_partial: all checks of the other tests succeed in the first run. Numbers of type double in the tests are exact in the model, see C135."
  },
  {
   "property": "C135",
   "status": "proved",
   "theorems": [
    "Verif.C135_robust"
   ],
   "note": "About the eight tests other than matrixOps, in their first run."
  },
  {
   "property": "C136",
   "status": "partial",
   "theorems": [
    "Verif.C136_stuck",
    "Verif.C136_accurate_partial",
    "Verif.C136_wide_partial",
    "Verif.C136_false"
   ],
   "note": "False for nearly straight tracks: with correctly rounded library functions the result is 0 for all points where curvature times distance is below 2^-66, for every azimuth between 1 and 3 (C136_stuck, C136_false). C136_accurate_partial, C136_wide_partial: the error bounds up to 1/5 of a turn and up to almost half a turn, for tracks that turn by more than 2^-40."
  },
  {
   "property": "C137",
   "status": "partial",
   "theorems": [
    "Verif.C137_move_partial",
    "Verif.C137_turned",
    "Verif.C137_false"
   ],
   "note": "False for azimuths next to +-pi/2, where the sine from sqrt((1-cos)(1+cos)) has half of the digits: moving the track of curvature 2^-17 with azimuth pi/2+2^-27 to its own reference point turns it by 2^-27 and shifts it by 2^-10 (C137_turned, C137_false). C137_move_partial: the centre is that of the track turned by an angle of at most 2^-21, of the order of 2^-53 at other azimuths; bounds for azimuth, angle and height; the sense of rotation is kept."
  },
  {
   "property": "C138",
   "status": "proved",
   "theorems": [
    "Verif.C138_start",
    "Verif.C138_seed",
    "Verif.C138_refit",
    "Verif.C138_turns"
   ],
   "note": "Within one turn; C138_turns shows that points more than one turn apart give another slope. C138_refit assumes a fitter that minimises the sum of squares (see C127)."
  },
  {
   "property": "C139",
   "status": "partial",
   "theorems": [
    "Verif.C139_none",
    "Verif.C139_points_partial",
    "Verif.C139_missed",
    "Verif.C139_false",
    "Verif.C139_nan"
   ],
   "note": "False for lines close to a tangent: C139_missed gives a line that crosses a circle of radius 2048 in two points (found without rounding) and for which nothing is found, C139_nan one with a crossing that is not a number. C139_points_partial and C139_none: correct if the discriminant is away from zero by 2e-9 plus 2^-45 of the square of the size, with an explicit bound on the error of the points."
  },
  {
   "property": "C140",
   "status": "partial",
   "theorems": [
    "Verif.C140_points_partial",
    "Verif.C140_far",
    "Verif.C140_false",
    "Verif.C140_throws"
   ],
   "note": "False: C140_far gives two circles of radius 1 at 2^30 from the origin whose computed crossings are at a distance of 1.41 from the second centre, C140_throws two circles that cross (found without rounding) and that give an exception. C140_points_partial: correct with an explicit bound on the error if the discriminant is above 4e-9 plus 2^-36 L M^3 (L: distance of the centres, M: bound of coordinates and radii) and the distance of the radical line above 2^-48 M^2."
  },
  {
   "property": "C141",
   "status": "proved",
   "theorems": [
    "Verif.C141_points",
    "Verif.C141_none",
    "Verif.C141_found",
    "Verif.C141_all",
    "Verif.C141_select",
    "Verif.C141_choice",
    "Verif.C141_rejects"
   ],
   "note": "C141_points: a reported point is within 2^-46 M of the cylinder and 2^-42 M (1 + |omega| M) of the track. C141_all: one of the two points is next to any crossing (square-root bound, valid also where the track touches the cylinder). C141_none, C141_found: no point for tracks that stay away, a point for tracks that pass from inside to outside. C141_select, C141_choice: choice by the mode. C141_rejects: other surfaces. Preconditions on sizes are in CylRange."
  },
  {
   "property": "C142",
   "status": "partial",
   "theorems": [
    "Verif.C142_partial",
    "Verif.C142_doubled",
    "Verif.C142_false",
    "Verif.C142_straight"
   ],
   "note": "False: C142_doubled gives a step over a small angle whose derivative of the offset with respect to q/p is computed twice too large (1 - cos is 0 in double precision). C142_partial: every entry is within 2^-41 of the exact one in the units of its row and column (q/p, 1, 1, radius, radius; rows of the azimuth divided by cos lambda); C142_straight for straight tracks."
  },
  {
   "property": "C143",
   "status": "partial",
   "theorems": [
    "Verif.C143_points_partial",
    "Verif.C143_none",
    "Verif.C143_found",
    "Verif.C143_all",
    "Verif.C143_select",
    "Verif.C143_rejects",
    "Verif.C143_straight",
    "Verif.C143_false"
   ],
   "note": "False with the accuracy of cylinders (C141): C143_false gives a stiff track and a plane where both computed points are farther than 1/2 from the track, because the centre of the circle is rounded; planes with the origin of the coordinates on the side of the normal are taken on the wrong side (C33_false). C143_points_partial: with the radius of the track as part of the size L, reported points are within 2^-43 L of the plane and 2^-40 |omega| L^2 of the track (NaN only for tracks that touch the plane up to the threshold of the code). C143_found, C143_none: crossings are reported, or not, if the track is clearly on both sides, or on one. C143_all: each crossing with a clear angle is next to one of two computed points, and the reported one is the choice C143_select. C143_straight: straight tracks give no crossing. C143_rejects: normals along z throw."
  },
  {
   "property": "C144",
   "status": "partial",
   "theorems": [
    "Verif.C144_tangent",
    "Verif.C144_terminates",
    "Verif.C144_accurate",
    "Verif.C144_found_partial",
    "Verif.C144_cone",
    "Verif.C144_dispatch",
    "Verif.C144_straight",
    "Verif.C144_false"
   ],
   "note": "False for straight tracks: C144_straight, C144_false (pointAt gives NaN, no crossing is found), and for steep tracks as without rounding (C112_false). C144_terminates: for every surface and rounding. C144_accurate, C144_cone: reported crossings. C144_found_partial: found from every start in a range in which the component of the computed normal along the track differs by at most 39 % from the derivative of the distance, in the range of sizes given; the concrete case is a cone. C144_tangent: error of calculateTangent. C144_dispatch: which function is used for which surface."
  },
  {
   "property": "C145",
   "status": "proved",
   "theorems": [
    "Verif.C145_highland",
    "Verif.C145_positive",
    "Verif.C145_silicon"
   ],
   "note": "C145_highland: error bound. C145_positive: positive and relatively exact. C145_silicon: a concrete layer."
  },
  {
   "property": "C146",
   "status": "proved",
   "theorems": [
    "Verif.C146_bethe",
    "Verif.C146_energy",
    "Verif.C146_loss",
    "Verif.C146_silicon"
   ],
   "note": "C146_bethe: specific loss against the formula of the code (C75: twice the density correction). C146_loss: two layers. C146_energy: energy and velocity. C146_silicon: a concrete layer."
  },
  {
   "property": "C147",
   "status": "proved",
   "theorems": [
    "Verif.C147_azimuth",
    "Verif.C147_momentum",
    "Verif.C147_missed",
    "Verif.C147_scattering",
    "Verif.C147_loss",
    "Verif.C147_silicon"
   ],
   "note": "C147_azimuth, C147_momentum: direction and momentum. C147_scattering: Highland at the true momentum. C147_loss: energy and velocity. C147_missed: no crossing. C147_silicon: a concrete helix and disk."
  },
  {
   "property": "C148",
   "status": "partial",
   "theorems": [
    "Verif.C148_list_partial",
    "Verif.C148_disk",
    "Verif.C148_cylinder_partial",
    "Verif.C148_plane_partial",
    "Verif.C148_plane_missed",
    "Verif.C148_missed",
    "Verif.C148_straight",
    "Verif.C148_false"
   ],
   "note": "C148_list_partial: the list, if each crossing is computed within its tolerance, is not at an edge of the surface, and the path lengths differ by more than the tolerances. C148_disk, C148_cylinder_partial, C148_plane_partial: the first crossing with a disk, a cylinder or a plane parallel to z is computed this way. C148_missed, C148_plane_missed: no crossing is reported for cylinders and planes that the track does not reach. C148_straight: the list is always empty for straight tracks. C148_false: for a stiff track a cylinder of radius 30 is listed at path length 0."
  },
  {
   "property": "C149",
   "status": "partial",
   "theorems": [
    "Verif.C149_det",
    "Verif.C149_two_partial",
    "Verif.C149_one_partial",
    "Verif.C149_dimension",
    "Verif.C149_false"
   ],
   "note": "C149_two_partial and C149_one_partial: the error is at most 2^-41 over the square of the determinant, for azimuths and turning angles up to 8 and determinants from 2^-25 on. C149_dimension: other numbers of directions are rejected. C149_false: two parallel directions are accepted."
  },
  {
   "property": "C150",
   "status": "partial",
   "theorems": [
    "Verif.C150_partial",
    "Verif.C150_perigee_partial",
    "Verif.C150_false"
   ],
   "note": "C150_partial: errors of at most 2^-38 in the units of row and column, for slopes up to 100, curvatures and fields between 2^-100 and 2^100, every order of summation. C150_perigee_partial: relative errors of at most 2^-50 in the other two matrices. C150_false: for the slope 2^80 one entry is too small by a factor of more than 1000."
  },
  {
   "property": "C151",
   "status": "partial",
   "theorems": [
    "Verif.C151_partial",
    "Verif.C151_no_field",
    "Verif.C151_false"
   ],
   "note": "C151_partial: the relative error is at most 2^-43 for slopes up to 100, curvatures and fields between 2^-100 and 2^100. C151_no_field: 0 without field. C151_false: for the slope 2^80 the result is too large by a factor of more than 1000."
  },
  {
   "property": "C152",
   "status": "proved",
   "theorems": [
    "Verif.C152_at",
    "Verif.C152_pca"
   ],
   "note": "C152_at and C152_pca, with the range of MomRange."
  },
  {
   "property": "C153",
   "status": "proved",
   "theorems": [
    "Verif.C153_start",
    "Verif.C153_track",
    "Verif.C153_far"
   ],
   "note": "C153_start against the helix of exact arithmetic (C18), C153_track against the parameters of a track through the points. C153_far: for distances in the ratio 2^60 the computed curvature can be 0 although the points are not on a line, so the range of StartRange is needed."
  },
  {
   "property": "C154",
   "status": "partial",
   "theorems": [
    "Verif.C154_params",
    "Verif.C154_covariance_partial",
    "Verif.C154_asymmetric",
    "Verif.C154_false"
   ],
   "note": "Symmetric matrices do not stay symmetric: half a turn of the track with curvature 1, slope 3/2 and d0 = -4, with the single entry 2^52 + 11 for the azimuth, gives -(45 2^52 + 512) and -(45 2^52 + 480) (C154_asymmetric, C154_false). The sines and cosines in F are those of an angle that differs from the returned one by at most 2^-20, and by the order of 2^-53 for azimuths not next to +-pi/2 (C154_covariance_partial, as in C137). C154_params: the parameters are those of C137 with and without the flag."
  },
  {
   "property": "C155",
   "status": "proved",
   "theorems": [
    "Verif.C155_lines",
    "Verif.C155_count",
    "Verif.C155_error"
   ],
   "note": "C155_lines, C155_count, C155_error."
  },
  {
   "property": "C156",
   "status": "proved",
   "theorems": [
    "Verif.C156_results",
    "Verif.C156_error"
   ],
   "note": "C156_results and C156_error, with the range of FitRange (steeper tracks: C150_false)."
  },
  {
   "property": "C157",
   "status": "partial",
   "theorems": [
    "Verif.C157_weight_partial",
    "Verif.C157_highland_partial",
    "Verif.C157_false"
   ],
   "note": "C157_weight_partial for widths between 2^-400 and 2^400, C157_highland_partial with the width of Highland. C157_false: without material, and for all widths up to 2^-540, the matrix has infinities on the diagonal and NaN elsewhere."
  },
  {
   "property": "C158",
   "status": "proved",
   "theorems": [
    "Verif.C158_jacobian",
    "Verif.C158_prepare",
    "Verif.C158_no_material",
    "Verif.C158_loss",
    "Verif.C158_example"
   ],
   "note": "C158_jacobian, C158_prepare, C158_no_material, C158_loss, C158_example. Entries that are small in the units of row and column can be wrong, see C142_false; steeper tracks: C151_false."
  },
  {
   "property": "C159",
   "status": "proved",
   "theorems": [
    "Verif.C159_scatterer",
    "Verif.C159_measurement",
    "Verif.C159_missed",
    "Verif.C159_start",
    "Verif.C159_thin",
    "Verif.C159_silicon"
   ],
   "note": "C159_scatterer, C159_measurement, C159_missed, C159_start, C159_thin (condition for the bound of the loss), C159_silicon (example). The tolerance contains the turn delta of C137, at most 2^-21."
  },
  {
   "property": "C160",
   "status": "proved",
   "theorems": [
    "Verif.C160_simplified",
    "Verif.C160_exact",
    "Verif.C160_example"
   ],
   "note": "C160_simplified, C160_exact (the same entries with exact arithmetic), C160_example."
  },
  {
   "property": "C161",
   "status": "proved",
   "theorems": [
    "Verif.C161_seed",
    "Verif.C161_track",
    "Verif.C161_scaled",
    "Verif.C161_covariance",
    "Verif.C161_example"
   ],
   "note": "C161_seed (track through the hits), C161_track (hits on a given track), C161_scaled (conversion of units), C161_covariance, C161_example. The tolerance of the position contains the turn delta of C137, at most 2^-21."
  },
  {
   "property": "C162",
   "status": "partial",
   "theorems": [
    "Verif.C162_none",
    "Verif.C162_parallel",
    "Verif.C162_cross_partial",
    "Verif.C162_false",
    "Verif.C162_missed",
    "Verif.C162_example"
   ],
   "note": "C162_cross_partial: oriented areas of at least 2e-9 and of at least the product of the normal vectors over K; tolerance 15 K^2 units. C162_parallel (parallel lines), C162_none (areas clearly below 1e-9). False as stated: C162_false (negative area), C162_missed (area 1 that is lost by rounding)."
  },
  {
   "property": "C163",
   "status": "partial",
   "theorems": [
    "Verif.C163_angle",
    "Verif.C163_direction",
    "Verif.C163_value",
    "Verif.C163_rows",
    "Verif.C163_total_partial",
    "Verif.C163_thin_false",
    "Verif.C163_track",
    "Verif.C163_example",
    "Verif.C163_slab"
   ],
   "note": "C163_total_partial: relative error (8 + 880/c0 + 2 n) units for n crossings and the smallest cosine c0. False as stated: C163_thin_false (a surface without thickness gives 0/0 and makes all later totals not a number)."
  },
  {
   "property": "C164",
   "status": "partial",
   "theorems": [
    "Verif.C164_rows_partial",
    "Verif.C164_end",
    "Verif.C164_example",
    "Verif.C164_empty_false"
   ],
   "note": "C164_rows_partial and C164_end: relative errors (2 k + 4) and (3 k + 12) units for the k-th entry. False as stated: C164_empty_false (no surface crossed)."
  },
  {
   "property": "C165",
   "status": "partial",
   "theorems": [
    "Verif.C165_planar",
    "Verif.C165_covariance",
    "Verif.C165_effects",
    "Verif.C165_undefined_false",
    "Verif.C165_example"
   ],
   "note": "C165_planar (7 units), C165_covariance (4 units of single precision), C165_effects. False as stated for errors of zero (infinite precision) and covariance matrices with less than six entries (read out of bounds): C165_undefined_false."
  },
  {
   "property": "C166",
   "status": "partial",
   "theorems": [
    "Verif.C166_calls",
    "Verif.C166_count_partial",
    "Verif.C166_points",
    "Verif.C166_first",
    "Verif.C166_refitted_partial",
    "Verif.C166_independent",
    "Verif.C166_short",
    "Verif.C166_state",
    "Verif.C166_event",
    "Verif.C166_file",
    "Verif.C166_example",
    "Verif.C166_three_hits_false"
   ],
   "note": "False: no track with exactly three hits is refitted, for every rounding (C166_three_hits_false). Proved: which calls are made (C166_calls, C166_count_partial), one point for each element (C166_points, C166_first), the refit if the start helix and the trajectory can be made (C166_refitted_partial), the written state (C166_state), independence, events and files (C166_independent, C166_event, C166_file)."
  },
  {
   "property": "C167",
   "status": "partial",
   "theorems": [
    "Verif.C167_element",
    "Verif.C167_position_partial",
    "Verif.C167_direction",
    "Verif.C167_empty",
    "Verif.C167_added_partial",
    "Verif.C167_added_false"
   ],
   "note": "C167_element, C167_position_partial, C167_direction, C167_added_partial (path length of an added element). False: an added element has the parameters of the reference, so that pointAt at its path length is the start of the reference track (C167_added_false); without elements the functions are undefined (C167_empty); almost straight tracks as in C132, C136."
  },
  {
   "property": "C168",
   "status": "partial",
   "theorems": [
    "Verif.C168_calls",
    "Verif.C168_count_partial",
    "Verif.C168_points",
    "Verif.C168_refitted",
    "Verif.C168_state_partial",
    "Verif.C168_reference_false",
    "Verif.C168_independent",
    "Verif.C168_file",
    "Verif.C168_example"
   ],
   "note": "C168_calls, C168_count_partial (hits with different numbers), C168_points, C168_refitted, C168_state_partial, C168_independent, C168_file. False: the reference point is replaced by the origin, so that results one centimetre apart are written as the same track (C168_reference_false); hits with the same number as in C107."
  },
  {
   "property": "C169",
   "status": "partial",
   "theorems": [
    "Verif.C169_file",
    "Verif.C169_null",
    "Verif.C169_read",
    "Verif.C169_disk",
    "Verif.C169_cylinder_partial",
    "Verif.C169_plane_partial"
   ],
   "note": "C169_file, C169_null (no state at the last hit: undefined), C169_read, C169_disk, C169_cylinder_partial and C169_plane_partial (missing: that the path lengths of the track and of the hit agree, false for tracks that turn too little, C148_false; tracks that touch a plane, as in C143). That the new hit is next to the hit of the input is false already for exact numbers (C117_false)."
  },
  {
   "property": "C170",
   "status": "proved",
   "theorems": [
    "Verif.C170_cylindrical",
    "Verif.C170_spherical",
    "Verif.C170_rebuild_cylindrical",
    "Verif.C170_rebuild_spherical",
    "Verif.C170_zero",
    "Verif.C170_axis",
    "Verif.C170_squares",
    "Verif.C170_overflow"
   ],
   "note": "C170_cylindrical, C170_spherical, C170_rebuild_cylindrical, C170_rebuild_spherical, C170_squares, C170_zero, C170_axis. Outside the range the length overflows (C170_overflow)."
  },
  {
   "property": "C171",
   "status": "partial",
   "theorems": [
    "Verif.C171_matrixOps_false",
    "Verif.C171_false",
    "Verif.C171_others_partial",
    "Verif.C171_exact",
    "Verif.C171_again_false"
   ],
   "note": "C171_false (24 fails, 449 successes, returns 0), C171_matrixOps_false, C171_again_false; C171_others_partial (all checks of the other eight tests succeed in the first run, for every rounding), C171_exact (the same as with exact numbers)."
  },
  {
   "property": "C172",
   "status": "partial",
   "theorems": [
    "Verif.C172_barrel_partial",
    "Verif.C172_detector_partial",
    "Verif.C172_disks_partial",
    "Verif.C172_file",
    "Verif.C172_false"
   ],
   "note": "C172_false, C172_file (the file is not used); C172_disks_partial (the list for the geometry that the program does use, consisting of disks), C172_barrel_partial (the same for cylinders around the z axis), C172_detector_partial (for both). For other surfaces see C148."
  },
  {
   "property": "C173",
   "status": "partial",
   "theorems": [
    "Verif.C173_ordered",
    "Verif.C173_prepared",
    "Verif.C173_chosen",
    "Verif.C173_prefit_partial",
    "Verif.C173_empty_false",
    "Verif.C173_example"
   ],
   "note": "False: if no hit has a surface the behaviour is undefined, for every rounding (C173_empty_false). Proved: which hits are used (C173_chosen), that the trajectory can be prepared if one of the hits has a surface and the path lengths are in order (C173_prepared, C173_ordered), the measurements, the points and the parameters returned (C173_prefit_partial)."
  },
  {
   "property": "C174",
   "status": "partial",
   "theorems": [
    "Verif.C174_line_partial",
    "Verif.C174_slope_false",
    "Verif.C174_between_false",
    "Verif.C174_outside",
    "Verif.C174_refit_false"
   ],
   "note": "False: the slope is never found (C174_slope_false); with the first point between the others a straight track with tan(lambda) = 0 results, whatever the heights (C174_between_false); and no track with such hits is refitted, since no surface is taken to be crossed (C174_refit_false). Proved: curvature and tan(lambda) are zero or not a number (C174_line_partial); with the first point at the end tan(lambda) is not a number (C174_outside)."
  }
 ]
}