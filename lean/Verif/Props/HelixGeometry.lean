import Verif.Lemmas.Helix
import Mathlib.Analysis.Real.Pi.Bounds

/-!
# C07–C13: geometry of the helix functions
-/

noncomputable section

namespace Verif

open Dbl

variable (om tl ph d z rx ry rz : ℝ)

/-! ## C07 -/

/-- C07: for non-zero curvature every point of the track is at the reported radius from the reported
centre (all values finite), and z is affine in s with slope tan(lambda). -/
theorem C07_circle (h : om ≠ 0) :
    ∃ cx cy r z1 : ℝ, calculateXCenter (hpR om tl ph d z) (V3.re rx ry rz) = fin cx ∧
      calculateYCenter (hpR om tl ph d z) (V3.re rx ry rz) = fin cy ∧
      calculateRadius (hpR om tl ph d z) = fin r ∧ 0 < r ∧
      ∀ s : ℝ, ∃ px py : ℝ, pointAt (fin s) (hpR om tl ph d z) (V3.re rx ry rz) =
          V3.re px py (z1 + tl * s) ∧ (px - cx) ^ 2 + (py - cy) ^ 2 = r ^ 2 := by
  refine ⟨_, _, _, rz + z, calculateXCenter_re h, calculateYCenter_re h, calculateRadius_re h,
    abs_pos.mpr (one_div_ne_zero h), fun s => ⟨rX om ph d rx s, rY om ph d ry s, ?_, ?_⟩⟩
  · rw [pointAt_re h, rZ, mul_comm]
  · rw [rX_center, rY_center, sq_abs]
    linear_combination (1 / om) ^ 2 * Real.sin_sq_add_cos_sq (ph - s * om)

/-- C07 applies to a track with all parameters non-zero -/
example : (0.01 : ℝ) ≠ 0 := by norm_num

/-! ## C08 -/

/-- C08: the point at s=0 is the reported point of closest approach, at distance |d0| from the
reference point. -/
theorem C08_pca (h : om ≠ 0) :
    ∃ x0 y0 : ℝ, calculateX0 (hpR om tl ph d z) (V3.re rx ry rz) = fin x0 ∧
      calculateY0 (hpR om tl ph d z) (V3.re rx ry rz) = fin y0 ∧
      pointAt (fin 0) (hpR om tl ph d z) (V3.re rx ry rz) = V3.re x0 y0 (rz + z) ∧
      Real.sqrt ((x0 - rx) ^ 2 + (y0 - ry) ^ 2) = |d| := by
  refine ⟨_, _, calculateX0_re, calculateY0_re, ?_, ?_⟩
  · rw [pointAt_re h]; simp [rX, rY, rZ]
  · rw [← Real.sqrt_sq_eq_abs]
    congr 1
    linear_combination d ^ 2 * Real.sin_sq_add_cos_sq ph

/-- C08: if omega*d0 ≤ 1, no point of the track is closer to the reference point (transversally)
than |d0|. -/
theorem C08_closest (h : om ≠ 0) (hd : om * d ≤ 1) (s : ℝ) :
    ∃ px py pz : ℝ, pointAt (fin s) (hpR om tl ph d z) (V3.re rx ry rz) = V3.re px py pz ∧
      |d| ≤ Real.sqrt ((px - rx) ^ 2 + (py - ry) ^ 2) := by
  refine ⟨_, _, _, pointAt_re h, ?_⟩
  rw [← Real.sqrt_sq_eq_abs]
  apply Real.sqrt_le_sqrt
  have key : (rX om ph d rx s - rx) ^ 2 + (rY om ph d ry s - ry) ^ 2 =
      d ^ 2 + 2 * (1 / om) ^ 2 * (1 - om * d) * (1 - Real.cos (s * om)) := by
    have hc : Real.cos (s * om) = Real.cos ph * Real.cos (ph - s * om) + Real.sin ph * Real.sin (ph - s * om) := by
      rw [← Real.cos_sub]; congr 1; ring
    have h1 : rX om ph d rx s - rx = -d * Real.sin ph + (1 / om) * (Real.sin ph - Real.sin (ph - s * om)) := by
      rw [rX]; ring
    have h2 : rY om ph d ry s - ry = d * Real.cos ph - (1 / om) * (Real.cos ph - Real.cos (ph - s * om)) := by
      rw [rY]; ring
    rw [h1, h2, hc]
    have e1 := Real.sin_sq_add_cos_sq ph
    have e2 := Real.sin_sq_add_cos_sq (ph - s * om)
    generalize Real.sin ph = a at *
    generalize Real.cos ph = b at *
    generalize Real.sin (ph - s * om) = a' at *
    generalize Real.cos (ph - s * om) = b' at *
    field_simp
    linear_combination (d ^ 2 * om ^ 2 - 2 * d * om + 1) * e1 + e2
  rw [key]
  have : 0 ≤ 2 * (1 / om) ^ 2 * (1 - om * d) * (1 - Real.cos (s * om)) := by
    apply mul_nonneg
    · apply mul_nonneg
      · positivity
      · linarith
    · linarith [Real.cos_le_one (s * om)]
  linarith

/-- C08: the condition omega*d0 ≤ 1 is needed: otherwise the opposite side of the circle is closer
whenever it is a different point. -/
theorem C08_condition_needed (h : om ≠ 0) (hd : 1 < om * d) :
    ∃ s px py pz : ℝ, pointAt (fin s) (hpR om tl ph d z) (V3.re rx ry rz) = V3.re px py pz ∧
      Real.sqrt ((px - rx) ^ 2 + (py - ry) ^ 2) < |d| := by
  refine ⟨Real.pi / om, _, _, _, pointAt_re h, ?_⟩
  rw [← Real.sqrt_sq_eq_abs]
  apply Real.sqrt_lt_sqrt (by positivity)
  have e : Real.pi / om * om = Real.pi := by field_simp
  rw [rX, rY, e, Real.sin_sub_pi, Real.cos_sub_pi]
  have e1 := Real.sin_sq_add_cos_sq ph
  have : (rx - d * Real.sin ph + 1 / om * (Real.sin ph - -Real.sin ph) - rx) ^ 2 +
      (ry + d * Real.cos ph - 1 / om * (Real.cos ph - -Real.cos ph) - ry) ^ 2 =
      (d - 2 / om) ^ 2 := by
    linear_combination (d - 2 / om) ^ 2 * e1
  rw [this]
  have h2 : 0 < om ^ 2 := by positivity
  have : (d - 2 / om) ^ 2 = d ^ 2 - 4 * (om * d - 1) / om ^ 2 := by field_simp; ring
  rw [this]
  have : 0 < 4 * (om * d - 1) / om ^ 2 := by apply div_pos <;> linarith
  linarith

/-- C08 is not vacuous: omega = 1/2, d0 = 1 -/
example : (0.5 : ℝ) ≠ 0 ∧ (0.5 : ℝ) * 1 ≤ 1 := by norm_num

/-! ## C09 -/

/-- C09: the two families of position functions agree. -/
theorem C09_agree (h : om ≠ 0) (s : ℝ) :
    pointAt (fin s) (hpR om tl ph d z) (V3.re rx ry rz) =
      ⟨calculateXfromS (fin s) (hpR om tl ph d z) (V3.re rx ry rz),
       calculateYfromS (fin s) (hpR om tl ph d z) (V3.re rx ry rz),
       calculateZfromS (fin s) (hpR om tl ph d z) (V3.re rx ry rz)⟩ := by
  rw [pointAt_re h, calculateXfromS_re h, calculateYfromS_re h, calculateZfromS_re]
  rfl

/-! ## C10 -/

/-- C10: `calculateTangent` is a unit vector. -/
theorem C10_unit (s : ℝ) : ∃ t0 t1 t2 : ℝ, calculateTangent (fin s) (hpR om tl ph d z) = V3.re t0 t1 t2 ∧
    t0 ^ 2 + t1 ^ 2 + t2 ^ 2 = 1 := by
  refine ⟨_, _, _, calculateTangent_re, ?_⟩
  have e1 := Real.sin_sq_add_cos_sq (ph - om * s)
  have e2 := Real.sin_sq_add_cos_sq (Real.arctan tl)
  linear_combination (Real.cos (Real.arctan tl)) ^ 2 * e1 + e2

/-- C10: `pointAt` is the track of the specification, i.e. the unique curve starting at the point
of closest approach whose velocity is (cos(phi0 - omega s), sin(phi0 - omega s), tan(lambda)). -/
theorem C10_track (h : om ≠ 0) :
    ∃ x y w : ℝ → ℝ, (∀ s, pointAt (fin s) (hpR om tl ph d z) (V3.re rx ry rz) = V3.re (x s) (y s) (w s)) ∧
      Spec.IsTrack om tl ph (rx - d * Real.sin ph) (ry + d * Real.cos ph) (rz + z) x y w :=
  ⟨_, _, _, fun _ => pointAt_re h, isTrack_r h⟩

/-- C10: the velocity is the tangent divided by its (positive) transverse component. -/
theorem C10_tangent_is_velocity (h : om ≠ 0) :
    ∃ x y w t0 t1 t2 : ℝ → ℝ,
      (∀ s, pointAt (fin s) (hpR om tl ph d z) (V3.re rx ry rz) = V3.re (x s) (y s) (w s)) ∧
      (∀ s, calculateTangent (fin s) (hpR om tl ph d z) = V3.re (t0 s) (t1 s) (t2 s)) ∧
      ∃ c : ℝ, 0 < c ∧ ∀ s, c ^ 2 = t0 s ^ 2 + t1 s ^ 2 ∧ HasDerivAt x (t0 s / c) s ∧
        HasDerivAt y (t1 s / c) s ∧ HasDerivAt w (t2 s / c) s ∧
        deriv x s ^ 2 + deriv y s ^ 2 = 1 := by
  have hc := Real.cos_arctan_pos tl
  have ht := isTrack_r (om := om) (tl := tl) (ph := ph) (d := d) (z := z) (rx := rx) (ry := ry) (rz := rz) h
  refine ⟨_, _, _, _, _, _, fun s => pointAt_re h, fun s => calculateTangent_re, _, hc, fun s => ?_⟩
  have e1 := Real.sin_sq_add_cos_sq (ph - om * s)
  refine ⟨?_, ?_, ?_, ?_, ?_⟩
  · linear_combination -(Real.cos (Real.arctan tl)) ^ 2 * e1
  · rw [mul_div_assoc, div_self hc.ne', mul_one]; exact ht.vel_x s
  · rw [mul_div_assoc, div_self hc.ne', mul_one]; exact ht.vel_y s
  · rw [← Real.tan_eq_sin_div_cos, Real.tan_arctan]; exact ht.vel_z s
  · rw [(ht.vel_x s).deriv, (ht.vel_y s).deriv]; linarith

/-! ## C11 -/

/-- C11 fails for y: on a straight track along x (phi0 = 0) the y coordinate must stay constant but
`calculateYfromS` moves with s. -/
theorem C11_Y_false :
    ¬ ∀ (tl ph d z rx ry rz s : ℝ),
      calculateYfromS (fin s) (hpR 0 tl ph d z) (V3.re rx ry rz) =
        fin (ry + d * Real.cos ph + s * Real.sin ph) := by
  intro h
  have := h 0 0 0 0 0 0 0 1
  simp [calculateYfromS, calculateY0, V3.re] at this

/-- C11 fails for `pointAt`: for every straight track x and y are not finite. -/
theorem C11_pointAt_false (s : ℝ) :
    ∃ w : Dbl, pointAt (fin s) (hpR 0 tl ph d z) (V3.re rx ry rz) = ⟨nan, nan, w⟩ := by
  have h1 : (1 : Dbl) / fin 0 = inf false := by
    rw [one_eq, fin_div_zero one_ne_zero]; simp [sgn, not_lt.mpr zero_le_one]
  refine ⟨fin (rz + z + s * tl), ?_⟩
  simp only [pointAt, calculateOmega_hpR, calculatePhi0_hpR, calculateTanLambda_hpR,
    calculateD0_hpR, calculateZ0_hpR, h1, V3.re]
  simp

/-- C11 where it holds: x and z of a straight track follow the line; y does exactly for points and
directions with s*(cos phi0 - sin phi0) = 0.  Missing for C11: the general y coordinate and
`pointAt`. -/
theorem C11_straight_partial (s : ℝ) :
    calculateXfromS (fin s) (hpR 0 tl ph d z) (V3.re rx ry rz) =
      fin (rx - d * Real.sin ph + s * Real.cos ph) ∧
    calculateZfromS (fin s) (hpR 0 tl ph d z) (V3.re rx ry rz) = fin (rz + z + s * tl) ∧
    (calculateYfromS (fin s) (hpR 0 tl ph d z) (V3.re rx ry rz) =
      fin (ry + d * Real.cos ph + s * Real.sin ph) ↔ s * (Real.cos ph - Real.sin ph) = 0) := by
  refine ⟨?_, ?_, ?_⟩
  · simp only [calculateXfromS, calculateX0_re, calculateCurvature_hpR, calculatePhi0_hpR]; simp
  · rw [calculateZfromS_re]; rfl
  · simp only [calculateYfromS, calculateY0_re, calculateCurvature_hpR, calculatePhi0_hpR]
    simp
    constructor
    · intro h; rcases h with h | h
      · exact Or.inr (by linarith)
      · exact Or.inl h
    · intro h; rcases h with h | h
      · exact Or.inr h
      · exact Or.inl (by linarith)

/-! ## C12 -/

/-- C12: within half a turn `calculateSfromXY` inverts `pointAt`. -/
theorem C12_inverse (h : om ≠ 0) (hph : |ph| ≤ 2 * Real.pi) (s : ℝ) (hs : |om * s| < Real.pi) :
    ∃ x y w : ℝ, pointAt (fin s) (hpR om tl ph d z) (V3.re rx ry rz) = V3.re x y w ∧
      calculateSfromXY (fin x) (fin y) (hpR om tl ph d z) (V3.re rx ry rz) = fin s :=
  ⟨_, _, _, pointAt_re h, calculateSfromXY_track h hph hs⟩

/-- C12: conversely, every point on the circle of the track other than the one opposite to the point
of closest approach is reproduced from the path length computed for it. -/
theorem C12_inverse_xy (h : om ≠ 0) (hph : |ph| ≤ 2 * Real.pi) (x y cx cy r x0 y0 : ℝ)
    (hcx : calculateXCenter (hpR om tl ph d z) (V3.re rx ry rz) = fin cx)
    (hcy : calculateYCenter (hpR om tl ph d z) (V3.re rx ry rz) = fin cy)
    (hr : calculateRadius (hpR om tl ph d z) = fin r)
    (hx0 : calculateX0 (hpR om tl ph d z) (V3.re rx ry rz) = fin x0)
    (hy0 : calculateY0 (hpR om tl ph d z) (V3.re rx ry rz) = fin y0)
    (hon : (x - cx) ^ 2 + (y - cy) ^ 2 = r ^ 2)
    (hopp : ¬ (x - cx = -(x0 - cx) ∧ y - cy = -(y0 - cy))) :
    ∃ s w : ℝ, calculateSfromXY (fin x) (fin y) (hpR om tl ph d z) (V3.re rx ry rz) = fin s ∧
      |om * s| < Real.pi ∧
      pointAt (fin s) (hpR om tl ph d z) (V3.re rx ry rz) = V3.re x y w := by
  rw [calculateXCenter_re h, fin_inj] at hcx
  rw [calculateYCenter_re h, fin_inj] at hcy
  rw [calculateRadius_re h, fin_inj] at hr
  rw [calculateX0_re, fin_inj] at hx0
  rw [calculateY0_re, fin_inj] at hy0
  subst hcx hcy hr hx0 hy0
  rw [sq_abs] at hon
  -- the angle of the point, relative to phi0
  have hsum : (om * (y - rCy om ph d ry)) ^ 2 + (-(om * (x - rCx om ph d rx))) ^ 2 = 1 := by
    have : (om * (y - rCy om ph d ry)) ^ 2 + (-(om * (x - rCx om ph d rx))) ^ 2 =
      om ^ 2 * ((x - rCx om ph d rx) ^ 2 + (y - rCy om ph d ry) ^ 2) := by ring
    rw [this, hon]; field_simp
  set u := om * (y - rCy om ph d ry) with hu
  set v := -(om * (x - rCx om ph d rx)) with hv
  have hne : ¬ (u = 0 ∧ v = 0) := by rintro ⟨h1, h2⟩; rw [h1, h2] at hsum; norm_num at hsum
  set a := ratan2 v u with ha
  have hcos : Real.cos a = u := by rw [ha, cos_ratan2 _ _ hne, hsum]; simp
  have hsin : Real.sin a = v := by rw [ha, sin_ratan2, hsum]; simp
  obtain ⟨k, hk1, hk2⟩ := exists_rep (ph - a)
  set b := ph - a + k * (2 * Real.pi) with hb
  have hpb1 : Real.cos (ph - b) = u := by
    have : ph - b = a - k * (2 * Real.pi) := by rw [hb]; ring
    rw [this, Real.cos_sub_int_mul_two_pi, hcos]
  have hpb2 : Real.sin (ph - b) = v := by
    have : ph - b = a - k * (2 * Real.pi) := by rw [hb]; ring
    rw [this, Real.sin_sub_int_mul_two_pi, hsin]
  have hbs : b / om * om = b := by field_simp
  have hX : rX om ph d rx (b / om) = x := by
    have h1 := rX_center (om := om) (ph := ph) (d := d) (rx := rx) (s := b / om)
    rw [hbs, hpb2, hv] at h1
    field_simp at h1
    linarith
  have hY : rY om ph d ry (b / om) = y := by
    have h1 := rY_center (om := om) (ph := ph) (d := d) (ry := ry) (s := b / om)
    rw [hbs, hpb1, hu] at h1
    field_simp at h1
    linarith
  have hbpi : b ≠ Real.pi := by
    intro hc
    apply hopp
    rw [hc, Real.sin_sub_pi] at hpb2
    rw [hc, Real.cos_sub_pi] at hpb1
    constructor
    · have h1 := rX_center (om := om) (ph := ph) (d := d) (rx := rx) (s := b / om)
      rw [hX, hbs, hc, Real.sin_sub_pi] at h1
      rw [h1, rCx]; ring
    · have h1 := rY_center (om := om) (ph := ph) (d := d) (ry := ry) (s := b / om)
      rw [hY, hbs, hc, Real.cos_sub_pi] at h1
      rw [h1, rCy]; ring
  have hlt : |om * (b / om)| < Real.pi := by
    rw [mul_comm, hbs, abs_lt]
    exact ⟨hk1, lt_of_le_of_ne hk2 hbpi⟩
  refine ⟨b / om, rZ tl z rz (b / om), ?_, hlt, ?_⟩
  · have := calculateSfromXY_track (tl := tl) (d := d) (z := z) (rx := rx) (ry := ry) (rz := rz) h hph hlt
    rwa [hX, hY] at this
  · rw [pointAt_re h, hX, hY]

/-- C12: the restriction on phi0 is needed: the azimuth difference is only wrapped once, so with
phi0 = 4π a track point at s = 1/2 is assigned s = 1/2 + 2π. -/
theorem C12_phi0_range_needed :
    ∃ x y w : ℝ, pointAt (fin (1/2)) (hpR 1 0 (4 * Real.pi) 0 0) (V3.re 0 0 0) = V3.re x y w ∧
      calculateSfromXY (fin x) (fin y) (hpR 1 0 (4 * Real.pi) 0 0) (V3.re 0 0 0) =
        fin (1/2 + 2 * Real.pi) := by
  refine ⟨_, _, _, pointAt_re one_ne_zero, ?_⟩
  have hpi := Real.pi_gt_three
  have hs4 : Real.sin (4 * Real.pi) = 0 := by
    have := Real.sin_nat_mul_pi 4; push_cast at this; exact this
  have hc4 : Real.cos (4 * Real.pi) = 1 := by
    have := Real.cos_nat_mul_two_pi 2
    rw [show ((2 : ℕ) : ℝ) * (2 * Real.pi) = 4 * Real.pi by push_cast; ring] at this
    exact this
  have hX : rX 1 (4 * Real.pi) 0 0 (1/2) = Real.sin (1/2) := by
    rw [rX, Real.sin_sub, hs4, hc4]; norm_num
  have hY : rY 1 (4 * Real.pi) 0 0 (1/2) = -1 + Real.cos (1/2) := by
    rw [rY, Real.cos_sub, hs4, hc4]; norm_num; ring
  have harg : ratan2 (-Real.sin (1/2)) (Real.cos (1/2)) = -(1/2) := by
    have := ratan2_polar (r := 1) (θ := -(1/2)) one_pos (by linarith) (by linarith)
    rwa [one_mul, one_mul, Real.sin_neg, Real.cos_neg] at this
  have hsin : Real.sin (1/2) ≠ 0 := (Real.sin_pos_of_pos_of_lt_pi (by norm_num) (by linarith)).ne'
  have c1 : -(1/2) - 4 * Real.pi < -Real.pi := by linarith
  have c3 : -(1/2) - 4 * Real.pi + 2 * Real.pi ≠ 0 := by
    intro hc; linarith
  have hs2 : Real.sin (-(1/2) - 4 * Real.pi + 2 * Real.pi) = -Real.sin (1/2) := by
    rw [Real.sin_add_two_pi, Real.sin_sub, hs4, hc4, Real.sin_neg]; ring
  simp only [calculateSfromXY, calculatePhi0_hpR, calculateD0_hpR, calculateCurvature_hpR, V3.re,
    sin_fin, cos_fin, fin_mul, fin_sub, fin_add, hX, hY, hs4, hc4, atan2_fin, pi_eq, fin_neg,
    fin_lt, ofNat_eq, zero_eq]
  have e1 : (0 : ℝ) - 1 * (Real.sin (1/2) - (0 - 0 * 0)) = -Real.sin (1/2) := by ring
  have e2 : (1 : ℝ) + 1 * (-1 + Real.cos (1/2) - (0 + 1 * 0)) = Real.cos (1/2) := by ring
  rw [e1, e2, harg, cif_pos c1]
  simp only [fin_eqv, c3, not_false_eq_true, cif_true, sin_fin, hs2]
  rw [fin_mul, fin_div _ (neg_ne_zero.mpr hsin), fin_inj]
  field_simp
  ring

/-- C12 is not vacuous -/
example : (0.01 : ℝ) ≠ 0 ∧ |(3 : ℝ)| ≤ 2 * Real.pi ∧ |(0.01 : ℝ) * 100| < Real.pi := by
  have := Real.pi_gt_three
  refine ⟨by norm_num, ?_, ?_⟩
  · rw [abs_of_pos] <;> linarith
  · rw [abs_of_pos] <;> norm_num; linarith

/-! ## C13 -/

/-- C13 fails: for a straight track with azimuth in (-π,π] the path length reported for every point
whatsoever is 0. -/
theorem C13_straight_always_zero (h1 : -Real.pi < ph) (h2 : ph ≤ Real.pi) (x y : ℝ) :
    calculateSfromXY (fin x) (fin y) (hpR 0 tl ph d z) (V3.re rx ry rz) = fin 0 := by
  have hpi := Real.pi_pos
  have harg := ratan2_polar (r := 1) one_pos h1 h2
  rw [one_mul, one_mul] at harg
  simp only [calculateSfromXY, calculatePhi0_hpR, calculateD0_hpR, calculateCurvature_hpR, V3.re,
    sin_fin, cos_fin, fin_mul, fin_sub, fin_add, atan2_fin, pi_eq, fin_neg,
    fin_lt, ofNat_eq, zero_eq, zero_mul, sub_zero, add_zero, harg, sub_self]
  have c1 : ¬ (0 < -Real.pi) := by linarith
  have c2 : ¬ (Real.pi < 0) := by linarith
  simp [c1, c2]

/-- C13 fails: a point at distance 1 along the track. -/
theorem C13_false : ¬ ∀ (ph s : ℝ), -Real.pi < ph → ph ≤ Real.pi →
    calculateSfromXY (fin (s * Real.cos ph)) (fin (s * Real.sin ph)) (hpR 0 0 ph 0 0) (V3.re 0 0 0) =
      fin s := by
  intro h
  have hpi := Real.pi_pos
  have h1 := h 0 1 (by linarith) hpi.le
  rw [C13_straight_always_zero _ _ _ _ _ _ _ (by linarith) hpi.le, fin_inj] at h1
  norm_num at h1

/-- C13 restricted to where it holds: the reported path length is right exactly for the starting
point.  Missing for C13: every other point. -/
theorem C13_straight_partial (h1 : -Real.pi < ph) (h2 : ph ≤ Real.pi) (s : ℝ) :
    calculateSfromXY (fin (rx - d * Real.sin ph + s * Real.cos ph))
      (fin (ry + d * Real.cos ph + s * Real.sin ph)) (hpR 0 tl ph d z) (V3.re rx ry rz) = fin s ↔
    s = 0 := by
  rw [C13_straight_always_zero _ _ _ _ _ _ _ h1 h2, fin_inj, eq_comm]

end Verif
