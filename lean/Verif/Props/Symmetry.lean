import Verif.Props.MoveHelix
import Verif.Props.HelixGeometry
import Verif.Props.VectorAlgebra
import Verif.Props.TrackMaterial
import Verif.Spec.Motion

/-!
# C90, C91: tracks in a rotated, shifted or mirrored system of coordinates
-/

open Classical

noncomputable section

namespace Verif

open Dbl Spec Matrix

/-! ## specification -/

/-- rotation by `a` around the z axis followed by a shift by `v` -/
def motion (a : ℝ) (v p : R3) : R3 :=
  ![Real.cos a * p 0 - Real.sin a * p 1 + v 0, Real.sin a * p 0 + Real.cos a * p 1 + v 1, p 2 + v 2]

/-- reflection at the plane y = 0 -/
def mirror (p : R3) : R3 := ![p 0, -p 1, p 2]

theorem motion_isometry (a : ℝ) (v p q : R3) : dot (motion a v p - motion a v q) (motion a v p - motion a v q) = dot (p - q) (p - q) := by
  have h := Real.sin_sq_add_cos_sq a
  simp only [dot, motion, Pi.sub_apply, cons_val_zero, cons_val_one, cons_val]
  linear_combination ((p 0 - q 0) ^ 2 + (p 1 - q 1) ^ 2) * h

variable {om tl ph d z s : ℝ} {r p q : R3}

theorem of_re (p : R3) : V3.of p = V3.re (p 0) (p 1) (p 2) := rfl

/-! ## C90 -/

/-- C90: in a rotated and shifted system every point of the track is the rotated and shifted point. -/
theorem C90_point_partial (h : om ≠ 0) (a : ℝ) (v : R3) (hp : pointAt (fin s) (hpR om tl ph d z) (V3.of r) = V3.of p) :
    pointAt (fin s) (hpR om tl (ph + a) d z) (V3.of (motion a v r)) = V3.of (motion a v p) := by
  rw [of_re, pointAt_re h] at hp
  have hp := of_inj (show V3.of ![_, _, _] = V3.of p from hp)
  rw [of_re, pointAt_re h, ← hp]
  have e : ph + a - s * om = (ph - s * om) + a := by ring
  simp only [of_re, V3.re, motion, rX, rY, rZ, cons_val_zero, cons_val_one, cons_val, V3.mk.injEq, fin_inj, e, Real.sin_add, Real.cos_add]
  refine ⟨by ring, by ring, by ring⟩

/-- C90: the same for the other family of position functions -/
theorem C90_xyz_partial (h : om ≠ 0) (a : ℝ) (v : R3)
    (hp : (⟨calculateXfromS (fin s) (hpR om tl ph d z) (V3.of r), calculateYfromS (fin s) (hpR om tl ph d z) (V3.of r),
      calculateZfromS (fin s) (hpR om tl ph d z) (V3.of r)⟩ : V3) = V3.of p) :
    (⟨calculateXfromS (fin s) (hpR om tl (ph + a) d z) (V3.of (motion a v r)),
      calculateYfromS (fin s) (hpR om tl (ph + a) d z) (V3.of (motion a v r)),
      calculateZfromS (fin s) (hpR om tl (ph + a) d z) (V3.of (motion a v r))⟩ : V3) = V3.of (motion a v p) := by
  have key : ∀ (ph : ℝ) (r : R3), (⟨calculateXfromS (fin s) (hpR om tl ph d z) (V3.of r),
      calculateYfromS (fin s) (hpR om tl ph d z) (V3.of r), calculateZfromS (fin s) (hpR om tl ph d z) (V3.of r)⟩ : V3) =
      pointAt (fin s) (hpR om tl ph d z) (V3.of r) := by
    intro ph r
    rw [of_re, pointAt_re h, calculateXfromS_re h, calculateYfromS_re h, calculateZfromS_re]
    rfl
  rw [key] at hp ⊢
  exact C90_point_partial h a v hp

/-- C90: the direction is rotated and does not depend on the shift. -/
theorem C90_tangent (a : ℝ) (hp : calculateTangent (fin s) (hpR om tl ph d z) = V3.of p) :
    calculateTangent (fin s) (hpR om tl (ph + a) d z) = V3.of (motion a 0 p) := by
  rw [calculateTangent_re] at hp
  have hp := of_inj (show V3.of ![_, _, _] = V3.of p from hp)
  rw [calculateTangent_re, ← hp]
  have e : ph + a - om * s = (ph - om * s) + a := by ring
  simp only [of_re, V3.re, motion, cons_val_zero, cons_val_one, cons_val, V3.mk.injEq, fin_inj, e, Real.sin_add, Real.cos_add, Pi.zero_apply]
  refine ⟨by ring, by ring, (add_zero _).symm⟩

/-- C90: the path length of the point of the track within half a turn is the same. -/
theorem C90_path (h : om ≠ 0) (hph : |ph| ≤ 2 * Real.pi) (a : ℝ) (hpa : |ph + a| ≤ 2 * Real.pi) (v : R3) (hs : |om * s| < Real.pi)
    (hp : pointAt (fin s) (hpR om tl ph d z) (V3.of r) = V3.of p) :
    calculateSfromXY (fin (p 0)) (fin (p 1)) (hpR om tl ph d z) (V3.of r) = fin s ∧
    calculateSfromXY (fin (motion a v p 0)) (fin (motion a v p 1)) (hpR om tl (ph + a) d z) (V3.of (motion a v r)) = fin s := by
  have key : ∀ (ph : ℝ) (r p : R3), |ph| ≤ 2 * Real.pi → pointAt (fin s) (hpR om tl ph d z) (V3.of r) = V3.of p →
      calculateSfromXY (fin (p 0)) (fin (p 1)) (hpR om tl ph d z) (V3.of r) = fin s := by
    intro ph r p hph hp
    obtain ⟨x, y, w, e1, e2⟩ := C12_inverse om tl ph d z (r 0) (r 1) (r 2) h hph s hs
    have e : V3.of ![x, y, w] = V3.of p := by rw [← hp]; exact e1.symm
    have e := of_inj e
    rw [← e]
    exact e2
  exact ⟨key ph r p hph hp, key _ _ _ hpa (C90_point_partial h a v hp)⟩

theorem rC_motion (a : ℝ) (v r : R3) (f e : ℝ) : rCx om (f + a) e (motion a v r 0) =
      motion a v ![rCx om f e (r 0), rCy om f e (r 1), 0] 0 ∧
    rCy om (f + a) e (motion a v r 1) = motion a v ![rCx om f e (r 0), rCy om f e (r 1), 0] 1 := by
  simp only [rCx, rCy, motion, cons_val_zero, cons_val_one, Real.sin_add, Real.cos_add]
  exact ⟨by ring, by ring⟩

/-- the centre of the circle moves along -/
theorem C90_center (h : om ≠ 0) (a : ℝ) (v : R3) {cx cy : ℝ} (hx : calculateXCenter (hpR om tl ph d z) (V3.of r) = fin cx)
    (hy : calculateYCenter (hpR om tl ph d z) (V3.of r) = fin cy) :
    calculateXCenter (hpR om tl (ph + a) d z) (V3.of (motion a v r)) = fin (motion a v ![cx, cy, 0] 0) ∧
    calculateYCenter (hpR om tl (ph + a) d z) (V3.of (motion a v r)) = fin (motion a v ![cx, cy, 0] 1) := by
  rw [of_re, calculateXCenter_re h, fin_inj] at hx
  rw [of_re, calculateYCenter_re h, fin_inj] at hy
  rw [of_re, calculateXCenter_re h, calculateYCenter_re h, fin_inj, fin_inj, ← hx, ← hy]
  exact rC_motion a v r ph d

theorem rC_period (f e x : ℝ) (k : ℤ) : rCx om (f + k * (2 * Real.pi)) e x = rCx om f e x ∧
    rCy om (f + k * (2 * Real.pi)) e x = rCy om f e x := by
  simp only [rCx, rCy, Real.sin_add_int_mul_two_pi, Real.cos_add_int_mul_two_pi, and_self]

/-- an angle in (-π, π] -/
theorem angle_range (x : ℝ) : ∃ k : ℤ, -Real.pi < x + k * (2 * Real.pi) ∧ x + k * (2 * Real.pi) ≤ Real.pi := by
  have hpi := Real.pi_pos
  have h := toIocMod_mem_Ioc Real.two_pi_pos (-Real.pi) x
  refine ⟨-toIocDiv Real.two_pi_pos (-Real.pi) x, ?_⟩
  have e : x + ((-toIocDiv Real.two_pi_pos (-Real.pi) x : ℤ) : ℝ) * (2 * Real.pi) = toIocMod Real.two_pi_pos (-Real.pi) x := by
    rw [toIocMod, zsmul_eq_mul]; push_cast; ring
  rw [e]
  exact ⟨h.1, by linarith [h.2]⟩

/-- all facts about a move to a point off the axis, with the covariance -/
theorem move_out {cov : M5} {om tl ph d z rx ry rz vx vy vz : ℝ} {upd : Bool} (h : om ≠ 0)
    (hoff : OffAxis (hpR om tl ph d z) (V3.re rx ry rz) vx vy) :
    ∃ (fn dn fd : ℝ) (k : ℤ),
      fd = fn - ph + k * (2 * Real.pi) ∧ -Real.pi < fd ∧ fd ≤ Real.pi ∧ -Real.pi < fn ∧
      fn ≤ Real.pi ∧ om * dn < 1 ∧ rCx om fn dn vx = rCx om ph d rx ∧
      rCy om fn dn vy = rCy om ph d ry ∧
      moveHelixTo ⟨cov, hpR om tl ph d z, V3.re rx ry rz⟩ (V3.re vx vy vz) upd =
        .ok (⟨if upd then M5.mul (M5.mul (moveF ⟨fin (1 / om), fin (1 / om - d), fin om, fin tl, fin (Real.cos fd), fin (Real.sin fd),
            fin fd, fin (-dn), 0, 0⟩) cov) (M5.transpose (moveF ⟨fin (1 / om), fin (1 / om - d), fin om, fin tl, fin (Real.cos fd),
            fin (Real.sin fd), fin fd, fin (-dn), 0, 0⟩)) else cov,
          hpR om tl fn dn (rz - vz + z - 1 / om * tl * fd), V3.re vx vy vz⟩, fin fd) := by
  obtain ⟨fn, dn, fd, k, e1, b1, b2, b3, b4, hcx, hcy, hR, hv⟩ :=
    move_re cov tl ph d z rx ry rz vx vy vz h
  rw [offAxis_re h] at hoff
  have hsq := Real.sqrt_pos.mpr hoff
  have hdn : om * dn < 1 := by
    have h1 : 1 - om * dn = |om| * Real.sqrt ((rCx om ph d rx - vx) ^ 2 + (rCy om ph d ry - vy) ^ 2) := by
      have h2 : om * (1 / om - dn) = 1 - om * dn := by field_simp
      rw [← h2, hR, ← mul_sg h]; ring
    have : 0 < |om| := abs_pos.mpr h
    have := mul_pos this hsq
    linarith
  refine ⟨fn, dn, fd, k, e1, b1, b2, b3, b4, hdn, hcx, hcy, ?_⟩
  rw [moveHelixTo_of_vals upd hv]
  have hc : Real.cos fd = Real.cos (fn - ph) := by rw [e1, Real.cos_add_int_mul_two_pi]
  have hs : Real.sin fd = Real.sin (fn - ph) := by rw [e1, Real.sin_add_int_mul_two_pi]
  rw [hc, hs]
  rfl

/-- angles in (-π, π] that agree up to full turns -/
theorem angle_eq {x y : ℝ} (k : ℤ) (e : x = y + k * (2 * Real.pi)) (h : |x - y| < 2 * Real.pi) : x = y := by
  have hpi := Real.pi_pos
  have hz : k = 0 := by
    by_contra hne
    have h1 : (1 : ℝ) ≤ |(k : ℝ)| := by exact_mod_cast Int.one_le_abs hne
    have h2 : |x - y| = |(k : ℝ)| * (2 * Real.pi) := by rw [e, add_sub_cancel_left, abs_mul, abs_of_pos Real.two_pi_pos]
    nlinarith
  simpa [hz] using e

/-- C90: moving the track to a reference point off the axis gives the same parameters and the same covariance matrix, with the azimuth
rotated (up to full turns), and the same angle. -/
theorem C90_move_partial (h : om ≠ 0) (cov : M5) (upd : Bool) (a : ℝ) (v : R3)
    (hoff : OffAxis (hpR om tl ph d z) (V3.of r) (q 0) (q 1)) :
    ∃ (c : M5) (f1 f2 e1 z1 w : ℝ) (k : ℤ),
      moveHelixTo ⟨cov, hpR om tl ph d z, V3.of r⟩ (V3.of q) upd = .ok (⟨c, hpR om tl f1 e1 z1, V3.of q⟩, fin w) ∧
      moveHelixTo ⟨cov, hpR om tl (ph + a) d z, V3.of (motion a v r)⟩ (V3.of (motion a v q)) upd =
        .ok (⟨c, hpR om tl f2 e1 z1, V3.of (motion a v q)⟩, fin w) ∧
      f2 = f1 + a + k * (2 * Real.pi) := by
  have hpi := Real.pi_pos
  obtain ⟨f1, d1, w1, k1, a1, a2, a3, a4, a5, a6, a7, a8, a9⟩ := move_out (cov := cov) (upd := upd) (vz := q 2) h hoff
  obtain ⟨m1, m2⟩ := rC_motion (om := om) a v r ph d
  have hoff' : OffAxis (hpR om tl (ph + a) d z) (V3.re (motion a v r 0) (motion a v r 1) (motion a v r 2)) (motion a v q 0)
      (motion a v q 1) := by
    rw [of_re, offAxis_re h] at hoff
    rw [offAxis_re h, m1, m2]
    refine lt_of_lt_of_eq hoff ?_
    have hs := Real.sin_sq_add_cos_sq a
    simp only [motion, cons_val_zero, cons_val_one]
    linear_combination (-((rCx om ph d (r 0) - q 0) ^ 2 + (rCy om ph d (r 1) - q 1) ^ 2)) * hs
  obtain ⟨f2, d2, w2, k2, b1, b2, b3, b4, b5, b6, b7, b8, b9⟩ :=
    move_out (cov := cov) (upd := upd) (vz := motion a v q 2) h hoff'
  obtain ⟨k, hk1, hk2⟩ := angle_range (f1 + a)
  have hcx : rCx om f2 d2 (motion a v q 0) = rCx om (f1 + a + k * (2 * Real.pi)) d1 (motion a v q 0) := by
    rw [(rC_period _ _ _ k).1, b7, m1, (rC_motion a v q f1 d1).1, a7, a8]
  have hcy : rCy om f2 d2 (motion a v q 1) = rCy om (f1 + a + k * (2 * Real.pi)) d1 (motion a v q 1) := by
    rw [(rC_period _ _ _ k).2, b8, m2, (rC_motion a v q f1 d1).2, a7, a8]
  obtain ⟨hf, hd⟩ := branch_unique h hcx hcy b6 a6 b4 b5 hk1 hk2
  have hw : w2 = w1 := by
    refine angle_eq (k + k2 - k1) ?_ (by rw [abs_lt]; constructor <;> linarith)
    rw [b1, a1, hf]; push_cast; ring
  subst hd hw
  refine ⟨_, f1, f2, d2, _, w2, k, a9, ?_, hf⟩
  have e : motion a v r 2 - motion a v q 2 = r 2 - q 2 := by simp [motion]
  rw [e] at b9
  exact b9

/-- C90 is false for straight tracks: `calculateYfromS` uses the cosine of the azimuth.  A track along x seen in a system
rotated by a quarter turn. -/
theorem C90_straight_false : ∃ (s a : ℝ) (r p p' : R3),
    (⟨calculateXfromS (fin s) (hpR 0 0 0 0 0) (V3.of r), calculateYfromS (fin s) (hpR 0 0 0 0 0) (V3.of r),
      calculateZfromS (fin s) (hpR 0 0 0 0 0) (V3.of r)⟩ : V3) = V3.of p ∧
    (⟨calculateXfromS (fin s) (hpR 0 0 (0 + a) 0 0) (V3.of (motion a 0 r)),
      calculateYfromS (fin s) (hpR 0 0 (0 + a) 0 0) (V3.of (motion a 0 r)),
      calculateZfromS (fin s) (hpR 0 0 (0 + a) 0 0) (V3.of (motion a 0 r))⟩ : V3) = V3.of p' ∧
    p' ≠ motion a 0 p := by
  refine ⟨1, Real.pi / 2, 0, ![1, 1, 0], ![0, 0, 0], ?_, ?_, ?_⟩
  · rw [of_re]
    simp only [calculateXfromS, calculateYfromS, calculateX0_re, calculateY0_re, calculateZfromS_re]
    simp [V3.of, V3.re, rZ]
  · rw [of_re]
    simp only [calculateXfromS, calculateYfromS, calculateX0_re, calculateY0_re, calculateZfromS_re]
    simp [V3.of, V3.re, rZ, motion]
  · intro h
    have := congrFun h 1
    simp [motion] at this

/-! ## C91 -/

/-- C91: a particle of opposite charge mirrored at the plane y = 0 passes through the mirrored points. -/
theorem C91_point (h : om ≠ 0) (hp : pointAt (fin s) (hpR om tl ph d z) (V3.of r) = V3.of p) :
    pointAt (fin s) (hpR (-om) tl (-ph) (-d) z) (V3.of (mirror r)) = V3.of (mirror p) := by
  rw [of_re, pointAt_re h] at hp
  have hp := of_inj (show V3.of ![_, _, _] = V3.of p from hp)
  rw [of_re, pointAt_re (neg_ne_zero.2 h), ← hp]
  have e : -ph - s * -om = -(ph - s * om) := by ring
  simp only [of_re, V3.re, mirror, rX, rY, rZ, cons_val_zero, cons_val_one, cons_val, V3.mk.injEq, fin_inj, e, Real.sin_neg,
    Real.cos_neg, and_true]
  constructor
  · field_simp; ring
  · field_simp; ring

/-- C91: the direction is mirrored. -/
theorem C91_tangent (hp : calculateTangent (fin s) (hpR om tl ph d z) = V3.of p) :
    calculateTangent (fin s) (hpR (-om) tl (-ph) (-d) z) = V3.of (mirror p) := by
  rw [calculateTangent_re] at hp
  have hp := of_inj (show V3.of ![_, _, _] = V3.of p from hp)
  rw [calculateTangent_re, ← hp]
  have e : -ph - -om * s = -(ph - om * s) := by ring
  rw [e, Real.sin_neg, Real.cos_neg, neg_mul]
  rfl

/-- C91: the momentum is mirrored, in a field that has the same z component in both. -/
theorem C91_momentum (h : om ≠ 0) {f1 f2 : V3 → V3} {bz : ℝ} (hf1 : (f1 (V3.of r)).z = fin bz) (hf2 : (f2 (V3.of (mirror r))).z = fin bz)
    (hp : momentumAt f1 (fin s) (hpR om tl ph d z) (V3.of r) = V3.of p) :
    momentumAt f2 (fin s) (hpR (-om) tl (-ph) (-d) z) (V3.of (mirror r)) = V3.of (mirror p) := by
  have key : ∀ (f : V3 → V3) (om ph d : ℝ) (r : R3), om ≠ 0 → (f (V3.of r)).z = fin bz →
      momentumAt f (fin s) (hpR om tl ph d z) (V3.of r) = V3.of ![|1 / om| * bz * (0.299792458 * (1 / 100)) * Real.cos (ph - s * om),
        |1 / om| * bz * (0.299792458 * (1 / 100)) * Real.sin (ph - s * om), |1 / om| * bz * (0.299792458 * (1 / 100)) * tl] := by
    intro f om ph d r h hf
    unfold momentumAt
    simp only [calculatePhi0_hpR, calculateOmega_hpR, calculateTanLambda_hpR, hf, one_eq, fin_div _ h, abs_fin, convertBr2P_cm,
      fin_mul, fin_sub, cos_fin, sin_fin]
    rfl
  rw [key _ _ _ _ _ h hf1] at hp
  rw [key _ _ _ _ _ (neg_ne_zero.2 h) hf2, ← of_inj hp]
  have e : -ph - s * -om = -(ph - s * om) := by ring
  rw [e, Real.sin_neg, Real.cos_neg, div_neg, abs_neg, mul_neg]
  rfl

/-- C91: moving the mirrored track to the mirrored reference point gives the mirrored parameters and the opposite angle, unless the
track is moved by exactly half a turn. -/
theorem C91_move_partial (h : om ≠ 0) (cov : M5) (upd : Bool) (hoff : OffAxis (hpR om tl ph d z) (V3.of r) (q 0) (q 1)) :
    ∃ (c1 c2 : M5) (f1 f2 e1 z1 w : ℝ) (k : ℤ),
      moveHelixTo ⟨cov, hpR om tl ph d z, V3.of r⟩ (V3.of q) upd = .ok (⟨c1, hpR om tl f1 e1 z1, V3.of q⟩, fin w) ∧
      (w ≠ Real.pi → moveHelixTo ⟨cov, hpR (-om) tl (-ph) (-d) z, V3.of (mirror r)⟩ (V3.of (mirror q)) upd =
        .ok (⟨c2, hpR (-om) tl f2 (-e1) z1, V3.of (mirror q)⟩, fin (-w)) ∧
      f2 = -f1 + k * (2 * Real.pi)) := by
  have hpi := Real.pi_pos
  have h' : -om ≠ 0 := neg_ne_zero.2 h
  obtain ⟨c1, f1, d1, w1, k1, a1, a2, a3, a4, a5, a6, a7, a8, a9⟩ := move_off (cov := cov) (upd := upd) (vz := q 2) h hoff
  have mx : ∀ f e x : ℝ, rCx (-om) (-f) (-e) x = rCx om f e x := by
    intro f e x; simp only [rCx, Real.sin_neg, div_neg]; ring
  have my : ∀ f e x : ℝ, rCy (-om) (-f) (-e) (-x) = -rCy om f e x := by
    intro f e x; simp only [rCy, Real.cos_neg, div_neg]; ring
  have hoff' : OffAxis (hpR (-om) tl (-ph) (-d) z) (V3.re (r 0) (-r 1) (r 2)) (q 0) (-q 1) := by
    rw [of_re, offAxis_re h] at hoff
    rw [offAxis_re h', mx, my]
    refine lt_of_lt_of_eq hoff ?_
    ring
  obtain ⟨c2, f2, d2, w2, k2, b1, b2, b3, b4, b5, b6, b7, b8, b9⟩ := move_off (cov := cov) (upd := upd) (vz := q 2) h' hoff'
  obtain ⟨k, hk1, hk2⟩ := angle_range (-f1)
  have hcx : rCx (-om) f2 d2 (q 0) = rCx (-om) (-f1 + k * (2 * Real.pi)) (-d1) (q 0) := by
    rw [(rC_period _ _ _ k).1, b7, mx, mx, a7]
  have hcy : rCy (-om) f2 d2 (-q 1) = rCy (-om) (-f1 + k * (2 * Real.pi)) (-d1) (-q 1) := by
    rw [(rC_period _ _ _ k).2, b8, my, my, a8]
  obtain ⟨hf, hd⟩ := branch_unique h' hcx hcy b6 (by linarith) b4 b5 hk1 hk2
  refine ⟨c1, c2, f1, f2, d1, _, w1, k, a9, fun hne => ?_⟩
  have hlt : w1 < Real.pi := lt_of_le_of_ne a3 hne
  have hw : w2 = -w1 := by
    refine angle_eq (k + k2 + k1) ?_ (by rw [abs_lt]; constructor <;> linarith)
    rw [b1, a1, hf]; push_cast; ring
  refine ⟨?_, hf⟩
  rw [hd, hw] at b9
  have e : 1 / -om * tl * -w1 = 1 / om * tl * w1 := by rw [div_neg]; ring
  rw [e] at b9
  exact b9

/-- C91 without the exception is false: for a track moved by half a turn both angles are π, and the positions along z differ. -/
theorem C91_half_turn_false : ∃ (r q : R3) (c1 c2 : M5) (h1 h2 : V5),
    moveHelixTo ⟨M5.zero, hpR 1 1 0 0 0, V3.of r⟩ (V3.of q) false = .ok (⟨c1, h1, V3.of q⟩, fin Real.pi) ∧
    moveHelixTo ⟨M5.zero, hpR (-1) 1 (-0) (-0) 0, V3.of (mirror r)⟩ (V3.of (mirror q)) false =
      .ok (⟨c2, h2, V3.of (mirror q)⟩, fin Real.pi) ∧
    h1 Z0 ≠ h2 Z0 := by
  have hpi := Real.pi_pos
  have key : ∀ om : ℝ, |om| = 1 → ∃ (c : M5) (f e : ℝ), moveHelixTo ⟨M5.zero, hpR om 1 0 0 0, V3.re 0 0 0⟩ (V3.re 0 (-3 * om) 0) false =
      .ok (⟨c, hpR om 1 f e (-(1 / om) * Real.pi), V3.re 0 (-3 * om) 0⟩, fin Real.pi) := by
    intro om ho
    have h : om ≠ 0 := by intro h; simp [h] at ho
    have hsq : om * om = 1 := by rw [← abs_mul_abs_self, ho]; ring
    have hoff : OffAxis (hpR om 1 0 0 0) (V3.re 0 0 0) 0 (-3 * om) := by
      rw [offAxis_re h]
      simp only [rCx, rCy, Real.sin_zero, Real.cos_zero]
      have : 1 / om = om := by field_simp; nlinarith
      rw [this]; nlinarith
    obtain ⟨c, f, e, w, k, a1, a2, a3, a4, a5, a6, a7, a8, a9⟩ := move_off (cov := M5.zero) (upd := false) (vz := 0) h hoff
    have hinv : 1 / om = om := by field_simp; nlinarith
    simp only [rCx, rCy, Real.sin_zero, Real.cos_zero, hinv] at a7 a8
    have hpos : 0 < om * (om - e) := by linarith
    have hs : Real.sin f = 0 := by
      have : (om - e) * Real.sin f = 0 := by linarith
      rcases mul_eq_zero.1 this with h0 | h0
      · rw [h0] at hpos; simp at hpos
      · exact h0
    have hc : Real.cos f < 0 := by
      have : om * (om - e) * Real.cos f = -2 := by linear_combination (-om) * a8 - 2 * hsq
      by_contra hc
      have := mul_nonneg hpos.le (not_lt.1 hc)
      linarith
    have hf : f = Real.pi := by
      rcases lt_trichotomy f 0 with h0 | h0 | h0
      · have := Real.sin_neg_of_neg_of_neg_pi_lt h0 a4
        linarith
      · rw [h0, Real.cos_zero] at hc; linarith
      · by_contra hne
        have := Real.sin_pos_of_pos_of_lt_pi h0 (lt_of_le_of_ne a5 hne)
        linarith
    have hw : w = Real.pi := by
      refine angle_eq k ?_ (by rw [abs_lt]; constructor <;> linarith)
      rw [a1, hf]; ring
    rw [hw] at a9
    refine ⟨c, f, e, a9.trans ?_⟩
    rw [show (0 : ℝ) - 0 + 0 - 1 / om * 1 * Real.pi = -(1 / om) * Real.pi by ring]
  obtain ⟨c1, f1, e1, m1⟩ := key 1 (by simp)
  obtain ⟨c2, f2, e2, m2⟩ := key (-1) (by simp)
  refine ⟨0, ![0, -3, 0], c1, c2, hpR 1 1 f1 e1 (-(1 / 1) * Real.pi), hpR (-1) 1 f2 e2 (-(1 / (-1)) * Real.pi), ?_, ?_, ?_⟩
  · rw [mul_one] at m1
    exact m1
  · rw [neg_zero]
    have e1 : V3.of (mirror ![0, -3, 0]) = V3.re 0 (-3 * -1) 0 := by
      rw [of_re]
      simp [mirror]
    have e2 : V3.of (mirror 0) = V3.re 0 0 0 := by
      rw [of_re]
      simp [mirror]
    rw [e1, e2]
    exact m2
  · intro he
    have he : -(1 / 1) * Real.pi = -(1 / (-1)) * Real.pi := by
      exact (fin_inj _ _).1 he
    linarith

/-- the statements are about something: a track with curvature in a system rotated by a quarter turn, and its mirror image -/
example : ∃ p : R3, pointAt (fin 1) (hpR 1 1 0 0 0) (V3.of 0) = V3.of p ∧ motion (Real.pi / 2) ![1, 2, 3] p ≠ p ∧ mirror p ≠ p := by
  refine ⟨![rX 1 0 0 0 1, rY 1 0 0 0 1, rZ 1 0 0 1], ?_, fun h => ?_, fun h => ?_⟩
  · rw [of_re]
    simp only [Pi.zero_apply]
    rw [pointAt_re one_ne_zero]
    rfl
  · have := congrFun h 2
    simp [motion] at this
  · have := congrFun h 1
    simp [mirror, rY] at this
    have h1 : Real.cos 1 < Real.cos 0 := Real.cos_lt_cos_of_nonneg_of_le_pi le_rfl (by linarith [Real.pi_gt_three]) one_pos
    rw [Real.cos_zero] at h1
    linarith

end Verif
