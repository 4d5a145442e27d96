import Verif.Props.Momentum
import Verif.Props.TrajectoryExample

/-!
# C83, C84: azimuth along the track; material effects of a track
-/

open Classical

noncomputable section

namespace Verif

open Dbl

variable {om tl ph d z rx ry rz : ℝ}

/-! ## C83 -/

theorem phiXY_re (x y : ℝ) : calculatePhifromXY (fin x) (fin y) (hpR om tl ph d z) (V3.re rx ry rz) =
    fin (ratan2 (Real.sin ph - om * (x - (rx - d * Real.sin ph))) (Real.cos ph + om * (y - (ry + d * Real.cos ph)))) := by
  simp only [calculatePhifromXY, calculateX0_re, calculateY0_re, calculatePhi0_hpR, calculateCurvature_hpR, sin_fin, cos_fin,
    fin_mul, fin_sub, fin_add, atan2_fin]

/-- C83: at every point of the track, after any number of turns, `calculatePhifromXY` is the azimuth of the direction of
motion, in (-π, π]. -/
theorem C83_azimuth (h : om ≠ 0) (s : ℝ) : ∃ x y w a c t0 t1 t2 : ℝ,
    pointAt (fin s) (hpR om tl ph d z) (V3.re rx ry rz) = V3.re x y w ∧
    calculateTangent (fin s) (hpR om tl ph d z) = V3.re t0 t1 t2 ∧
    calculatePhifromXY (fin x) (fin y) (hpR om tl ph d z) (V3.re rx ry rz) = fin a ∧
    -Real.pi < a ∧ a ≤ Real.pi ∧ 0 < c ∧ t0 = c * Real.cos a ∧ t1 = c * Real.sin a := by
  obtain ⟨k, hk⟩ := ratan2_sin_cos one_pos (ph - s * om)
  have hm := ratan2_mem (1 * Real.sin (ph - s * om)) (1 * Real.cos (ph - s * om))
  refine ⟨_, _, _, _, Real.cos (Real.arctan tl), _, _, _, pointAt_re h, calculateTangent_re, phiXY_re _ _, ?_⟩
  have e1 : Real.sin ph - om * (rX om ph d rx s - (rx - d * Real.sin ph)) = 1 * Real.sin (ph - s * om) := by
    unfold rX; field_simp; ring
  have e2 : Real.cos ph + om * (rY om ph d ry s - (ry + d * Real.cos ph)) = 1 * Real.cos (ph - s * om) := by
    unfold rY; field_simp; ring
  rw [e1, e2]
  refine ⟨hm.1, hm.2, Real.cos_arctan_pos tl, ?_, ?_⟩
  · rw [hk, Real.cos_add_int_mul_two_pi, mul_comm s om]; ring
  · rw [hk, Real.sin_add_int_mul_two_pi, mul_comm s om]; ring

/-- C83: for a straight track it is the azimuth of the track at every point. -/
theorem C83_straight (x y : ℝ) : ∃ a : ℝ, ∃ k : ℤ,
    calculatePhifromXY (fin x) (fin y) (hpR 0 tl ph d z) (V3.re rx ry rz) = fin a ∧
    a = ph + k * (2 * Real.pi) ∧ -Real.pi < a ∧ a ≤ Real.pi := by
  obtain ⟨k, hk⟩ := ratan2_sin_cos one_pos ph
  have hm := ratan2_mem (1 * Real.sin ph) (1 * Real.cos ph)
  refine ⟨_, k, phiXY_re _ _, ?_⟩
  rw [zero_mul, zero_mul, sub_zero, add_zero, ← one_mul (Real.sin ph), ← one_mul (Real.cos ph)]
  exact ⟨hk, hm⟩

/-- C83: off the track it is the direction of motion on the concentric circle through the point: across the radius, and in
the same sense of rotation. -/
theorem C83_concentric (h : om ≠ 0) (x y cx cy : ℝ)
    (hcx : calculateXCenter (hpR om tl ph d z) (V3.re rx ry rz) = fin cx)
    (hcy : calculateYCenter (hpR om tl ph d z) (V3.re rx ry rz) = fin cy) (hne : ¬ (x = cx ∧ y = cy)) :
    ∃ a r : ℝ, calculatePhifromXY (fin x) (fin y) (hpR om tl ph d z) (V3.re rx ry rz) = fin a ∧
      0 < r ∧ x - cx = -(r / om) * Real.sin a ∧ y - cy = r / om * Real.cos a := by
  rw [calculateXCenter_re h, fin_inj] at hcx
  rw [calculateYCenter_re h, fin_inj] at hcy
  have e1 : Real.sin ph - om * (x - (rx - d * Real.sin ph)) = -om * (x - cx) := by
    rw [← hcx]; unfold rCx; field_simp; ring
  have e2 : Real.cos ph + om * (y - (ry + d * Real.cos ph)) = om * (y - cy) := by
    rw [← hcy]; unfold rCy; field_simp; ring
  have hn : ¬ (om * (y - cy) = 0 ∧ -om * (x - cx) = 0) := by
    rintro ⟨h1, h2⟩
    apply hne
    constructor
    · have := (mul_eq_zero.mp h2).resolve_left (neg_ne_zero.mpr h); linarith
    · have := (mul_eq_zero.mp h1).resolve_left h; linarith
  have hr : 0 < Real.sqrt ((om * (y - cy)) ^ 2 + (-om * (x - cx)) ^ 2) := by
    apply Real.sqrt_pos.mpr
    by_contra hc
    apply hn
    have h1 := sq_nonneg (om * (y - cy))
    have h2 := sq_nonneg (-om * (x - cx))
    constructor
    · exact pow_eq_zero_iff (two_ne_zero) |>.mp (by linarith)
    · exact pow_eq_zero_iff (two_ne_zero) |>.mp (by linarith)
  refine ⟨_, _, phiXY_re x y, hr, ?_, ?_⟩
  · rw [e1, e2, sin_ratan2]
    generalize Real.sqrt ((om * (y - cy)) ^ 2 + (-om * (x - cx)) ^ 2) = q at hr
    field_simp
  · rw [e1, e2, cos_ratan2 _ _ hn]
    generalize Real.sqrt ((om * (y - cy)) ^ 2 + (-om * (x - cx)) ^ 2) = q at hr
    field_simp

/-- non-trivial case for `C83_concentric` -/
example : ∃ a r : ℝ, calculatePhifromXY (fin 0) (fin 1) (hpR 1 0 0 0 0) (V3.re 0 0 0) = fin a ∧
    0 < r ∧ (0 : ℝ) - 0 = -(r / 1) * Real.sin a ∧ (1 : ℝ) - -1 = r / 1 * Real.cos a :=
  C83_concentric one_ne_zero 0 1 0 (-1) (by rw [calculateXCenter_re one_ne_zero]; simp [rCx])
    (by rw [calculateYCenter_re one_ne_zero]; simp [rCy]) (by norm_num)

/-! ## C84 -/

/-- momentum vector for a field of size `b` along z: transverse momentum `b` conv / |ω|, along the tangent at arc length `s` -/
def alongTrack (b om tl ph d z s : ℝ) : V3 :=
  V3.smul (fin (b * kBr / |om| / Real.cos (Real.arctan tl))) (calculateTangent (fin s) (hpR om tl ph d z))

theorem alongTrack_re (b s : ℝ) : alongTrack b om tl ph d z s =
    V3.re (b * kBr / |om| * Real.cos (ph - om * s)) (b * kBr / |om| * Real.sin (ph - om * s)) (b * kBr / |om| * tl) := by
  have hc := (Real.cos_arctan_pos tl).ne'
  have ht : Real.sin (Real.arctan tl) = tl * Real.cos (Real.arctan tl) := by
    have := Real.tan_arctan tl
    rw [Real.tan_eq_sin_div_cos] at this
    field_simp at this
    linarith
  rw [alongTrack, calculateTangent_re]
  simp only [V3.smul, V3.re, fin_mul, V3.mk.injEq, fin_inj, ht]
  refine ⟨?_, ?_, ?_⟩ <;> field_simp

theorem alongTrack_neg (b s : ℝ) : alongTrack (-b) om tl ph d z s = -alongTrack b om tl ph d z s := by
  rw [alongTrack_re, alongTrack_re]
  show _ = V3.neg _
  simp only [V3.neg, V3.re, fin_neg, V3.mk.injEq, fin_inj]
  refine ⟨?_, ?_, ?_⟩ <;> ring

theorem trackMomentum {bField : V3 → V3} {bx by' bz s : ℝ} (h : om ≠ 0) {xx : V3}
    (hxx : xx = pointAt (fin s) (hpR om tl ph d z) (V3.re rx ry rz)) (hB : bField xx = V3.re bx by' bz) :
    (let phi := calculatePhifromXY xx.x xx.y (hpR om tl ph d z) (V3.re rx ry rz)
     let pt := Dbl.abs (1 / calculateOmega (hpR om tl ph d z)) * (bField xx).z * convertBr2P_cm
     (⟨pt * Dbl.cos phi, pt * Dbl.sin phi, pt * calculateTanLambda (hpR om tl ph d z)⟩ : V3)) =
    alongTrack bz om tl ph d z s := by
  obtain ⟨k, hk⟩ := ratan2_sin_cos one_pos (ph - s * om)
  have e1 : Real.sin ph - om * (rX om ph d rx s - (rx - d * Real.sin ph)) = 1 * Real.sin (ph - s * om) := by
    unfold rX; field_simp; ring
  have e2 : Real.cos ph + om * (rY om ph d ry s - (ry + d * Real.cos ph)) = 1 * Real.cos (ph - s * om) := by
    unfold rY; field_simp; ring
  have hp : calculatePhifromXY xx.x xx.y (hpR om tl ph d z) (V3.re rx ry rz) = fin (ph - s * om + k * (2 * Real.pi)) := by
    rw [hxx, pointAt_re h]
    show calculatePhifromXY (fin _) (fin _) _ _ = _
    rw [phiXY_re, e1, e2, hk]
  rw [alongTrack_re]
  simp only [hp]
  simp only [hB, calculateOmega_hpR, calculateTanLambda_hpR, convert_eq, V3.re, one_eq, fin_div _ h, abs_fin, fin_mul,
    cos_fin, sin_fin, Real.cos_add_int_mul_two_pi, Real.sin_add_int_mul_two_pi, abs_div, abs_one, V3.mk.injEq, fin_inj,
    mul_comm om s]
  refine ⟨?_, ?_, ?_⟩ <;> ring

/-- C84: for a track that crosses the surface at arc length `s` and for any field, the overloads for a track give the
multiple scattering and energy loss at the crossing point for the momentum of the track there. -/
theorem C84_crossing {bField : V3 → V3} {bx by' bz s : ℝ} (h : om ≠ 0) (surf : Surface) (m : Dbl) {hit : Hit}
    (hi : intersectWithSurface surf (hpR om tl ph d z) (V3.re rx ry rz) 0 V3.zero 0 true = .ok hit) (hf : hit.found = true)
    (hxx : hit.xx = pointAt (fin s) (hpR om tl ph d z) (V3.re rx ry rz)) (hB : bField hit.xx = V3.re bx by' bz)
    (cov : M5) (e b : Option Dbl) :
    computeQMSHelix bField surf (hpR om tl ph d z) (V3.re rx ry rz) m =
      .ok (computeQMS surf (surf.globalToLocal hit.xx) (alongTrack |bz| om tl ph d z s) m) ∧
    computeEnergyLossTrack bField surf ⟨cov, hpR om tl ph d z, V3.re rx ry rz⟩ e b m =
      .ok (computeEnergyLoss surf (surf.globalToLocal hit.xx) (alongTrack |bz| om tl ph d z s) m) := by
  have hm := trackMomentum h hxx hB
  simp only at hm
  have hq : computeQMSHelix bField surf (hpR om tl ph d z) (V3.re rx ry rz) m =
      .ok (computeQMS surf (surf.globalToLocal hit.xx) (alongTrack bz om tl ph d z s) m) := by
    unfold computeQMSHelix
    rw [hi, Out.ok_bind, hf, if_pos rfl, ← hm]
    rfl
  have he : computeEnergyLossTrack bField surf ⟨cov, hpR om tl ph d z, V3.re rx ry rz⟩ e b m =
      .ok (computeEnergyLoss surf (surf.globalToLocal hit.xx) (alongTrack bz om tl ph d z s) m) := by
    unfold computeEnergyLossTrack
    simp only
    rw [hi, Out.ok_bind, hf, if_pos rfl, ← hm]
    rfl
  rcases le_or_gt 0 bz with hb | hb
  · rw [abs_of_nonneg hb]; exact ⟨hq, he⟩
  · rw [abs_of_neg hb, alongTrack_neg, C64_scattering_reversed, C64_energyLoss_reversed]; exact ⟨hq, he⟩

/-- non-trivial case for `C84_crossing` -/
example : ∃ r, computeQMSHelix (fun _ => V3.re 0 0 (-3)) Example.disk (hpR 1 1 0 0 0) (V3.re 0 0 0) pionMass = .ok r ∧
    ∃ hit : Hit, r = computeQMS Example.disk (Example.disk.globalToLocal hit.xx) (alongTrack |(-3 : ℝ)| 1 1 0 0 0 1) pionMass := by
  obtain ⟨sv, hit, e1, e2, e3, -, e5, e6⟩ := C30_disk (om := 1) (tl := 1) (ph := 0) (d := 0) (z := 0) (rx := 0) (ry := 0) (rz := 0)
    one_ne_zero one_ne_zero Example.disk 0 0 1 rfl 0 V3.zero 0 true
  have hsv : sv = 1 := by
    have := (e5 1).1 (by rw [pointAt_re one_ne_zero]; simp [rZ, V3.re])
    exact this.symm
  subst hsv
  have hi : intersectWithSurface Example.disk (hpR 1 1 0 0 0) (V3.re 0 0 0) 0 V3.zero 0 true = .ok hit := by
    unfold intersectWithSurface
    rw [if_neg (by simp [Example.disk, Example.diskB, SurfaceType.isZCylinder]),
      if_neg (by simp [Example.disk, Example.diskB, SurfaceType.isZPlane]),
      if_pos (by simp [Example.disk, Example.diskB, SurfaceType.isZDisk])]
    exact e1
  have hf : hit.found = true := by rw [e6]; exact ⟨Or.inl rfl, fun _ => rfl⟩
  exact ⟨_, (C84_crossing (bField := fun _ => V3.re 0 0 (-3)) one_ne_zero Example.disk pionMass hi hf e3 rfl M5.zero none none).1,
    hit, rfl⟩

/-- C84: the momentum used has transverse size |Bz| conv / |ω| and points along the direction of motion. -/
theorem C84_momentum (b s : ℝ) (hb : 0 < b) (h : om ≠ 0) : ∃ k : ℝ, 0 < k ∧
    alongTrack b om tl ph d z s = V3.smul (fin k) (calculateTangent (fin s) (hpR om tl ph d z)) ∧
    (alongTrack b om tl ph d z s).trans = fin (b * kBr / |om|) := by
  have h1 : 0 < b * kBr / |om| := div_pos (mul_pos hb kBr_pos) (abs_pos.mpr h)
  refine ⟨_, div_pos h1 (Real.cos_arctan_pos tl), rfl, ?_⟩
  rw [alongTrack_re]
  simp only [V3.trans, V3.re, fin_mul, fin_add]
  generalize b * kBr / |om| = p at *
  rw [show p * Real.cos (ph - om * s) * (p * Real.cos (ph - om * s)) + p * Real.sin (ph - om * s) * (p * Real.sin (ph - om * s)) =
    p ^ 2 * (Real.cos (ph - om * s) ^ 2 + Real.sin (ph - om * s) ^ 2) by ring, Real.cos_sq_add_sin_sq, mul_one,
    sqrt_fin (sq_nonneg _), Real.sqrt_sq h1.le]

/-- C84: without a crossing inside the boundary there are no material effects. -/
theorem C84_missed (bField : V3 → V3) (surf : Surface) (tp : TP) (m : Dbl) (e b : Option Dbl) {hit : Hit}
    (hi : intersectWithSurface surf tp.hp tp.rp 0 V3.zero 0 true = .ok hit) (hf : hit.found = false) :
    computeQMSHelix bField surf tp.hp tp.rp m = .ok 0 ∧
    ∃ r, computeEnergyLossTrack bField surf tp e b m = .ok r ∧ r.deltaE = 0 := by
  unfold computeQMSHelix computeEnergyLossTrack
  rw [hi, Out.ok_bind, Out.ok_bind, hf]
  exact ⟨rfl, _, rfl, rfl⟩

/-- C84: an intersection that cannot be computed is passed on. -/
theorem C84_exception (bField : V3 → V3) (surf : Surface) (tp : TP) (m : Dbl) (e b : Option Dbl) {w : String}
    (hi : intersectWithSurface surf tp.hp tp.rp 0 V3.zero 0 true = .throw w) :
    computeQMSHelix bField surf tp.hp tp.rp m = .throw w ∧ computeEnergyLossTrack bField surf tp e b m = .throw w := by
  unfold computeQMSHelix computeEnergyLossTrack
  rw [hi, Out.throw_bind, Out.throw_bind]
  exact ⟨rfl, rfl⟩

end Verif
