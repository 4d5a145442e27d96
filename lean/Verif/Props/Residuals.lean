import Verif.Props.Acceptance
import Verif.Props.SurfaceHits
import Verif.Props.Matter
import Verif.Props.Undefined

/-!
# C95: residuals of a measurement
-/

open Classical

noncomputable section

namespace Verif

open Dbl Traj Spec Matrix

/-! ## plane surfaces -/

/-- a plane surface through `o`, spanned by the orthonormal directions `u`, `v`, with Cartesian local coordinates -/
structure IsPlane (surf : Surface) (o u v : R3) : Prop where
  uu : dot u u = 1
  vv : dot v v = 1
  uv : dot u v = 0
  coord : ∀ p : R3, surf.globalToLocal (V3.of p) = ⟨fin (dot (p - o) u), fin (dot (p - o) v)⟩
  dirs : ∀ p : R3, surf.u (V3.of p) = V3.of u ∧ surf.v (V3.of p) = V3.of v

/-- the point is on the plane -/
def OnPlane (o u v p : R3) : Prop := dot (p - o) (cross u v) = 0

/-- expansion in an orthonormal system -/
theorem plane_expand {u v w : R3} (uu : dot u u = 1) (vv : dot v v = 1) (uv : dot u v = 0) (hw : dot w (cross u v) = 0) :
    w = dot w u • u + dot w v • v := by
  have hw : w 0 * (u 1 * v 2 - u 2 * v 1) + w 1 * (u 2 * v 0 - u 0 * v 2) + w 2 * (u 0 * v 1 - u 1 * v 0) = 0 := by
    simpa only [dot, cross_0, cross_1, cross_2] using hw
  simp only [dot] at uu vv uv
  -- the difference `r` is orthogonal to `u`, `v` and `u × v`
  set a := dot w u with ha
  set b := dot w v with hb
  simp only [dot] at ha hb
  have hz : ∀ i, (w i - a * u i - b * v i) = 0 := by
    have r1 : (w 0 - a * u 0 - b * v 0) * u 0 + (w 1 - a * u 1 - b * v 1) * u 1 + (w 2 - a * u 2 - b * v 2) * u 2 = 0 := by
      linear_combination -ha - a * uu - b * uv
    have r2 : (w 0 - a * u 0 - b * v 0) * v 0 + (w 1 - a * u 1 - b * v 1) * v 1 + (w 2 - a * u 2 - b * v 2) * v 2 = 0 := by
      linear_combination -hb - a * uv - b * vv
    have r3 : (w 0 - a * u 0 - b * v 0) * (u 1 * v 2 - u 2 * v 1) + (w 1 - a * u 1 - b * v 1) * (u 2 * v 0 - u 0 * v 2) +
        (w 2 - a * u 2 - b * v 2) * (u 0 * v 1 - u 1 * v 0) = 0 := by
      linear_combination hw
    suffices h3 : w 0 - a * u 0 - b * v 0 = 0 ∧ w 1 - a * u 1 - b * v 1 = 0 ∧ w 2 - a * u 2 - b * v 2 = 0 by
      intro i
      fin_cases i
      exacts [h3.1, h3.2.1, h3.2.2]
    generalize w 0 - a * u 0 - b * v 0 = x at *
    generalize w 1 - a * u 1 - b * v 1 = y at *
    generalize w 2 - a * u 2 - b * v 2 = q at *
    have n0 : (u 1 * v 2 - u 2 * v 1) ^ 2 + (u 2 * v 0 - u 0 * v 2) ^ 2 + (u 0 * v 1 - u 1 * v 0) ^ 2 = 1 := by
      linear_combination (v 0 * v 0 + v 1 * v 1 + v 2 * v 2) * uu + vv - (u 0 * v 0 + u 1 * v 1 + u 2 * v 2) * uv
    refine ⟨?_, ?_, ?_⟩
    · show x = 0
      linear_combination (v 1 * (u 0 * v 1 - u 1 * v 0) - v 2 * (u 2 * v 0 - u 0 * v 2)) * r1 +
        ((u 2 * v 0 - u 0 * v 2) * u 2 - (u 0 * v 1 - u 1 * v 0) * u 1) * r2 + (u 1 * v 2 - u 2 * v 1) * r3 - x * n0
    · show y = 0
      linear_combination (v 2 * (u 1 * v 2 - u 2 * v 1) - v 0 * (u 0 * v 1 - u 1 * v 0)) * r1 +
        ((u 0 * v 1 - u 1 * v 0) * u 0 - (u 1 * v 2 - u 2 * v 1) * u 2) * r2 + (u 2 * v 0 - u 0 * v 2) * r3 - y * n0
    · show q = 0
      linear_combination (v 0 * (u 2 * v 0 - u 0 * v 2) - v 1 * (u 1 * v 2 - u 2 * v 1)) * r1 +
        ((u 1 * v 2 - u 2 * v 1) * u 1 - (u 2 * v 0 - u 0 * v 2) * u 0) * r2 + (u 0 * v 1 - u 1 * v 0) * r3 - q * n0
  funext i
  have := hz i
  simp only [Pi.add_apply, Pi.smul_apply, smul_eq_mul]
  linarith

/-- C95: on a plane surface the residuals are the components of the vector from the crossing point of the track to the measured
position along the measurement directions; if both are on the plane, they make up the whole vector. -/
theorem C95_plane_partial {env : Env} {t : Traj} {p x o u v : R3} {prec : List Dbl} {surf : Surface} {id : ℕ} {sc : Bool} (hs : IsPlane surf o u v)
    (h : (t.step env (.measurement (V3.of p) prec surf id sc)).2 = .ok true) :
    ∃ e, (t.step env (.measurement (V3.of p) prec surf id sc)).1.elems = t.withStart.elems ++ [e] ∧
      e.measDirs = some [V3.of u, V3.of v] ∧
      (e.tp.rp = V3.of x → e.residuals = [fin (dot (p - x) u), fin (dot (p - x) v)] ∧
        (OnPlane o u v p → OnPlane o u v x → p - x = dot (p - x) u • u + dot (p - x) v • v ∧
          dot (p - x) (p - x) = dot (p - x) u ^ 2 + dot (p - x) v ^ 2)) := by
  obtain ⟨back, e, h1, h2, h3⟩ := measurement_step h
  obtain ⟨hit, tp, w, proj, r1, r2, r3, r4, rfl⟩ := measurement_ok h3
  refine ⟨_, h2, ?_, fun hx => ⟨?_, fun hp hx' => ?_⟩⟩
  · show some [_, _] = _
    rw [(hs.dirs p).1, (hs.dirs p).2]
  · have hx : hit.xx = V3.of x := by
      have := (move_const r3).2.2
      rw [← this]
      exact hx
    show [_, _] = _
    rw [hx, hs.coord, hs.coord]
    simp only [fin_sub, List.cons.injEq, fin_inj, and_true]
    simp only [dot, Pi.sub_apply]
    constructor <;> ring
  · have hd : dot (p - x) (cross u v) = 0 := by
      unfold OnPlane at hp hx'
      simp only [dot, Pi.sub_apply] at hp hx' ⊢
      linear_combination hp - hx'
    have he := plane_expand hs.uu hs.vv hs.uv hd
    refine ⟨he, ?_⟩
    generalize p - x = w at *
    generalize ha : dot w u = a at *
    generalize hb : dot w v = b at *
    have e0 := congrFun he 0
    have e1 := congrFun he 1
    have e2 := congrFun he 2
    simp only [Pi.add_apply, Pi.smul_apply, smul_eq_mul] at e0 e1 e2
    simp only [dot] at ha hb ⊢
    linear_combination w 0 * e0 + w 1 * e1 + w 2 * e2 + a * ha + b * hb

/-- non-trivial case: the disk of the example -/
theorem Example.disk_plane : IsPlane Example.disk ![0, 0, 1] ![1, 0, 0] ![0, 1, 0] where
  uu := by simp [dot]
  vv := by simp [dot]
  uv := by simp [dot]
  coord := by
    intro p
    show (⟨fin (p 0), fin (p 1)⟩ : V2) = _
    simp [dot]
  dirs := fun p => ⟨rfl, rfl⟩

/-! ## cylinders -/

namespace Example

/-- a thin cylinder of radius 1 around the z axis: the local coordinates are the arc length (azimuth in (-π, π]) and z -/
def cylinder : Surface where
  type := fun i => decide (i = 0 ∨ i = 4)
  isCone := false
  id := 0
  insideBounds := fun _ => true
  u := fun p => ⟨-Dbl.sin (Dbl.atan2 p.y p.x), Dbl.cos (Dbl.atan2 p.y p.x), fin 0⟩
  v := fun _ => V3.re 0 0 1
  normal := fun p => ⟨Dbl.cos (Dbl.atan2 p.y p.x), Dbl.sin (Dbl.atan2 p.y p.x), fin 0⟩
  globalToLocal := fun p => ⟨Dbl.atan2 p.y p.x, p.z⟩
  localToGlobal := fun q => ⟨Dbl.cos q.u, Dbl.sin q.u, q.v⟩
  origin := V3.re 1 0 0
  innerMaterial := mat
  outerMaterial := mat
  innerThickness := fin 0
  outerThickness := fin 0
  distance := fun p => Dbl.sqrt (p.x * p.x + p.y * p.y) - 1
  cyl := some (fin 1, V3.re 0 0 0)

/-- a track from the origin with azimuth -5π/6 -/
def back : Element → Prop := fun e => e.tp = ⟨M5.zero, hpR 1 1 (-(5 * Real.pi / 6)) 0 0, V3.re 0 0 0⟩

theorem sin_start : Real.sin (-(5 * Real.pi / 6)) = -(1 / 2) ∧ Real.cos (-(5 * Real.pi / 6)) = -(Real.sqrt 3 / 2) := by
  rw [Real.sin_neg, Real.cos_neg, show 5 * Real.pi / 6 = Real.pi - Real.pi / 6 by ring, Real.sin_pi_sub, Real.cos_pi_sub,
    Real.sin_pi_div_six, Real.cos_pi_div_six]
  exact ⟨rfl, rfl⟩

/-- the point at path length π/3 -/
theorem cyl_point : pointAt (fin (Real.pi / 3)) (hpR 1 1 (-(5 * Real.pi / 6)) 0 0) (V3.re 0 0 0) = V3.re (-1) 0 (Real.pi / 3) := by
  rw [pointAt_re one_ne_zero]
  have e : -(5 * Real.pi / 6) - Real.pi / 3 * 1 = Real.pi / 6 - Real.pi - Real.pi / 3 := by ring
  have e2 : -(5 * Real.pi / 6) - Real.pi / 3 * 1 = -(Real.pi / 6 + Real.pi) := by ring
  obtain ⟨h1, h2⟩ := sin_start
  simp only [rX, rY, rZ, e2, h1, h2, Real.sin_neg, Real.cos_neg, Real.sin_add_pi, Real.cos_add_pi, Real.sin_pi_div_six,
    Real.cos_pi_div_six]
  congr 1 <;> ring

theorem cyl_case : CylCase cylinder 1 1 (-(5 * Real.pi / 6)) 0 0 0 0 0 0 0 0 1 where
  curved := one_ne_zero
  azimuth := by rw [abs_neg, abs_of_pos (by positivity)]; have := Real.pi_pos; linarith
  radius := one_pos
  cyl := rfl
  parallel := rfl
  notCoaxial := by
    rw [calculateXCenter_re one_ne_zero, calculateYCenter_re one_ne_zero]
    rintro ⟨h1, -⟩
    have h1 := (fin_inj _ _).1 h1
    rw [rCx, sin_start.1] at h1
    norm_num at h1
  notOpposite := by
    rw [meets_iff one_ne_zero]
    simp only [OnCircle, rX, rY]
    have e : -(5 * Real.pi / 6) - Real.pi / 1 * 1 = -(5 * Real.pi / 6) - Real.pi := by ring
    rw [e, Real.sin_sub_pi, Real.cos_sub_pi, sin_start.1, sin_start.2]
    have h3 : Real.sqrt 3 ^ 2 = 3 := Real.sq_sqrt (by norm_num)
    intro h
    nlinarith

theorem cyl_meets (s : ℝ) : Meets (OnCircle 0 0 1) 1 1 (-(5 * Real.pi / 6)) 0 0 0 0 0 s ↔ Real.cos s = 1 / 2 := by
  rw [meets_iff one_ne_zero]
  simp only [OnCircle, rX, rY]
  have h1 := Real.sin_sq_add_cos_sq (-(5 * Real.pi / 6))
  have h2 := Real.sin_sq_add_cos_sq (-(5 * Real.pi / 6) - s * 1)
  have h3 : Real.cos s = Real.cos (-(5 * Real.pi / 6)) * Real.cos (-(5 * Real.pi / 6) - s * 1) +
      Real.sin (-(5 * Real.pi / 6)) * Real.sin (-(5 * Real.pi / 6) - s * 1) := by
    rw [← Real.cos_sub]; congr 1; ring
  rw [h3]
  constructor
  · intro h; nlinarith
  · intro h; nlinarith

theorem cyl_hit (cb : Bool) : intersectWithSurface cylinder (hpR 1 1 (-(5 * Real.pi / 6)) 0 0) (V3.re 0 0 0) 0 V3.zero 1 cb =
    .ok ⟨true, fin (Real.pi / 3), pointAt (fin (Real.pi / 3)) (hpR 1 1 (-(5 * Real.pi / 6)) 0 0) (V3.re 0 0 0)⟩ := by
  have hpi := Real.pi_pos
  unfold intersectWithSurface
  rw [if_pos (by simp [cylinder, SurfaceType.isZCylinder])]
  have hm : Meets (OnCircle 0 0 1) 1 1 (-(5 * Real.pi / 6)) 0 0 0 0 0 (Real.pi / 3) := by rw [cyl_meets]; exact Real.cos_pi_div_three
  have hlt : |1 * (Real.pi / 3)| < Real.pi := by rw [one_mul, abs_of_pos (by positivity)]; linarith
  rcases cylinder_main cyl_case 0 V3.zero 1 cb with ⟨-, h⟩ | ⟨sv, h1, h2, h3, h4⟩
  · exact absurd ⟨fun _ => by positivity, fun h => by norm_num at h⟩ (h _ hlt hm)
  · have h5 : 0 ≤ sv := ((h4 sv h1 h2).1 one_pos).1
    rw [cyl_meets] at h2
    rw [one_mul, abs_of_nonneg h5] at h1
    have hsv : sv = Real.pi / 3 := by
      refine Real.injOn_cos ⟨h5, h1.le⟩ ⟨by positivity, by linarith⟩ ?_
      rw [h2, Real.cos_pi_div_three]
    rw [h3, hsv]
    cases cb <;> rfl

/-- the trajectory -/
def cylTraj : Traj := make ⟨M5.zero, hpR 1 1 (-(5 * Real.pi / 6)) 0 0, V3.re 0 0 0⟩

/-- a measured position on the cylinder, at the azimuth ε - π -/
def cylPos (ε : ℝ) : V3 := V3.re (-Real.cos ε) (-Real.sin ε) (Real.pi / 3)

theorem cylPos_atan2 {ε : ℝ} (h0 : 0 < ε) (h1 : ε < Real.pi / 3) : ratan2 (-Real.sin ε) (-Real.cos ε) = ε - Real.pi := by
  have hpi := Real.pi_pos
  have := ratan2_polar (r := 1) (θ := ε - Real.pi) one_pos (by linarith) (by linarith)
  rwa [one_mul, one_mul, Real.sin_sub_pi, Real.cos_sub_pi] at this

theorem hit_atan2 : ratan2 0 (-1) = Real.pi := by
  have := ratan2_polar (r := 1) (θ := Real.pi) one_pos (by linarith [Real.pi_pos]) le_rfl
  simpa using this

theorem cyl_cos {ε : ℝ} (h0 : 0 < ε) (h1 : ε < Real.pi / 3) : Real.cos (5 * Real.pi / 6 - (ε - Real.pi)) ≠ 0 := by
  have hpi := Real.pi_pos
  have e : 5 * Real.pi / 6 - (ε - Real.pi) = (5 * Real.pi / 6 - ε) + Real.pi := by ring
  rw [e, Real.cos_add_pi, neg_ne_zero]
  exact (Real.cos_neg_of_pi_div_two_lt_of_lt (by linarith) (by linarith)).ne

theorem cyl_crossing {ε : ℝ} (h0 : 0 < ε) (h1 : ε < Real.pi / 3) : ∃ back, Crossing env cylTraj back cylinder
    (cylinder.globalToLocal (cylPos ε)) false M5.zero 1 1 (-(5 * Real.pi / 6)) 0 0 0 0 0 (Real.pi / 3) (5 * Real.pi / 6) 0.13957018 0 3 := by
  have hpi := Real.pi_pos
  refine ⟨Element.start (calculateSfromXY 0 0 cylTraj.ref.hp cylTraj.ref.rp) cylTraj.ref 0, ?_⟩
  have hp : ∀ x, momentumAtPCA env.globalField (hpR 1 1 (5 * Real.pi / 6) 0 0) x =
      V3.re (1 * 3 * (0.299792458 * (1 / 100)) * Real.cos (5 * Real.pi / 6)) (1 * 3 * (0.299792458 * (1 / 100)) * Real.sin (5 * Real.pi / 6))
        (1 * 3 * (0.299792458 * (1 / 100)) * 1) := by
    intro x
    unfold momentumAtPCA
    simp only [calculatePhi0_hpR, calculateOmega_hpR, calculateTanLambda_hpR, env, envJ, V3.re, one_eq, fin_div _ one_ne_zero,
      abs_fin, convertBr2P_cm, fin_mul, cos_fin, sin_fin, div_one, abs_one]
  refine ⟨rfl, rfl, one_ne_zero, ?_, cyl_hit false, ?_, ⟨⟨1, ?_⟩, ?_, ?_⟩, ⟨0, 0, rfl⟩, three_ne_zero, ?_, ?_⟩
  · show pionMass = _
    simp [pionMass]
  · rw [one_mul, abs_of_pos (by positivity)]; linarith
  · push_cast; ring
  · linarith
  · linarith
  · set q : ℝ := 1 * 3 * (0.299792458 * (1 / 100)) with hq
    have hq0 : 0 < q := by rw [hq]; norm_num
    rw [hp]
    have hpp : 0 < (q * Real.cos (5 * Real.pi / 6)) ^ 2 + (q * Real.sin (5 * Real.pi / 6)) ^ 2 + (q * 1) ^ 2 := by positivity
    have hb := betheBloch_re (Z := 14) (A := 28) (rho := 2) (rad := 9) (m := 0.13957018) (p := _) (by norm_num) (by norm_num)
      (by norm_num) (by norm_num) (Real.sqrt_pos.mpr hpp)
    have hn : cylinder.normal (cylinder.localToGlobal (cylinder.globalToLocal (cylPos ε))) =
        V3.re (Real.cos (ε - Real.pi)) (Real.sin (ε - Real.pi)) 0 := by
      have h2 := ratan2_polar (r := 1) (θ := ε - Real.pi) one_pos (by linarith) (by linarith)
      rw [one_mul, one_mul] at h2
      simp only [cylinder, cylPos, V3.re, atan2_fin, cylPos_atan2 h0 h1, cos_fin, sin_fin, h2]
    have := C77_sum hn rfl rfl rfl rfl hb hb hpp (by
      have : q * Real.cos (5 * Real.pi / 6) * Real.cos (ε - Real.pi) + q * Real.sin (5 * Real.pi / 6) * Real.sin (ε - Real.pi) + q * 1 * 0 =
          q * Real.cos (5 * Real.pi / 6 - (ε - Real.pi)) := by
        rw [Real.cos_sub (5 * Real.pi / 6)]; ring
      rw [this]
      exact mul_ne_zero hq0.ne' (cyl_cos h0 h1))
    rw [this]
    simp
  · have : 0 < energyOf (momentumOf 1 1 3) 0.13957018 := by
      have := momentumOf_pos (tl := 1) one_ne_zero (three_ne_zero (α := ℝ))
      exact Real.sqrt_pos.mpr (by positivity)
    exact this.ne

end Example

open Example in
/-- C95 is false for cylinders: the track crosses the cylinder at azimuth π, the measured position is at azimuth -π + ε, at the
same z.  The residual is almost a full circumference. -/
theorem C95_cylinder_false {ε : ℝ} (h0 : 0 < ε) (h1 : ε < Real.pi / 3) (prec : List Dbl) (id : ℕ) (sc : Bool) :
    ∃ e, cylTraj.step env (.measurement (cylPos ε) prec cylinder id sc) =
        ({ cylTraj.withStart with elems := cylTraj.withStart.elems ++ [e] }, .ok true) ∧
      e.tp.rp = V3.re (-1) 0 (Real.pi / 3) ∧
      (-1 - -Real.cos ε) ^ 2 + (0 - -Real.sin ε) ^ 2 ≤ ε ^ 2 ∧
      e.residuals = [fin (ε - 2 * Real.pi), fin 0] := by
  have hpi := Real.pi_pos
  obtain ⟨back, C⟩ := cyl_crossing h0 h1
  obtain ⟨e, q1, q2, q3, -⟩ := C94_measurement (prec := prec) (id := id) (sc := sc) (U := ![-Real.sin (ε - Real.pi), Real.cos (ε - Real.pi), 0])
    (V := ![0, 0, 1]) C (by
      simp only [cylinder, cylPos, V3.re, atan2_fin, cylPos_atan2 h0 h1, cos_fin, sin_fin, fin_neg]
      rfl) rfl (by
      have : dot (cross ![-Real.sin (ε - Real.pi), Real.cos (ε - Real.pi), 0] ![0, 0, 1]) (dirOf 1 (5 * Real.pi / 6)) =
          Real.cos (Real.arctan 1) * Real.cos (5 * Real.pi / 6 - (ε - Real.pi)) := by
        rw [Real.cos_sub (5 * Real.pi / 6)]
        simp only [dot, cross_0, cross_1, cross_2, dirOf, cons_val_zero, cons_val_one, cons_val]
        ring
      rw [this]
      exact mul_ne_zero (Real.cos_arctan_pos 1).ne' (cyl_cos h0 h1))
  have hr := q2.rp
  rw [cyl_point] at hr
  refine ⟨e, q1, hr, ?_, ?_⟩
  · have h2 := Real.one_sub_sq_div_two_le_cos (x := ε)
    have h3 := Real.sin_sq_add_cos_sq ε
    nlinarith
  · rw [q3, hr]
    simp only [cylinder, cylPos, V3.re, atan2_fin, cylPos_atan2 h0 h1, hit_atan2, fin_sub, sub_self]
    rw [show ε - Real.pi - Real.pi = ε - 2 * Real.pi by ring]

end Verif
