import Verif.Model.RoundedStart
import Verif.Props.RoundedMomentum
import Verif.Lemmas.RoundedUtilities

/-!
# C152: momentum along a track in double precision

The components of `momentumAt` and `momentumAtPCA` are compared with transverse momentum times velocity (per transverse path length) of the track.
-/

open Classical

noncomputable section

namespace Verif

open Dbl Rnd Spec Rounded

variable {fl : ℝ → ℝ} {lm : Libm} {om tl ph d z rx ry rz s b : ℝ} {bField : V3 → V3}

/-- slopes up to 2^30, azimuths and turning angles up to 2^30, curvatures between 2^-100 and 2^100 -/
structure MomRange (om tl ph s : ℝ) : Prop where
  o0 : 1 / 2 ^ 100 ≤ |om|
  o1 : |om| ≤ 2 ^ 100
  tl : |tl| ≤ 2 ^ 30
  ph : |ph| ≤ 2 ^ 30
  turn : |om * s| ≤ 2 ^ 30

theorem momentum_core (h : NearestF 53 1074 fl) (hl : IsLibm lm) {a a' : Dbl} {B E x : ℝ} (ha : Ap 0 1 a a' B E) (hE : E ≤ 2 ^ 33) (hx : a' = fin x)
    (o0 : 1 / 2 ^ 100 ≤ |om|) (o1 : |om| ≤ 2 ^ 100) (ht : |tl| ≤ 2 ^ 30) (hB : (bField (V3.re rx ry rz)).z = fin b) (hb : Size |b|) :
    let pt := |1 / om| * b * kBr
    ∃ px py pz, (⟨mulD fl (transverseMomentum fl bField (hpR om tl ph d z) (V3.re rx ry rz)) (cosD lm a),
        mulD fl (transverseMomentum fl bField (hpR om tl ph d z) (V3.re rx ry rz)) (sinD lm a),
        mulD fl (transverseMomentum fl bField (hpR om tl ph d z) (V3.re rx ry rz)) (fin tl)⟩ : V3) = V3.re px py pz ∧
      |px - pt * Real.cos x| ≤ |pt| * (E + 12) / 2 ^ 53 ∧ |py - pt * Real.sin x| ≤ |pt| * (E + 12) / 2 ^ 53 ∧
      |pz - pt * tl| ≤ |pt| * (9 * |tl| + 1) / 2 ^ 53 := by
  intro pt
  have E0 : 0 ≤ E := by
    obtain ⟨r, x, -, -, e, -⟩ := ha.val
    have := (abs_nonneg _).trans e
    exact nonneg_of_mul_nonneg_left this (by norm_num)
  have P := pt_ap h (le_trans (one_div_le_one_div_of_le (by positivity) (pow_le_pow_right₀ (by norm_num) (by norm_num))) o0) (size_mono o1 (by norm_num)) hb
  have ept : |1 / om * b * kBr| = |pt| := by
    show _ = |(|1 / om| * b * kBr)|
    rw [abs_mul, abs_mul, abs_mul, abs_mul, _root_.abs_abs]
  rw [ept] at P
  have eT : transverseMomentum fl bField (hpR om tl ph d z) (V3.re rx ry rz) = mulD fl (mulD fl (Dbl.abs (divD fl 1 (fin om))) (fin b)) (convD fl) := by
    rw [transverseMomentum, hB]
    rfl
  rw [eT]
  have c := Ap.cos hl ha
  have s := Ap.sin hl ha
  have k : 7 * (1 + 1 / 1000) + 1 * (E + 3) ≤ 2 ^ 40 := by norm_num at hE ⊢; linarith
  have k' : E + 3 ≤ 2 ^ 40 := by norm_num at hE ⊢; linarith
  have C := Ap.mull h P c (by norm_num) k' k (by norm_num)
  have S := Ap.mull h P s (by norm_num) k' k (by norm_num)
  have T := Ap.mull h P (Ap.unit (x := tl) le_rfl) (by norm_num) (by norm_num) (by norm_num at ht ⊢; linarith) (by norm_num at ht ⊢; linarith)
  obtain ⟨px, x1, e1, f1, g1, -⟩ := C.val
  obtain ⟨py, x2, e2, f2, g2, -⟩ := S.val
  obtain ⟨pz, x3, e3, f3, g3, -⟩ := T.val
  rw [hx, cos_fin, fin_mul] at f1
  rw [hx, sin_fin, fin_mul] at f2
  rw [fin_mul] at f3
  injection f1 with f1
  injection f2 with f2
  injection f3 with f3
  subst f1 f2 f3
  have p0 := P.pos
  refine ⟨px, py, pz, by rw [e1, e2, e3, V3.re], g1.trans ?_, g2.trans ?_, g3.trans ?_⟩
  · rw [mul_div_assoc, show |pt| * ((E + 12) / 2 ^ 53) = (E + 12) * (|pt| * (1 / 2 ^ 53)) by ring]
    exact mul_le_mul_of_nonneg_right (by norm_num; linarith) (by positivity)
  · rw [mul_div_assoc, show |pt| * ((E + 12) / 2 ^ 53) = (E + 12) * (|pt| * (1 / 2 ^ 53)) by ring]
    exact mul_le_mul_of_nonneg_right (by norm_num; linarith) (by positivity)
  · rw [mul_div_assoc, show |pt| * ((9 * |tl| + 1) / 2 ^ 53) = (9 * |tl| + 1) * (|pt| * (1 / 2 ^ 53)) by ring]
    have := abs_nonneg tl
    exact mul_le_mul_of_nonneg_right (by norm_num; linarith) (by positivity)

/-- C152: the momentum at a path length -/
theorem C152_at (h : NearestF 53 1074 fl) (hl : IsLibm lm) (hr : MomRange om tl ph s) {x y w : ℝ → ℝ} {x0 y0 z0 : ℝ} (ht : Spec.IsTrack om tl ph x0 y0 z0 x y w)
    (hB : (bField (V3.re rx ry rz)).z = fin b) (hb : Size |b|) {vx vy vz : ℝ} (hvx : HasDerivAt x vx s) (hvy : HasDerivAt y vy s) (hvz : HasDerivAt w vz s) :
    let pt := |1 / om| * b * kBr
    ∃ px py pz, Rnd.momentumAtS fl lm bField (fin s) (hpR om tl ph d z) (V3.re rx ry rz) = V3.re px py pz ∧
      |px - pt * vx| ≤ |pt| * (|ph| + 2 * |om * s| + 13) / 2 ^ 53 ∧ |py - pt * vy| ≤ |pt| * (|ph| + 2 * |om * s| + 13) / 2 ^ 53 ∧
      |pz - pt * vz| ≤ |pt| * (9 * |tl| + 1) / 2 ^ 53 := by
  intro pt
  rw [hvx.unique (ht.vel_x s), hvy.unique (ht.vel_y s), hvz.unique (ht.vel_z s)]
  have a := angle_ap h hr.ph hr.turn
  have e : fin ph - fin om * fin s = fin (ph - om * s) := by rw [fin_mul, fin_sub]
  have r1 := hr.ph
  have r2 := hr.turn
  obtain ⟨px, py, pz, k, k1, k2, k3⟩ := momentum_core (ph := ph) (d := d) (z := z) h hl a (by norm_num at r1 r2 ⊢; linarith) e hr.o0 hr.o1 hr.tl hB hb
  have w : ∀ {u : ℝ}, u ≤ |pt| * (|ph| + 2 * |om * s| + 2 / 1000 + 12) / 2 ^ 53 → u ≤ |pt| * (|ph| + 2 * |om * s| + 13) / 2 ^ 53 := by
    intro u hu
    refine hu.trans (div_le_div_of_nonneg_right (mul_le_mul_of_nonneg_left ?_ (abs_nonneg _)) (by positivity))
    linarith
  refine ⟨px, py, pz, ?_, w k1, w k2, k3⟩
  rw [← k, Rnd.momentumAtS]
  have c : mulD fl (fin s) (fin om) = mulD fl (fin om) (fin s) := by rw [mulD, mulD, fin_mul, fin_mul, mul_comm]
  change (⟨_, _, _⟩ : V3) = _
  rw [calculateOmega_hpR, calculatePhi0_hpR, calculateTanLambda_hpR, c]

/-- C152: the momentum at the reference point, that is at the path length 0 -/
theorem C152_pca (h : NearestF 53 1074 fl) (hl : IsLibm lm) (hr : MomRange om tl ph 0) {x y w : ℝ → ℝ} {x0 y0 z0 : ℝ} (ht : Spec.IsTrack om tl ph x0 y0 z0 x y w)
    (hB : (bField (V3.re rx ry rz)).z = fin b) (hb : Size |b|) {vx vy vz : ℝ} (hvx : HasDerivAt x vx 0) (hvy : HasDerivAt y vy 0) (hvz : HasDerivAt w vz 0) :
    let pt := |1 / om| * b * kBr
    ∃ px py pz, Rnd.momentumAtPCA fl lm bField (hpR om tl ph d z) (V3.re rx ry rz) = V3.re px py pz ∧
      |px - pt * vx| ≤ |pt| * 12 / 2 ^ 53 ∧ |py - pt * vy| ≤ |pt| * 12 / 2 ^ 53 ∧ |pz - pt * vz| ≤ |pt| * (9 * |tl| + 1) / 2 ^ 53 := by
  intro pt
  rw [hvx.unique (ht.vel_x 0), hvy.unique (ht.vel_y 0), hvz.unique (ht.vel_z 0), mul_zero, sub_zero]
  obtain ⟨px, py, pz, k, k1, k2, k3⟩ := momentum_core (ph := ph) (d := d) (z := z) h hl (Ap.unit (x := ph) le_rfl) (by norm_num) rfl hr.o0 hr.o1 hr.tl hB hb
  rw [zero_add] at k1 k2
  refine ⟨px, py, pz, ?_, k1, k2, k3⟩
  rw [← k, Rnd.momentumAtPCA]
  rw [calculatePhi0_hpR, calculateTanLambda_hpR]

/-- hypotheses of C152: slope 3/4, radius 100, azimuth 2, path length 50, field of 3.5 T -/
example : MomRange (1 / 100) (3 / 4) 2 50 ∧ MomRange (1 / 100) (3 / 4) 2 0 ∧ Size |(7 / 2 : ℝ)| ∧
    ∃ x y w, Spec.IsTrack (1 / 100) (3 / 4) 2 0 0 0 x y w := by
  have t := isTrack_r (om := 1 / 100) (tl := 3 / 4) (ph := 2) (rx := 0) (ry := 0) (rz := 0) (d := 0) (z := 0) (by norm_num)
  simp only [zero_mul, sub_zero, add_zero] at t
  refine ⟨⟨?_, ?_, ?_, ?_, ?_⟩, ⟨?_, ?_, ?_, ?_, ?_⟩, ⟨?_, ?_⟩, _, _, _, t⟩ <;> norm_num

end Verif
