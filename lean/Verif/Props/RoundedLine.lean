import Verif.Props.RoundedRefitFalse
import Verif.Props.RoundedCircles

/-!
# C174: the start helix of points on a line in double precision
-/

open Classical

noncomputable section

namespace Verif

open Dbl Traj Refit Rnd

variable {A : Arith}

/-- three points on a line in the transverse plane that is parallel to an axis, or on the line x = y; the coordinates are any
values of type `double` -/
inductive OnLine (x1 x2 x3 : V3) : Prop
  | alongX (h2 : x2.y = x1.y) (h3 : x3.y = x1.y)
  | alongY (h2 : x2.x = x1.x) (h3 : x3.x = x1.x)
  | diagonal (h1 : x1.y = x1.x) (h2 : x2.y = x2.x) (h3 : x3.y = x3.x)

namespace Rnd

/-- infinite or not a number -/
def NotFin (x : Dbl) : Prop := ∀ a : ℝ, x ≠ fin a

theorem Nil.mul_any (h : NearestF 53 1074 A.fl) {x : Dbl} (hx : Nil x) (y : Dbl) : Nil (mulD A.fl x y) := by
  rcases hx with rfl | rfl
  · cases y with
    | fin b => left; rw [mulD, fin_mul, zero_mul, rnd_zero h]
    | inf s => right; rw [mulD, fin_mul_inf, if_pos rfl]; rfl
    | nan => right; rfl
  · right; cases y <;> rfl

theorem Nil.div_any (h : NearestF 53 1074 A.fl) {x : Dbl} (hx : Nil x) (y : Dbl) : Nil (divD A.fl x y) := by
  rcases hx with rfl | rfl
  · cases y with
    | fin b =>
      by_cases hb : b = 0
      · right; subst hb; rw [divD, show (fin 0 : Dbl) / fin 0 = nan by simp]; rfl
      · left; rw [divD, show (fin 0 : Dbl) / fin b = fin 0 by simp [hb], rnd_zero h]
    | inf s => left; exact rnd_zero h
    | nan => right; rfl
  · right; cases y <;> rfl

theorem Nil.sub (h : NearestF 53 1074 A.fl) {x y : Dbl} (hx : Nil x) (hy : Nil y) : Nil (subD A.fl x y) := by
  rcases hx with rfl | rfl <;> rcases hy with rfl | rfl
  · left; rw [subD, fin_sub, sub_zero, rnd_zero h]
  all_goals right; rfl

theorem div_nil {x y : Dbl} (hy : Nil y) : NotFin (divD A.fl x y) := by
  intro a
  rcases hy with rfl | rfl
  · cases x with
    | fin b =>
      by_cases hb : b = 0
      · subst hb; rw [divD, show (fin 0 : Dbl) / fin 0 = nan by simp]; intro e; cases e
      · rw [divD]
        change rnd A.fl 1024 (Dbl.div (fin b) (fin 0)) ≠ _
        rw [Dbl.div, if_pos rfl, if_neg hb]
        intro e; cases e
    | inf s => intro e; cases e
    | nan => intro e; cases e
  · cases x <;> · intro e; cases e

theorem NotFin.neg {x : Dbl} (hx : NotFin x) : NotFin (-x) := by
  intro a
  cases x with
  | fin b => exact absurd rfl (hx b)
  | inf s => intro e; cases e
  | nan => intro e; cases e

theorem NotFin.mul {x : Dbl} (hx : NotFin x) (y : Dbl) : NotFin (mulD A.fl x y) := by
  intro a
  cases x with
  | fin b => exact absurd rfl (hx b)
  | inf s =>
    cases y with
    | fin b =>
      rw [mulD, inf_mul_fin]
      split <;> · intro e; cases e
    | inf t => intro e; cases e
    | nan => intro e; cases e
  | nan => cases y <;> · intro e; cases e

theorem div_notFin (h : NearestF 53 1074 A.fl) (x : Dbl) {y : Dbl} (hy : NotFin y) : Nil (divD A.fl x y) := by
  cases y with
  | fin b => exact absurd rfl (hy b)
  | inf s =>
    cases x with
    | fin a => left; exact rnd_zero h
    | inf t => right; rfl
    | nan => right; rfl
  | nan => right; cases x <;> rfl

/-- the sine of half the angle between points on a line -/
theorem line_sine (h : NearestF 53 1074 A.fl) {x1 x2 x3 : V3} (hl : OnLine x1 x2 x3) :
    Nil (crossV A.fl (unitV A.fl { subV A.fl x2 x1 with z := 0 }) (unitV A.fl { subV A.fl x3 x1 with z := 0 })).z := by
  unfold crossV unitV subV
  dsimp only
  cases hl with
  | alongX h2 h3 =>
    rw [h2, h3, mulD_comm]
    exact Nil.sub h (((Nil.sub_self h _).div_any h _).mul_any h _) (((Nil.sub_self h _).div_any h _).mul_any h _)
  | alongY h2 h3 =>
    rw [h2, h3, mulD_comm (divD A.fl (subD A.fl x2.y _) _)]
    exact Nil.sub h (((Nil.sub_self h _).div_any h _).mul_any h _) (((Nil.sub_self h _).div_any h _).mul_any h _)
  | diagonal h1 h2 h3 =>
    rw [h1, h2, h3]
    exact Nil.sub_self h _

end Rnd

/-- C174 (partial): whatever the rounding and the library, the curvature and tan(lambda) that `calculateStartHelix` finds for points on such a line are zero or not a
number; no circle is made up from rounding errors, and the slope of the line is lost.  Missing:
the slope (`C174_slope_false`) and the refit (`C174_refit_false`), where the claim is false. -/
theorem C174_line_partial (h : NearestF 53 1074 A.fl) {x1 x2 x3 : V3} (hl : OnLine x1 x2 x3) (tp : TP) (bw : Bool) :
    ((Rnd.calculateStartHelix A.fl A.at2 x1 x2 x3 tp bw).hp OMEGA = fin 0 ∨ (Rnd.calculateStartHelix A.fl A.at2 x1 x2 x3 tp bw).hp OMEGA = nan) ∧
    ((Rnd.calculateStartHelix A.fl A.at2 x1 x2 x3 tp bw).hp TANL = fin 0 ∨ (Rnd.calculateStartHelix A.fl A.at2 x1 x2 x3 tp bw).hp TANL = nan) := by
  have s := line_sine h hl
  have r : NotFin (divD A.fl (mulD A.fl (-fin (1 / 2)) (rV A.fl { subV A.fl x3 x2 with z := 0 }))
      (crossV A.fl (unitV A.fl { subV A.fl x2 x1 with z := 0 }) (unitV A.fl { subV A.fl x3 x1 with z := 0 })).z) := div_nil s
  simp only [Rnd.calculateStartHelix, OMEGA, TANL, V5.mk, Matrix.cons_val_zero, Matrix.cons_val_one]
  cases bw
  · simp only [Bool.false_eq_true, if_false]
    exact ⟨div_notFin h _ r, div_notFin h _ ((r.mul _).mul _)⟩
  · simp only [if_true]
    exact ⟨div_notFin h _ r.neg, div_notFin h _ ((r.neg.mul _).mul _)⟩

/-- C174: such points never give a finite curvature together with the slope of the line: if tan(lambda) is finite it is zero, also when the heights differ. -/
theorem C174_slope_false (h : NearestF 53 1074 A.fl) {x1 x2 x3 : V3} (hl : OnLine x1 x2 x3) (tp : TP) (bw : Bool) {t : ℝ} (ht : t ≠ 0) :
    (Rnd.calculateStartHelix A.fl A.at2 x1 x2 x3 tp bw).hp TANL ≠ fin t := by
  rcases (C174_line_partial h hl tp bw).2 with e | e <;> rw [e]
  · intro e'; injection e' with e'; exact ht e'.symm
  · intro e'; cases e'

namespace Rnd

theorem rnd_int (h : NearestF 53 1074 A.fl) (m : ℤ) (hm : |m| ≤ 100) : rnd A.fl 1024 (fin (m : ℝ)) = fin (m : ℝ) :=
  rnd_big h m 0 (hm.trans (by norm_num)) (by simp) (by
    have : |(m : ℝ)| ≤ 100 := by exact_mod_cast hm
    exact this.trans (by norm_num))

/-- the length of a vector along the first axis -/
theorem rV_axis (h : NearestF 53 1074 A.fl) (m : ℤ) (hm : 0 ≤ m) (hm' : m * m ≤ 100) (s : ℝ) (hs : s = m ∨ s = -m) : rV A.fl ⟨fin s, fin 0, 0⟩ = fin (m : ℝ) := by
  have hm1 : |m| ≤ 100 := by rw [abs_of_nonneg hm]; nlinarith
  have e : s * s = ((m * m : ℤ) : ℝ) := by rcases hs with rfl | rfl <;> push_cast <;> ring
  have z : mulD A.fl (fin 0) (fin 0) = fin 0 := by rw [mulD, fin_mul, mul_zero, rnd_zero h]
  have q : |m * m| ≤ 100 := by rwa [abs_of_nonneg (mul_self_nonneg m)]
  have w : addD A.fl (fin ((m * m : ℤ) : ℝ)) (fin 0) = fin ((m * m : ℤ) : ℝ) := by rw [addD, fin_add, add_zero, rnd_int h _ q]
  unfold rV dotV
  dsimp only
  rw [zero_eq, z, mulD, fin_mul, e, rnd_int h _ q, w, w, sqrtD,
    sqrt_fin (by exact_mod_cast mul_self_nonneg m), show ((m * m : ℤ) : ℝ) = (m : ℝ) * m by push_cast; rfl,
    Real.sqrt_mul_self (by exact_mod_cast hm), rnd_int h _ hm1]

end Rnd

/-- C174: with the first point between the others the result is a straight track with tan(lambda) = 0, whatever the heights of the points: here for (0, 0),
(-1, 0) and (1, 0). -/
theorem C174_between_false (h : NearestF 53 1074 A.fl) (ha : IsAtan2 A.at2) (tp : TP) (z1 z2 z3 : ℝ) (hz : |z2 - z3| ≤ 2 ^ 1000) :
    (Rnd.calculateStartHelix A.fl A.at2 (V3.re 0 0 z1) (V3.re (-1) 0 z2) (V3.re 1 0 z3) tp false).hp OMEGA = fin 0 ∧
    (Rnd.calculateStartHelix A.fl A.at2 (V3.re 0 0 z1) (V3.re (-1) 0 z2) (V3.re 1 0 z3) tp false).hp TANL = fin 0 := by
  have i1 : rnd A.fl 1024 (fin 1) = fin 1 := by simpa using rnd_int h 1 (by norm_num)
  have i1' : rnd A.fl 1024 (fin (-1)) = fin (-1) := by simpa using rnd_int h (-1) (by norm_num)
  have i2 : rnd A.fl 1024 (fin 2) = fin 2 := by simpa using rnd_int h 2 (by norm_num)
  have i2' : rnd A.fl 1024 (fin (-2)) = fin (-2) := by simpa using rnd_int h (-2) (by norm_num)
  have i3 : rnd A.fl 1024 (fin 3) = fin 3 := by simpa using rnd_int h 3 (by norm_num)
  have i3' : rnd A.fl 1024 (fin (-3)) = fin (-3) := by simpa using rnd_int h (-3) (by norm_num)
  have z0 := rnd_zero h
  have e12 : ({ subV A.fl (V3.re (-1) 0 z2) (V3.re 0 0 z1) with z := 0 } : V3) = ⟨fin (-1), fin 0, 0⟩ := by
    simp only [subV, V3.re, subD, fin_sub, sub_zero, i1', z0]
  have e13 : ({ subV A.fl (V3.re 1 0 z3) (V3.re 0 0 z1) with z := 0 } : V3) = ⟨fin 1, fin 0, 0⟩ := by
    simp only [subV, V3.re, subD, fin_sub, sub_zero, i1, z0]
  have e23 : ({ subV A.fl (V3.re 1 0 z3) (V3.re (-1) 0 z2) with z := 0 } : V3) = ⟨fin 2, fin 0, 0⟩ := by
    simp only [subV, V3.re, subD, fin_sub, sub_zero, show (1 : ℝ) - -1 = 2 by norm_num, i2, z0]
  have m12 : rV A.fl ⟨fin (-1), fin 0, 0⟩ = fin 1 := by simpa using rV_axis h 1 (by norm_num) (by norm_num) (-1) (by right; norm_num)
  have m13 : rV A.fl ⟨fin 1, fin 0, 0⟩ = fin 1 := by simpa using rV_axis h 1 (by norm_num) (by norm_num) 1 (by left; norm_num)
  have m23 : rV A.fl ⟨fin 2, fin 0, 0⟩ = fin 2 := by simpa using rV_axis h 2 (by norm_num) (by norm_num) 2 (by left; norm_num)
  have d11 : divD A.fl (fin 1) (fin 1) = fin 1 := by rw [divD, fin_div _ one_ne_zero, div_one, i1]
  have d1 : divD A.fl (fin (-1)) (fin 1) = fin (-1) := by rw [divD, fin_div _ one_ne_zero, div_one, i1']
  have d0 : divD A.fl (fin 0) (fin 1) = fin 0 := by rw [divD, fin_div _ one_ne_zero, div_one, z0]
  have d2 : divD A.fl (fin 2) (fin 1) = fin 2 := by rw [divD, fin_div _ one_ne_zero, div_one, i2]
  have d3 : divD A.fl (fin (-3)) (fin 1) = fin (-3) := by rw [divD, fin_div _ one_ne_zero, div_one, i3']
  have sine : (crossV A.fl (unitV A.fl ⟨fin (-1), fin 0, 0⟩) (unitV A.fl ⟨fin 1, fin 0, 0⟩)).z = fin 0 := by
    unfold crossV unitV
    dsimp only
    rw [m12, m13, d11, d1, d0, mulD, mulD, fin_mul, fin_mul, mul_zero, zero_mul, z0, subD, fin_sub, sub_zero, z0]
  have cosine : mulD A.fl (fin (1 / 2)) (addD A.fl (divD A.fl (fin 1) (fin 1))
      (divD A.fl (mulD A.fl (subD A.fl 1 (divD A.fl (fin 2) (fin 1))) (addD A.fl (fin 1) (fin 2))) (fin 1))) = fin (-1) := by
    rw [d11, d2, one_eq, subD, fin_sub, show (1 : ℝ) - 2 = -1 by norm_num, i1', addD, addD, fin_add, show (1 : ℝ) + 2 = 3 by norm_num, i3, mulD, mulD, fin_mul,
      show (-1 : ℝ) * 3 = -3 by norm_num, i3', d3, fin_add, show (1 : ℝ) + -3 = -2 by norm_num, i2', fin_mul, show (1 / 2 : ℝ) * -2 = -1 by norm_num, i1']
  have half : A.at2 0 (-1) ≠ 0 := by
    intro e
    have k := ha 0 (-1) (by norm_num)
    have p : ratan2 0 (-1) = Real.pi := by
      have := ratan2_polar (r := 1) (θ := Real.pi) one_pos (by linarith [Real.pi_pos]) le_rfl
      simpa using this
    rw [e, p, zero_sub, abs_neg, abs_of_pos Real.pi_pos] at k
    have k1 : (1 : ℝ) / 2 ^ 1074 ≤ 1 := by rw [div_le_one (by positivity)]; exact one_le_pow₀ (by norm_num)
    have k2 : Real.pi / 2 ^ 52 ≤ Real.pi / 2 := div_le_div_of_nonneg_left Real.pi_pos.le (by norm_num) (by norm_num)
    linarith [Real.pi_gt_three]
  have r : divD A.fl (mulD A.fl (-fin (1 / 2)) (fin 2)) (fin 0) = inf (Dbl.sgn (-1)) := by
    rw [fin_neg, mulD, fin_mul, show (-(1 / 2) : ℝ) * 2 = -1 by norm_num, i1', divD]
    change rnd A.fl 1024 (Dbl.div (fin (-1)) (fin 0)) = _
    rw [Dbl.div, if_pos rfl, if_neg (by norm_num)]
    rfl
  have t2 : ∀ s, mulD A.fl (inf s) 2 = inf (xor s (Dbl.sgn 2)) := fun s => by
    rw [show (2 : Dbl) = fin 2 from rfl, mulD, inf_mul_fin, if_neg (by norm_num)]; rfl
  have t3 : ∀ s, mulD A.fl (inf s) (fin (A.at2 0 (-1))) = inf (xor s (Dbl.sgn (A.at2 0 (-1)))) := fun s => by
    rw [mulD, inf_mul_fin, if_neg half]; rfl
  have dz : ∃ w, subD A.fl (fin z2) (fin z3) = fin w := by
    rw [subD, fin_sub, rnd_double h hz]; exact ⟨_, rfl⟩
  obtain ⟨w, dz⟩ := dz
  have a2 : ∀ a b : ℝ, atan2D A.fl A.at2 (fin a) (fin b) = fin (A.at2 a b) := fun _ _ => rfl
  simp only [Rnd.calculateStartHelix, OMEGA, TANL, V5.mk, Matrix.cons_val_zero, Matrix.cons_val_one, Bool.false_eq_true, if_false]
  simp only [e12, e13, e23, m12, m13, m23, sine, cosine, r, t2, t3, a2]
  refine ⟨rnd_zero h, ?_⟩
  simp only [V3.re, dz]
  exact rnd_zero h

/-- C174: with the first point at the end the curvature is zero and tan(lambda) is not a number, for libraries with the `atan2(0, 1) = 0` of the C standard: here for
(0, 0), (2, 0) and (4, 0). -/
theorem C174_outside (h : NearestF 53 1074 A.fl) (ha : A.at2 0 1 = 0) (tp : TP) (z1 z2 z3 : ℝ) :
    (Rnd.calculateStartHelix A.fl A.at2 (V3.re 0 0 z1) (V3.re 2 0 z2) (V3.re 4 0 z3) tp false).hp OMEGA = fin 0 ∧
    (Rnd.calculateStartHelix A.fl A.at2 (V3.re 0 0 z1) (V3.re 2 0 z2) (V3.re 4 0 z3) tp false).hp TANL = nan := by
  have i1 : rnd A.fl 1024 (fin 1) = fin 1 := by simpa using rnd_int h 1 (by norm_num)
  have i1' : rnd A.fl 1024 (fin (-1)) = fin (-1) := by simpa using rnd_int h (-1) (by norm_num)
  have i2 : rnd A.fl 1024 (fin 2) = fin 2 := by simpa using rnd_int h 2 (by norm_num)
  have i4 : rnd A.fl 1024 (fin 4) = fin 4 := by simpa using rnd_int h 4 (by norm_num)
  have z0 := rnd_zero h
  have e12 : ({ subV A.fl (V3.re 2 0 z2) (V3.re 0 0 z1) with z := 0 } : V3) = ⟨fin 2, fin 0, 0⟩ := by
    simp only [subV, V3.re, subD, fin_sub, sub_zero, i2, z0]
  have e13 : ({ subV A.fl (V3.re 4 0 z3) (V3.re 0 0 z1) with z := 0 } : V3) = ⟨fin 4, fin 0, 0⟩ := by
    simp only [subV, V3.re, subD, fin_sub, sub_zero, i4, z0]
  have e23 : ({ subV A.fl (V3.re 4 0 z3) (V3.re 2 0 z2) with z := 0 } : V3) = ⟨fin 2, fin 0, 0⟩ := by
    simp only [subV, V3.re, subD, fin_sub, sub_zero, show (4 : ℝ) - 2 = 2 by norm_num, i2, z0]
  have m2 : rV A.fl ⟨fin 2, fin 0, 0⟩ = fin 2 := by simpa using rV_axis h 2 (by norm_num) (by norm_num) 2 (by left; norm_num)
  have m4 : rV A.fl ⟨fin 4, fin 0, 0⟩ = fin 4 := by simpa using rV_axis h 4 (by norm_num) (by norm_num) 4 (by left; norm_num)
  have d22 : divD A.fl (fin 2) (fin 2) = fin 1 := by rw [divD, fin_div _ two_ne_zero, div_self two_ne_zero, i1]
  have d44 : divD A.fl (fin 4) (fin 4) = fin 1 := by rw [divD, fin_div _ four_ne_zero, div_self four_ne_zero, i1]
  have d42 : divD A.fl (fin 4) (fin 2) = fin 2 := by rw [divD, fin_div _ two_ne_zero, show (4 : ℝ) / 2 = 2 by norm_num, i2]
  have d02 : divD A.fl (fin 0) (fin 2) = fin 0 := by rw [divD, fin_div _ two_ne_zero, zero_div, z0]
  have d04 : divD A.fl (fin 0) (fin 4) = fin 0 := by rw [divD, fin_div _ four_ne_zero, zero_div, z0]
  have sine : (crossV A.fl (unitV A.fl ⟨fin 2, fin 0, 0⟩) (unitV A.fl ⟨fin 4, fin 0, 0⟩)).z = fin 0 := by
    unfold crossV unitV
    dsimp only
    rw [m2, m4, d22, d44, d02, d04, mulD, mulD, fin_mul, fin_mul, mul_zero, zero_mul, z0, subD, fin_sub, sub_zero, z0]
  have cosine : mulD A.fl (fin (1 / 2)) (addD A.fl (divD A.fl (fin 4) (fin 2))
      (divD A.fl (mulD A.fl (subD A.fl 1 (divD A.fl (fin 2) (fin 2))) (addD A.fl (fin 2) (fin 2))) (fin 4))) = fin 1 := by
    rw [d42, d22, one_eq, subD, fin_sub, sub_self, z0, addD, addD, fin_add, show (2 : ℝ) + 2 = 4 by norm_num, i4, mulD, mulD, fin_mul,
      zero_mul, z0, d04, fin_add, add_zero, i2, fin_mul, show (1 / 2 : ℝ) * 2 = 1 by norm_num, i1]
  have r : divD A.fl (mulD A.fl (-fin (1 / 2)) (fin 2)) (fin 0) = inf (Dbl.sgn (-1)) := by
    rw [fin_neg, mulD, fin_mul, show (-(1 / 2) : ℝ) * 2 = -1 by norm_num, i1', divD]
    change rnd A.fl 1024 (Dbl.div (fin (-1)) (fin 0)) = _
    rw [Dbl.div, if_pos rfl, if_neg (by norm_num)]
    rfl
  have t2 : ∀ s, mulD A.fl (inf s) 2 = inf (xor s (Dbl.sgn 2)) := fun s => by
    rw [show (2 : Dbl) = fin 2 from rfl, mulD, inf_mul_fin, if_neg (by norm_num)]; rfl
  have t3 : ∀ s, mulD A.fl (inf s) (fin (A.at2 0 1)) = nan := fun s => by
    rw [mulD, inf_mul_fin, if_pos ha]; rfl
  have a2 : ∀ a b : ℝ, atan2D A.fl A.at2 (fin a) (fin b) = fin (A.at2 a b) := fun _ _ => rfl
  have dn : ∀ x, divD A.fl x nan = nan := fun x => by cases x <;> rfl
  simp only [Rnd.calculateStartHelix, OMEGA, TANL, V5.mk, Matrix.cons_val_zero, Matrix.cons_val_one, Bool.false_eq_true, if_false]
  simp only [e12, e13, e23, m2, m4, sine, cosine, r, t2, t3, a2]
  exact ⟨rnd_zero h, dn _⟩

/-- C174: no track of three or more hits whose first, middle and last hit are on such a line is refitted by lcio_tracks, whatever the surfaces, the rounding and the
library: no surface is taken to be crossed. -/
theorem C174_refit_false (h : NearestF 53 1074 A.fl) {S : Setup} (hI : IsStdSort sortWithS S.sortI) (hE : IsStdSort compareElements S.sortE) (i : ℕ) (w : World) (trk : InTrack)
    (hlen : 3 ≤ trk.hits.length) {h1 h2 h3 : TrackHit} (e1 : trk.hits[0]? = some h1) (e2 : trk.hits[(trk.hits.length + 1) / 2]? = some h2)
    (e3 : trk.hits[trk.hits.length - 1]? = some h3) (hl : OnLine h1.hit.pos h2.hit.pos h3.hit.pos) (r : World × OutTrack) : Rnd.refit A S i w trk ≠ .ok r := by
  intro hr
  have hl' : OnLine (Rnd.scaled A.fl h1.hit.pos) (Rnd.scaled A.fl h2.hit.pos) (Rnd.scaled A.fl h3.hit.pos) := by
    unfold Rnd.scaled
    cases hl with
    | alongX a b => exact .alongX (by rw [a]) (by rw [b])
    | alongY a b => exact .alongY (by rw [a]) (by rw [b])
    | diagonal a b c => exact .diagonal (by rw [a]) (by rw [b]) (by rw [c])
  unfold Rnd.refit at hr
  obtain ⟨_, -, hr⟩ := Out.bind_eq_ok.mp hr
  rw [if_neg (by omega)] at hr
  obtain ⟨iTP, a1, hr⟩ := Out.bind_eq_ok.mp hr
  obtain ⟨t, a2, -⟩ := Out.bind_eq_ok.mp hr
  have om : iTP.hp OMEGA = fin 0 ∨ iTP.hp OMEGA = nan := by
    unfold Rnd.seed at a1
    simp only [hitAt, e1, e2, e3, Out.ok_bind] at a1
    obtain ⟨⟨tp', a⟩, a3, a4⟩ := Out.bind_eq_ok.mp a1
    injection a4 with a4
    rw [← a4]
    show tp'.hp OMEGA = fin 0 ∨ tp'.hp OMEGA = nan
    rw [move_omega a3]
    exact (C174_line_partial h hl' _ _).1
  obtain ⟨L, ops, k1, -, k2, k3⟩ := C166_calls hI a2 (rawHits_exists _)
  have hL : L = [] := by
    rw [List.eq_nil_iff_forall_not_mem]
    intro x hx
    obtain ⟨surf, -, s, xx, -, q0, q, -⟩ := (k1 x).1 hx
    rcases om with om | om
    · have : Rnd.maxArc A.fl iTP.hp = fin 0 := by
        rw [Rnd.maxArc, Rnd.calculateRadius]
        simp only [calculateCurvature, om]
        rw [cif_neg (by simp), zero_eq, show Dbl.abs (fin 0) = fin 0 by simp [Dbl.abs], mulD, fin_mul, mul_zero, rnd_zero h]
      rw [this, fin_lt] at q
      linarith
    · have : Rnd.maxArc A.fl iTP.hp = nan := by
        rw [Rnd.maxArc, Rnd.calculateRadius]
        simp only [calculateCurvature, om]
        rw [cif_pos (by simp)]
        rfl
      rw [this] at q
      exact not_lt_nan _ q
  subst hL
  cases k2
  have q4 := (Rnd.prepare_ok hE k3).1.length_eq
  have q5 := (Rnd.prepare_ok hE k3).2.2.2
  simp only [List.length_map, List.reverse_nil, Rnd.after, Traj.make, List.length_nil] at q4
  exact q5 (List.length_eq_zero_iff.1 q4)

/-- points on each of the lines, at different heights -/
example : OnLine (V3.re 0 7 0) (V3.re 1 7 2) (V3.re 2 7 4) ∧ OnLine (V3.re 3 (-1) 0) (V3.re 3 0 1) (V3.re 3 5 (-2)) ∧
    OnLine (V3.re 1 1 0) (V3.re 2 2 1) (V3.re 3 3 2) := ⟨.alongX rfl rfl, .alongY rfl rfl, .diagonal rfl rfl rfl⟩

/-- a track of four hits, of which the first, third and fourth are used, on a line along the first axis -/
example (h : NearestF 53 1074 A.fl) {S : Setup} (hI : IsStdSort sortWithS S.sortI) (hE : IsStdSort compareElements S.sortE) (i : ℕ) (w : World) (trk : InTrack)
    {a b c d : TrackHit} (ht : trk.hits = [a, b, c, d]) (ha : a.hit.pos = V3.re 10 7 1) (hc : c.hit.pos = V3.re 30 7 3) (hd : d.hit.pos = V3.re 40 7 4) :
    ∀ r, Rnd.refit A S i w trk ≠ .ok r :=
  C174_refit_false h hI hE i w trk (by rw [ht]; simp) (h1 := a) (h2 := c) (h3 := d) (by simp [ht]) (by simp [ht]) (by simp [ht])
    (by rw [ha, hc, hd]; exact .alongX rfl rfl)

end Verif
