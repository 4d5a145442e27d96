import Verif.Lemmas.RoundedStart
import Verif.Props.RoundedCircles
import Verif.Props.StartTrack

/-! Property C153: the start helix through three points in double precision. -/

open Classical

noncomputable section

namespace Verif

open Dbl

namespace Rnd

variable {fl : ℝ → ℝ} {at2 : ℝ → ℝ → ℝ}

/-- the transverse distance of two points -/
def gap (x y x' y' : ℝ) : ℝ := Real.sqrt ((x' - x) ^ 2 + (y' - y) ^ 2)

/-- Three points whose transverse distances are between L/16 and L, with coordinates up to P L.  The sine of the angle at the first point is at
least 1/q. -/
structure StartRange (x1 y1 x2 y2 x3 y3 L P q : ℝ) : Prop where
  L0 : 1 / 2 ^ 100 ≤ L
  L1 : L ≤ 2 ^ 100
  a : L / 16 ≤ gap x1 y1 x2 y2 ∧ gap x1 y1 x2 y2 ≤ L
  b : L / 16 ≤ gap x1 y1 x3 y3 ∧ gap x1 y1 x3 y3 ≤ L
  c : L / 16 ≤ gap x2 y2 x3 y3 ∧ gap x2 y2 x3 y3 ≤ L
  P0 : 1 ≤ P
  P1 : P ≤ 2 ^ 20
  p1 : |x1| ≤ P * L ∧ |y1| ≤ P * L
  p2 : |x2| ≤ P * L ∧ |y2| ≤ P * L
  p3 : |x3| ≤ P * L ∧ |y3| ≤ P * L
  q1 : q ≤ 2 ^ 20
  sine : gap x1 y1 x2 y2 * gap x1 y1 x3 y3 ≤ q * |(x2 - x1) * (y3 - y1) - (y2 - y1) * (x3 - x1)|

end Rnd

open Rnd

variable {fl : ℝ → ℝ} {at2 : ℝ → ℝ → ℝ}

/-- the start helix, with bounds of its parameters -/
theorem start_full (h : NearestF 53 1074 fl) (ha : IsAtan2 at2) {x1 y1 z1 x2 y2 z2 x3 y3 z3 L P q : ℝ} (w : StartRange x1 y1 x2 y2 x3 y3 L P q)
    (hz : |z2 - z3| ≤ 2 ^ 100) (tp : TP) (backward : Bool) :
    ∃ om tl ph om' tl' ph' : ℝ, ∃ k : ℤ,
      Verif.calculateStartHelix (V3.re x1 y1 z1) (V3.re x2 y2 z2) (V3.re x3 y3 z3) tp backward = ⟨tp.cov, hpR om tl ph 0 0, V3.re x1 y1 z1⟩ ∧
      Rnd.calculateStartHelix fl at2 (V3.re x1 y1 z1) (V3.re x2 y2 z2) (V3.re x3 y3 z3) tp backward = ⟨tp.cov, hpR om' tl' ph' 0 0, V3.re x1 y1 z1⟩ ∧
      om ≠ 0 ∧ |om' - om| ≤ 70 * q / 2 ^ 53 * |om| ∧ |tl' - tl| ≤ 2 ^ 17 * q / 2 ^ 53 * (|tl| + 16) ∧
      |ph' - ph - k * (2 * Real.pi)| ≤ (250 * P + 350 * q + 2 ^ 16) / 2 ^ 53 ∧ (-4 ≤ ph' ∧ ph' ≤ 5) ∧ (1 / 2 ^ 120 ≤ |om| ∧ |om| ≤ 2 ^ 120) ∧
      |tl| * L ≤ 16 * |z2 - z3| := by
  have L0 : 0 < L := lt_of_lt_of_le (by positivity) w.L0
  have hnc : (x2 - x1) * (y3 - y1) - (y2 - y1) * (x3 - x1) ≠ 0 := by
    intro z
    have k := w.sine
    rw [z, abs_zero, mul_zero] at k
    have := mul_pos (lt_of_lt_of_le (by positivity : 0 < L / 16) w.a.1) (lt_of_lt_of_le (by positivity : 0 < L / 16) w.b.1)
    linarith
  obtain ⟨a, b, p, s, th, r, k, a0, b0, hr, e1, e2, e3, e4, hth, t1, t2, hneg, f, h1, h2, ph, g1, g2, hres⟩ :=
    startHelix_re x1 y1 z1 x2 y2 z2 x3 y3 z3 tp backward hnc
  have s1 : Real.sin th = Real.sin (s - p) := by rw [hth, Real.sin_add_int_mul_two_pi]
  have s2 : Real.cos th = Real.cos (s - p) := by rw [hth, Real.cos_add_int_mul_two_pi]
  have aa : a * a = (x2 - x1) * (x2 - x1) + (y2 - y1) * (y2 - y1) := by
    rw [e1, e2]
    linear_combination -a * a * Real.sin_sq_add_cos_sq p
  have bb : b * b = (x3 - x1) * (x3 - x1) + (y3 - y1) * (y3 - y1) := by
    rw [e3, e4]
    linear_combination -b * b * Real.sin_sq_add_cos_sq s
  have ga : gap x1 y1 x2 y2 = a := by
    rw [gap, show (x2 - x1) ^ 2 + (y2 - y1) ^ 2 = a * a by rw [aa]; ring, Real.sqrt_mul_self a0.le]
  have gb : gap x1 y1 x3 y3 = b := by
    rw [gap, show (x3 - x1) ^ 2 + (y3 - y1) ^ 2 = b * b by rw [bb]; ring, Real.sqrt_mul_self b0.le]
  obtain ⟨c, hc⟩ : ∃ c, c = gap x2 y2 x3 y3 := ⟨_, rfl⟩
  have wa := w.a
  have wb := w.b
  have wc := w.c
  have wq := w.sine
  rw [ga] at wa wq
  rw [gb] at wb wq
  rw [← hc] at wc
  have c0 : 0 < c := lt_of_lt_of_le (by positivity) wc.1
  have cc : c * c = (x3 - x2) * (x3 - x2) + (y3 - y2) * (y3 - y2) := by
    rw [hc, gap, Real.mul_self_sqrt (by positivity)]
    ring
  have wx : x3 - x2 = b * Real.cos s - a * Real.cos p := by linarith
  have wy : y3 - y2 = b * Real.sin s - a * Real.sin p := by linarith
  have c2 : c ^ 2 = a ^ 2 + b ^ 2 - 2 * (a * b * Real.cos th) := by
    rw [pow_two, cc, s2, wx, wy, Real.cos_sub]
    linear_combination a ^ 2 * Real.sin_sq_add_cos_sq p + b ^ 2 * Real.sin_sq_add_cos_sq s
  have sg : r * Real.sin th < 0 := by
    rcases lt_trichotomy th 0 with t | t | t
    · have r0 : 0 < r := by
        by_contra z
        have := mul_nonneg_of_nonpos_of_nonpos (not_lt.1 z) t.le
        linarith
      exact mul_neg_of_pos_of_neg r0 (Real.sin_neg_of_neg_of_neg_pi_lt t t1)
    · rw [t, mul_zero] at hneg
      exact absurd hneg (lt_irrefl _)
    · have r0 : r < 0 := by
        by_contra z
        have := mul_nonneg (not_lt.1 z) t.le
        linarith
      exact mul_neg_of_neg_of_pos r0 (Real.sin_pos_of_pos_of_lt_pi t t2)
  have cr : c = -(2 * r * Real.sin th) := by
    have k1 := start_chord h1 h2
    rw [← s2, ← c2, ← s1] at k1
    rcases sq_eq_sq_iff_eq_or_eq_neg.1 k1 with k2 | k2
    · linarith
    · exact k2
  have area : (x2 - x1) * (y3 - y1) - (y2 - y1) * (x3 - x1) = a * b * Real.sin th := by
    rw [e1, e2, e3, e4, s1, Real.sin_sub]
    ring
  rw [area, abs_mul, abs_of_pos (mul_pos a0 b0)] at wq
  have sne : Real.sin th ≠ 0 := by
    intro z
    rw [z, mul_zero] at sg
    exact lt_irrefl _ sg
  have σ0 : 0 < |Real.sin th| := abs_pos.2 sne
  have σ1 := Real.abs_sin_le_one th
  have qs : 1 ≤ q * |Real.sin th| := by
    have : a * b * 1 ≤ a * b * (q * |Real.sin th|) := by linarith
    exact le_of_mul_le_mul_left this (mul_pos a0 b0)
  obtain ⟨Q, hQ'⟩ : ∃ Q, Q = 1 / |Real.sin th| := ⟨_, rfl⟩
  have hQ : Q * |Real.sin th| = 1 := by rw [hQ', one_div_mul_cancel σ0.ne']
  have Q1 : 1 ≤ Q := by rw [hQ', le_div_iff₀ σ0]; linarith
  have Qq : Q ≤ q := by rw [hQ', div_le_iff₀ σ0]; exact qs
  have Q2 : Q ≤ 2 ^ 20 := Qq.trans w.q1
  obtain ⟨om, tl, ph', k', hv, i1, i2, i3, i4⟩ := start_values h ha tp w.L0 w.L1 wa.1 wa.2 wb.1 wb.2 wc.1 wc.2 w.P0 w.P1 w.p1 w.p2 w.p3 e1 e2 e3 e4 aa bb cc c2 s1 s2 t1 t2
    cr h1 h2 Q1 hQ Q2 hz backward g1 g2 (z1 := z1)
  refine ⟨_, _, ph, om, tl, ph', k', hres, hv, ?_, i1.trans ?_, i2.trans ?_, i3.trans ?_, i4⟩
  · cases backward <;> simp [hr]
  · gcongr
  · gcongr
  · gcongr

/-- C153: The start helix in double precision against the helix that follows from exact arithmetic (C18): the curvature has the relative error
70 q 2⁻⁵³, the slope 2¹⁷ q 2⁻⁵³ (relative to the slope and 16), the azimuth (250 P + 350 q + 2¹⁶) 2⁻⁵³ up to full turns. -/
theorem C153_start (h : NearestF 53 1074 fl) (ha : IsAtan2 at2) {x1 y1 z1 x2 y2 z2 x3 y3 z3 L P q : ℝ} (w : StartRange x1 y1 x2 y2 x3 y3 L P q)
    (hz : |z2 - z3| ≤ 2 ^ 100) (tp : TP) (backward : Bool) :
    ∃ om tl ph om' tl' ph' : ℝ, ∃ k : ℤ,
      Verif.calculateStartHelix (V3.re x1 y1 z1) (V3.re x2 y2 z2) (V3.re x3 y3 z3) tp backward = ⟨tp.cov, hpR om tl ph 0 0, V3.re x1 y1 z1⟩ ∧
      Rnd.calculateStartHelix fl at2 (V3.re x1 y1 z1) (V3.re x2 y2 z2) (V3.re x3 y3 z3) tp backward = ⟨tp.cov, hpR om' tl' ph' 0 0, V3.re x1 y1 z1⟩ ∧
      om ≠ 0 ∧ |om' - om| ≤ 70 * q / 2 ^ 53 * |om| ∧ |tl' - tl| ≤ 2 ^ 17 * q / 2 ^ 53 * (|tl| + 16) ∧
      |ph' - ph - k * (2 * Real.pi)| ≤ (250 * P + 350 * q + 2 ^ 16) / 2 ^ 53 := by
  obtain ⟨om, tl, ph, om', tl', ph', k, i1, i2, i3, i4, i5, i6, -⟩ := start_full h ha w hz tp backward (z1 := z1)
  exact ⟨om, tl, ph, om', tl', ph', k, i1, i2, i3, i4, i5, i6⟩

/-- C153 for three points of a track in their order along the track: the parameters of this track, for the first point as reference -/
theorem C153_track (h : NearestF 53 1074 fl) (ha : IsAtan2 at2) {om tl ph d z rx ry rz s1 s2 s3 L P q : ℝ} (h0 : om ≠ 0) (tp : TP) (backward : Bool)
    (ho : if backward then s3 < s2 ∧ s2 < s1 else s1 < s2 ∧ s2 < s3) (ht : |om| * |s3 - s1| < 2 * Real.pi)
    (w : StartRange (rX om ph d rx s1) (rY om ph d ry s1) (rX om ph d rx s2) (rY om ph d ry s2) (rX om ph d rx s3) (rY om ph d ry s3) L P q)
    (hz : |rZ tl z rz s2 - rZ tl z rz s3| ≤ 2 ^ 100) :
    ∃ om' tl' ph' : ℝ, ∃ k : ℤ,
      Rnd.calculateStartHelix fl at2 (Verif.pointAt (fin s1) (hpR om tl ph d z) (V3.re rx ry rz)) (Verif.pointAt (fin s2) (hpR om tl ph d z) (V3.re rx ry rz))
        (Verif.pointAt (fin s3) (hpR om tl ph d z) (V3.re rx ry rz)) tp backward = ⟨tp.cov, hpR om' tl' ph' 0 0, Verif.pointAt (fin s1) (hpR om tl ph d z) (V3.re rx ry rz)⟩ ∧
      |om' - om| ≤ 70 * q / 2 ^ 53 * |om| ∧ |tl' - tl| ≤ 2 ^ 17 * q / 2 ^ 53 * (|tl| + 16) ∧
      |ph' - (ph - om * s1) - k * (2 * Real.pi)| ≤ (250 * P + 350 * q + 2 ^ 16) / 2 ^ 53 := by
  obtain ⟨f, c1, c2, c3, -⟩ := C138_start (tl := tl) (ph := ph) (d := d) (z := z) (rx := rx) (ry := ry) (rz := rz) h0 tp backward ho ht
  rw [pointAt_re h0, pointAt_re h0, pointAt_re h0] at c1 ⊢
  obtain ⟨om₁, tl₁, ph₁, om', tl', ph', k, i1, i2, -, i4, i5, i6⟩ := C153_start h ha w hz tp backward (z1 := rZ tl z rz s1)
  rw [c1] at i1
  have e := congrArg TP.hp i1
  have e0 := congrFun e 0
  have e1 := congrFun e 1
  have e2 := congrFun e 2
  simp only [hpR, Matrix.cons_val_zero, Matrix.cons_val_one, Matrix.cons_val, fin.injEq] at e0 e1 e2
  subst e0 e1 e2
  obtain ⟨n, hn⟩ : ∃ n : ℤ, f = ph - om * s1 + n * (2 * Real.pi) := by
    have := (Real.Angle.cos_sin_inj c2 c3)
    obtain ⟨n, hn⟩ := Real.Angle.angle_eq_iff_two_pi_dvd_sub.1 this
    exact ⟨n, by linarith⟩
  refine ⟨om', tl', ph', k + n, i2, i4, i5, ?_⟩
  rw [hn] at i6
  push_cast
  rwa [show ph' - (ph - om * s1) - (k + n) * (2 * Real.pi) = ph' - (ph - om * s1 + n * (2 * Real.pi)) - k * (2 * Real.pi) by ring]

/-- The condition on the distances is needed: for the points (-M, -M), (0, 0) and (1, 0) with M = 2⁶⁰ + 2³¹ the two directions from the first
point are the same numbers and the curvature is 0. -/
theorem C153_far (h : NearestF 53 1074 fl) (tp : TP) (z1 z2 z3 : ℝ) :
    calculateOmega (Rnd.calculateStartHelix fl at2 (V3.re (-(2 ^ 60 + 2 ^ 31)) (-(2 ^ 60 + 2 ^ 31)) z1) (V3.re 0 0 z2) (V3.re 1 0 z3) tp false).hp = fin 0 ∧
      ∃ om tl ph : ℝ, om ≠ 0 ∧ Verif.calculateStartHelix (V3.re (-(2 ^ 60 + 2 ^ 31)) (-(2 ^ 60 + 2 ^ 31)) z1) (V3.re 0 0 z2) (V3.re 1 0 z3) tp false =
        ⟨tp.cov, hpR om tl ph 0 0, V3.re (-(2 ^ 60 + 2 ^ 31)) (-(2 ^ 60 + 2 ^ 31)) z1⟩ := by
  constructor
  · obtain ⟨M, hM⟩ : ∃ M : ℝ, M = 2 ^ 60 + 2 ^ 31 := ⟨_, rfl⟩
    rw [← hM]
    have d0 : subD fl (fin 0) (fin (-M)) = fin M := by
      rw [subD, fin_sub, zero_sub, neg_neg, hM]
      exact rnd_big h (2 ^ 29 + 1) 31 (by norm_num) (by norm_num) (by norm_num)
    have d1 : subD fl (fin 1) (fin (-M)) = fin M := by
      rw [subD, fin_sub, sub_neg_eq_add, hM]
      exact rnd_next h (2 ^ 29 + 1) 31 60 (by norm_num) (by norm_num) (by norm_num) (by norm_num) (by norm_num)
    have d2 : subD fl (fin 1) (fin 0) = fin 1 := by
      rw [subD, fin_sub, sub_zero]
      exact rnd_big h 1 0 (by norm_num) (by norm_num) (by norm_num)
    have d3 : subD fl (fin 0) (fin 0) = fin 0 := by rw [subD, fin_sub, sub_zero, rnd_zero h]
    have M0 : (2 : ℝ) ^ 60 ≤ M := by rw [hM]; norm_num
    have M1 : M ≤ 2 ^ 61 := by rw [hM]; norm_num
    have Mp : 0 < M := lt_of_lt_of_le (by positivity) M0
    have n0 : Real.sqrt 2 * M * (Real.sqrt 2 * M) = M * M + M * M := by
      have := Real.mul_self_sqrt (show (0 : ℝ) ≤ 2 by norm_num)
      linear_combination M * M * this
    have q1 : 1 ≤ Real.sqrt 2 := Real.one_le_sqrt.2 (by norm_num)
    have q2 : Real.sqrt 2 ≤ 2 := Real.sqrt_le_iff.2 ⟨by norm_num, by norm_num⟩
    have n1 : 1 / 2 ^ 104 ≤ Real.sqrt 2 * M := by
      have k1 : 1 * M ≤ Real.sqrt 2 * M := mul_le_mul_of_nonneg_right q1 Mp.le
      have k2 : (1 : ℝ) / 2 ^ 104 ≤ 2 ^ 60 := by norm_num
      linarith
    have n2 : Real.sqrt 2 * M ≤ 2 ^ 104 := by
      have k1 : Real.sqrt 2 * M ≤ 2 * 2 ^ 61 := mul_le_mul q2 M1 Mp.le (by norm_num)
      have k2 : (2 : ℝ) * 2 ^ 61 ≤ 2 ^ 104 := by norm_num
      linarith
    have g : Ap 104 (Real.sqrt 2 * M) (fin M) (fin M) 1 (101 / 100) := (Ap.given n1 n2 (by
      rw [abs_of_pos Mp, one_mul]
      have k1 : 1 * M ≤ Real.sqrt 2 * M := mul_le_mul_of_nonneg_right q1 Mp.le
      linarith)).mono le_rfl (by norm_num)
    obtain ⟨-, U⟩ := flat_ap h n1 n2 n0 g g
    obtain ⟨t, -, ht, -⟩ := (Ap.mul h U.x U.y (by norm_num) (by norm_num) (by norm_num) (by norm_num)).val
    obtain ⟨t', -, ht', -⟩ := (Ap.mul h U.y U.x (by norm_num) (by norm_num) (by norm_num) (by norm_num)).val
    have uv : (unitV fl ⟨fin M, fin M, 0⟩).x = (unitV fl ⟨fin M, fin M, 0⟩).y := rfl
    have z : (crossV fl (unitV fl ⟨fin M, fin M, 0⟩) (unitV fl ⟨fin M, fin M, 0⟩)).z = fin 0 := by
      rw [crossV]
      simp only [uv]
      rw [uv] at ht
      rw [ht, subD, fin_sub, sub_self, rnd_zero h]
    have one : Ap 104 1 (fin 1) (fin 1) 1 (101 / 100) := (Ap.given (by norm_num) (by norm_num) (by norm_num)).mono le_rfl (by norm_num)
    have zero : Ap 104 1 (fin 0) (fin 0) 1 (101 / 100) := (Ap.given (by norm_num) (by norm_num) (by norm_num)).mono le_rfl (by norm_num)
    obtain ⟨C, -⟩ := flat_ap h (by norm_num) (by norm_num) (by norm_num) one zero
    have hmh : |(-(1 / 2) : ℝ)| ≤ 1 / 2 := by rw [abs_neg, abs_of_pos (by norm_num)]
    obtain ⟨v, x, hv, hx, e, -⟩ := (Ap.mulr h (Ap.unit hmh) C (by norm_num) (by norm_num) (by norm_num) (by norm_num)).val
    rw [fin_mul, fin.injEq] at hx
    subst hx
    have v0 : v ≠ 0 := by
      rintro rfl
      norm_num at e
    have e1 : ({ subV fl (V3.re 0 0 z2) (V3.re (-M) (-M) z1) with z := 0 } : V3) = ⟨fin M, fin M, 0⟩ := by
      simp only [subV, V3.re, d0]
    have e2 : ({ subV fl (V3.re 1 0 z3) (V3.re (-M) (-M) z1) with z := 0 } : V3) = ⟨fin M, fin M, 0⟩ := by
      simp only [subV, V3.re, d0, d1]
    have e3 : ({ subV fl (V3.re 1 0 z3) (V3.re 0 0 z2) with z := 0 } : V3) = ⟨fin 1, fin 0, 0⟩ := by
      simp only [subV, V3.re, d2, d3]
    have om : divD fl 1 (divD fl (mulD fl (-fin (1 / 2)) (rV fl ⟨fin 1, fin 0, 0⟩)) (fin 0)) = fin 0 := by
      have k1 : divD fl (mulD fl (-fin (1 / 2)) (rV fl ⟨fin 1, fin 0, 0⟩)) (fin 0) = inf (Dbl.sgn v) := by
        rw [fin_neg, hv, divD]
        change rnd fl 1024 (Dbl.div (fin v) (fin 0)) = _
        rw [Dbl.div, if_pos rfl, if_neg v0]
        rfl
      rw [k1, one_eq]
      exact rnd_zero h
    change divD fl 1 (divD fl (mulD fl (-fin (1 / 2)) (rV fl { subV fl (V3.re 1 0 z3) (V3.re 0 0 z2) with z := 0 }))
      (crossV fl (unitV fl { subV fl (V3.re 0 0 z2) (V3.re (-M) (-M) z1) with z := 0 }) (unitV fl { subV fl (V3.re 1 0 z3) (V3.re (-M) (-M) z1) with z := 0 })).z) = fin 0
    rw [e1, e2, e3, z, om]
  · obtain ⟨om, tl, ph, h1, h2, -⟩ := C18_start_helix (-(2 ^ 60 + 2 ^ 31)) (-(2 ^ 60 + 2 ^ 31)) z1 0 0 z2 1 0 z3 tp false (by norm_num)
    exact ⟨om, tl, ph, h1, h2⟩

/-- a case: three points on half a turn of a track with radius 1 -/
example (h : NearestF 53 1074 fl) (ha : IsAtan2 at2) (tp : TP) : ∃ om tl ph : ℝ, ∃ k : ℤ,
    Rnd.calculateStartHelix fl at2 (Verif.pointAt (fin 0) (hpR (-1) 3 0 0 0) (V3.re 1 0 0)) (Verif.pointAt (fin (Real.pi / 2)) (hpR (-1) 3 0 0 0) (V3.re 1 0 0))
      (Verif.pointAt (fin Real.pi) (hpR (-1) 3 0 0 0) (V3.re 1 0 0)) tp false = ⟨tp.cov, hpR om tl ph 0 0, Verif.pointAt (fin 0) (hpR (-1) 3 0 0 0) (V3.re 1 0 0)⟩ ∧
      |om - -1| ≤ 1 / 2 ^ 45 ∧ |tl - 3| ≤ 1 / 2 ^ 30 ∧ |ph - k * (2 * Real.pi)| ≤ 1 / 2 ^ 36 := by
  have hp := Real.pi_pos
  have hp4 := Real.pi_lt_four
  have x0 : rX (-1) 0 0 1 0 = 1 := by simp [rX]
  have y0 : rY (-1) 0 0 0 0 = 0 := by simp [rY]
  have x1 : rX (-1) 0 0 1 (Real.pi / 2) = 2 := by norm_num [rX]
  have y1 : rY (-1) 0 0 0 (Real.pi / 2) = 1 := by norm_num [rY]
  have x2 : rX (-1) 0 0 1 Real.pi = 1 := by norm_num [rX]
  have y2 : rY (-1) 0 0 0 Real.pi = 2 := by norm_num [rY]
  have g1 : gap 1 0 2 1 = Real.sqrt 2 := by rw [gap]; norm_num
  have g2 : gap 1 0 1 2 = 2 := by rw [gap, show ((1 : ℝ) - 1) ^ 2 + (2 - 0) ^ 2 = 2 * 2 by norm_num, Real.sqrt_mul_self (by norm_num)]
  have g3 : gap 2 1 1 2 = Real.sqrt 2 := by rw [gap]; norm_num
  have q1 : 1 ≤ Real.sqrt 2 := Real.one_le_sqrt.2 (by norm_num)
  have q2 : Real.sqrt 2 ≤ 2 := Real.sqrt_le_iff.2 ⟨by norm_num, by norm_num⟩
  obtain ⟨om, tl, ph, k, i1, i2, i3, i4⟩ := C153_track h ha (om := -1) (tl := 3) (ph := 0) (d := 0) (z := 0) (rx := 1) (ry := 0) (rz := 0) (s1 := 0)
    (s2 := Real.pi / 2) (s3 := Real.pi) (L := 2) (P := 1) (q := 2) (by norm_num) tp false (by simp only [Bool.false_eq_true, if_false]; constructor <;> linarith)
    (by rw [abs_neg, abs_one, sub_zero, abs_of_pos hp]; linarith)
    (by
      rw [x0, y0, x1, y1, x2, y2]
      exact ⟨by norm_num, by norm_num, by rw [g1]; constructor <;> linarith, by rw [g2]; norm_num, by rw [g3]; constructor <;> linarith, by norm_num, by norm_num,
        by norm_num, by norm_num, by norm_num, by norm_num, by rw [g1, g2]; norm_num; linarith⟩)
    (by
      rw [rZ, rZ, abs_le]
      norm_num
      constructor <;> linarith)
  refine ⟨om, tl, ph, k, i1, i2.trans (by norm_num), i3.trans (by norm_num), ?_⟩
  rw [show ph - (0 - -1 * 0) - k * (2 * Real.pi) = ph - k * (2 * Real.pi) by ring] at i4
  exact i4.trans (by norm_num)

end Verif
