import Verif.Model.RoundedCross
import Verif.Lemmas.RoundedCross
import Verif.Props.RoundedMove
import Verif.Props.Intersections

/-!
# Crossings of circles and lines in double precision: C139
-/

open Classical

noncomputable section

namespace Verif

open Dbl Rnd Spec Rounded

variable {fl : ℝ → ℝ}

/-- the size of a circle with centre (a, b) and radius r and of a line n0 x + n1 y = d: the circle and the line are at distances of at
most `M` from the origin -/
structure CrossRange (A M a b r n0 n1 d : ℝ) : Prop where
  A1 : 1 / 2 ^ 100 ≤ A
  A2 : A ≤ 2 ^ 100
  M1 : 1 / 2 ^ 100 ≤ M
  M2 : M ≤ 2 ^ 100
  hn0 : |n0| ≤ A
  hn1 : |n1| ≤ A
  hn : A ^ 2 ≤ n0 ^ 2 + n1 ^ 2
  ha : |a| ≤ M
  hb : |b| ≤ M
  hr : |r| ≤ M
  hd : |d| ≤ A * M

/-- the error of one operation, in units of `B` -/
theorem scaled_err (h : NearestF 53 1074 fl) {t B : ℝ} (hB : 1 / 2 ^ 1000 ≤ B) :
    |fl t / B - t / B| ≤ 1 / 2 ^ 53 * (|t / B| + 1 / 1000) := by
  have B0 : 0 < B := lt_of_lt_of_le (by positivity) hB
  rw [← sub_div, abs_div, abs_of_pos B0, abs_div, abs_of_pos B0, div_le_iff₀ B0]
  refine (err_double h t).trans ?_
  have k : (1 : ℝ) / 2 ^ 1075 ≤ 1 / 2 ^ 53 * (1 / 1000) * B := by
    have k1 := mul_le_mul_of_nonneg_left hB (show (0 : ℝ) ≤ 1 / 2 ^ 53 * (1 / 1000) by positivity)
    refine le_trans ?_ k1
    rw [show (2 : ℝ) ^ 1075 = 2 ^ 1000 * 2 ^ 75 by rw [← pow_add], ← one_div_mul_one_div, mul_comm]
    exact mul_le_mul_of_nonneg_right (by norm_num) (by positivity)
  have e : 1 / 2 ^ 53 * (|t| / B + 1 / 1000) * B = 1 / 2 ^ 53 * |t| + 1 / 2 ^ 53 * (1 / 1000) * B := by
    field_simp
  rw [e]
  exact add_le_add le_rfl k

theorem scale_mul {m n : ℕ} {a b : ℝ} (ha : 1 / 2 ^ m ≤ a) (hb : 1 / 2 ^ n ≤ b) : 1 / 2 ^ (m + n) ≤ a * b := by
  rw [pow_add, ← one_div_mul_one_div]
  exact mul_le_mul ha hb (by positivity) (le_trans (by positivity) ha)

theorem scale_mono {m n : ℕ} {a : ℝ} (ha : 1 / 2 ^ m ≤ a) (hmn : m ≤ n) : 1 / 2 ^ n ≤ a :=
  (one_div_le_one_div_of_le (by positivity) (pow_le_pow_right₀ (by norm_num) hmn)).trans ha

section
variable {A M a b r n0 n1 d : ℝ}

/-- the computed distance of the line, square of the normal and discriminant, in units of the geometry -/
theorem cross_disc (h : NearestF 53 1074 fl) (hr : CrossRange A M a b r n0 n1 d) {S D N disc : ℝ}
    (hS : S = fl (fl (n0 * a) + fl (n1 * b))) (hD : D = fl (d - S)) (hN : N = fl (fl (n0 * n0) + fl (n1 * n1)))
    (hd : disc = fl (fl (fl (r * r) * N) - fl (D * D))) :
    |D / (A * M) - (d - (n0 * a + n1 * b)) / (A * M)| ≤ 9 * (1 / 2 ^ 53) ∧ |D / (A * M)| ≤ 31 / 10 ∧
    |(d - (n0 * a + n1 * b)) / (A * M)| ≤ 3 ∧ |N / A ^ 2 - (n0 ^ 2 + n1 ^ 2) / A ^ 2| ≤ 5 * (1 / 2 ^ 53) ∧
    |disc / (A * M) ^ 2 - clDisc a b r n0 n1 d / (A * M) ^ 2| ≤ 103 * (1 / 2 ^ 53) := by
  have A0 : 0 < A := lt_of_lt_of_le (by positivity) hr.A1
  have M0 : 0 < M := lt_of_lt_of_le (by positivity) hr.M1
  have sAM := scale_mul hr.A1 hr.M1
  have sAA := scale_mul hr.A1 hr.A1
  have sMM := scale_mul hr.M1 hr.M1
  have s4 := scale_mul sAM sAM
  have u0 : (0 : ℝ) ≤ 1 / 2 ^ 53 := by positivity
  have u1 : (1 : ℝ) / 2 ^ 53 ≤ 1 / 1000000 := by norm_num
  have dv : ∀ {t B : ℝ}, 0 < B → |t| ≤ B → |t / B| ≤ 1 := fun hB ht => by rw [abs_div, abs_of_pos hB]; exact (div_le_one hB).2 ht
  have x1 := dv A0 hr.hn0
  have x2 := dv A0 hr.hn1
  have x3 := dv M0 hr.ha
  have x4 := dv M0 hr.hb
  have x5 := dv M0 hr.hr
  have x6 := dv (mul_pos A0 M0) hr.hd
  have E : ∀ {t s B : ℝ} {n : ℕ}, 1 / 2 ^ n ≤ B → n ≤ 1000 → s = t / B → |fl t / B - s| ≤ 1 / 2 ^ 53 * (|s| + 1 / 1000) :=
    fun hB hn e => by rw [e]; exact scaled_err h (scale_mono hB hn)
  obtain ⟨p1, p2, p3⟩ := dist_error (d := D / (A * M)) (S := S / (A * M)) u0 u1 x1 x2 x3 x4 x6
    (E (t := n0 * a) sAM (by norm_num) (by field_simp)) (E (t := n1 * b) sAM (by norm_num) (by field_simp))
    (by rw [hS]; exact E sAM (by norm_num) (by field_simp)) (by rw [hD]; exact E sAM (by norm_num) (by field_simp))
  have e0 : d / (A * M) - (n0 / A * (a / M) + n1 / A * (b / M)) = (d - (n0 * a + n1 * b)) / (A * M) := by field_simp
  rw [e0] at p1 p3
  have p4 := normal_error (N := N / (A * A)) u0 u1 x1 x2
    (E (t := n0 * n0) sAA (by norm_num) (by field_simp)) (E (t := n1 * n1) sAA (by norm_num) (by field_simp))
    (by rw [hN]; exact E sAA (by norm_num) (by field_simp))
  have e1 : n0 / A * (n0 / A) + n1 / A * (n1 / A) = (n0 ^ 2 + n1 ^ 2) / A ^ 2 := by field_simp
  rw [e1] at p4
  have n2 : |(n0 ^ 2 + n1 ^ 2) / A ^ 2| ≤ 2 := by
    rw [← e1]
    refine (abs_add_le _ _).trans ?_
    have := abs_mul_le_of x1 x1
    have := abs_mul_le_of x2 x2
    linarith
  have p5 := disc_error (disc := disc / (A * M * (A * M))) u0 u1 n2 x5 p3 p1 p2 p4
    (E (t := r * r) sMM (by norm_num) (by field_simp)) (E (t := fl (r * r) * N) s4 (by norm_num) (by field_simp))
    (E (t := D * D) s4 (by norm_num) (by field_simp)) (by rw [hd]; exact E s4 (by norm_num) (by field_simp))
  refine ⟨p1, p2, p3, by rw [pow_two A]; rw [pow_two A] at p4; exact p4, ?_⟩
  have e2 : r / M * (r / M) * ((n0 ^ 2 + n1 ^ 2) / A ^ 2) - (d - (n0 * a + n1 * b)) / (A * M) * ((d - (n0 * a + n1 * b)) / (A * M)) =
      clDisc a b r n0 n1 d / (A * M) ^ 2 := by
    unfold clDisc
    field_simp
  rw [e2, ← pow_two] at p5
  exact p5

/-- the computed coordinates of the crossings -/
theorem cross_coord (h : NearestF 53 1074 fl) (hr : CrossRange A M a b r n0 n1 d) {D N disc q i s X x nx ny σ T : ℝ}
    (hd1 : |D / (A * M) - (d - (n0 * a + n1 * b)) / (A * M)| ≤ 9 * (1 / 2 ^ 53)) (hd2 : |D / (A * M)| ≤ 31 / 10)
    (hd3 : |(d - (n0 * a + n1 * b)) / (A * M)| ≤ 3) (hN : |N / A ^ 2 - (n0 ^ 2 + n1 ^ 2) / A ^ 2| ≤ 5 * (1 / 2 ^ 53))
    (hdisc : |disc / (A * M) ^ 2 - clDisc a b r n0 n1 d / (A * M) ^ 2| ≤ 103 * (1 / 2 ^ 53))
    (hΔ : 1 / 2 ^ 45 * (A * M) ^ 2 ≤ clDisc a b r n0 n1 d) (hs : s = √(clDisc a b r n0 n1 d)) (hq : q = fl √disc) (hi : i = fl (1 / N))
    (hnx : |nx| ≤ A) (hny : |ny| ≤ A) (hx : |x| ≤ M) (hσ : |σ| = 1) (hT : T = fl (fl (nx * D) + σ * fl (ny * q)))
    (hX : X = fl (x + fl (T * i))) :
    |X - (x + (nx * (d - (n0 * a + n1 * b)) + σ * (ny * s)) * (1 / (n0 ^ 2 + n1 ^ 2)))| ≤ A * M ^ 2 / (2 ^ 44 * s) := by
  have A0 : 0 < A := lt_of_lt_of_le (by positivity) hr.A1
  have M0 : 0 < M := lt_of_lt_of_le (by positivity) hr.M1
  have AM0 := mul_pos A0 M0
  have sAM := scale_mul hr.A1 hr.M1
  have sAA := scale_mul hr.A1 hr.A1
  have sAAM := scale_mul sAA hr.M1
  have u0 : (0 : ℝ) ≤ 1 / 2 ^ 53 := by positivity
  have u1 : (1 : ℝ) / 2 ^ 53 ≤ 1 / 1000000 := by norm_num
  have dv : ∀ {t B : ℝ}, 0 < B → |t| ≤ B → |t / B| ≤ 1 := fun hB ht => by rw [abs_div, abs_of_pos hB]; exact (div_le_one hB).2 ht
  have E : ∀ {t s B : ℝ} {n : ℕ}, 1 / 2 ^ n ≤ B → n ≤ 1000 → s = t / B → |fl t / B - s| ≤ 1 / 2 ^ 53 * (|s| + 1 / 1000) :=
    fun hB hn e => by rw [e]; exact scaled_err h (scale_mono hB hn)
  have Δ0 : 0 < clDisc a b r n0 n1 d := lt_of_lt_of_le (by positivity) hΔ
  have Δ1 : 1 / 2 ^ 45 ≤ clDisc a b r n0 n1 d / (A * M) ^ 2 := by rwa [le_div_iff₀ (by positivity)]
  have Δ2 : clDisc a b r n0 n1 d / (A * M) ^ 2 ≤ 2 := by
    rw [div_le_iff₀ (by positivity)]
    unfold clDisc
    have k1 := sq_le_sq' (abs_le.1 hr.hr).1 (abs_le.1 hr.hr).2
    have k2 := sq_le_sq' (abs_le.1 hr.hn0).1 (abs_le.1 hr.hn0).2
    have k3 := sq_le_sq' (abs_le.1 hr.hn1).1 (abs_le.1 hr.hn1).2
    have k4 := mul_le_mul k1 (add_le_add k2 k3) (by positivity) (by positivity)
    have k5 := sq_nonneg (d - (n0 * a + n1 * b))
    rw [mul_pow]
    linarith
  have rt : ∀ t : ℝ, √(t / (A * M) ^ 2) = √t / (A * M) := fun t => by
    rw [Real.sqrt_div' _ (by positivity), Real.sqrt_sq AM0.le]
  obtain ⟨q1, q2⟩ := sqrt_error (q := q / (A * M)) u0 u1 (le_trans (by norm_num) Δ1) (lt_of_lt_of_le (by positivity) Δ1) Δ2 hdisc
    (by rw [hq]; exact E sAM (by norm_num) (rt disc))
  have s0 : 0 < s := by rw [hs]; exact Real.sqrt_pos.2 Δ0
  rw [rt, ← hs] at q1
  have sle : s / (A * M) ≤ 3 / 2 := by
    rw [hs, ← rt]
    exact (Real.sqrt_le_left (by norm_num)).2 (by norm_num; linarith)
  have n1' : 1 ≤ (n0 ^ 2 + n1 ^ 2) / A ^ 2 := by rw [le_div_iff₀ (by positivity), one_mul]; exact hr.hn
  have N0 : 0 < N := by
    have k := (abs_le.1 hN).1
    have : 0 < N / A ^ 2 := by
      have : 5 * ((1 : ℝ) / 2 ^ 53) < 1 := by norm_num
      linarith
    exact (div_pos_iff_of_pos_right (by positivity)).1 this
  have iA : 1 / 2 ^ 200 ≤ 1 / A ^ 2 := by
    refine one_div_le_one_div_of_le (by positivity) ?_
    have := pow_le_pow_left₀ A0.le hr.A2 2
    rwa [← pow_mul] at this
  obtain ⟨i1, i2, -⟩ := inv_error (i := i / (1 / A ^ 2)) u0 u1 n1' hN (by rw [hi]; exact E iA (by norm_num) (by field_simp))
  have key := coord_error (T := T / (A * A * M)) (X := X / M) (x0 := x / M) u0 u1 (dv A0 hnx) (dv A0 hny) (dv M0 hx) hd3 hd1 hd2
    (show 0 < s / (A * M) by positivity) sle q1 q2 i1 i2 hσ
    (E (t := nx * D) sAAM (by norm_num) (by field_simp)) (E (t := ny * q) sAAM (by norm_num) (by field_simp))
    (by rw [hT]; exact E sAAM (by norm_num) (by field_simp)) (E (t := T * i) hr.M1 (by norm_num) (by field_simp))
    (by rw [hX]; exact E hr.M1 (by norm_num) (by field_simp))
  have n2 : 0 < n0 ^ 2 + n1 ^ 2 := lt_of_lt_of_le (by positivity) hr.hn
  have e : X / M - (x / M + (nx / A * ((d - (n0 * a + n1 * b)) / (A * M)) + σ * (ny / A * (s / (A * M)))) * (1 / ((n0 ^ 2 + n1 ^ 2) / A ^ 2))) =
      (X - (x + (nx * (d - (n0 * a + n1 * b)) + σ * (ny * s)) * (1 / (n0 ^ 2 + n1 ^ 2)))) / M := by
    field_simp
  rw [e, abs_div, abs_of_pos M0, div_le_iff₀ M0] at key
  refine key.trans ?_
  rw [show 500 * (1 / 2 ^ 53) / (s / (A * M)) * M = 500 / 2 ^ 53 * (A * M ^ 2 / s) by field_simp,
    show A * M ^ 2 / (2 ^ 44 * s) = 1 / 2 ^ 44 * (A * M ^ 2 / s) by field_simp]
  exact mul_le_mul_of_nonneg_right (by norm_num) (by positivity)

theorem tinyD_eq (h : NearestF 53 1074 fl) : tinyD fl = fin (fl (1 / 10 ^ 9)) ∧ fl (1 / 10 ^ 9) ≤ 11 / 10 ^ 10 ∧ 9 / 10 ^ 10 ≤ fl (1 / 10 ^ 9) := by
  have e : (1e-9 : ℝ) = 1 / 10 ^ 9 := by norm_num
  have k := err_small h (t := 1 / 10 ^ 9) (B := 1 / 10 ^ 9) (by rw [abs_of_pos (by positivity)])
  obtain ⟨l, r⟩ := abs_le.1 k
  refine ⟨?_, ?_, ?_⟩
  · rw [tinyD, ofSci_eq, e]
    exact rnd_small h (by rw [abs_of_pos (by positivity)]; norm_num)
  · norm_num at *
    linarith
  · norm_num at *
    linarith

/-- the intermediate results are finite: the computation with real numbers -/
theorem cross_values (h : NearestF 53 1074 fl) (hr : CrossRange A M a b r n0 n1 d) {S D N disc : ℝ}
    (hS : S = fl (fl (n0 * a) + fl (n1 * b))) (hD : D = fl (d - S)) (hN : N = fl (fl (n0 * n0) + fl (n1 * n1)))
    (hd : disc = fl (fl (fl (r * r) * N) - fl (D * D))) :
    moveLine fl ⟨fin n0, fin n1, fin d⟩ (fin a) (fin b) = ⟨fin n0, fin n1, fin D⟩ ∧ normalSquare fl ⟨fin n0, fin n1, fin D⟩ = fin N ∧
    subD fl (mulD fl (mulD fl (fin r) (fin r)) (fin N)) (mulD fl (fin D) (fin D)) = fin disc ∧ |D| ≤ 2 ^ 208 ∧ |disc| ≤ 2 ^ 421 := by
  have R : ∀ {t : ℝ} {n : ℕ}, |t| ≤ 2 ^ n → n ≤ 1000 → rnd fl 1024 (fin t) = fin (fl t) := fun ht hn => rnd_double h (size_mono ht hn)
  have zA := hr.A2
  have zM := hr.M2
  have x1 := hr.hn0.trans zA
  have x2 := hr.hn1.trans zA
  have x3 := hr.ha.trans zM
  have x4 := hr.hb.trans zM
  have x5 := hr.hr.trans zM
  have M0 : 0 < M := lt_of_lt_of_le (by positivity) hr.M1
  have x6 : |d| ≤ 2 ^ 200 := hr.hd.trans (by
    rw [show (2 : ℝ) ^ 200 = 2 ^ 100 * 2 ^ 100 by rw [← pow_add]]
    exact mul_le_mul zA zM M0.le (by positivity))
  have s1 := size_mul x1 x3
  have s2 := size_mul x2 x4
  have s3 := size_add (size_fl h s1) (size_fl h s2)
  have s4 := size_fl h s3
  rw [← hS] at s4
  have s5 := size_sub (size_mono x6 (by norm_num)) s4
  have s6 := size_fl h s5
  rw [← hD] at s6
  have m1 := size_mul x1 x1
  have m2 := size_mul x2 x2
  have m3 := size_add (size_fl h m1) (size_fl h m2)
  have m4 := size_fl h m3
  rw [← hN] at m4
  have r1 := size_mul x5 x5
  have r2 := size_fl h r1
  have r3 := size_mul r2 m4
  have r4 := size_fl h r3
  have d1 := size_mul s6 s6
  have d2 := size_fl h d1
  have d3 := size_sub (size_mono r4 (n := 418) (by norm_num)) d2
  have d4 := size_fl h d3
  rw [← hd] at d4
  refine ⟨?_, ?_, ?_, s6, d4⟩
  · simp only [moveLine, mulD, addD, subD, fin_mul, fin_add, fin_sub, R s1 (by norm_num), R s2 (by norm_num), R s3 (by norm_num), ← hS,
      R s5 (by norm_num), ← hD]
  · simp only [normalSquare, mulD, addD, fin_mul, fin_add, R m1 (by norm_num), R m2 (by norm_num), R m3 (by norm_num), ← hN]
  · simp only [mulD, subD, fin_mul, fin_sub, R r1 (by norm_num), R r3 (by norm_num), R d1 (by norm_num), R d3 (by norm_num), ← hd]

/-- C139: a line that is far enough from a circle gives no crossings. -/
theorem C139_none (h : NearestF 53 1074 fl) (hr : CrossRange A M a b r n0 n1 d)
    (hΔ : clDisc a b r n0 n1 d ≤ -(2 / 10 ^ 9 + 1 / 2 ^ 45 * (A * M) ^ 2)) :
    Rnd.intersectCircleStraightLine fl ⟨fin a, fin b, fin r⟩ ⟨fin n0, fin n1, fin d⟩ = [] := by
  obtain ⟨S, hS⟩ : ∃ t, t = fl (fl (n0 * a) + fl (n1 * b)) := ⟨_, rfl⟩
  obtain ⟨D, hD⟩ : ∃ t, t = fl (d - S) := ⟨_, rfl⟩
  obtain ⟨N, hN⟩ : ∃ t, t = fl (fl (n0 * n0) + fl (n1 * n1)) := ⟨_, rfl⟩
  obtain ⟨disc, hd⟩ : ∃ t, t = fl (fl (fl (r * r) * N) - fl (D * D)) := ⟨_, rfl⟩
  obtain ⟨v1, v2, v3, -, -⟩ := cross_values h hr hS hD hN hd
  obtain ⟨-, -, -, -, c5⟩ := cross_disc h hr hS hD hN hd
  obtain ⟨t1, t2, t3⟩ := tinyD_eq h
  have A0 : 0 < A := lt_of_lt_of_le (by positivity) hr.A1
  have M0 : 0 < M := lt_of_lt_of_le (by positivity) hr.M1
  have B0 : 0 < (A * M) ^ 2 := by positivity
  rw [← sub_div, abs_div, abs_of_pos B0, div_le_iff₀ B0] at c5
  have k := (abs_le.1 c5).2
  have dn : disc ≤ -(2 / 10 ^ 9) := by
    norm_num at *
    linarith
  have dn0 : disc < 0 := lt_of_le_of_lt dn (by norm_num)
  have da : fl (1 / 10 ^ 9) < |disc| := by
    rw [abs_of_neg dn0]
    refine lt_of_le_of_lt t2 ?_
    norm_num at *
    linarith
  simp only [Rnd.intersectCircleStraightLine, v1, v2, v3, t1, zero_eq, fin_lt, abs_fin, dn0, da, and_self, cif_true]

/-- the computed points, and the formulas for the crossings they are next to -/
theorem cross_points (h : NearestF 53 1074 fl) (hr : CrossRange A M a b r n0 n1 d)
    (hΔ : 2 / 10 ^ 9 + 1 / 2 ^ 45 * (A * M) ^ 2 ≤ clDisc a b r n0 n1 d) :
    ∃ X1 Y1 X2 Y2 x1 y1 x2 y2 : ℝ,
      Rnd.intersectCircleStraightLine fl ⟨fin a, fin b, fin r⟩ ⟨fin n0, fin n1, fin d⟩ = [(fin X1, fin Y1), (fin X2, fin Y2)] ∧
      (x1, y1) ≠ (x2, y2) ∧
      (∀ x y, (OnCircle a b r x y ∧ OnLine n0 n1 d x y) ↔ ((x, y) = (x1, y1) ∨ (x, y) = (x2, y2))) ∧
      (|X1 - x1| ≤ A * M ^ 2 / (2 ^ 44 * √(clDisc a b r n0 n1 d)) ∧ |Y1 - y1| ≤ A * M ^ 2 / (2 ^ 44 * √(clDisc a b r n0 n1 d)) ∧
      |X2 - x2| ≤ A * M ^ 2 / (2 ^ 44 * √(clDisc a b r n0 n1 d)) ∧ |Y2 - y2| ≤ A * M ^ 2 / (2 ^ 44 * √(clDisc a b r n0 n1 d))) ∧
      a + (n0 * (d - (n0 * a + n1 * b)) + n1 * √(clDisc a b r n0 n1 d)) * (1 / (n0 ^ 2 + n1 ^ 2)) = x1 ∧
      b + (n1 * (d - (n0 * a + n1 * b)) - n0 * √(clDisc a b r n0 n1 d)) * (1 / (n0 ^ 2 + n1 ^ 2)) = y1 ∧
      a + (n0 * (d - (n0 * a + n1 * b)) - n1 * √(clDisc a b r n0 n1 d)) * (1 / (n0 ^ 2 + n1 ^ 2)) = x2 ∧
      b + (n1 * (d - (n0 * a + n1 * b)) + n0 * √(clDisc a b r n0 n1 d)) * (1 / (n0 ^ 2 + n1 ^ 2)) = y2 := by
  obtain ⟨S, hS⟩ : ∃ t, t = fl (fl (n0 * a) + fl (n1 * b)) := ⟨_, rfl⟩
  obtain ⟨D, hD⟩ : ∃ t, t = fl (d - S) := ⟨_, rfl⟩
  obtain ⟨N, hN⟩ : ∃ t, t = fl (fl (n0 * n0) + fl (n1 * n1)) := ⟨_, rfl⟩
  obtain ⟨disc, hd⟩ : ∃ t, t = fl (fl (fl (r * r) * N) - fl (D * D)) := ⟨_, rfl⟩
  obtain ⟨q, hq⟩ : ∃ t, t = fl √disc := ⟨_, rfl⟩
  obtain ⟨i, hi⟩ : ∃ t, t = fl (1 / N) := ⟨_, rfl⟩
  obtain ⟨v1, v2, v3, zD, zdisc⟩ := cross_values h hr hS hD hN hd
  obtain ⟨c1, c2, c3, c4, c5⟩ := cross_disc h hr hS hD hN hd
  obtain ⟨t1, t2, t3⟩ := tinyD_eq h
  have A0 : 0 < A := lt_of_lt_of_le (by positivity) hr.A1
  have M0 : 0 < M := lt_of_lt_of_le (by positivity) hr.M1
  have B0 : 0 < (A * M) ^ 2 := by positivity
  have c5' := c5
  rw [← sub_div, abs_div, abs_of_pos B0, div_le_iff₀ B0] at c5'
  have k := (abs_le.1 c5').1
  have dn : 2 / 10 ^ 9 ≤ disc := by
    norm_num at *
    linarith
  have dn0 : 0 < disc := lt_of_lt_of_le (by norm_num) dn
  have da : fl (1 / 10 ^ 9) < |disc| := by
    rw [abs_of_pos dn0]
    refine lt_of_le_of_lt t2 ?_
    norm_num at *
    linarith
  have hΔ' : 1 / 2 ^ 45 * (A * M) ^ 2 ≤ clDisc a b r n0 n1 d := le_trans (by norm_num) hΔ
  have n2 : 0 < n0 ^ 2 + n1 ^ 2 := lt_of_lt_of_le (by positivity) hr.hn
  have R : ∀ {t : ℝ} {n : ℕ}, |t| ≤ 2 ^ n → n ≤ 1000 → rnd fl 1024 (fin t) = fin (fl t) := fun ht hn => rnd_double h (size_mono ht hn)
  -- sizes
  have z1 : |√disc| ≤ 2 ^ 421 := by
    rw [abs_of_nonneg (Real.sqrt_nonneg _)]
    refine (Real.sqrt_le_left (by positivity)).2 (le_trans ((le_abs_self _).trans zdisc) ?_)
    rw [← pow_mul]
    exact pow_le_pow_right₀ (by norm_num) (by norm_num)
  have z2 := size_fl h z1
  have Nlow : 1 / 2 ^ 201 ≤ N := by
    have k1 := (abs_le.1 c4).1
    have k2 : 1 ≤ (n0 ^ 2 + n1 ^ 2) / A ^ 2 := by rw [le_div_iff₀ (by positivity), one_mul]; exact hr.hn
    have k3 : 1 / 2 ≤ N / A ^ 2 := by
      norm_num at *
      linarith
    rw [le_div_iff₀ (by positivity)] at k3
    have k4 := scale_mul hr.A1 hr.A1
    refine le_trans ?_ k3
    rw [show (2 : ℝ) ^ 201 = 2 * 2 ^ (100 + 100) by rw [← pow_succ'], ← one_div_mul_one_div, pow_two]
    exact mul_le_mul_of_nonneg_left k4 (by norm_num)
  have N0 : 0 < N := lt_of_lt_of_le (by positivity) Nlow
  have z3 : |1 / N| ≤ 2 ^ 201 := by
    rw [abs_of_pos (by positivity), div_le_iff₀ N0]
    rwa [div_le_iff₀ (by positivity), mul_comm] at Nlow
  have z4 := size_fl h z3
  rw [← hq] at z2
  rw [← hi] at z4
  have x1 := hr.hn0.trans hr.A2
  have x2 := hr.hn1.trans hr.A2
  have x3 := hr.ha.trans hr.M2
  have x4 := hr.hb.trans hr.M2
  have p1 := size_mul x1 zD
  have p2 := size_mul x2 zD
  have p3 := size_mul x1 z2
  have p4 := size_mul x2 z2
  have p1' := size_mono (size_fl h p1) (n := 525) (by norm_num)
  have p2' := size_mono (size_fl h p2) (n := 525) (by norm_num)
  have p3' := size_fl h p3
  have p4' := size_fl h p4
  have a1 := size_add p1' p4'
  have a2 := size_sub p2' p3'
  have a3 := size_sub p1' p4'
  have a4 := size_add p2' p3'
  have b1 := size_mul (size_fl h a1) z4
  have b2 := size_mul (size_fl h a2) z4
  have b3 := size_mul (size_fl h a3) z4
  have b4 := size_mul (size_fl h a4) z4
  have e1 := size_add (size_mono x3 (by norm_num)) (size_fl h b1)
  have e2 := size_add (size_mono x4 (by norm_num)) (size_fl h b2)
  have e3 := size_add (size_mono x3 (by norm_num)) (size_fl h b3)
  have e4 := size_add (size_mono x4 (by norm_num)) (size_fl h b4)
  obtain ⟨x1, y1, x2, y2, eq, ne, hiff⟩ := cl_cross (a := a) (b := b) (r := r) (d := d) n2 (lt_of_lt_of_le (by
    have : 0 ≤ 1 / 2 ^ 45 * (A * M) ^ 2 := by positivity
    norm_num at *
    linarith) hΔ)
  rw [cl_nonneg n2 (le_trans (by positivity) hΔ'), cif_neg (not_le.2 (lt_of_lt_of_le (by
    have : 0 ≤ 1 / 2 ^ 45 * (A * M) ^ 2 := by positivity
    norm_num at *
    linarith) hΔ))] at eq
  simp only [List.cons.injEq, Prod.mk.injEq, fin_inj, and_true] at eq
  obtain ⟨⟨q1, q2⟩, q3, q4⟩ := eq
  have w1 := cross_coord h hr c1 c2 c3 c4 c5 hΔ' rfl hq hi hr.hn0 hr.hn1 hr.ha (σ := 1) (by norm_num) (by rw [one_mul]) rfl
  have w2 := cross_coord h hr c1 c2 c3 c4 c5 hΔ' rfl hq hi hr.hn1 hr.hn0 hr.hb (σ := -1) (by norm_num) (by rw [neg_one_mul, ← sub_eq_add_neg]) rfl
  have w3 := cross_coord h hr c1 c2 c3 c4 c5 hΔ' rfl hq hi hr.hn0 hr.hn1 hr.ha (σ := -1) (by norm_num) (by rw [neg_one_mul, ← sub_eq_add_neg]) rfl
  have w4 := cross_coord h hr c1 c2 c3 c4 c5 hΔ' rfl hq hi hr.hn1 hr.hn0 hr.hb (σ := 1) (by norm_num) (by rw [one_mul]) rfl
  rw [one_mul, q1] at w1
  rw [one_mul, q4] at w4
  rw [neg_one_mul, ← sub_eq_add_neg, q2] at w2
  rw [neg_one_mul, ← sub_eq_add_neg, q3] at w3
  refine ⟨_, _, _, _, x1, y1, x2, y2, ?_, ne, hiff, ⟨w1, w2, w3, w4⟩, q1, q2, q3, q4⟩
  have nd : ¬ (disc < 0 ∧ fl (1 / 10 ^ 9) < |disc|) := fun q => absurd q.1 (not_lt.2 dn0.le)
  have one : divD fl 1 (fin N) = fin i := by
    rw [one_eq, divD, fin_div _ N0.ne', R z3 (by norm_num), ← hi]
  have sq : sqrtD fl (fin disc) = fin q := by
    rw [sqrtD, sqrt_fin dn0.le, R z1 (by norm_num), ← hq]
  simp only [Rnd.intersectCircleStraightLine, v1, v2, v3, t1, zero_eq, fin_lt, fin_le, abs_fin, nd, one, sq, cif_false, not_le.2 da]
  simp only [mulD, addD, subD, fin_mul, fin_add, fin_sub, R p1 (by norm_num), R p2 (by norm_num), R p3 (by norm_num), R p4 (by norm_num),
    R a1 (by norm_num), R a2 (by norm_num), R a3 (by norm_num), R a4 (by norm_num), R b1 (by norm_num), R b2 (by norm_num),
    R b3 (by norm_num), R b4 (by norm_num), R e1 (by norm_num), R e2 (by norm_num), R e3 (by norm_num), R e4 (by norm_num)]

/-- C139 (partial): if the discriminant of the circle and the line is larger than the threshold of the code and the rounding errors
(a part 2^-45 of the square of the size), two points are given, and they are next to the two crossings: the error is at most
2^-44 of the size times the size over half the length of the chord.  Missing: smaller discriminants (C139_missed). -/
theorem C139_points_partial (h : NearestF 53 1074 fl) (hr : CrossRange A M a b r n0 n1 d)
    (hΔ : 2 / 10 ^ 9 + 1 / 2 ^ 45 * (A * M) ^ 2 ≤ clDisc a b r n0 n1 d) :
    ∃ X1 Y1 X2 Y2 x1 y1 x2 y2 : ℝ,
      Rnd.intersectCircleStraightLine fl ⟨fin a, fin b, fin r⟩ ⟨fin n0, fin n1, fin d⟩ = [(fin X1, fin Y1), (fin X2, fin Y2)] ∧
      (x1, y1) ≠ (x2, y2) ∧
      (∀ x y, (OnCircle a b r x y ∧ OnLine n0 n1 d x y) ↔ ((x, y) = (x1, y1) ∨ (x, y) = (x2, y2))) ∧
      |X1 - x1| ≤ A * M ^ 2 / (2 ^ 44 * √(clDisc a b r n0 n1 d)) ∧ |Y1 - y1| ≤ A * M ^ 2 / (2 ^ 44 * √(clDisc a b r n0 n1 d)) ∧
      |X2 - x2| ≤ A * M ^ 2 / (2 ^ 44 * √(clDisc a b r n0 n1 d)) ∧ |Y2 - y2| ≤ A * M ^ 2 / (2 ^ 44 * √(clDisc a b r n0 n1 d)) := by
  obtain ⟨X1, Y1, X2, Y2, x1, y1, x2, y2, e, ne, hiff, ⟨w1, w2, w3, w4⟩, -⟩ := cross_points h hr hΔ
  exact ⟨X1, Y1, X2, Y2, x1, y1, x2, y2, e, ne, hiff, w1, w2, w3, w4⟩

end

/-- the computed numbers for a line next to a circle of radius about 2^11 -/
theorem missed_values (h : NearestF 53 1074 fl) :
    moveLine fl ⟨fin 1, fin (1 / 2 ^ 30), fin (13 * 2 ^ 11 + 1 / 2 ^ 38)⟩ (fin (3 * 2 ^ 13)) (fin (1 / 2 ^ 10)) = ⟨fin 1, fin (1 / 2 ^ 30), fin (2 ^ 11 + 1 / 2 ^ 38)⟩ ∧
    normalSquare fl ⟨fin 1, fin (1 / 2 ^ 30), fin (2 ^ 11 + 1 / 2 ^ 38)⟩ = fin 1 ∧
    subD fl (mulD fl (mulD fl (fin (2 ^ 11 + 7 / 2 ^ 41)) (fin (2 ^ 11 + 7 / 2 ^ 41))) (fin 1)) (mulD fl (fin (2 ^ 11 + 1 / 2 ^ 38)) (fin (2 ^ 11 + 1 / 2 ^ 38))) = fin (-(1 / 2 ^ 29)) := by
  have big : ∀ {t : ℝ}, |t| ≤ 2 ^ 40 → |t| ≤ 2 ^ 1000 := fun ht => size_mono ht (by norm_num)
  have E : ∀ {t : ℝ} (m : ℤ) (k : ℕ), k ≤ 1074 → |m| ≤ 2 ^ 53 → t * 2 ^ k = m → |t| ≤ 2 ^ 40 → rnd fl 1024 (fin t) = fin t := fun m k hk hm e ht =>
    rnd_exact h (rep_dyadic m k hk hm e) (big ht)
  have C : ∀ {t z : ℝ} (m : ℤ) (k : ℕ) (e : ℕ), k ≤ 1074 → |m| ≤ 2 ^ 53 → t * 2 ^ k = m → 2 ^ e < |t| → e ≤ 22 → |z| ≤ 2 ^ 40 →
      |z - t| < 2 ^ e / 2 ^ 53 → rnd fl 1024 (fin z) = fin t := fun {t z} m k e hk hm he ht he' hz hzt => by
    rw [rnd_double h (big hz)]
    congr 1
    refine h.cell (e := e + 1021) (by norm_num) (rep_dyadic m k hk hm he) ?_ ?_
    · rw [show 53 + (e + 1021) = e + 1074 by ring, pow_add]
      exact mul_lt_mul_of_pos_right ht (by positivity)
    · rw [lt_div_iff₀ (by positivity)] at hzt
      rw [pow_add, show (2 : ℝ) ^ 1074 = 2 ^ 53 * 2 ^ 1021 by rw [← pow_add], ← mul_assoc]
      exact mul_lt_mul_of_pos_right hzt (by positivity)
  have s1 : rnd fl 1024 (fin (1 * (3 * 2 ^ 13))) = fin (3 * 2 ^ 13) := by
    rw [one_mul]
    exact E (3 * 2 ^ 13) 0 (by norm_num) (by norm_num) (by norm_num) (by norm_num)
  have s2 : rnd fl 1024 (fin (1 / 2 ^ 30 * (1 / 2 ^ 10))) = fin (1 / 2 ^ 40) := by
    rw [show (1 : ℝ) / 2 ^ 30 * (1 / 2 ^ 10) = 1 / 2 ^ 40 by norm_num]
    exact E 1 40 (by norm_num) (by norm_num) (by norm_num) (by norm_num)
  have s3 : rnd fl 1024 (fin (3 * 2 ^ 13 + 1 / 2 ^ 40)) = fin (3 * 2 ^ 13) :=
    C (3 * 2 ^ 13) 0 14 (by norm_num) (by norm_num) (by norm_num) (by norm_num) (by norm_num) (by norm_num) (by norm_num)
  have s4 : rnd fl 1024 (fin (13 * 2 ^ 11 + 1 / 2 ^ 38 - 3 * 2 ^ 13)) = fin (2 ^ 11 + 1 / 2 ^ 38) := by
    rw [show (13 : ℝ) * 2 ^ 11 + 1 / 2 ^ 38 - 3 * 2 ^ 13 = 2 ^ 11 + 1 / 2 ^ 38 by norm_num]
    exact E (2 ^ 49 + 1) 38 (by norm_num) (by norm_num) (by norm_num) (by norm_num)
  have n1 : rnd fl 1024 (fin (1 * 1)) = fin 1 := by
    rw [one_mul]
    exact E 1 0 (by norm_num) (by norm_num) (by norm_num) (by norm_num)
  have n2 : rnd fl 1024 (fin (1 / 2 ^ 30 * (1 / 2 ^ 30))) = fin (1 / 2 ^ 60) := by
    rw [show (1 : ℝ) / 2 ^ 30 * (1 / 2 ^ 30) = 1 / 2 ^ 60 by norm_num]
    exact E 1 60 (by norm_num) (by norm_num) (by norm_num) (by norm_num)
  have n3 : rnd fl 1024 (fin (1 + 1 / 2 ^ 60)) = fin 1 := by
    rw [rnd_double h (big (by norm_num))]
    congr 1
    refine h.cell (e := 1020) (by norm_num) repF_one ?_ ?_
    · rw [abs_one, one_mul]
      exact pow_lt_pow_right₀ (by norm_num) (by norm_num)
    · rw [add_sub_cancel_left, abs_of_pos (by positivity), one_div_mul_eq_div, div_lt_iff₀ (by positivity), ← pow_add]
      exact pow_lt_pow_right₀ (by norm_num) (by norm_num)
  have r1 : rnd fl 1024 (fin ((2 ^ 11 + 7 / 2 ^ 41) * (2 ^ 11 + 7 / 2 ^ 41))) = fin (2 ^ 22 + 14 / 2 ^ 30) :=
    C (2 ^ 52 + 14) 30 22 (by norm_num) (by norm_num) (by norm_num) (by norm_num) (by norm_num) (by norm_num) (by norm_num)
  have r2 : rnd fl 1024 (fin ((2 ^ 22 + 14 / 2 ^ 30) * 1)) = fin (2 ^ 22 + 14 / 2 ^ 30) := by
    rw [mul_one]
    exact E (2 ^ 52 + 14) 30 (by norm_num) (by norm_num) (by norm_num) (by norm_num)
  have r3 : rnd fl 1024 (fin ((2 ^ 11 + 1 / 2 ^ 38) * (2 ^ 11 + 1 / 2 ^ 38))) = fin (2 ^ 22 + 16 / 2 ^ 30) :=
    C (2 ^ 52 + 16) 30 22 (by norm_num) (by norm_num) (by norm_num) (by norm_num) (by norm_num) (by norm_num) (by norm_num)
  have r4 : rnd fl 1024 (fin (2 ^ 22 + 14 / 2 ^ 30 - (2 ^ 22 + 16 / 2 ^ 30))) = fin (-(1 / 2 ^ 29)) := by
    rw [show (2 : ℝ) ^ 22 + 14 / 2 ^ 30 - (2 ^ 22 + 16 / 2 ^ 30) = -(1 / 2 ^ 29) by norm_num]
    exact E (-1) 29 (by norm_num) (by norm_num) (by norm_num) (by norm_num)
  refine ⟨?_, ?_, ?_⟩
  · simp only [moveLine, mulD, addD, subD, fin_mul, fin_add, fin_sub, s1, s2, s3, s4]
  · simp only [normalSquare, mulD, addD, fin_mul, fin_add, n1, n2, n3]
  · simp only [mulD, subD, fin_mul, fin_sub, r1, r2, r3, r4]

/-- C139: a line may cross a circle in two points that the same computation without rounding errors finds, while in double precision there
is no crossing at all. -/
theorem C139_missed (h : NearestF 53 1074 fl) :
    (∃ x1 y1 x2 y2 : ℝ, (x1, y1) ≠ (x2, y2) ∧ OnCircle (3 * 2 ^ 13) (1 / 2 ^ 10) (2 ^ 11 + 7 / 2 ^ 41) x1 y1 ∧ OnLine 1 (1 / 2 ^ 30) (13 * 2 ^ 11 + 1 / 2 ^ 38) x1 y1 ∧
      OnCircle (3 * 2 ^ 13) (1 / 2 ^ 10) (2 ^ 11 + 7 / 2 ^ 41) x2 y2 ∧ OnLine 1 (1 / 2 ^ 30) (13 * 2 ^ 11 + 1 / 2 ^ 38) x2 y2 ∧
      Verif.intersectCircleStraightLine ⟨fin (3 * 2 ^ 13), fin (1 / 2 ^ 10), fin (2 ^ 11 + 7 / 2 ^ 41)⟩ ⟨fin 1, fin (1 / 2 ^ 30), fin (13 * 2 ^ 11 + 1 / 2 ^ 38)⟩ =
        [(fin x1, fin y1), (fin x2, fin y2)]) ∧
    Rnd.intersectCircleStraightLine fl ⟨fin (3 * 2 ^ 13), fin (1 / 2 ^ 10), fin (2 ^ 11 + 7 / 2 ^ 41)⟩ ⟨fin 1, fin (1 / 2 ^ 30), fin (13 * 2 ^ 11 + 1 / 2 ^ 38)⟩ = [] := by
  constructor
  · obtain ⟨x1, y1, x2, y2, e, ne, k⟩ := cl_cross (a := 3 * 2 ^ 13) (b := 1 / 2 ^ 10) (r := 2 ^ 11 + 7 / 2 ^ 41) (n0 := 1) (n1 := 1 / 2 ^ 30)
      (d := 13 * 2 ^ 11 + 1 / 2 ^ 38) (by norm_num) (by unfold clDisc; norm_num)
    have k1 := (k x1 y1).2 (Or.inl rfl)
    have k2 := (k x2 y2).2 (Or.inr rfl)
    exact ⟨x1, y1, x2, y2, ne, k1.1, k1.2, k2.1, k2.2, e⟩
  · obtain ⟨v1, v2, v3⟩ := missed_values h
    obtain ⟨t1, t2, -⟩ := tinyD_eq h
    have d1 : -((1 : ℝ) / 2 ^ 29) < 0 := by norm_num
    have d2 : fl (1 / 10 ^ 9) < |-((1 : ℝ) / 2 ^ 29)| := lt_of_le_of_lt t2 (by norm_num)
    simp only [Rnd.intersectCircleStraightLine, v1, v2, v3, t1, zero_eq, fin_lt, abs_fin, d1, d2, and_self, cif_true]

/-- C139: the claim that a line that crosses a circle in double precision gets a crossing is false. -/
theorem C139_false (h : NearestF 53 1074 fl) :
    ¬ ∀ a b r n0 n1 d : ℝ, RepF 53 1074 a → RepF 53 1074 b → RepF 53 1074 r → RepF 53 1074 n0 → RepF 53 1074 n1 → RepF 53 1074 d →
      0 < r → 1e-9 < clDisc a b r n0 n1 d →
      Rnd.intersectCircleStraightLine fl ⟨fin a, fin b, fin r⟩ ⟨fin n0, fin n1, fin d⟩ ≠ [] := fun q =>
  q (3 * 2 ^ 13) (1 / 2 ^ 10) (2 ^ 11 + 7 / 2 ^ 41) 1 (1 / 2 ^ 30) (13 * 2 ^ 11 + 1 / 2 ^ 38) (rep_dyadic (3 * 2 ^ 13) 0 (by norm_num) (by norm_num) (by norm_num))
    (rep_dyadic 1 10 (by norm_num) (by norm_num) (by norm_num)) (rep_dyadic (2 ^ 52 + 7) 41 (by norm_num) (by norm_num) (by norm_num)) repF_one
    (rep_dyadic 1 30 (by norm_num) (by norm_num) (by norm_num)) (rep_dyadic (13 * 2 ^ 49 + 1) 38 (by norm_num) (by norm_num) (by norm_num))
    (by norm_num) (by unfold clDisc; norm_num) (C139_missed h).2

/-- the computed numbers for a line next to a circle of radius about 2^10 -/
theorem nan_values (h : NearestF 53 1074 fl) :
    moveLine fl ⟨fin 1, fin (1 / 2 ^ 30), fin (13 * 2 ^ 10 + 1 / 2 ^ 39)⟩ (fin (3 * 2 ^ 12)) (fin (1 / 2 ^ 11)) = ⟨fin 1, fin (1 / 2 ^ 30), fin (2 ^ 10 + 1 / 2 ^ 39)⟩ ∧
    normalSquare fl ⟨fin 1, fin (1 / 2 ^ 30), fin (2 ^ 10 + 1 / 2 ^ 39)⟩ = fin 1 ∧
    subD fl (mulD fl (mulD fl (fin (2 ^ 10 + 7 / 2 ^ 42)) (fin (2 ^ 10 + 7 / 2 ^ 42))) (fin 1)) (mulD fl (fin (2 ^ 10 + 1 / 2 ^ 39)) (fin (2 ^ 10 + 1 / 2 ^ 39))) = fin (-(1 / 2 ^ 31)) := by
  have big : ∀ {t : ℝ}, |t| ≤ 2 ^ 40 → |t| ≤ 2 ^ 1000 := fun ht => size_mono ht (by norm_num)
  have E : ∀ {t : ℝ} (m : ℤ) (k : ℕ), k ≤ 1074 → |m| ≤ 2 ^ 53 → t * 2 ^ k = m → |t| ≤ 2 ^ 40 → rnd fl 1024 (fin t) = fin t := fun m k hk hm e ht =>
    rnd_exact h (rep_dyadic m k hk hm e) (big ht)
  have C : ∀ {t z : ℝ} (m : ℤ) (k : ℕ) (e : ℕ), k ≤ 1074 → |m| ≤ 2 ^ 53 → t * 2 ^ k = m → 2 ^ e < |t| → e ≤ 22 → |z| ≤ 2 ^ 40 →
      |z - t| < 2 ^ e / 2 ^ 53 → rnd fl 1024 (fin z) = fin t := fun {t z} m k e hk hm he ht he' hz hzt => by
    rw [rnd_double h (big hz)]
    congr 1
    refine h.cell (e := e + 1021) (by norm_num) (rep_dyadic m k hk hm he) ?_ ?_
    · rw [show 53 + (e + 1021) = e + 1074 by ring, pow_add]
      exact mul_lt_mul_of_pos_right ht (by positivity)
    · rw [lt_div_iff₀ (by positivity)] at hzt
      rw [pow_add, show (2 : ℝ) ^ 1074 = 2 ^ 53 * 2 ^ 1021 by rw [← pow_add], ← mul_assoc]
      exact mul_lt_mul_of_pos_right hzt (by positivity)
  have s1 : rnd fl 1024 (fin (1 * (3 * 2 ^ 12))) = fin (3 * 2 ^ 12) := by
    rw [one_mul]
    exact E (3 * 2 ^ 12) 0 (by norm_num) (by norm_num) (by norm_num) (by norm_num)
  have s2 : rnd fl 1024 (fin (1 / 2 ^ 30 * (1 / 2 ^ 11))) = fin (1 / 2 ^ 41) := by
    rw [show (1 : ℝ) / 2 ^ 30 * (1 / 2 ^ 11) = 1 / 2 ^ 41 by norm_num]
    exact E 1 41 (by norm_num) (by norm_num) (by norm_num) (by norm_num)
  have s3 : rnd fl 1024 (fin (3 * 2 ^ 12 + 1 / 2 ^ 41)) = fin (3 * 2 ^ 12) :=
    C (3 * 2 ^ 12) 0 13 (by norm_num) (by norm_num) (by norm_num) (by norm_num) (by norm_num) (by norm_num) (by norm_num)
  have s4 : rnd fl 1024 (fin (13 * 2 ^ 10 + 1 / 2 ^ 39 - 3 * 2 ^ 12)) = fin (2 ^ 10 + 1 / 2 ^ 39) := by
    rw [show (13 : ℝ) * 2 ^ 10 + 1 / 2 ^ 39 - 3 * 2 ^ 12 = 2 ^ 10 + 1 / 2 ^ 39 by norm_num]
    exact E (2 ^ 49 + 1) 39 (by norm_num) (by norm_num) (by norm_num) (by norm_num)
  have n1 : rnd fl 1024 (fin (1 * 1)) = fin 1 := by
    rw [one_mul]
    exact E 1 0 (by norm_num) (by norm_num) (by norm_num) (by norm_num)
  have n2 : rnd fl 1024 (fin (1 / 2 ^ 30 * (1 / 2 ^ 30))) = fin (1 / 2 ^ 60) := by
    rw [show (1 : ℝ) / 2 ^ 30 * (1 / 2 ^ 30) = 1 / 2 ^ 60 by norm_num]
    exact E 1 60 (by norm_num) (by norm_num) (by norm_num) (by norm_num)
  have n3 : rnd fl 1024 (fin (1 + 1 / 2 ^ 60)) = fin 1 := by
    rw [rnd_double h (big (by norm_num))]
    congr 1
    refine h.cell (e := 1020) (by norm_num) repF_one ?_ ?_
    · rw [abs_one, one_mul]
      exact pow_lt_pow_right₀ (by norm_num) (by norm_num)
    · rw [add_sub_cancel_left, abs_of_pos (by positivity), one_div_mul_eq_div, div_lt_iff₀ (by positivity), ← pow_add]
      exact pow_lt_pow_right₀ (by norm_num) (by norm_num)
  have r1 : rnd fl 1024 (fin ((2 ^ 10 + 7 / 2 ^ 42) * (2 ^ 10 + 7 / 2 ^ 42))) = fin (2 ^ 20 + 14 / 2 ^ 32) :=
    C (2 ^ 52 + 14) 32 20 (by norm_num) (by norm_num) (by norm_num) (by norm_num) (by norm_num) (by norm_num) (by norm_num)
  have r2 : rnd fl 1024 (fin ((2 ^ 20 + 14 / 2 ^ 32) * 1)) = fin (2 ^ 20 + 14 / 2 ^ 32) := by
    rw [mul_one]
    exact E (2 ^ 52 + 14) 32 (by norm_num) (by norm_num) (by norm_num) (by norm_num)
  have r3 : rnd fl 1024 (fin ((2 ^ 10 + 1 / 2 ^ 39) * (2 ^ 10 + 1 / 2 ^ 39))) = fin (2 ^ 20 + 16 / 2 ^ 32) :=
    C (2 ^ 52 + 16) 32 20 (by norm_num) (by norm_num) (by norm_num) (by norm_num) (by norm_num) (by norm_num) (by norm_num)
  have r4 : rnd fl 1024 (fin (2 ^ 20 + 14 / 2 ^ 32 - (2 ^ 20 + 16 / 2 ^ 32))) = fin (-(1 / 2 ^ 31)) := by
    rw [show (2 : ℝ) ^ 20 + 14 / 2 ^ 32 - (2 ^ 20 + 16 / 2 ^ 32) = -(1 / 2 ^ 31) by norm_num]
    exact E (-1) 31 (by norm_num) (by norm_num) (by norm_num) (by norm_num)
  refine ⟨?_, ?_, ?_⟩
  · simp only [moveLine, mulD, addD, subD, fin_mul, fin_add, fin_sub, s1, s2, s3, s4]
  · simp only [normalSquare, mulD, addD, fin_mul, fin_add, n1, n2, n3]
  · simp only [mulD, subD, fin_mul, fin_sub, r1, r2, r3, r4]

/-- C139: or the one crossing that is reported is not a number, although the line crosses the circle in two points. -/
theorem C139_nan (h : NearestF 53 1074 fl) :
    0 < clDisc (3 * 2 ^ 12) (1 / 2 ^ 11) (2 ^ 10 + 7 / 2 ^ 42) 1 (1 / 2 ^ 30) (13 * 2 ^ 10 + 1 / 2 ^ 39) ∧
    Rnd.intersectCircleStraightLine fl ⟨fin (3 * 2 ^ 12), fin (1 / 2 ^ 11), fin (2 ^ 10 + 7 / 2 ^ 42)⟩ ⟨fin 1, fin (1 / 2 ^ 30), fin (13 * 2 ^ 10 + 1 / 2 ^ 39)⟩ = [(nan, nan)] := by
  refine ⟨by unfold clDisc; norm_num, ?_⟩
  obtain ⟨v1, v2, v3⟩ := nan_values h
  obtain ⟨t1, -, t3⟩ := tinyD_eq h
  have d1 : ¬ fl (1 / 10 ^ 9) < |-((1 : ℝ) / 2 ^ 31)| := not_lt.2 (le_trans (by norm_num) t3)
  have d2 : |-((1 : ℝ) / 2 ^ 31)| ≤ fl (1 / 10 ^ 9) := le_trans (by norm_num) t3
  have sq : sqrtD fl (fin (-((1 : ℝ) / 2 ^ 31))) = nan := by
    rw [sqrtD, sqrt_neg (by norm_num)]
    rfl
  simp only [Rnd.intersectCircleStraightLine, v1, v2, v3, t1, zero_eq, fin_lt, fin_le, abs_fin, d1, d2, and_false, cif_false, cif_true, sq]
  simp [mulD, addD, subD, rnd]

/-- the hypotheses of C139_points_partial can be met: a circle of radius 1 around the origin and the line x + y = 1 -/
example (h : NearestF 53 1074 fl) : ∃ X1 Y1 X2 Y2 : ℝ,
    Rnd.intersectCircleStraightLine fl ⟨fin 0, fin 0, fin 1⟩ ⟨fin 1, fin 1, fin 1⟩ = [(fin X1, fin Y1), (fin X2, fin Y2)] := by
  obtain ⟨X1, Y1, X2, Y2, -, -, -, -, e, -⟩ := C139_points_partial (A := 1) (M := 1) (a := 0) (b := 0) (r := 1) (n0 := 1) (n1 := 1) (d := 1) h
    ⟨by norm_num, by norm_num, by norm_num, by norm_num, by norm_num, by norm_num, by norm_num, by norm_num, by norm_num, by norm_num, by norm_num⟩
    (by unfold clDisc; norm_num)
  exact ⟨X1, Y1, X2, Y2, e⟩

/-- the hypotheses of C139_none can be met: the line x = 2 -/
example (h : NearestF 53 1074 fl) : Rnd.intersectCircleStraightLine fl ⟨fin 0, fin 0, fin 1⟩ ⟨fin 1, fin 0, fin 2⟩ = [] :=
  C139_none (A := 1) (M := 2) h
    ⟨by norm_num, by norm_num, by norm_num, by norm_num, by norm_num, by norm_num, by norm_num, by norm_num, by norm_num, by norm_num, by norm_num⟩
    (by unfold clDisc; norm_num)

/-- and there is a rounding -/
example : ∃ fl, NearestF 53 1074 fl := exists_nearestF 53 1074

end Verif
