import Verif.Lemmas.RoundedUnitStates
import Verif.Lemmas.RoundedMove

/-!
# The test of the functions of a helix in double precision
-/

open Classical

noncomputable section

namespace Verif

open Dbl Rnd UT Rounded

namespace RUT

variable {A : TestLib} {fl sl : ℝ → ℝ}

/-- the helix of helixCalculations.cc:26 -/
def twoH (A : TestLib) : V5 := ![dec A 0.1, 1, quarter, 0, 0]

theorem two_ok : V5.ofList (hpHelix A) = .ok (twoH A) := by
  have : 5 ≤ (hpHelix A).length := le_rfl
  rw [V5.ofList, dif_pos this]
  congr 1
  funext i
  fin_cases i <;> rfl

theorem curv_near (hA : A.Ok) : N (dec A 0.1) (1 / 10) (2 / 10 ^ 17) := by
  have := tenth_near hA.fl
  rw [dec, lit, show (0.1 : ℝ) = 1 / 10 by norm_num]
  exact this

theorem quarter_near : N quarter (Real.pi / 4) (1 / 10 ^ 15) := by
  refine ⟨_, rfl, ?_⟩
  have := mPi_bounds.1
  rw [show mPi / 4 - Real.pi / 4 = (mPi - Real.pi) / 4 by ring, abs_div, abs_of_pos (by norm_num : (0 : ℝ) < 4)]
  norm_num at this ⊢
  linarith

theorem sin_q (hA : A.Ok) : N (sinD A.lm quarter) (Real.sqrt 2 / 2) (4 / 10 ^ 14) := by
  have := (N.sin hA.lm quarter_near).mono (e := 4 / 10 ^ 14) (by norm_num)
  rwa [Real.sin_pi_div_four] at this

theorem cos_q (hA : A.Ok) : N (cosD A.lm quarter) (Real.sqrt 2 / 2) (4 / 10 ^ 14) := by
  have := (N.cos hA.lm quarter_near).mono (e := 4 / 10 ^ 14) (by norm_num)
  rwa [Real.cos_pi_div_four] at this

theorem s_near (hA : A.Ok) : N (mulD A.fl 10 quarter) (10 * (Real.pi / 4)) (5 / 10 ^ 14) := by
  have p := Real.pi_lt_four
  have p0 := Real.pi_pos
  rw [ofNat_eq]
  refine (N.mul hA.fl (N.of 10) quarter_near (X := 10) (Y := 1) (by norm_num) (by rw [abs_of_pos (by linarith)]; linarith) (by norm_num) ?_).mono (by norm_num)
  rw [abs_of_pos (by linarith)]
  linarith

theorem half_near (hA : A.Ok) : N (divD A.fl (mulD A.fl (dec A 0.1) (mulD A.fl 10 quarter)) 2) (Real.pi / 8) (2 / 10 ^ 13) := by
  have p := Real.pi_lt_four
  have p0 := Real.pi_pos
  have k := (N.mul hA.fl (curv_near hA) (s_near hA) (X := 1 / 10) (Y := 10) (by norm_num) (by rw [abs_of_pos (by linarith)]; linarith) (by norm_num)
    (by rw [abs_of_pos (by linarith)]; linarith)).mono (e := 1 / 10 ^ 13) (by norm_num)
  rw [ofNat_eq]
  refine (N.div hA.fl k (N.of 2) (q := Real.pi / 8) (m := 1) (by ring) (by norm_num) (by norm_num) (by rw [abs_of_pos (by linarith)]; linarith) ?_).mono ?_
  · norm_num
  · norm_num

theorem twice_near (hA : A.Ok) : N (divD A.fl 2 (dec A 0.1)) 20 (4 / 10 ^ 14) := by
  rw [ofNat_eq]
  exact (N.div hA.fl (N.of 2) (curv_near hA) (q := 20) (m := 1 / 11) (by norm_num) (by norm_num) (by norm_num) (by norm_num) (by norm_num)).mono (by norm_num)

theorem radius_near (hA : A.Ok) : N (divD A.fl 1 (dec A 0.1)) 10 (4 / 10 ^ 14) := by
  rw [one_eq]
  exact (N.div hA.fl (N.of 1) (curv_near hA) (q := 10) (m := 1 / 11) (by norm_num) (by norm_num) (by norm_num) (by norm_num) (by norm_num)).mono (by norm_num)

theorem curv_ne (hA : A.Ok) : ¬ Dbl.eqv (dec A 0.1) 0 := by
  obtain ⟨r, e, b⟩ := curv_near hA
  rw [e]
  have b' := abs_le.1 b
  norm_num at b'
  intro h
  have : r = 0 := by simpa using h
  rw [this] at b'
  linarith

theorem rnd_zero (hA : A.Ok) : rnd A.fl 1024 (fin 0) = fin 0 := by
  rw [rnd_double hA.fl (by rw [_root_.abs_zero]; positivity), hA.fl.fix repF_zero]

/-- products with zero -/
theorem mul_zero' (hA : A.Ok) {a : Dbl} {x d : ℝ} (ha : N a x d) : mulD A.fl a 0 = 0 := by
  obtain ⟨r, rfl, -⟩ := ha
  rw [zero_eq, mulD, fin_mul, mul_zero, rnd_zero hA]

theorem zero_mul' (hA : A.Ok) {a : Dbl} {x d : ℝ} (ha : N a x d) : mulD A.fl 0 a = 0 := by
  obtain ⟨r, rfl, -⟩ := ha
  rw [zero_eq, mulD, fin_mul, zero_mul, rnd_zero hA]

theorem add_zeros (hA : A.Ok) : addD A.fl 0 0 = 0 := by
  rw [zero_eq, addD, fin_add, add_zero, rnd_zero hA]

theorem sub_zeros (hA : A.Ok) : subD A.fl 0 0 = 0 := by
  rw [zero_eq, subD, fin_sub, sub_zero, rnd_zero hA]

theorem n_zero : N 0 0 0 := by
  rw [zero_eq]; exact N.of 0

theorem x0_two (hA : A.Ok) : Rnd.calculateX0 A.fl A.lm (twoH A) V3.zero = 0 := by
  show addD A.fl (mulD A.fl (sinD A.lm (-quarter)) 0) 0 = 0
  rw [mul_zero' hA (N.sin hA.lm quarter_near.neg), add_zeros hA]

theorem y0_two (hA : A.Ok) : Rnd.calculateY0 A.fl A.lm (twoH A) V3.zero = 0 := by
  show addD A.fl (mulD A.fl (cosD A.lm quarter) 0) 0 = 0
  rw [mul_zero' hA (cos_q hA), add_zeros hA]

theorem sqrt2 : |Real.sqrt 2 / 2| ≤ 1 := by
  obtain ⟨q1, q2⟩ := sqrt_two_bounds
  rw [abs_of_nonneg (by positivity)]
  norm_num at q2
  linarith

/-- the coordinates of the centre -/
theorem centre_near (hA : A.Ok) {a : Dbl} (ha : N a (Real.sqrt 2 / 2) (4 / 10 ^ 14)) :
    N (mulD A.fl (subD A.fl (divD A.fl 1 (dec A 0.1)) 0) a) (5 * Real.sqrt 2) (1 / 10 ^ 11) := by
  have k := N.sub hA.fl (radius_near hA) n_zero (by norm_num) (by norm_num)
  have k2 := (N.mul hA.fl k ha (X := 10) (Y := 1) (by norm_num) sqrt2 (by norm_num) (by
    rw [abs_mul]
    have := sqrt2
    norm_num
    linarith)).mono (e := 1 / 10 ^ 11) (by norm_num)
  rwa [show ((10 : ℝ) - 0) * (Real.sqrt 2 / 2) = 5 * Real.sqrt 2 by ring] at k2

theorem twenty (t : ℝ) : |20 * Real.sin t| ≤ 20 := by
  rw [abs_mul, abs_of_pos (by norm_num : (0 : ℝ) < 20)]
  have := Real.abs_sin_le_one t
  linarith

theorem x_two (hA : A.Ok) : N (Rnd.calculateXfromS A.fl A.lm (mulD A.fl 10 quarter) (twoH A) V3.zero) (5 * Real.sqrt 2) (1 / 10 ^ 10) := by
  have p := Real.pi_lt_four
  have p0 := Real.pi_pos
  have e : Rnd.calculateXfromS A.fl A.lm (mulD A.fl 10 quarter) (twoH A) V3.zero =
      addD A.fl 0 (mulD A.fl (mulD A.fl (divD A.fl 2 (dec A 0.1)) (sinD A.lm (divD A.fl (mulD A.fl (dec A 0.1) (mulD A.fl 10 quarter)) 2)))
      (cosD A.lm (subD A.fl quarter (divD A.fl (mulD A.fl (dec A 0.1) (mulD A.fl 10 quarter)) 2)))) := by
    rw [Rnd.calculateXfromS, x0_two hA]
    exact cif_pos (curv_ne hA)
  have k1 := N.sin hA.lm (half_near hA)
  have k2 := N.cos hA.lm (N.sub hA.fl quarter_near (half_near hA) (by norm_num) (by rw [abs_of_pos (by linarith)]; linarith))
  have k3 := N.mul hA.fl (twice_near hA) k1 (X := 20) (Y := 1) (by norm_num) (Real.abs_sin_le_one _) (by norm_num) ((twenty _).trans (by norm_num))
  have b3 := twenty (Real.pi / 8)
  have b4 : |20 * Real.sin (Real.pi / 8) * Real.cos (Real.pi / 4 - Real.pi / 8)| ≤ 200 := by
    rw [abs_mul]
    have := mul_le_mul b3 (Real.abs_cos_le_one (Real.pi / 4 - Real.pi / 8)) (abs_nonneg _) (by norm_num)
    linarith
  have k4 := N.mul hA.fl k3 k2 (X := 20) (Y := 1) b3 (Real.abs_cos_le_one _) (by norm_num) b4
  have k5 := N.add hA.fl n_zero k4 (by norm_num) (by rwa [zero_add])
  rw [e]
  have e3 := Real.sin_two_mul (Real.pi / 8)
  rw [show 2 * (Real.pi / 8) = Real.pi / 4 by ring, Real.sin_pi_div_four] at e3
  have v : (0 : ℝ) + 20 * Real.sin (Real.pi / 8) * Real.cos (Real.pi / 4 - Real.pi / 8) = 5 * Real.sqrt 2 := by
    rw [show Real.pi / 4 - Real.pi / 8 = Real.pi / 8 by ring]
    linarith
  rw [v] at k5
  exact k5.mono (by norm_num)

theorem y_two (hA : A.Ok) : N (Rnd.calculateYfromS A.fl A.lm (mulD A.fl 10 quarter) (twoH A) V3.zero) (10 - 5 * Real.sqrt 2) (1 / 10 ^ 10) := by
  have p := Real.pi_lt_four
  have p0 := Real.pi_pos
  have e : Rnd.calculateYfromS A.fl A.lm (mulD A.fl 10 quarter) (twoH A) V3.zero =
      addD A.fl 0 (mulD A.fl (mulD A.fl (divD A.fl 2 (dec A 0.1)) (sinD A.lm (divD A.fl (mulD A.fl (dec A 0.1) (mulD A.fl 10 quarter)) 2)))
      (sinD A.lm (subD A.fl quarter (divD A.fl (mulD A.fl (dec A 0.1) (mulD A.fl 10 quarter)) 2)))) := by
    rw [Rnd.calculateYfromS, y0_two hA]
    exact cif_pos (curv_ne hA)
  have k1 := N.sin hA.lm (half_near hA)
  have k2 := N.sin hA.lm (N.sub hA.fl quarter_near (half_near hA) (by norm_num) (by rw [abs_of_pos (by linarith)]; linarith))
  have b3 := twenty (Real.pi / 8)
  have k3 := N.mul hA.fl (twice_near hA) k1 (X := 20) (Y := 1) (by norm_num) (Real.abs_sin_le_one _) (by norm_num) (b3.trans (by norm_num))
  have b4 : |20 * Real.sin (Real.pi / 8) * Real.sin (Real.pi / 4 - Real.pi / 8)| ≤ 200 := by
    rw [abs_mul]
    have := mul_le_mul b3 (Real.abs_sin_le_one (Real.pi / 4 - Real.pi / 8)) (abs_nonneg _) (by norm_num)
    linarith
  have k4 := N.mul hA.fl k3 k2 (X := 20) (Y := 1) b3 (Real.abs_sin_le_one _) (by norm_num) b4
  have k5 := N.add hA.fl n_zero k4 (by norm_num) (by rwa [zero_add])
  rw [e]
  have e3 := Real.cos_two_mul (Real.pi / 8)
  rw [show 2 * (Real.pi / 8) = Real.pi / 4 by ring, Real.cos_pi_div_four] at e3
  have e4 := Real.sin_sq_add_cos_sq (Real.pi / 8)
  have v : (0 : ℝ) + 20 * Real.sin (Real.pi / 8) * Real.sin (Real.pi / 4 - Real.pi / 8) = 10 - 5 * Real.sqrt 2 := by
    rw [show Real.pi / 4 - Real.pi / 8 = Real.pi / 8 by ring]
    nlinarith
  rw [v] at k5
  exact k5.mono (by norm_num)

theorem phi_two (hA : A.Ok) : N (Rnd.calculatePhifromXY A.fl A.lm A.at2 0 0 (twoH A) V3.zero) (Real.pi / 4) (1 / 10 ^ 11) := by
  have p := Real.pi_lt_four
  have p0 := Real.pi_pos
  have q := sqrt2
  have e : Rnd.calculatePhifromXY A.fl A.lm A.at2 0 0 (twoH A) V3.zero = atan2D A.fl A.at2 (subD A.fl (sinD A.lm quarter) 0) (addD A.fl (cosD A.lm quarter) 0) := by
    rw [Rnd.calculatePhifromXY, x0_two hA, y0_two hA, sub_zeros hA]
    show atan2D A.fl A.at2 (subD A.fl (sinD A.lm quarter) (mulD A.fl (dec A 0.1) 0)) (addD A.fl (cosD A.lm quarter) (mulD A.fl (dec A 0.1) 0)) = _
    rw [mul_zero' hA (curv_near hA)]
  obtain ⟨y, ey, hy⟩ := N.sub hA.fl (sin_q hA) n_zero (by norm_num) (by rw [sub_zero]; linarith)
  obtain ⟨x, ex, hx⟩ := N.add hA.fl (cos_q hA) n_zero (by norm_num) (by rw [add_zero]; linarith)
  rw [e, ey, ex]
  rw [sub_zero] at hy
  rw [add_zero] at hx
  obtain ⟨q1, q2⟩ := sqrt_two_bounds
  have qq : 1 / 2 ≤ Real.sqrt 2 / 2 := by norm_num at q1; linarith
  have bnd : (4 : ℝ) / 10 ^ 14 + 0 + 3 / 10 ^ 14 ≤ 1 * (5 / 10 ^ 13 * |Real.sqrt 2 / 2| + 0) := by
    rw [abs_of_nonneg (by linarith)]
    norm_num at qq ⊢
    linarith
  obtain ⟨n, v⟩ := polar_error (A := y) (B := x) (φ := Real.pi / 4) (ρ := 1) (a := 5 / 10 ^ 13) (τ := 0) one_pos (by norm_num) (by norm_num) le_rfl (by positivity)
    (by linarith) (by linarith) (Or.inl (by rw [abs_of_pos (by linarith)]; linarith))
    (by rw [Real.sin_pi_div_four, one_mul]; exact hy.trans bnd) (by rw [Real.cos_pi_div_four, one_mul]; exact hx.trans bnd)
  have w := at2_value hA.at2 n v
  refine ⟨_, rfl, w.trans ?_⟩
  have t := tiny1074
  have b : |Real.sin (Real.pi / 4) * Real.cos (Real.pi / 4)| ≤ 1 := by
    rw [abs_mul]
    exact mul_le_one₀ (Real.abs_sin_le_one _) (abs_nonneg _) (Real.abs_cos_le_one _)
  rw [abs_of_pos (by linarith : 0 < Real.pi / 4)]
  generalize |Real.sin (Real.pi / 4) * Real.cos (Real.pi / 4)| = S at *
  generalize (1 : ℝ) / 2 ^ 1074 = η at *
  norm_num at *
  linarith

theorem s_two (hA : A.Ok) : N (Rnd.calculateSfromXY A.fl A.lm A.at2 (dec A 7.07106781186547524401) (dec A 2.92893218813452475599) (twoH A) V3.zero)
    (10 * (Real.pi / 4)) (1 / 10 ^ 9) := by
  have h := hA.fl
  have p1 := Real.pi_gt_d20
  have p2 := Real.pi_lt_d20
  norm_num at p1 p2
  obtain ⟨q1, q2⟩ := sqrt_two_bounds
  norm_num at q1 q2
  have q := sqrt2
  have zx : subD A.fl 0 (mulD A.fl (sinD A.lm quarter) 0) = 0 := by rw [mul_zero' hA (sin_q hA), sub_zeros hA]
  have zy : addD A.fl 0 (mulD A.fl (cosD A.lm quarter) 0) = 0 := by rw [mul_zero' hA (cos_q hA), add_zeros hA]
  set dx := subD A.fl (dec A 7.07106781186547524401) 0 with hdx
  set dy := subD A.fl (dec A 2.92893218813452475599) 0 with hdy
  have nx : N dx 7.07106781186547524401 (1 / 10 ^ 13) := by
    have := (N.sub h (N.lit h (x := 7.07106781186547524401) (by norm_num)) n_zero (by norm_num) (by norm_num)).mono (e := 1 / 10 ^ 13) (by norm_num)
    rwa [sub_zero] at this
  have ny : N dy 2.92893218813452475599 (1 / 10 ^ 13) := by
    have := (N.sub h (N.lit h (x := 2.92893218813452475599) (by norm_num)) n_zero (by norm_num) (by norm_num)).mono (e := 1 / 10 ^ 13) (by norm_num)
    rwa [sub_zero] at this
  have k1 := (N.mul h (curv_near hA) nx (X := 1 / 10) (Y := 10) (by norm_num) (by norm_num) (by norm_num) (by norm_num)).mono (e := 1 / 10 ^ 13) (by norm_num)
  have k2 := (N.mul h (curv_near hA) ny (X := 1 / 10) (Y := 10) (by norm_num) (by norm_num) (by norm_num) (by norm_num)).mono (e := 1 / 10 ^ 13) (by norm_num)
  obtain ⟨a, ea, ba⟩ := N.sub h (sin_q hA) k1 (by norm_num) (by rw [abs_le]; norm_num; constructor <;> linarith)
  obtain ⟨b, eb, bb⟩ := N.add h (cos_q hA) k2 (by norm_num) (by rw [abs_le]; norm_num; constructor <;> linarith)
  have a1 : |a| ≤ 1 / 10 ^ 12 := by
    have := abs_le.1 ba
    norm_num at this
    rw [abs_le]
    norm_num
    constructor <;> linarith
  have b1 : 9 / 10 ≤ b := by
    have := abs_le.1 bb
    norm_num at this
    norm_num
    linarith
  have rt : |ratan2 a b| ≤ 2 / 10 ^ 12 := by
    refine (ratan2_small (by linarith)).trans ?_
    rw [div_le_iff₀ (by linarith)]
    norm_num at a1 ⊢
    linarith
  have nphi : N (atan2D A.fl A.at2 (subD A.fl (sinD A.lm quarter) (mulD A.fl (dec A 0.1) dx)) (addD A.fl (cosD A.lm quarter) (mulD A.fl (dec A 0.1) dy)))
      0 (3 / 10 ^ 12) := by
    rw [ea, eb]
    refine ⟨_, rfl, ?_⟩
    have w := at2_value hA.at2 (A := a) (B := b) (φ := 0) (E := 2 / 10 ^ 12) (fun hn => by rw [hn.1] at b1; linarith) (by rwa [sub_zero])
    have t := tiny1074
    refine w.trans ?_
    rw [_root_.abs_zero]
    generalize (1 : ℝ) / 2 ^ 1074 = η at *
    norm_num at *
    linarith
  have nd := (N.sub h nphi quarter_near (by norm_num) (by rw [abs_le]; constructor <;> linarith)).mono (e := 4 / 10 ^ 12) (by norm_num)
  set ph := atan2D A.fl A.at2 (subD A.fl (sinD A.lm quarter) (mulD A.fl (dec A 0.1) dx)) (addD A.fl (cosD A.lm quarter) (mulD A.fl (dec A 0.1) dy)) with hph
  obtain ⟨D, eD, bD⟩ := id nd
  have bD' := abs_le.1 bD
  norm_num at bD'
  obtain ⟨-, m1, m2, m3⟩ := mPi_bounds
  norm_num at m2 m3
  have e : Rnd.calculateSfromXY A.fl A.lm A.at2 (dec A 7.07106781186547524401) (dec A 2.92893218813452475599) (twoH A) V3.zero =
      divD A.fl (mulD A.fl (addD A.fl (mulD A.fl dx (cosD A.lm quarter)) (mulD A.fl dy (sinD A.lm quarter))) (fin D)) (sinD A.lm (fin D)) := by
    have u1 : calculatePhi0 (twoH A) = quarter := rfl
    have u2 : calculateD0 (twoH A) = 0 := rfl
    have u3 : calculateCurvature (twoH A) = dec A 0.1 := rfl
    have u4 : V3.zero.x = 0 := rfl
    have u5 : V3.zero.y = 0 := rfl
    simp only [Rnd.calculateSfromXY, u1, u2, u3, u4, u5, zx, zy, ← hdx, ← hdy, ← hph, eD]
    have w1 : ¬ fin D < -fin mPi := by rw [fin_neg, fin_lt]; linarith
    have w2 : ¬ fin mPi < fin D := by rw [fin_lt]; linarith
    rw [cif_neg w1, cif_neg w2]
    refine cif_pos ?_
    intro hD
    have : D = 0 := by simpa using hD
    linarith
  rw [e, ← eD]
  have k3 := (N.mul h nx (cos_q hA) (X := 10) (Y := 1) (by norm_num) q (by norm_num) (by
    rw [abs_le]; norm_num; constructor <;> linarith)).mono (e := 1 / 10 ^ 12) (by norm_num)
  have k4 := (N.mul h ny (sin_q hA) (X := 10) (Y := 1) (by norm_num) q (by norm_num) (by
    rw [abs_le]; norm_num; constructor <;> linarith)).mono (e := 1 / 10 ^ 12) (by norm_num)
  have k5 := (N.add h k3 k4 (by norm_num) (by rw [abs_le]; norm_num; constructor <;> linarith)).mono (e := 3 / 10 ^ 12) (by norm_num)
  rw [show (7.07106781186547524401 : ℝ) * (Real.sqrt 2 / 2) + 2.92893218813452475599 * (Real.sqrt 2 / 2) = 5 * Real.sqrt 2 by norm_num; ring] at k5
  have b5 : |5 * Real.sqrt 2| ≤ 8 := by rw [abs_le]; constructor <;> linarith
  have bp : |0 - Real.pi / 4| ≤ 1 := by rw [abs_le]; constructor <;> linarith
  have k6 := (N.mul h k5 nd (X := 8) (Y := 1) b5 bp (by norm_num) (by
    rw [abs_mul]
    have := mul_le_mul b5 bp (abs_nonneg _) (by norm_num)
    linarith)).mono (e := 1 / 10 ^ 10) (by norm_num)
  have k7 := (N.sin hA.lm nd).mono (e := 1 / 10 ^ 11) (by norm_num)
  have e7 : Real.sin (0 - Real.pi / 4) = -(Real.sqrt 2 / 2) := by rw [zero_sub, Real.sin_neg, Real.sin_pi_div_four]
  rw [e7] at k7
  have bq : |10 * (Real.pi / 4)| ≤ 8 := by rw [abs_le]; constructor <;> linarith
  have kq : (1 / 10 ^ 10 + |10 * (Real.pi / 4)| * (1 / 10 ^ 11)) / (1 / 2) ≤ 5 / 10 ^ 10 := by
    rw [div_le_iff₀ (by norm_num)]
    norm_num at bq ⊢
    linarith
  refine (N.div h k6 k7 (q := 10 * (Real.pi / 4)) (m := 1 / 2) (by ring) (by norm_num) ?_ (bq.trans (by norm_num)) (kq.trans (by norm_num))).mono ?_
  · rw [_root_.abs_neg, abs_of_nonneg (by linarith)]
    norm_num
    linarith
  · refine (add_le_add_left kq _).trans ?_
    norm_num

/-! ## the track with no curvature -/

theorem sin_zero' (hA : A.Ok) : sinD A.lm 0 = 0 := by
  rw [zero_eq]
  show fin (A.lm.sin 0) = _
  rw [hA.sin0]

theorem cos_zero' (hA : A.Ok) : N (cosD A.lm 0) 1 (3 / 10 ^ 14) := by
  have := N.cos hA.lm n_zero
  rwa [Real.cos_zero, zero_add] at this

theorem atan_zero (hA : A.Ok) : atan2D A.fl A.at2 0 (addD A.fl (cosD A.lm 0) 0) = 0 := by
  obtain ⟨x, ex, hx⟩ := N.add hA.fl (cos_zero' hA) n_zero (by norm_num) (by norm_num)
  have := abs_le.1 hx
  norm_num at this
  rw [ex, zero_eq]
  show fin (A.at2 0 x) = _
  rw [hA.at20 x (by linarith)]

theorem one_s (hA : A.Ok) : Rnd.calculateSfromXY A.fl A.lm A.at2 0 0 TP.default.hp V3.zero = 0 := by
  obtain ⟨-, m1, m2, m3⟩ := mPi_bounds
  norm_num at m2 m3
  have u1 : calculatePhi0 TP.default.hp = 0 := rfl
  have u2 : calculateD0 TP.default.hp = 0 := rfl
  have u3 : calculateCurvature TP.default.hp = 0 := rfl
  have u4 : V3.zero.x = 0 := rfl
  have u5 : V3.zero.y = 0 := rfl
  simp only [Rnd.calculateSfromXY, u1, u2, u3, u4, u5, sin_zero' hA, mul_zero' hA n_zero, mul_zero' hA (cos_zero' hA), add_zeros hA, sub_zeros hA, atan_zero hA]
  have w1 : ¬ (0 : Dbl) < -fin mPi := by rw [zero_eq, fin_neg, fin_lt]; linarith
  have w2 : ¬ fin mPi < (0 : Dbl) := by rw [zero_eq, fin_lt]; linarith
  rw [cif_neg w1, cif_neg w2]
  exact cif_neg (not_not.2 (by simp))

theorem helix_ok (hA : A.Ok) : ∃ l, helixChecks A = .ok l ∧ l.length = 16 ∧ Passed A l := by
  have h := hA.fl
  obtain ⟨q1, q2⟩ := sqrt_two_bounds
  norm_num at q1 q2
  have p1 := Real.pi_gt_d20
  have p2 := Real.pi_lt_d20
  norm_num at p1 p2
  have z := eval_zero hA
  have sin0 := sin_zero' hA
  have nc := cos_zero' hA
  have x0 : Rnd.calculateX0 A.fl A.lm TP.default.hp V3.zero = 0 := by
    show addD A.fl (mulD A.fl (sinD A.lm (-0)) 0) 0 = 0
    rw [show (-0 : Dbl) = 0 by rw [zero_eq, fin_neg, neg_zero], sin0, mul_zero' hA n_zero, add_zeros hA]
  have y0 : Rnd.calculateY0 A.fl A.lm TP.default.hp V3.zero = 0 := by
    show addD A.fl (mulD A.fl (cosD A.lm 0) 0) 0 = 0
    rw [mul_zero' hA nc, add_zeros hA]
  have e00 : Dbl.eqv (0 : Dbl) 0 := by simp
  have cell5 : ∀ {a : Dbl} {d : ℝ}, N a (5 * Real.sqrt 2) d → d ≤ 1 / 10 ^ 10 → Check.eval A.fl A.sl (.fcmp a (dec A 7.07106781186547524401)) = true := by
    intro a d ha hd
    refine eval_cell hA 14829104 21 (by norm_num) (by norm_num) (by norm_num) (ha.mono hd) (N.lit h (by norm_num)) ?_ (by norm_num)
    rw [add_assoc, ← lt_sub_iff_add_lt, abs_lt]
    norm_num
    constructor <;> linarith
  rw [helixChecks, two_ok, Out.ok_bind, Out.pure_eq]
  refine ⟨_, rfl, rfl, ?_⟩
  have hr : TP.default.rp = V3.zero := rfl
  have h2 : (TP.default.setHp (twoH A)).hp = twoH A := rfl
  have hr2 : (TP.default.setHp (twoH A)).rp = V3.zero := rfl
  simp only [hr, h2, hr2]
  intro c hc
  simp only [List.mem_cons, List.not_mem_nil, or_false] at hc
  rcases hc with rfl | rfl | rfl | rfl | rfl | rfl | rfl | rfl | rfl | rfl | rfl | rfl | rfl | rfl | rfl | rfl
  · have : Rnd.calculateRadius A.fl TP.default.hp = 0 := cif_neg (not_not.2 e00)
    rw [this]; exact z
  · have : Rnd.calculateXCenter A.fl A.lm TP.default.hp V3.zero = 0 := cif_pos e00
    rw [this]; exact z
  · have : Rnd.calculateYCenter A.fl A.lm TP.default.hp V3.zero = 0 := cif_pos e00
    rw [this]; exact z
  · have : Rnd.calculatePhifromXY A.fl A.lm A.at2 0 0 TP.default.hp V3.zero = 0 := by
      rw [Rnd.calculatePhifromXY, x0, y0, sub_zeros hA]
      show atan2D A.fl A.at2 (subD A.fl (sinD A.lm 0) (mulD A.fl 0 0)) (addD A.fl (cosD A.lm 0) (mulD A.fl 0 0)) = 0
      rw [sin_zero' hA, mul_zero' hA n_zero, sub_zeros hA, atan_zero hA]
    rw [this]; exact z
  · rw [one_s hA]; exact z
  · have : Rnd.calculateXfromS A.fl A.lm 0 TP.default.hp V3.zero = 0 := by
      rw [Rnd.calculateXfromS, x0]
      refine (cif_neg (not_not.2 e00)).trans ?_
      show addD A.fl 0 (mulD A.fl 0 (cosD A.lm 0)) = 0
      rw [zero_mul' hA nc, add_zeros hA]
    rw [this]; exact z
  · have : Rnd.calculateYfromS A.fl A.lm 0 TP.default.hp V3.zero = 0 := by
      rw [Rnd.calculateYfromS, y0]
      refine (cif_neg (not_not.2 e00)).trans ?_
      show addD A.fl 0 (mulD A.fl 0 (cosD A.lm 0)) = 0
      rw [zero_mul' hA nc, add_zeros hA]
    rw [this]; exact z
  · have : Rnd.calculateZfromS A.fl 0 TP.default.hp V3.zero = 0 := by
      show addD A.fl (addD A.fl 0 0) (mulD A.fl 0 0) = 0
      rw [mul_zero' hA n_zero, add_zeros hA, add_zeros hA]
    rw [this]; exact z
  · have e : Rnd.calculateRadius A.fl (twoH A) = Dbl.abs (divD A.fl 1 (dec A 0.1)) := cif_pos (curv_ne hA)
    obtain ⟨r, er, br⟩ := radius_near hA
    have : N (Dbl.abs (divD A.fl 1 (dec A 0.1))) 10 (4 / 10 ^ 14) := by
      rw [er, abs_fin]
      refine ⟨_, rfl, ?_⟩
      have := abs_le.1 br
      norm_num at this
      rwa [abs_of_pos (a := r) (by linarith)]
    rw [e, show (10 : Dbl) = fin 10 from ofNat_eq 10]
    refine eval_cell hA 10485760 20 (by norm_num) (by norm_num) (by norm_num) this (N.of 10) ?_ ?_ <;> norm_num
  · have e : Rnd.calculateXCenter A.fl A.lm (twoH A) V3.zero = addD A.fl 0 (mulD A.fl (subD A.fl (divD A.fl 1 (dec A 0.1)) 0) (sinD A.lm quarter)) := cif_neg (curv_ne hA)
    have k := N.add h n_zero (centre_near hA (sin_q hA)) (by norm_num) (by rw [abs_le]; constructor <;> linarith)
    rw [zero_add] at k
    rw [e]
    exact cell5 k (by norm_num)
  · have e : Rnd.calculateYCenter A.fl A.lm (twoH A) V3.zero = subD A.fl 0 (mulD A.fl (subD A.fl (divD A.fl 1 (dec A 0.1)) 0) (cosD A.lm quarter)) := cif_neg (curv_ne hA)
    have k := (N.sub h n_zero (centre_near hA (cos_q hA)) (by norm_num) (by rw [abs_le]; constructor <;> linarith)).mono (e := 1 / 10 ^ 10) (by norm_num)
    rw [zero_sub] at k
    rw [e]
    refine eval_cell hA (-14829104) 21 (by norm_num) (by norm_num) (by norm_num) k (N.lit h (by norm_num)).neg ?_ (by norm_num)
    rw [add_assoc, ← lt_sub_iff_add_lt, abs_lt]
    norm_num
    constructor <;> linarith
  · refine eval_cell hA 13176795 24 (by norm_num) (by norm_num) (by norm_num) (phi_two hA) quarter_near ?_ ?_ <;>
      (rw [add_assoc, ← lt_sub_iff_add_lt, abs_lt]; norm_num; constructor <;> linarith)
  · refine eval_cell hA 16470993 21 (by norm_num) (by norm_num) (by norm_num) (s_two hA) (s_near hA) ?_ ?_ <;>
      (rw [add_assoc, ← lt_sub_iff_add_lt, abs_lt]; norm_num; constructor <;> linarith)
  · exact cell5 (x_two hA) le_rfl
  · refine eval_cell hA 12284832 22 (by norm_num) (by norm_num) (by norm_num) (y_two hA) (N.lit h (by norm_num)) ?_ (by norm_num)
    rw [add_assoc, ← lt_sub_iff_add_lt, abs_lt]
    norm_num
    constructor <;> linarith
  · have k := (N.div h (N.lit h (x := 1.234567) (by norm_num)) (N.of 10) (q := 0.1234567) (m := 1) (by norm_num) (by norm_num) (by norm_num) (by norm_num) (by norm_num)).mono
      (e := 1 / 10 ^ 13) (by norm_num)
    have t10 : (10 : Dbl) = fin 10 := ofNat_eq 10
    rw [← t10] at k
    have e : Rnd.calculateZfromS A.fl (divD A.fl (dec A 1.234567) 10) (twoH A) V3.zero = addD A.fl (addD A.fl 0 0) (mulD A.fl (divD A.fl (dec A 1.234567) 10) (fin 1)) := by
      rw [← one_eq]; rfl
    have k2 := N.add h n_zero (N.mul h k (N.of 1) (X := 1) (Y := 1) (by norm_num) (by norm_num) (by norm_num) (by norm_num)) (by norm_num) (by norm_num)
    rw [e, add_zeros hA]
    refine eval_cell hA 16570078 27 (by norm_num) (by norm_num) (by norm_num) k2 k ?_ ?_ <;> norm_num

end RUT

end Verif
