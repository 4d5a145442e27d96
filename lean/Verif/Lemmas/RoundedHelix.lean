import Verif.Model.RoundedHelix
import Mathlib.Tactic.Linarith
import Mathlib.Tactic.NormNum
import Mathlib.Tactic.Ring
import Mathlib.Tactic.FieldSimp
import Mathlib.Analysis.SpecialFunctions.Trigonometric.Bounds

/-!
# Rounding errors of the helix functions, for real numbers

`u` is the relative error of an operation, `η` the absolute error near zero.
-/

namespace Verif

namespace Rnd

/-- errors of a product -/
theorem prod_error {a A b B α β : ℝ} (ha : |a - A| ≤ α) (hb : |b - B| ≤ β) : |a * b - A * B| ≤ α * |b| + |A| * β := by
  have e : a * b - A * B = (a - A) * b + A * (b - B) := by ring
  rw [e]
  refine (abs_add_le _ _).trans ?_
  rw [abs_mul, abs_mul]
  exact add_le_add (mul_le_mul_of_nonneg_right ha (abs_nonneg _)) (mul_le_mul_of_nonneg_left hb (abs_nonneg _))

theorem abs_near {a A α : ℝ} (h : |a - A| ≤ α) : |a| ≤ |A| + α := by
  have := abs_add_le (a - A) A
  rw [sub_add_cancel] at this
  linarith

theorem near_trans {a b c α β : ℝ} (h : |a - b| ≤ α) (h' : |b - c| ≤ β) : |a - c| ≤ α + β :=
  (abs_sub_le a b c).trans (add_le_add h h')

/-- `curvature * s / 2.` -/
theorem half_error {u η t w a : ℝ} (hu : 0 ≤ u) (hu' : u ≤ 1 / 1000) (hη : 0 ≤ η) (hw : |w - t| ≤ u * |t| + η)
    (ha : |a - w / 2| ≤ u * |w / 2| + η) : |a - t / 2| ≤ 3 * u * |t / 2| + 2 * η := by
  have h1 : |w / 2 - t / 2| ≤ u * |t / 2| + η / 2 := by
    rw [← sub_div, abs_div, abs_div, abs_two]
    linarith
  have h2 := abs_near h1
  have h3 := near_trans ha h1
  have h4 := mul_le_mul_of_nonneg_left h2 hu
  have p1 := abs_nonneg (t / 2)
  have p2 : u * (u * |t / 2|) ≤ 1 / 1000 * (u * |t / 2|) := mul_le_mul_of_nonneg_right hu' (mul_nonneg hu p1)
  have p3 : u * η ≤ 1 / 1000 * η := mul_le_mul_of_nonneg_right hu' hη
  have p4 := mul_nonneg hu p1
  linarith

/-- `x0 + 2. / curvature * sin(curvature * s / 2.) * c(phi0 - curvature * s / 2.)`, where `c` is `sin` or `cos` -/
theorem arc_error {u η E om s ph w a S b C q m1 m2 x0 X D rp t0 sN p : ℝ} {c : ℝ → ℝ} (hom : om ≠ 0) (hu : 0 ≤ u)
    (hu' : u ≤ 1 / 1000) (hη : 0 ≤ η) (hηu : 10 * η ≤ u) (hηE : η ≤ E) (hE1 : η * (2 / |om|) ≤ E) (hE2 : η * |om * s / 2| ≤ E)
    (hc1 : ∀ x, |c x| ≤ 1) (hcl : ∀ x y, |c x - c y| ≤ |x - y|) (ht0 : |t0| ≤ 1)
    (hw : |w - om * s| ≤ u * |om * s| + η) (ha : |a - w / 2| ≤ u * |w / 2| + η)
    (hS : |S - Real.sin a| ≤ 2 * u * |Real.sin a| + 2 * η) (hb : |b - (ph - a)| ≤ u * |ph - a| + η)
    (hC : |C - c b| ≤ 2 * u * |c b| + 2 * η) (hq : |q - 2 / om| ≤ u * |2 / om| + η) (hm1 : |m1 - q * S| ≤ u * |q * S| + η)
    (hm2 : |m2 - m1 * C| ≤ u * |m1 * C| + η) (hsN : |sN - t0| ≤ 2 * u * |t0| + 2 * η) (hp : |p - sN * D| ≤ u * |sN * D| + η)
    (hx0 : |x0 - (p + rp)| ≤ u * |p + rp| + η) (hX : |X - (x0 + m2)| ≤ u * |x0 + m2| + η) (hD : η * |D| ≤ E) :
    |X - (t0 * D + rp + 2 / om * Real.sin (om * s / 2) * c (ph - om * s / 2))| ≤
      u * (3 * |rp| + 10 * |D| + |s| * (30 + |ph| + 3 * |om * s|)) + 60 * E := by
  have E0 : 0 ≤ E := hη.trans hηE
  have h1 := half_error hu hu' hη hw ha
  generalize hth : om * s / 2 = th at *
  have hs : 2 / |om| * |th| = |s| := by
    have : 0 < |om| := abs_pos.2 hom
    rw [← hth, abs_div, abs_mul, abs_two]
    field_simp
  have hos : |om * s| = 2 * |th| := by rw [← hth, abs_div, abs_two]; ring
  rw [abs_div, abs_two] at hq
  generalize hr : 2 / |om| = r at *
  have r0 : 0 ≤ r := by rw [← hr]; positivity
  have T0 := abs_nonneg th
  have s0 := abs_nonneg s
  have uT : 0 ≤ u * |th| := mul_nonneg hu T0
  have us : 0 ≤ u * |s| := mul_nonneg hu s0
  have uη : u * η ≤ 1 / 1000 * η := mul_le_mul_of_nonneg_right hu' hη
  have uE : u * E ≤ 1 / 1000 * E := mul_le_mul_of_nonneg_right hu' E0
  have uuT : u * (u * |th|) ≤ 1 / 1000 * (u * |th|) := mul_le_mul_of_nonneg_right hu' uT
  have uus : u * (u * |s|) ≤ 1 / 1000 * (u * |s|) := mul_le_mul_of_nonneg_right hu' us
  have uη0 := mul_nonneg hu hη
  have uE0 := mul_nonneg hu E0
  -- sine
  have h2 : |a| ≤ |th| + (3 * u * |th| + 2 * η) := abs_near h1
  have h3 : |S - Real.sin th| ≤ 6 * u * |th| + 5 * η := by
    have e1 : |Real.sin a| ≤ |a| := Real.abs_sin_le_abs
    have e2 : |Real.sin a - Real.sin th| ≤ |a - th| := Real.abs_sin_sub_sin_le a th
    have e3 := near_trans hS e2
    have e4 := mul_le_mul_of_nonneg_left (e1.trans h2) hu
    linarith
  have sinT : |Real.sin th| ≤ |th| := Real.abs_sin_le_abs
  have h4 : |S| ≤ 2 * |th| + 5 * η := by
    have := abs_near h3
    have : u * |th| ≤ 1 / 1000 * |th| := mul_le_mul_of_nonneg_right hu' T0
    linarith
  -- the other factor
  have h5 : |b - (ph - th)| ≤ u * |ph| + 5 * u * |th| + 4 * η := by
    have e1 : |(ph - a) - (ph - th)| ≤ 3 * u * |th| + 2 * η := by
      rw [show (ph - a) - (ph - th) = -(a - th) by ring, abs_neg]; exact h1
    have e2 := near_trans hb e1
    have e3 : |ph - a| ≤ |ph| + |a| := abs_sub ph a
    have e4 := mul_le_mul_of_nonneg_left (e3.trans (add_le_add_right h2 |ph|)) hu
    linarith
  have h6 : |C - c (ph - th)| ≤ u * (3 + |ph| + 5 * |th|) := by
    have e1 := near_trans hC ((hcl b (ph - th)).trans h5)
    have e2 := mul_le_mul_of_nonneg_left (hc1 b) hu
    linarith
  have h7 : |C| ≤ 2 := by
    have e1 := abs_near hC
    have e2 := mul_le_mul_of_nonneg_left (hc1 b) hu
    have := hc1 b
    linarith
  -- first product
  have sinR : |2 / om * Real.sin th| ≤ |s| := by
    rw [abs_mul, abs_div, abs_two, hr, ← hs]
    exact mul_le_mul_of_nonneg_left sinT r0
  have h8 : |q * S - 2 / om * Real.sin th| ≤ 8 * u * |s| + 16 * E := by
    have e1 := prod_error hq h3
    rw [abs_div, abs_two, hr] at e1
    have e2 := mul_le_mul_of_nonneg_left h4 (add_nonneg (mul_nonneg hu r0) hη)
    have e3 : (u * r + η) * (2 * |th| + 5 * η) = 2 * u * (r * |th|) + 5 * (u * (η * r)) + 2 * (η * |th|) + 5 * (η * η) := by ring
    have e4 : u * (η * r) ≤ 1 / 1000 * E := mul_le_mul hu' hE1 (mul_nonneg hη r0) (by norm_num)
    have e5 : η * η ≤ 1 / 1000 * E := mul_le_mul (by linarith) hηE hη (by norm_num)
    have e6 : r * (6 * u * |th| + 5 * η) = 6 * u * (r * |th|) + 5 * (η * r) := by ring
    rw [e3, hs] at e2
    rw [e6, hs] at e1
    linarith
  have h9 : |m1 - 2 / om * Real.sin th| ≤ 10 * u * |s| + 18 * E := by
    have e1 := near_trans hm1 h8
    have e2 := mul_le_mul_of_nonneg_left (abs_near h8) hu
    have e3 := mul_le_mul_of_nonneg_left sinR hu
    linarith
  have h10 : |m1| ≤ 2 * |s| + 18 * E := by
    have := abs_near h9
    have : u * |s| ≤ 1 / 1000 * |s| := mul_le_mul_of_nonneg_right hu' s0
    linarith
  -- second product
  have h11 : |m1 * C - 2 / om * Real.sin th * c (ph - th)| ≤ u * (|s| * (23 + |ph| + 5 * |th|)) + 36 * E := by
    have e1 := prod_error h9 h6
    have e2 := mul_le_mul_of_nonneg_left h7 ((abs_nonneg _).trans h9)
    have e3 := mul_le_mul_of_nonneg_right sinR ((abs_nonneg _).trans h6)
    have e4 : |s| * (u * (3 + |ph| + 5 * |th|)) + (10 * u * |s|) * 2 = u * (|s| * (23 + |ph| + 5 * |th|)) := by ring
    linarith
  have hmC : |m1 * C| ≤ 4 * |s| + 36 * E := by
    rw [abs_mul]
    calc |m1| * |C| ≤ (2 * |s| + 18 * E) * 2 := mul_le_mul h10 h7 (abs_nonneg _) (by linarith)
      _ = _ := by ring
  have h12 : |m2 - 2 / om * Real.sin th * c (ph - th)| ≤ u * (|s| * (27 + |ph| + 5 * |th|)) + 38 * E := by
    have e1 := near_trans hm2 h11
    have e2 := mul_le_mul_of_nonneg_left hmC hu
    have e3 : u * (|s| * (27 + |ph| + 5 * |th|)) = u * (|s| * (23 + |ph| + 5 * |th|)) + 4 * (u * |s|) := by ring
    rw [e3]
    linarith
  -- the start
  have D0 := abs_nonneg D
  have R0 := abs_nonneg rp
  have uD : 0 ≤ u * |D| := mul_nonneg hu D0
  have uR : 0 ≤ u * |rp| := mul_nonneg hu R0
  have uuD : u * (u * |D|) ≤ 1 / 1000 * (u * |D|) := mul_le_mul_of_nonneg_right hu' uD
  have uD' : u * |D| ≤ 1 / 1000 * |D| := mul_le_mul_of_nonneg_right hu' D0
  have uR' : u * |rp| ≤ 1 / 1000 * |rp| := mul_le_mul_of_nonneg_right hu' R0
  have us' : u * |s| ≤ 1 / 1000 * |s| := mul_le_mul_of_nonneg_right hu' s0
  have uuR : u * (u * |rp|) ≤ 1 / 1000 * (u * |rp|) := mul_le_mul_of_nonneg_right hu' uR
  have h13 : |sN * D - t0 * D| ≤ 2 * u * |D| + 2 * E := by
    rw [← sub_mul, abs_mul]
    have e1 := mul_le_mul_of_nonneg_right hsN D0
    have e2 := mul_le_mul_of_nonneg_left ht0 (mul_nonneg hu D0)
    have e3 : (2 * u * |t0| + 2 * η) * |D| = 2 * (u * |D| * |t0|) + 2 * (η * |D|) := by ring
    linarith
  have htD : |t0 * D| ≤ |D| := by
    rw [abs_mul]
    exact mul_le_of_le_one_left D0 ht0
  have h14 : |p - t0 * D| ≤ 4 * u * |D| + 4 * E := by
    have e1 := near_trans hp h13
    have e2 := mul_le_mul_of_nonneg_left (abs_near h13) hu
    have e3 := mul_le_mul_of_nonneg_left htD hu
    linarith
  have h15 : |x0 - (t0 * D + rp)| ≤ u * |rp| + 6 * u * |D| + 6 * E := by
    have e1 : |p + rp - (t0 * D + rp)| ≤ 4 * u * |D| + 4 * E := by
      rw [add_sub_add_right_eq_sub]; exact h14
    have e2 := near_trans hx0 e1
    have e3 := (abs_add_le p rp).trans (add_le_add_left (abs_near h14) |rp|)
    have e4 := mul_le_mul_of_nonneg_left e3 hu
    have e5 := mul_le_mul_of_nonneg_left htD hu
    linarith
  have h16 : |x0 + m2 - (t0 * D + rp + 2 / om * Real.sin th * c (ph - th))| ≤
      (u * |rp| + 6 * u * |D| + 6 * E) + (u * (|s| * (27 + |ph| + 5 * |th|)) + 38 * E) := by
    have : x0 + m2 - (t0 * D + rp + 2 / om * Real.sin th * c (ph - th)) =
      (x0 - (t0 * D + rp)) + (m2 - 2 / om * Real.sin th * c (ph - th)) := by ring
    rw [this]
    exact (abs_add_le _ _).trans (add_le_add h15 h12)
  have h17 := near_trans hX h16
  have h18 := mul_le_mul_of_nonneg_left (abs_add_le x0 m2) hu
  have h19 : |m2| ≤ 2 * |s| + 38 * E := by
    have e1 : |m1 * C| ≤ |s| * 1 + (10 * u * |s| + 18 * E) * 2 + |s| * (2 * u + 2 * η) := by
      have f1 : |C| ≤ 1 + (2 * u + 2 * η) := by
        have g1 := abs_near hC
        have g2 := mul_le_mul_of_nonneg_left (hc1 b) hu
        have g3 := hc1 b
        linarith
      have f2 := abs_near h9
      rw [abs_mul]
      have f3 : |m1| * |C| ≤ (|s| + (10 * u * |s| + 18 * E)) * |C| := mul_le_mul_of_nonneg_right (by linarith) (abs_nonneg _)
      have f4 := mul_le_mul_of_nonneg_left f1 s0
      have f5 := mul_le_mul_of_nonneg_left h7 (by positivity : 0 ≤ 10 * u * |s| + 18 * E)
      linarith
    have e2 := abs_near hm2
    have e3 := mul_le_mul_of_nonneg_left hmC hu
    have e4 : |s| * (2 * u + 2 * η) ≤ |s| * (1 / 100) := mul_le_mul_of_nonneg_left (by linarith) s0
    linarith
  have h20 : |x0| ≤ (1 + u) * |rp| + 2 * |D| + 6 * E := by
    have e1 := abs_near h15
    have e2 := abs_add_le (t0 * D) rp
    linarith
  have h21 := mul_le_mul_of_nonneg_left h19 hu
  have h22 := mul_le_mul_of_nonneg_left h20 hu
  have e : u * (3 * |rp| + 10 * |D| + |s| * (30 + |ph| + 3 * |om * s|)) =
      3 * (u * |rp|) + 10 * (u * |D|) + u * (|s| * (27 + |ph| + 5 * |th|)) + 3 * (u * |s|) + u * |s| * |th| := by rw [hos]; ring
  have e' := mul_nonneg us T0
  rw [e]
  linarith

/-- `rp - d0 * sinphi + (1./omega) * ( sinphi - sin( phi0 - s * omega ) )` and the same with `cos` and opposite signs -/
theorem point_error {u η E om s ph t b S0 S1 D q m p X0 X d r σ τ : ℝ} {c : ℝ → ℝ} (hu : 0 ≤ u)
    (hu' : u ≤ 1 / 1000) (hη : 0 ≤ η) (hηu : 10 * η ≤ u) (hηE : η ≤ E)
    (hc1 : ∀ x, |c x| ≤ 1) (hcl : ∀ x y, |c x - c y| ≤ |x - y|) (hσ : |σ| = 1) (hτ : |τ| = 1)
    (ht : |t - s * om| ≤ u * |s * om| + η) (hb : |b - (ph - t)| ≤ u * |ph - t| + η)
    (hS0 : |S0 - c ph| ≤ 2 * u * |c ph| + 2 * η) (hS1 : |S1 - c b| ≤ 2 * u * |c b| + 2 * η)
    (hD : |D - (S0 - S1)| ≤ u * |S0 - S1| + η) (hq : |q - 1 / om| ≤ u * |1 / om| + η) (hm : |m - q * D| ≤ u * |q * D| + η)
    (hp : |p - d * S0| ≤ u * |d * S0| + η) (hX0 : |X0 - (r + σ * p)| ≤ u * |r + σ * p| + η)
    (hX : |X - (X0 + τ * m)| ≤ u * |X0 + τ * m| + η) :
    |X - (r + σ * (d * c ph) + τ * (1 / om * (c ph - c (ph - s * om))))| ≤
      u * (3 * |r| + 10 * |d| + (40 + 2 * |ph| + 4 * |om * s|) * |1 / om|) + 60 * E := by
  have E0 : 0 ≤ E := hη.trans hηE
  rw [show |om * s| = |s * om| by rw [mul_comm]]
  generalize 1 / om = R at *
  generalize hQ : s * om = Q at *
  have R0 := abs_nonneg R
  have Q0 := abs_nonneg Q
  have P0 := abs_nonneg ph
  have d0 := abs_nonneg d
  have r0 := abs_nonneg r
  have uQ : 0 ≤ u * |Q| := mul_nonneg hu Q0
  have uP : 0 ≤ u * |ph| := mul_nonneg hu P0
  have uη : u * η ≤ 1 / 1000 * η := mul_le_mul_of_nonneg_right hu' hη
  have uE : u * E ≤ 1 / 1000 * E := mul_le_mul_of_nonneg_right hu' E0
  have uuQ : u * (u * |Q|) ≤ 1 / 1000 * (u * |Q|) := mul_le_mul_of_nonneg_right hu' uQ
  have uη0 := mul_nonneg hu hη
  have uE0 := mul_nonneg hu E0
  have h1 : |b - (ph - Q)| ≤ u * |ph| + 3 * (u * |Q|) + 3 * η := by
    have e1 : |(ph - t) - (ph - Q)| ≤ u * |Q| + η := by
      rw [show (ph - t) - (ph - Q) = -(t - Q) by ring, abs_neg]; exact ht
    have e2 := near_trans hb e1
    have e4 := mul_le_mul_of_nonneg_left ((abs_sub ph t).trans (add_le_add_right (abs_near ht) |ph|)) hu
    linarith
  have h2 : |S1 - c (ph - Q)| ≤ u * (3 + |ph| + 3 * |Q|) := by
    have e1 := near_trans hS1 ((hcl b (ph - Q)).trans h1)
    have e2 := mul_le_mul_of_nonneg_left (hc1 b) hu
    linarith
  have h3 : |S0 - c ph| ≤ 3 * u := by
    have e2 := mul_le_mul_of_nonneg_left (hc1 ph) hu
    linarith
  have h4 : |S1| ≤ 101 / 100 := by
    have e1 := abs_near hS1
    have e2 := mul_le_mul_of_nonneg_left (hc1 b) hu
    have := hc1 b
    linarith
  have h5 : |S0| ≤ 101 / 100 := by
    have e1 := abs_near h3
    have := hc1 ph
    linarith
  have h6 : |(S0 - S1) - (c ph - c (ph - Q))| ≤ u * (6 + |ph| + 3 * |Q|) := by
    rw [show (S0 - S1) - (c ph - c (ph - Q)) = (S0 - c ph) - (S1 - c (ph - Q)) by ring]
    refine (abs_sub _ _).trans ?_
    linarith
  have h7 : |S0 - S1| ≤ 3 := (abs_sub _ _).trans (by linarith)
  have h8 : |D - (c ph - c (ph - Q))| ≤ u * (10 + |ph| + 3 * |Q|) := by
    have e1 := near_trans hD h6
    have e2 := mul_le_mul_of_nonneg_left h7 hu
    linarith
  have h9 : |D| ≤ 4 := by
    have e1 := abs_near hD
    have e2 := mul_le_mul_of_nonneg_left h7 hu
    linarith
  have W0 : 0 ≤ u * (10 + |ph| + 3 * |Q|) := (abs_nonneg _).trans h8
  have uR : 0 ≤ u * |R| := mul_nonneg hu R0
  have uuR : u * (u * |R|) ≤ 1 / 1000 * (u * |R|) := mul_le_mul_of_nonneg_right hu' uR
  have h10 : |q * D - R * (c ph - c (ph - Q))| ≤ u * |R| * (14 + |ph| + 3 * |Q|) + 4 * E := by
    have e1 := prod_error hq h8
    have e2 := mul_le_mul_of_nonneg_left h9 (add_nonneg uR hη)
    linarith
  have h11 : |q * D| ≤ 5 * |R| + 4 * E := by
    have e1 := abs_near hq
    have e2 : |q| ≤ 1001 / 1000 * |R| + η := by
      have := mul_le_mul_of_nonneg_right hu' R0
      linarith
    rw [abs_mul]
    have e3 : |q| * |D| ≤ (1001 / 1000 * |R| + η) * 4 := mul_le_mul e2 h9 (abs_nonneg _) (by linarith)
    linarith
  have h12 : |m - R * (c ph - c (ph - Q))| ≤ u * |R| * (19 + |ph| + 3 * |Q|) + 6 * E := by
    have e1 := near_trans hm h10
    have e2 := mul_le_mul_of_nonneg_left h11 hu
    have e3 : u * |R| * (19 + |ph| + 3 * |Q|) = u * |R| * (14 + |ph| + 3 * |Q|) + 5 * (u * |R|) := by ring
    rw [e3]
    linarith
  have h13 : |m| ≤ 6 * |R| + 6 * E := by
    have e1 := abs_near hm
    have e2 := mul_le_mul_of_nonneg_left h11 hu
    have e3 : u * |R| ≤ 1 / 1000 * |R| := mul_le_mul_of_nonneg_right hu' R0
    linarith
  have ud : 0 ≤ u * |d| := mul_nonneg hu d0
  have ur : 0 ≤ u * |r| := mul_nonneg hu r0
  have uud : u * (u * |d|) ≤ 1 / 1000 * (u * |d|) := mul_le_mul_of_nonneg_right hu' ud
  have uur : u * (u * |r|) ≤ 1 / 1000 * (u * |r|) := mul_le_mul_of_nonneg_right hu' ur
  have h14 : |d * S0 - d * c ph| ≤ 3 * (u * |d|) := by
    rw [← mul_sub, abs_mul]
    have := mul_le_mul_of_nonneg_left h3 d0
    linarith
  have hcd : |d * c ph| ≤ |d| := by
    rw [abs_mul]
    exact mul_le_of_le_one_right d0 (hc1 ph)
  have ucd := mul_le_mul_of_nonneg_left hcd hu
  have h15 : |p - d * c ph| ≤ 5 * (u * |d|) + E := by
    have e1 := near_trans hp h14
    have e2 := mul_le_mul_of_nonneg_left (abs_near h14) hu
    linarith
  have hσp : |σ * p| = |p| := by rw [abs_mul, hσ, one_mul]
  have hτm : |τ * m| = |m| := by rw [abs_mul, hτ, one_mul]
  have h16 : |X0 - (r + σ * (d * c ph))| ≤ u * |r| + 7 * (u * |d|) + 3 * E := by
    have e1 : |r + σ * p - (r + σ * (d * c ph))| ≤ 5 * (u * |d|) + E := by
      rw [add_sub_add_left_eq_sub, ← mul_sub, abs_mul, hσ, one_mul]; exact h15
    have e2 := near_trans hX0 e1
    have e3 := abs_add_le r (σ * p)
    rw [hσp] at e3
    have e4 := mul_le_mul_of_nonneg_left (e3.trans (add_le_add_right (abs_near h15) |r|)) hu
    linarith
  have h17 : |X0| ≤ |r| + |d| + (u * |r| + 7 * (u * |d|) + 3 * E) := by
    have e1 := abs_near h16
    have e2 := abs_add_le r (σ * (d * c ph))
    rw [abs_mul, hσ, one_mul] at e2
    linarith
  have h18 : |X0 + τ * m - (r + σ * (d * c ph) + τ * (R * (c ph - c (ph - Q))))| ≤
      (u * |r| + 7 * (u * |d|) + 3 * E) + (u * |R| * (19 + |ph| + 3 * |Q|) + 6 * E) := by
    rw [show X0 + τ * m - (r + σ * (d * c ph) + τ * (R * (c ph - c (ph - Q)))) =
      (X0 - (r + σ * (d * c ph))) + τ * (m - R * (c ph - c (ph - Q))) by ring]
    refine (abs_add_le _ _).trans (add_le_add h16 ?_)
    rw [abs_mul, hτ, one_mul]
    exact h12
  have h19 := near_trans hX h18
  have h20 := abs_add_le X0 (τ * m)
  rw [hτm] at h20
  have h21 := mul_le_mul_of_nonneg_left (h20.trans (add_le_add h17 h13)) hu
  have e : u * (3 * |r| + 10 * |d| + (40 + 2 * |ph| + 4 * |Q|) * |R|) =
      3 * (u * |r|) + 10 * (u * |d|) + u * |R| * (19 + |ph| + 3 * |Q|) + 21 * (u * |R|) + u * |R| * |ph| + u * |R| * |Q| := by ring
  have e1 := mul_nonneg uR P0
  have e2 := mul_nonneg uR Q0
  rw [e]
  linarith

/-- the z coordinate at the computed path length of a disk -/
theorem disk_error {u η E P hz oz dz tl s : ℝ} (htl : tl ≠ 0) (hu : 0 ≤ u) (hu' : u ≤ 1 / 1000) (hη : 0 ≤ η) (hηE : η ≤ E)
    (hE : η * |tl| ≤ E) (h1 : |hz - P| ≤ u * |P| + η) (h2 : |dz - (oz - hz)| ≤ u * |oz - hz| + η)
    (h3 : |s - dz / tl| ≤ u * |dz / tl| + η) : |P + s * tl - oz| ≤ u * (3 * |oz| + 4 * |P|) + 10 * E := by
  have P0 := abs_nonneg P
  have o0 := abs_nonneg oz
  have t0 : 0 < |tl| := abs_pos.2 htl
  have uP := mul_nonneg hu P0
  have uo := mul_nonneg hu o0
  have uη : u * η ≤ 1 / 1000 * η := mul_le_mul_of_nonneg_right hu' hη
  have uη0 := mul_nonneg hu hη
  have uuP : u * (u * |P|) ≤ 1 / 1000 * (u * |P|) := mul_le_mul_of_nonneg_right hu' uP
  have uuo : u * (u * |oz|) ≤ 1 / 1000 * (u * |oz|) := mul_le_mul_of_nonneg_right hu' uo
  have e1 : |oz - hz| ≤ |oz| + (|P| + (u * |P| + η)) := (abs_sub _ _).trans (add_le_add_right (abs_near h1) _)
  have e2 := mul_le_mul_of_nonneg_left e1 hu
  have e3 := abs_near h2
  have e4 := mul_le_mul_of_nonneg_left e3 hu
  have e5 : |s * tl - dz| ≤ u * |dz| + E := by
    have := mul_le_mul_of_nonneg_right h3 t0.le
    rw [← abs_mul, sub_mul, div_mul_cancel₀ _ htl, add_mul, abs_div, mul_assoc, div_mul_cancel₀ _ t0.ne'] at this
    linarith
  have e6 : |P + s * tl - oz| ≤ |hz - P| + |s * tl - dz| + |dz - (oz - hz)| := by
    have := abs_add_le (-(hz - P) + (s * tl - dz)) (dz - (oz - hz))
    rw [show -(hz - P) + (s * tl - dz) + (dz - (oz - hz)) = P + s * tl - oz by ring] at this
    have h' := abs_add_le (-(hz - P)) (s * tl - dz)
    rw [abs_neg] at h'
    linarith
  have e7 := mul_le_mul_of_nonneg_left e2 hu
  have e8 : u * (u * (u * |P|)) ≤ 1 / 1000 * (u * (u * |P|)) := mul_le_mul_of_nonneg_right hu' (mul_nonneg hu uP)
  have e9 : u * (u * η) ≤ 1 / 1000 * (u * η) := mul_le_mul_of_nonneg_right hu' uη0
  have e10 : u * (u * |oz - hz|) ≤ 1 / 1000 * (u * |oz - hz|) := mul_le_mul_of_nonneg_right hu' (mul_nonneg hu (abs_nonneg _))
  linarith

end Rnd

end Verif
