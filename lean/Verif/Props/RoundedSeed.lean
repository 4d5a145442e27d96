import Verif.Model.RoundedSeed
import Verif.Props.RoundedStart
import Verif.Props.RoundedMoveCov
import Verif.Props.RoundedMaterial
import Verif.Props.RoundedSimplified

/-!
# C161: the start helix of lcio_tracks in double precision
-/

open Classical

noncomputable section

namespace Verif

open Dbl Rnd Spec Rounded Refit

variable {fl : ℝ → ℝ} {lm : Libm} {at2 : ℝ → ℝ → ℝ} {mm : M5 → M5 → M5}

namespace Rnd

/-- one coordinate of the point of closest approach, compared with the circle of the track -/
theorem seed_coord {r r' d' S S0 S1 S' X T e e0 e1 : ℝ} (hr : |r' - r| ≤ e * |r|) (h0 : |S' - S0| ≤ e0) (h1 : |S - S1| ≤ e1)
    (b1 : |S| ≤ 1) (b2 : |S'| ≤ 1) (hc : |(r' - d') * S - (X + r' * S')| ≤ T) :
    |-(d' * S) - (X + r * (S0 - S1))| ≤ T + |r| * (2 * e + e0 + e1) := by
  have e2 : -(d' * S) - (X + r * (S0 - S1)) = ((r' - d') * S - (X + r' * S')) + (r' - r) * S' - (r' - r) * S + r * (S' - S0) - r * (S - S1) := by ring
  rw [e2]
  have k1 : |(r' - r) * S'| ≤ e * |r| := by
    rw [abs_mul]
    exact (mul_le_of_le_one_right (abs_nonneg _) b2).trans hr
  have k2 : |(r' - r) * S| ≤ e * |r| := by
    rw [abs_mul]
    exact (mul_le_of_le_one_right (abs_nonneg _) b1).trans hr
  have k3 : |r * (S' - S0)| ≤ |r| * e0 := by
    rw [abs_mul]
    exact mul_le_mul_of_nonneg_left h0 (abs_nonneg _)
  have k4 : |r * (S - S1)| ≤ |r| * e1 := by
    rw [abs_mul]
    exact mul_le_mul_of_nonneg_left h1 (abs_nonneg _)
  refine (abs_sub _ _).trans ?_
  have := abs_add_le ((r' - d') * S - (X + r' * S') + (r' - r) * S' - (r' - r) * S) (r * (S' - S0))
  have := abs_sub ((r' - d') * S - (X + r' * S') + (r' - r) * S') ((r' - r) * S)
  have := abs_add_le ((r' - d') * S - (X + r' * S')) ((r' - r) * S')
  linarith

/-- the radius from the curvature -/
theorem radius_near {om om' e : ℝ} (ho : om ≠ 0) (h : |om' - om| ≤ e * |om|) (he : e ≤ 1 / 1000) :
    om' ≠ 0 ∧ |1 / om' - 1 / om| ≤ 1002 / 1000 * e * |1 / om| ∧ |1 / om'| ≤ 1002 / 1000 * |1 / om| := by
  have o0 : 0 < |om| := abs_pos.2 ho
  have k : 999 / 1000 * |om| ≤ |om'| := by
    have k1 := abs_sub_abs_le_abs_sub om om'
    rw [abs_sub_comm] at k1
    have := mul_le_mul_of_nonneg_right he o0.le
    linarith
  have o1 : 0 < |om'| := lt_of_lt_of_le (by positivity) k
  have ho' : om' ≠ 0 := abs_pos.1 o1
  have k2 : |1 / om'| ≤ 1002 / 1000 * |1 / om| := by
    rw [abs_div, abs_div, abs_one, div_le_iff₀ o1, mul_assoc, one_div_mul_eq_div, ← mul_div_assoc, le_div_iff₀ o0]
    linarith
  refine ⟨ho', ?_, k2⟩
  have e1 : 1 / om' - 1 / om = -((om' - om) * (1 / om') * (1 / om)) := by
    field_simp
    ring
  rw [e1, abs_neg, abs_mul, abs_mul]
  refine mul_le_mul_of_nonneg_right ?_ (abs_nonneg _)
  have k3 : |om' - om| * |1 / om'| ≤ e * |om| * (1002 / 1000 * |1 / om|) := mul_le_mul h k2 (abs_nonneg _) ((abs_nonneg _).trans h)
  refine k3.trans (le_of_eq ?_)
  rw [abs_div, abs_one]
  field_simp

/-- the height of the point of closest approach -/
theorem seed_height {om om' tl tl' f z' Z q u : ℝ} (ho : om ≠ 0) (u0 : 0 ≤ u) (q1 : 1 ≤ q) (hu : 70 * q * u ≤ 1 / 1000) (hu' : 2 ^ 17 * q * u ≤ 1)
    (h1 : |om' - om| ≤ 70 * q * u * |om|) (h2 : |tl' - tl| ≤ 2 ^ 17 * q * u * (|tl| + 16)) (hf : |f| ≤ 3.15)
    (hz : |z' - (Z - tl' / om' * f)| ≤ 100 * u * (|Z| + |tl' / om'|) + 1 / 2 ^ 800) :
    |z' - (Z - tl / om * f)| ≤ 100 * u * |Z| + 2 ^ 19 * q * u * (|tl| + 16) * |1 / om| + 1 / 2 ^ 800 := by
  obtain ⟨ho', r1, r2⟩ := radius_near ho h1 hu
  have T0 : 0 ≤ |tl| := abs_nonneg _
  have A0 : 0 ≤ |1 / om| := abs_nonneg _
  obtain ⟨A, hA⟩ : ∃ A, A = |1 / om| := ⟨_, rfl⟩
  rw [← hA] at r1 r2 A0 ⊢
  have t1 : |tl'| ≤ 2 * (|tl| + 16) := by
    have k1 := abs_sub_abs_le_abs_sub tl' tl
    have k2 := mul_le_mul_of_nonneg_right hu' (show 0 ≤ |tl| + 16 by linarith)
    linarith
  have d1 : |tl' / om' - tl / om| ≤ 132000 * (q * u * (|tl| + 16) * A) := by
    have e1 : tl' / om' - tl / om = (tl' - tl) * (1 / om') + tl * (1 / om' - 1 / om) := by ring
    rw [e1]
    have k1 : |(tl' - tl) * (1 / om')| ≤ 2 ^ 17 * q * u * (|tl| + 16) * (1002 / 1000 * A) := by
      rw [abs_mul]
      exact mul_le_mul h2 r2 (abs_nonneg _) (by positivity)
    have k2 : |tl * (1 / om' - 1 / om)| ≤ (|tl| + 16) * (1002 / 1000 * (70 * q * u) * A) := by
      rw [abs_mul]
      exact mul_le_mul (by linarith) r1 (abs_nonneg _) (by positivity)
    refine (abs_add_le _ _).trans ((add_le_add k1 k2).trans ?_)
    have : 0 ≤ q * u * (|tl| + 16) * A := by positivity
    have e2 : 2 ^ 17 * q * u * (|tl| + 16) * (1002 / 1000 * A) + (|tl| + 16) * (1002 / 1000 * (70 * q * u) * A) =
        (2 ^ 17 * 1002 / 1000 + 1002 / 1000 * 70) * (q * u * (|tl| + 16) * A) := by ring
    rw [e2]
    exact mul_le_mul_of_nonneg_right (by norm_num) this
  have d2 : |tl' / om'| ≤ 2.01 * ((|tl| + 16) * A) := by
    rw [div_eq_mul_one_div, abs_mul]
    refine (mul_le_mul t1 r2 (abs_nonneg _) (by positivity)).trans ?_
    have : 0 ≤ (|tl| + 16) * A := by positivity
    linarith
  have d3 : 100 * u * |tl' / om'| ≤ 201 * (q * u * (|tl| + 16) * A) := by
    have k1 := mul_le_mul_of_nonneg_left d2 (show 0 ≤ 100 * u by positivity)
    have k2 : u * ((|tl| + 16) * A) * 1 ≤ u * ((|tl| + 16) * A) * q := mul_le_mul_of_nonneg_left q1 (by positivity)
    linarith
  have d4 : |(tl' / om' - tl / om) * f| ≤ 132000 * (q * u * (|tl| + 16) * A) * 3.15 := by
    rw [abs_mul]
    exact mul_le_mul d1 hf (abs_nonneg _) (by positivity)
  have e3 : z' - (Z - tl / om * f) = (z' - (Z - tl' / om' * f)) - (tl' / om' - tl / om) * f := by ring
  rw [e3]
  have W0 : 0 ≤ q * u * (|tl| + 16) * A := by positivity
  refine (abs_sub _ _).trans ((add_le_add hz d4).trans ?_)
  have e4 : 2 ^ 19 * q * u * (|tl| + 16) * A = 2 ^ 19 * (q * u * (|tl| + 16) * A) := by ring
  rw [e4]
  generalize q * u * (|tl| + 16) * A = W at *
  linarith

/-- the tolerances of the start helix: transverse position of the point of closest approach, its height -/
def seedShift (om x1 y1 P q δ : ℝ) : ℝ := |1 / om| * (|δ| + (500 * P + 1000 * q + 2 ^ 17 + 2200) / 2 ^ 53) + 2000 / 2 ^ 53 * (|x1| + |y1|)

def seedRise (om tl z1 q : ℝ) : ℝ := 100 / 2 ^ 53 * |z1| + 2 ^ 19 * q / 2 ^ 53 * (|tl| + 16) * |1 / om| + 1 / 2 ^ 800

/-- The track parameters `om'`, `tl'`, `φ`, `d'`, `z'` with the origin as reference point, compared with the track `x`, `y`, `w` of curvature `om` and slope
`tl` that has the azimuth `ph` at path length `s1`: the point of closest approach is next to the point of the track at the path length `s1 + t`, less than half
a turn from the start, and the track has there the azimuth `φ`. -/
structure SeedNear (om tl ph s1 x1 y1 z1 P q : ℝ) (x y w : ℝ → ℝ) (om' tl' φ d' z' t δ : ℝ) : Prop where
  curvature : |om' - om| ≤ 70 * q / 2 ^ 53 * |om|
  slope : |tl' - tl| ≤ 2 ^ 17 * q / 2 ^ 53 * (|tl| + 16)
  half : |om * t| ≤ mPi
  range : |φ| ≤ mPi
  azimuth : ∃ k : ℤ, |φ - (ph - om * t) - k * (2 * Real.pi)| ≤ (250 * P + 350 * q + 2 ^ 16 + 100) / 2 ^ 53
  turn : |δ| ≤ 1 / 2 ^ 21
  turn' : |δ| * |Real.cos ph| ≤ 500 / 2 ^ 53
  px : |-(d' * Real.sin φ) - x (s1 + t)| ≤ seedShift om x1 y1 P q δ
  py : |d' * Real.cos φ - y (s1 + t)| ≤ seedShift om x1 y1 P q δ
  pz : |z' - w (s1 + t)| ≤ seedRise om tl z1 q

/-- the move of the start helix to the origin -/
theorem seed_near (h : NearestF 53 1074 fl) (hl : IsLibm lm) (ha : IsAtan2 at2) (h00 : |at2 0 0| ≤ 4) {om tl ph om' tl' ph' x1 y1 z1 P q : ℝ} {k : ℤ} {c : M5}
    (o1 : 1 / 2 ^ 120 ≤ |om|) (o2 : |om| ≤ 2 ^ 120) (t1 : |tl| ≤ 2 ^ 198) (P0 : 1 ≤ P) (P1 : P ≤ 2 ^ 20) (q0 : 1 ≤ q) (q1 : q ≤ 2 ^ 20)
    (i1 : |om' - om| ≤ 70 * q / 2 ^ 53 * |om|) (i2 : |tl' - tl| ≤ 2 ^ 17 * q / 2 ^ 53 * (|tl| + 16))
    (i3 : |ph' - ph - k * (2 * Real.pi)| ≤ (250 * P + 350 * q + 2 ^ 16) / 2 ^ 53) (i4 : -4 ≤ ph' ∧ ph' ≤ 5)
    (hx : |x1| ≤ 2 ^ 200) (hy : |y1| ≤ 2 ^ 200) (hz : |z1| ≤ 2 ^ 200) :
    ∃ φ d' z' t δ f : ℝ, Rnd.moveHelixTo fl lm at2 mm ⟨c, hpR om' tl' ph' 0 0, V3.re x1 y1 z1⟩ V3.zero false = .ok (⟨c, hpR om' tl' φ d' z', V3.zero⟩, fin f) ∧
      SeedNear om tl ph 0 x1 y1 z1 P q (rX om ph 0 x1) (rY om ph 0 y1) (rZ tl 0 z1) om' tl' φ d' z' t δ := by
  have ho : om ≠ 0 := abs_pos.1 (lt_of_lt_of_le (by positivity) o1)
  have q2 : q ≤ 1048576 := q1.trans (by norm_num)
  have P2 : P ≤ 1048576 := P1.trans (by norm_num)
  obtain ⟨u, hu⟩ : ∃ u : ℝ, u = 1 / 2 ^ 53 := ⟨_, rfl⟩
  have D : ∀ a : ℝ, a / 2 ^ 53 = a * u := fun a => by rw [hu, mul_one_div]
  have u0 : 0 < u := by rw [hu]; positivity
  have u1 : 2 ^ 17 * 1048576 * u ≤ 1 / 10000 := by rw [hu]; norm_num
  have qu : q * u ≤ 1048576 * u := mul_le_mul_of_nonneg_right q2 u0.le
  have Pu : P * u ≤ 1048576 * u := mul_le_mul_of_nonneg_right P2 u0.le
  have qu0 : 0 ≤ q * u := by positivity
  obtain ⟨ho', r1, r2⟩ := radius_near ho (by rw [D] at i1; exact i1) (show 70 * q * u ≤ 1 / 1000 by linarith)
  have om1 : |om'| ≤ 2 * |om| ∧ |om| ≤ 2 * |om'| := by
    rw [D] at i1
    have k1 := abs_sub_abs_le_abs_sub om om'
    have k2 := abs_sub_abs_le_abs_sub om' om
    rw [abs_sub_comm] at k1
    have k3 := mul_le_mul_of_nonneg_right (show 70 * q * u ≤ 1 / 1000 by linarith) (abs_nonneg om)
    constructor <;> linarith
  have tl1 : |tl'| ≤ 2 ^ 200 := by
    rw [D] at i2
    have k2 := abs_sub_abs_le_abs_sub tl' tl
    have k3 := mul_le_mul_of_nonneg_right (show 2 ^ 17 * q * u ≤ 1 / 10000 by linarith) (show 0 ≤ |tl| + 16 by positivity)
    have : (2 : ℝ) ^ 198 * 2 + 16 ≤ 2 ^ 200 := by norm_num
    linarith
  have hr : HelixRange om' tl' ph' 0 0 x1 y1 z1 0 := by
    refine ⟨?_, ?_, tl1, ?_, by rw [abs_zero]; positivity, by rw [abs_zero]; positivity, hx, hy, hz, by rw [abs_zero]; positivity⟩
    · have : (1 : ℝ) / 2 ^ 500 * 2 ≤ 1 / 2 ^ 120 := by
        rw [show (2 : ℝ) ^ 500 = 2 ^ 380 * 2 ^ 120 by rw [← pow_add], ← one_div_mul_one_div, mul_comm, ← mul_assoc]
        refine mul_le_of_le_one_left (by positivity) ?_
        rw [mul_one_div, div_le_one (by positivity)]
        exact le_self_pow₀ (by norm_num) (by norm_num)
      linarith [om1.2]
    · have : (2 : ℝ) * 2 ^ 120 ≤ 2 ^ 200 := by norm_num
      linarith [om1.1]
    · have k1 : |ph'| ≤ 5 := abs_le.2 ⟨by linarith [i4.1], i4.2⟩
      exact k1.trans (by norm_num)
  have zz : V3.zero = V3.re 0 0 0 := by simp only [V3.zero, V3.re, zero_eq]
  obtain ⟨φ, d', z', f, δ, k', e, δ1, δ2, φ1, f1, f2, g1, g2, g3, -⟩ := C137_move_partial (xv := 0) (yv := 0) (zv := 0) h hl ha h00 hr
    ⟨by rw [abs_zero]; positivity, by rw [abs_zero]; positivity, by rw [abs_zero]; positivity⟩ i4
  rw [← zz] at e
  obtain ⟨c', c1, c2⟩ := C154_params (mm := mm) ⟨c, hpR om' tl' ph' 0 0, V3.re x1 y1 z1⟩ V3.zero false _ _ e
  rw [c2 rfl] at c1
  obtain ⟨E, hE⟩ : ∃ E : ℝ, E = (250 * P + 350 * q + 2 ^ 16) / 2 ^ 53 := ⟨_, rfl⟩
  rw [← hE] at i3
  have E1 : E ≤ 1 / 2 := by
    rw [hE, D]
    linarith
  -- angles
  have st : ∀ a b : ℝ, ∀ n : ℤ, |Real.sin a - Real.sin b| ≤ |a - b - n * (2 * Real.pi)| ∧ |-Real.cos a - -Real.cos b| ≤ |a - b - n * (2 * Real.pi)| := fun a b n => by
    have k1 := Real.abs_sin_sub_sin_le a (b + n * (2 * Real.pi))
    have k2 := Real.abs_cos_sub_cos_le a (b + n * (2 * Real.pi))
    rw [Real.sin_add_int_mul_two_pi, ← sub_sub] at k1
    rw [Real.cos_add_int_mul_two_pi, ← sub_sub] at k2
    refine ⟨k1, ?_⟩
    rw [neg_sub_neg, abs_sub_comm]
    exact k2
  have a1 : |ph' + δ - ph - k * (2 * Real.pi)| ≤ E + |δ| := by
    rw [show ph' + δ - ph - k * (2 * Real.pi) = (ph' - ph - k * (2 * Real.pi)) + δ by ring]
    exact (abs_add_le _ _).trans (by linarith)
  have a2 : |φ - (ph + f) - (k - k' : ℤ) * (2 * Real.pi)| ≤ E + 100 * u := by
    push_cast
    rw [show φ - (ph + f) - ((k : ℝ) - k') * (2 * Real.pi) = (ph' - ph - k * (2 * Real.pi)) - (f - (φ - ph' + k' * (2 * Real.pi))) by ring]
    rw [D] at f2
    exact (abs_sub _ _).trans (by linarith)
  have om2 : om * (-f / om) = -f := by field_simp
  have M : 2000 / 2 ^ 53 * (|1 / om'| + |(0 : ℝ)| + |x1| + |y1| + |(0 : ℝ)| + |(0 : ℝ)|) + |1 / om| * (2 * (1002 / 1000 * (70 * q * u)) + (E + |δ|) + (E + 100 * u)) ≤
      seedShift om x1 y1 P q δ := by
    rw [abs_zero, seedShift, hE, D, D, D]
    have k1 := mul_le_mul_of_nonneg_left r2 (show 0 ≤ 2000 * u by positivity)
    have k2 : |1 / om| * (u * (150 + 900 / 7 * (q - 1))) ≥ 0 := mul_nonneg (abs_nonneg _) (mul_nonneg u0.le (by linarith))
    have k3 : 0 ≤ |1 / om| * (q * u) := by positivity
    have k4 : 0 ≤ |1 / om| * u := by positivity
    nlinarith
  have X := seed_coord r1 ((st _ _ _).1.trans a1) ((st _ _ _).1.trans a2) (Real.abs_sin_le_one φ) (Real.abs_sin_le_one _) (X := x1) (d' := d') (T := 2000 / 2 ^ 53 *
    (|1 / om'| + |(0 : ℝ)| + |x1| + |y1| + |(0 : ℝ)| + |(0 : ℝ)|)) (by rw [zero_add, sub_zero] at g1; exact g1)
  have Y := seed_coord r1 ((st _ _ _).2.trans a1) ((st _ _ _).2.trans a2) (by rw [abs_neg]; exact Real.abs_cos_le_one φ) (by rw [abs_neg]; exact Real.abs_cos_le_one _) (X := y1) (d' := d')
    (T := 2000 / 2 ^ 53 * (|1 / om'| + |(0 : ℝ)| + |x1| + |y1| + |(0 : ℝ)| + |(0 : ℝ)|)) (by
      rw [zero_sub, sub_zero] at g2
      rw [mul_neg, mul_neg, ← sub_eq_add_neg]
      exact g2)
  have mp : mPi ≤ 3.15 := by rw [mPi]; norm_num
  have Z := seed_height (Z := z1) (z' := z') (q := q) (u := u) ho u0.le q0 (show 70 * q * u ≤ 1 / 1000 by linarith) (by linarith) (by rw [D] at i1; exact i1) (by rw [D] at i2; exact i2)
    (f1.trans mp) (by
      rw [zero_add, add_zero, abs_zero, add_zero, add_zero, D] at g3
      exact g3)
  refine ⟨φ, d', z', -f / om, δ, f, c1, i1, i2, by rw [om2, abs_neg]; exact f1, φ1, ⟨k - k', ?_⟩, δ1, ?_, ?_, ?_, ?_⟩
  · rw [om2, sub_neg_eq_add]
    refine a2.trans (le_of_eq ?_)
    rw [hE, D, D]
    ring
  · have k1 := Real.abs_cos_sub_cos_le ph' (ph + k * (2 * Real.pi))
    rw [Real.cos_add_int_mul_two_pi, ← sub_sub] at k1
    have k2 := abs_sub_abs_le_abs_sub (Real.cos ph) (Real.cos ph')
    rw [abs_sub_comm] at k2
    have k3 : |δ| * |Real.cos ph| ≤ |δ| * (|Real.cos ph'| + E) := mul_le_mul_of_nonneg_left (by linarith) (abs_nonneg _)
    have k4 : |δ| * E ≤ 1 / 2 ^ 21 * E := mul_le_mul_of_nonneg_right δ1 ((abs_nonneg _).trans i3)
    have k5 : 1 / 2 ^ 21 * E ≤ 400 * u := by
      rw [hE, D]
      have : (250 * P + 350 * q + 2 ^ 16) * u ≤ 400 * 2 ^ 21 * u := mul_le_mul_of_nonneg_right (by norm_num; linarith) u0.le
      norm_num at this ⊢
      linarith
    rw [D] at δ2 ⊢
    linarith
  · rw [zero_add, rX, show ph - -f / om * om = ph + f by rw [div_mul_cancel₀ _ ho, sub_neg_eq_add], zero_mul, sub_zero]
    exact X.trans M
  · rw [zero_add, rY, show ph - -f / om * om = ph + f by rw [div_mul_cancel₀ _ ho, sub_neg_eq_add], zero_mul, add_zero, show y1 - 1 / om * (Real.cos ph - Real.cos (ph + f)) =
      y1 + 1 / om * (-Real.cos ph - -Real.cos (ph + f)) by ring, show d' * Real.cos φ = -(d' * -Real.cos φ) by ring]
    exact Y.trans M
  · rw [zero_add, rZ, add_zero, show z1 + -f / om * tl = z1 - tl / om * f by ring, seedRise, D, D]
    exact Z

theorem sine_pos {x1 y1 x2 y2 x3 y3 L P q : ℝ} (w : StartRange x1 y1 x2 y2 x3 y3 L P q) :
    (x2 - x1) * (y3 - y1) - (y2 - y1) * (x3 - x1) ≠ 0 ∧ 1 ≤ q := by
  have L0 : 0 < L := lt_of_lt_of_le (by positivity) w.L0
  have g0 : 0 < gap x1 y1 x2 y2 * gap x1 y1 x3 y3 := mul_pos (lt_of_lt_of_le (by positivity : 0 < L / 16) w.a.1) (lt_of_lt_of_le (by positivity : 0 < L / 16) w.b.1)
  have k := w.sine
  refine ⟨fun z => ?_, ?_⟩
  · rw [z, abs_zero, mul_zero] at k
    linarith
  · have e : |(x2 - x1) * (y3 - y1) - (y2 - y1) * (x3 - x1)| ≤ gap x1 y1 x2 y2 * gap x1 y1 x3 y3 := by
      rw [gap, gap, ← Real.sqrt_mul (by positivity)]
      refine Real.abs_le_sqrt ?_
      nlinarith [sq_nonneg ((x2 - x1) * (x3 - x1) + (y2 - y1) * (y3 - y1))]
    by_contra z
    push Not at z
    rcases le_or_gt q 0 with n | n
    · have := mul_nonpos_of_nonpos_of_nonneg n (abs_nonneg ((x2 - x1) * (y3 - y1) - (y2 - y1) * (x3 - x1)))
      linarith
    · have := mul_le_mul_of_nonneg_left e n.le
      nlinarith

theorem hitAt_some {hits : List TrackHit} {i : ℕ} {h1 : TrackHit} (e : hits[i]? = some h1) : hitAt hits i = .ok h1 := by
  rw [hitAt, e]

/-- the seed from the start helix and its move -/
theorem seed_of {hits : List TrackHit} {h1 h2 h3 : TrackHit} (e1 : hits[0]? = some h1) (e2 : hits[(hits.length + 1) / 2]? = some h2)
    (e3 : hits[hits.length - 1]? = some h3) {hp hp' : V5} {rp : V3} {f : Dbl}
    (s : Rnd.calculateStartHelix fl at2 (Rnd.scaled fl h1.hit.pos) (Rnd.scaled fl h2.hit.pos) (Rnd.scaled fl h3.hit.pos) TP.default false = ⟨TP.default.cov, hp, rp⟩)
    (m : Rnd.moveHelixTo fl lm at2 mm ⟨TP.default.cov, hp, rp⟩ V3.zero false = .ok (⟨TP.default.cov, hp', V3.zero⟩, f)) :
    Rnd.seed fl lm at2 mm hits = .ok ⟨Rnd.seedCov fl M5.zero, hp', V3.zero⟩ := by
  unfold Rnd.seed
  simp only [hitAt_some e1, hitAt_some e2, hitAt_some e3, Out.ok_bind]
  rw [s, m]
  rfl

theorem slope_size {tl L z : ℝ} (L0 : 1 / 2 ^ 100 ≤ L) (h : |tl| * L ≤ 16 * |z|) (hz : |z| ≤ 2 ^ 90) : |tl| ≤ 2 ^ 198 := by
  have k := mul_le_mul_of_nonneg_left L0 (abs_nonneg tl)
  have : |tl| * (1 / 2 ^ 100) ≤ 16 * 2 ^ 90 := by linarith
  rw [mul_one_div, div_le_iff₀ (by positivity)] at this
  exact this.trans (by norm_num)

theorem isTrack_0 {om tl ph x1 y1 z1 : ℝ} (h : om ≠ 0) : IsTrack om tl ph x1 y1 z1 (rX om ph 0 x1) (rY om ph 0 y1) (rZ tl 0 z1) := by
  have := isTrack_r (om := om) (tl := tl) (ph := ph) (rx := x1) (ry := y1) (rz := z1) (d := 0) (z := 0) h
  rwa [zero_mul, zero_mul, sub_zero, add_zero, add_zero] at this

end Rnd

/-- C161: through the first, middle and last hit (positions in units of DD4hep, as computed) there is a track in this order within one turn; its slope is that
between the middle and the last hit.  The start helix of lcio_tracks in double precision has the origin as reference point, its point of closest approach is next
to this track, and curvature, slope and azimuth there are those of the track, within the tolerances of `SeedNear`. -/
theorem C161_seed (h : NearestF 53 1074 fl) (hl : IsLibm lm) (ha : IsAtan2 at2) (h00 : |at2 0 0| ≤ 4) {hits : List TrackHit} {h1 h2 h3 : TrackHit}
    (e1 : hits[0]? = some h1) (e2 : hits[(hits.length + 1) / 2]? = some h2) (e3 : hits[hits.length - 1]? = some h3) {x1 y1 z1 x2 y2 z2 x3 y3 z3 L P q : ℝ}
    (p1 : Rnd.scaled fl h1.hit.pos = V3.re x1 y1 z1) (p2 : Rnd.scaled fl h2.hit.pos = V3.re x2 y2 z2) (p3 : Rnd.scaled fl h3.hit.pos = V3.re x3 y3 z3)
    (w : StartRange x1 y1 x2 y2 x3 y3 L P q) (hz1 : |z1| ≤ 2 ^ 200) (hz : |z2 - z3| ≤ 2 ^ 90) :
    ∃ (om tl ph s2 s3 : ℝ) (x y z : ℝ → ℝ), om ≠ 0 ∧ IsTrack om tl ph x1 y1 z1 x y z ∧ 0 < s2 ∧ s2 < s3 ∧ |om| * s3 < 2 * Real.pi ∧
      (x s2 = x2 ∧ y s2 = y2) ∧ (x s3 = x3 ∧ y s3 = y3) ∧ z s3 - z s2 = z3 - z2 ∧
      ∃ om' tl' φ d' z' t δ : ℝ, Rnd.seed fl lm at2 mm hits = .ok ⟨Rnd.seedCov fl M5.zero, hpR om' tl' φ d' z', V3.zero⟩ ∧
        SeedNear om tl ph 0 x1 y1 z1 P q x y z om' tl' φ d' z' t δ := by
  obtain ⟨hnc, q1⟩ := sine_pos w
  have PL : P * L ≤ 2 ^ 200 := (mul_le_mul w.P1 w.L1 (le_trans (by positivity) w.L0) (by positivity)).trans (by norm_num)
  obtain ⟨om, tl, ph, om', tl', ph', k, i1, i2, i3, i4, i5, i6, i7, i8, i9⟩ := start_full h ha w (hz.trans (by norm_num)) TP.default false (z1 := z1)
  obtain ⟨om₁, tl₁, ph₁, j1, j2, -, s2, s3, z2', z3', j4, j5, j6, j7⟩ := C18_start_helix x1 y1 z1 x2 y2 z2 x3 y3 z3 TP.default false hnc
  rw [i1] at j2
  have e := congrArg TP.hp j2
  have c0 := congrFun e 0
  have c1 := congrFun e 1
  have c2 := congrFun e 2
  simp only [hpR, Matrix.cons_val_zero, Matrix.cons_val_one, Matrix.cons_val, fin.injEq] at c0 c1 c2
  subst c0 c1 c2
  simp only [Bool.false_eq_true, if_false] at j4
  rw [pointAt_re i3] at j5 j6
  simp only [V3.re, V3.mk.injEq, fin.injEq] at j5 j6
  have o0 : 0 < |om| := abs_pos.2 i3
  obtain ⟨φ, d', z', t, δ, f, m1, m2⟩ := seed_near (mm := mm) (c := TP.default.cov) h hl ha h00 i8.1 i8.2 (slope_size w.L0 i9 hz) w.P0 w.P1 q1 w.q1 i4 i5 i6 i7 (w.p1.1.trans PL)
    (w.p1.2.trans PL) hz1
  refine ⟨om, tl, ph, s2, s3, _, _, _, i3, isTrack_0 i3, j4.1, j4.2.1, ?_, ⟨j5.1, j5.2.1⟩, ⟨j6.1, j6.2.1⟩, ?_, om', tl', φ, d', z', t, δ, ?_, m2⟩
  · have := mul_lt_mul_of_pos_left j4.2.2 o0
    rw [abs_div, abs_one, mul_one_div, mul_div_cancel₀ _ o0.ne'] at this
    exact this
  · have : s3 - s2 ≠ 0 := by linarith [j4.2.1]
    rw [rZ, rZ, j7]
    field_simp
    ring
  · exact seed_of e1 e2 e3 (by rw [p1, p2, p3]; exact i2) m1

/-- C161 for hits on a track, in the direction of motion and within one turn: the seed has the parameters of this track at its point of closest approach -/
theorem C161_track (h : NearestF 53 1074 fl) (hl : IsLibm lm) (ha : IsAtan2 at2) (h00 : |at2 0 0| ≤ 4) {hits : List TrackHit} {h1 h2 h3 : TrackHit}
    (e1 : hits[0]? = some h1) (e2 : hits[(hits.length + 1) / 2]? = some h2) (e3 : hits[hits.length - 1]? = some h3) {om tl ph x0 y0 z0 s1 s2 s3 L P q : ℝ}
    {x y z : ℝ → ℝ} (h0 : om ≠ 0) (ht : IsTrack om tl ph x0 y0 z0 x y z) (o1 : s1 < s2) (o2 : s2 < s3) (o3 : |om| * (s3 - s1) < 2 * Real.pi)
    (p1 : Rnd.scaled fl h1.hit.pos = V3.re (x s1) (y s1) (z s1)) (p2 : Rnd.scaled fl h2.hit.pos = V3.re (x s2) (y s2) (z s2))
    (p3 : Rnd.scaled fl h3.hit.pos = V3.re (x s3) (y s3) (z s3))
    (w : StartRange (x s1) (y s1) (x s2) (y s2) (x s3) (y s3) L P q) (hz1 : |z s1| ≤ 2 ^ 200) (hz : |z s2 - z s3| ≤ 2 ^ 90) :
    ∃ om' tl' φ d' z' t δ : ℝ, Rnd.seed fl lm at2 mm hits = .ok ⟨Rnd.seedCov fl M5.zero, hpR om' tl' φ d' z', V3.zero⟩ ∧
      SeedNear om tl (ph - om * s1) s1 (x s1) (y s1) (z s1) P q x y z om' tl' φ d' z' t δ := by
  obtain ⟨hnc, q1⟩ := sine_pos w
  have PL : P * L ≤ 2 ^ 200 := (mul_le_mul w.P1 w.L1 (le_trans (by positivity) w.L0) (by positivity)).trans (by norm_num)
  obtain ⟨om₁, tl₁, ph₁, om', tl', ph', k, i1, i2, -, i4, i5, i6, i7, i8, i9⟩ := start_full h ha w (hz.trans (by norm_num)) TP.default false (z1 := z s1)
  obtain ⟨f, c1, c2, c3, -⟩ := C138_start (tl := tl) (ph := ph) (d := 0) (z := 0) (rx := x0) (ry := y0) (rz := z0) h0 TP.default false
    (show if false = true then _ else s1 < s2 ∧ s2 < s3 by simp [o1, o2]) (by rwa [abs_of_pos (by linarith : 0 < s3 - s1)])
  obtain ⟨ux, uy, uz⟩ := ht.unique (isTrack_0 h0)
  rw [pointAt_re h0, pointAt_re h0, pointAt_re h0, ← ux, ← uy, ← uz, i1] at c1
  have e := congrArg TP.hp c1
  have d0 := congrFun e 0
  have d1 := congrFun e 1
  have d2 := congrFun e 2
  simp only [hpR, Matrix.cons_val_zero, Matrix.cons_val_one, Matrix.cons_val, fin.injEq] at d0 d1 d2
  subst d0 d1 d2
  obtain ⟨n, hn⟩ : ∃ n : ℤ, ph₁ = ph - om₁ * s1 + n * (2 * Real.pi) := by
    have := (Real.Angle.cos_sin_inj c2 c3)
    obtain ⟨n, hn⟩ := Real.Angle.angle_eq_iff_two_pi_dvd_sub.1 this
    exact ⟨n, by linarith⟩
  have i6' : |ph' - (ph - om₁ * s1) - (k + n : ℤ) * (2 * Real.pi)| ≤ (250 * P + 350 * q + 2 ^ 16) / 2 ^ 53 := by
    rw [hn] at i6
    push_cast
    rwa [show ph' - (ph - om₁ * s1) - ((k : ℝ) + n) * (2 * Real.pi) = ph' - (ph - om₁ * s1 + n * (2 * Real.pi)) - k * (2 * Real.pi) by ring]
  obtain ⟨φ, d', z', t, δ, f', m1, m2⟩ := seed_near (mm := mm) (c := TP.default.cov) h hl ha h00 i8.1 i8.2 (slope_size w.L0 i9 hz) w.P0 w.P1 q1 w.q1 i4 i5 i6' i7 (w.p1.1.trans PL)
    (w.p1.2.trans PL) hz1
  have sx : ∀ s, rX om₁ (ph - om₁ * s1) 0 (x s1) (0 + s) = x (s1 + s) := fun s => by
    rw [ux]
    simp only [rX]
    rw [show ph - om₁ * s1 - (0 + s) * om₁ = ph - (s1 + s) * om₁ by ring, mul_comm om₁ s1]
    ring
  have sy : ∀ s, rY om₁ (ph - om₁ * s1) 0 (y s1) (0 + s) = y (s1 + s) := fun s => by
    rw [uy]
    simp only [rY]
    rw [show ph - om₁ * s1 - (0 + s) * om₁ = ph - (s1 + s) * om₁ by ring, mul_comm om₁ s1]
    ring
  have sz : ∀ s, rZ tl₁ 0 (z s1) (0 + s) = z (s1 + s) := fun s => by
    rw [uz]
    simp only [rZ]
    ring
  refine ⟨om', tl', φ, d', z', t, δ, seed_of e1 e2 e3 (by rw [p1, p2, p3]; exact i2) m1, m2.curvature, m2.slope, m2.half, m2.range, m2.azimuth, m2.turn, m2.turn', ?_, ?_, ?_⟩
  · rw [← sx]; exact m2.px
  · rw [← sy]; exact m2.py
  · rw [← sz]; exact m2.pz

/-- C161: the positions used differ from those of the hits in units of DD4hep by a relative error of 3 units of 2^-53 -/
theorem C161_scaled (h : NearestF 53 1074 fl) {a b c : ℝ} (ha : Plain a) (hb : Plain b) (hc : Plain c) :
    ∃ x y z : ℝ, Rnd.scaled fl (V3.re a b c) = V3.re x y z ∧ |x - a / 10| ≤ 3 / 2 ^ 53 * |a / 10| ∧ |y - b / 10| ≤ 3 / 2 ^ 53 * |b / 10| ∧
      |z - c / 10| ≤ 3 / 2 ^ 53 * |c / 10| := by
  have one : ∀ a : ℝ, Plain a → ∃ x, mulD fl (fin a) (lit fl 0.1) = fin x ∧ |x - a / 10| ≤ 3 / 2 ^ 53 * |a / 10| := fun a ha => by
    have l : Rel 4 (lit fl 0.1) 0.1 (1001 / 1000) := Rel.lit h (by norm_num) (by norm_num) (by norm_num)
    rcases ha with rfl | ⟨a1, a2⟩
    · obtain ⟨r, l1, -⟩ := l.val
      exact ⟨0, by rw [l1, mulD, fin_mul, zero_mul, rnd_zero h], by norm_num⟩
    · have l' := l.ap
      rw [← abs_of_pos (show (0 : ℝ) < 0.1 by norm_num)] at l'
      rw [abs_of_pos (show (0 : ℝ) < 0.1 by norm_num)] at l'
      have := signed_mul (k := 100) (x := a) (y := 0.1) (e := 0) (f := 1001 / 1000) h (Ap.given a1 a2 (by rw [one_mul])) (by rw [abs_of_pos (by norm_num)]; exact l') (by norm_num) (by norm_num) (by norm_num)
      obtain ⟨r, x, j1, j2, j3, -⟩ := this.val
      rw [fin.injEq] at j2
      subst j2
      refine ⟨r, j1, ?_⟩
      rw [show a / 10 = a * 0.1 by norm_num; ring]
      refine j3.trans ?_
      have k : 0 ≤ |a * 0.1| * (1 / 2 ^ 53) := by positivity
      rw [show 3 / 2 ^ 53 * |a * 0.1| = 3 * (|a * 0.1| * (1 / 2 ^ 53)) by ring]
      exact mul_le_mul_of_nonneg_right (by norm_num) k
  obtain ⟨x, x1, x2⟩ := one a ha
  obtain ⟨y, y1, y2⟩ := one b hb
  obtain ⟨z, z1, z2⟩ := one c hc
  exact ⟨x, y, z, by simp only [Rnd.scaled, V3.re, x1, y1, z1], x2, y2, z2⟩

/-- C161: the covariance matrix of the seed is diagonal, with the numbers next to 0.01, 100, 100, 100000 and 100000 -/
theorem C161_covariance (h : NearestF 53 1074 fl) (i j : Fin 5) :
    Rnd.seedCov fl M5.zero i j = if i = j then fin (![fl 0.01, 100, 100, 100000, 100000] i) else fin 0 := by
  have n1 : lit fl 1e2 = fin 100 := by
    rw [lit, show (1e2 : ℝ) = 25 * 2 ^ 2 by norm_num]
    exact (rnd_big h 25 2 (by norm_num) (by norm_num) (by norm_num)).trans (by norm_num)
  have n2 : lit fl 1e5 = fin 100000 := by
    rw [lit, show (1e5 : ℝ) = 3125 * 2 ^ 5 by norm_num]
    exact (rnd_big h 3125 5 (by norm_num) (by norm_num) (by norm_num)).trans (by norm_num)
  have n3 : lit fl 1e-2 = fin (fl 0.01) := by
    rw [lit, show (1e-2 : ℝ) = 0.01 by norm_num]
    refine rnd_double h (le_trans ?_ (one_le_pow₀ (by norm_num)))
    rw [abs_of_pos] <;> norm_num
  have zz : ∀ i j, M5.zero i j = fin 0 := fun _ _ => zero_eq
  simp only [Rnd.seedCov, n1, n2, n3, M5.unit, M5.set]
  fin_cases i <;> fin_cases j <;> simp [OMEGA, TANL, PHI0, D0, Z0, zz]

/-- `C161_seed` for four hits, with the second, which is not used, anywhere: (0, 0, 0), (10, 10, 20) and (20, 0, 40) mm -/
theorem C161_example (h : NearestF 53 1074 fl) (hl : IsLibm lm) (ha : IsAtan2 at2) (h00 : |at2 0 0| ≤ 4) (h1 h2 h3 h4 : TrackHit)
    (p1 : h1.hit.pos = V3.re 0 0 0) (p3 : h3.hit.pos = V3.re 10 10 20) (p4 : h4.hit.pos = V3.re 20 0 40) :
    ∃ om' tl' φ d' z' : ℝ, Rnd.seed fl lm at2 mm [h1, h2, h3, h4] = .ok ⟨Rnd.seedCov fl M5.zero, hpR om' tl' φ d' z', V3.zero⟩ ∧ |φ| ≤ mPi := by
  have pl : ∀ {a : ℝ}, 1 ≤ |a| → |a| ≤ 100 → Plain a := fun h1 h2 => .inr ⟨le_trans (by norm_num) h1, h2.trans (by norm_num)⟩
  have z0 : Plain 0 := .inl rfl
  obtain ⟨x1, y1, z1, i1, i2, i3, i4⟩ := C161_scaled h z0 z0 z0
  obtain ⟨x2, y2, z2, j1, j2, j3, j4⟩ := C161_scaled h (pl (a := 10) (by norm_num) (by norm_num)) (pl (a := 10) (by norm_num) (by norm_num)) (pl (a := 20) (by norm_num) (by norm_num))
  obtain ⟨x3, y3, z3, k1, k2, k3, k4⟩ := C161_scaled h (pl (a := 20) (by norm_num) (by norm_num)) z0 (pl (a := 40) (by norm_num) (by norm_num))
  rw [zero_div, sub_zero, abs_zero, mul_zero, abs_nonpos_iff] at i2 i3 i4 k3
  subst i2 i3 i4 k3
  have b : ∀ {x c e : ℝ}, |x - c| ≤ e → e ≤ 1 / 1000 → c - 1 / 1000 ≤ x ∧ x ≤ c + 1 / 1000 := fun h1 h2 => by
    have := abs_le.1 (h1.trans h2)
    constructor <;> linarith
  have X2 := b j2 (by norm_num)
  have Y2 := b j3 (by norm_num)
  have Z2 := b j4 (by norm_num)
  have X3 := b k2 (by norm_num)
  have Z3 := b k4 (by norm_num)
  norm_num at X2 Y2 Z2 X3 Z3
  obtain ⟨x2a, x2b⟩ := X2
  obtain ⟨y2a, y2b⟩ := Y2
  obtain ⟨x3a, x3b⟩ := X3
  have g1 : 1 ≤ gap 0 0 x2 y2 ∧ gap 0 0 x2 y2 ≤ 3 / 2 := by
    rw [gap, sub_zero, sub_zero]
    exact ⟨Real.le_sqrt_of_sq_le (by nlinarith), Real.sqrt_le_iff.2 ⟨by norm_num, by nlinarith⟩⟩
  have g2 : 1 ≤ gap 0 0 x3 0 ∧ gap 0 0 x3 0 ≤ 9 / 4 := by
    rw [gap, sub_zero, sub_zero]
    exact ⟨Real.le_sqrt_of_sq_le (by nlinarith), Real.sqrt_le_iff.2 ⟨by norm_num, by nlinarith⟩⟩
  have g3 : 1 ≤ gap x2 y2 x3 0 ∧ gap x2 y2 x3 0 ≤ 3 / 2 := by
    rw [gap]
    exact ⟨Real.le_sqrt_of_sq_le (by nlinarith), Real.sqrt_le_iff.2 ⟨by norm_num, by nlinarith⟩⟩
  have w : StartRange 0 0 x2 y2 x3 0 3 1 4 := by
    refine ⟨by norm_num, by norm_num, ⟨by linarith, by linarith⟩, ⟨by linarith, by linarith⟩, ⟨by linarith, by linarith⟩, le_rfl, by norm_num, by norm_num, ?_, ?_, by norm_num, ?_⟩
    · constructor <;> rw [abs_le] <;> constructor <;> linarith
    · constructor
      · rw [abs_le]
        constructor <;> linarith
      · norm_num
    · have s : gap 0 0 x2 y2 * gap 0 0 x3 0 ≤ 3 / 2 * (9 / 4) := mul_le_mul g1.2 g2.2 (by linarith) (by norm_num)
      have m : 9 / 10 * (19 / 10) ≤ y2 * x3 := mul_le_mul (by linarith) (by linarith) (by norm_num) (by linarith)
      rw [show (x2 - 0) * (0 - 0) - (y2 - 0) * (x3 - 0) = -(y2 * x3) by ring, abs_neg, abs_of_pos (by linarith)]
      linarith
  obtain ⟨om, tl, ph, s2, s3, x, y, z, -, -, -, -, -, -, -, -, om', tl', φ, d', z', t, δ, r1, r2⟩ := C161_seed (mm := mm) (hits := [h1, h2, h3, h4]) (h1 := h1) (h2 := h3) (h3 := h4) h hl ha h00 (by simp) (by simp) (by simp)
    (by rw [p1]; exact i1) (by rw [p3]; exact j1) (by rw [p4]; exact k1) w (by norm_num) (by
      rw [abs_le]
      constructor <;> linarith [Z2.1, Z2.2, Z3.1, Z3.2])
  exact ⟨om', tl', φ, d', z', r1, r2.range⟩

end Verif
