import Verif.Lemmas.Helix

/-! Helper lemmas for `calculateStartHelix`. -/

noncomputable section

namespace Verif

open Dbl

/-- every plane vector in polar form -/
theorem exists_polar (x y : ℝ) : ∃ p : ℝ, x = Real.sqrt (x ^ 2 + y ^ 2) * Real.cos p ∧
    y = Real.sqrt (x ^ 2 + y ^ 2) * Real.sin p := by
  by_cases h : x = 0 ∧ y = 0
  · exact ⟨0, by simp [h.1, h.2], by simp [h.2]⟩
  · have hpos : 0 < x ^ 2 + y ^ 2 := by
      rcases not_and_or.mp h with h | h
      · have := sq_pos_of_ne_zero h; have := sq_nonneg y; linarith
      · have := sq_pos_of_ne_zero h; have := sq_nonneg x; linarith
    have hs := (Real.sqrt_pos.mpr hpos).ne'
    refine ⟨ratan2 y x, ?_, ?_⟩
    · rw [cos_ratan2 y x h]; generalize Real.sqrt (x ^ 2 + y ^ 2) = A at hs; field_simp
    · rw [sin_ratan2 y x]; generalize Real.sqrt (x ^ 2 + y ^ 2) = A at hs; field_simp

/-- the three points are met in order when following a circle of signed radius `r` (clockwise for
positive `r`) from the first point in direction `ph`. -/
theorem start_arc {r ph p q a b th : ℝ} (k : ℤ) (hr : r ≠ 0) (ha : 0 < a) (hb : 0 < b)
    (h1 : r * Real.sin (ph - p) = a / 2) (h2 : r * Real.sin (ph - q) = b / 2)
    (hth : th = q - p + k * (2 * Real.pi)) (hlt : -Real.pi < th) (hgt : th < Real.pi) (hneg : r * th < 0) :
    ∃ s2 s3, 0 < s2 ∧ s2 < s3 ∧ s3 < 2 * Real.pi * |r| ∧ s3 - s2 = -(2 * r * th) ∧
      (∀ x y, rX (1 / r) ph 0 x s2 = x + a * Real.cos p ∧ rY (1 / r) ph 0 y s2 = y + a * Real.sin p) ∧
      (∀ x y, rX (1 / r) ph 0 x s3 = x + b * Real.cos q ∧ rY (1 / r) ph 0 y s3 = y + b * Real.sin q) := by
  have hpp := Real.pi_pos
  obtain ⟨n, b1, b2⟩ := exists_rep (ph - p)
  set β := ph - p + n * (2 * Real.pi) with hβ
  have hsinβ : r * Real.sin β = a / 2 := by rw [hβ, Real.sin_add_int_mul_two_pi, h1]
  have hsinβ3 : r * Real.sin (β - th) = b / 2 := by
    rw [← h2, hβ, hth]
    rw [show ph - p + n * (2 * Real.pi) - (q - p + k * (2 * Real.pi)) = ph - q + ((n - k : ℤ) : ℝ) * (2 * Real.pi) by
      push_cast; ring, Real.sin_add_int_mul_two_pi]
  have pt : ∀ (t g : ℝ) (m : ℤ) (w : ℝ), w = ph - t + m * (2 * Real.pi) → r * Real.sin w = g / 2 → ∀ x y,
      rX (1 / r) ph 0 x (2 * r * w) = x + g * Real.cos t ∧ rY (1 / r) ph 0 y (2 * r * w) = y + g * Real.sin t := by
    intro t g m w hw hs x y
    have e : 2 * r * w * (1 / r) = 2 * w := by field_simp
    have ec : Real.cos (ph - w) = Real.cos t := by
      rw [hw, show ph - (ph - t + m * (2 * Real.pi)) = t + ((-m : ℤ) : ℝ) * (2 * Real.pi) by push_cast; ring,
        Real.cos_add_int_mul_two_pi]
    have es : Real.sin (ph - w) = Real.sin t := by
      rw [hw, show ph - (ph - t + m * (2 * Real.pi)) = t + ((-m : ℤ) : ℝ) * (2 * Real.pi) by push_cast; ring,
        Real.sin_add_int_mul_two_pi]
    constructor
    · unfold rX
      rw [e, one_div_one_div, Real.sin_sub_sin, show (ph - (ph - 2 * w)) / 2 = w by ring,
        show (ph + (ph - 2 * w)) / 2 = ph - w by ring, ec]
      linear_combination 2 * Real.cos t * hs
    · unfold rY
      rw [e, one_div_one_div, Real.cos_sub_cos, show (ph - (ph - 2 * w)) / 2 = w by ring,
        show (ph + (ph - 2 * w)) / 2 = ph - w by ring, es]
      linear_combination 2 * Real.sin t * hs
  refine ⟨2 * r * β, 2 * r * (β - th), ?_, ?_, ?_, by ring, pt p a n β hβ hsinβ,
    pt q b (n - k) (β - th) (by rw [hβ, hth]; push_cast; ring) hsinβ3⟩
  · rcases lt_or_gt_of_ne hr with hr | hr
    · have : Real.sin β < 0 := by by_contra hc; push Not at hc; nlinarith
      have : β < 0 := by
        by_contra hc; push Not at hc
        have := Real.sin_nonneg_of_nonneg_of_le_pi hc b2; linarith
      nlinarith
    · have : 0 < Real.sin β := by by_contra hc; push Not at hc; nlinarith
      have : 0 < β := by
        by_contra hc; push Not at hc
        have := Real.sin_nonpos_of_nonpos_of_neg_pi_le hc b1.le; linarith
      nlinarith
  · nlinarith
  · rcases lt_or_gt_of_ne hr with hr | hr
    · have h3 : Real.sin (β - th) < 0 := by by_contra hc; push Not at hc; nlinarith
      have hth0 : 0 < th := by by_contra hc; push Not at hc; nlinarith
      have : -Real.pi < β - th := by
        by_contra hc; push Not at hc
        have := Real.sin_nonneg_of_nonneg_of_le_pi (x := β - th + 2 * Real.pi) (by linarith) (by linarith)
        rw [Real.sin_add_two_pi] at this; linarith
      rw [abs_of_neg hr]; nlinarith
    · have h3 : 0 < Real.sin (β - th) := by by_contra hc; push Not at hc; nlinarith
      have hth0 : th < 0 := by by_contra hc; push Not at hc; nlinarith
      have : β - th < Real.pi := by
        by_contra hc; push Not at hc
        have := Real.sin_nonpos_of_nonpos_of_neg_pi_le (x := β - th - 2 * Real.pi) (by linarith) (by linarith)
        rw [Real.sin_sub_two_pi] at this; linarith
      rw [abs_of_pos hr]; nlinarith

theorem pos_of_mul_neg_of_neg {r S c : ℝ} (h : r * S = -(c / 2)) (hc : 0 < c) (hS : S < 0) : 0 < r := by
  by_contra hn; push Not at hn; nlinarith

theorem neg_of_mul_neg_of_pos {r S c : ℝ} (h : r * S = -(c / 2)) (hc : 0 < c) (hS : 0 < S) : r < 0 := by
  by_contra hn; push Not at hn; nlinarith

theorem eq_of_sq_sum {x y : ℝ} (h : 0 ^ 2 = x ^ 2 + y ^ 2) : x = 0 ∧ y = 0 := by
  constructor <;> nlinarith [sq_nonneg x, sq_nonneg y]

/-- the start helix on finite, non-collinear points as real formulas -/
theorem startHelix_re (x1 y1 z1 x2 y2 z2 x3 y3 z3 : ℝ) (tp : TP) (bw : Bool)
    (hnc : (x2 - x1) * (y3 - y1) - (y2 - y1) * (x3 - x1) ≠ 0) :
    ∃ a b p q th r : ℝ, ∃ k : ℤ, 0 < a ∧ 0 < b ∧ r ≠ 0 ∧ x2 - x1 = a * Real.cos p ∧ y2 - y1 = a * Real.sin p ∧
      x3 - x1 = b * Real.cos q ∧ y3 - y1 = b * Real.sin q ∧
      th = q - p + k * (2 * Real.pi) ∧ -Real.pi < th ∧ th < Real.pi ∧ r * th < 0 ∧
      ∃ ph : ℝ, r * Real.sin (ph - p) = a / 2 ∧ r * Real.sin (ph - q) = b / 2 ∧
      ∃ ph' : ℝ, Real.sin ph' = (if bw then -1 else 1) * Real.sin ph ∧
        Real.cos ph' = (if bw then -1 else 1) * Real.cos ph ∧
      calculateStartHelix (V3.re x1 y1 z1) (V3.re x2 y2 z2) (V3.re x3 y3 z3) tp bw =
        ⟨tp.cov, hpR (1 / ((if bw then -1 else 1) * r))
          ((z2 - z3) / ((if bw then -1 else 1) * r * 2 * th)) ph' 0 0, V3.re x1 y1 z1⟩ := by
  obtain ⟨p, hpx, hpy⟩ := exists_polar (x2 - x1) (y2 - y1)
  obtain ⟨q, hqx, hqy⟩ := exists_polar (x3 - x1) (y3 - y1)
  have hA0 := Real.sqrt_nonneg ((x2 - x1) ^ 2 + (y2 - y1) ^ 2)
  have hB0 := Real.sqrt_nonneg ((x3 - x1) ^ 2 + (y3 - y1) ^ 2)
  have hA2 := Real.sq_sqrt (show 0 ≤ (x2 - x1) ^ 2 + (y2 - y1) ^ 2 by positivity)
  have hB2 := Real.sq_sqrt (show 0 ≤ (x3 - x1) ^ 2 + (y3 - y1) ^ 2 by positivity)
  have hC2 := Real.sq_sqrt (show 0 ≤ (x3 - x2) ^ 2 + (y3 - y2) ^ 2 by positivity)
  have hC0 := Real.sqrt_nonneg ((x3 - x2) ^ 2 + (y3 - y2) ^ 2)
  have eA : (V3.mk (fin (x2 - x1)) (fin (y2 - y1)) (fin 0)).r = fin (Real.sqrt ((x2 - x1) ^ 2 + (y2 - y1) ^ 2)) := by
    unfold V3.r
    simp only [fin_mul, fin_add]
    rw [show (x2 - x1) * (x2 - x1) + (y2 - y1) * (y2 - y1) + 0 * 0 = (x2 - x1) ^ 2 + (y2 - y1) ^ 2 by ring,
      sqrt_fin (by positivity)]
  have eB : (V3.mk (fin (x3 - x1)) (fin (y3 - y1)) (fin 0)).r = fin (Real.sqrt ((x3 - x1) ^ 2 + (y3 - y1) ^ 2)) := by
    unfold V3.r
    simp only [fin_mul, fin_add]
    rw [show (x3 - x1) * (x3 - x1) + (y3 - y1) * (y3 - y1) + 0 * 0 = (x3 - x1) ^ 2 + (y3 - y1) ^ 2 by ring,
      sqrt_fin (by positivity)]
  have eC : (V3.mk (fin (x3 - x2)) (fin (y3 - y2)) (fin 0)).r = fin (Real.sqrt ((x3 - x2) ^ 2 + (y3 - y2) ^ 2)) := by
    unfold V3.r
    simp only [fin_mul, fin_add]
    rw [show (x3 - x2) * (x3 - x2) + (y3 - y2) * (y3 - y2) + 0 * 0 = (x3 - x2) ^ 2 + (y3 - y2) ^ 2 by ring,
      sqrt_fin (by positivity)]
  generalize Real.sqrt ((x2 - x1) ^ 2 + (y2 - y1) ^ 2) = a at *
  generalize Real.sqrt ((x3 - x1) ^ 2 + (y3 - y1) ^ 2) = b at *
  generalize Real.sqrt ((x3 - x2) ^ 2 + (y3 - y2) ^ 2) = c at *
  have hprod : (x2 - x1) * (y3 - y1) - (y2 - y1) * (x3 - x1) = a * b * Real.sin (q - p) := by
    rw [hpx, hpy, hqx, hqy, Real.sin_sub]; ring
  have hdot : (x2 - x1) * (x3 - x1) + (y2 - y1) * (y3 - y1) = a * b * Real.cos (q - p) := by
    rw [hpx, hpy, hqx, hqy, Real.cos_sub]; ring
  rw [hprod] at hnc
  have ha : 0 < a := lt_of_le_of_ne hA0 (by intro h; apply hnc; rw [← h]; ring)
  have hb : 0 < b := lt_of_le_of_ne hB0 (by intro h; apply hnc; rw [← h]; ring)
  have hS : Real.sin (q - p) ≠ 0 := by intro h; apply hnc; rw [h]; ring
  have hcos : c ^ 2 = a ^ 2 + b ^ 2 - 2 * (a * b * Real.cos (q - p)) := by
    rw [← hdot, hC2, hA2, hB2]; ring
  have hc : 0 < c := by
    refine lt_of_le_of_ne hC0 ?_
    intro h
    rw [← h] at hC2
    obtain ⟨hx, hy⟩ := eq_of_sq_sum hC2
    apply hnc; rw [← hprod, sub_eq_zero.mp hx, sub_eq_zero.mp hy]; ring
  -- the angle at the first point
  set th := ratan2 (Real.sin (q - p)) (Real.cos (q - p)) with hthdef
  obtain ⟨k, hk⟩ : ∃ k : ℤ, th = q - p + k * (2 * Real.pi) := by
    have := ratan2_sin_cos one_pos (q - p)
    simpa only [one_mul] using this
  obtain ⟨t1, t2⟩ := ratan2_mem (Real.sin (q - p)) (Real.cos (q - p))
  rw [← hthdef] at t1 t2
  have hsth : Real.sin th = Real.sin (q - p) := by rw [hk, Real.sin_add_int_mul_two_pi]
  have t3 : th < Real.pi := lt_of_le_of_ne t2 (by intro h; rw [h, Real.sin_pi] at hsth; exact hS hsth.symm)
  set r := -(0.5 : ℝ) * c / Real.sin (q - p) with hrdef
  have hr : r ≠ 0 := by
    rw [hrdef]; exact div_ne_zero (mul_ne_zero (by norm_num) hc.ne') hS
  have hrS : r * Real.sin (q - p) = -(c / 2) := by rw [hrdef]; field_simp; norm_num
  have hrth : r * th < 0 := by
    rcases lt_trichotomy th 0 with h | h | h
    · have h5 := Real.sin_neg_of_neg_of_neg_pi_lt h t1
      rw [hsth] at h5
      exact mul_neg_of_pos_of_neg (pos_of_mul_neg_of_neg hrS hc h5) h
    · rw [h, Real.sin_zero] at hsth; exact absurd hsth.symm hS
    · have h5 := Real.sin_pos_of_pos_of_lt_pi h t3
      rw [hsth] at h5
      exact mul_neg_of_neg_of_pos (neg_of_mul_neg_of_pos hrS hc h5) h
  -- centre relative to the first point
  set gx := (0.5 : ℝ) * (x2 + x3) + r * Real.cos (q - p) * ((y3 - y2) / c) - x1 with hgx
  set gy := (0.5 : ℝ) * (y2 + y3) + r * Real.cos (q - p) * (-((x3 - x2) / c)) - y1 with hgy
  have hS2 : Real.sin (q - p) ^ 2 + Real.cos (q - p) ^ 2 = 1 := Real.sin_sq_add_cos_sq _
  have gS : 2 * Real.sin (q - p) * gx = Real.sin (q - p) * ((x2 - x1) + (x3 - x1)) -
      Real.cos (q - p) * ((y3 - y1) - (y2 - y1)) := by
    have : r * Real.cos (q - p) * ((y3 - y2) / c) * Real.sin (q - p) = -(Real.cos (q - p) * (y3 - y2) / 2) := by
      rw [show r * Real.cos (q - p) * ((y3 - y2) / c) * Real.sin (q - p) =
        (r * Real.sin (q - p)) * Real.cos (q - p) * ((y3 - y2) / c) by ring, hrS]
      generalize Real.cos (q - p) = C
      field_simp
    rw [hgx]; linear_combination 2 * this
  have gC : 2 * Real.sin (q - p) * gy = Real.sin (q - p) * ((y2 - y1) + (y3 - y1)) +
      Real.cos (q - p) * ((x3 - x1) - (x2 - x1)) := by
    have : r * Real.cos (q - p) * (-((x3 - x2) / c)) * Real.sin (q - p) = Real.cos (q - p) * (x3 - x2) / 2 := by
      rw [show r * Real.cos (q - p) * (-((x3 - x2) / c)) * Real.sin (q - p) =
        (r * Real.sin (q - p)) * Real.cos (q - p) * (-((x3 - x2) / c)) by ring, hrS]
      generalize Real.cos (q - p) = C
      field_simp
    rw [hgy]; linear_combination 2 * this
  have hnorm : gx ^ 2 + gy ^ 2 = r ^ 2 := by
    have h4 : (2 * Real.sin (q - p)) ^ 2 * (gx ^ 2 + gy ^ 2) = (2 * Real.sin (q - p)) ^ 2 * r ^ 2 := by
      have l : (2 * Real.sin (q - p)) ^ 2 * (gx ^ 2 + gy ^ 2) =
        (2 * Real.sin (q - p) * gx) ^ 2 + (2 * Real.sin (q - p) * gy) ^ 2 := by ring
      have rr : (2 * Real.sin (q - p)) ^ 2 * r ^ 2 = c ^ 2 := by
        linear_combination (4 * (r * Real.sin (q - p) + -(c / 2))) * hrS
      rw [l, rr, gS, gC, hcos]
      generalize Real.sin (q - p) = S at *
      generalize Real.cos (q - p) = C at *
      linear_combination -4 * S * C * hprod + (2 * S ^ 2 - 2 * C ^ 2) * hdot - hA2 - hB2 +
        ((x2 - x1) ^ 2 + (y2 - y1) ^ 2 + (x3 - x1) ^ 2 + (y3 - y1) ^ 2 - 2 * a * b * C) * hS2
    exact mul_left_cancel₀ (pow_ne_zero 2 (mul_ne_zero two_ne_zero hS)) h4
  have gA : gx * Real.cos p + gy * Real.sin p = a / 2 := by
    have h4 : (2 * Real.sin (q - p) * a) * (gx * Real.cos p + gy * Real.sin p) =
        (2 * Real.sin (q - p) * a) * (a / 2) := by
      have l : (2 * Real.sin (q - p) * a) * (gx * Real.cos p + gy * Real.sin p) =
        (2 * Real.sin (q - p) * gx) * (a * Real.cos p) + (2 * Real.sin (q - p) * gy) * (a * Real.sin p) := by ring
      rw [l, ← hpx, ← hpy, gS, gC]
      generalize Real.sin (q - p) = S at *
      generalize Real.cos (q - p) = C at *
      linear_combination -C * hprod + S * hdot - S * hA2
    exact mul_left_cancel₀ (mul_ne_zero (mul_ne_zero two_ne_zero hS) ha.ne') h4
  have gB : gx * Real.cos q + gy * Real.sin q = b / 2 := by
    have h4 : (2 * Real.sin (q - p) * b) * (gx * Real.cos q + gy * Real.sin q) =
        (2 * Real.sin (q - p) * b) * (b / 2) := by
      have l : (2 * Real.sin (q - p) * b) * (gx * Real.cos q + gy * Real.sin q) =
        (2 * Real.sin (q - p) * gx) * (b * Real.cos q) + (2 * Real.sin (q - p) * gy) * (b * Real.sin q) := by ring
      rw [l, ← hqx, ← hqy, gS, gC]
      generalize Real.sin (q - p) = S at *
      generalize Real.cos (q - p) = C at *
      linear_combination -C * hprod + S * hdot - S * hB2
    exact mul_left_cancel₀ (mul_ne_zero (mul_ne_zero two_ne_zero hS) hb.ne') h4
  -- azimuth
  have hr2 : 0 < r ^ 2 := by positivity
  have key : ∀ e : ℝ, e ^ 2 = 1 →
      Real.cos (ratan2 (e * r * gy) (e * r * gx)) = e * gx / r ∧
      Real.sin (ratan2 (e * r * gy) (e * r * gx)) = e * gy / r := by
    intro e he
    have hsq : (e * r * gx) ^ 2 + (e * r * gy) ^ 2 = (r ^ 2) ^ 2 := by
      linear_combination (r ^ 2 * (gx ^ 2 + gy ^ 2)) * he + r ^ 2 * hnorm
    have hne : ¬ (e * r * gx = 0 ∧ e * r * gy = 0) := by
      rintro ⟨h5, h6⟩
      rw [h5, h6] at hsq
      have := pow_pos hr2 2
      linarith
    rw [cos_ratan2 _ _ hne, sin_ratan2, hsq, Real.sqrt_sq hr2.le]
    clear_value r gx gy
    constructor <;> field_simp
  let e : ℝ := if bw then -1 else 1
  have he : e ^ 2 = 1 := by simp only [e]; split_ifs <;> norm_num
  obtain ⟨k1, k2⟩ := key e he
  obtain ⟨l1, l2⟩ := key 1 (one_pow 2)
  have spc : ∀ x, Real.sin (x + Real.pi / 2) = Real.cos x := Real.sin_add_pi_div_two
  have cps : ∀ x, Real.cos (x + Real.pi / 2) = -Real.sin x := Real.cos_add_pi_div_two
  refine ⟨a, b, p, q, th, r, k, ha, hb, hr, hpx, hpy, hqx, hqy, hk, t1, t3, hrth,
    ratan2 (1 * r * gy) (1 * r * gx) + Real.pi / 2, ?_, ?_,
    ratan2 (e * r * gy) (e * r * gx) + Real.pi / 2, ?_, ?_, ?_⟩
  · rw [Real.sin_sub, spc, cps, l1, l2, ← gA]
    clear_value r gx gy; field_simp; ring
  · rw [Real.sin_sub, spc, cps, l1, l2, ← gB]
    clear_value r gx gy; field_simp; ring
  · rw [spc, spc, k1, l1]; ring
  · rw [cps, cps, k2, l2]; ring
  · unfold calculateStartHelix
    simp only [V3.re]
    show (_ : TP) = _
    have s1 : (V3.mk (fin x2) (fin y2) (fin z2) - V3.mk (fin x1) (fin y1) (fin z1)) =
        V3.mk (fin (x2 - x1)) (fin (y2 - y1)) (fin (z2 - z1)) := by
      show V3.mk _ _ _ = _; simp
    have s2 : (V3.mk (fin x3) (fin y3) (fin z3) - V3.mk (fin x1) (fin y1) (fin z1)) =
        V3.mk (fin (x3 - x1)) (fin (y3 - y1)) (fin (z3 - z1)) := by
      show V3.mk _ _ _ = _; simp
    have s3 : (V3.mk (fin x3) (fin y3) (fin z3) - V3.mk (fin x2) (fin y2) (fin z2)) =
        V3.mk (fin (x3 - x2)) (fin (y3 - y2)) (fin (z3 - z2)) := by
      show V3.mk _ _ _ = _; simp
    rw [s1, s2, s3]
    simp only [zero_eq, V3.unit, eA, eB, eC]
    have m1 : (x2 - x1) / a * ((y3 - y1) / b) - (y2 - y1) / a * ((x3 - x1) / b) = Real.sin (q - p) := by
      rw [show (x2 - x1) / a * ((y3 - y1) / b) - (y2 - y1) / a * ((x3 - x1) / b) =
        ((x2 - x1) * (y3 - y1) - (y2 - y1) * (x3 - x1)) / (a * b) by field_simp, hprod]
      generalize Real.sin (q - p) = S
      field_simp
    have m2 : (0.5 : ℝ) * (b / a + (1 - c / a) * (a + c) / b) = Real.cos (q - p) := by
      have : (0.5 : ℝ) * (b / a + (1 - c / a) * (a + c) / b) = (a ^ 2 + b ^ 2 - c ^ 2) / (2 * (a * b)) := by
        field_simp; ring
      rw [this, hcos]
      generalize Real.cos (q - p) = C
      field_simp; ring
    simp only [fin_div _ ha.ne', fin_div _ hb.ne', fin_div _ hc.ne', V3.cross, V3.smul, one_eq, ofSci_eq, fin_neg,
      fin_mul, fin_sub, fin_add, m1, m2, fin_div _ hS, atan2_fin, zero_div, mul_zero, sub_zero]
    have a1 : ∀ u v : V3, u + v = ⟨u.x + v.x, u.y + v.y, u.z + v.z⟩ := fun _ _ => rfl
    have hif : ∀ x : ℝ, (if bw = true then fin (-x) else fin x) = fin (e * x) := by
      intro x; simp only [e]; split_ifs <;> simp
    have hene : e ≠ 0 := by intro h0; rw [h0] at he; norm_num at he
    have hthne : th ≠ 0 := by intro h0; rw [h0] at hrth; simp at hrth
    simp only [a1, fin_add, fin_sub, mul_one, zero_sub, ← hrdef, hif, ← hthdef, ofNat_eq, pi_eq,
      fin_div _ (mul_ne_zero hene hr), fin_mul, atan2_fin,
      fin_div _ (mul_ne_zero (mul_ne_zero (mul_ne_zero hene hr) two_ne_zero) hthne), fin_div _ two_ne_zero]
    rfl

end Verif
