import Verif.Lemmas.StartHelix

/-!
# C18, C19: `calculateStartHelix`
-/

noncomputable section

namespace Verif

open Dbl

/-! ## C18 -/

/-- C18: for three points not collinear in the transverse plane the start helix has the first point as
reference point and starts there; following it (backwards if `backward`), it meets the second and then
the third point within one turn (in the transverse plane), and tan(lambda) is the difference in z of
these two points over the signed arc between them.  The covariance is not touched. -/
theorem C18_start_helix (x1 y1 z1 x2 y2 z2 x3 y3 z3 : ℝ) (tp : TP) (backward : Bool)
    (hnc : (x2 - x1) * (y3 - y1) - (y2 - y1) * (x3 - x1) ≠ 0) :
    ∃ om tl ph : ℝ, om ≠ 0 ∧
      calculateStartHelix (V3.re x1 y1 z1) (V3.re x2 y2 z2) (V3.re x3 y3 z3) tp backward =
        ⟨tp.cov, hpR om tl ph 0 0, V3.re x1 y1 z1⟩ ∧
      pointAt 0 (hpR om tl ph 0 0) (V3.re x1 y1 z1) = V3.re x1 y1 z1 ∧
      ∃ s2 s3 z2' z3' : ℝ,
        (if backward then -(2 * Real.pi * |1 / om|) < s3 ∧ s3 < s2 ∧ s2 < 0
          else 0 < s2 ∧ s2 < s3 ∧ s3 < 2 * Real.pi * |1 / om|) ∧
        pointAt (fin s2) (hpR om tl ph 0 0) (V3.re x1 y1 z1) = V3.re x2 y2 z2' ∧
        pointAt (fin s3) (hpR om tl ph 0 0) (V3.re x1 y1 z1) = V3.re x3 y3 z3' ∧
        tl = (z3 - z2) / (s3 - s2) := by
  obtain ⟨a, b, p, q, th, r, k, ha, hb, hr, e1, e2, e3, e4, hth, t1, t2, hneg, ph, h1, h2, ph', g1, g2, hres⟩ :=
    startHelix_re x1 y1 z1 x2 y2 z2 x3 y3 z3 tp backward hnc
  obtain ⟨s2, s3, b1, b2, b3, b4, p2, p3⟩ := start_arc k hr ha hb h1 h2 hth t1 t2 hneg
  have hthne : th ≠ 0 := by intro h0; rw [h0] at hneg; simp at hneg
  have h0 : ∀ om tl ph : ℝ, om ≠ 0 → pointAt 0 (hpR om tl ph 0 0) (V3.re x1 y1 z1) = V3.re x1 y1 z1 := by
    intro om tl ph ho
    rw [zero_eq, pointAt_re ho]
    simp [rX, rY, rZ]
  cases backward with
  | false =>
    simp only [Bool.false_eq_true, if_false, one_mul] at g1 g2 hres
    have hom : 1 / r ≠ 0 := one_div_ne_zero hr
    refine ⟨1 / r, (z2 - z3) / (r * 2 * th), ph', hom, hres, h0 _ _ _ hom, s2, s3,
      rZ ((z2 - z3) / (r * 2 * th)) 0 z1 s2, rZ ((z2 - z3) / (r * 2 * th)) 0 z1 s3, ?_, pointAt_re hom |>.trans ?_, pointAt_re hom |>.trans ?_, ?_⟩
    · simp only [Bool.false_eq_true, if_false, one_div_one_div]; exact ⟨b1, b2, b3⟩
    · have := p2 x1 y1
      unfold rX rY at this ⊢
      rw [Real.sin_sub, Real.cos_sub] at this ⊢
      rw [g1, g2, this.1, this.2, ← e1, ← e2, add_sub_cancel, add_sub_cancel]
    · have := p3 x1 y1
      unfold rX rY at this ⊢
      rw [Real.sin_sub, Real.cos_sub] at this ⊢
      rw [g1, g2, this.1, this.2, ← e3, ← e4, add_sub_cancel, add_sub_cancel]
    · rw [b4, show z3 - z2 = -(z2 - z3) by ring, neg_div_neg_eq]; ring
  | true =>
    simp only [if_true] at g1 g2 hres
    have hr' : -1 * r ≠ 0 := by simpa using hr
    have hom : 1 / (-1 * r) ≠ 0 := one_div_ne_zero hr'
    refine ⟨1 / (-1 * r), (z2 - z3) / (-1 * r * 2 * th), ph', hom, hres, h0 _ _ _ hom, -s2, -s3,
      rZ ((z2 - z3) / (-1 * r * 2 * th)) 0 z1 (-s2), rZ ((z2 - z3) / (-1 * r * 2 * th)) 0 z1 (-s3), ?_, pointAt_re hom |>.trans ?_, pointAt_re hom |>.trans ?_, ?_⟩
    · simp only [if_true, one_div_one_div]
      rw [show |-1 * r| = |r| by simp]
      exact ⟨by linarith, by linarith, by linarith⟩
    · have := p2 x1 y1
      have ee : -s2 * (1 / (-1 * r)) = s2 * (1 / r) := by field_simp
      unfold rX rY at this ⊢
      rw [ee]
      rw [Real.sin_sub, Real.cos_sub] at this ⊢
      rw [g1, g2]
      rw [one_div_one_div] at this ⊢
      congr 1
      · rw [show x2 = x1 + (x2 - x1) by ring, e1, ← this.1]; ring
      · rw [show y2 = y1 + (y2 - y1) by ring, e2, ← this.2]; ring
    · have := p3 x1 y1
      have ee : -s3 * (1 / (-1 * r)) = s3 * (1 / r) := by field_simp
      unfold rX rY at this ⊢
      rw [ee]
      rw [Real.sin_sub, Real.cos_sub] at this ⊢
      rw [g1, g2]
      rw [one_div_one_div] at this ⊢
      congr 1
      · rw [show x3 = x1 + (x3 - x1) by ring, e3, ← this.1]; ring
      · rw [show y3 = y1 + (y3 - y1) by ring, e4, ← this.2]; ring
    · rw [show -s3 - -s2 = -(s3 - s2) by ring, b4, show z3 - z2 = -(z2 - z3) by ring,
        show -1 * r * 2 * th = -(2 * r * th) by ring, div_neg, neg_neg, neg_div]

/-- a non-collinear triple -/
example : ((1 : ℝ) - 0) * (2 - 0) - (1 - 0) * (5 - 0) ≠ 0 := by norm_num

/-! ## C19 -/

/-- the curvature and tan(lambda) of the start helix of finite points -/
theorem startHelix_collinear (x1 y1 z1 x2 y2 z2 x3 y3 z3 : ℝ) (tp : TP) (bw : Bool)
    (hc : (x2 - x1) * (y3 - y1) - (y2 - y1) * (x3 - x1) = 0) :
    let t := calculateStartHelix (V3.re x1 y1 z1) (V3.re x2 y2 z2) (V3.re x3 y3 z3) tp bw
    let dot := (x2 - x1) * (x3 - x1) + (y2 - y1) * (y3 - y1)
    (t.hp OMEGA = nan ∧ t.hp TANL = nan ∧ ((x2 = x1 ∧ y2 = y1) ∨ (x3 = x1 ∧ y3 = y1) ∨ (x3 = x2 ∧ y3 = y2))) ∨
    (t.hp OMEGA = fin 0 ∧ ((0 < dot ∧ t.hp TANL = nan) ∨ (dot < 0 ∧ t.hp TANL = fin 0))) := by
  intro t dot
  have hA2 := Real.sq_sqrt (show 0 ≤ (x2 - x1) ^ 2 + (y2 - y1) ^ 2 by positivity)
  have hB2 := Real.sq_sqrt (show 0 ≤ (x3 - x1) ^ 2 + (y3 - y1) ^ 2 by positivity)
  have hC2 := Real.sq_sqrt (show 0 ≤ (x3 - x2) ^ 2 + (y3 - y2) ^ 2 by positivity)
  have hA0 := Real.sqrt_nonneg ((x2 - x1) ^ 2 + (y2 - y1) ^ 2)
  have hB0 := Real.sqrt_nonneg ((x3 - x1) ^ 2 + (y3 - y1) ^ 2)
  have eA : (V3.mk (fin (x2 - x1)) (fin (y2 - y1)) (fin 0)).r = fin (Real.sqrt ((x2 - x1) ^ 2 + (y2 - y1) ^ 2)) := by
    unfold V3.r
    simp only [fin_mul, fin_add]
    rw [show (x2 - x1) * (x2 - x1) + (y2 - y1) * (y2 - y1) + 0 * 0 = (x2 - x1) ^ 2 + (y2 - y1) ^ 2 by ring,
      sqrt_fin (by positivity)]
  have eB : (V3.mk (fin (x3 - x1)) (fin (y3 - y1)) (fin 0)).r = fin (Real.sqrt ((x3 - x1) ^ 2 + (y3 - y1) ^ 2)) := by
    unfold V3.r
    simp only [fin_mul, fin_add]
    rw [show (x3 - x1) * (x3 - x1) + (y3 - y1) * (y3 - y1) + 0 * 0 = (x3 - x1) ^ 2 + (y3 - y1) ^ 2 by ring,
      sqrt_fin (by positivity)]
  have eC : (V3.mk (fin (x3 - x2)) (fin (y3 - y2)) (fin 0)).r = fin (Real.sqrt ((x3 - x2) ^ 2 + (y3 - y2) ^ 2)) := by
    unfold V3.r
    simp only [fin_mul, fin_add]
    rw [show (x3 - x2) * (x3 - x2) + (y3 - y2) * (y3 - y2) + 0 * 0 = (x3 - x2) ^ 2 + (y3 - y2) ^ 2 by ring,
      sqrt_fin (by positivity)]
  have s1 : (V3.re x2 y2 z2 - V3.re x1 y1 z1) =
      V3.mk (fin (x2 - x1)) (fin (y2 - y1)) (fin (z2 - z1)) := by
    show V3.mk _ _ _ = _; simp [V3.re]
  have s2 : (V3.re x3 y3 z3 - V3.re x1 y1 z1) =
      V3.mk (fin (x3 - x1)) (fin (y3 - y1)) (fin (z3 - z1)) := by
    show V3.mk _ _ _ = _; simp [V3.re]
  have s3 : (V3.re x3 y3 z3 - V3.re x2 y2 z2) =
      V3.mk (fin (x3 - x2)) (fin (y3 - y2)) (fin (z3 - z2)) := by
    show V3.mk _ _ _ = _; simp [V3.re]
  have ht : t = calculateStartHelix (V3.re x1 y1 z1) (V3.re x2 y2 z2) (V3.re x3 y3 z3) tp bw := rfl
  clear_value t
  unfold calculateStartHelix at ht
  rw [s1, s2, s3] at ht
  simp only [zero_eq, V3.unit, eA, eB, eC, V3.cross] at ht
  rw [ht]
  simp only [V5.mk, OMEGA, TANL, Matrix.cons_val_zero, Matrix.cons_val_one]
  generalize Real.sqrt ((x2 - x1) ^ 2 + (y2 - y1) ^ 2) = a at *
  generalize Real.sqrt ((x3 - x1) ^ 2 + (y3 - y1) ^ 2) = b at *
  generalize Real.sqrt ((x3 - x2) ^ 2 + (y3 - y2) ^ 2) = c at *
  clear ht eA eB eC s1 s2 s3
  by_cases ha : a = 0
  · left
    subst ha
    obtain ⟨u1, u2⟩ := eq_of_sq_sum hA2
    refine ⟨?_, ?_, Or.inl ⟨by linarith, by linarith⟩⟩ <;> simp only [u1, u2, fin_zero_div_zero, nan_mul, nan_sub, div_nan] <;>
      cases bw <;> simp
  by_cases hb : b = 0
  · left
    subst hb
    obtain ⟨u1, u2⟩ := eq_of_sq_sum hB2
    refine ⟨?_, ?_, Or.inr (Or.inl ⟨by linarith, by linarith⟩)⟩ <;> simp only [u1, u2, fin_zero_div_zero, mul_nan, nan_sub, div_nan] <;>
      cases bw <;> simp
  have m1 : (x2 - x1) / a * ((y3 - y1) / b) - (y2 - y1) / a * ((x3 - x1) / b) = 0 := by
    rw [show (x2 - x1) / a * ((y3 - y1) / b) - (y2 - y1) / a * ((x3 - x1) / b) =
      ((x2 - x1) * (y3 - y1) - (y2 - y1) * (x3 - x1)) / (a * b) by field_simp, hc, zero_div]
  have ha' : 0 < a := lt_of_le_of_ne hA0 (Ne.symm ha)
  have hb' : 0 < b := lt_of_le_of_ne hB0 (Ne.symm hb)
  have m2 : (0.5 : ℝ) * (b / a + (1 - c / a) * (a + c) / b) = dot / (a * b) := by
    have : (0.5 : ℝ) * (b / a + (1 - c / a) * (a + c) / b) = (a ^ 2 + b ^ 2 - c ^ 2) / (2 * (a * b)) := by
      field_simp; ring
    rw [this, hA2, hB2, hC2]
    simp only [dot]
    field_simp; ring
  simp only [fin_div _ ha, fin_div _ hb, one_eq, ofSci_eq, fin_neg, fin_mul, fin_sub, fin_add, m1, m2, V3.re,
    atan2_fin, ofNat_eq]
  by_cases hcc : c = 0
  · left
    subst hcc
    obtain ⟨u1, u2⟩ := eq_of_sq_sum hC2
    refine ⟨?_, ?_, Or.inr (Or.inr ⟨by linarith, by linarith⟩)⟩ <;> simp only [mul_zero, fin_zero_div_zero, neg_nan] <;>
      cases bw <;> simp
  · right
    have hne : -(0.5 : ℝ) * c ≠ 0 := mul_ne_zero (by norm_num) hcc
    have hdd : dot ^ 2 = (a * b) ^ 2 := by
      rw [mul_pow, hA2, hB2]
      simp only [dot]
      linear_combination -((x2 - x1) * (y3 - y1) - (y2 - y1) * (x3 - x1)) * hc
    have hab : 0 < a * b := mul_pos ha' hb'
    have hdne : dot ≠ 0 := by intro h0; rw [h0] at hdd; nlinarith
    rw [fin_div_zero hne]
    refine ⟨by cases bw <;> simp, ?_⟩
    rcases lt_or_gt_of_ne hdne with hd | hd
    · right
      refine ⟨hd, ?_⟩
      have : ratan2 0 (dot / (a * b)) = Real.pi := by
        have := ratan2_polar (r := -(dot / (a * b))) (θ := Real.pi)
          (by rw [neg_pos]; exact div_neg_of_neg_of_pos hd hab) (by linarith [Real.pi_pos]) le_rfl
        simpa using this
      have hp2 := Real.pi_ne_zero
      rw [this]
      cases bw <;> simp [inf_mul_fin, hp2]
    · left
      refine ⟨hd, ?_⟩
      have : ratan2 0 (dot / (a * b)) = 0 := by
        have := ratan2_polar (r := dot / (a * b)) (θ := 0) (div_pos hd hab) (by linarith [Real.pi_pos]) Real.pi_pos.le
        simpa using this
      rw [this]
      cases bw <;> simp [inf_mul_fin]

/-- C19 (partial): collinear points, the first one not strictly between the other two: no finite
curvature together with a finite tan(lambda).  Missing for C19: the first point strictly between the
others, where the claim fails (`C19_false`). -/
theorem C19_collinear_partial (x1 y1 z1 x2 y2 z2 x3 y3 z3 : ℝ) (tp : TP) (bw : Bool)
    (hc : (x2 - x1) * (y3 - y1) - (y2 - y1) * (x3 - x1) = 0)
    (hd : 0 ≤ (x2 - x1) * (x3 - x1) + (y2 - y1) * (y3 - y1)) :
    let t := calculateStartHelix (V3.re x1 y1 z1) (V3.re x2 y2 z2) (V3.re x3 y3 z3) tp bw
    ¬ ((t.hp OMEGA).IsFin ∧ (t.hp TANL).IsFin) := by
  intro t ht
  rcases startHelix_collinear x1 y1 z1 x2 y2 z2 x3 y3 z3 tp bw hc with h | ⟨-, ⟨-, h⟩ | ⟨h, -⟩⟩
  · rw [h.1] at ht; simp at ht
  · rw [h] at ht; simp at ht
  · linarith

/-- C19, what is true for every collinear triple: a finite non-zero curvature is never produced. -/
theorem C19_no_finite_curvature (x1 y1 z1 x2 y2 z2 x3 y3 z3 : ℝ) (tp : TP) (bw : Bool)
    (hc : (x2 - x1) * (y3 - y1) - (y2 - y1) * (x3 - x1) = 0) (om : ℝ) (hom : om ≠ 0) :
    (calculateStartHelix (V3.re x1 y1 z1) (V3.re x2 y2 z2) (V3.re x3 y3 z3) tp bw).hp OMEGA ≠ fin om := by
  intro h
  rcases startHelix_collinear x1 y1 z1 x2 y2 z2 x3 y3 z3 tp bw hc with h' | ⟨h', -⟩
  · rw [h] at h'; exact (fin_ne_nan _) h'.1
  · rw [h, fin_inj] at h'; exact hom h'

/-- C19 as stated is false: whenever the first point is strictly between the other two (in the
transverse plane), a straight track with tan(lambda) = 0 results, whatever the z coordinates. -/
theorem C19_false (x1 y1 z1 x2 y2 z2 x3 y3 z3 : ℝ) (tp : TP) (bw : Bool)
    (hc : (x2 - x1) * (y3 - y1) - (y2 - y1) * (x3 - x1) = 0)
    (hd : (x2 - x1) * (x3 - x1) + (y2 - y1) * (y3 - y1) < 0) :
    let t := calculateStartHelix (V3.re x1 y1 z1) (V3.re x2 y2 z2) (V3.re x3 y3 z3) tp bw
    t.hp OMEGA = fin 0 ∧ t.hp TANL = fin 0 := by
  intro t
  rcases startHelix_collinear x1 y1 z1 x2 y2 z2 x3 y3 z3 tp bw hc with ⟨-, -, h⟩ | ⟨h1, ⟨h, -⟩ | ⟨-, h⟩⟩
  · exfalso
    rcases h with ⟨h, h'⟩ | ⟨h, h'⟩ | ⟨h, h'⟩
    · rw [h, h'] at hd; simp at hd
    · rw [h, h'] at hd; simp at hd
    · rw [h, h'] at hd; nlinarith [mul_self_nonneg (x2 - x1), mul_self_nonneg (y2 - y1)]
  · linarith
  · exact ⟨h1, h⟩

/-- both kinds of collinear triples exist -/
example : ((1 : ℝ) - 0) * (2 - 0) - (1 - 0) * (2 - 0) = 0 ∧ (0 : ℝ) ≤ (1 - 0) * (2 - 0) + (1 - 0) * (2 - 0) ∧
    ((-1 : ℝ) - 0) * (1 - 0) - (-1 - 0) * (1 - 0) = 0 ∧ ((-1 : ℝ) - 0) * (1 - 0) + (-1 - 0) * (1 - 0) < 0 := by
  norm_num

end Verif
