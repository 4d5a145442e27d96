import Verif.Lemmas.RoundedPlane
import Verif.Props.RoundedCylinder
import Verif.Props.RoundedCircles

/-!
# Crossings with planes parallel to z in double precision: the computed candidates
-/

open Classical

noncomputable section

namespace Verif

open Dbl Rnd Spec Rounded

variable {fl : ℝ → ℝ} {lm : Libm} {at2 : ℝ → ℝ → ℝ}

section
variable {A K a b r n0 n1 d0 cx cy R dd : ℝ}

/-- a computed point (X, Y) and the circle with centre (cx, cy) and radius R and the line n0 x + n1 y = dd: next to the foot of the
perpendicular plus or minus `q` along the line, next to the line, next to the circle -/
structure NearCross (A K cx cy R n0 n1 dd q σ X Y : ℝ) : Prop where
  px : |X - (cx + (n0 * (dd - (n0 * cx + n1 * cy)) + σ * (n1 * q)) * (1 / (n0 ^ 2 + n1 ^ 2)))| ≤ 101 * (1 / 2 ^ 53) * K
  py : |Y - (cy + (n1 * (dd - (n0 * cx + n1 * cy)) + -σ * (n0 * q)) * (1 / (n0 ^ 2 + n1 ^ 2)))| ≤ 101 * (1 / 2 ^ 53) * K
  line : |n0 * X + n1 * Y - dd| ≤ 202 * (1 / 2 ^ 53) * (A * K)
  circ : |(X - cx) ^ 2 + (Y - cy) ^ 2 - R ^ 2| ≤ 640 * (1 / 2 ^ 53) * K ^ 2

theorem abs_unit {x B : ℝ} (hB : 0 < B) : |x| ≤ B ↔ |x / B| ≤ 1 := by
  rw [abs_div, abs_of_pos hB, div_le_one hB]

theorem near_unit {x y B c : ℝ} (hB : 0 < B) : |x - y| ≤ c * B ↔ |x / B - y / B| ≤ c := by
  rw [← sub_div, abs_div, abs_of_pos hB, div_le_iff₀ hB]

/-- the discriminant of the computed circle and line -/
theorem line_disc (h : NearestF 53 1074 fl) (hr : CrossRange A K a b r n0 n1 d0) (h1 : |a - cx| ≤ 3 * (1 / 2 ^ 53) * K)
    (h2 : |b - cy| ≤ 3 * (1 / 2 ^ 53) * K) (h3 : |r - R| ≤ 3 * (1 / 2 ^ 53) * K) (h4 : |d0 - dd| ≤ 3 * (1 / 2 ^ 53) * (A * K)) {S D N disc : ℝ}
    (hS : S = fl (fl (n0 * a) + fl (n1 * b))) (hD : D = fl (d0 - S)) (hN : N = fl (fl (n0 * n0) + fl (n1 * n1)))
    (hd : disc = fl (fl (fl (r * r) * N) - fl (D * D))) :
    |D / (A * K) - (dd / (A * K) - (n0 / A * (cx / K) + n1 / A * (cy / K)))| ≤ 18 * (1 / 2 ^ 53) ∧
    |disc / (A * K) ^ 2 - ((R / K) ^ 2 * ((n0 ^ 2 + n1 ^ 2) / A ^ 2) - (dd / (A * K) - (n0 / A * (cx / K) + n1 / A * (cy / K))) ^ 2)| ≤
      175 * (1 / 2 ^ 53) := by
  have A0 : 0 < A := lt_of_lt_of_le (by positivity) hr.A1
  have M0 : 0 < K := lt_of_lt_of_le (by positivity) hr.M1
  have AM0 := mul_pos A0 M0
  obtain ⟨c1, c2, c3, c4, c5⟩ := cross_disc h hr hS hD hN hd
  have u0 : (0 : ℝ) ≤ 1 / 2 ^ 53 := by positivity
  have u1 : (1 : ℝ) / 2 ^ 53 ≤ 1 / 1000000 := by norm_num
  have e1 : (d0 - (n0 * a + n1 * b)) / (A * K) = d0 / (A * K) - (n0 / A * (a / K) + n1 / A * (b / K)) := by field_simp
  have e2 : clDisc a b r n0 n1 d0 / (A * K) ^ 2 = r / K * (r / K) * ((n0 ^ 2 + n1 ^ 2) / A ^ 2) -
      (d0 / (A * K) - (n0 / A * (a / K) + n1 / A * (b / K))) * (d0 / (A * K) - (n0 / A * (a / K) + n1 / A * (b / K))) := by
    rw [← e1, clDisc]
    field_simp
  rw [e1] at c1 c3
  rw [e2] at c5
  have n2 : |(n0 ^ 2 + n1 ^ 2) / A ^ 2| ≤ 2 := by
    rw [abs_of_nonneg (by positivity), div_le_iff₀ (by positivity)]
    have k2 := sq_le_sq' (abs_le.1 hr.hn0).1 (abs_le.1 hr.hn0).2
    have k3 := sq_le_sq' (abs_le.1 hr.hn1).1 (abs_le.1 hr.hn1).2
    linarith
  have key := plane_disc u0 u1 ((abs_unit A0).1 hr.hn0) ((abs_unit A0).1 hr.hn1) n2 ((abs_unit M0).1 hr.hr) ((near_unit M0).1 h1)
    ((near_unit M0).1 h2) ((near_unit M0).1 h3) ((near_unit AM0).1 h4) c1 c3 c5
  exact ⟨key.1, key.2.2⟩

/-- one of the computed points -/
theorem line_point (h : NearestF 53 1074 fl) (hr : CrossRange A K a b r n0 n1 d0) (h1 : |a - cx| ≤ 3 * (1 / 2 ^ 53) * K)
    (h2 : |b - cy| ≤ 3 * (1 / 2 ^ 53) * K) (h3 : |r - R| ≤ 3 * (1 / 2 ^ 53) * K) (hR : |R| ≤ K) (h4 : |d0 - dd| ≤ 3 * (1 / 2 ^ 53) * (A * K))
    {S D N disc q i X Y σ : ℝ}
    (hS : S = fl (fl (n0 * a) + fl (n1 * b))) (hD : D = fl (d0 - S)) (hN : N = fl (fl (n0 * n0) + fl (n1 * n1)))
    (hd : disc = fl (fl (fl (r * r) * N) - fl (D * D))) (pd : 0 ≤ disc) (hq : q = fl √disc) (hi : i = fl (1 / N)) (hσ : |σ| = 1)
    (hX : X = fl (a + fl (fl (fl (n0 * D) + σ * fl (n1 * q)) * i))) (hY : Y = fl (b + fl (fl (fl (n1 * D) + -σ * fl (n0 * q)) * i))) :
    |q ^ 2 - disc| ≤ 6 * (1 / 2 ^ 53) * (A * K) ^ 2 ∧ NearCross A K cx cy R n0 n1 dd q σ X Y := by
  have A0 : 0 < A := lt_of_lt_of_le (by positivity) hr.A1
  have M0 : 0 < K := lt_of_lt_of_le (by positivity) hr.M1
  have AM0 := mul_pos A0 M0
  have sAM := scale_mul hr.A1 hr.M1
  have sAA := scale_mul hr.A1 hr.A1
  have sAAM := scale_mul sAA hr.M1
  obtain ⟨c1, c2, c3, c4, c5⟩ := cross_disc h hr hS hD hN hd
  obtain ⟨l1, l2⟩ := line_disc (cx := cx) (cy := cy) (R := R) (dd := dd) h hr h1 h2 h3 h4 hS hD hN hd
  have u0 : (0 : ℝ) ≤ 1 / 2 ^ 53 := by positivity
  have u1 : (1 : ℝ) / 2 ^ 53 ≤ 1 / 1000000 := by norm_num
  have E : ∀ {t s B : ℝ} {n : ℕ}, 1 / 2 ^ n ≤ B → n ≤ 1000 → s = t / B → |fl t / B - s| ≤ 1 / 2 ^ 53 * (|s| + 1 / 1000) :=
    fun hB hn e => by rw [e]; exact scaled_err h (scale_mono hB hn)
  have n1' : 1 ≤ (n0 ^ 2 + n1 ^ 2) / A ^ 2 := by rw [le_div_iff₀ (by positivity), one_mul]; exact hr.hn
  have n2' : (n0 ^ 2 + n1 ^ 2) / A ^ 2 ≤ 2 := by
    rw [div_le_iff₀ (by positivity)]
    have k2 := sq_le_sq' (abs_le.1 hr.hn0).1 (abs_le.1 hr.hn0).2
    have k3 := sq_le_sq' (abs_le.1 hr.hn1).1 (abs_le.1 hr.hn1).2
    linarith
  have N0 : 0 < N := by
    have k := (abs_le.1 c4).1
    have : 0 < N / A ^ 2 := by
      have : 5 * ((1 : ℝ) / 2 ^ 53) < 1 := by norm_num
      linarith
    exact (div_pos_iff_of_pos_right (by positivity)).1 this
  have iA : 1 / 2 ^ 200 ≤ 1 / A ^ 2 := by
    refine one_div_le_one_div_of_le (by positivity) ?_
    have := pow_le_pow_left₀ A0.le hr.A2 2
    rwa [← pow_mul] at this
  obtain ⟨i1, i2, -⟩ := inv_error (i := i / (1 / A ^ 2)) u0 u1 n1' c4 (by rw [hi]; exact E iA (by norm_num) (by field_simp))
  have rt : ∀ t : ℝ, √(t / (A * K) ^ 2) = √t / (A * K) := fun t => by
    rw [Real.sqrt_div' _ (by positivity), Real.sqrt_sq AM0.le]
  have d94 : disc / (A * K) ^ 2 ≤ 9 / 4 := by
    have k := (abs_le.1 l2).2
    have k1 := sq_nonneg (dd / (A * K) - (n0 / A * (cx / K) + n1 / A * (cy / K)))
    have k2 : (R / K) ^ 2 * ((n0 ^ 2 + n1 ^ 2) / A ^ 2) ≤ 1 * 2 := by
      refine mul_le_mul ?_ n2' (by positivity) (by norm_num)
      have := abs_le.1 ((abs_unit M0).1 hR)
      nlinarith
    have k3 : 175 * ((1 : ℝ) / 2 ^ 53) ≤ 1 / 4 := by norm_num
    linarith
  obtain ⟨q1, q2⟩ := plane_root (q := q / (A * K)) u0 u1 (show 0 ≤ disc / (A * K) ^ 2 by positivity) d94
    (by rw [hq]; exact E sAM (by norm_num) (rt disc))
  have q3 : |(q / (A * K)) ^ 2 - ((R / K) ^ 2 * ((n0 ^ 2 + n1 ^ 2) / A ^ 2) - (dd / (A * K) - (n0 / A * (cx / K) + n1 / A * (cy / K))) ^ 2)| ≤
      181 * (1 / 2 ^ 53) := (near_trans q1 l2).trans (by linarith)
  have p1 := line_coord (T := fl (fl (n0 * D) + σ * fl (n1 * q)) / (A * A * K)) (X := X / K) u0 u1 ((abs_unit A0).1 hr.hn0) ((abs_unit A0).1 hr.hn1)
    ((abs_unit M0).1 hr.ha) c2 q2 i1 i2 hσ
    (E (t := n0 * D) sAAM (by norm_num) (by field_simp)) (E (t := n1 * q) sAAM (by norm_num) (by field_simp))
    (E sAAM (by norm_num) (by field_simp)) (E (t := fl (fl (n0 * D) + σ * fl (n1 * q)) * i) hr.M1 (by norm_num) (by field_simp))
    (by rw [hX]; exact E hr.M1 (by norm_num) (by field_simp))
  have p2 := line_coord (σ := -σ) (T := fl (fl (n1 * D) + -σ * fl (n0 * q)) / (A * A * K)) (X := Y / K) u0 u1 ((abs_unit A0).1 hr.hn1) ((abs_unit A0).1 hr.hn0)
    ((abs_unit M0).1 hr.hb) c2 q2 i1 i2 (by rw [abs_neg, hσ])
    (E (t := n1 * D) sAAM (by norm_num) (by field_simp)) (E (t := n0 * q) sAAM (by norm_num) (by field_simp))
    (E sAAM (by norm_num) (by field_simp)) (E (t := fl (fl (n1 * D) + -σ * fl (n0 * q)) * i) hr.M1 (by norm_num) (by field_simp))
    (by rw [hY]; exact E hr.M1 (by norm_num) (by field_simp))
  obtain ⟨g1, g2, g3, g4⟩ := plane_near u0 u1 ((abs_unit A0).1 hr.hn0) ((abs_unit A0).1 hr.hn1) (by field_simp) n1' ((abs_unit M0).1 hR)
    ((near_unit M0).1 h1) ((near_unit M0).1 h2) hσ l1 q3 p1 p2
  have n2 : 0 < n0 ^ 2 + n1 ^ 2 := lt_of_lt_of_le (by positivity) hr.hn
  refine ⟨?_, ?_, ?_, ?_, ?_⟩
  · rw [near_unit (by positivity), ← div_pow]
    exact q1
  · rw [near_unit M0]
    refine le_of_eq_of_le (congrArg _ (congrArg _ ?_)) g1
    field_simp
  · rw [near_unit M0]
    refine le_of_eq_of_le (congrArg _ (congrArg _ ?_)) g2
    field_simp
  · rw [near_unit AM0]
    refine le_of_eq_of_le (congrArg _ (congrArg₂ _ ?_ rfl)) g3
    field_simp
  · rw [near_unit (by positivity)]
    refine le_of_eq_of_le (congrArg _ (congrArg₂ _ ?_ ?_)) g4 <;> field_simp

/-- the computed points of a circle and a line -/
theorem line_candidates (h : NearestF 53 1074 fl) (hr : CrossRange A K a b r n0 n1 d0) (h1 : |a - cx| ≤ 3 * (1 / 2 ^ 53) * K)
    (h2 : |b - cy| ≤ 3 * (1 / 2 ^ 53) * K) (h3 : |r - R| ≤ 3 * (1 / 2 ^ 53) * K) (hR : |R| ≤ K) (h4 : |d0 - dd| ≤ 3 * (1 / 2 ^ 53) * (A * K)) :
    ∃ disc q X1 Y1 X2 Y2 : ℝ, |disc - clDisc cx cy R n0 n1 dd| ≤ 175 * (1 / 2 ^ 53) * (A * K) ^ 2 ∧
      ((disc < 0 ∧ (Rnd.intersectCircleStraightLine fl ⟨fin a, fin b, fin r⟩ ⟨fin n0, fin n1, fin d0⟩ = [] ∧ 9 / 10 ^ 10 ≤ -disc ∨
          Rnd.intersectCircleStraightLine fl ⟨fin a, fin b, fin r⟩ ⟨fin n0, fin n1, fin d0⟩ = [(nan, nan)] ∧ -disc ≤ 11 / 10 ^ 10)) ∨
        (0 ≤ disc ∧ 0 ≤ q ∧ |q ^ 2 - disc| ≤ 6 * (1 / 2 ^ 53) * (A * K) ^ 2 ∧
          NearCross A K cx cy R n0 n1 dd q 1 X1 Y1 ∧ NearCross A K cx cy R n0 n1 dd q (-1) X2 Y2 ∧
          (Rnd.intersectCircleStraightLine fl ⟨fin a, fin b, fin r⟩ ⟨fin n0, fin n1, fin d0⟩ = [(fin X1, fin Y1)] ∧ disc ≤ 11 / 10 ^ 10 ∨
            Rnd.intersectCircleStraightLine fl ⟨fin a, fin b, fin r⟩ ⟨fin n0, fin n1, fin d0⟩ = [(fin X1, fin Y1), (fin X2, fin Y2)] ∧
              9 / 10 ^ 10 ≤ disc))) := by
  obtain ⟨S, hS⟩ : ∃ t, t = fl (fl (n0 * a) + fl (n1 * b)) := ⟨_, rfl⟩
  obtain ⟨D, hD⟩ : ∃ t, t = fl (d0 - S) := ⟨_, rfl⟩
  obtain ⟨N, hN⟩ : ∃ t, t = fl (fl (n0 * n0) + fl (n1 * n1)) := ⟨_, rfl⟩
  obtain ⟨disc, hd⟩ : ∃ t, t = fl (fl (fl (r * r) * N) - fl (D * D)) := ⟨_, rfl⟩
  obtain ⟨q, hq⟩ : ∃ t, t = fl √disc := ⟨_, rfl⟩
  obtain ⟨i, hi⟩ : ∃ t, t = fl (1 / N) := ⟨_, rfl⟩
  obtain ⟨v1, v2, v3, zD, zdisc⟩ := cross_values h hr hS hD hN hd
  obtain ⟨c1, c2, c3, c4, c5⟩ := cross_disc h hr hS hD hN hd
  obtain ⟨-, l2⟩ := line_disc (cx := cx) (cy := cy) (R := R) (dd := dd) h hr h1 h2 h3 h4 hS hD hN hd
  obtain ⟨t1, t2, t3⟩ := tinyD_eq h
  have A0 : 0 < A := lt_of_lt_of_le (by positivity) hr.A1
  have M0 : 0 < K := lt_of_lt_of_le (by positivity) hr.M1
  have B0 : 0 < (A * K) ^ 2 := by positivity
  have n2 : 0 < n0 ^ 2 + n1 ^ 2 := lt_of_lt_of_le (by positivity) hr.hn
  have Rd : ∀ {t : ℝ} {n : ℕ}, |t| ≤ 2 ^ n → n ≤ 1000 → rnd fl 1024 (fin t) = fin (fl t) := fun ht hn => rnd_double h (size_mono ht hn)
  have Nlow : 1 / 2 ^ 201 ≤ N := by
    have k1 := (abs_le.1 c4).1
    have k2 : 1 ≤ (n0 ^ 2 + n1 ^ 2) / A ^ 2 := by rw [le_div_iff₀ (by positivity), one_mul]; exact hr.hn
    have k3 : 1 / 2 ≤ N / A ^ 2 := by
      have : 5 * ((1 : ℝ) / 2 ^ 53) ≤ 1 / 2 := by norm_num
      linarith
    rw [le_div_iff₀ (by positivity)] at k3
    have k4 := scale_mul hr.A1 hr.A1
    refine le_trans ?_ k3
    rw [show (2 : ℝ) ^ 201 = 2 * 2 ^ (100 + 100) by rw [← pow_succ'], ← one_div_mul_one_div, pow_two]
    exact mul_le_mul_of_nonneg_left k4 (by norm_num)
  have N0 : 0 < N := lt_of_lt_of_le (by positivity) Nlow
  have z3 : |1 / N| ≤ 2 ^ 201 := by
    rw [abs_of_pos (by positivity), div_le_iff₀ N0]
    rwa [div_le_iff₀ (by positivity), mul_comm] at Nlow
  have hΔ : |disc - clDisc cx cy R n0 n1 dd| ≤ 175 * (1 / 2 ^ 53) * (A * K) ^ 2 := by
    rw [near_unit B0]
    refine le_of_eq_of_le (congrArg _ (congrArg _ ?_)) l2
    rw [clDisc]
    field_simp
  have one : divD fl 1 (fin N) = fin i := by
    rw [one_eq, divD, fin_div _ N0.ne', Rd z3 (by norm_num), ← hi]
  rcases lt_or_ge disc 0 with neg | pos
  · refine ⟨disc, 0, 0, 0, 0, 0, hΔ, .inl ⟨neg, ?_⟩⟩
    by_cases big : fl (1 / 10 ^ 9) < |disc|
    · refine .inl ⟨?_, ?_⟩
      · simp only [Rnd.intersectCircleStraightLine, v1, v2, v3, t1, zero_eq, fin_lt, abs_fin, neg, big, and_self, cif_true]
      · rw [abs_of_neg neg] at big
        linarith
    · refine .inr ⟨?_, ?_⟩
      · have sq : sqrtD fl (fin disc) = nan := by rw [sqrtD, sqrt_neg neg]; rfl
        have m : ∀ t, mulD fl t nan = nan := fun t => by rw [mulD, mul_nan]; rfl
        have m' : ∀ t, mulD fl nan t = nan := fun t => by rw [mulD, nan_mul]; rfl
        have p : ∀ t, addD fl t nan = nan := fun t => by rw [addD, add_nan]; rfl
        have s : ∀ t, subD fl t nan = nan := fun t => by rw [subD, sub_nan]; rfl
        simp only [Rnd.intersectCircleStraightLine, v1, v2, v3, t1, zero_eq, fin_lt, fin_le, abs_fin, big, and_false, cif_false, not_lt.1 big, cif_true,
          sq, one, m, m', p, s]
      · rw [abs_of_neg neg] at big
        linarith
  -- sizes
  have z1 : |√disc| ≤ 2 ^ 421 := by
    rw [abs_of_nonneg (Real.sqrt_nonneg _)]
    refine (Real.sqrt_le_left (by positivity)).2 (le_trans ((le_abs_self _).trans zdisc) ?_)
    rw [← pow_mul]
    exact pow_le_pow_right₀ (by norm_num) (by norm_num)
  have z2 := size_fl h z1
  have z4 := size_fl h z3
  rw [← hq] at z2
  rw [← hi] at z4
  have q0 : 0 ≤ q := by
    have := (abs_le.1 (h.near (√disc) 0 repF_zero)).1
    rw [zero_sub, abs_neg, abs_of_nonneg (Real.sqrt_nonneg _), ← hq] at this
    linarith
  have x1 := hr.hn0.trans hr.A2
  have x2 := hr.hn1.trans hr.A2
  have x3 := hr.ha.trans hr.M2
  have x4 := hr.hb.trans hr.M2
  have p1 := size_mul x1 zD
  have p2 := size_mul x2 zD
  have p3 := size_mul x1 z2
  have p4 := size_mul x2 z2
  have p1' := size_mono (size_fl h p1) (n := 525) (by norm_num)
  have p2' := size_mono (size_fl h p2) (n := 525) (by norm_num)
  have p3' := size_fl h p3
  have p4' := size_fl h p4
  have a1 := size_add p1' p4'
  have a2 := size_sub p2' p3'
  have a3 := size_sub p1' p4'
  have a4 := size_add p2' p3'
  have b1 := size_mul (size_fl h a1) z4
  have b2 := size_mul (size_fl h a2) z4
  have b3 := size_mul (size_fl h a3) z4
  have b4 := size_mul (size_fl h a4) z4
  have e1 := size_add (size_mono x3 (by norm_num)) (size_fl h b1)
  have e2 := size_add (size_mono x4 (by norm_num)) (size_fl h b2)
  have e3 := size_add (size_mono x3 (by norm_num)) (size_fl h b3)
  have e4 := size_add (size_mono x4 (by norm_num)) (size_fl h b4)
  obtain ⟨w1, w2⟩ := line_point (cx := cx) (cy := cy) (dd := dd) h hr h1 h2 h3 hR h4 hS hD hN hd pos hq hi (σ := 1) (by norm_num) rfl rfl
  obtain ⟨-, w3⟩ := line_point (cx := cx) (cy := cy) (dd := dd) h hr h1 h2 h3 hR h4 hS hD hN hd pos hq hi (σ := -1) (by norm_num) rfl rfl
  rw [one_mul, neg_one_mul, ← sub_eq_add_neg] at w2
  rw [neg_one_mul, neg_neg, one_mul, ← sub_eq_add_neg] at w3
  refine ⟨disc, q, _, _, _, _, hΔ, .inr ⟨pos, q0, w1, w2, w3, ?_⟩⟩
  have nd : ¬ (disc < 0 ∧ fl (1 / 10 ^ 9) < |disc|) := fun q => absurd q.1 (not_lt.2 pos)
  have sq : sqrtD fl (fin disc) = fin q := by
    rw [sqrtD, sqrt_fin pos, Rd z1 (by norm_num), ← hq]
  by_cases big : |disc| ≤ fl (1 / 10 ^ 9)
  · refine .inl ⟨?_, ?_⟩
    · simp only [Rnd.intersectCircleStraightLine, v1, v2, v3, t1, zero_eq, fin_lt, fin_le, abs_fin, nd, one, sq, cif_false, big, cif_true]
      simp only [mulD, addD, subD, fin_mul, fin_add, fin_sub, Rd p1 (by norm_num), Rd p2 (by norm_num), Rd p3 (by norm_num), Rd p4 (by norm_num),
        Rd a1 (by norm_num), Rd a2 (by norm_num), Rd b1 (by norm_num), Rd b2 (by norm_num), Rd e1 (by norm_num), Rd e2 (by norm_num)]
    · rw [abs_of_nonneg pos] at big
      linarith
  · refine .inr ⟨?_, ?_⟩
    · simp only [Rnd.intersectCircleStraightLine, v1, v2, v3, t1, zero_eq, fin_lt, fin_le, abs_fin, nd, one, sq, cif_false, big]
      simp only [mulD, addD, subD, fin_mul, fin_add, fin_sub, Rd p1 (by norm_num), Rd p2 (by norm_num), Rd p3 (by norm_num), Rd p4 (by norm_num),
        Rd a1 (by norm_num), Rd a2 (by norm_num), Rd a3 (by norm_num), Rd a4 (by norm_num), Rd b1 (by norm_num), Rd b2 (by norm_num),
        Rd b3 (by norm_num), Rd b4 (by norm_num), Rd e1 (by norm_num), Rd e2 (by norm_num), Rd e3 (by norm_num), Rd e4 (by norm_num)]
    · rw [abs_of_nonneg pos] at big
      linarith

end

/-- the size of a track and of a plane parallel to z with the origin (ox, oy, .) and the normal (n0, n1, 0): lengths up to `M`, a normal of
length 1 up to half a percent, and a normal that does not point to the side of the origin of the coordinates (else the code takes the plane
on the other side, C33_false) -/
structure PlaneRange (M d rx ry n0 n1 ox oy : ℝ) : Prop where
  M1 : 1 / 2 ^ 90 ≤ M
  M2 : M ≤ 2 ^ 90
  hd : |d| ≤ M
  hrx : |rx| ≤ M
  hry : |ry| ≤ M
  hox : |ox| ≤ M
  hoy : |oy| ≤ M
  hn1 : 99 / 100 ≤ n0 ^ 2 + n1 ^ 2
  hn2 : n0 ^ 2 + n1 ^ 2 ≤ 101 / 100
  side : 0 ≤ ox * n0 + oy * n1

section
variable {M om tl ph d z rx ry rz n0 n1 ox oy oz L : ℝ}

theorem PlaneRange.comp (hr : PlaneRange M d rx ry n0 n1 ox oy) : |n0| ≤ 201 / 200 ∧ |n1| ≤ 201 / 200 := by
  have h2 := hr.hn2
  constructor <;> refine abs_le_of_sq_le_sq (a := _) ?_ (by norm_num) <;> nlinarith [sq_nonneg n0, sq_nonneg n1]

/-- the larger component of the normal -/
theorem PlaneRange.max (hr : PlaneRange M d rx ry n0 n1 ox oy) :
    ∃ A, |n0| ≤ A ∧ |n1| ≤ A ∧ A ^ 2 ≤ n0 ^ 2 + n1 ^ 2 ∧ 7 / 10 ≤ A ∧ A ≤ 201 / 200 ∧ (A = |n0| ∨ A = |n1|) := by
  obtain ⟨c0, c1⟩ := hr.comp
  have h1 := hr.hn1
  have s0 := sq_abs n0
  have s1 := sq_abs n1
  have a0 := abs_nonneg n0
  have a1 := abs_nonneg n1
  rcases le_total |n0| |n1| with hle | hle
  · exact ⟨|n1|, hle, le_rfl, by rw [s1]; nlinarith, by nlinarith, c1, .inr rfl⟩
  · exact ⟨|n0|, le_rfl, hle, by rw [s0]; nlinarith, by nlinarith, c0, .inl rfl⟩

/-- the distance of the plane -/
theorem plane_dist (h : NearestF 53 1074 fl) (hr : PlaneRange M d rx ry n0 n1 ox oy) (l1 : 1 / 2 ^ 91 ≤ L) (l2 : L ≤ 2 ^ 91) (hM : M ≤ L) (oz : ℝ) :
    ∃ d0, Dbl.abs (dotV fl (V3.re ox oy oz) (V3.re n0 n1 0)) = fin d0 ∧ 0 ≤ d0 ∧ |d0 - (ox * n0 + oy * n1)| ≤ 61 / 10 * (L * (1 / 2 ^ 53)) := by
  obtain ⟨c0, c1⟩ := hr.comp
  have x1 : Ap 91 L (fin ox) (fin ox) 1 0 := Ap.given l1 l2 (by rw [one_mul]; exact hr.hox.trans hM)
  have x2 : Ap 91 L (fin oy) (fin oy) 1 0 := Ap.given l1 l2 (by rw [one_mul]; exact hr.hoy.trans hM)
  have m1 := Ap.mull h x1 (Ap.unit c0) (by norm_num) (by norm_num) (by norm_num) (by norm_num)
  have m2 := Ap.mull h x2 (Ap.unit c1) (by norm_num) (by norm_num) (by norm_num) (by norm_num)
  have z0 : mulD fl (fin oz) (fin 0) = fin 0 := by rw [mulD, fin_mul, mul_zero]; exact rnd_exact h repF_zero (by norm_num)
  have m3 : Ap 91 L (mulD fl (fin oz) (fin 0)) (fin 0) 0 0 := by
    rw [z0]
    exact Ap.given l1 l2 (by simp)
  have a1 := Ap.add h m1 m2 (by norm_num) (by norm_num) (by norm_num)
  have a2 := (Ap.add h a1 m3 (by norm_num) (by norm_num) (by norm_num)).mono (B' := 3) (e' := 61 / 10) (by norm_num) (by norm_num)
  obtain ⟨t, x, e1, e2, e3, -⟩ := a2.val
  rw [fin_mul, fin_mul, fin_add, fin_add, add_zero] at e2
  injection e2 with e2
  refine ⟨|t|, ?_, abs_nonneg t, ?_⟩
  · show Dbl.abs (addD fl (addD fl (mulD fl (fin ox) (fin n0)) (mulD fl (fin oy) (fin n1))) (mulD fl (fin oz) (fin 0))) = _
    rw [e1, abs_fin]
  · rw [← e2] at e3
    refine le_trans ?_ e3
    nth_rw 1 [← abs_of_nonneg hr.side]
    exact abs_abs_sub_abs_le t _

/-- radius and centre of the track -/
theorem plane_circle (h : NearestF 53 1074 fl) (hl : IsLibm lm) (hr : PlaneRange M d rx ry n0 n1 ox oy) (o1 : 1 / 2 ^ 90 ≤ |om|) (o2 : |om| ≤ 2 ^ 90)
    (eL : L = M + 1 / |om|) (l1 : 1 / 2 ^ 91 ≤ L) (l2 : L ≤ 2 ^ 91) (tl ph z rz : ℝ) :
    ∃ a b r, Rnd.calculateXCenter fl lm (hpR om tl ph d z) (V3.re rx ry rz) = fin a ∧
      Rnd.calculateYCenter fl lm (hpR om tl ph d z) (V3.re rx ry rz) = fin b ∧ Rnd.calculateRadius fl (hpR om tl ph d z) = fin r ∧ 0 ≤ r ∧
      |a - (rx + (1 / om - d) * Real.sin ph)| ≤ 81 / 10 * (L * (1 / 2 ^ 53)) ∧
      |b - (ry - (1 / om - d) * Real.cos ph)| ≤ 81 / 10 * (L * (1 / 2 ^ 53)) ∧ |r - (|1 / om|)| ≤ 81 / 10 * (L * (1 / 2 ^ 53)) ∧
      |rx + (1 / om - d) * Real.sin ph| ≤ 2 * L ∧ |ry - (1 / om - d) * Real.cos ph| ≤ 2 * L := by
  have o0 : 0 < |om| := lt_of_lt_of_le (by positivity) o1
  have om0 : om ≠ 0 := abs_pos.1 o0
  have hoL : 1 / |om| ≤ L := by
    have := lt_of_lt_of_le (by positivity) hr.M1
    linarith
  have hML : M ≤ L := by
    have : 0 < 1 / |om| := by positivity
    linarith
  have i1 : |1 / om| = 1 / |om| := by rw [abs_div, abs_one]
  have f1 := Ap.divr h (Ap.unit (x := 1) (B := 1) (by norm_num)) (Ap.given (x := om) (B := 1) o1 o2 (by rw [one_mul])) rfl le_rfl (by norm_num) (by norm_num)
    (by norm_num) (by norm_num)
  have f2 := f1.rescale (c := 1) (T := L) (by rwa [one_mul]) l1 l2
  have gd : Ap 91 L (fin d) (fin d) 1 0 := Ap.given l1 l2 (by rw [one_mul]; exact hr.hd.trans hML)
  have bd : |1 / om - d| ≤ 1 * L := by
    rw [one_mul, eL]
    refine (abs_sub _ _).trans ?_
    rw [i1]
    linarith [hr.hd]
  have f3 := Ap.subB h f2 gd (D := 1) (fun x hx => by
    rw [fin_div _ om0, fin_sub] at hx
    injection hx with hx
    rw [← hx]
    exact bd) (by norm_num) (by norm_num) (by norm_num)
  have gs := Ap.sin hl (Ap.unit (x := ph) le_rfl)
  have gc := Ap.cos hl (Ap.unit (x := ph) le_rfl)
  have f4 := Ap.mull h f3 gs (by norm_num) (by norm_num) (by norm_num) (by norm_num)
  have f5 := Ap.mull h f3 gc (by norm_num) (by norm_num) (by norm_num) (by norm_num)
  have gx : Ap 91 L (fin rx) (fin rx) 1 0 := Ap.given l1 l2 (by rw [one_mul]; exact hr.hrx.trans hML)
  have gy : Ap 91 L (fin ry) (fin ry) 1 0 := Ap.given l1 l2 (by rw [one_mul]; exact hr.hry.trans hML)
  have f6 := (Ap.add h gx f4 (by norm_num) (by norm_num) (by norm_num)).mono (B' := 2) (e' := 81 / 10) (by norm_num) (by norm_num)
  have f7 := (Ap.sub h gy f5 (by norm_num) (by norm_num) (by norm_num)).mono (B' := 2) (e' := 81 / 10) (by norm_num) (by norm_num)
  obtain ⟨a, ax, a1, a2, a3, a4⟩ := f6.val
  obtain ⟨b, bx, b1, b2, b3, b4⟩ := f7.val
  obtain ⟨r, rx', r1, r2, r3, -⟩ := (f2.mono (B' := 1) (e' := 81 / 10) (by norm_num) (by norm_num)).val
  rw [fin_div _ om0, fin_sub, sin_fin, fin_mul, fin_add] at a2
  rw [fin_div _ om0, fin_sub, cos_fin, fin_mul, fin_sub] at b2
  rw [fin_div _ om0] at r2
  injection a2 with a2
  injection b2 with b2
  injection r2 with r2
  rw [← a2] at a3 a4
  rw [← b2] at b3 b4
  rw [← r2] at r3
  have ne : ¬ Dbl.eqv (calculateOmega (hpR om tl ph d z)) 0 := by
    rw [zero_eq]
    show ¬ Dbl.eqv (fin om) (fin 0)
    rw [fin_eqv]
    exact om0
  have nc : ¬ Dbl.eqv (calculateCurvature (hpR om tl ph d z)) 0 := ne
  refine ⟨a, b, |r|, ?_, ?_, ?_, abs_nonneg r, a3, b3, (abs_abs_sub_abs_le _ _).trans r3, a4, b4⟩
  · unfold Rnd.calculateXCenter
    simp only [cif_neg ne, one_eq]
    exact a1
  · unfold Rnd.calculateYCenter
    simp only [cif_neg ne, one_eq]
    exact b1
  · unfold Rnd.calculateRadius
    simp only [cif_pos nc]
    have : divD fl 1 (calculateCurvature (hpR om tl ph d z)) = fin r := by rw [one_eq]; exact r1
    rw [this, abs_fin]

end

/-! ## geometry of circles and lines -/

section
variable {cx cy R n0 n1 dd ε : ℝ}

/-- a circle at a distance from a line -/
theorem circle_far (hR : 0 ≤ R) (hn : 0 < n0 ^ 2 + n1 ^ 2) (hε : 0 < ε)
    (hf : ∀ x y, (x - cx) ^ 2 + (y - cy) ^ 2 = R ^ 2 → ε ≤ |n0 * x + n1 * y - dd|) :
    clDisc cx cy R n0 n1 dd ≤ -(2 * ε * (R * √(n0 ^ 2 + n1 ^ 2))) := by
  have w0 := Real.sqrt_pos.2 hn
  have w2 := Real.mul_self_sqrt hn.le
  unfold clDisc
  obtain ⟨w, hw⟩ : ∃ w, w = √(n0 ^ 2 + n1 ^ 2) := ⟨_, rfl⟩
  rw [← hw] at w0 w2 ⊢
  obtain ⟨F, hF⟩ : ∃ F, F = dd - (n0 * cx + n1 * cy) := ⟨_, rfl⟩
  rw [← hF, ← w2]
  have Rw : 0 ≤ R * w := by positivity
  have foot : ∀ κ : ℝ, F ^ 2 + κ ^ 2 = R ^ 2 * (w * w) → ε ≤ 0 := fun κ hκ => by
    have k := hf (cx + (n0 * F + n1 * κ) / (w * w)) (cy + (n1 * F - n0 * κ) / (w * w)) (by
      field_simp
      linear_combination (n0 ^ 2 + n1 ^ 2) * hκ - R ^ 2 * w ^ 2 * w2)
    rw [show n0 * (cx + (n0 * F + n1 * κ) / (w * w)) + n1 * (cy + (n1 * F - n0 * κ) / (w * w)) - dd = 0 by
      have e : n0 * (cx + (n0 * F + n1 * κ) / (w * w)) + n1 * (cy + (n1 * F - n0 * κ) / (w * w)) - dd =
        (n0 ^ 2 + n1 ^ 2) * F / (w * w) - F := by rw [hF]; field_simp; ring
      rw [e, ← w2]
      field_simp
      ring, abs_zero] at k
    exact k
  have big : R * w + ε ≤ |F| := by
    rcases le_or_gt |F| (R * w) with hle | hlt
    · exfalso
      have k : 0 ≤ R ^ 2 * (w * w) - F ^ 2 := by
        have := sq_le_sq' (abs_le.1 hle).1 (abs_le.1 hle).2
        nlinarith
      have := foot (√(R ^ 2 * (w * w) - F ^ 2)) (by rw [Real.sq_sqrt k]; ring)
      linarith
    · have on : ∀ τ : ℝ, τ ^ 2 = 1 → ε ≤ |τ * (R * w) - F| := fun τ hτ => by
        have k := hf (cx + τ * R * n0 / w) (cy + τ * R * n1 / w) (by
          field_simp
          linear_combination R ^ 2 * (n0 ^ 2 + n1 ^ 2) * hτ - R ^ 2 * w2)
        have e : n0 * (cx + τ * R * n0 / w) + n1 * (cy + τ * R * n1 / w) - dd = τ * R * (n0 ^ 2 + n1 ^ 2) / w - F := by
          rw [hF]; field_simp; ring
        rw [e, ← w2, show τ * R * (w * w) / w = τ * (R * w) by field_simp] at k
        exact k
      rcases abs_cases F with ⟨e, -⟩ | ⟨e, -⟩
      · have k := on 1 (by norm_num)
        rw [one_mul, abs_of_neg (by linarith)] at k
        linarith
      · have k := on (-1) (by norm_num)
        rw [neg_one_mul, abs_of_pos (by linarith)] at k
        linarith
  rw [← sq_abs F]
  nlinarith

/-- a circle with points on both sides of a line -/
theorem circle_across (hR : 0 ≤ R) (hn : 0 < n0 ^ 2 + n1 ^ 2) (hε : 0 ≤ ε) {x1 y1 x2 y2 : ℝ} (h1 : (x1 - cx) ^ 2 + (y1 - cy) ^ 2 = R ^ 2)
    (h2 : (x2 - cx) ^ 2 + (y2 - cy) ^ 2 = R ^ 2) (k1 : n0 * x1 + n1 * y1 - dd ≤ -ε) (k2 : ε ≤ n0 * x2 + n1 * y2 - dd) :
    ε * (R * √(n0 ^ 2 + n1 ^ 2)) ≤ clDisc cx cy R n0 n1 dd := by
  have w0 := Real.sqrt_pos.2 hn
  have w2 := Real.mul_self_sqrt hn.le
  unfold clDisc
  obtain ⟨w, hw⟩ : ∃ w, w = √(n0 ^ 2 + n1 ^ 2) := ⟨_, rfl⟩
  rw [← hw] at w0 w2 ⊢
  obtain ⟨F, hF⟩ : ∃ F, F = dd - (n0 * cx + n1 * cy) := ⟨_, rfl⟩
  rw [← hF, ← w2]
  have Rw : 0 ≤ R * w := by positivity
  have cs : ∀ x y, (x - cx) ^ 2 + (y - cy) ^ 2 = R ^ 2 → |n0 * (x - cx) + n1 * (y - cy)| ≤ R * w := fun x y h => by
    refine abs_le_of_sq_le_sq ?_ Rw
    have : (R * w) ^ 2 = ((x - cx) ^ 2 + (y - cy) ^ 2) * (n0 ^ 2 + n1 ^ 2) := by rw [h, ← w2]; ring
    rw [this]
    nlinarith [sq_nonneg (n1 * (x - cx) - n0 * (y - cy))]
  have c1 := (abs_le.1 (cs _ _ h1)).1
  have c2 := (abs_le.1 (cs _ _ h2)).2
  have small : |F| ≤ R * w - ε := abs_le.2 ⟨by linarith, by linarith⟩
  have f0 := abs_nonneg F
  rw [← sq_abs F]
  nlinarith

end

/-! ## from the candidates to the reported crossing -/

/-- the part of `intersectWithZPlane` after the crossings of the circle and the line -/
def planeTail (fl : ℝ → ℝ) (lm : Libm) (at2 : ℝ → ℝ → ℝ) (surf : Surface) (hp : V5) (rp : V3) (s : Dbl) (xx : V3) (mode : ℤ)
    (checkBounds : Bool) : Intersections → Out Hit
  | [] => .ok ⟨false, s, xx⟩
  | [(X, Y)] =>
    let s := Rnd.calculateSfromXY fl lm at2 X Y hp rp
    let xx : V3 := ⟨X, Y, Rnd.calculateZfromS fl s hp rp⟩
    ifc modeOk mode s then .ok ⟨boundsOk surf checkBounds xx, s, xx⟩ else .ok ⟨false, s, xx⟩
  | (X0, Y0) :: (X1, Y1) :: _ =>
    let s0 := Rnd.calculateSfromXY fl lm at2 X0 Y0 hp rp
    let s1 := Rnd.calculateSfromXY fl lm at2 X1 Y1 hp rp
    let sol0 : V3 := ⟨X0, Y0, Rnd.calculateZfromS fl s0 hp rp⟩
    let sol1 : V3 := ⟨X1, Y1, Rnd.calculateZfromS fl s1 hp rp⟩
    match planeSelect mode s0 s1 with
    | none => .ok ⟨false, s, xx⟩
    | some true => .ok ⟨boundsOk surf checkBounds sol0, s0, sol0⟩
    | some false => .ok ⟨boundsOk surf checkBounds sol1, s1, sol1⟩

/-- a reported crossing is one of the candidates -/
theorem tail_found {surf : Surface} {hp : V5} {rp : V3} {s : Dbl} {xx : V3} {mode : ℤ} {cb : Bool} {l : Intersections} {hit : Hit}
    (hh : planeTail fl lm at2 surf hp rp s xx mode cb l = .ok hit) (hf : hit.found = true) :
    (hit.xx.x, hit.xx.y) ∈ l ∧ hit.s = Rnd.calculateSfromXY fl lm at2 hit.xx.x hit.xx.y hp rp ∧ hit.xx.z = Rnd.calculateZfromS fl hit.s hp rp ∧
      (cb = true → surf.insideBounds hit.xx = true) := by
  match l, hh with
  | [], hh =>
    injection hh with hh
    rw [← hh] at hf
    cases hf
  | [(X, Y)], hh =>
    simp only [planeTail, cif_eq] at hh
    split_ifs at hh with hm
    · injection hh with hh
      rw [← hh] at hf ⊢
      exact ⟨List.mem_singleton.2 rfl, rfl, rfl, fun hcb => by rw [hcb] at hf; exact hf⟩
    · injection hh with hh
      rw [← hh] at hf
      cases hf
  | (X0, Y0) :: (X1, Y1) :: l, hh =>
    simp only [planeTail] at hh
    cases hsel : planeSelect mode (Rnd.calculateSfromXY fl lm at2 X0 Y0 hp rp) (Rnd.calculateSfromXY fl lm at2 X1 Y1 hp rp) with
    | none =>
      rw [hsel] at hh
      injection hh with hh
      rw [← hh] at hf
      cases hf
    | some b =>
      rw [hsel] at hh
      cases b
      · injection hh with hh
        rw [← hh] at hf ⊢
        exact ⟨by simp, rfl, rfl, fun hcb => by rw [hcb] at hf; exact hf⟩
      · injection hh with hh
        rw [← hh] at hf ⊢
        exact ⟨by simp, rfl, rfl, fun hcb => by rw [hcb] at hf; exact hf⟩

theorem planeSelect_zero (s0 s1 : Dbl) : planeSelect 0 s0 s1 ≠ none := by
  simp only [planeSelect, cif_eq]
  split_ifs <;> simp at *

/-- without conditions on direction and bounds one of the candidates is reported -/
theorem tail_zero {surf : Surface} {hp : V5} {rp : V3} {s : Dbl} {xx : V3} {l : Intersections} (hl : l ≠ []) :
    ∃ hit, planeTail fl lm at2 surf hp rp s xx 0 false l = .ok hit ∧ hit.found = true := by
  match l, hl with
  | [(X, Y)], _ =>
    simp only [planeTail]
    rw [cif_pos (show modeOk 0 _ from Or.inr rfl)]
    exact ⟨_, rfl, rfl⟩
  | (X0, Y0) :: (X1, Y1) :: l, _ =>
    simp only [planeTail]
    cases hsel : planeSelect 0 (Rnd.calculateSfromXY fl lm at2 X0 Y0 hp rp) (Rnd.calculateSfromXY fl lm at2 X1 Y1 hp rp) with
    | none => exact absurd hsel (planeSelect_zero _ _)
    | some b => cases b <;> exact ⟨_, rfl, rfl⟩

section
variable {M om tl ph d z rx ry rz n0 n1 ox oy oz L : ℝ} {surf : Surface}

/-- the call of the crossings of circle and line -/
theorem plane_call (h : NearestF 53 1074 fl) (hr : PlaneRange M d rx ry n0 n1 ox oy) (hn : surf.normal V3.zero = V3.re n0 n1 0) {hp : V5} {rp : V3}
    {a b r d0 : ℝ} (r0 : 0 ≤ r) (p0 : 0 ≤ d0) (e1 : Rnd.calculateXCenter fl lm hp rp = fin a) (e2 : Rnd.calculateYCenter fl lm hp rp = fin b)
    (e3 : Rnd.calculateRadius fl hp = fin r) (e4 : Dbl.abs (dotV fl surf.origin (V3.re n0 n1 0)) = fin d0) (s : Dbl) (xx : V3) (mode : ℤ) (cb : Bool) :
    Rnd.intersectWithZPlane fl lm at2 surf hp rp s xx mode cb =
      planeTail fl lm at2 surf hp rp s xx mode cb (Rnd.intersectCircleStraightLine fl ⟨fin a, fin b, fin r⟩ ⟨fin n0, fin n1, fin d0⟩) := by
  obtain ⟨A, -, -, -, A1, -, hA⟩ := hr.max
  obtain ⟨t1, t2⟩ := tinyNormalD_eq h
  have m : makeLine fl (fin n0) (fin n1) (fin d0) = .ok ⟨fin n0, fin n1, fin d0⟩ := by
    unfold makeLine
    rw [t1, zero_eq, abs_fin, abs_fin, cif_neg (by rw [fin_lt]; exact not_lt.2 p0), cif_neg]
    rintro ⟨q1, q2⟩
    rw [fin_lt] at q1 q2
    have : (2 : ℝ) / 10 ^ 12 < 7 / 10 := by norm_num
    rcases hA with e | e <;> rw [e] at A1 <;> linarith
  have c : Circle.make (fin a) (fin b) (fin r) = .ok ⟨fin a, fin b, fin r⟩ := by
    unfold Circle.make
    rw [zero_eq, cif_neg (by rw [fin_lt]; exact not_lt.2 r0)]
  unfold Rnd.intersectWithZPlane
  rw [hn, e1, e2, e3, e4]
  show (makeLine fl (fin n0) (fin n1) (fin d0) >>= _) = _
  rw [m]
  show (Circle.make (fin a) (fin b) (fin r) >>= _) = _
  rw [c]
  simp only [Out.ok_bind]
  generalize Rnd.intersectCircleStraightLine fl ⟨fin a, fin b, fin r⟩ ⟨fin n0, fin n1, fin d0⟩ = l
  match l with
  | [] => rfl
  | [(X, Y)] => rfl
  | (X0, Y0) :: (X1, Y1) :: l => rfl

/-- the candidates for a track and a plane -/
theorem plane_step (h : NearestF 53 1074 fl) (hl : IsLibm lm) (hr : PlaneRange M d rx ry n0 n1 ox oy) (o1 : 1 / 2 ^ 90 ≤ |om|) (o2 : |om| ≤ 2 ^ 90)
    (eL : L = M + 1 / |om|) (hn : surf.normal V3.zero = V3.re n0 n1 0) (ho : surf.origin = V3.re ox oy oz) (tl ph z rz : ℝ) :
    ∃ (l : Intersections) (A disc q X1 Y1 X2 Y2 : ℝ), 0 < L ∧ |n0| ≤ A ∧ |n1| ≤ A ∧ 7 / 10 ≤ A ∧ A ≤ 201 / 200 ∧ A ^ 2 ≤ 101 / 100 ∧
      (∀ s xx mode cb, Rnd.intersectWithZPlane fl lm at2 surf (hpR om tl ph d z) (V3.re rx ry rz) s xx mode cb =
        planeTail fl lm at2 surf (hpR om tl ph d z) (V3.re rx ry rz) s xx mode cb l) ∧
      |disc - clDisc (rCx om ph d rx) (rCy om ph d ry) |1 / om| n0 n1 (ox * n0 + oy * n1)| ≤ 175 * (1 / 2 ^ 53) * (A * (3 * L)) ^ 2 ∧
      ((disc < 0 ∧ (l = [] ∧ 9 / 10 ^ 10 ≤ -disc ∨ l = [(nan, nan)] ∧ -disc ≤ 11 / 10 ^ 10)) ∨
        (0 ≤ disc ∧ 0 ≤ q ∧ |q ^ 2 - disc| ≤ 6 * (1 / 2 ^ 53) * (A * (3 * L)) ^ 2 ∧
          NearCross A (3 * L) (rCx om ph d rx) (rCy om ph d ry) |1 / om| n0 n1 (ox * n0 + oy * n1) q 1 X1 Y1 ∧
          NearCross A (3 * L) (rCx om ph d rx) (rCy om ph d ry) |1 / om| n0 n1 (ox * n0 + oy * n1) q (-1) X2 Y2 ∧
          (l = [(fin X1, fin Y1)] ∧ disc ≤ 11 / 10 ^ 10 ∨ l = [(fin X1, fin Y1), (fin X2, fin Y2)] ∧ 9 / 10 ^ 10 ≤ disc))) := by
  have o0 : 0 < |om| := lt_of_lt_of_le (by positivity) o1
  have M0 : 0 < M := lt_of_lt_of_le (by positivity) hr.M1
  have i0 : 0 < 1 / |om| := by positivity
  have i1 : 1 / |om| ≤ 2 ^ 90 := by
    rw [div_le_iff₀ o0]
    rwa [div_le_iff₀ (by positivity), mul_comm] at o1
  have l1 : 1 / 2 ^ 91 ≤ L := by
    have := scale_mono (n := 91) hr.M1 (by norm_num)
    linarith
  have l2 : L ≤ 2 ^ 91 := by
    rw [pow_succ]
    linarith [hr.M2]
  have L0 : 0 < L := lt_of_lt_of_le (by positivity) l1
  have hML : M ≤ L := by linarith
  have hoL : |1 / om| ≤ L := by rw [abs_div, abs_one]; linarith
  obtain ⟨A, A1, A2, A3, A4, A5, A6⟩ := hr.max
  have A0 : 0 < A := by linarith
  obtain ⟨d0, e4, p0, f4⟩ := plane_dist h hr l1 l2 hML oz
  obtain ⟨a, b, r, e1, e2, e3, r0, f1, f2, f3, g1, g2⟩ := plane_circle h hl hr o1 o2 eL l1 l2 tl ph z rz
  have u0 : (0 : ℝ) < 1 / 2 ^ 53 := by positivity
  have uL : L * ((1 : ℝ) / 2 ^ 53) ≤ 1 / 100 * L := by
    rw [mul_comm]
    exact mul_le_mul_of_nonneg_right (by norm_num) L0.le
  have uL0 : 0 < L * ((1 : ℝ) / 2 ^ 53) := by positivity
  have k1 : (81 : ℝ) / 10 * (L * (1 / 2 ^ 53)) ≤ 3 * (1 / 2 ^ 53) * (3 * L) := by linarith
  have k2 : (61 : ℝ) / 10 * (L * (1 / 2 ^ 53)) ≤ 3 * (1 / 2 ^ 53) * (A * (3 * L)) := by
    have := mul_le_mul_of_nonneg_right A4 uL0.le
    linarith
  have ddA : |ox * n0 + oy * n1| ≤ A * (2 * L) := by
    refine (abs_add_le _ _).trans ?_
    have j1 := abs_mul_le_of (hr.hox.trans hML) A1
    have j2 := abs_mul_le_of (hr.hoy.trans hML) A2
    linarith
  have cr : CrossRange A (3 * L) a b r n0 n1 d0 := by
    refine ⟨(show (1 : ℝ) / 2 ^ 100 ≤ 7 / 10 by norm_num).trans A4, A5.trans (by norm_num), ?_, ?_, A1, A2, A3, ?_, ?_, ?_, ?_⟩
    · have := scale_mono (n := 100) l1 (by norm_num)
      linarith
    · refine le_trans (show 3 * L ≤ 2 ^ 2 * 2 ^ 91 by linarith) ?_
      rw [← pow_add]
      exact pow_le_pow_right₀ (by norm_num) (by norm_num)
    · have := abs_near f1
      linarith
    · have := abs_near f2
      linarith
    · have := abs_near f3
      rw [abs_abs] at this
      linarith
    · have := abs_near f4
      have : A * (2 * L) + 61 / 10 * (1 / 100 * L) ≤ A * (3 * L) := by nlinarith
      linarith
  obtain ⟨disc, q, X1, Y1, X2, Y2, h1, h2⟩ := line_candidates (cx := rCx om ph d rx) (cy := rCy om ph d ry) (R := |1 / om|) (dd := ox * n0 + oy * n1) h cr
    (f1.trans k1) (f2.trans k1) (f3.trans k1) (by rw [abs_abs]; linarith) (f4.trans k2)
  refine ⟨_, A, disc, q, X1, Y1, X2, Y2, L0, A1, A2, A4, A5, A3.trans hr.hn2, fun s xx mode cb => ?_, h1, h2⟩
  exact plane_call h hr hn r0 p0 e1 e2 e3 (by rw [ho]; exact e4) s xx mode cb

end

end Verif
