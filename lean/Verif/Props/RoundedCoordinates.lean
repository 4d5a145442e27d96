import Verif.Lemmas.RoundedCoordinates

/-!
# Cylindrical and spherical coordinates of `Vector3D` in double precision: C170
-/

open Classical

noncomputable section

namespace Verif

open Dbl Rnd Rounded

variable {fl : ℝ → ℝ} {lm : Libm} {at2 : ℝ → ℝ → ℝ}

/-- C170: a vector with given cylindrical coordinates reports these coordinates, up to rounding; the azimuth has a small relative error and does not jump at a half
turn. -/
theorem C170_cylindrical (h : NearestF 53 1074 fl) (hl : IsLibm lm) (ha : IsAtan2 at2) {ρ φ : ℝ} (z : Dbl) (h1 : 1 / 2 ^ 400 ≤ ρ) (h2 : ρ ≤ 2 ^ 400) (hφ : |φ| ≤ mPi) :
    (∃ r, rhoV fl (cylindricalV fl lm (fin ρ) (fin φ) z) = fin r ∧ |r - ρ| ≤ 21 / 2 ^ 53 * ρ) ∧
    (∃ p, phiV fl at2 (cylindricalV fl lm (fin ρ) (fin φ) z) = fin p ∧ |p - φ| ≤ 11 / 2 ^ 53 * |φ| + 1 / 2 ^ 590) ∧
    (cylindricalV fl lm (fin ρ) (fin φ) z).z = z := by
  have ρ0 : 0 < ρ := lt_of_lt_of_le (by positivity) h1
  refine ⟨?_, ?_, rfl⟩
  · have R : Ap 400 ρ (fin ρ) (fin ρ) 1 0 := (Rel.given h1 h2).ap
    have P : Ap 2 1 (fin φ) (fin φ) 4 0 := Ap.given (by norm_num) (by norm_num) (by
      have := mPi_bounds.2.2.2
      norm_num at this ⊢
      linarith)
    have X := (Ap.mull h R (Ap.cos hl P) (by norm_num) (by norm_num) (by norm_num) (by norm_num)).mono (B' := 1) (e' := 41 / 10) (by norm_num) (by norm_num)
    have Y := (Ap.mull h R (Ap.sin hl P) (by norm_num) (by norm_num) (by norm_num) (by norm_num)).mono (B' := 1) (e' := 41 / 10) (by norm_num) (by norm_num)
    have q := trans_rel (Z := z) h X Y (by
      have := Real.sin_sq_add_cos_sq φ
      linear_combination -ρ * ρ * this) (by norm_num) (by norm_num) (by norm_num)
    obtain ⟨r, e1, e2⟩ := q.val
    refine ⟨r, e1, e2.trans ?_⟩
    norm_num
    linarith
  · obtain ⟨ex, bx⟩ := comp_error h h1 h2 (Real.abs_cos_le_one φ) (hl.cos_err φ)
    obtain ⟨ey, by'⟩ := comp_error h h1 h2 (Real.abs_sin_le_one φ) (hl.sin_err φ)
    obtain ⟨m1, m2, m3, m4⟩ := mPi_bounds
    have t0 : (1 : ℝ) / 2 ^ 600 ≤ 1 / 2 ^ 100 := one_div_le_one_div_of_le (by positivity) (pow_le_pow_right₀ (by norm_num) (by norm_num))
    obtain ⟨l1, l2⟩ := abs_le.1 hφ
    obtain ⟨k1, k2⟩ := polar_error (A := fl (ρ * lm.sin φ)) (B := fl (ρ * lm.cos φ)) ρ0 (by positivity) (by norm_num) (by positivity) t0 (by linarith) (by linarith)
      (polar_sign ρ0 (by norm_num) t0 hφ by') by' bx
    have k3 := at2_value ha k1 k2
    have e : cylindricalV fl lm (fin ρ) (fin φ) z = ⟨fin (fl (ρ * lm.cos φ)), fin (fl (ρ * lm.sin φ)), z⟩ := by
      simp only [cylindricalV, cosD, sinD, ex, ey]
    rw [e, phiV_value fl at2 k1]
    refine ⟨_, rfl, k3.trans ?_⟩
    have s := sin_cos_le φ
    have p0 := abs_nonneg φ
    have t1 : (1 : ℝ) / 2 ^ 600 * 8 ≤ 1 / 2 ^ 590 := by
      rw [show (8 : ℝ) = 1 / (1 / 2 ^ 3) by norm_num, show (2 : ℝ) ^ 600 = 2 ^ 590 * 2 ^ 10 by rw [← pow_add]]
      field_simp
      norm_num
    have t2 : (1 : ℝ) / 2 ^ 1074 ≤ 1 / 2 ^ 600 := one_div_le_one_div_of_le (by positivity) (pow_le_pow_right₀ (by norm_num) (by norm_num))
    have t3 : (0 : ℝ) ≤ 1 / 2 ^ 600 := by positivity
    generalize (1 : ℝ) / 2 ^ 600 = τ at *
    generalize (1 : ℝ) / 2 ^ 590 = σ at *
    generalize (1 : ℝ) / 2 ^ 1074 = η at *
    generalize |Real.sin φ * Real.cos φ| = q at *
    generalize |φ| = f at *
    clear k3 k2 bx by' m1 ex ey e hφ
    norm_num at *
    linarith

/-- C170: a vector with given spherical coordinates reports these coordinates, up to rounding. -/
theorem C170_spherical (h : NearestF 53 1074 fl) (hl : IsLibm lm) (ha : IsAtan2 at2) {r φ θ : ℝ} (h1 : 1 / 2 ^ 100 ≤ r) (h2 : r ≤ 2 ^ 100) (hφ : |φ| ≤ mPi)
    (hθ : 1 / 2 ^ 100 ≤ θ) (hθ' : θ ≤ mPi) :
    (∃ r', rV fl (sphericalV fl lm (fin r) (fin φ) (fin θ)) = fin r' ∧ |r' - r| ≤ 80 / 2 ^ 53 * r) ∧
    (∃ p, phiV fl at2 (sphericalV fl lm (fin r) (fin φ) (fin θ)) = fin p ∧ |p - φ| ≤ 11 / 2 ^ 53 * |φ| + 1 / 2 ^ 590) ∧
    (∃ t, thetaV fl at2 (sphericalV fl lm (fin r) (fin φ) (fin θ)) = fin t ∧ |t - θ| ≤ 60 / 2 ^ 53 * θ) := by
  obtain ⟨m1, m2, m3, m4⟩ := mPi_bounds
  have r0 : 0 < r := lt_of_lt_of_le (by positivity) h1
  have θ0 : 0 < θ := lt_of_lt_of_le (by positivity) hθ
  have hs : 1 / 2 ^ 101 ≤ Real.sin θ := by
    rcases le_total θ 3 with c | c
    · rcases le_total θ (Real.pi / 2) with c' | c'
      · have := Real.mul_le_sin θ0.le c'
        have r : (1 : ℝ) / 2 ≤ 2 / Real.pi := by
          rw [div_le_div_iff₀ (by norm_num) Real.pi_pos]
          have := Real.pi_lt_d2
          linarith
        have := mul_le_mul r hθ (by positivity) (by positivity)
        norm_num at this ⊢
        linarith
      · have p := Real.pi_gt_d2
        have := Real.mul_le_sin (x := Real.pi - θ) (by linarith) (by linarith)
        rw [Real.sin_pi_sub] at this
        have r : (1 : ℝ) / 2 ≤ 2 / Real.pi := by
          rw [div_le_div_iff₀ (by norm_num) Real.pi_pos]
          have := Real.pi_lt_d2
          linarith
        have := mul_le_mul r (show 14 / 100 ≤ Real.pi - θ by linarith) (by norm_num) (by positivity)
        norm_num at this ⊢
        linarith
    · have := sin_away c hθ'
      norm_num at this ⊢
      linarith
  have s0 : 0 < Real.sin θ := lt_of_lt_of_le (by positivity) hs
  have big : ∀ n ≤ 400, (1 : ℝ) / 2 ^ 400 ≤ 1 / 2 ^ n ∧ (2 : ℝ) ^ n ≤ 2 ^ 400 := fun n hn =>
    ⟨one_div_le_one_div_of_le (by positivity) (pow_le_pow_right₀ (by norm_num) hn), pow_le_pow_right₀ (by norm_num) hn⟩
  have t0 : (1 : ℝ) / 2 ^ 600 ≤ 1 / 2 ^ 154 * (1 / 2 ^ 101) := by
    rw [one_div_mul_one_div, ← pow_add]
    exact one_div_le_one_div_of_le (by positivity) (pow_le_pow_right₀ (by norm_num) (by norm_num))
  have t00 : (0 : ℝ) < 1 / 2 ^ 600 := by positivity
  have t100 : (1 : ℝ) / 2 ^ 600 ≤ 1 / 2 ^ 100 := one_div_le_one_div_of_le (by positivity) (pow_le_pow_right₀ (by norm_num) (by norm_num))
  obtain ⟨et, bt⟩ := comp_error h ((big 100 (by norm_num)).1.trans h1) (h2.trans (big 100 (by norm_num)).2) (Real.abs_sin_le_one θ) (hl.sin_err θ)
  obtain ⟨ez, bz⟩ := comp_error h ((big 100 (by norm_num)).1.trans h1) (h2.trans (big 100 (by norm_num)).2) (Real.abs_cos_le_one θ) (hl.cos_err θ)
  rw [abs_of_pos s0] at bt
  generalize eR : fl (r * lm.sin θ) = R at *
  generalize eZ : fl (r * lm.cos θ) = Z at *
  -- the distance from the axis
  have bR : |R - r * Real.sin θ| ≤ 5 / 2 ^ 53 * (r * Real.sin θ) := by
    refine bt.trans ?_
    rw [mul_comm (5 / 2 ^ 53), mul_assoc]
    refine mul_le_mul_of_nonneg_left ?_ r0.le
    generalize (1 : ℝ) / 2 ^ 600 = τ at *
    norm_num at *
    linarith
  have S1 : 1 / 2 ^ 201 ≤ r * Real.sin θ := by
    refine le_trans (le_of_eq ?_) (mul_le_mul h1 hs (by positivity) r0.le)
    rw [one_div_mul_one_div, ← pow_add]
  have S2 : r * Real.sin θ ≤ r := mul_le_of_le_one_right r0.le (Real.sin_le_one _)
  have R1 : 99 / 100 * (r * Real.sin θ) ≤ R ∧ R ≤ 101 / 100 * (r * Real.sin θ) := by
    have := abs_le.1 bR
    have : (0 : ℝ) < r * Real.sin θ := lt_of_lt_of_le (by positivity) S1
    generalize r * Real.sin θ = S at *
    norm_num at *
    constructor <;> linarith
  have R2 : 1 / 2 ^ 202 ≤ R ∧ R ≤ 2 ^ 202 := by
    generalize r * Real.sin θ = S at *
    constructor
    · refine le_trans ?_ R1.1
      norm_num at *
      linarith
    · refine R1.2.trans ?_
      norm_num at *
      linarith
  have R0 : 0 < R := lt_of_lt_of_le (by positivity) R2.1
  obtain ⟨ex, bx⟩ := comp_error h ((big 202 (by norm_num)).1.trans R2.1) (R2.2.trans (big 202 (by norm_num)).2) (Real.abs_cos_le_one φ) (hl.cos_err φ)
  obtain ⟨ey, by'⟩ := comp_error h ((big 202 (by norm_num)).1.trans R2.1) (R2.2.trans (big 202 (by norm_num)).2) (Real.abs_sin_le_one φ) (hl.sin_err φ)
  generalize eX : fl (R * lm.cos φ) = X at *
  generalize eY : fl (R * lm.sin φ) = Y at *
  have e : sphericalV fl lm (fin r) (fin φ) (fin θ) = ⟨fin X, fin Y, fin Z⟩ := by
    simp only [sphericalV, cosD, sinD, et, ez, ex, ey]
  obtain ⟨l1, l2⟩ := abs_le.1 hφ
  obtain ⟨k1, k2⟩ := polar_error (A := Y) (B := X) R0 (by positivity) (by norm_num) (by positivity) t100 (by linarith) (by linarith)
    (polar_sign R0 (by norm_num) t100 hφ by') by' bx
  have cx : |R * Real.cos φ| ≤ 1 * R := by
    rw [abs_mul, abs_of_pos R0, mul_comm]
    exact mul_le_mul_of_nonneg_right (Real.abs_cos_le_one φ) R0.le
  have cy : |R * Real.sin φ| ≤ 1 * R := by
    rw [abs_mul, abs_of_pos R0, mul_comm]
    exact mul_le_mul_of_nonneg_right (Real.abs_sin_le_one φ) R0.le
  have weak : ∀ {c : ℝ}, |c| ≤ 1 → R * (4 / 2 ^ 53 * |c| + 1 / 2 ^ 600) ≤ 41 / 10 * (R * (1 / 2 ^ 53)) := by
    intro c hc
    have : 4 / 2 ^ 53 * |c| + 1 / 2 ^ 600 ≤ 41 / 10 * (1 / 2 ^ 53) := by
      generalize (1 : ℝ) / 2 ^ 600 = τ at *
      norm_num at *
      linarith
    calc _ ≤ R * (41 / 10 * (1 / 2 ^ 53)) := mul_le_mul_of_nonneg_left this R0.le
      _ = _ := by ring
  have AX : Ap 202 R (fin X) (fin (R * Real.cos φ)) 1 (41 / 10) := ⟨R2.1, R2.2, X, _, rfl, rfl, bx.trans (weak (Real.abs_cos_le_one φ)), cx⟩
  have AY : Ap 202 R (fin Y) (fin (R * Real.sin φ)) 1 (41 / 10) := ⟨R2.1, R2.2, Y, _, rfl, rfl, by'.trans (weak (Real.abs_sin_le_one φ)), cy⟩
  have T := trans_rel (Z := fin Z) h AX AY (by
    have := Real.sin_sq_add_cos_sq φ
    linear_combination -R * R * this) (by norm_num) (by norm_num) (by norm_num)
  obtain ⟨w, w1, w2⟩ := T.val
  rw [e]
  refine ⟨?_, ?_, ?_⟩
  · have near : ∀ {x c : ℝ}, |c| ≤ 1 → |x - R * c| ≤ R * (4 / 2 ^ 53 * |c| + 1 / 2 ^ 600) → Ap 100 r (fin x) (fin (r * Real.sin θ * c)) 1 10 := by
      intro x c hc hx
      refine ⟨h1, h2, x, _, rfl, rfl, ?_, ?_⟩
      · have q1 := hx.trans (weak hc)
        have q2 : |R * c - r * Real.sin θ * c| ≤ 5 / 2 ^ 53 * (r * Real.sin θ) := by
          rw [← sub_mul, abs_mul]
          exact (mul_le_of_le_one_right (abs_nonneg _) hc).trans bR
        have q3 := abs_sub_le x (R * c) (r * Real.sin θ * c)
        refine q3.trans ((add_le_add q1 q2).trans ?_)
        have := R1.2
        generalize r * Real.sin θ = S at *
        norm_num
        linarith
      · rw [abs_mul, abs_of_pos (mul_pos r0 s0), one_mul]
        exact (mul_le_of_le_one_right (mul_pos r0 s0).le hc).trans S2
    have NZ : Ap 100 r (fin Z) (fin (r * Real.cos θ)) 1 10 := by
      refine ⟨h1, h2, Z, _, rfl, rfl, bz.trans ?_, ?_⟩
      · have := Real.abs_cos_le_one θ
        have : 4 / 2 ^ 53 * |Real.cos θ| + 1 / 2 ^ 600 ≤ 10 * (1 / 2 ^ 53) := by
          generalize (1 : ℝ) / 2 ^ 600 = τ at *
          norm_num at *
          linarith
        calc _ ≤ r * (10 * (1 / 2 ^ 53)) := mul_le_mul_of_nonneg_left this r0.le
          _ = _ := by ring
      · rw [abs_mul, abs_of_pos r0, one_mul]
        exact mul_le_of_le_one_right r0.le (Real.abs_cos_le_one θ)
    have q := r_rel h (near (Real.abs_cos_le_one φ) bx) (near (Real.abs_sin_le_one φ) by') NZ (by
      have a1 := Real.sin_sq_add_cos_sq φ
      have a2 := Real.sin_sq_add_cos_sq θ
      linear_combination -(r * Real.sin θ) ^ 2 * a1 - r ^ 2 * a2) (by norm_num) (by norm_num) (by norm_num)
    obtain ⟨r', e1, e2⟩ := q.val
    refine ⟨r', e1, e2.trans ?_⟩
    norm_num
    linarith
  · have k3 := at2_value ha k1 k2
    rw [phiV_value fl at2 k1]
    refine ⟨_, rfl, k3.trans ?_⟩
    have s := sin_cos_le φ
    have p0 := abs_nonneg φ
    have t1 : (1 : ℝ) / 2 ^ 600 * 8 ≤ 1 / 2 ^ 590 := by
      rw [show (8 : ℝ) = 1 / (1 / 2 ^ 3) by norm_num, show (2 : ℝ) ^ 600 = 2 ^ 590 * 2 ^ 10 by rw [← pow_add]]
      field_simp
      norm_num
    have t2 : (1 : ℝ) / 2 ^ 1074 ≤ 1 / 2 ^ 600 := one_div_le_one_div_of_le (by positivity) (pow_le_pow_right₀ (by norm_num) (by norm_num))
    have t3 : (0 : ℝ) ≤ 1 / 2 ^ 600 := by positivity
    generalize (1 : ℝ) / 2 ^ 600 = τ at *
    generalize (1 : ℝ) / 2 ^ 590 = σ at *
    generalize (1 : ℝ) / 2 ^ 1074 = η at *
    generalize |Real.sin φ * Real.cos φ| = q at *
    generalize |φ| = f at *
    clear * - s p0 t1 t2 t3
    norm_num at *
    linarith
  · rw [thetaV_value fl at2 k1 w1]
    have bw : |w - r * Real.sin θ| ≤ r * (27 / 2 ^ 53 * |Real.sin θ| + 1 / 2 ^ 600) := by
      have q1 := abs_sub_le w R (r * Real.sin θ)
      have q2 : 0 ≤ r * (1 / 2 ^ 600) := by positivity
      rw [abs_of_pos s0, mul_add, show r * (27 / 2 ^ 53 * Real.sin θ) = 27 / 2 ^ 53 * (r * Real.sin θ) by ring]
      have := R1.2
      generalize r * Real.sin θ = S at *
      generalize r * (1 / 2 ^ 600) = V at *
      norm_num at w2 bR ⊢
      linarith
    have w0 : 0 < w := by
      have := (abs_le.1 w2).1
      norm_num at this
      linarith
    have bz' : |Z - r * Real.cos θ| ≤ r * (27 / 2 ^ 53 * |Real.cos θ| + 1 / 2 ^ 600) := by
      refine bz.trans (mul_le_mul_of_nonneg_left ?_ r0.le)
      have := abs_nonneg (Real.cos θ)
      have : 4 / 2 ^ 53 * |Real.cos θ| ≤ 27 / 2 ^ 53 * |Real.cos θ| := mul_le_mul_of_nonneg_right (by norm_num) this
      linarith
    obtain ⟨j1, j2⟩ := polar_error (A := w) (B := Z) r0 (by positivity) (by norm_num) (by positivity) t100 (by linarith) (by linarith) (.inr (.inl ⟨w0, θ0.le⟩)) bw bz'
    have k3 := at2_value ha j1 j2
    refine ⟨_, rfl, k3.trans ?_⟩
    have s := sin_cos_le θ
    rw [abs_of_pos θ0] at s ⊢
    have t2 : (1 : ℝ) / 2 ^ 1074 ≤ 1 / 2 ^ 600 := one_div_le_one_div_of_le (by positivity) (pow_le_pow_right₀ (by norm_num) (by norm_num))
    generalize (1 : ℝ) / 2 ^ 600 = τ at *
    generalize (1 : ℝ) / 2 ^ 1074 = η at *
    generalize |Real.sin θ * Real.cos θ| = q at *
    clear * - s θ0 t2 t0 hθ t00
    norm_num at *
    linarith

/-- C170: a vector is recovered from its cylindrical coordinates, up to rounding. -/
theorem C170_rebuild_cylindrical (h : NearestF 53 1074 fl) (hl : IsLibm lm) (ha : IsAtan2 at2) {x y S : ℝ} (z : Dbl) (hS : S = √(x ^ 2 + y ^ 2)) (h1 : 1 / 2 ^ 400 ≤ S)
    (h2 : S ≤ 2 ^ 400) :
    ∃ x' y', cylindricalV fl lm (rhoV fl ⟨fin x, fin y, z⟩) (phiV fl at2 ⟨fin x, fin y, z⟩) z = ⟨fin x', fin y', z⟩ ∧
      |x' - x| ≤ 15 / 2 ^ 53 * S ∧ |y' - y| ≤ 15 / 2 ^ 53 * S := by
  have S0 : 0 < S := lt_of_lt_of_le (by positivity) h1
  obtain ⟨p1, p2, p3, p4, p5, p6⟩ := polar_parts hS S0
  have X : Ap 400 S (fin x) (fin x) 1 0 := Ap.given h1 h2 (by linarith)
  have Y : Ap 400 S (fin y) (fin y) 1 0 := Ap.given h1 h2 (by linarith)
  have R := (trans_rel (Z := z) h X Y p4 (by norm_num) le_rfl (by norm_num)).ap
  have P := phi_near (fl := fl) ha p3 z
  have A := Ap.mull h R (Ap.cos hl P) (by norm_num) (by norm_num) (by norm_num) (by norm_num)
  have B := Ap.mull h R (Ap.sin hl P) (by norm_num) (by norm_num) (by norm_num) (by norm_num)
  obtain ⟨_, _, x', x'', e1, e2, e3, -⟩ := A
  obtain ⟨_, _, y', y'', g1, g2, g3, -⟩ := B
  simp only [cos_fin, sin_fin, fin_mul, p1, p2, fin_inj] at e2 g2
  subst e2 g2
  refine ⟨x', y', ?_, ?_, ?_⟩
  · unfold cylindricalV rhoV
    rw [e1, g1]
  · refine e3.trans ?_
    norm_num
    linarith
  · refine g3.trans ?_
    norm_num
    linarith

/-- C170: a vector is recovered from its spherical coordinates, up to rounding. -/
theorem C170_rebuild_spherical (h : NearestF 53 1074 fl) (hl : IsLibm lm) (ha : IsAtan2 at2) {x y z S r : ℝ} (hS : S = √(x ^ 2 + y ^ 2)) (hr : r = √(x ^ 2 + y ^ 2 + z ^ 2))
    (h1 : 1 / 2 ^ 400 ≤ S) (h2 : r ≤ 2 ^ 400) :
    ∃ x' y' z', sphericalV fl lm (rV fl ⟨fin x, fin y, fin z⟩) (phiV fl at2 ⟨fin x, fin y, fin z⟩) (thetaV fl at2 ⟨fin x, fin y, fin z⟩) = ⟨fin x', fin y', fin z'⟩ ∧
      |x' - x| ≤ 35 / 2 ^ 53 * r ∧ |y' - y| ≤ 35 / 2 ^ 53 * r ∧ |z' - z| ≤ 35 / 2 ^ 53 * r := by
  have S0 : 0 < S := lt_of_lt_of_le (by positivity) h1
  obtain ⟨p1, p2, p3, p4, p5, p6⟩ := polar_parts hS S0
  have hr' : r = √(z ^ 2 + S ^ 2) := by
    rw [hr]
    congr 1
    linear_combination -p4
  have Sr : S ≤ r := by
    rw [hr']
    exact Real.le_sqrt_of_sq_le (by nlinarith)
  have r0 : 0 < r := by linarith
  have k1 := h1.trans Sr
  obtain ⟨q1, q2, q3, q4, q5, q6⟩ := polar_parts hr' r0
  have X : Ap 400 S (fin x) (fin x) 1 0 := Ap.given h1 (Sr.trans h2) (by linarith)
  have Y : Ap 400 S (fin y) (fin y) 1 0 := Ap.given h1 (Sr.trans h2) (by linarith)
  have T := trans_rel (Z := fin z) h X Y p4 (by norm_num) le_rfl (by norm_num)
  have X' : Ap 400 r (fin x) (fin x) 1 0 := Ap.given k1 h2 (by linarith)
  have Y' : Ap 400 r (fin y) (fin y) 1 0 := Ap.given k1 h2 (by linarith)
  have Z' : Ap 400 r (fin z) (fin z) 1 0 := Ap.given k1 h2 (by linarith)
  have R := (r_rel h X' Y' Z' (by linear_combination q4 + p4) (by norm_num) le_rfl (by norm_num)).ap
  have P := phi_near (fl := fl) ha p3 (fin z)
  have Th := theta_near (at2 := at2) ha p3 S0 r0 q1 q2 T
  have M := (Ap.mull h R (Ap.sin hl Th) (by norm_num) (by norm_num) (by norm_num) (by norm_num)).mono (B' := 1) (e' := 23) (by norm_num) (by norm_num)
  have A := Ap.mull h M (Ap.cos hl P) (by norm_num) (by norm_num) (by norm_num) (by norm_num)
  have B := Ap.mull h M (Ap.sin hl P) (by norm_num) (by norm_num) (by norm_num) (by norm_num)
  have C := Ap.mull h R (Ap.cos hl Th) (by norm_num) (by norm_num) (by norm_num) (by norm_num)
  obtain ⟨_, _, x', x'', e1, e2, e3, -⟩ := A
  obtain ⟨_, _, y', y'', g1, g2, g3, -⟩ := B
  obtain ⟨_, _, z', z'', i1, i2, i3, -⟩ := C
  simp only [cos_fin, sin_fin, fin_mul, p1, p2, q1, q2, fin_inj] at e2 g2 i2
  subst e2 g2 i2
  refine ⟨x', y', z', ?_, ?_, ?_, ?_⟩
  · show V3.mk _ _ _ = _
    rw [e1, g1, i1]
  · refine e3.trans ?_
    norm_num
    linarith
  · refine g3.trans ?_
    norm_num
    linarith
  · refine i3.trans ?_
    norm_num
    linarith

/-- C170: the angles of the zero vector are zero, whatever `atan2` gives there; a vector along the axis of the detector has the azimuth zero. -/
theorem C170_zero (fl : ℝ → ℝ) (at2 : ℝ → ℝ → ℝ) (z : Dbl) : phiV fl at2 ⟨0, 0, z⟩ = 0 ∧ thetaV fl at2 ⟨0, 0, 0⟩ = 0 := by
  constructor
  · unfold phiV
    simp
  · unfold thetaV
    simp

/-- C170: a vector along the axis of the detector has the polar angle zero or a half turn. -/
theorem C170_axis (h : NearestF 53 1074 fl) (ha : IsAtan2 at2) {z : ℝ} (hz : z ≠ 0) :
    ∃ t, thetaV fl at2 ⟨0, 0, fin z⟩ = fin t ∧ |t - if 0 < z then 0 else Real.pi| ≤ if 0 < z then 1 / 2 ^ 1074 else Real.pi / 2 ^ 52 + 1 / 2 ^ 1074 := by
  have e2 : mulD fl 0 0 = fin 0 := by
    rw [mulD, zero_eq, fin_mul, mul_zero, rnd_double h (by rw [_root_.abs_zero]; positivity), h.fix repF_zero]
  have e3 : addD fl (fin 0) (fin 0) = fin 0 := by
    rw [addD, fin_add, add_zero, rnd_double h (by rw [_root_.abs_zero]; positivity), h.fix repF_zero]
  have e4 : rhoV fl ⟨0, 0, fin z⟩ = fin 0 := by
    simp only [rhoV, transV, e2, e3, sqrtD]
    rw [sqrt_fin le_rfl, Real.sqrt_zero, rnd_double h (by rw [_root_.abs_zero]; positivity), h.fix repF_zero]
  have hn : ¬ (z = 0 ∧ (0 : ℝ) = 0) := fun q => hz q.1
  have a := ha 0 z hn
  refine ⟨at2 0 z, ?_, ?_⟩
  · unfold thetaV
    have : ¬ (Dbl.eqv (0 : Dbl) 0 ∧ Dbl.eqv (0 : Dbl) 0 ∧ Dbl.eqv (fin z) 0) := fun q => hz (by simpa using q.2.2)
    simp only
    rw [cif_neg this, e4]
    rfl
  · rcases lt_or_gt_of_ne hz with c | c
    · have e : ratan2 0 z = Real.pi := Complex.arg_ofReal_of_neg c
      rw [e, abs_of_pos Real.pi_pos] at a
      rw [if_neg (not_lt.2 c.le), if_neg (not_lt.2 c.le)]
      exact a
    · have e : ratan2 0 z = 0 := Complex.arg_ofReal_of_nonneg c.le
      rw [e, _root_.abs_zero, zero_div, zero_add] at a
      rw [if_pos c, if_pos c]
      exact a

/-- C170: the squared lengths. -/
theorem C170_squares (h : NearestF 53 1074 fl) {x y z r : ℝ} (hr : r = √(x ^ 2 + y ^ 2 + z ^ 2)) (h1 : 1 / 2 ^ 400 ≤ r) (h2 : r ≤ 2 ^ 400) :
    (∃ q, r2V fl ⟨fin x, fin y, fin z⟩ = fin q ∧ |q - (x ^ 2 + y ^ 2 + z ^ 2)| ≤ 6 / 2 ^ 53 * r ^ 2) ∧
    (∃ q, trans2V fl ⟨fin x, fin y, fin z⟩ = fin q ∧ |q - (x ^ 2 + y ^ 2)| ≤ 4 / 2 ^ 53 * r ^ 2) := by
  have r0 : 0 < r := lt_of_lt_of_le (by positivity) h1
  have er : r * r = x * x + y * y + z * z := by
    rw [hr, Real.mul_self_sqrt (by positivity)]
    ring
  have b : ∀ t, t ^ 2 ≤ r * r → |t| ≤ 1 * r := fun t ht => by
    rw [one_mul]
    exact abs_le_of_sq_le_sq (by nlinarith) r0.le
  have X : Ap 400 r (fin x) (fin x) 1 0 := Ap.given h1 h2 (b x (by nlinarith))
  have Y : Ap 400 r (fin y) (fin y) 1 0 := Ap.given h1 h2 (b y (by nlinarith))
  have Z : Ap 400 r (fin z) (fin z) 1 0 := Ap.given h1 h2 (b z (by nlinarith))
  have X2 := Ap.mul h X X (by norm_num) (by norm_num) (by norm_num) (by norm_num)
  have Y2 := Ap.mul h Y Y (by norm_num) (by norm_num) (by norm_num) (by norm_num)
  have Z2 := Ap.mul h Z Z (by norm_num) (by norm_num) (by norm_num) (by norm_num)
  have A := Ap.addB h X2 Y2 (D := 1) (fun w hw => by
    rw [fin_mul, fin_mul, fin_add, fin_inj] at hw
    rw [← hw, one_mul, abs_of_nonneg (add_nonneg (mul_self_nonneg x) (mul_self_nonneg y)), er]
    linarith [mul_self_nonneg z]) (by norm_num) (by norm_num) (by norm_num)
  have B := Ap.addB h A Z2 (D := 1) (fun w hw => by
    rw [fin_mul, fin_mul, fin_mul, fin_add, fin_add, fin_inj] at hw
    rw [← hw, ← er, one_mul, abs_of_nonneg (mul_self_nonneg r)]) (by norm_num) (by norm_num) (by norm_num)
  obtain ⟨_, _, a', a'', e1, e2, e3, -⟩ := A
  obtain ⟨_, _, b', b'', g1, g2, g3, -⟩ := B
  simp only [fin_mul, fin_add, fin_inj] at e2 g2
  subst e2 g2
  have rr : 0 ≤ r * r := mul_self_nonneg r
  refine ⟨⟨b', g1, ?_⟩, ⟨a', e1, ?_⟩⟩
  · rw [sq, sq, sq, sq]
    refine g3.trans ?_
    generalize r * r = R at *
    norm_num
    linarith
  · rw [sq, sq, sq]
    refine e3.trans ?_
    generalize r * r = R at *
    norm_num
    linarith

/-- C170: outside the range the length overflows: the vector (2^600, 0, 0) has the infinite length. -/
theorem C170_overflow (h : NearestF 53 1074 fl) (z : Dbl) : rhoV fl ⟨fin (2 ^ 600), fin 0, z⟩ = Dbl.inf false := by
  have e1 : mulD fl (fin (2 ^ 600)) (fin (2 ^ 600)) = inf false := by
    have hf : fl (2 ^ 600 * 2 ^ 600) = 2 ^ 600 * 2 ^ 600 := by
      refine h.fix ⟨1, 2274, by norm_num, ?_⟩
      rw [Int.cast_one, one_mul, ← pow_add, ← pow_add]
    rw [mulD, fin_mul]
    simp only [rnd, hf]
    have hp : (0 : ℝ) < 2 ^ 600 * 2 ^ 600 := by positivity
    rw [abs_of_pos hp, if_neg (not_lt.2 (by rw [← pow_add]; exact pow_le_pow_right₀ (by norm_num) (by norm_num)))]
    simp only [not_lt.2 hp.le, decide_false]
  have e2 : mulD fl (fin 0) (fin 0) = fin 0 := by
    rw [mulD, fin_mul, mul_zero, rnd_double h (by rw [_root_.abs_zero]; positivity), h.fix repF_zero]
  have e3 : addD fl (inf false) (fin 0) = inf false := rfl
  simp only [rhoV, transV, e1, e2, e3, sqrtD]
  rfl

/-! concrete cases -/

example (h : NearestF 53 1074 fl) (ha : IsAtan2 at2) : ∃ t, thetaV fl at2 ⟨0, 0, fin (-5)⟩ = fin t ∧ |t - Real.pi| ≤ Real.pi / 2 ^ 52 + 1 / 2 ^ 1074 := by
  have := C170_axis (fl := fl) h ha (z := -5) (by norm_num)
  rwa [if_neg (by norm_num), if_neg (by norm_num)] at this

example (h : NearestF 53 1074 fl) (hl : IsLibm lm) (ha : IsAtan2 at2) : ∃ p, phiV fl at2 (cylindricalV fl lm (fin 1800) (fin mPi) 0) = fin p ∧ |p - mPi| ≤ 11 / 2 ^ 53 * |mPi| + 1 / 2 ^ 590 :=
  (C170_cylindrical h hl ha 0 ((one_div_le_one_div_of_le (by positivity) (pow_le_pow_right₀ (by norm_num) (by norm_num : 1 ≤ 400))).trans (by norm_num))
    (le_trans (by norm_num) (pow_le_pow_right₀ (by norm_num) (by norm_num : 20 ≤ 400))) (le_of_eq (abs_of_pos (by linarith [mPi_bounds.2.2.1])))).2.1

example (h : NearestF 53 1074 fl) (hl : IsLibm lm) (ha : IsAtan2 at2) :
    ∃ t, thetaV fl at2 (sphericalV fl lm (fin 1800) (fin (-2)) (fin 3)) = fin t ∧ |t - 3| ≤ 60 / 2 ^ 53 * 3 :=
  (C170_spherical h hl ha (by norm_num) (by norm_num) (by
    have := mPi_bounds.2.2.1
    norm_num at *
    linarith) (by norm_num) (by
    have := mPi_bounds.2.2.1
    norm_num at *
    linarith)).2.2

example (h : NearestF 53 1074 fl) (hl : IsLibm lm) (ha : IsAtan2 at2) :
    ∃ x' y' z', sphericalV fl lm (rV fl ⟨fin (-3), fin 4, fin (-12)⟩) (phiV fl at2 ⟨fin (-3), fin 4, fin (-12)⟩) (thetaV fl at2 ⟨fin (-3), fin 4, fin (-12)⟩) = ⟨fin x', fin y', fin z'⟩ ∧
      |x' - -3| ≤ 35 / 2 ^ 53 * 13 ∧ |y' - 4| ≤ 35 / 2 ^ 53 * 13 ∧ |z' - -12| ≤ 35 / 2 ^ 53 * 13 :=
  C170_rebuild_spherical (S := 5) h hl ha (by rw [show ((-3 : ℝ) ^ 2 + 4 ^ 2) = 5 ^ 2 by norm_num, Real.sqrt_sq (by norm_num)])
    (by rw [show ((-3 : ℝ) ^ 2 + 4 ^ 2 + (-12) ^ 2) = 13 ^ 2 by norm_num, Real.sqrt_sq (by norm_num)])
    ((one_div_le_one_div_of_le (by positivity) (pow_le_pow_right₀ (by norm_num) (by norm_num : 1 ≤ 400))).trans (by norm_num))
    (le_trans (by norm_num) (pow_le_pow_right₀ (by norm_num) (by norm_num : 20 ≤ 400)))

end Verif
