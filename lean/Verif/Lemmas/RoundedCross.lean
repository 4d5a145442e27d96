import Verif.Lemmas.RoundedHelix
import Mathlib.Analysis.Real.Sqrt

/-!
# Rounding errors of crossings of circles and lines

All numbers are in units of the size of the geometry.
-/

open Classical

noncomputable section

namespace Verif

namespace Rnd

variable {u : ℝ}

/-- one rounded operation with an exact result of at most `B` -/
theorem op_bound {a t B : ℝ} (hu : 0 ≤ u) (h : |a - t| ≤ u * (|t| + 1 / 1000)) (hB : |t| ≤ B) : |a - t| ≤ u * (B + 1 / 1000) :=
  h.trans (mul_le_mul_of_nonneg_left (by linarith) hu)

theorem add_error {a A b B α β : ℝ} (ha : |a - A| ≤ α) (hb : |b - B| ≤ β) : |(a + b) - (A + B)| ≤ α + β := by
  rw [add_sub_add_comm]
  exact (abs_add_le _ _).trans (add_le_add ha hb)

theorem sub_error {a A b B α β : ℝ} (ha : |a - A| ≤ α) (hb : |b - B| ≤ β) : |(a - b) - (A - B)| ≤ α + β := by
  rw [sub_sub_sub_comm]
  exact (abs_sub _ _).trans (add_le_add ha hb)

theorem abs_mul_le_of {a b A B : ℝ} (ha : |a| ≤ A) (hb : |b| ≤ B) : |a * b| ≤ A * B := by
  rw [abs_mul]
  exact mul_le_mul ha hb (abs_nonneg _) ((abs_nonneg _).trans ha)

/-- the distance of the line from the centre -/
theorem dist_error {nx ny x0 y0 d0 a1 a2 S d : ℝ} (hu : 0 ≤ u) (hu' : u ≤ 1 / 1000000) (hx : |nx| ≤ 1) (hy : |ny| ≤ 1)
    (hx0 : |x0| ≤ 1) (hy0 : |y0| ≤ 1) (hd0 : |d0| ≤ 1) (h1 : |a1 - nx * x0| ≤ u * (|nx * x0| + 1 / 1000))
    (h2 : |a2 - ny * y0| ≤ u * (|ny * y0| + 1 / 1000)) (h3 : |S - (a1 + a2)| ≤ u * (|a1 + a2| + 1 / 1000))
    (h4 : |d - (d0 - S)| ≤ u * (|d0 - S| + 1 / 1000)) :
    |d - (d0 - (nx * x0 + ny * y0))| ≤ 9 * u ∧ |d| ≤ 31 / 10 ∧ |d0 - (nx * x0 + ny * y0)| ≤ 3 := by
  have p1 := abs_mul_le_of hx hx0
  have p2 := abs_mul_le_of hy hy0
  have e1 := op_bound hu h1 p1
  have e2 := op_bound hu h2 p2
  have s := add_error e1 e2
  have sp := abs_add_le (nx * x0) (ny * y0)
  have sa := abs_near s
  have e3 := near_trans (op_bound hu h3 (sa.trans (c := 21 / 10) (by linarith))) s
  have sS := abs_near e3
  have z : |d0 - d0| ≤ 0 := by simp
  have s4 := sub_error z e3
  have q : |d0 - (nx * x0 + ny * y0)| ≤ 3 := (abs_sub _ _).trans (by linarith)
  have e4 := near_trans (op_bound hu h4 ((abs_near s4).trans (c := 31 / 10 - 1 / 100) (by linarith))) s4
  exact ⟨by linarith, (abs_near e4).trans (by linarith), q⟩

/-- the square of the normal -/
theorem normal_error {nx ny n1 n2 N : ℝ} (hu : 0 ≤ u) (hu' : u ≤ 1 / 1000000) (hx : |nx| ≤ 1) (hy : |ny| ≤ 1)
    (h1 : |n1 - nx * nx| ≤ u * (|nx * nx| + 1 / 1000)) (h2 : |n2 - ny * ny| ≤ u * (|ny * ny| + 1 / 1000))
    (h3 : |N - (n1 + n2)| ≤ u * (|n1 + n2| + 1 / 1000)) : |N - (nx * nx + ny * ny)| ≤ 5 * u := by
  have p1 := abs_mul_le_of hx hx
  have p2 := abs_mul_le_of hy hy
  have s := add_error (op_bound hu h1 p1) (op_bound hu h2 p2)
  have sp := abs_add_le (nx * nx) (ny * ny)
  have e3 := near_trans (op_bound hu h3 ((abs_near s).trans (c := 21 / 10) (by linarith))) s
  linarith

/-- the discriminant -/
theorem disc_error {r D d N n2 rr rn dd disc : ℝ} (hu : 0 ≤ u) (hu' : u ≤ 1 / 1000000) (hn : |n2| ≤ 2)
    (hr : |r| ≤ 1) (hD : |D| ≤ 3) (hd : |d - D| ≤ 9 * u) (hd' : |d| ≤ 31 / 10) (hN : |N - n2| ≤ 5 * u)
    (h1 : |rr - r * r| ≤ u * (|r * r| + 1 / 1000)) (h2 : |rn - rr * N| ≤ u * (|rr * N| + 1 / 1000))
    (h3 : |dd - d * d| ≤ u * (|d * d| + 1 / 1000)) (h4 : |disc - (rn - dd)| ≤ u * (|rn - dd| + 1 / 1000)) :
    |disc - (r * r * n2 - D * D)| ≤ 103 * u := by
  have p1 := abs_mul_le_of hr hr
  have e1 := op_bound hu h1 p1
  have a1 := abs_near e1
  have aN := abs_near hN
  have q2 := prod_error e1 hN
  have q2' : |rr * N - r * r * n2| ≤ 8 * u := by
    refine q2.trans ?_
    have k1 := mul_le_mul_of_nonneg_left (aN.trans (c := 21 / 10) (by linarith)) (show 0 ≤ u * (1 * 1 + 1 / 1000) by positivity)
    have k2 := mul_le_mul_of_nonneg_right p1 (show 0 ≤ 5 * u by positivity)
    linarith
  have p3 := abs_mul_le_of p1 hn
  have e2 := near_trans (op_bound hu h2 ((abs_near q2').trans (c := 21 / 10) (by linarith))) q2'
  have q3 := prod_error hd hd
  have q3' : |d * d - D * D| ≤ 55 * u := by
    refine q3.trans ?_
    have k1 := mul_le_mul_of_nonneg_left hd' (show 0 ≤ 9 * u by positivity)
    have k2 := mul_le_mul_of_nonneg_right hD (show 0 ≤ 9 * u by positivity)
    linarith
  have e3 := near_trans (op_bound hu h3 (abs_mul_le_of hd' hd')) q3'
  have s4 := sub_error e2 e3
  have pD := abs_mul_le_of hD hD
  have k := abs_sub (r * r * n2) (D * D)
  have e4 := near_trans (op_bound hu h4 ((abs_near s4).trans (c := 12) (by linarith))) s4
  linarith

/-- the square root -/
theorem sqrt_error {Δ disc q : ℝ} (hu : 0 ≤ u) (hu' : u ≤ 1 / 1000000) (hΔ : 206 * u ≤ Δ) (h0 : 0 < Δ) (hΔ2 : Δ ≤ 2)
    (hd : |disc - Δ| ≤ 103 * u) (hq : |q - √disc| ≤ u * (|√disc| + 1 / 1000)) :
    |q - √Δ| ≤ u * (2 + 103 / √Δ) ∧ |q| ≤ 2 := by
  obtain ⟨l, r⟩ := abs_le.1 hd
  have d0 : 0 < disc := by linarith
  have sΔ := Real.sqrt_pos.2 h0
  have sd := Real.sqrt_pos.2 d0
  have q1 : |√disc| ≤ 3 / 2 := by
    rw [abs_of_pos sd]
    exact (Real.sqrt_le_left (by norm_num)).2 (by norm_num; linarith)
  have e1 := op_bound hu hq q1
  have e2 : |√disc - √Δ| ≤ u * (103 / √Δ) := by
    have k : (√disc - √Δ) * (√disc + √Δ) = disc - Δ := by
      have := Real.mul_self_sqrt d0.le
      have := Real.mul_self_sqrt h0.le
      linarith
    have k2 : |√disc - √Δ| * (√disc + √Δ) ≤ 103 * u := by
      rw [← abs_of_pos (show 0 < √disc + √Δ by positivity), ← abs_mul, k]
      exact hd
    have k3 : |√disc - √Δ| * √Δ ≤ 103 * u := (mul_le_mul_of_nonneg_left (by linarith) (abs_nonneg _)).trans k2
    rw [mul_div_assoc', le_div_iff₀ sΔ]
    linarith
  exact ⟨(near_trans e1 e2).trans (by linarith), (abs_near e1).trans (by linarith)⟩

/-- the reciprocal of the square of the normal -/
theorem inv_error {N n2 i : ℝ} (hu : 0 ≤ u) (hu' : u ≤ 1 / 1000000) (hn : 1 ≤ n2) (hN : |N - n2| ≤ 5 * u)
    (hi : |i - 1 / N| ≤ u * (|1 / N| + 1 / 1000)) : |i - 1 / n2| ≤ 8 * u ∧ |i| ≤ 11 / 10 ∧ 99 / 100 ≤ N := by
  obtain ⟨l, r⟩ := abs_le.1 hN
  have N0 : 99 / 100 ≤ N := by linarith
  have a : |1 / N| ≤ 100 / 99 := by
    rw [abs_of_pos (one_div_pos.2 (by linarith)), div_le_iff₀ (by linarith)]
    linarith
  have e1 := op_bound hu hi a
  have e2 : |1 / N - 1 / n2| ≤ 6 * u := by
    have k1 : 99 / 100 ≤ N * n2 := by nlinarith
    have k2 := mul_le_mul_of_nonneg_left k1 (show 0 ≤ 6 * u by positivity)
    rw [show 1 / N - 1 / n2 = -((N - n2) / (N * n2)) by field_simp; ring, abs_neg, abs_div, abs_of_pos (show 0 < N * n2 by linarith),
      div_le_iff₀ (by linarith)]
    linarith
  exact ⟨(near_trans e1 e2).trans (by linarith), (abs_near e1).trans (by linarith), N0⟩

/-- one coordinate of a crossing, `σ = ±1` -/
theorem coord_error {nx ny x0 D d q s i n2 t1 t2 T V X σ : ℝ} (hu : 0 ≤ u) (hu' : u ≤ 1 / 1000000) (hx : |nx| ≤ 1) (hy : |ny| ≤ 1)
    (hx0 : |x0| ≤ 1) (hD : |D| ≤ 3) (hd : |d - D| ≤ 9 * u) (hd' : |d| ≤ 31 / 10) (hs0 : 0 < s) (hs : s ≤ 3 / 2)
    (hq : |q - s| ≤ u * (2 + 103 / s)) (hq' : |q| ≤ 2) (hi : |i - 1 / n2| ≤ 8 * u) (hi' : |i| ≤ 11 / 10) (hσ : |σ| = 1)
    (h1 : |t1 - nx * d| ≤ u * (|nx * d| + 1 / 1000)) (h2 : |t2 - ny * q| ≤ u * (|ny * q| + 1 / 1000))
    (h3 : |T - (t1 + σ * t2)| ≤ u * (|t1 + σ * t2| + 1 / 1000)) (h4 : |V - T * i| ≤ u * (|T * i| + 1 / 1000))
    (h5 : |X - (x0 + V)| ≤ u * (|x0 + V| + 1 / 1000)) :
    |X - (x0 + (nx * D + σ * (ny * s)) * (1 / n2))| ≤ 500 * u / s := by
  have us : u ≤ 3 / 2 * (u / s) := by
    rw [mul_div_assoc', le_div_iff₀ hs0]
    nlinarith
  have us0 : 0 ≤ u / s := by positivity
  have hq2 : |q - s| ≤ 106 * (u / s) := by
    refine hq.trans ?_
    have : u * (2 + 103 / s) = 2 * u + 103 * (u / s) := by ring
    linarith
  have hs' : |s| ≤ 3 / 2 := by rwa [abs_of_pos hs0]
  -- products
  have z : ∀ t : ℝ, |t - t| ≤ 0 := fun t => by simp
  have m1 := prod_error (z nx) hd
  have m1' : |nx * d - nx * D| ≤ 9 * u := by
    refine m1.trans ?_
    have := mul_le_mul_of_nonneg_right hx (show 0 ≤ 9 * u by positivity)
    linarith
  have e1 := near_trans (op_bound hu h1 (abs_mul_le_of hx hd')) m1'
  have m2 := prod_error (z ny) hq2
  have m2' : |ny * q - ny * s| ≤ 106 * (u / s) := by
    refine m2.trans ?_
    have := mul_le_mul_of_nonneg_right hy (show 0 ≤ 106 * (u / s) by positivity)
    linarith
  have p2 := abs_mul_le_of hy hq'
  have e2 := near_trans (op_bound hu h2 p2) m2'
  have e2s : |σ * t2 - σ * (ny * s)| ≤ u * (1 * 2 + 1 / 1000) + 106 * (u / s) := by
    rw [← mul_sub, abs_mul, hσ, one_mul]
    exact e2
  have t2a : |σ * t2| ≤ 21 / 10 := by
    rw [abs_mul, hσ, one_mul]
    exact (abs_near (op_bound hu h2 p2)).trans (by linarith)
  have t1a : |t1| ≤ 32 / 10 := (abs_near (op_bound hu h1 (abs_mul_le_of hx hd'))).trans (by
    have := abs_mul_le_of hx hd'
    linarith)
  have ta := (abs_add_le t1 (σ * t2)).trans (add_le_add t1a t2a)
  have e3' := op_bound hu h3 ta
  have e3 := near_trans e3' (add_error e1 e2s)
  have Ta : |T| ≤ 54 / 10 := (abs_near e3').trans (by linarith)
  have Tx : |nx * D + σ * (ny * s)| ≤ 45 / 10 := by
    refine (abs_add_le _ _).trans ?_
    rw [abs_mul σ, hσ, one_mul]
    have := abs_mul_le_of hx hD
    have := abs_mul_le_of hy hs'
    linarith
  have m4 := prod_error e3 hi
  have k1 := mul_le_mul_of_nonneg_left hi' ((abs_nonneg _).trans e3)
  have k2 := mul_le_mul_of_nonneg_right Tx (show 0 ≤ 8 * u by positivity)
  have Va := abs_mul_le_of Ta hi'
  have e4' := op_bound hu h4 Va
  have e4 := near_trans e4' m4
  have xa := (abs_add_le x0 V).trans (add_le_add hx0 (abs_near e4'))
  have e5 := near_trans (op_bound hu h5 (xa.trans (c := 8) (by linarith))) (add_error (z x0) e4)
  refine e5.trans ?_
  rw [mul_div_assoc]
  linarith

end Rnd

end Verif
