import Verif.Lemmas.RoundedCircles
import Mathlib.Analysis.Real.Pi.Bounds

/-!
# Rounding errors of crossings with cylinders

All numbers are in units of the size of the geometry: lengths in units of their bound `M`, the vector (sox, coy) in units of
`1 + |omega| M`.  `v` is `1 / (1 + |omega| M)` and `m` is `omega M / (1 + |omega| M)`.
-/

noncomputable section

namespace Verif

namespace Rnd

variable {u : ℝ}

/-- the distance `dx` or `dy` from the point of closest approach to the axis of the cylinder -/
theorem axis_error {a r d s s' τ p x g : ℝ} (hu : 0 ≤ u) (hu' : u ≤ 1 / 1000000) (ha : |a| ≤ 1) (hr : |r| ≤ 1) (hd : |d| ≤ 1) (hs : |s| ≤ 1)
    (hτ : |τ| = 1) (hs' : |s' - s| ≤ 21 / 10 * u) (h1 : |p - d * s'| ≤ u * (|d * s'| + 1 / 1000))
    (h2 : |x - (r + τ * p)| ≤ u * (|r + τ * p| + 1 / 1000)) (h3 : |g - (a - x)| ≤ u * (|a - x| + 1 / 1000)) :
    |g - (a - (r + τ * (d * s)))| ≤ 9 * u ∧ |a - (r + τ * (d * s))| ≤ 3 := by
  have z : ∀ t : ℝ, |t - t| ≤ 0 := fun t => by simp
  have p0 := abs_mul_le_of hd hs
  have q1 : |d * s' - d * s| ≤ 21 / 10 * u := by
    rw [← mul_sub]
    exact (abs_mul_le_of hd hs').trans (by linarith)
  have e1 := near_trans (op_bound hu h1 ((abs_near q1).trans (c := 11 / 10) (by linarith))) q1
  have q2 : |(r + τ * p) - (r + τ * (d * s))| ≤ u * (11 / 10 + 1 / 1000) + 21 / 10 * u := by
    rw [add_sub_add_left_eq_sub, ← mul_sub, abs_mul, hτ, one_mul]
    exact e1
  have p2 : |r + τ * (d * s)| ≤ 2 := by
    refine (abs_add_le _ _).trans ?_
    rw [abs_mul τ, hτ, one_mul]
    linarith
  have e2 := near_trans (op_bound hu h2 ((abs_near q2).trans (c := 21 / 10) (by linarith))) q2
  have q3 := sub_error (z a) e2
  have p3 : |a - (r + τ * (d * s))| ≤ 3 := (abs_sub _ _).trans (by linarith)
  have e3 := near_trans (op_bound hu h3 ((abs_near q3).trans (c := 31 / 10) (by linarith))) q3
  exact ⟨e3.trans (by linarith), p3⟩

/-- a component of the vector (sox, coy) -/
theorem slope_error {v m s s' τ g g' q A : ℝ} (hu : 0 ≤ u) (hu' : u ≤ 1 / 1000000) (hv : |v| ≤ 1) (hm : |m| ≤ 1) (hs : |s| ≤ 1)
    (hτ : |τ| = 1) (hs' : |s' - s| ≤ 21 / 10 * u) (hg : |g| ≤ 3) (hg' : |g' - g| ≤ 9 * u)
    (h1 : |q - m * g'| ≤ u * (|m * g'| + 1 / 1000)) (h2 : |A - (v * s' + τ * q)| ≤ u * (|v * s' + τ * q| + 1 / 1000)) :
    |A - (v * s + τ * (m * g))| ≤ 19 * u ∧ |v * s + τ * (m * g)| ≤ 4 := by
  have q1 : |m * g' - m * g| ≤ 9 * u := by
    rw [← mul_sub]
    exact (abs_mul_le_of hm hg').trans (by linarith)
  have p1 := abs_mul_le_of hm hg
  have e1 := near_trans (op_bound hu h1 ((abs_near q1).trans (c := 31 / 10) (by linarith))) q1
  have q2 : |v * s' - v * s| ≤ 21 / 10 * u := by
    rw [← mul_sub]
    exact (abs_mul_le_of hv hs').trans (by linarith)
  have p2 := abs_mul_le_of hv hs
  have q3 : |τ * q - τ * (m * g)| ≤ u * (31 / 10 + 1 / 1000) + 9 * u := by
    rw [← mul_sub, abs_mul, hτ, one_mul]
    exact e1
  have p3 : |v * s + τ * (m * g)| ≤ 4 := by
    refine (abs_add_le _ _).trans ?_
    rw [abs_mul τ, hτ, one_mul]
    linarith
  have q4 := add_error q2 q3
  have e2 := near_trans (op_bound hu h2 ((abs_near q4).trans (c := 41 / 10) (by linarith))) q4
  exact ⟨e2.trans (by linarith), p3⟩

/-- the terms `2 dx sinph` and `2 dy cosph` -/
theorem twice_error {v s s' g g' t T : ℝ} (hu : 0 ≤ u) (hu' : u ≤ 1 / 1000000) (hv : |v| ≤ 1) (hs : |s| ≤ 1)
    (hs' : |s' - s| ≤ 21 / 10 * u) (hg : |g| ≤ 3) (hg' : |g' - g| ≤ 9 * u)
    (h1 : |t - 2 * g'| ≤ u * (|2 * g'| + 1 / 1000)) (h2 : |T - v * (t * s')| ≤ u * (|v * (t * s')| + 1 / 1000)) :
    |T - v * (2 * g * s)| ≤ 44 * u ∧ |v * (2 * g * s)| ≤ 6 := by
  have q1 : |2 * g' - 2 * g| ≤ 18 * u := by
    rw [← mul_sub, abs_mul, abs_two]
    linarith
  have p1 : |2 * g| ≤ 6 := by rw [abs_mul, abs_two]; linarith
  have e1 := near_trans (op_bound hu h1 ((abs_near q1).trans (c := 61 / 10) (by linarith))) q1
  have q2 := prod_error e1 hs'
  have s2 := abs_near hs'
  have q2' : |t * s' - 2 * g * s| ≤ 37 * u := by
    refine q2.trans ?_
    have k1 := mul_le_mul_of_nonneg_left (s2.trans (c := 101 / 100) (by linarith)) (show 0 ≤ u * (61 / 10 + 1 / 1000) + 18 * u by positivity)
    have k2 := mul_le_mul_of_nonneg_right p1 (show 0 ≤ 21 / 10 * u by positivity)
    linarith
  have p2 := abs_mul_le_of p1 hs
  have q3 : |v * (t * s') - v * (2 * g * s)| ≤ 37 * u := by
    rw [← mul_sub]
    exact (abs_mul_le_of hv q2').trans (by linarith)
  have p3 := abs_mul_le_of hv p2
  have e3 := near_trans (op_bound hu h2 ((abs_near q3).trans (c := 61 / 10) (by linarith))) q3
  exact ⟨e3.trans (by linarith), p3.trans (by norm_num)⟩

/-- the numerator of `gamma` -/
theorem num_error {m r T1 T2 t1 t2 T3 k1 k2 T5 g g' h h' G H Q K N : ℝ} (hu : 0 ≤ u) (hu' : u ≤ 1 / 1000000) (hm : |m| ≤ 1) (hr : |r| ≤ 1)
    (hg : |g| ≤ 3) (hg' : |g' - g| ≤ 9 * u) (hh : |h| ≤ 3) (hh' : |h' - h| ≤ 9 * u) (hT1 : |T1 - t1| ≤ 44 * u) (ht1 : |t1| ≤ 6)
    (hT2 : |T2 - t2| ≤ 44 * u) (ht2 : |t2| ≤ 6) (h3 : |T3 - (T1 - T2)| ≤ u * (|T1 - T2| + 1 / 1000))
    (hk1 : |k1 - m * r| ≤ u * (|m * r| + 1 / 1000)) (hk2 : |k2 - k1 * r| ≤ u * (|k1 * r| + 1 / 1000))
    (h5 : |T5 - (T3 - k2)| ≤ u * (|T3 - k2| + 1 / 1000)) (hG : |G - g' * g'| ≤ u * (|g' * g'| + 1 / 1000))
    (hH : |H - h' * h'| ≤ u * (|h' * h'| + 1 / 1000)) (hQ : |Q - (G + H)| ≤ u * (|G + H| + 1 / 1000))
    (hK : |K - m * Q| ≤ u * (|m * Q| + 1 / 1000)) (hN : |N - (T5 - K)| ≤ u * (|T5 - K| + 1 / 1000)) :
    |N - (t1 - t2 - m * r * r - m * (g * g + h * h))| ≤ 320 * u ∧ |t1 - t2 - m * r * r - m * (g * g + h * h)| ≤ 31 := by
  have q3 := sub_error hT1 hT2
  have p3 : |t1 - t2| ≤ 12 := (abs_sub _ _).trans (by linarith)
  have e3 := near_trans (op_bound hu h3 ((abs_near q3).trans (c := 121 / 10) (by linarith))) q3
  have p4 := abs_mul_le_of hm hr
  have e4 := op_bound hu hk1 p4
  have q5 : |k1 * r - m * r * r| ≤ u * (1 * 1 + 1 / 1000) * 1 := by
    rw [← sub_mul]
    exact abs_mul_le_of e4 hr
  have p5 := abs_mul_le_of p4 hr
  have e5 := near_trans (op_bound hu hk2 ((abs_near q5).trans (c := 11 / 10) (by linarith))) q5
  have q6 := sub_error e3 e5
  have p6 : |t1 - t2 - m * r * r| ≤ 13 := (abs_sub _ _).trans (by linarith)
  have e6 := near_trans (op_bound hu h5 ((abs_near q6).trans (c := 131 / 10) (by linarith))) q6
  have sq : ∀ {x x' X : ℝ}, |x| ≤ 3 → |x' - x| ≤ 9 * u → |X - x' * x'| ≤ u * (|x' * x'| + 1 / 1000) → |X - x * x| ≤ 64 * u ∧ |x * x| ≤ 9 := by
    intro x x' X hx hx' hX
    have q := prod_error hx' hx'
    have q' : |x' * x' - x * x| ≤ 541 / 10 * u := by
      refine q.trans ?_
      have k1 := mul_le_mul_of_nonneg_left ((abs_near hx').trans (c := 301 / 100) (by linarith)) (show 0 ≤ 9 * u by positivity)
      have k2 := mul_le_mul_of_nonneg_right hx (show 0 ≤ 9 * u by positivity)
      linarith
    have p := abs_mul_le_of hx hx
    exact ⟨(near_trans (op_bound hu hX ((abs_near q').trans (c := 91 / 10) (by linarith))) q').trans (by linarith), p.trans (by norm_num)⟩
  obtain ⟨e7, p7⟩ := sq hg hg' hG
  obtain ⟨e8, p8⟩ := sq hh hh' hH
  have q9 := add_error e7 e8
  have p9 : |g * g + h * h| ≤ 18 := (abs_add_le _ _).trans (by linarith)
  have e9 := near_trans (op_bound hu hQ ((abs_near q9).trans (c := 181 / 10) (by linarith))) q9
  have q10 : |m * Q - m * (g * g + h * h)| ≤ 147 * u := by
    rw [← mul_sub]
    exact (abs_mul_le_of hm e9).trans (by linarith)
  have p10 := abs_mul_le_of hm p9
  have e10 := near_trans (op_bound hu hK ((abs_near q10).trans (c := 181 / 10) (by linarith))) q10
  have q11 := sub_error e6 e10
  have p11 : |t1 - t2 - m * r * r - m * (g * g + h * h)| ≤ 31 := (abs_sub _ _).trans (by linarith)
  have e11 := near_trans (op_bound hu hN ((abs_near q11).trans (c := 311 / 10) (by linarith))) q11
  exact ⟨e11.trans (by linarith), p11⟩

/-- lengths of vectors next to each other -/
theorem length_error {A B A' B' α β : ℝ} (hA : |A' - A| ≤ α) (hB : |B' - B| ≤ β) :
    |√(A' ^ 2 + B' ^ 2) - √(A ^ 2 + B ^ 2)| ≤ α + β := by
  have e : ∀ x y : ℝ, |x| ≤ √(x ^ 2 + y ^ 2) ∧ |y| ≤ √(x ^ 2 + y ^ 2) := fun x y =>
    ⟨Real.abs_le_sqrt (by nlinarith [sq_nonneg y]), Real.abs_le_sqrt (by nlinarith [sq_nonneg x])⟩
  obtain ⟨a1, b1⟩ := e A B
  obtain ⟨a2, b2⟩ := e A' B'
  have s1 := Real.mul_self_sqrt (show 0 ≤ A ^ 2 + B ^ 2 by positivity)
  have s2 := Real.mul_self_sqrt (show 0 ≤ A' ^ 2 + B' ^ 2 by positivity)
  have n1 := Real.sqrt_nonneg (A ^ 2 + B ^ 2)
  have n2 := Real.sqrt_nonneg (A' ^ 2 + B' ^ 2)
  generalize √(A ^ 2 + B ^ 2) = n at *
  generalize √(A' ^ 2 + B' ^ 2) = n' at *
  have k1 : (n' - n) * (n' + n) = (A' - A) * (A' + A) + (B' - B) * (B' + B) := by linarith
  have k2 : |n' - n| * (n' + n) ≤ (α + β) * (n' + n) := by
    rw [← abs_of_nonneg (show 0 ≤ n' + n by linarith), ← abs_mul, k1, abs_of_nonneg (show 0 ≤ n' + n by linarith), add_mul]
    exact (abs_add_le _ _).trans (add_le_add (abs_mul_le_of hA ((abs_add_le _ _).trans (by linarith)))
      (abs_mul_le_of hB ((abs_add_le _ _).trans (by linarith))))
  rcases eq_or_lt_of_le (show 0 ≤ n' + n by linarith) with h | h
  · have : n' = 0 := by linarith
    have : n = 0 := by linarith
    subst_vars
    simp only [sub_self, abs_zero]
    exact add_nonneg ((abs_nonneg _).trans hA) ((abs_nonneg _).trans hB)
  · exact le_of_mul_le_mul_right k2 h

/-- the square root in the denominator of `gamma` -/
theorem slope_norm_error {A B A' B' qa qb Q w n n' : ℝ} (hu : 0 ≤ u) (hu' : u ≤ 1 / 2 ^ 52) (hA : |A| ≤ 4) (hB : |B| ≤ 4) (hA' : |A' - A| ≤ 19 * u)
    (hB' : |B' - B| ≤ 19 * u) (en : n = √(A ^ 2 + B ^ 2)) (en' : n' = √(A' ^ 2 + B' ^ 2)) (hn : 1 / 2 ^ 40 ≤ n)
    (h1 : |qa - A' * A'| ≤ u * (|A' * A'| + 1 / 2 ^ 100)) (h2 : |qb - B' * B'| ≤ u * (|B' * B'| + 1 / 2 ^ 100))
    (h3 : |Q - (qa + qb)| ≤ u * (|qa + qb| + 1 / 2 ^ 100)) (h4 : |w - √Q| ≤ u * (|√Q| + 1 / 1000)) :
    |n' - n| ≤ 38 * u ∧ |w - n'| ≤ 20 * u ∧ 1 / 2 ^ 41 ≤ n' ∧ n' ≤ 6 ∧ 0 < Q := by
  have nn : |n' - n| ≤ 38 * u := by
    rw [en, en']
    exact (length_error hA' hB').trans (by linarith)
  have u1 : (1 : ℝ) / 2 ^ 52 ≤ 1 / 2 ^ 6 * (1 / 2 ^ 41) / 19 := by norm_num
  obtain ⟨l1, l2⟩ := abs_le.1 nn
  have c40 : (1 : ℝ) / 2 ^ 40 = 2 * (1 / 2 ^ 41) := by norm_num
  have n'1 : 1 / 2 ^ 41 ≤ n' := by
    have : 38 * u ≤ 1 / 2 ^ 41 := by norm_num at hu' ⊢; linarith
    linarith
  have n6 : n ≤ 59 / 10 := by
    rw [en]
    refine (Real.sqrt_le_left (by norm_num)).2 ?_
    have k1 := sq_le_sq' (abs_le.1 hA).1 (abs_le.1 hA).2
    have k2 := sq_le_sq' (abs_le.1 hB).1 (abs_le.1 hB).2
    norm_num at k1 k2 ⊢
    linarith
  have hu6 : u ≤ 1 / 1000000 := hu'.trans (by norm_num)
  have n'6 : n' ≤ 6 := by linarith
  have n'0 : 0 < n' := lt_of_lt_of_le (by positivity) n'1
  have s' : n' * n' = A' * A' + B' * B' := by
    rw [en', Real.mul_self_sqrt (by positivity)]
    ring
  have a0 := mul_self_nonneg A'
  have b0 := mul_self_nonneg B'
  rw [abs_of_nonneg a0] at h1
  rw [abs_of_nonneg b0] at h2
  have ε0 : (0 : ℝ) < 1 / 2 ^ 100 := by positivity
  have εn : (1 : ℝ) / 2 ^ 100 ≤ 1 / 1000 * (n' * n') := by
    have := mul_self_le_mul_self (by positivity) n'1
    refine le_trans ?_ (mul_le_mul_of_nonneg_left this (by norm_num))
    norm_num
  have q1 := add_error h1 h2
  have q1' : |qa + qb - (A' * A' + B' * B')| ≤ u * (1002 / 1000 * (n' * n')) := by
    refine q1.trans ?_
    have := mul_le_mul_of_nonneg_left εn hu
    rw [s'] at this ⊢
    linarith
  rw [← s'] at q1'
  have nn0 : 0 < n' * n' := by positivity
  have k0 := mul_le_mul_of_nonneg_right hu6 nn0.le
  have q2 : |qa + qb| ≤ 1001 / 1000 * (n' * n') := by
    have := abs_near q1'
    rw [abs_of_pos nn0] at this
    linarith
  have q3 : |Q - n' * n'| ≤ u * (21 / 10 * (n' * n')) := by
    refine (near_trans h3 q1').trans ?_
    have k1 := mul_le_mul_of_nonneg_left q2 hu
    have k2 := mul_le_mul_of_nonneg_left εn hu
    linarith
  have Q0 : 0 < Q := by
    have := (abs_le.1 q3).1
    linarith
  have q4 : |√Q - n'| ≤ u * (21 / 10 * n') := by
    have := root_error Q0.le nn0 q3
    rw [Real.sqrt_mul_self n'0.le] at this
    refine this.trans (le_of_eq ?_)
    field_simp
  have q5 : |√Q| ≤ 61 / 10 := by
    have := abs_near q4
    rw [abs_of_pos n'0] at this
    have k := mul_le_mul hu6 (show 21 / 10 * n' ≤ 21 / 10 * 6 by linarith) (by positivity) (by norm_num)
    linarith
  have q6 := near_trans (op_bound hu h4 q5) q4
  refine ⟨nn, q6.trans ?_, n'1, n'6, Q0⟩
  have := mul_le_mul_of_nonneg_left n'6 hu
  linarith

/-- the denominator of `gamma` -/
theorem den_error {r D1 w n' den : ℝ} (hu : 0 ≤ u) (hu' : u ≤ 1 / 2 ^ 52) (hr : 1 / 2 ^ 40 ≤ r) (hr1 : r ≤ 1) (hn : 1 / 2 ^ 41 ≤ n')
    (hn' : n' ≤ 6) (hw : |w - n'| ≤ 20 * u) (h1 : |D1 - 2 * r| ≤ u * (|2 * r| + 1 / 2 ^ 100)) (h2 : |den - D1 * w| ≤ u * (|D1 * w| + 1 / 2 ^ 100)) :
    |den - 2 * r * n'| ≤ 70 * u ∧ 1 / 2 ^ 90 ≤ den ∧ 0 < w ∧ den ≤ 13 := by
  have hu6 : u ≤ 1 / 1000000 := hu'.trans (by norm_num)
  have r0 : 0 < r := lt_of_lt_of_le (by positivity) hr
  have n0 : 0 < n' := lt_of_lt_of_le (by positivity) hn
  have w0 : 1 / 2 ^ 42 ≤ w := by
    have := (abs_le.1 hw).1
    have k : 20 * u ≤ 1 / 2 ^ 42 := by norm_num at hu' ⊢; linarith
    have : (1 : ℝ) / 2 ^ 41 = 2 * (1 / 2 ^ 42) := by norm_num
    linarith
  have w0' : 0 < w := lt_of_lt_of_le (by positivity) w0
  have w7 : w ≤ 61 / 10 := by
    have := (abs_le.1 hw).2
    linarith
  rw [abs_of_pos (show 0 < 2 * r by linarith)] at h1
  have ε : (1 : ℝ) / 2 ^ 100 ≤ 1 / 1000 * r := by
    have := mul_le_mul_of_nonneg_left hr (show (0 : ℝ) ≤ 1 / 1000 by norm_num)
    refine le_trans ?_ this
    norm_num
  have e1 : |D1 - 2 * r| ≤ u * (21 / 10 * r) := h1.trans (mul_le_mul_of_nonneg_left (by linarith) hu)
  have k0 := mul_le_mul_of_nonneg_right hu6 r0.le
  obtain ⟨l1, l2⟩ := abs_le.1 e1
  have D0 : r ≤ D1 := by linarith
  have D3 : D1 ≤ 21 / 10 * r := by linarith
  have Dw : 0 < D1 * w := mul_pos (by linarith) w0'
  rw [abs_of_pos Dw] at h2
  have ε2 : (1 : ℝ) / 2 ^ 100 ≤ 1 / 1000 * (D1 * w) := by
    have := mul_le_mul (hr.trans D0) w0 (by positivity) (by linarith)
    refine le_trans ?_ (mul_le_mul_of_nonneg_left this (by norm_num))
    norm_num
  have e2 : |den - D1 * w| ≤ u * (11 / 10 * (D1 * w)) := h2.trans (mul_le_mul_of_nonneg_left (by linarith) hu)
  have k1 := mul_le_mul_of_nonneg_right hu6 Dw.le
  have Dw13 : D1 * w ≤ 1281 / 100 := by
    have := mul_le_mul (show D1 ≤ 21 / 10 by linarith) w7 w0'.le (by norm_num)
    linarith
  refine ⟨?_, ?_, w0', ?_⟩
  · have q := prod_error e1 hw
    rw [abs_of_pos w0', abs_of_pos (show 0 < 2 * r by linarith)] at q
    have t := near_trans e2 q
    refine t.trans ?_
    have a1 := mul_le_mul_of_nonneg_left Dw13 hu
    have a2 : u * (21 / 10 * r) * w ≤ u * (21 / 10 * 1) * (61 / 10) :=
      mul_le_mul (mul_le_mul_of_nonneg_left (by linarith) hu) w7 w0'.le (by positivity)
    have a3 := mul_le_mul_of_nonneg_right hr1 (show 0 ≤ 20 * u by positivity)
    linarith
  · have := (abs_le.1 e2).1
    have k2 := mul_le_mul (hr.trans D0) w0 (by positivity) (by linarith)
    have k3 : (1 : ℝ) / 2 ^ 90 ≤ 1 / 2 * (1 / 2 ^ 40 * (1 / 2 ^ 42)) := by norm_num
    linarith
  · have := (abs_le.1 e2).2
    linarith

/-- `gamma`, if it is not above 1 -/
theorem gamma_error {N N' den γ t : ℝ} (hu : 0 ≤ u) (hu' : u ≤ 1 / 1000000) (hN : |N' - N| ≤ 320 * u) (ht : |den - t| ≤ 70 * u) (h0 : 0 < den)
    (h13 : den ≤ 13) (hγ : |γ - N' / den| ≤ u * (|N' / den| + 1 / 1000)) (h1 : |γ| ≤ 1) : |N - t * γ| ≤ 410 * u := by
  have k1 : |N' / den| ≤ 101 / 100 := by
    have := abs_near (by rwa [abs_sub_comm] at hγ : |N' / den - γ| ≤ u * (|N' / den| + 1 / 1000))
    have k := mul_le_mul_of_nonneg_right hu' (show 0 ≤ |N' / den| + 1 / 1000 by positivity)
    linarith
  have k2 := op_bound hu hγ k1
  have k3 : |γ * den - N'| ≤ u * (101 / 100 + 1 / 1000) * 13 := by
    have e : γ * den - N' = (γ - N' / den) * den := by field_simp
    rw [e]
    exact abs_mul_le_of k2 (by rwa [abs_of_pos h0])
  have k4 : |t * γ - γ * den| ≤ 70 * u * 1 := by
    rw [show t * γ - γ * den = (t - den) * γ by ring]
    exact abs_mul_le_of (by rwa [abs_sub_comm] at ht) h1
  have k5 := near_trans (near_trans k4 k3) hN
  rw [abs_sub_comm] at k5
  exact k5.trans (by linarith)

/-- `gamma` is not above 1, if the numerator stays below the denominator -/
theorem gamma_small {N N' den t n n' r : ℝ} (hu : 0 ≤ u) (hr0 : 0 ≤ r) (hr : r ≤ 1) (hN : |N' - N| ≤ 320 * u)
    (ht : |den - t| ≤ 70 * u) (et : t = 2 * r * n') (hn : |n' - n| ≤ 38 * u) (h0 : 0 < den) (h : |N| + 512 * u ≤ 2 * r * n) :
    |N' / den| ≤ 1 := by
  have k1 := abs_near hN
  have k2 := (abs_le.1 ht).1
  have k3 : |2 * r * n' - 2 * r * n| ≤ 2 * (38 * u) := by
    rw [← mul_sub]
    refine abs_mul_le_of ?_ hn
    rw [abs_of_nonneg (by linarith)]
    linarith
  have k4 := (abs_le.1 k3).1
  rw [abs_div, abs_of_pos h0, div_le_one h0]
  linarith

/-- `gamma` is above 1, if the numerator stays above the denominator -/
theorem gamma_large {N N' den t n n' r γ : ℝ} (hu : 0 < u) (hu' : u ≤ 1 / 1000000) (hr0 : 0 ≤ r) (hr : r ≤ 1) (hN : |N' - N| ≤ 320 * u)
    (ht : |den - t| ≤ 70 * u) (et : t = 2 * r * n') (hn : |n' - n| ≤ 38 * u) (h0 : 0 < den) (h13 : den ≤ 13)
    (hγ : |γ - N' / den| ≤ u * (|N' / den| + 1 / 1000)) (h : 2 * r * n + 512 * u ≤ |N|) : 1 < |γ| := by
  have k1 := abs_near (by rwa [abs_sub_comm] at hN : |N - N'| ≤ 320 * u)
  have k2 := (abs_le.1 ht).2
  have k3 : |2 * r * n' - 2 * r * n| ≤ 2 * (38 * u) := by
    rw [← mul_sub]
    refine abs_mul_le_of ?_ hn
    rw [abs_of_nonneg (by linarith)]
    linarith
  have k4 := (abs_le.1 k3).2
  have k5 : 1 + 3 * u ≤ |N' / den| := by
    rw [abs_div, abs_of_pos h0, le_div_iff₀ h0]
    have := mul_le_mul_of_nonneg_left h13 hu.le
    linarith
  have k6 := abs_near (by rwa [abs_sub_comm] at hγ : |N' / den - γ| ≤ u * (|N' / den| + 1 / 1000))
  by_contra hc
  have hc := not_lt.1 hc
  have k7 : |N' / den| ≤ 101 / 100 := by
    have k := mul_le_mul_of_nonneg_right hu' (show 0 ≤ |N' / den| + 1 / 1000 by positivity)
    linarith
  have k8 := mul_le_mul_of_nonneg_left k7 hu.le
  linarith

/-- the two angles of the crossings -/
theorem crossing_angle_error {γ a θ th σ P e φ0 φ1 : ℝ} (hu : 0 ≤ u) (hu' : u ≤ 1 / 1000000) (hσ : |σ| = 1) (hP : |P - Real.pi| ≤ 2 * u)
    (hθ : |θ| ≤ Real.pi) (ha : |a - Real.arcsin γ| ≤ 2 * u * |Real.arcsin γ| + u / 1000) (ht : |th - θ| ≤ 2 * u * |θ| + u / 1000)
    (h0 : |φ0 - (a + th)| ≤ u * (|a + th| + 1 / 1000)) (h1 : |e - (σ * P - a)| ≤ u * (|σ * P - a| + 1 / 1000))
    (h2 : |φ1 - (e + th)| ≤ u * (|e + th| + 1 / 1000)) :
    |φ0 - (Real.arcsin γ + θ)| ≤ 26 * u ∧ |φ1 - (σ * Real.pi - Real.arcsin γ + θ)| ≤ 26 * u ∧ |a| ≤ 2 ∧ |th| ≤ 4 ∧ |e| ≤ 6 := by
  have π1 := Real.pi_lt_d2
  have π0 := Real.pi_pos
  have as1 : |Real.arcsin γ| ≤ 158 / 100 := by
    have := Real.arcsin_le_pi_div_two γ
    have := Real.neg_pi_div_two_le_arcsin γ
    rw [abs_le]
    constructor <;> linarith
  have a1 : |a - Real.arcsin γ| ≤ 32 / 10 * u := by
    have := mul_le_mul_of_nonneg_left as1 (show 0 ≤ 2 * u by positivity)
    linarith
  have θ1 : |θ| ≤ 315 / 100 := by linarith
  have t1 : |th - θ| ≤ 64 / 10 * u := by
    have := mul_le_mul_of_nonneg_left θ1 (show 0 ≤ 2 * u by positivity)
    linarith
  have q0 := add_error a1 t1
  have p0 : |Real.arcsin γ + θ| ≤ 473 / 100 := (abs_add_le _ _).trans (by linarith)
  have e0 := near_trans (op_bound hu h0 ((abs_near q0).trans (c := 48 / 10) (by linarith))) q0
  have q1 : |σ * P - σ * Real.pi| ≤ 2 * u := by rwa [← mul_sub, abs_mul, hσ, one_mul]
  have q2 := sub_error q1 a1
  have p2 : |σ * Real.pi - Real.arcsin γ| ≤ 473 / 100 := by
    refine (abs_sub _ _).trans ?_
    rw [abs_mul, hσ, one_mul, abs_of_pos π0]
    linarith
  have e1 := near_trans (op_bound hu h1 ((abs_near q2).trans (c := 48 / 10) (by linarith))) q2
  have q3 := add_error e1 t1
  have p3 : |σ * Real.pi - Real.arcsin γ + θ| ≤ 788 / 100 := (abs_add_le _ _).trans (by linarith)
  have e3 := near_trans (op_bound hu h2 ((abs_near q3).trans (c := 79 / 10) (by linarith))) q3
  exact ⟨e0.trans (by linarith), e3.trans (by linarith), (abs_near a1).trans (by linarith), (abs_near t1).trans (by linarith),
    (abs_near e1).trans (by linarith)⟩

/-- a coordinate of a crossing -/
theorem place_error {a r t t' p X : ℝ} (hu : 0 ≤ u) (hu' : u ≤ 1 / 1000000) (ha : |a| ≤ 1) (hr : |r| ≤ 1) (ht : |t| ≤ 1) (ht' : |t' - t| ≤ 29 * u)
    (h1 : |p - r * t'| ≤ u * (|r * t'| + 1 / 1000)) (h2 : |X - (a + p)| ≤ u * (|a + p| + 1 / 1000)) : |X - (a + r * t)| ≤ 33 * u := by
  have q1 : |r * t' - r * t| ≤ 29 * u := by
    rw [← mul_sub]
    exact (abs_mul_le_of hr ht').trans (by linarith)
  have p1 := abs_mul_le_of hr ht
  have e1 := near_trans (op_bound hu h1 ((abs_near q1).trans (c := 11 / 10) (by linarith))) q1
  have q2 := add_error (show |a - a| ≤ 0 by simp) e1
  have p2 : |a + r * t| ≤ 2 := (abs_add_le _ _).trans (by linarith)
  have e2 := near_trans (op_bound hu h2 ((abs_near q2).trans (c := 21 / 10) (by linarith))) q2
  exact e2.trans (by linarith)

/-- position of a point relative to the track: zero on the circle of the track; `x`, `y` are relative to the point of closest approach -/
def side (m v s c x y : ℝ) : ℝ := m * (x ^ 2 + y ^ 2) - 2 * v * (x * s - y * c)

/-- points of the cylinder -/
theorem side_cylinder (m v s c g h r ψ : ℝ) : side m v s c (g + r * Real.cos ψ) (h + r * Real.sin ψ) =
    -(v * (2 * g * s) - v * (2 * h * c) - m * r * r - m * (g * g + h * h)) -
      2 * r * ((v * s - m * g) * Real.cos ψ - (v * c + m * h) * Real.sin ψ) := by
  unfold side
  linear_combination m * r ^ 2 * Real.sin_sq_add_cos_sq ψ

/-- the exact point of the cylinder for the computed `gamma` is next to the track -/
theorem side_angle {m v s c g h r ψ θ γ N A B n' : ℝ} (hr0 : 0 ≤ r) (hr : r ≤ 1)
    (eN : N = v * (2 * g * s) - v * (2 * h * c) - m * r * r - m * (g * g + h * h))
    (hA : |A - (v * s - m * g)| ≤ 19 * u) (hB : |B - (v * c + m * h)| ≤ 19 * u) (eA : A = n' * Real.sin θ) (eB : B = n' * Real.cos θ)
    (hψ : Real.sin (ψ - θ) = γ) (hN : |N - 2 * r * n' * γ| ≤ 410 * u) :
    |side m v s c (g + r * Real.cos ψ) (h + r * Real.sin ψ)| ≤ 486 * u := by
  rw [side_cylinder, ← eN]
  have e : -N - 2 * r * ((v * s - m * g) * Real.cos ψ - (v * c + m * h) * Real.sin ψ) =
      -(N - 2 * r * n' * γ) + 2 * r * ((A - (v * s - m * g)) * Real.cos ψ - (B - (v * c + m * h)) * Real.sin ψ) := by
    rw [← hψ, Real.sin_sub, eA, eB]
    ring
  rw [e]
  refine (abs_add_le _ _).trans ?_
  rw [abs_neg]
  have k1 := abs_mul_le_of hA (Real.abs_cos_le_one ψ)
  have k2 := abs_mul_le_of hB (Real.abs_sin_le_one ψ)
  have k3 := (abs_sub _ _).trans (add_le_add k1 k2)
  have k4 := abs_mul_le_of (show |2 * r| ≤ 2 by rw [abs_of_nonneg (by linarith)]; linarith) k3
  linarith

/-- the computed point is next to the track -/
theorem side_moved {m v s c x y x' y' : ℝ} (hu : 0 ≤ u) (hu' : u ≤ 1 / 1000000) (hm : |m| ≤ 1) (hv : |v| ≤ 1) (hs : |s| ≤ 1) (hc : |c| ≤ 1)
    (hx : |x| ≤ 4) (hy : |y| ≤ 4) (hx' : |x' - x| ≤ 33 * u) (hy' : |y' - y| ≤ 33 * u) (h : |side m v s c x y| ≤ 486 * u) :
    |side m v s c x' y'| ≤ 1200 * u := by
  have e : side m v s c x' y' = side m v s c x y + (m * ((x' ^ 2 - x ^ 2) + (y' ^ 2 - y ^ 2)) - 2 * v * ((x' - x) * s - (y' - y) * c)) := by
    unfold side
    ring
  rw [e]
  have k1 := add_error (sq_error hx' hx) (sq_error hy' hy)
  have k2 : |x' ^ 2 - x ^ 2 + (y' ^ 2 - y ^ 2)| ≤ 532 * u := by
    rw [add_sub_add_comm] at k1
    refine k1.trans ?_
    have : 33 * u * (2 * 4 + 33 * u) ≤ 33 * u * (805 / 100) := mul_le_mul_of_nonneg_left (by linarith) (by positivity)
    linarith
  have k3 := abs_mul_le_of hm k2
  have k4 := (abs_sub _ _).trans (add_le_add (abs_mul_le_of hx' hs) (abs_mul_le_of hy' hc))
  have k5 := abs_mul_le_of (show |2 * v| ≤ 2 by rw [abs_mul, abs_two]; linarith) k4
  refine (abs_add_le _ _).trans ((add_le_add h ((abs_sub _ _).trans (add_le_add k3 k5))).trans ?_)
  linarith

/-- two directions with nearly the same sine -/
theorem sine_cases {α β δ : ℝ} (h : |Real.sin α - Real.sin β| ≤ δ) :
    Real.sin ((α - β) / 2) ^ 2 ≤ δ / 2 ∨ Real.cos ((α + β) / 2) ^ 2 ≤ δ / 2 := by
  rw [Real.sin_sub_sin] at h
  by_contra hc
  rw [not_or, not_le, not_le] at hc
  obtain ⟨h1, h2⟩ := hc
  have δ0 : 0 ≤ δ := (abs_nonneg _).trans h
  have k := mul_lt_mul'' h1 h2 (by linarith) (by linarith)
  have k2 := pow_le_pow_left₀ (abs_nonneg _) h 2
  rw [sq_abs] at k2
  nlinarith

/-- the distance of two points of a circle -/
theorem chord_sq (r φ ψ : ℝ) : (r * Real.cos φ - r * Real.cos ψ) ^ 2 + (r * Real.sin φ - r * Real.sin ψ) ^ 2 =
    4 * r ^ 2 * Real.sin ((φ - ψ) / 2) ^ 2 := by
  rw [← mul_sub, ← mul_sub, Real.cos_sub_cos, Real.sin_sub_sin]
  linear_combination 4 * r ^ 2 * Real.sin ((φ - ψ) / 2) ^ 2 * Real.sin_sq_add_cos_sq ((φ + ψ) / 2)

/-- an exact crossing at the angle `φ` -/
theorem side_exact {m v s c g h r φ θ N A B n' : ℝ} (hr0 : 0 ≤ r) (hr : r ≤ 1)
    (eN : N = v * (2 * g * s) - v * (2 * h * c) - m * r * r - m * (g * g + h * h))
    (hA : |A - (v * s - m * g)| ≤ 19 * u) (hB : |B - (v * c + m * h)| ≤ 19 * u) (eA : A = n' * Real.sin θ) (eB : B = n' * Real.cos θ)
    (h0 : side m v s c (g + r * Real.cos φ) (h + r * Real.sin φ) = 0) : |N - 2 * r * n' * Real.sin (φ - θ)| ≤ 76 * u := by
  rw [side_cylinder, ← eN] at h0
  have e : N - 2 * r * n' * Real.sin (φ - θ) =
      2 * r * ((A - (v * s - m * g)) * Real.cos φ - (B - (v * c + m * h)) * Real.sin φ) := by
    rw [Real.sin_sub, eA, eB]
    linear_combination -h0
  rw [e]
  have k1 := abs_mul_le_of hA (Real.abs_cos_le_one φ)
  have k2 := abs_mul_le_of hB (Real.abs_sin_le_one φ)
  have k3 := (abs_sub _ _).trans (add_le_add k1 k2)
  have k4 := abs_mul_le_of (show |2 * r| ≤ 2 by rw [abs_of_nonneg (by linarith)]; linarith) k3
  linarith

end Rnd

end Verif
