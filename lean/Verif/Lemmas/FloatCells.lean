import Verif.Props.UnitTestsCompare

/-!
# Numbers of type `float` next to a real number

Used for the tests of the program of unit tests.
-/

open Classical

noncomputable section

namespace Verif

open Dbl Rnd UT

variable {fl sl : ℝ → ℝ}

/-- the number of type `float` next to `x` is `m / 2^k` if the distance is less than half of the spacing `1 / 2^k` -/
theorem float_cell (h : NearestF 24 149 sl) {m : ℤ} {k : ℕ} (hk : k ≤ 149) (h1 : 2 ^ 23 < |m|) (h2 : |m| ≤ 2 ^ 24) {x : ℝ}
    (hx : |x - m / 2 ^ k| < 1 / 2 ^ (k + 1)) : sl x = m / 2 ^ k := by
  obtain ⟨e, he⟩ := Nat.exists_eq_add_of_le hk
  have p149 : (2 : ℝ) ^ 149 = 2 ^ k * 2 ^ e := by rw [he, pow_add]
  have pk : (0 : ℝ) < 2 ^ k := by positivity
  have pe : (0 : ℝ) < 2 ^ e := by positivity
  have r : RepF 24 149 (m / 2 ^ k : ℝ) := ⟨m, e, h2, by rw [p149]; field_simp⟩
  have n := h.near x _ r
  rw [abs_sub_comm ((m : ℝ) / 2 ^ k) x] at n
  have d : |sl x - m / 2 ^ k| < 1 / 2 ^ k := by
    have := abs_add_le (sl x - x) (x - m / 2 ^ k)
    rw [show sl x - x + (x - m / 2 ^ k) = sl x - m / 2 ^ k by ring] at this
    have half : (1 : ℝ) / 2 ^ (k + 1) = 1 / 2 ^ k / 2 := by rw [pow_succ]; field_simp
    rw [half] at hx
    linarith
  obtain ⟨m', e', hm', hv⟩ := h.rep x
  have d' : |(m' : ℝ) * 2 ^ e' - m * 2 ^ e| < 2 ^ e := by
    have : (m' : ℝ) * 2 ^ e' - m * 2 ^ e = (sl x - m / 2 ^ k) * (2 ^ k * 2 ^ e) := by
      rw [← hv, p149]; field_simp
    rw [this, abs_mul, abs_of_pos (by positivity : (0 : ℝ) < 2 ^ k * 2 ^ e)]
    calc |sl x - m / 2 ^ k| * (2 ^ k * 2 ^ e) < 1 / 2 ^ k * (2 ^ k * 2 ^ e) := by
          exact mul_lt_mul_of_pos_right d (by positivity)
      _ = 2 ^ e := by field_simp
  have dz : |m' * 2 ^ e' - m * 2 ^ e| < (2 : ℤ) ^ e := by
    have : ((|m' * 2 ^ e' - m * 2 ^ e| : ℤ) : ℝ) < ((2 ^ e : ℤ) : ℝ) := by
      push_cast
      exact d'
    exact_mod_cast this
  have key : m' * 2 ^ e' = m * 2 ^ e := by
    by_cases hle : e ≤ e'
    · obtain ⟨j, rfl⟩ := Nat.exists_eq_add_of_le hle
      have e1 : m' * 2 ^ (e + j) - m * 2 ^ e = (m' * 2 ^ j - m) * 2 ^ e := by rw [pow_add]; ring
      rw [e1, abs_mul, abs_of_pos (by positivity : (0 : ℤ) < 2 ^ e)] at dz
      have : |m' * 2 ^ j - m| < 1 := by
        by_contra hge
        have := mul_le_mul_of_nonneg_right (not_lt.1 hge) (by positivity : (0 : ℤ) ≤ 2 ^ e)
        linarith
      have z := Int.abs_lt_one_iff.1 this
      have : m' * 2 ^ j = m := by omega
      rw [← this, pow_add]; ring
    · exfalso
      obtain ⟨j, rfl⟩ := Nat.exists_eq_add_of_lt (not_le.1 hle)
      have b1 : |m' * 2 ^ e'| ≤ 2 ^ 24 * 2 ^ e' := by
        rw [abs_mul, abs_of_pos (by positivity : (0 : ℤ) < 2 ^ e')]
        exact mul_le_mul_of_nonneg_right hm' (by positivity)
      have b2 : (2 : ℤ) ^ 24 * 2 ^ e' ≤ 2 ^ 23 * 2 ^ (e' + j + 1) := by
        rw [pow_succ 2 (e' + j), pow_add 2 e' j]
        have : (1 : ℤ) ≤ 2 ^ j := one_le_pow₀ (by norm_num)
        have := mul_le_mul_of_nonneg_left this (by positivity : (0 : ℤ) ≤ 2 ^ e')
        rw [mul_one] at this
        generalize (2 : ℤ) ^ e' * 2 ^ j = w at *
        generalize (2 : ℤ) ^ e' = v at *
        norm_num
        linarith
      have b3 : |m * 2 ^ (e' + j + 1)| = |m| * 2 ^ (e' + j + 1) := by
        rw [abs_mul, abs_of_pos (by positivity : (0 : ℤ) < 2 ^ (e' + j + 1))]
      have b4 : (2 ^ 23 + 1) * 2 ^ (e' + j + 1) ≤ |m| * (2 : ℤ) ^ (e' + j + 1) :=
        mul_le_mul_of_nonneg_right (by omega) (by positivity)
      have b5 := abs_sub_abs_le_abs_sub (m * 2 ^ (e' + j + 1)) (m' * 2 ^ e')
      rw [abs_sub_comm, b3] at b5
      linarith
  have : (m' : ℝ) * 2 ^ e' = m * 2 ^ e := by exact_mod_cast key
  rw [eq_div_iff pk.ne']
  have hh : sl x * (2 ^ k * 2 ^ e) = m * 2 ^ e := by rw [← p149, hv, this]
  exact mul_right_cancel₀ pe.ne' (by rw [← hh]; ring)

/-- two numbers that are equal for `floatCompare`, and still are if both are changed by up to 1e-12 -/
def Stable (x y : ℝ) : Prop :=
  (|x| ≤ 1 / 200 ∧ |y| ≤ 1 / 200 ∧ |x - y| ≤ 1 / 10 ^ 10) ∨
  ∃ (m : ℤ) (k : ℕ), k ≤ 149 ∧ 2 ^ 23 < |m| ∧ |m| ≤ 2 ^ 24 ∧ |x - m / 2 ^ k| + 1 / 10 ^ 12 < 1 / 2 ^ (k + 1) ∧
    |y - m / 2 ^ k| + 1 / 10 ^ 12 < 1 / 2 ^ (k + 1)

theorem cell_bound {m : ℤ} {k : ℕ} (h2 : |m| ≤ 2 ^ 24) {x : ℝ} (hx : |x - m / 2 ^ k| < 1 / 2 ^ (k + 1)) : |x| ≤ 2 ^ 127 := by
  have a : |(m : ℝ) / 2 ^ k| ≤ 2 ^ 24 := by
    rw [abs_div, abs_of_pos (by positivity : (0 : ℝ) < 2 ^ k)]
    have h3 : |(m : ℝ)| ≤ 2 ^ 24 := by exact_mod_cast h2
    exact (div_le_self (abs_nonneg _) (one_le_pow₀ (by norm_num))).trans h3
  have b : (1 : ℝ) / 2 ^ (k + 1) ≤ 1 := by
    rw [div_le_one (by positivity)]
    exact one_le_pow₀ (by norm_num)
  have c := abs_add_le (x - m / 2 ^ k) (m / 2 ^ k)
  rw [sub_add_cancel] at c
  refine c.trans ?_
  norm_num at a ⊢
  linarith

theorem near_shift {x x' c : ℝ} (h : |x' - x| ≤ 1 / 10 ^ 12) : |x' - c| ≤ |x - c| + 1 / 10 ^ 12 := by
  have := abs_add_le (x' - x) (x - c)
  rw [show x' - x + (x - c) = x' - c by ring] at this
  linarith

/-- numbers that become equal, or almost equal and small, pass the comparison -/
theorem stable_cmp (h : NearestF 53 1074 fl) (h' : NearestF 24 149 sl) {x y x' y' : ℝ} (hs : Stable x y) (hx : |x' - x| ≤ 1 / 10 ^ 12)
    (hy : |y' - y| ≤ 1 / 10 ^ 12) : floatCompare fl sl (fin x') (fin y') = true := by
  rcases hs with ⟨s1, s2, s3⟩ | ⟨m, k, hk, m1, m2, c1, c2⟩
  · have a1 : |x'| ≤ 1 / 199 := by
      have := near_shift (c := 0) hx
      rw [sub_zero, sub_zero] at this
      refine this.trans ((add_le_add_left s1 _).trans ?_)
      norm_num
    have a2 : |y'| ≤ 1 / 199 := by
      have := near_shift (c := 0) hy
      rw [sub_zero, sub_zero] at this
      refine this.trans ((add_le_add_left s2 _).trans ?_)
      norm_num
    have b1 : |x'| ≤ 2 ^ 127 := a1.trans (by norm_num)
    have b2 : |y'| ≤ 2 ^ 127 := a2.trans (by norm_num)
    have e1 := err_float h' x'
    have e2 := err_float h' y'
    have t := tiny150
    have q : |sl x' - sl y'| ≤ 9 / 10 ^ 10 := by
      have g1 := abs_add_le (sl x' - x' - (sl y' - y')) (x' - y')
      have g2 := abs_sub (sl x' - x') (sl y' - y')
      have g3 := abs_add_le (x' - x - (y' - y)) (x - y)
      have g4 := abs_sub (x' - x) (y' - y)
      rw [show sl x' - x' - (sl y' - y') + (x' - y') = sl x' - sl y' by ring] at g1
      rw [show x' - x - (y' - y) + (x - y) = x' - y' by ring] at g3
      have k1 : |x'| / 2 ^ 24 ≤ 1 / 199 / 2 ^ 24 := div_le_div_of_nonneg_right a1 (by positivity)
      have k2 : |y'| / 2 ^ 24 ≤ 1 / 199 / 2 ^ 24 := div_le_div_of_nonneg_right a2 (by positivity)
      have k3 : (1 : ℝ) / 199 / 2 ^ 24 ≤ 3 / 10 ^ 10 := by norm_num
      generalize (1 : ℝ) / 2 ^ 150 = η at *
      generalize |x'| / 2 ^ 24 = u at *
      generalize |y'| / 2 ^ 24 = v at *
      generalize (1 : ℝ) / 199 / 2 ^ 24 = w at *
      norm_num at *
      linarith
    have c1 : |sl x'| ≤ 2 ^ 126 := by
      have g := abs_add_le (sl x' - x') x'
      rw [sub_add_cancel] at g
      norm_num at *
      linarith
    have c2 : |sl y'| ≤ 2 ^ 126 := by
      have g := abs_add_le (sl y' - y') y'
      rw [sub_add_cancel] at g
      norm_num at *
      linarith
    have c := (C125_floats_partial h h' (h'.rep x') (h'.rep y') c1 c2).1 q
    rw [floatCompare, toFloat_ok h' (c1.trans (by norm_num)), toFloat_ok h' (c2.trans (by norm_num)), h'.fix (h'.rep x'),
      h'.fix (h'.rep y')] at c
    rw [floatCompare, toFloat_ok h' b1, toFloat_ok h' b2]
    exact c
  · have d1 := lt_of_le_of_lt (near_shift hx) c1
    have d2 := lt_of_le_of_lt (near_shift hy) c2
    have b1 := cell_bound m2 d1
    have b2 := cell_bound m2 d2
    have c := C125_equal h h' b1
    rw [floatCompare, toFloat_ok h' b1, float_cell h' hk m1 m2 d1] at c
    rw [floatCompare, toFloat_ok h' b1, toFloat_ok h' b2, float_cell h' hk m1 m2 d1, float_cell h' hk m1 m2 d2]
    exact c

theorem stable_small {x y : ℝ} (h1 : |x| ≤ 1 / 200) (h2 : |y| ≤ 1 / 200) (h3 : |x - y| ≤ 1 / 10 ^ 10) : Stable x y := Or.inl ⟨h1, h2, h3⟩

theorem stable_zero : Stable 0 0 := stable_small (by norm_num) (by norm_num) (by norm_num)

/-- a cell given by numerals -/
theorem stable_cell (m : ℤ) (k : ℕ) {x y : ℝ} (hk : k ≤ 149) (h1 : 2 ^ 23 < |m|) (h2 : |m| ≤ 2 ^ 24)
    (hx : |x - m / 2 ^ k| + 1 / 10 ^ 12 < 1 / 2 ^ (k + 1)) (hy : |y - m / 2 ^ k| + 1 / 10 ^ 12 < 1 / 2 ^ (k + 1)) : Stable x y :=
  Or.inr ⟨m, k, hk, h1, h2, hx, hy⟩

end Verif
