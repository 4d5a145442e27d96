import Verif.Model.RoundedArith
import Mathlib.Tactic.Linarith
import Mathlib.Tactic.NormNum
import Mathlib.Tactic.Ring
import Mathlib.Tactic.FieldSimp
import Mathlib.Algebra.Order.Floor.Ring
import Mathlib.Algebra.Order.Round
import Mathlib.Algebra.Order.Archimedean.Real.Basic
import Mathlib.Algebra.Order.Archimedean.Basic
import Mathlib.Data.Finset.Max
import Mathlib.Data.Set.Finite.Lemmas
import Mathlib.Order.Interval.Set.Infinite
import Mathlib.Data.Int.Interval

/-!
# Rounding errors
-/

open Classical

noncomputable section

namespace Verif

namespace Rnd

variable {p k : ℕ} {fl : ℝ → ℝ}

theorem repF_zero : RepF p k 0 := ⟨0, 0, by simp, by simp⟩

theorem repF_neg {x : ℝ} (h : RepF p k x) : RepF p k (-x) := by
  obtain ⟨m, e, h1, h2⟩ := h
  exact ⟨-m, e, by rwa [abs_neg], by push_cast; rw [neg_mul, h2, neg_mul]⟩

theorem NearestF.fix (h : NearestF p k fl) {x : ℝ} (hx : RepF p k x) : fl x = x := by
  have := h.near x x hx
  rw [sub_self, abs_zero] at this
  exact sub_eq_zero.1 (abs_nonpos_iff.1 this)

/-- there is such a rounding -/
theorem exists_nearestF (p k : ℕ) : ∃ fl, NearestF p k fl := by
  have key : ∀ x : ℝ, ∃ y, RepF p k y ∧ ∀ z, RepF p k z → |y - x| ≤ |z - x| := by
    intro x
    have hN : (0 : ℝ) < 2 ^ k := by positivity
    generalize hM : (2 : ℝ) ^ k = M at hN
    -- candidates, as multiples of the smallest number
    let S : Set ℤ := {j | RepF p k (j / M) ∧ |j / M - x| ≤ |x|}
    have hfin : S.Finite := by
      obtain ⟨n, hn⟩ := exists_nat_gt (2 * |x| * M)
      refine (Set.finite_Icc (-(n : ℤ)) n).subset ?_
      rintro k ⟨-, hk⟩
      have h1 : |(k : ℝ) / M| ≤ 2 * |x| := by
        have : (k : ℝ) / M = (k / M - x) + x := by ring
        rw [this]
        exact (abs_add_le _ _).trans (by linarith)
      rw [abs_div, abs_of_pos hN, div_le_iff₀ hN] at h1
      have h2 : |(k : ℝ)| ≤ n := by linarith
      rw [abs_le] at h2
      exact ⟨by exact_mod_cast h2.1, by exact_mod_cast h2.2⟩
    have hne : S.Nonempty := ⟨0, ⟨0, 0, by simp, by simp⟩, by simp⟩
    obtain ⟨j, hj, hmin⟩ := Set.exists_min_image S (fun j => |(j : ℝ) / M - x|) hfin hne
    refine ⟨j / M, hj.1, fun z hz => ?_⟩
    by_cases hc : |z - x| ≤ |x|
    · obtain ⟨m, e, h1, h2⟩ := hz
      rw [hM] at h2
      have hz' : z = ((m * 2 ^ e : ℤ) : ℝ) / M := by
        rw [eq_div_iff hN.ne', h2]; push_cast; rfl
      have := hmin (m * 2 ^ e) ⟨by rw [← hz']; exact ⟨m, e, h1, by rw [hM]; exact h2⟩, by rw [← hz']; exact hc⟩
      rwa [← hz'] at this
    · exact hj.2.trans (le_of_lt (lt_of_not_ge hc))
  choose f h1 h2 using key
  exact ⟨f, h1, h2⟩

theorem round_le {y : ℝ} {n : ℕ} (h : |y| ≤ 2 ^ n) : |round y| ≤ 2 ^ n := by
  have h1 := abs_sub_round y
  rw [abs_le] at h h1
  have h2 : (round y : ℝ) < 2 ^ n + 1 := by linarith [h.2, h1.1]
  have h3 : -(2 ^ n + 1) < (round y : ℝ) := by linarith [h.1, h1.2]
  have h2 : (round y : ℤ) < 2 ^ n + 1 := by exact_mod_cast h2
  have h3 : -(2 ^ n + 1) < (round y : ℤ) := by exact_mod_cast h3
  rw [abs_le]
  omega

/-- the relative error is at most 2^-p for numbers that are not too small -/
theorem NearestF.rel (h : NearestF p k fl) (hp : 1 ≤ p) {x : ℝ} (hx : 2 ^ (p - 1) ≤ |x| * 2 ^ k) :
    |fl x - x| * 2 ^ p ≤ |x| := by
  have hk : (0 : ℝ) < 2 ^ k := by positivity
  have hp0 : (0 : ℝ) < 2 ^ (p - 1) := by positivity
  obtain ⟨e, he1, he2⟩ := exists_nat_pow_near (x := |x| * 2 ^ k / 2 ^ (p - 1)) (y := 2) (by rwa [le_div_iff₀ hp0, one_mul])
    (by norm_num)
  rw [le_div_iff₀ hp0] at he1
  rw [div_lt_iff₀ hp0] at he2
  have hpp : (2 : ℝ) ^ p = 2 * 2 ^ (p - 1) := by rw [← pow_succ', Nat.sub_add_cancel hp]
  have hee : (0 : ℝ) < 2 ^ e := by positivity
  have hX : |x * 2 ^ k / 2 ^ e| ≤ 2 ^ p := by
    rw [abs_div, abs_mul, abs_of_pos hk, abs_of_pos hee, div_le_iff₀ hee, hpp]
    rw [pow_succ] at he2
    linarith
  have hr : RepF p k (round (x * 2 ^ k / 2 ^ e) * 2 ^ e / 2 ^ k) := ⟨round (x * 2 ^ k / 2 ^ e), e, round_le hX, by field_simp⟩
  have h1 := h.near x _ hr
  have h2 : |(round (x * 2 ^ k / 2 ^ e) : ℝ) * 2 ^ e / 2 ^ k - x| = |x * 2 ^ k / 2 ^ e - round (x * 2 ^ k / 2 ^ e)| * (2 ^ e / 2 ^ k) := by
    rw [abs_sub_comm, show x - (round (x * 2 ^ k / 2 ^ e) : ℝ) * 2 ^ e / 2 ^ k =
      (x * 2 ^ k / 2 ^ e - round (x * 2 ^ k / 2 ^ e)) * (2 ^ e / 2 ^ k) by field_simp, abs_mul, abs_of_pos (by positivity : (0 : ℝ) < 2 ^ e / 2 ^ k)]
  rw [h2] at h1
  have h3 := mul_le_mul_of_nonneg_right (abs_sub_round (x * 2 ^ k / 2 ^ e)) (by positivity : (0 : ℝ) ≤ 2 ^ e / 2 ^ k)
  have h4 : 2 ^ e / 2 ^ k * 2 ^ (p - 1) ≤ |x| := by
    rw [div_mul_eq_mul_div, div_le_iff₀ hk]
    exact he1
  rw [hpp]
  nlinarith

/-- the error in general -/
theorem NearestF.err (h : NearestF p k fl) (hp : 1 ≤ p) (x : ℝ) : |fl x - x| ≤ |x| / 2 ^ p + 1 / 2 ^ (k + 1) := by
  have hk : (0 : ℝ) < 2 ^ k := by positivity
  have hpp : (0 : ℝ) < 2 ^ p := by positivity
  by_cases hx : 2 ^ (p - 1) ≤ |x| * 2 ^ k
  · have h1 := h.rel hp hx
    rw [← le_div_iff₀ hpp] at h1
    have : (0 : ℝ) ≤ 1 / 2 ^ (k + 1) := by positivity
    linarith
  · have hx : |x| * 2 ^ k < 2 ^ (p - 1) := lt_of_not_ge hx
    have hX : |x * 2 ^ k| ≤ 2 ^ p := by
      rw [abs_mul, abs_of_pos hk]
      exact hx.le.trans (pow_le_pow_right₀ (by norm_num) (by omega))
    have hr : RepF p k (round (x * 2 ^ k) / 2 ^ k) := ⟨round (x * 2 ^ k), 0, round_le hX, by field_simp⟩
    have h1 := h.near x _ hr
    have h2 : |(round (x * 2 ^ k) : ℝ) / 2 ^ k - x| = |x * 2 ^ k - round (x * 2 ^ k)| / 2 ^ k := by
      rw [abs_sub_comm, show x - (round (x * 2 ^ k) : ℝ) / 2 ^ k = (x * 2 ^ k - round (x * 2 ^ k)) / 2 ^ k by field_simp, abs_div,
        abs_of_pos hk]
    rw [h2] at h1
    have h3 := abs_sub_round (x * 2 ^ k)
    have h4 : |x * 2 ^ k - round (x * 2 ^ k)| / 2 ^ k ≤ 1 / 2 ^ (k + 1) := by
      rw [pow_succ, div_le_div_iff₀ hk (by positivity)]
      nlinarith
    have : 0 ≤ |x| / 2 ^ p := by positivity
    linarith

/-- different numbers differ by at least 2^-(p+1) of their size -/
theorem repF_gap {x y : ℝ} (hx : RepF p k x) (hy : RepF p k y) (hne : x ≠ y) : |x| ≤ |x - y| * 2 ^ (p + 1) := by
  have hk : (0 : ℝ) < 2 ^ k := by positivity
  -- the number with the smaller exponent gives the gap
  have key : ∀ {m m' : ℤ} {e e' : ℕ} {x y : ℝ}, |m| ≤ 2 ^ p → x * 2 ^ k = m * 2 ^ e → y * 2 ^ k = m' * 2 ^ e' → x ≠ y → e ≤ e' →
      |x| ≤ |x - y| * 2 ^ p := by
    intro m m' e e' x y hm hx hy hne hle
    have he : (0 : ℝ) < 2 ^ e := by positivity
    have e1 : (x - y) * 2 ^ k = ((m - m' * 2 ^ (e' - e) : ℤ) : ℝ) * 2 ^ e := by
      rw [sub_mul, hx, hy]
      push_cast
      rw [sub_mul, mul_assoc, ← pow_add, Nat.sub_add_cancel hle]
    have h0 : m - m' * 2 ^ (e' - e) ≠ 0 := by
      intro h0
      rw [h0, Int.cast_zero, zero_mul] at e1
      exact hne (sub_eq_zero.1 ((mul_eq_zero.1 e1).resolve_right hk.ne'))
    have h1 : (1 : ℝ) ≤ |((m - m' * 2 ^ (e' - e) : ℤ) : ℝ)| := by
      rw [← Int.cast_abs]
      exact_mod_cast Int.one_le_abs h0
    have h2 : |x - y| * 2 ^ k = |((m - m' * 2 ^ (e' - e) : ℤ) : ℝ)| * 2 ^ e := by
      have := congrArg abs e1
      rwa [abs_mul, abs_mul, abs_of_pos hk, abs_of_pos he] at this
    have h3 : |x| * 2 ^ k = |(m : ℝ)| * 2 ^ e := by
      have := congrArg abs hx
      rwa [abs_mul, abs_mul, abs_of_pos hk, abs_of_pos he] at this
    have h4 : |(m : ℝ)| ≤ 2 ^ p := by
      rw [← Int.cast_abs]
      exact_mod_cast hm
    have h5 : |x| * 2 ^ k ≤ |x - y| * 2 ^ p * 2 ^ k := by
      rw [h3, mul_right_comm, h2]
      have a1 : |(m : ℝ)| * 2 ^ e ≤ 2 ^ p * 2 ^ e := mul_le_mul_of_nonneg_right h4 he.le
      have a2 : 1 * (2 ^ e * 2 ^ p : ℝ) ≤ |((m - m' * 2 ^ (e' - e) : ℤ) : ℝ)| * (2 ^ e * 2 ^ p) :=
        mul_le_mul_of_nonneg_right h1 (by positivity)
      linarith
    exact le_of_mul_le_mul_right h5 hk
  obtain ⟨m, e, h1, h2⟩ := hx
  obtain ⟨m', e', h3, h4⟩ := hy
  have hpp : (1 : ℝ) ≤ 2 ^ p := one_le_pow₀ (by norm_num)
  rw [pow_succ]
  have hd := abs_nonneg (x - y)
  rcases le_total e e' with hle | hle
  · have := key h1 h2 h4 hne hle
    nlinarith
  · have := key h3 h4 h2 (Ne.symm hne) hle
    rw [abs_sub_comm y x] at this
    have ht : |x| ≤ |y| + |x - y| := by
      have := abs_add_le y (x - y)
      rwa [add_sub_cancel] at this
    nlinarith

/-- a number close to a number of the type is rounded to it -/
theorem NearestF.back (h : NearestF p k fl) {x z : ℝ} (hx : RepF p k x) (hz : |z - x| * 2 ^ (p + 3) ≤ |x|) : fl z = x := by
  by_contra hne
  have h1 := repF_gap hx (h.rep z) (fun e => hne e.symm)
  have h2 := h.near z x hx
  have h3 : |x - fl z| ≤ 2 * |z - x| := by
    have : x - fl z = (x - z) + (z - fl z) := by ring
    rw [this]
    refine (abs_add_le _ _).trans ?_
    rw [abs_sub_comm z (fl z), abs_sub_comm x z]
    rw [abs_sub_comm x z] at h2
    linarith
  have h4 : (0 : ℝ) < 2 ^ (p + 1) := by positivity
  have h5 : |x| ≤ 2 * |z - x| * 2 ^ (p + 1) := h1.trans (mul_le_mul_of_nonneg_right h3 h4.le)
  have h6 : |z - x| * 2 ^ (p + 3) = 4 * (|z - x| * 2 ^ (p + 1)) := by rw [pow_add 2 p 3, pow_succ]; ring
  have h7 : |z - x| * 2 ^ (p + 1) ≤ 0 := by nlinarith
  have h8 : |z - x| * 2 ^ (p + 1) = 0 := le_antisymm h7 (by positivity)
  have h9 : |x| ≤ 0 := by linarith
  have hx0 : x = 0 := abs_nonpos_iff.1 h9
  have hz0 : z = 0 := by
    have := (mul_eq_zero.1 h8).resolve_right h4.ne'
    rw [hx0, sub_zero] at this
    exact abs_eq_zero.1 this
  rw [hz0, hx0] at hne
  exact hne (h.fix repF_zero)

end Rnd

end Verif
