import Verif.Lemmas.RoundedArith
import Verif.Props.Lcio

/-!
# Reading and writing LCIO track states with rounding: C119
-/

open Classical

noncomputable section

namespace Verif

open Dbl Rnd

/-- a number of type `float`, including infinity and NaN -/
def IsFloat : Dbl → Prop
  | .fin x => RepF 24 149 x ∧ |x| < 2 ^ 128
  | .inf _ => True
  | .nan => True

/-- a track state: all numbers are of type `float` (LCIO), 15 of them for the covariance -/
structure IsState (ts : TrackState) : Prop where
  pars : ∀ a ∈ [ts.d0, ts.phi, ts.omega, ts.z0, ts.tanLambda, ts.ref.x, ts.ref.y, ts.ref.z], IsFloat a
  cov : ∀ a ∈ ts.cov, IsFloat a
  size : ts.cov.length = 15

variable {fl sl : ℝ → ℝ}

theorem rel_double (h : NearestF 53 1074 fl) {t : ℝ} (ht : t = 0 ∨ 1 / 2 ^ 1000 ≤ |t|) :
    ∃ d, |d| ≤ 1 / 2 ^ 53 ∧ fl t = t * (1 + d) := by
  rcases ht with rfl | ht
  · exact ⟨0, by rw [abs_zero]; positivity, by rw [h.fix repF_zero]; ring⟩
  have h0 : (0 : ℝ) < |t| := lt_of_lt_of_le (by positivity) ht
  have hx : (2 : ℝ) ^ (53 - 1) ≤ |t| * 2 ^ 1074 := by
    have h1 : (1 / 2 ^ 1000 : ℝ) * 2 ^ 1074 ≤ |t| * 2 ^ 1074 := mul_le_mul_of_nonneg_right ht (by positivity)
    refine le_trans ?_ h1
    rw [show (2 : ℝ) ^ 1074 = 2 ^ 1000 * 2 ^ 74 by rw [← pow_add], ← mul_assoc, one_div_mul_cancel (by positivity), one_mul]
    exact pow_le_pow_right₀ (by norm_num) (by norm_num)
  have h1 := h.rel (by norm_num) hx
  refine ⟨(fl t - t) / t, ?_, ?_⟩
  · rw [abs_div, div_le_div_iff₀ h0 (by positivity)]
    linarith
  · have : t ≠ 0 := abs_pos.1 h0
    field_simp
    ring

theorem abs_round_le (h : NearestF 53 1074 fl) (t : ℝ) : |fl t| ≤ 2 * |t| + 1 := by
  have h1 := h.err (by norm_num) t
  have a : |fl t| ≤ |fl t - t| + |t| := by
    have := abs_add_le (fl t - t) t
    rwa [sub_add_cancel] at this
  have b : |t| / 2 ^ 53 ≤ |t| := div_le_self (abs_nonneg _) (by norm_num)
  have c : (1 : ℝ) / 2 ^ (1074 + 1) ≤ 1 := div_le_self (by norm_num) (one_le_pow₀ (by norm_num))
  have h2 := h1.trans (add_le_add b c)
  clear h1 c
  linarith

/-- no overflow for numbers below 2^1000 -/
theorem rnd_double (h : NearestF 53 1074 fl) {t : ℝ} (ht : |t| ≤ 2 ^ 1000) : rnd fl 1024 (fin t) = fin (fl t) := by
  have h2 := abs_round_le h t
  have h3 : |fl t| < 2 ^ 1024 := by
    rw [show (2 : ℝ) ^ 1024 = 2 ^ 1000 * 2 ^ 24 by rw [← pow_add]]
    have h4 : (1 : ℝ) ≤ 2 ^ 1000 := one_le_pow₀ (by norm_num)
    generalize (2 : ℝ) ^ 1000 = A at *
    nlinarith
  show (if |fl t| < 2 ^ 1024 then fin (fl t) else inf (decide (t < 0))) = fin (fl t)
  rw [if_pos h3]

/-- the constant `mm` -/
theorem mmD_eq (h : NearestF 53 1074 fl) : ∃ mm, mmD fl = fin mm ∧ 1 / 11 ≤ mm ∧ mm ≤ 1 / 8 := by
  refine ⟨fl (1 / 10), ?_, ?_⟩
  · unfold mmD
    refine rnd_double h ?_
    rw [abs_of_pos (by norm_num)]
    exact le_trans (by norm_num) (one_le_pow₀ (by norm_num : (1 : ℝ) ≤ 2))
  · obtain ⟨d, h1, h2⟩ := rel_double h (t := 1 / 10) (Or.inr (by
      rw [abs_of_pos (by norm_num)]
      refine le_trans ?_ (by norm_num : (1 / 2 ^ 10 : ℝ) ≤ 1 / 10)
      exact one_div_le_one_div_of_le (by positivity) (pow_le_pow_right₀ (by norm_num) (by norm_num))))
    have h3 : |d| ≤ 1 / 16 := h1.trans (by norm_num)
    rw [abs_le] at h3
    rw [h2]
    constructor <;> linarith [h3.1, h3.2]

/-- a `float` is zero or not too small, and not too large -/
theorem float_range {x : ℝ} (h : RepF 24 149 x) (h' : |x| < 2 ^ 128) : (x = 0 ∨ 1 / 2 ^ 149 ≤ |x|) ∧ |x| ≤ 2 ^ 128 := by
  refine ⟨?_, h'.le⟩
  obtain ⟨m, e, -, h2⟩ := h
  by_cases hm : m = 0
  · left
    rw [hm, Int.cast_zero, zero_mul] at h2
    exact (mul_eq_zero.1 h2).resolve_right (by positivity)
  · right
    have h3 : |x| * 2 ^ 149 = |(m : ℝ)| * 2 ^ e := by
      have : |x * 2 ^ 149| = |(m : ℝ) * 2 ^ e| := by rw [h2]
      rwa [abs_mul, abs_mul, abs_of_pos (by positivity : (0 : ℝ) < 2 ^ 149), abs_of_pos (by positivity : (0 : ℝ) < 2 ^ e)] at this
    have h4 : (1 : ℝ) ≤ |(m : ℝ)| := by
      rw [← Int.cast_abs]
      exact_mod_cast Int.one_le_abs hm
    have h5 : (1 : ℝ) ≤ 2 ^ e := one_le_pow₀ (by norm_num)
    rw [div_le_iff₀ (by positivity), h3]
    nlinarith

/-- conversion to `float` of a number close to a `float` -/
theorem toFloat_back (h : NearestF 24 149 sl) {x d : ℝ} (hx : RepF 24 149 x) (hx' : |x| < 2 ^ 128) (hd : |d| ≤ 1 / 2 ^ 40) :
    toFloat sl (fin (x * (1 + d))) = fin x := by
  have h1 : sl (x * (1 + d)) = x := by
    refine h.back hx ?_
    rw [show x * (1 + d) - x = x * d by ring, abs_mul, mul_assoc]
    refine mul_le_of_le_one_right (abs_nonneg _) ?_
    have h2 : |d| * 2 ^ (24 + 3) ≤ 1 / 2 ^ 40 * 2 ^ (24 + 3) := mul_le_mul_of_nonneg_right hd (by positivity)
    exact h2.trans (by norm_num)
  show (if |sl (x * (1 + d))| < 2 ^ 128 then fin (sl (x * (1 + d))) else inf (decide (x * (1 + d) < 0))) = fin x
  rw [h1, if_pos hx']

/-- products and quotients by numbers between 2^-8 and 2^8, for numbers in the range of `float` with some margin -/
theorem rnd_scale (h : NearestF 53 1074 fl) {x c : ℝ} {n : ℕ} (hn : n ≤ 800) (hx : x = 0 ∨ 1 / 2 ^ n ≤ |x|) (hx' : |x| ≤ 2 ^ n)
    (hc : 1 / 2 ^ 8 ≤ c) (hc' : c ≤ 2 ^ 8) :
    ∃ y d, rnd fl 1024 (fin (x * c)) = fin y ∧ |d| ≤ 1 / 2 ^ 53 ∧ y = x * c * (1 + d) ∧ (y = 0 ∨ 1 / 2 ^ (n + 9) ≤ |y|) ∧
      |y| ≤ 2 ^ (n + 9) := by
  have hc0 : 0 < c := lt_of_lt_of_le (by positivity) hc
  have p9 : ∀ j : ℕ, (2 : ℝ) ^ (n + j) = 2 ^ n * 2 ^ j := fun j => pow_add _ _ _
  have hA : (0 : ℝ) < 2 ^ n := by positivity
  have e1 : |x * c| ≤ 2 ^ (n + 8) := by
    rw [abs_mul, abs_of_pos hc0, p9]
    exact mul_le_mul hx' hc' hc0.le hA.le
  have e2 : x * c = 0 ∨ 1 / 2 ^ (n + 8) ≤ |x * c| := by
    rcases hx with rfl | hx
    · left; ring
    · right
      rw [abs_mul, abs_of_pos hc0, p9, ← one_div_mul_one_div]
      exact mul_le_mul hx hc (by positivity) (abs_nonneg _)
  have e3 : x * c = 0 ∨ 1 / 2 ^ 1000 ≤ |x * c| := by
    refine e2.imp_right fun h => le_trans ?_ h
    exact one_div_le_one_div_of_le (by positivity) (pow_le_pow_right₀ (by norm_num) (by omega))
  obtain ⟨d, d1, d2⟩ := rel_double h e3
  have d3 : |d| ≤ 1 / 2 := d1.trans (by norm_num)
  rw [abs_le] at d3
  have d4 : |1 + d| = 1 + d := abs_of_nonneg (by linarith [d3.1])
  refine ⟨fl (x * c), d, rnd_double h (e1.trans (pow_le_pow_right₀ (by norm_num) (by omega))), d1, d2, ?_, ?_⟩
  · rcases e2 with e2 | e2
    · left; rw [d2, e2, zero_mul]
    · right
      rw [d2, abs_mul, d4, show n + 9 = (n + 8) + 1 from rfl, pow_succ, ← one_div_mul_one_div]
      exact mul_le_mul e2 (by linarith [d3.1]) (by norm_num) (abs_nonneg _)
  · rw [d2, abs_mul, d4, show n + 9 = (n + 8) + 1 from rfl, pow_succ]
    exact mul_le_mul e1 (by linarith [d3.2]) (by linarith [d3.1]) (by positivity)

theorem small2 {a b : ℝ} (ha : |a| ≤ 1 / 2 ^ 53) (hb : |b| ≤ 1 / 2 ^ 53) : |(1 + a) * (1 + b) - 1| ≤ 1 / 2 ^ 40 := by
  have a' : |a| ≤ 1 / 2 ^ 50 := ha.trans (by norm_num)
  have b' : |b| ≤ 1 / 2 ^ 50 := hb.trans (by norm_num)
  rw [show (1 + a) * (1 + b) - 1 = a + b + a * b by ring]
  have := abs_add_le (a + b) (a * b)
  have h2 := abs_add_le a b
  have h3 : |a * b| ≤ 1 / 2 ^ 50 * (1 / 2 ^ 50) := by
    rw [abs_mul]; exact mul_le_mul a' b' (abs_nonneg _) (by positivity)
  have : (1 : ℝ) / 2 ^ 50 + 1 / 2 ^ 50 + 1 / 2 ^ 50 * (1 / 2 ^ 50) ≤ 1 / 2 ^ 40 := by norm_num
  linarith

theorem mulD_inf (fl : ℝ → ℝ) (s : Bool) {c : ℝ} (hc : 0 < c) : mulD fl (inf s) (fin c) = inf s := by
  rw [mulD, inf_mul_fin]
  simp [hc.ne', sgn, hc.not_gt, rnd]

theorem divD_inf (fl : ℝ → ℝ) (s : Bool) {c : ℝ} (hc : 0 < c) : divD fl (inf s) (fin c) = inf s := by
  rw [divD, inf_div_fin]
  simp [sgn, hc.not_gt, rnd]

/-- multiplied by `mm` and divided by it -/
theorem back_mul (h : NearestF 53 1074 fl) (h' : NearestF 24 149 sl) {a : Dbl} (ha : IsFloat a) :
    toFloat sl (divD fl (mulD fl a (mmD fl)) (mmD fl)) = a := by
  obtain ⟨mm, e, m1, m2⟩ := mmD_eq h
  have m0 : 0 < mm := lt_of_lt_of_le (by norm_num) m1
  rw [e]
  match a, ha with
  | .nan, _ => rfl
  | .inf s, _ =>
    have e1 := mulD_inf fl s m0
    have e2 := divD_inf fl s m0
    rw [e1, e2]; rfl
  | .fin x, hx =>
    obtain ⟨f1, f2⟩ := float_range hx.1 hx.2
    have f1' : x = 0 ∨ 1 / 2 ^ 149 ≤ |x| := f1
    obtain ⟨y, d, y1, y2, y3, y4, y5⟩ := rnd_scale (n := 149) h (by norm_num) f1'
      (f2.trans (pow_le_pow_right₀ (by norm_num) (by norm_num))) (c := mm) (le_trans (by norm_num) m1) (le_trans m2 (by norm_num))
    obtain ⟨z, d', z1, z2, z3, -⟩ := rnd_scale (n := 149 + 9) h (by norm_num) y4 y5 (c := 1 / mm)
      (le_trans (by norm_num) (one_div_le_one_div_of_le m0 m2)) (le_trans (one_div_le_one_div_of_le (by norm_num) m1) (by norm_num))
    have e1 : mulD fl (fin x) (fin mm) = fin y := by rw [mulD, fin_mul, y1]
    have e2 : divD fl (fin y) (fin mm) = fin z := by
      rw [divD, fin_div _ m0.ne', div_eq_mul_one_div, z1]
    rw [e1, e2, z3, y3, show x * mm * (1 + d) * (1 / mm) * (1 + d') = x * (1 + ((1 + d) * (1 + d') - 1)) by field_simp; ring]
    exact toFloat_back h' hx.1 hx.2 (small2 y2 z2)

/-- divided by `mm` and multiplied by it -/
theorem back_div (h : NearestF 53 1074 fl) (h' : NearestF 24 149 sl) {a : Dbl} (ha : IsFloat a) :
    toFloat sl (mulD fl (divD fl a (mmD fl)) (mmD fl)) = a := by
  obtain ⟨mm, e, m1, m2⟩ := mmD_eq h
  have m0 : 0 < mm := lt_of_lt_of_le (by norm_num) m1
  rw [e]
  match a, ha with
  | .nan, _ => rfl
  | .inf s, _ =>
    have e1 := mulD_inf fl s m0
    have e2 := divD_inf fl s m0
    rw [e2, e1]; rfl
  | .fin x, hx =>
    obtain ⟨f1, f2⟩ := float_range hx.1 hx.2
    obtain ⟨y, d, y1, y2, y3, y4, y5⟩ := rnd_scale (n := 149) h (by norm_num) f1
      (f2.trans (pow_le_pow_right₀ (by norm_num) (by norm_num))) (c := 1 / mm)
      (le_trans (by norm_num) (one_div_le_one_div_of_le m0 m2)) (le_trans (one_div_le_one_div_of_le (by norm_num) m1) (by norm_num))
    obtain ⟨z, d', z1, z2, z3, -⟩ := rnd_scale (n := 149 + 9) h (by norm_num) y4 y5 (c := mm) (le_trans (by norm_num) m1)
      (le_trans m2 (by norm_num))
    have e1 : divD fl (fin x) (fin mm) = fin y := by
      rw [divD, fin_div _ m0.ne', div_eq_mul_one_div, y1]
    have e2 : mulD fl (fin y) (fin mm) = fin z := by rw [mulD, fin_mul, z1]
    rw [e1, e2, z3, y3, show x * (1 / mm) * (1 + d) * mm * (1 + d') = x * (1 + ((1 + d) * (1 + d') - 1)) by field_simp; ring]
    exact toFloat_back h' hx.1 hx.2 (small2 y2 z2)

/-- `mm * mm` -/
theorem mm2_eq (h : NearestF 53 1074 fl) {mm : ℝ} (m1 : 1 / 11 ≤ mm) (m2 : mm ≤ 1 / 8) :
    ∃ c d, mulD fl (fin mm) (fin mm) = fin c ∧ 1 / 128 ≤ c ∧ c ≤ 1 / 32 ∧ |d| ≤ 1 / 2 ^ 53 ∧ c = mm * mm * (1 + d) := by
  have m0 : 0 < mm := lt_of_lt_of_le (by norm_num) m1
  obtain ⟨y, d, y1, y2, y3, -⟩ := rnd_scale (n := 8) h (by norm_num)
    (Or.inr (by rw [abs_of_pos m0]; exact le_trans (by norm_num) m1)) (by rw [abs_of_pos m0]; exact le_trans m2 (by norm_num)) (c := mm)
    (le_trans (by norm_num) m1) (le_trans m2 (by norm_num))
  have d3 : |d| ≤ 1 / 100 := y2.trans (by norm_num)
  rw [abs_le] at d3
  have a1 : 1 / 121 ≤ mm * mm := by nlinarith
  have a2 : mm * mm ≤ 1 / 64 := by nlinarith
  refine ⟨y, d, by rw [mulD, fin_mul, y1], ?_, ?_, y2, y3⟩
  · rw [y3]; nlinarith [d3.1]
  · rw [y3]; nlinarith [d3.2]

theorem small4 {a b c d : ℝ} (ha : |a| ≤ 1 / 2 ^ 53) (hb : |b| ≤ 1 / 2 ^ 53) (hc : |c| ≤ 1 / 2 ^ 53) (hd : |d| ≤ 1 / 2 ^ 53) :
    |(1 + a) * (1 + b) * (1 + c) / (1 + d) - 1| ≤ 1 / 2 ^ 40 := by
  have a' : |a| ≤ 1 / 2 ^ 50 := ha.trans (by norm_num)
  have b' : |b| ≤ 1 / 2 ^ 50 := hb.trans (by norm_num)
  have c' : |c| ≤ 1 / 2 ^ 50 := hc.trans (by norm_num)
  have d' : |d| ≤ 1 / 2 ^ 50 := hd.trans (by norm_num)
  have e : (1 : ℝ) / 2 ^ 50 = 1 / 1125899906842624 := by norm_num
  rw [abs_le, e] at a' b' c' d'
  have hd0 : 0 < 1 + d := by linarith [d'.1]
  have up : (1 + a) * (1 + b) * (1 + c) ≤ (1 + 1 / 1125899906842624) ^ 3 := by
    rw [pow_succ, pow_two]
    refine mul_le_mul (mul_le_mul (by linarith [a'.2]) (by linarith [b'.2]) (by linarith [b'.1]) (by norm_num)) (by linarith [c'.2])
      (by linarith [c'.1]) (by norm_num)
  have lo : (1 - 1 / 1125899906842624) ^ 3 ≤ (1 + a) * (1 + b) * (1 + c) := by
    rw [pow_succ, pow_two]
    refine mul_le_mul (mul_le_mul (by linarith [a'.1]) (by linarith [b'.1]) (by norm_num) (by linarith [a'.1])) (by linarith [c'.1])
      (by norm_num) (mul_nonneg (by linarith [a'.1]) (by linarith [b'.1]))
  rw [abs_le]
  constructor
  · rw [le_sub_iff_add_le, le_div_iff₀ hd0]
    refine le_trans ?_ lo
    norm_num
    linarith [d'.2]
  · rw [sub_le_iff_le_add, div_le_iff₀ hd0]
    refine up.trans ?_
    norm_num
    linarith [d'.1]

/-- multiplied twice by `mm` and divided by its square -/
theorem back_mul2 (h : NearestF 53 1074 fl) (h' : NearestF 24 149 sl) {a : Dbl} (ha : IsFloat a) :
    toFloat sl (divD fl (mulD fl (mulD fl a (mmD fl)) (mmD fl)) (mulD fl (mmD fl) (mmD fl))) = a := by
  obtain ⟨mm, e, m1, m2⟩ := mmD_eq h
  have m0 : 0 < mm := lt_of_lt_of_le (by norm_num) m1
  obtain ⟨c, dc, c1, c2, c3, c4, c5⟩ := mm2_eq h m1 m2
  have c0 : 0 < c := lt_of_lt_of_le (by norm_num) c2
  rw [e, c1]
  match a, ha with
  | .nan, _ => rfl
  | .inf s, _ => rw [mulD_inf fl s m0, mulD_inf fl s m0, divD_inf fl s c0]; rfl
  | .fin x, hx =>
    obtain ⟨f1, f2⟩ := float_range hx.1 hx.2
    obtain ⟨y, d, y1, y2, y3, y4, y5⟩ := rnd_scale (n := 149) h (by norm_num) f1
      (f2.trans (pow_le_pow_right₀ (by norm_num) (by norm_num))) (c := mm) (le_trans (by norm_num) m1) (le_trans m2 (by norm_num))
    obtain ⟨z, d', z1, z2, z3, z4, z5⟩ := rnd_scale (n := 149 + 9) h (by norm_num) y4 y5 (c := mm) (le_trans (by norm_num) m1)
      (le_trans m2 (by norm_num))
    obtain ⟨w, d'', w1, w2, w3, -⟩ := rnd_scale (n := 149 + 9 + 9) h (by norm_num) z4 z5 (c := 1 / c)
      (le_trans (by norm_num) (one_div_le_one_div_of_le c0 c3)) (le_trans (one_div_le_one_div_of_le (by norm_num) c2) (by norm_num))
    have e1 : mulD fl (fin x) (fin mm) = fin y := by rw [mulD, fin_mul, y1]
    have e2 : mulD fl (fin y) (fin mm) = fin z := by rw [mulD, fin_mul, z1]
    have e3 : divD fl (fin z) (fin c) = fin w := by rw [divD, fin_div _ c0.ne', div_eq_mul_one_div, w1]
    have hd0 : 1 + dc ≠ 0 := by
      intro h0
      rw [h0, mul_zero] at c5
      exact c0.ne' c5
    rw [e1, e2, e3, w3, z3, y3, c5,
      show x * mm * (1 + d) * mm * (1 + d') * (1 / (mm * mm * (1 + dc))) * (1 + d'') =
        x * (1 + ((1 + d) * (1 + d') * (1 + d'') / (1 + dc) - 1)) by field_simp; ring]
    exact toFloat_back h' hx.1 hx.2 (small4 y2 z2 w2 c4)

/-- divided by the square of `mm` and multiplied by it -/
theorem back_div2 (h : NearestF 53 1074 fl) (h' : NearestF 24 149 sl) {a : Dbl} (ha : IsFloat a) :
    toFloat sl (mulD fl (divD fl a (mulD fl (mmD fl) (mmD fl))) (mulD fl (mmD fl) (mmD fl))) = a := by
  obtain ⟨mm, e, m1, m2⟩ := mmD_eq h
  obtain ⟨c, dc, c1, c2, c3, c4, c5⟩ := mm2_eq h m1 m2
  have c0 : 0 < c := lt_of_lt_of_le (by norm_num) c2
  rw [e, c1]
  match a, ha with
  | .nan, _ => rfl
  | .inf s, _ => rw [divD_inf fl s c0, mulD_inf fl s c0]; rfl
  | .fin x, hx =>
    obtain ⟨f1, f2⟩ := float_range hx.1 hx.2
    obtain ⟨y, d, y1, y2, y3, y4, y5⟩ := rnd_scale (n := 149) h (by norm_num) f1
      (f2.trans (pow_le_pow_right₀ (by norm_num) (by norm_num))) (c := 1 / c)
      (le_trans (by norm_num) (one_div_le_one_div_of_le c0 c3)) (le_trans (one_div_le_one_div_of_le (by norm_num) c2) (by norm_num))
    obtain ⟨z, d', z1, z2, z3, -⟩ := rnd_scale (n := 149 + 9) h (by norm_num) y4 y5 (c := c) (le_trans (by norm_num) c2)
      (le_trans c3 (by norm_num))
    have e1 : divD fl (fin x) (fin c) = fin y := by rw [divD, fin_div _ c0.ne', div_eq_mul_one_div, y1]
    have e2 : mulD fl (fin y) (fin c) = fin z := by rw [mulD, fin_mul, z1]
    rw [e1, e2, z3, y3, show x * (1 / c) * (1 + d) * c * (1 + d') = x * (1 + ((1 + d) * (1 + d') - 1)) by field_simp; ring]
    exact toFloat_back h' hx.1 hx.2 (small2 y2 z2)

theorem back_id (h' : NearestF 24 149 sl) {a : Dbl} (ha : IsFloat a) : toFloat sl a = a := by
  match a, ha with
  | .nan, _ => rfl
  | .inf s, _ => rfl
  | .fin x, hx =>
    have := toFloat_back h' hx.1 hx.2 (d := 0) (by rw [abs_zero]; positivity)
    rwa [add_zero, mul_one] at this

/-- C119: reading a track state and writing it again reproduces all its numbers exactly, although the conversions of units are
rounded: parameters, covariance and reference point; also infinite numbers and NaN.  The location is not kept. -/
theorem C119_exact (h : NearestF 53 1074 fl) (h' : NearestF 24 149 sl) {ts : TrackState} (hs : IsState ts) :
    ∃ tp, Rnd.readLCIO fl ts = .ok tp ∧ Rnd.createLCIO fl sl tp = { ts with location := 0 } := by
  obtain ⟨loc, d0, phi, om, z0, tl, cov, ref⟩ := ts
  obtain ⟨hp, hc, hl⟩ := hs
  obtain ⟨a0, a1, a2, a3, a4, a5, a6, a7, a8, a9, a10, a11, a12, a13, a14, r, rfl⟩ := list_ge15 (le_of_eq hl.symm)
  have hr : r = [] := List.eq_nil_of_length_eq_zero (by simp only [List.length_cons] at hl; omega)
  subst hr
  simp only [List.mem_cons, List.not_mem_nil, or_false, forall_eq_or_imp, forall_eq] at hp hc
  obtain ⟨p0, p1, p2, p3, p4, p5, p6, p7⟩ := hp
  obtain ⟨h0, h1, h2, h3, h4, h5, h6, h7, h8, h9, h10, h11, h12, h13, h14⟩ := hc
  refine ⟨⟨![![divD fl a5 (mulD fl (mmD fl) (mmD fl)), divD fl a12 (mmD fl), divD fl a4 (mmD fl), a3, a8],
           ![divD fl a12 (mmD fl), a14, a11, mulD fl a10 (mmD fl), mulD fl a13 (mmD fl)],
           ![divD fl a4 (mmD fl), a11, a2, mulD fl a1 (mmD fl), mulD fl a7 (mmD fl)],
           ![a3, mulD fl a10 (mmD fl), mulD fl a1 (mmD fl), mulD fl (mulD fl a0 (mmD fl)) (mmD fl),
             mulD fl (mulD fl a6 (mmD fl)) (mmD fl)],
           ![a8, mulD fl a13 (mmD fl), mulD fl a7 (mmD fl), mulD fl (mulD fl a6 (mmD fl)) (mmD fl),
             mulD fl (mulD fl a9 (mmD fl)) (mmD fl)]],
         ![divD fl om (mmD fl), tl, phi, mulD fl d0 (mmD fl), mulD fl z0 (mmD fl)],
         ⟨mulD fl ref.x (mmD fl), mulD fl ref.y (mmD fl), mulD fl ref.z (mmD fl)⟩⟩, ?_, ?_⟩
  · simp only [Rnd.readLCIO, vecAt, List.getElem?_cons_zero, List.getElem?_cons_succ, Out.ok_bind, Out.pure_eq,
      TP.setAll, TP.setHp, TP.setRef, TP.setCov, Out.ok.injEq, TP.mk.injEq, and_true]
    constructor
    · funext i j
      fin_cases i <;> fin_cases j <;> rfl
    · funext i
      fin_cases i <;> rfl
  · simp only [Rnd.createLCIO, calculateD0, calculatePhi0, calculateOmega, calculateZ0, calculateTanLambda, D0, PHI0, OMEGA, Z0, TANL,
      Matrix.cons_val]
    rw [back_mul h h' p0, back_id h' p1, back_div h h' p2, back_mul h h' p3, back_id h' p4, back_mul h h' p5, back_mul h h' p6,
      back_mul h h' p7, back_mul2 h h' h0, back_mul h h' h1, back_id h' h2, back_id h' h3, back_div h h' h4, back_div2 h h' h5,
      back_mul2 h h' h6, back_mul h h' h7, back_id h' h8, back_mul2 h h' h9, back_mul h h' h10, back_id h' h11, back_div h h' h12,
      back_mul h h' h13, back_id h' h14]

/-- C119 (error branch): with fewer than 15 numbers in the covariance reading throws. -/
theorem C119_short (fl : ℝ → ℝ) (ts : TrackState) (h : ts.cov.length < 15) : Rnd.readLCIO fl ts = .throw "std::out_of_range" := by
  have h14 : ts.cov[14]? = none := by simp; omega
  have h5 : vecAt ts.cov 14 = .throw "std::out_of_range" := by simp [vecAt, h14]
  unfold Rnd.readLCIO
  cases h' : ts.cov[5]? with
  | none => simp [vecAt, h']
  | some a =>
    have : vecAt ts.cov 5 = .ok a := by simp [vecAt, h']
    simp only [this, h5]
    rfl

/-- integers up to 2^24 in multiples of 2^-j are of type `float` -/
theorem isFloat_dyadic (m : ℤ) (j : ℕ) (hm : |m| ≤ 2 ^ 24) (hj : j ≤ 149) : IsFloat (fin (m / 2 ^ j)) := by
  have h1 : |(m : ℝ)| ≤ 2 ^ 24 := by
    rw [← Int.cast_abs]; exact_mod_cast hm
  refine ⟨⟨m, 149 - j, hm, ?_⟩, ?_⟩
  · rw [div_mul_eq_mul_div, div_eq_iff (by positivity), mul_assoc, ← pow_add, Nat.sub_add_cancel hj]
  · rw [abs_div, abs_of_pos (by positivity : (0 : ℝ) < 2 ^ j)]
    refine lt_of_le_of_lt (div_le_self (abs_nonneg _) (one_le_pow₀ (by norm_num))) (lt_of_le_of_lt h1 (by norm_num))

/-- C119, concrete case: d0 = -5/4, an infinite z0, an undefined curvature, and covariances 1 to 15; with roundings that exist. -/
example : ∃ fl sl, NearestF 53 1074 fl ∧ NearestF 24 149 sl ∧ ∃ tp,
    Rnd.readLCIO fl ⟨3, fin (-5 / 2 ^ 2), fin (3 / 2 ^ 0), nan, inf true, fin (1 / 2 ^ 20),
      [1, 2, 3, 4, 5, 6, 7, 8, 9, 10, 11, 12, 13, 14, 15].map (fun n : ℕ => fin n), V3.re 7 8 9⟩ = .ok tp ∧
    Rnd.createLCIO fl sl tp = ⟨0, fin (-5 / 2 ^ 2), fin (3 / 2 ^ 0), nan, inf true, fin (1 / 2 ^ 20),
      [1, 2, 3, 4, 5, 6, 7, 8, 9, 10, 11, 12, 13, 14, 15].map (fun n : ℕ => fin n), V3.re 7 8 9⟩ := by
  obtain ⟨fl, h⟩ := exists_nearestF 53 1074
  obtain ⟨sl, h'⟩ := exists_nearestF 24 149
  have hn : ∀ n : ℕ, n ≤ 20 → IsFloat (fin n) := by
    intro n hn
    have := isFloat_dyadic n 0 (by rw [abs_of_nonneg (by omega)]; omega) (by norm_num)
    rwa [pow_zero, div_one, Int.cast_natCast] at this
  refine ⟨fl, sl, h, h', C119_exact h h' ⟨?_, ?_, rfl⟩⟩
  · intro a ha
    simp only [V3.re, List.mem_cons, List.not_mem_nil, or_false] at ha
    rcases ha with rfl | rfl | rfl | rfl | rfl | rfl | rfl | rfl
    · have := isFloat_dyadic (-5) 2 (by norm_num) (by norm_num)
      exact_mod_cast this
    · have := isFloat_dyadic 3 0 (by norm_num) (by norm_num)
      rwa [Int.cast_ofNat] at this
    · exact trivial
    · exact trivial
    · have := isFloat_dyadic 1 20 (by norm_num) (by norm_num)
      rwa [Int.cast_one] at this
    · exact_mod_cast hn 7 (by norm_num)
    · exact_mod_cast hn 8 (by norm_num)
    · exact_mod_cast hn 9 (by norm_num)
  · intro a ha
    simp only [List.mem_map] at ha
    obtain ⟨n, h1, rfl⟩ := ha
    refine hn n ?_
    simp only [List.mem_cons, List.not_mem_nil, or_false] at h1
    omega

end Verif
