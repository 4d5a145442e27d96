import Verif.Model.RoundedPropagation
import Verif.Props.RoundedCross
import Verif.Lemmas.RoundedCircles
import Verif.Props.RoundedHelix

/-!
# Rounding errors of composed expressions

`Ap k S a a' B e`: the number `a` computed in double precision differs from the exact number `a'` by at most `e` units of `2^-53 S`, and
`a'` is bounded by `B S`.  The scale `S` is between `2^-k` and `2^k`.  One rule for each operation.
-/

open Classical

noncomputable section

namespace Verif

open Dbl

namespace Rnd

structure Ap (k : ℕ) (S : ℝ) (a a' : Dbl) (B e : ℝ) : Prop where
  lo : 1 / 2 ^ k ≤ S
  hi : S ≤ 2 ^ k
  val : ∃ r x, a = fin r ∧ a' = fin x ∧ |r - x| ≤ e * (S * (1 / 2 ^ 53)) ∧ |x| ≤ B * S

variable {fl : ℝ → ℝ} {lm : Libm} {k l : ℕ} {S T B C e f : ℝ} {a a' b b' : Dbl}

theorem Ap.pos (h : Ap k S a a' B e) : 0 < S := lt_of_lt_of_le (by positivity) h.lo

theorem Ap.mono (h : Ap k S a a' B e) {B' e' : ℝ} (hB : B ≤ B') (he : e ≤ e') : Ap k S a a' B' e' := by
  obtain ⟨r, x, h1, h2, h3, h4⟩ := h.val
  have S0 := h.pos
  refine ⟨h.lo, h.hi, r, x, h1, h2, h3.trans ?_, h4.trans ?_⟩
  · exact mul_le_mul_of_nonneg_right he (by positivity)
  · exact mul_le_mul_of_nonneg_right hB S0.le

/-- a change of the scale -/
theorem Ap.rescale (h : Ap k S a a' B e) {c : ℝ} (hc : S ≤ c * T) (h1 : 1 / 2 ^ l ≤ T) (h2 : T ≤ 2 ^ l) : Ap l T a a' (c * B) (c * e) := by
  obtain ⟨r, x, i1, i2, i3, i4⟩ := h.val
  have S0 := h.pos
  have e0 : 0 ≤ e := by
    have : 0 ≤ e * (S * (1 / 2 ^ 53)) := (abs_nonneg _).trans i3
    exact nonneg_of_mul_nonneg_left this (by positivity)
  have B0 : 0 ≤ B := nonneg_of_mul_nonneg_left ((abs_nonneg _).trans i4) S0
  refine ⟨h1, h2, r, x, i1, i2, i3.trans ?_, i4.trans ?_⟩
  · have := mul_le_mul_of_nonneg_left hc e0
    have := mul_le_mul_of_nonneg_right this (show (0 : ℝ) ≤ 1 / 2 ^ 53 by positivity)
    linarith
  · have := mul_le_mul_of_nonneg_left hc B0
    linarith

theorem size_scale {t c : ℝ} (hc : c ≤ 2 ^ 50) (hk : k ≤ 900) (hS : S ≤ 2 ^ k) (S0 : 0 < S) (h : |t| ≤ c * S) : |t| ≤ 2 ^ 1000 := by
  have h1 : c * S ≤ 2 ^ 50 * 2 ^ k := mul_le_mul hc hS S0.le (by positivity)
  rw [← pow_add] at h1
  exact (h.trans h1).trans (pow_le_pow_right₀ (by norm_num) (by omega))

/-- rounding of an approximate result -/
theorem Ap.round (h : NearestF 53 1074 fl) {t x : ℝ} (lo : 1 / 2 ^ k ≤ S) (hi : S ≤ 2 ^ k) (hk : k ≤ 900) (he : e ≤ 2 ^ 40) (hB : B ≤ 2 ^ 40)
    (h1 : |t - x| ≤ e * (S * (1 / 2 ^ 53))) (h2 : |x| ≤ B * S) : Ap k S (rnd fl 1024 (fin t)) (fin x) B (e + B + 1 / 1000) := by
  have S0 : 0 < S := lt_of_lt_of_le (by positivity) lo
  have ht : |t| ≤ (B + 1 / 2000) * S := by
    have := abs_near h1
    have k1 : e * (S * (1 / 2 ^ 53)) ≤ 2 ^ 40 * (S * (1 / 2 ^ 53)) := mul_le_mul_of_nonneg_right he (by positivity)
    have k2 : (2 : ℝ) ^ 40 * (S * (1 / 2 ^ 53)) ≤ 1 / 2000 * S := by
      norm_num
      linarith
    linarith
  refine ⟨lo, hi, fl t, x, rnd_double h (size_scale ?_ hk hi S0 ht), rfl, ?_, h2⟩
  · norm_num at hB ⊢
    linarith
  · have k1 := err_double h t
    have k2 : (1 : ℝ) / 2 ^ 1075 ≤ 1 / 2000 * (S * (1 / 2 ^ 53)) := by
      have : (1 : ℝ) / 2 ^ 1075 ≤ 1 / 2 ^ 900 * (1 / 2 ^ 64) := by
        rw [one_div_mul_one_div, ← pow_add]
        exact one_div_le_one_div_of_le (by positivity) (pow_le_pow_right₀ (by norm_num) (by norm_num))
      refine this.trans ?_
      have k3 : (1 : ℝ) / 2 ^ 900 ≤ S := le_trans (one_div_le_one_div_of_le (by positivity) (pow_le_pow_right₀ (by norm_num) hk)) lo
      have := mul_le_mul_of_nonneg_right k3 (show (0 : ℝ) ≤ 1 / 2 ^ 64 by positivity)
      refine this.trans ?_
      norm_num
      linarith
    have k4 := mul_le_mul_of_nonneg_left ht (show (0 : ℝ) ≤ 1 / 2 ^ 53 by positivity)
    have k5 := near_trans (k1.trans (add_le_add k4 k2)) h1
    refine k5.trans (le_of_eq ?_)
    ring

theorem Ap.neg (h : Ap k S a a' B e) : Ap k S (-a) (-a') B e := by
  obtain ⟨r, x, rfl, rfl, h3, h4⟩ := h.val
  refine ⟨h.lo, h.hi, -r, -x, fin_neg r, fin_neg x, ?_, ?_⟩
  · rw [neg_sub_neg, abs_sub_comm]
    exact h3
  · rw [abs_neg]
    exact h4

theorem Ap.add (h : NearestF 53 1074 fl) (ha : Ap k S a a' B e) (hb : Ap k S b b' C f) (hk : k ≤ 900) (he : e + f ≤ 2 ^ 40) (hB : B + C ≤ 2 ^ 40) :
    Ap k S (addD fl a b) (a' + b') (B + C) (e + f + (B + C) + 1 / 1000) := by
  obtain ⟨r, x, rfl, rfl, h1, h2⟩ := ha.val
  obtain ⟨s, y, rfl, rfl, h3, h4⟩ := hb.val
  rw [addD, fin_add, fin_add]
  refine Ap.round h ha.lo ha.hi hk he hB ?_ ?_
  · refine (add_error h1 h3).trans (le_of_eq ?_)
    ring
  · refine (abs_add_le _ _).trans ?_
    linarith

theorem Ap.sub (h : NearestF 53 1074 fl) (ha : Ap k S a a' B e) (hb : Ap k S b b' C f) (hk : k ≤ 900) (he : e + f ≤ 2 ^ 40) (hB : B + C ≤ 2 ^ 40) :
    Ap k S (subD fl a b) (a' - b') (B + C) (e + f + (B + C) + 1 / 1000) := by
  obtain ⟨r, x, rfl, rfl, h1, h2⟩ := ha.val
  obtain ⟨s, y, rfl, rfl, h3, h4⟩ := hb.val
  rw [subD, fin_sub, fin_sub]
  refine Ap.round h ha.lo ha.hi hk he hB ?_ ?_
  · refine (sub_error h1 h3).trans (le_of_eq ?_)
    ring
  · refine (abs_sub _ _).trans ?_
    linarith

theorem scale_prod (h1 : 1 / 2 ^ k ≤ S) (h2 : S ≤ 2 ^ k) (h3 : 1 / 2 ^ l ≤ T) (h4 : T ≤ 2 ^ l) :
    1 / 2 ^ (k + l) ≤ S * T ∧ S * T ≤ 2 ^ (k + l) := by
  have S0 : 0 < S := lt_of_lt_of_le (by positivity) h1
  have T0 : 0 < T := lt_of_lt_of_le (by positivity) h3
  rw [pow_add, ← one_div_mul_one_div]
  exact ⟨mul_le_mul h1 h3 (by positivity) S0.le, mul_le_mul h2 h4 T0.le (by positivity)⟩

theorem scale_inv (h3 : 1 / 2 ^ l ≤ T) (h4 : T ≤ 2 ^ l) : 1 / 2 ^ l ≤ 1 / T ∧ 1 / T ≤ 2 ^ l := by
  have T0 : 0 < T := lt_of_lt_of_le (by positivity) h3
  refine ⟨one_div_le_one_div_of_le T0 h4, ?_⟩
  rw [div_le_iff₀ T0]
  rw [div_le_iff₀ (by positivity)] at h3
  linarith

theorem Ap.mul (h : NearestF 53 1074 fl) (ha : Ap k S a a' B e) (hb : Ap l T b b' C f) (hk : k + l ≤ 900) (hf : f ≤ 2 ^ 40)
    (he : e * (C + 1 / 1000) + B * f ≤ 2 ^ 40) (hB : B * C ≤ 2 ^ 40) :
    Ap (k + l) (S * T) (mulD fl a b) (a' * b') (B * C) (e * (C + 1 / 1000) + B * f + B * C + 1 / 1000) := by
  obtain ⟨r, x, rfl, rfl, h1, h2⟩ := ha.val
  obtain ⟨s, y, rfl, rfl, h3, h4⟩ := hb.val
  have S0 := ha.pos
  have T0 := hb.pos
  obtain ⟨z1, z2⟩ := scale_prod ha.lo ha.hi hb.lo hb.hi
  rw [mulD, fin_mul, fin_mul]
  refine Ap.round h z1 z2 hk he hB ?_ ?_
  · have hs : |s| ≤ (C + 1 / 1000) * T := by
      have := abs_near h3
      have k1 : f * (T * (1 / 2 ^ 53)) ≤ 2 ^ 40 * (T * (1 / 2 ^ 53)) := mul_le_mul_of_nonneg_right hf (by positivity)
      have k2 : (2 : ℝ) ^ 40 * (T * (1 / 2 ^ 53)) ≤ 1 / 1000 * T := by
        norm_num
        linarith
      linarith
    have e0 : 0 ≤ e * (S * (1 / 2 ^ 53)) := (abs_nonneg _).trans h1
    have f0 : 0 ≤ f * (T * (1 / 2 ^ 53)) := (abs_nonneg _).trans h3
    have k1 := mul_le_mul_of_nonneg_left hs e0
    have k2 := mul_le_mul_of_nonneg_right h2 f0
    refine (prod_error h1 h3).trans ((add_le_add k1 k2).trans (le_of_eq ?_))
    ring
  · refine (abs_mul_le_of h2 h4).trans (le_of_eq ?_)
    ring

theorem Ap.div (h : NearestF 53 1074 fl) (ha : Ap k S a a' B e) (hb : Ap l T b b' C f) {y : ℝ} (hy : b' = fin y) (hT : T ≤ |y|) (hk : k + l ≤ 900)
    (hf : f ≤ 2 ^ 40) (he : 1001 / 1000 * (e + B * f) ≤ 2 ^ 40) (hB : B ≤ 2 ^ 40) :
    Ap (k + l) (S * (1 / T)) (divD fl a b) (a' / b') B (1001 / 1000 * (e + B * f) + B + 1 / 1000) := by
  obtain ⟨r, x, rfl, rfl, h1, h2⟩ := ha.val
  obtain ⟨s, y', rfl, e', h3, h4⟩ := hb.val
  have S0 := ha.pos
  have T0 := hb.pos
  rw [e'] at hy
  injection hy with hy
  subst hy
  rw [e']
  obtain ⟨z3, z4⟩ := scale_inv hb.lo hb.hi
  obtain ⟨z1, z2⟩ := scale_prod ha.lo ha.hi z3 z4
  have y0 : 0 < |y'| := lt_of_lt_of_le T0 hT
  have hs : 1000 / 1001 * T ≤ |s| := by
    have k0 := abs_sub_abs_le_abs_sub y' s
    rw [abs_sub_comm] at k0
    have k1 : f * (T * (1 / 2 ^ 53)) ≤ 2 ^ 40 * (T * (1 / 2 ^ 53)) := mul_le_mul_of_nonneg_right hf (by positivity)
    have k2 : (2 : ℝ) ^ 40 * (T * (1 / 2 ^ 53)) ≤ 1 / 1001 * T := by
      norm_num
      linarith
    linarith
  have s0 : 0 < |s| := lt_of_lt_of_le (by positivity) hs
  have sn : s ≠ 0 := abs_pos.1 s0
  have yn : y' ≠ 0 := abs_pos.1 y0
  have e0 : 0 ≤ e * (S * (1 / 2 ^ 53)) := (abs_nonneg _).trans h1
  have f0 : 0 ≤ f * (T * (1 / 2 ^ 53)) := (abs_nonneg _).trans h3
  have x0 : 0 ≤ B * S := (abs_nonneg _).trans h2
  rw [divD, fin_div _ sn, fin_div _ yn]
  refine Ap.round h z1 z2 hk he hB ?_ ?_
  · have i : r / s - x / y' = (r - x) / s + x * (y' - s) / (s * y') := by
      field_simp
      ring
    rw [i]
    refine (abs_add_le _ _).trans ?_
    rw [abs_div, abs_div, abs_mul, abs_mul, abs_sub_comm y']
    have j1 : |r - x| / |s| ≤ e * (S * (1 / 2 ^ 53)) / (1000 / 1001 * T) := div_le_div₀ e0 h1 (by positivity) hs
    have j2 : |x| * |s - y'| / (|s| * |y'|) ≤ B * S * (f * (T * (1 / 2 ^ 53))) / (1000 / 1001 * T * T) :=
      div_le_div₀ (mul_nonneg x0 f0) (mul_le_mul h2 h3 (abs_nonneg _) x0) (by positivity) (mul_le_mul hs hT T0.le s0.le)
    refine (add_le_add j1 j2).trans (le_of_eq ?_)
    field_simp
  · rw [abs_div]
    refine (div_le_div₀ x0 h2 T0 hT).trans (le_of_eq ?_)
    ring

/-- roots of squares of lengths -/
theorem Ap.sqrt (h : NearestF 53 1074 fl) (ha : Ap l (T * T) a a' B e) (hk : k ≤ 900) (he : e ≤ 2 ^ 40) (hT : a' = fin (T * T)) (z1 : 1 / 2 ^ k ≤ T)
    (z2 : T ≤ 2 ^ k) : Ap k T (sqrtD fl a) (Dbl.sqrt a') 1 (e + 1001 / 1000) := by
  obtain ⟨r, x, rfl, e', h1, h2⟩ := ha.val
  have T0 : 0 < T := lt_of_lt_of_le (by positivity) z1
  rw [e'] at hT
  injection hT with hT
  subst hT
  have hT2 : √(T * T) = T := Real.sqrt_mul_self T0.le
  have r0 : 0 ≤ r := by
    have k0 := (abs_le.1 h1).1
    have k1 : e * (T * T * (1 / 2 ^ 53)) ≤ 2 ^ 40 * (T * T * (1 / 2 ^ 53)) := mul_le_mul_of_nonneg_right he (by positivity)
    have k2 : (2 : ℝ) ^ 40 * (T * T * (1 / 2 ^ 53)) ≤ T * T := by
      norm_num
      nlinarith
    linarith
  have e1 : Dbl.sqrt a' = fin T := by
    rw [e', sqrt_fin (by positivity), hT2]
  rw [e1, sqrtD, sqrt_fin r0]
  refine (Ap.round (B := 1) (e := e) h z1 z2 hk he (by norm_num) ?_ ?_).mono le_rfl (by linarith)
  · have k1 := root_error r0 (show 0 < T * T by positivity) h1
    rw [hT2] at k1
    refine k1.trans (le_of_eq ?_)
    field_simp
  · rw [one_mul, abs_of_pos T0]

theorem Ap.given {x : ℝ} (h1 : 1 / 2 ^ k ≤ S) (h2 : S ≤ 2 ^ k) (hx : |x| ≤ B * S) : Ap k S (fin x) (fin x) B 0 :=
  ⟨h1, h2, x, x, rfl, rfl, by simp, hx⟩

theorem Ap.unit {x : ℝ} (hx : |x| ≤ B) : Ap 0 1 (fin x) (fin x) B 0 := Ap.given (by norm_num) (by norm_num) (by rwa [mul_one])

theorem lib_total {r x : ℝ} {F : ℝ → ℝ} {g : ℝ} (hF : |F r| ≤ 1) (hg : |g - F r| ≤ |F r| / 2 ^ 52 + 1 / 2 ^ 1074) (hL : |F r - F x| ≤ |r - x|)
    (h : |r - x| ≤ e * (1 * (1 / 2 ^ 53))) : |g - F x| ≤ (e + 3) * (1 * (1 / 2 ^ 53)) := by
  have k1 := near_trans (lib_err hg) (hL.trans h)
  refine k1.trans ?_
  have k2 : 2 * ((1 : ℝ) / 2 ^ 1075) ≤ 1 / 2 ^ 53 := by
    rw [show 2 * ((1 : ℝ) / 2 ^ 1075) = 1 / 2 ^ 1074 by rw [pow_succ]; field_simp]
    exact one_div_le_one_div_of_le (by positivity) (pow_le_pow_right₀ (by norm_num) (by norm_num))
  have k3 := mul_le_mul_of_nonneg_left hF (show (0 : ℝ) ≤ 2 * (1 / 2 ^ 53) by positivity)
  generalize (1 : ℝ) / 2 ^ 1075 = η at *
  linarith

theorem Ap.sin (hl : IsLibm lm) (ha : Ap k 1 a a' B e) : Ap 0 1 (sinD lm a) (Dbl.sin a') 1 (e + 3) := by
  obtain ⟨r, x, rfl, rfl, h1, h2⟩ := ha.val
  refine ⟨by norm_num, by norm_num, lm.sin r, Real.sin x, rfl, rfl, ?_, by rw [mul_one]; exact Real.abs_sin_le_one x⟩
  exact lib_total (F := Real.sin) (Real.abs_sin_le_one r) (hl.sin_err r) (Real.abs_sin_sub_sin_le r x) h1

theorem Ap.cos (hl : IsLibm lm) (ha : Ap k 1 a a' B e) : Ap 0 1 (cosD lm a) (Dbl.cos a') 1 (e + 3) := by
  obtain ⟨r, x, rfl, rfl, h1, h2⟩ := ha.val
  refine ⟨by norm_num, by norm_num, lm.cos r, Real.cos x, rfl, rfl, ?_, by rw [mul_one]; exact Real.abs_cos_le_one x⟩
  exact lib_total (F := Real.cos) (Real.abs_cos_le_one r) (hl.cos_err r) (Real.abs_cos_sub_cos_le r x) h1

/-- sums with a better bound of the exact result -/
theorem Ap.addB (h : NearestF 53 1074 fl) (ha : Ap k S a a' B e) (hb : Ap k S b b' C f) {D : ℝ} (hD : ∀ x, a' + b' = fin x → |x| ≤ D * S) (hk : k ≤ 900)
    (he : e + f ≤ 2 ^ 40) (hB : D ≤ 2 ^ 40) : Ap k S (addD fl a b) (a' + b') D (e + f + D + 1 / 1000) := by
  obtain ⟨r, x, rfl, rfl, h1, h2⟩ := ha.val
  obtain ⟨s, y, rfl, rfl, h3, h4⟩ := hb.val
  have := hD _ (fin_add x y)
  rw [addD, fin_add, fin_add]
  refine Ap.round h ha.lo ha.hi hk he hB ?_ this
  refine (add_error h1 h3).trans (le_of_eq ?_)
  ring

theorem Ap.subB (h : NearestF 53 1074 fl) (ha : Ap k S a a' B e) (hb : Ap k S b b' C f) {D : ℝ} (hD : ∀ x, a' - b' = fin x → |x| ≤ D * S) (hk : k ≤ 900)
    (he : e + f ≤ 2 ^ 40) (hB : D ≤ 2 ^ 40) : Ap k S (subD fl a b) (a' - b') D (e + f + D + 1 / 1000) := by
  obtain ⟨r, x, rfl, rfl, h1, h2⟩ := ha.val
  obtain ⟨s, y, rfl, rfl, h3, h4⟩ := hb.val
  have := hD _ (fin_sub x y)
  rw [subD, fin_sub, fin_sub]
  refine Ap.round h ha.lo ha.hi hk he hB ?_ this
  refine (sub_error h1 h3).trans (le_of_eq ?_)
  ring

theorem Ap.mulr (h : NearestF 53 1074 fl) (ha : Ap 0 1 a a' B e) (hb : Ap l T b b' C f) (hk : l ≤ 900) (hf : f ≤ 2 ^ 40)
    (he : e * (C + 1 / 1000) + B * f ≤ 2 ^ 40) (hB : B * C ≤ 2 ^ 40) :
    Ap l T (mulD fl a b) (a' * b') (B * C) (e * (C + 1 / 1000) + B * f + B * C + 1 / 1000) := by
  have := Ap.mul h ha hb (by omega) hf he hB
  rwa [zero_add, one_mul] at this

theorem Ap.mull (h : NearestF 53 1074 fl) (ha : Ap k S a a' B e) (hb : Ap 0 1 b b' C f) (hk : k ≤ 900) (hf : f ≤ 2 ^ 40)
    (he : e * (C + 1 / 1000) + B * f ≤ 2 ^ 40) (hB : B * C ≤ 2 ^ 40) :
    Ap k S (mulD fl a b) (a' * b') (B * C) (e * (C + 1 / 1000) + B * f + B * C + 1 / 1000) := by
  have := Ap.mul h ha hb (by omega) hf he hB
  rwa [add_zero, mul_one] at this

theorem Ap.divr (h : NearestF 53 1074 fl) (ha : Ap 0 1 a a' B e) (hb : Ap l T b b' C f) {y : ℝ} (hy : b' = fin y) (hT : T ≤ |y|) (hk : l ≤ 900)
    (hf : f ≤ 2 ^ 40) (he : 1001 / 1000 * (e + B * f) ≤ 2 ^ 40) (hB : B ≤ 2 ^ 40) :
    Ap l (1 / T) (divD fl a b) (a' / b') B (1001 / 1000 * (e + B * f) + B + 1 / 1000) := by
  have := Ap.div h ha hb hy hT (by omega) hf he hB
  rwa [zero_add, one_mul] at this

/-! ## vectors -/

/-- a vector with errors of the components of at most `e` units and an exact length of at most `N S` -/
structure ApV (k : ℕ) (S : ℝ) (v v' : V3) (N e : ℝ) : Prop where
  x : Ap k S v.x v'.x N e
  y : Ap k S v.y v'.y N e
  z : Ap k S v.z v'.z N e
  len : ∀ x y z, v' = ⟨fin x, fin y, fin z⟩ → x ^ 2 + y ^ 2 + z ^ 2 ≤ (N * S) ^ 2

variable {v v' w w' : V3} {N M : ℝ}

theorem ApV.get (hv : ApV k S v v' N e) : ∃ x y z, v' = ⟨fin x, fin y, fin z⟩ ∧ x ^ 2 + y ^ 2 + z ^ 2 ≤ (N * S) ^ 2 := by
  obtain ⟨-, x, -, e1, -, -⟩ := hv.x.val
  obtain ⟨-, y, -, e2, -, -⟩ := hv.y.val
  obtain ⟨-, z, -, e3, -, -⟩ := hv.z.val
  obtain ⟨vx, vy, vz⟩ := v'
  simp only at e1 e2 e3
  subst e1 e2 e3
  exact ⟨x, y, z, rfl, hv.len x y z rfl⟩

theorem ApV.mono (hv : ApV k S v v' N e) {N' e' : ℝ} (hN : N ≤ N') (N0 : 0 ≤ N) (he : e ≤ e') : ApV k S v v' N' e' := by
  refine ⟨hv.x.mono hN he, hv.y.mono hN he, hv.z.mono hN he, fun x y z h => (hv.len x y z h).trans ?_⟩
  have S0 := hv.x.pos
  exact pow_le_pow_left₀ (by positivity) (mul_le_mul_of_nonneg_right hN S0.le) 2

theorem inner_le {x1 x2 x3 y1 y2 y3 P Q : ℝ} (P0 : 0 ≤ P) (Q0 : 0 ≤ Q) (h1 : x1 ^ 2 + x2 ^ 2 + x3 ^ 2 ≤ P ^ 2) (h2 : y1 ^ 2 + y2 ^ 2 + y3 ^ 2 ≤ Q ^ 2) :
    |x1 * y1 + x2 * y2 + x3 * y3| ≤ P * Q := by
  refine abs_le_of_sq_le_sq ?_ (by positivity)
  have k := mul_le_mul h1 h2 (by positivity) (by positivity)
  nlinarith [sq_nonneg (x1 * y2 - x2 * y1), sq_nonneg (x1 * y3 - x3 * y1), sq_nonneg (x2 * y3 - x3 * y2)]

theorem ApV.dot (h : NearestF 53 1074 fl) (hv : ApV 0 1 v v' N e) (hw : ApV l T w w' M f) (N0 : 0 ≤ N) (M0 : 0 ≤ M) (hk : l ≤ 900) (hf : f ≤ 2 ^ 30)
    (he : e * (M + 1 / 1000) + N * f ≤ 2 ^ 30) (hB : N * M ≤ 2 ^ 30) :
    Ap l T (dotV fl v w) (v'.dot w') (N * M) (3 * (e * (M + 1 / 1000) + N * f + N * M + 1 / 1000) + 2 * (N * M) + 2 / 1000) := by
  have T0 := hw.x.pos
  obtain ⟨x1, x2, x3, rfl, hx⟩ := hv.get
  obtain ⟨y1, y2, y3, rfl, hy⟩ := hw.get
  have e0 : e * (M + 1 / 1000) + N * f ≤ 2 ^ 40 := he.trans (by norm_num)
  have f0 : f ≤ 2 ^ 40 := hf.trans (by norm_num)
  have B0 : N * M ≤ 2 ^ 40 := hB.trans (by norm_num)
  have p1 := Ap.mulr h hv.x hw.x hk f0 e0 B0
  have p2 := Ap.mulr h hv.y hw.y hk f0 e0 B0
  have p3 := Ap.mulr h hv.z hw.z hk f0 e0 B0
  rw [mul_one] at hx
  have q := Ap.addB h p1 p2 (D := N * M) (fun t ht => by
    simp only [fin_mul, fin_add, fin.injEq] at ht
    have := inner_le (x1 := x1) (x2 := x2) (x3 := 0) (y1 := y1) (y2 := y2) (y3 := 0) N0 (mul_nonneg M0 T0.le) (by linarith [sq_nonneg x3]) (by linarith [sq_nonneg y3])
    rw [mul_zero, add_zero, ht] at this
    linarith) hk (by norm_num at he hB ⊢; linarith) B0
  have r := Ap.addB h q p3 (D := N * M) (fun t ht => by
    simp only [fin_mul, fin_add, fin.injEq] at ht
    have := inner_le (x1 := x1) (x2 := x2) (x3 := x3) (y1 := y1) (y2 := y2) (y3 := y3) N0 (mul_nonneg M0 T0.le) hx hy
    rw [ht] at this
    linarith) hk (by norm_num at he hB ⊢; linarith) B0
  exact r.mono le_rfl (by linarith)

theorem minor_le {x1 x2 x3 y1 y2 y3 P Q : ℝ} (P0 : 0 ≤ P) (Q0 : 0 ≤ Q) (h1 : x1 ^ 2 + x2 ^ 2 + x3 ^ 2 ≤ P ^ 2) (h2 : y1 ^ 2 + y2 ^ 2 + y3 ^ 2 ≤ Q ^ 2) :
    |x1 * y2 - x2 * y1| ≤ P * Q := by
  have := inner_le (x1 := x1) (x2 := x2) (x3 := x3) (y1 := y2) (y2 := -y1) (y3 := 0) P0 Q0 h1 (by linarith [sq_nonneg y3])
  rwa [mul_zero, add_zero, mul_neg, ← sub_eq_add_neg] at this

theorem ApV.cross (h : NearestF 53 1074 fl) (hv : ApV 0 1 v v' N e) (hw : ApV 0 1 w w' M f) (N0 : 0 ≤ N) (M0 : 0 ≤ M) (hf : f ≤ 2 ^ 30)
    (he : e * (M + 1 / 1000) + N * f ≤ 2 ^ 30) (hB : N * M ≤ 2 ^ 30) :
    ApV 0 1 (crossV fl v w) (v'.cross w') (N * M) (2 * (e * (M + 1 / 1000) + N * f + N * M + 1 / 1000) + N * M + 1 / 1000) := by
  obtain ⟨x1, x2, x3, rfl, hx⟩ := hv.get
  obtain ⟨y1, y2, y3, rfl, hy⟩ := hw.get
  have e0 : e * (M + 1 / 1000) + N * f ≤ 2 ^ 40 := he.trans (by norm_num)
  have f0 : f ≤ 2 ^ 40 := hf.trans (by norm_num)
  have B0 : N * M ≤ 2 ^ 40 := hB.trans (by norm_num)
  have D : ∀ {a a' b b' : Dbl} {p p' q q' : Dbl}, Ap 0 1 a a' N e → Ap 0 1 b b' N e → Ap 0 1 p p' M f → Ap 0 1 q q' M f →
      (∀ x, a' * p' - b' * q' = fin x → |x| ≤ N * M * 1) →
      Ap 0 1 (subD fl (mulD fl a p) (mulD fl b q)) (a' * p' - b' * q') (N * M) (2 * (e * (M + 1 / 1000) + N * f + N * M + 1 / 1000) + N * M + 1 / 1000) := by
    intro a a' b b' p p' q q' h1 h2 h3 h4 h5
    have p1 := Ap.mulr h h1 h3 (by norm_num) f0 e0 B0
    have p2 := Ap.mulr h h2 h4 (by norm_num) f0 e0 B0
    exact (Ap.subB h p1 p2 h5 (by norm_num) (by norm_num at he hB ⊢; linarith) B0).mono le_rfl (by linarith)
  rw [mul_one] at hx hy
  refine ⟨D hv.y hv.z hw.z hw.y ?_, D hv.z hv.x hw.x hw.z ?_, D hv.x hv.y hw.y hw.x ?_, ?_⟩
  · intro t ht
    simp only [fin_mul, fin_sub, fin.injEq] at ht
    have := minor_le (x1 := x2) (x2 := x3) (x3 := x1) (y1 := y2) (y2 := y3) (y3 := y1) N0 M0 (by linarith) (by linarith)
    rw [ht] at this
    linarith
  · intro t ht
    simp only [fin_mul, fin_sub, fin.injEq] at ht
    have := minor_le (x1 := x3) (x2 := x1) (x3 := x2) (y1 := y3) (y2 := y1) (y3 := y2) N0 M0 (by linarith) (by linarith)
    rw [ht] at this
    linarith
  · intro t ht
    simp only [fin_mul, fin_sub, fin.injEq] at ht
    have := minor_le (x1 := x1) (x2 := x2) (x3 := x3) (y1 := y1) (y2 := y2) (y3 := y3) N0 M0 hx hy
    rw [ht] at this
    linarith
  · intro t1 t2 t3 ht
    simp only [V3.cross, fin_mul, fin_sub, V3.mk.injEq, fin.injEq] at ht
    obtain ⟨rfl, rfl, rfl⟩ := ht
    have k := mul_le_mul hx hy (by positivity) (by positivity)
    rw [mul_one, mul_pow]
    nlinarith [sq_nonneg (x1 * y1 + x2 * y2 + x3 * y3)]

end Rnd

end Verif
