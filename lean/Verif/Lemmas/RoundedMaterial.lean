import Verif.Model.RoundedMaterial
import Verif.Lemmas.RoundedPropagation
import Mathlib.Analysis.Complex.ExponentialBounds

/-!
# Relative errors

`Rel k a x e`: the number `a` computed in double precision differs from the positive number `x` by at most `e` units of `2^-53 x`; `x` is between
`2^-k` and `2^k`.  One rule for each operation, and rules for the logarithm and for powers.
-/

open Classical

noncomputable section

namespace Verif

open Dbl

namespace Rnd

structure Rel (k : ℕ) (a : Dbl) (x e : ℝ) : Prop where
  lo : 1 / 2 ^ k ≤ x
  hi : x ≤ 2 ^ k
  val : ∃ r, a = fin r ∧ |r - x| ≤ e * (x * (1 / 2 ^ 53))

variable {fl : ℝ → ℝ} {lg : LogLib} {k l : ℕ} {S T B C e f x y : ℝ} {a a' b b' : Dbl}

theorem Rel.pos (h : Rel k a x e) : 0 < x := lt_of_lt_of_le (by positivity) h.lo

theorem Rel.nonneg (h : Rel k a x e) : 0 ≤ e := by
  obtain ⟨r, -, i⟩ := h.val
  have := h.pos
  exact nonneg_of_mul_nonneg_left ((abs_nonneg _).trans i) (by positivity)

theorem Rel.ap (h : Rel k a x e) : Ap k x a (fin x) 1 e := by
  obtain ⟨r, rfl, i⟩ := h.val
  exact ⟨h.lo, h.hi, r, x, rfl, rfl, i, by rw [one_mul, abs_of_pos h.pos]⟩

theorem Ap.rel (h : Ap k x a (fin x) B e) : Rel k a x e := by
  obtain ⟨r, x', h1, h2, h3, -⟩ := h.val
  injection h2 with h2
  subst h2
  exact ⟨h.lo, h.hi, r, h1, h3⟩

theorem Rel.mono (h : Rel k a x e) (hk : k ≤ l) (he : e ≤ f) : Rel l a x f := by
  obtain ⟨r, h1, h2⟩ := h.val
  have x0 := h.pos
  refine ⟨?_, h.hi.trans (pow_le_pow_right₀ (by norm_num) hk), r, h1, h2.trans (mul_le_mul_of_nonneg_right he (by positivity))⟩
  exact le_trans (one_div_le_one_div_of_le (by positivity) (pow_le_pow_right₀ (by norm_num) hk)) h.lo

theorem Rel.given (h1 : 1 / 2 ^ k ≤ x) (h2 : x ≤ 2 ^ k) : Rel k (fin x) x 0 := ⟨h1, h2, x, rfl, by simp⟩

theorem Rel.lit (h : NearestF 53 1074 fl) (h1 : 1 / 2 ^ k ≤ x) (h2 : x ≤ 2 ^ k) (hk : k ≤ 900) : Rel k (lit fl x) x (1001 / 1000) := by
  have x0 : 0 < x := lt_of_lt_of_le (by positivity) h1
  exact ((Ap.round (B := 1) (e := 0) h h1 h2 hk (by norm_num) (by norm_num) (by simp) (by rw [one_mul, abs_of_pos x0])).mono le_rfl (by norm_num)).rel

theorem Rel.mul (h : NearestF 53 1074 fl) (ha : Rel k a x e) (hb : Rel l b y f) (hk : k + l ≤ 900) (hf : f ≤ 2 ^ 30) (he : e ≤ 2 ^ 30) :
    Rel (k + l) (mulD fl a b) (x * y) (1001 / 1000 * e + f + 1001 / 1000) := by
  have := (Ap.mul h ha.ap hb.ap hk (hf.trans (by norm_num)) (by norm_num at *; linarith) (by norm_num)).mono (B' := 1)
    (e' := 1001 / 1000 * e + f + 1001 / 1000) (by norm_num) (by linarith)
  rw [fin_mul] at this
  exact this.rel

theorem Rel.div (h : NearestF 53 1074 fl) (ha : Rel k a x e) (hb : Rel l b y f) (hk : k + l ≤ 900) (hf : f ≤ 2 ^ 30) (he : e ≤ 2 ^ 30) :
    Rel (k + l) (divD fl a b) (x / y) (1001 / 1000 * (e + f) + 1001 / 1000) := by
  have := (Ap.div h ha.ap hb.ap rfl (le_abs_self _) hk (hf.trans (by norm_num)) (by norm_num at *; linarith) (by norm_num)).mono (B' := 1)
    (e' := 1001 / 1000 * (e + f) + 1001 / 1000) (by norm_num) (by linarith)
  rw [fin_div _ hb.pos.ne', mul_one_div] at this
  exact this.rel

theorem root_range (h1 : 1 / 2 ^ k ≤ x) (h2 : x ≤ 2 ^ k) : 1 / 2 ^ k ≤ √x ∧ √x ≤ 2 ^ k := by
  constructor
  · refine Real.le_sqrt_of_sq_le (le_trans ?_ h1)
    rw [sq]
    exact mul_le_of_le_one_left (by positivity) (by rw [div_le_one (by positivity)]; exact one_le_pow₀ (by norm_num))
  · refine (Real.sqrt_le_sqrt h2).trans ?_
    rw [Real.sqrt_le_left (by positivity), sq]
    exact le_mul_of_one_le_left (by positivity) (one_le_pow₀ (by norm_num))

theorem Rel.sqrt (h : NearestF 53 1074 fl) (ha : Rel k a x e) (hk : k ≤ 900) (he : e ≤ 2 ^ 30) : Rel k (sqrtD fl a) (√x) (e + 1001 / 1000) := by
  obtain ⟨z1, z2⟩ := root_range ha.lo ha.hi
  have i : √x * √x = x := Real.mul_self_sqrt ha.pos.le
  have A : Ap k (√x * √x) a (fin x) 1 e := by
    rw [i]
    exact ha.ap
  have := Ap.sqrt h A hk (he.trans (by norm_num)) (by rw [i]) z1 z2
  rw [sqrt_fin ha.pos.le] at this
  exact this.rel

/-- zero, or a number known up to a relative error -/
def Rel0 (k : ℕ) (a : Dbl) (x e : ℝ) : Prop := (a = fin 0 ∧ x = 0) ∨ Rel k a x e

theorem Rel.zero (h : Rel k a x e) : Rel0 k a x e := .inr h

theorem Rel0.nonneg (h : Rel0 k a x e) : 0 ≤ x := by
  rcases h with ⟨-, rfl⟩ | h
  · exact le_rfl
  · exact h.pos.le

theorem Rel0.rel (h : Rel0 k a x e) (x0 : 0 < x) : Rel k a x e := by
  rcases h with ⟨-, rfl⟩ | h
  · exact absurd x0 (lt_irrefl _)
  · exact h

theorem Rel0.given (h : x = 0 ∨ 1 / 2 ^ k ≤ x ∧ x ≤ 2 ^ k) : Rel0 k (fin x) x 0 := by
  rcases h with rfl | h
  · exact .inl ⟨rfl, rfl⟩
  · exact .inr (.given h.1 h.2)

theorem Rel0.mono (h : Rel0 k a x e) (hk : k ≤ l) (he : e ≤ f) : Rel0 l a x f := by
  rcases h with h | h
  · exact .inl h
  · exact .inr (h.mono hk he)

theorem rnd_zero (h : NearestF 53 1074 fl) : rnd fl 1024 (fin 0) = fin 0 := by
  rw [rnd_double h (by rw [_root_.abs_zero]; positivity), h.fix repF_zero]

theorem Rel0.mul (h : NearestF 53 1074 fl) (ha : Rel0 k a x e) (hb : Rel0 l b y f) (hk : k + l ≤ 900) (hf : f ≤ 2 ^ 30) (he : e ≤ 2 ^ 30) :
    Rel0 (k + l) (mulD fl a b) (x * y) (1001 / 1000 * e + f + 1001 / 1000) := by
  rcases ha with ⟨rfl, rfl⟩ | ha
  · obtain ⟨s, rfl⟩ : ∃ s, b = fin s := by
      rcases hb with hb | hb
      · exact ⟨0, hb.1⟩
      · obtain ⟨s, hs, -⟩ := hb.val
        exact ⟨s, hs⟩
    exact .inl ⟨by rw [mulD, fin_mul, zero_mul, rnd_zero h], zero_mul _⟩
  rcases hb with ⟨rfl, rfl⟩ | hb
  · obtain ⟨s, rfl, -⟩ := ha.val
    exact .inl ⟨by rw [mulD, fin_mul, mul_zero, rnd_zero h], mul_zero _⟩
  · exact .inr (ha.mul h hb hk hf he)

theorem Rel0.div (h : NearestF 53 1074 fl) (ha : Rel0 k a x e) (hb : Rel l b y f) (hk : k + l ≤ 900) (hf : f ≤ 2 ^ 30) (he : e ≤ 2 ^ 30) :
    Rel0 (k + l) (divD fl a b) (x / y) (1001 / 1000 * (e + f) + 1001 / 1000) := by
  rcases ha with ⟨rfl, rfl⟩ | ha
  · refine .inl ⟨?_, zero_div _⟩
    obtain ⟨s, rfl, i⟩ := hb.val
    have y0 := hb.pos
    have s0 : s ≠ 0 := by
      rintro rfl
      rw [zero_sub, abs_neg, abs_of_pos y0] at i
      have : f * (y * (1 / 2 ^ 53)) ≤ 2 ^ 30 * (y * (1 / 2 ^ 53)) := mul_le_mul_of_nonneg_right hf (by positivity)
      norm_num at this i
      linarith
    rw [divD, fin_div _ s0, zero_div, rnd_zero h]
  · exact .inr (ha.div h hb hk hf he)

theorem Rel.again (h : NearestF 53 1074 fl) (ha : Rel k a x e) (hk : k ≤ 900) (he : e ≤ 2 ^ 30) : Rel k (rnd fl 1024 a) x (e + 1001 / 1000) := by
  obtain ⟨r, rfl, i⟩ := ha.val
  exact ((Ap.round (B := 1) h ha.lo ha.hi hk (he.trans (by norm_num)) (by norm_num) i (by rw [one_mul, abs_of_pos ha.pos])).mono le_rfl
    (by linarith)).rel

theorem Rel.add (h : NearestF 53 1074 fl) (ha : Rel0 k a x e) (hb : Rel0 k b y e) (xy : 0 < x + y) (hk : k + 1 ≤ 900) (he : e ≤ 2 ^ 30) :
    Rel (k + 1) (addD fl a b) (x + y) (e + 1001 / 1000) := by
  rcases ha with ⟨rfl, rfl⟩ | ha
  · rw [zero_add] at xy ⊢
    have hb := hb.rel xy
    have := (hb.again h (by omega) he).mono (Nat.le_succ k) le_rfl
    obtain ⟨s, rfl, -⟩ := hb.val
    rw [addD, fin_add, zero_add]
    exact this
  rcases hb with ⟨rfl, rfl⟩ | hb
  · rw [add_zero]
    have := (ha.again h (by omega) he).mono (Nat.le_succ k) le_rfl
    obtain ⟨s, rfl, -⟩ := ha.val
    rw [addD, fin_add, add_zero]
    exact this
  obtain ⟨r, rfl, i⟩ := ha.val
  obtain ⟨s, rfl, j⟩ := hb.val
  rw [addD, fin_add]
  have z1 : 1 / 2 ^ (k + 1) ≤ x + y := by
    have : (1 : ℝ) / 2 ^ (k + 1) ≤ 1 / 2 ^ k := one_div_le_one_div_of_le (by positivity) (pow_le_pow_right₀ (by norm_num) (Nat.le_succ k))
    linarith [ha.lo, hb.pos]
  have z2 : x + y ≤ 2 ^ (k + 1) := by
    rw [pow_succ (2 : ℝ) k]
    linarith [ha.hi, hb.hi]
  refine ((Ap.round (B := 1) (e := e) h z1 z2 hk (he.trans (by norm_num)) (by norm_num) ?_ (by rw [one_mul, abs_of_pos xy])).mono le_rfl (by linarith)).rel
  refine (add_error i j).trans (le_of_eq ?_)
  ring

theorem Rel.abs (h : Ap k S a (fin y) B e) (hy : 1 / 2 ^ l ≤ |y|) (hl : |y| ≤ 2 ^ l) : Rel l (Dbl.abs a) |y| (e * (S / |y|)) := by
  obtain ⟨r, y', rfl, e2, i, -⟩ := h.val
  injection e2 with e2
  subst e2
  have y0 : 0 < |y| := lt_of_lt_of_le (by positivity) hy
  refine ⟨hy, hl, |r|, abs_fin r, (abs_abs_sub_abs_le _ _).trans (i.trans (le_of_eq ?_))⟩
  field_simp

/-- relative errors and logarithms -/
theorem log_ratio {r : ℝ} (x0 : 0 < x) (h : |r - x| ≤ e * (x * (1 / 2 ^ 53))) (he : e ≤ 2 ^ 30) :
    0 < r ∧ |Real.log r - Real.log x| ≤ 1001 / 1000 * e * (1 / 2 ^ 53) := by
  have e0 : 0 ≤ e := nonneg_of_mul_nonneg_left ((abs_nonneg _).trans h) (by positivity)
  obtain ⟨t, ht⟩ : ∃ t, t = e * (1 / 2 ^ 53) := ⟨_, rfl⟩
  have t0 : 0 ≤ t := by rw [ht]; positivity
  have t1 : t ≤ 1 / 2001 := by
    have : t ≤ 2 ^ 30 * (1 / 2 ^ 53) := by rw [ht]; exact mul_le_mul_of_nonneg_right he (by positivity)
    norm_num at this
    linarith
  have h' : |r - x| ≤ t * x := by
    rw [ht]
    linarith
  obtain ⟨h1, h2⟩ := abs_le.1 h'
  have r0 : 0 < r := by nlinarith
  refine ⟨r0, ?_⟩
  have k1 := Real.log_le_sub_one_of_pos (show 0 < r / x by positivity)
  have k2 := Real.log_le_sub_one_of_pos (show 0 < x / r by positivity)
  rw [Real.log_div r0.ne' x0.ne'] at k1
  rw [Real.log_div x0.ne' r0.ne'] at k2
  have j1 : r / x - 1 ≤ t := by
    rw [sub_le_iff_le_add, div_le_iff₀ x0]
    linarith
  have j2 : x / r - 1 ≤ 1001 / 1000 * t := by
    rw [sub_le_iff_le_add, div_le_iff₀ r0]
    nlinarith
  have : 1001 / 1000 * e * (1 / 2 ^ 53) = 1001 / 1000 * t := by rw [ht]; ring
  rw [this, abs_le]
  constructor <;> linarith

/-- a library function with an error of one unit in the last place, behind an argument with errors -/
theorem lib_far {g F F' : ℝ} (hg : |g - F| ≤ |F| / 2 ^ 52 + 1 / 2 ^ 1074) (hF : |F - F'| ≤ f * (1 / 2 ^ 53)) (hf : f ≤ 2 ^ 31) (hS : |F'| + 1 ≤ S) :
    |g - F'| ≤ (f + 21 / 10) * (S * (1 / 2 ^ 53)) := by
  have f0 : 0 ≤ f := nonneg_of_mul_nonneg_left ((abs_nonneg _).trans hF) (by positivity)
  have S1 : 1 ≤ S := by linarith [abs_nonneg F']
  have k1 := near_trans hg hF
  have k2 := abs_near hF
  have k3 : f * (1 / 2 ^ 53) ≤ 1 / 100 := by
    have := mul_le_mul_of_nonneg_right hf (show (0 : ℝ) ≤ 1 / 2 ^ 53 by positivity)
    norm_num at this ⊢
    linarith
  have k4 : (1 : ℝ) / 2 ^ 1074 ≤ 1 / 2 ^ 60 := one_div_le_one_div_of_le (by positivity) (pow_le_pow_right₀ (by norm_num) (by norm_num))
  have k5 : |F| / 2 ^ 52 ≤ (S + 1 / 100) / 2 ^ 52 := div_le_div_of_nonneg_right (by linarith) (by positivity)
  have k6 : f * (1 / 2 ^ 53) ≤ f * (S * (1 / 2 ^ 53)) := mul_le_mul_of_nonneg_left (by nlinarith [show (0 : ℝ) ≤ 1 / 2 ^ 53 by positivity]) f0
  generalize (1 : ℝ) / 2 ^ 1074 = η at *
  norm_num at *
  linarith

theorem log_le_of {m : ℕ} (x0 : 0 < x) (h : 1 / 2 ^ m ≤ x) (h' : x ≤ 2 ^ m) : |Real.log x| ≤ m := by
  have l2 : Real.log 2 ≤ 1 := by
    have := Real.log_le_sub_one_of_pos (show (0 : ℝ) < 2 by norm_num)
    linarith
  have k1 := Real.log_le_log x0 h'
  have k2 := Real.log_le_log (by positivity) h
  rw [Real.log_pow] at k1
  rw [one_div, Real.log_inv, Real.log_pow] at k2
  have : (m : ℝ) * Real.log 2 ≤ m := mul_le_of_le_one_right (by positivity) l2
  rw [abs_le]
  constructor <;> linarith

theorem log_scale (hS : |Real.log x| + 1 ≤ S) (hS' : S ≤ 2 ^ l) : 1 / 2 ^ l ≤ S ∧ S ≤ 2 ^ l := by
  refine ⟨?_, hS'⟩
  have : (1 : ℝ) / 2 ^ l ≤ 1 := by
    rw [div_le_one (by positivity)]
    exact one_le_pow₀ (by norm_num)
  linarith [abs_nonneg (Real.log x)]

theorem Rel.log (hl : IsLogLib lg) (ha : Rel k a x e) (he : e ≤ 2 ^ 30) (hS : |Real.log x| + 1 ≤ S) (hS' : S ≤ 2 ^ l) :
    Ap l S (logD lg a) (fin (Real.log x)) 1 (1001 / 1000 * e + 21 / 10) := by
  obtain ⟨z1, z2⟩ := log_scale hS hS'
  obtain ⟨r, rfl, i⟩ := ha.val
  obtain ⟨r0, j⟩ := log_ratio ha.pos i he
  refine ⟨z1, z2, lg.log r, Real.log x, by simp only [logD, if_pos r0], rfl, ?_, by linarith⟩
  exact lib_far (hl.log_err r r0) j (by norm_num at *; linarith) hS

theorem log_ten : 23 / 10 ≤ Real.log 10 ∧ Real.log 10 ≤ 2303 / 1000 := by
  have h : Real.log 10 = Real.log 2 + Real.log 5 := by
    rw [← Real.log_mul (by norm_num) (by norm_num)]
    norm_num
  have h1 := Real.log_two_lt_d9
  have h2 := Real.log_five_lt_d9
  have h3 := Real.log_two_gt_d9
  have h4 := Real.log_five_gt_d9
  rw [h]
  norm_num at *
  constructor <;> linarith

theorem Rel.log10 (hl : IsLogLib lg) (ha : Rel k a x e) (he : e ≤ 2 ^ 30) (hS : |Real.log x / Real.log 10| + 1 ≤ S) (hS' : S ≤ 2 ^ l) :
    Ap l S (log10D lg a) (fin (Real.log x / Real.log 10)) 1 (44 / 100 * e + 21 / 10) := by
  have z1 : 1 / 2 ^ l ≤ S := by
    have : (1 : ℝ) / 2 ^ l ≤ 1 := by
      rw [div_le_one (by positivity)]
      exact one_le_pow₀ (by norm_num)
    linarith [abs_nonneg (Real.log x / Real.log 10)]
  obtain ⟨r, rfl, i⟩ := ha.val
  obtain ⟨r0, j⟩ := log_ratio ha.pos i he
  have e0 := ha.nonneg
  refine ⟨z1, hS', lg.log10 r, Real.log x / Real.log 10, by simp only [log10D, if_pos r0], rfl, ?_, by linarith⟩
  refine lib_far (hl.log10_err r r0) ?_ (by norm_num at *; linarith) hS
  obtain ⟨t1, -⟩ := log_ten
  have t0 : 0 < Real.log 10 := by linarith
  rw [← sub_div, abs_div, abs_of_pos t0, div_le_iff₀ t0]
  refine j.trans ?_
  have u0 : (0 : ℝ) ≤ e * (1 / 2 ^ 53) := by positivity
  generalize (1 : ℝ) / 2 ^ 53 = u at *
  have := mul_le_mul_of_nonneg_right t1 u0
  linarith

/-- a power with a rounded exponent -/
theorem Rel.pow (hl : IsLogLib lg) {r y y' : ℝ} (hr : 0 < r) (h1 : 1 / 2 ^ k ≤ r ^ y') (h2 : r ^ y' ≤ 2 ^ k) (hk : k ≤ 900)
    (hy : |(y - y') * Real.log r| ≤ f * (1 / 2 ^ 53)) (hf : f ≤ 2 ^ 20) : Rel k (powD lg (fin r) (fin y)) (r ^ y') (2 * f + 21 / 10) := by
  have Q0 : 0 < r ^ y' := lt_of_lt_of_le (by positivity) h1
  have f0 : 0 ≤ f := nonneg_of_mul_nonneg_left ((abs_nonneg _).trans hy) (by positivity)
  have hs : f * (1 / 2 ^ 53) ≤ 1 / 2 ^ 33 := by
    have := mul_le_mul_of_nonneg_right hf (show (0 : ℝ) ≤ 1 / 2 ^ 53 by positivity)
    norm_num at this ⊢
    linarith
  refine ⟨h1, h2, lg.pow r y, by simp only [powD, if_pos (Or.inl hr : 0 < r ∨ r = 0 ∧ 0 < y)], ?_⟩
  obtain ⟨t, ht⟩ : ∃ t, t = (y - y') * Real.log r := ⟨_, rfl⟩
  have e1 : r ^ y = r ^ y' * Real.exp t := by
    rw [Real.rpow_def_of_pos hr, Real.rpow_def_of_pos hr, ← Real.exp_add, ht]
    congr 1
    ring
  rw [← ht] at hy
  have k1 := Real.abs_exp_sub_one_le (x := t) (hy.trans (hs.trans (by norm_num)))
  have k2 : |r ^ y - r ^ y'| ≤ 2 * f * (r ^ y' * (1 / 2 ^ 53)) := by
    rw [e1, show r ^ y' * Real.exp t - r ^ y' = r ^ y' * (Real.exp t - 1) by ring, abs_mul, abs_of_pos Q0]
    have := mul_le_mul_of_nonneg_left (k1.trans (mul_le_mul_of_nonneg_left hy (by norm_num))) Q0.le
    linarith
  have k3 := near_trans (hl.pow_err r y (Or.inl hr)) k2
  have k4 := (abs_le.1 k2).2
  have k5 : 2 * f * (r ^ y' * (1 / 2 ^ 53)) ≤ 1 / 100 * r ^ y' := by
    have := mul_le_mul_of_nonneg_right hs Q0.le
    norm_num at this ⊢
    linarith
  have k6 : (1 : ℝ) / 2 ^ 1074 ≤ 1 / 100 * (r ^ y' * (1 / 2 ^ 53)) := by
    have i1 : (1 : ℝ) / 2 ^ 1074 ≤ 1 / 2 ^ 900 * (1 / 2 ^ 64) := by
      rw [one_div_mul_one_div, ← pow_add]
      exact one_div_le_one_div_of_le (by positivity) (pow_le_pow_right₀ (by norm_num) (by norm_num))
    have i2 : (1 : ℝ) / 2 ^ 900 ≤ r ^ y' := le_trans (one_div_le_one_div_of_le (by positivity) (pow_le_pow_right₀ (by norm_num) hk)) h1
    have i3 := mul_le_mul_of_nonneg_right i2 (show (0 : ℝ) ≤ 1 / 2 ^ 64 by positivity)
    refine (i1.trans i3).trans ?_
    norm_num
    linarith
  refine k3.trans ?_
  have k7 : r ^ y / 2 ^ 52 ≤ (101 / 100 * r ^ y') / 2 ^ 52 := div_le_div_of_nonneg_right (by linarith) (by positivity)
  generalize (1 : ℝ) / 2 ^ 1074 = η at *
  clear e1 k1 k4 k5 hy ht h1 h2
  generalize r ^ y' = Q at *
  norm_num at *
  linarith

end Rnd

end Verif
