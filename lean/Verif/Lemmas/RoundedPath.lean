import Verif.Model.RoundedPath
import Verif.Lemmas.RoundedArith
import Verif.Lemmas.RoundedHelix
import Verif.Lemmas.Helix
import Verif.Lemmas.UnitTestTracks
import Mathlib.Analysis.Real.Pi.Bounds
import Mathlib.Analysis.Calculus.MeanValue
import Mathlib.Analysis.SpecialFunctions.Trigonometric.Deriv

/-!
# Rounding errors of path lengths, for real numbers
-/

open Classical

noncomputable section

namespace Verif

namespace Rnd

open Dbl

/-! ### spacing of the numbers -/

/-- numbers above a power of two are multiples of the spacing -/
theorem repF_multiple {p k e : ℕ} {x : ℝ} (h : RepF p k x) (hx : 2 ^ (p + e) < |x| * 2 ^ k) : ∃ m : ℤ, x * 2 ^ k = m * 2 ^ (e + 1) := by
  obtain ⟨m, f, h1, h2⟩ := h
  have hk : (0 : ℝ) < 2 ^ k := by positivity
  have h1' : |(m : ℝ)| ≤ 2 ^ p := by exact_mod_cast h1
  have h3 : |x| * 2 ^ k = |(m : ℝ)| * 2 ^ f := by
    rw [← abs_of_pos hk, ← abs_mul, h2, abs_mul, abs_of_pos (by positivity : (0 : ℝ) < 2 ^ f)]
  have h4 : (2 : ℝ) ^ (p + e) < 2 ^ (p + f) := by
    rw [pow_add 2 p f]
    calc (2 : ℝ) ^ (p + e) < |(m : ℝ)| * 2 ^ f := by rw [← h3]; exact hx
      _ ≤ _ := mul_le_mul_of_nonneg_right h1' (by positivity)
  have h5 : p + e < p + f := (pow_lt_pow_iff_right₀ (by norm_num : (1 : ℝ) < 2)).1 h4
  obtain ⟨j, hj⟩ := Nat.exists_eq_add_of_le (show e + 1 ≤ f by omega)
  refine ⟨m * 2 ^ j, ?_⟩
  rw [h2, hj]
  push_cast
  rw [pow_add]
  ring

/-- numbers above a power of two are at least a spacing away from all others -/
theorem repF_spacing {p k e : ℕ} (hp : 1 ≤ p) {x y : ℝ} (hx : RepF p k x) (hy : RepF p k y) (h : 2 ^ (p + e) < |x| * 2 ^ k) (hne : x ≠ y) :
    2 ^ (e + 1) ≤ |x - y| * 2 ^ k := by
  have hk : (0 : ℝ) < 2 ^ k := by positivity
  have he : (0 : ℝ) < 2 ^ (e + 1) := by positivity
  obtain ⟨m, hm⟩ := repF_multiple hx h
  have ad : |x - y| * 2 ^ k = |x * 2 ^ k - y * 2 ^ k| := by rw [← sub_mul, abs_mul, abs_of_pos hk]
  rw [ad]
  by_cases hy' : 2 ^ (p + e) < |y| * 2 ^ k
  · obtain ⟨n, hn⟩ := repF_multiple hy hy'
    rw [hm, hn, ← sub_mul, abs_mul, abs_of_pos he]
    have : m - n ≠ 0 := fun q => hne (by
      have : m = n := by omega
      rw [this, ← hn] at hm
      exact mul_right_cancel₀ hk.ne' hm)
    have h1 : (1 : ℝ) ≤ |((m - n : ℤ) : ℝ)| := by exact_mod_cast Int.one_le_abs this
    push_cast at h1
    nlinarith
  · rw [not_lt] at hy'
    have ax : |x * 2 ^ k| = |x| * 2 ^ k := by rw [abs_mul, abs_of_pos hk]
    have ay : |y * 2 ^ k| = |y| * 2 ^ k := by rw [abs_mul, abs_of_pos hk]
    have pe : (2 : ℝ) ^ (p + e) = 2 ^ (p - 1) * 2 ^ (e + 1) := by rw [← pow_add]; congr 1; omega
    have h1 : (2 : ℝ) ^ (p - 1) < |(m : ℝ)| := by
      rw [← ax, hm, pe, abs_mul, abs_of_pos he] at h
      exact lt_of_mul_lt_mul_right h he.le
    have h2 : (2 : ℤ) ^ (p - 1) + 1 ≤ |m| := by
      have : (2 : ℤ) ^ (p - 1) < |m| := by exact_mod_cast h1
      omega
    have h3 : (2 : ℝ) ^ (p - 1) + 1 ≤ |(m : ℝ)| := by exact_mod_cast h2
    have h4 : (2 : ℝ) ^ (p + e) + 2 ^ (e + 1) ≤ |x * 2 ^ k| := by
      rw [hm, abs_mul, abs_of_pos he, pe]
      nlinarith
    have h5 := abs_sub_abs_le_abs_sub (x * 2 ^ k) (y * 2 ^ k)
    linarith

/-- rounding within half of the spacing -/
theorem NearestF.cell {p k e : ℕ} {fl : ℝ → ℝ} (h : NearestF p k fl) (hp : 1 ≤ p) {x z : ℝ} (hx : RepF p k x) (hb : 2 ^ (p + e) < |x| * 2 ^ k)
    (hz : |z - x| * 2 ^ k < 2 ^ e) : fl z = x := by
  by_contra hne
  have hk : (0 : ℝ) < 2 ^ k := by positivity
  have h1 := repF_spacing hp hx (h.rep z) hb (fun q => hne q.symm)
  have h2 := h.near z x hx
  have h3 : |x - fl z| ≤ 2 * |z - x| := by
    have e : x - fl z = (x - z) + (z - fl z) := by ring
    rw [e]
    have := abs_add_le (x - z) (z - fl z)
    rw [abs_sub_comm x z, abs_sub_comm z (fl z)] at this
    rw [abs_sub_comm x z] at h2
    linarith
  have h4 : |x - fl z| * 2 ^ k ≤ 2 * (|z - x| * 2 ^ k) := by nlinarith
  rw [pow_succ] at h1
  linarith

/-- rounding at most doubles a number -/
theorem NearestF.double {p k : ℕ} {fl : ℝ → ℝ} (h : NearestF p k fl) (x : ℝ) : |fl x| ≤ 2 * |x| := by
  have h1 := h.near x 0 repF_zero
  rw [zero_sub, abs_neg] at h1
  have h2 := abs_add_le (fl x - x) x
  rw [sub_add_cancel] at h2
  linarith

/-! ### angles -/

/-- the angle of a vector near the one with angle `θ` and length 1 -/
theorem ratan2_turn {A B θ : ℝ} (hR : 0 < B * Real.cos θ + A * Real.sin θ) :
    ∃ (δ : ℝ) (k : ℤ), ratan2 A B = θ + δ + k * (2 * Real.pi) ∧ |δ| ≤ |A * Real.cos θ - B * Real.sin θ| / (B * Real.cos θ + A * Real.sin θ) := by
  set R := B * Real.cos θ + A * Real.sin θ with hRd
  set I := A * Real.cos θ - B * Real.sin θ with hId
  have hne : ¬ (R = 0 ∧ I = 0) := fun h => hR.ne' h.1
  have c := cos_ratan2 I R hne
  have s := sin_ratan2 I R
  have hr : 0 < Real.sqrt (R ^ 2 + I ^ 2) := Real.sqrt_pos.2 (by positivity)
  have cc : Real.sqrt (R ^ 2 + I ^ 2) * Real.cos (ratan2 I R) = R := by rw [c]; field_simp
  have ss : Real.sqrt (R ^ 2 + I ^ 2) * Real.sin (ratan2 I R) = I := by rw [s]; field_simp
  obtain ⟨k, hk⟩ := ratan2_sin_cos hr (θ + ratan2 I R)
  refine ⟨ratan2 I R, k, ?_, ratan2_small hR⟩
  rw [← hk]
  have p := Real.sin_sq_add_cos_sq θ
  congr 1
  · rw [Real.sin_add, mul_add, show Real.sqrt (R ^ 2 + I ^ 2) * (Real.sin θ * Real.cos (ratan2 I R)) = Real.sin θ * (Real.sqrt (R ^ 2 + I ^ 2) * Real.cos (ratan2 I R)) by ring,
      show Real.sqrt (R ^ 2 + I ^ 2) * (Real.cos θ * Real.sin (ratan2 I R)) = Real.cos θ * (Real.sqrt (R ^ 2 + I ^ 2) * Real.sin (ratan2 I R)) by ring, cc, ss, hRd, hId]
    linear_combination -A * p
  · rw [Real.cos_add, mul_sub, show Real.sqrt (R ^ 2 + I ^ 2) * (Real.cos θ * Real.cos (ratan2 I R)) = Real.cos θ * (Real.sqrt (R ^ 2 + I ^ 2) * Real.cos (ratan2 I R)) by ring,
      show Real.sqrt (R ^ 2 + I ^ 2) * (Real.sin θ * Real.sin (ratan2 I R)) = Real.sin θ * (Real.sqrt (R ^ 2 + I ^ 2) * Real.sin (ratan2 I R)) by ring, cc, ss, hRd, hId]
    linear_combination -B * p

/-- `sin (2 φ)` for `1 ≤ φ ≤ 2` -/
theorem sin_double_le {φ : ℝ} (h1 : 1 ≤ φ) (h2 : φ ≤ 2) : |Real.sin (2 * φ)| ≤ 15 / 16 := by
  have p1 := Real.pi_gt_d4
  have p2 := Real.pi_lt_d4
  have e : |Real.sin (2 * φ)| = |Real.sin (Real.pi - 2 * φ)| := by rw [Real.sin_pi_sub]
  rw [e]
  generalize ht : Real.pi - 2 * φ = t
  have t1 : t ≤ 1.1416 := by linarith
  have t2 : -1.1416 ≤ t := by linarith
  have t3 : t ^ 2 ≤ 1.1416 ^ 2 := sq_le_sq' t2 t1
  have c := Real.one_sub_sq_div_two_le_cos (x := t)
  have c1 : 0.3483 ≤ Real.cos t := by norm_num at t3 ⊢; linarith
  have c2 : (0.3483 : ℝ) ^ 2 ≤ Real.cos t ^ 2 := pow_le_pow_left₀ (by norm_num) c1 2
  have q := Real.sin_sq_add_cos_sq t
  refine abs_le_of_sq_le_sq ?_ (by norm_num)
  norm_num at c2 ⊢
  linarith

/-- `sin x / x` changes less than `x`, for positive numbers -/
theorem sinc_pos {x y : ℝ} (hx : 0 < x) (hxy : x ≤ y) (hy : y ≤ 2) : |Real.sin x / x - Real.sin y / y| ≤ y - x := by
  have key := Convex.norm_image_sub_le_of_norm_hasDerivWithin_le (f := fun t => Real.sin t / t) (C := 1) (s := Set.Icc x y) (x := y) (y := x)
    (f' := fun t => (Real.cos t * t - Real.sin t * 1) / t ^ 2) (fun t ht => ?_) (fun t ht => ?_) (convex_Icc x y) ⟨hxy, le_rfl⟩ ⟨le_rfl, hxy⟩
  · rw [Real.norm_eq_abs, Real.norm_eq_abs, one_mul, abs_sub_comm x y, abs_of_nonneg (sub_nonneg.2 hxy)] at key
    exact key
  · have t0 : 0 < t := lt_of_lt_of_le hx ht.1
    exact ((Real.hasDerivAt_sin t).div (hasDerivAt_id t) t0.ne').hasDerivWithinAt
  · have t0 : 0 < t := lt_of_lt_of_le hx ht.1
    have t1 : t ≤ 2 := ht.2.trans hy
    rw [Real.norm_eq_abs, abs_div, abs_of_pos (by positivity : 0 < t ^ 2), div_le_one (by positivity), abs_le]
    have c := Real.one_sub_sq_div_two_le_cos (x := t)
    have c1 := Real.cos_le_one t
    have s1 := Real.sin_lt t0
    have s2 := (Real.sin_gt_sub_cube t0).le
    have ct := mul_le_mul_of_nonneg_right c t0.le
    have ct1 := mul_le_mul_of_nonneg_right c1 t0.le
    have t3 : t ^ 3 ≤ 2 * t ^ 2 := by nlinarith [sq_nonneg t]
    constructor
    · nlinarith
    · nlinarith

/-- `sin x / x` changes less than `x` -/
theorem sinc_lip {x y : ℝ} (hx : x ≠ 0) (hy : y ≠ 0) (hx' : |x| ≤ 2) (hy' : |y| ≤ 2) : |Real.sin x / x - Real.sin y / y| ≤ |x - y| := by
  have ev : ∀ t : ℝ, Real.sin |t| / |t| = Real.sin t / t := fun t => by
    rcases abs_choice t with h | h <;> rw [h]
    rw [Real.sin_neg, neg_div_neg_eq]
  rw [← ev x, ← ev y]
  refine le_trans ?_ (abs_abs_sub_abs_le x y)
  rcases le_total |x| |y| with h | h
  · rw [abs_sub_comm |x| |y|, abs_of_nonneg (sub_nonneg.2 h)]
    exact sinc_pos (abs_pos.2 hx) h hy'
  · rw [abs_of_nonneg (sub_nonneg.2 h), abs_sub_comm]
    exact sinc_pos (abs_pos.2 hy) h hx'

/-- the path length for a wrong angle -/
theorem arc_turn {om s t : ℝ} (hom : om ≠ 0) (ht : t ≠ 0) (hs : s ≠ 0) (hos : |om * s| ≤ 7 / 5) (ht' : |t| ≤ 3 / 2) :
    |t| ≤ 8 / 5 * |Real.sin t| ∧ |Real.sin (om * s) / om * t / Real.sin t - s| ≤ 8 / 5 * |s| * |t - om * s| := by
  have hlow : |t| ≤ 8 / 5 * |Real.sin t| := by
    have p := Real.pi_gt_three
    have p2 := Real.pi_lt_d2
    have h1 := Real.mul_le_sin (abs_nonneg t) (by linarith)
    have h2 : Real.sin |t| = |Real.sin t| := by
      rcases abs_choice t with h | h
      · rw [h, abs_of_nonneg]
        exact Real.sin_nonneg_of_nonneg_of_le_pi (by rw [← h]; exact abs_nonneg t) (by rw [← h]; linarith)
      · rw [h, Real.sin_neg, abs_of_nonpos]
        have : 0 ≤ Real.sin (-t) := Real.sin_nonneg_of_nonneg_of_le_pi (by rw [← h]; exact abs_nonneg t) (by rw [← h]; linarith)
        rw [Real.sin_neg] at this
        linarith
    rw [h2, div_mul_eq_mul_div, div_le_iff₀ Real.pi_pos] at h1
    nlinarith [abs_nonneg (Real.sin t)]
  refine ⟨hlow, ?_⟩
  have hst : Real.sin t ≠ 0 := fun h => by
    rw [h, abs_zero, mul_zero] at hlow
    exact ht (abs_nonpos_iff.1 hlow)
  have hτ : om * s ≠ 0 := mul_ne_zero hom hs
  have e : Real.sin (om * s) / om * t / Real.sin t - s = s * (t / Real.sin t) * (Real.sin (om * s) / (om * s) - Real.sin t / t) := by
    field_simp
  rw [e, abs_mul, abs_mul]
  have l := sinc_lip hτ ht (by linarith) (by linarith)
  have q : |t / Real.sin t| ≤ 8 / 5 := by
    rw [abs_div, div_le_iff₀ (abs_pos.2 hst)]
    exact hlow
  rw [abs_sub_comm (om * s) t] at l
  have s0 := abs_nonneg s
  calc |s| * |t / Real.sin t| * |Real.sin (om * s) / (om * s) - Real.sin t / t| ≤ |s| * (8 / 5) * |t - om * s| :=
        mul_le_mul (mul_le_mul_of_nonneg_left q s0) l (abs_nonneg _) (by positivity)
    _ = _ := by ring

/-- azimuths come back unchanged from `atan2` of their sine and cosine -/
theorem azimuth_back {fl : ℝ → ℝ} (h : NearestF 53 1074 fl) {φ A B : ℝ} (hφ : RepF 53 1074 φ) (h1 : 1 < |φ|) (h3 : |φ| ≤ 3)
    (hA : |A - Real.sin φ| ≤ |Real.sin φ| / 2 ^ 53 + 1 / 2 ^ 59) (hB : |B - Real.cos φ| ≤ |Real.cos φ| / 2 ^ 53 + 1 / 2 ^ 59) :
    fl (ratan2 A B) = φ := by
  have sc := Real.sin_sq_add_cos_sq φ
  have s1 := Real.abs_sin_le_one φ
  have c1 := Real.abs_cos_le_one φ
  have eI : A * Real.cos φ - B * Real.sin φ = (A - Real.sin φ) * Real.cos φ - (B - Real.cos φ) * Real.sin φ := by ring
  have eR : B * Real.cos φ + A * Real.sin φ = 1 + ((B - Real.cos φ) * Real.cos φ + (A - Real.sin φ) * Real.sin φ) := by
    linear_combination sc
  have a1 : |A - Real.sin φ| ≤ 1 / 2 ^ 52 := by
    have : |Real.sin φ| / 2 ^ 53 ≤ 1 / 2 ^ 53 := div_le_div_of_nonneg_right s1 (by positivity)
    norm_num at *
    linarith
  have b1 : |B - Real.cos φ| ≤ 1 / 2 ^ 52 := by
    have : |Real.cos φ| / 2 ^ 53 ≤ 1 / 2 ^ 53 := div_le_div_of_nonneg_right c1 (by positivity)
    norm_num at *
    linarith
  have m1 : |(B - Real.cos φ) * Real.cos φ| ≤ 1 / 2 ^ 52 := by
    rw [abs_mul]
    exact (mul_le_of_le_one_right (abs_nonneg _) c1).trans b1
  have m2 : |(A - Real.sin φ) * Real.sin φ| ≤ 1 / 2 ^ 52 := by
    rw [abs_mul]
    exact (mul_le_of_le_one_right (abs_nonneg _) s1).trans a1
  have hR : 1 - 1 / 2 ^ 50 ≤ B * Real.cos φ + A * Real.sin φ := by
    rw [eR]
    rw [abs_le] at m1 m2
    norm_num at *
    linarith
  have hI : |A * Real.cos φ - B * Real.sin φ| ≤ |Real.sin (2 * φ)| / 2 ^ 53 + 1 / 2 ^ 58 := by
    rw [eI]
    refine (abs_sub _ _).trans ?_
    rw [abs_mul, abs_mul, Real.sin_two_mul, abs_mul, abs_mul, abs_two]
    have k1 := mul_le_mul_of_nonneg_right hA (abs_nonneg (Real.cos φ))
    have k2 := mul_le_mul_of_nonneg_right hB (abs_nonneg (Real.sin φ))
    norm_num at *
    nlinarith
  have hR0 : 0 < B * Real.cos φ + A * Real.sin φ := lt_of_lt_of_le (by norm_num) hR
  obtain ⟨δ, k, hk, hδ⟩ := ratan2_turn hR0
  rw [le_div_iff₀ hR0] at hδ
  have hδ' : |δ| * (1 - 1 / 2 ^ 50) ≤ |Real.sin (2 * φ)| / 2 ^ 53 + 1 / 2 ^ 58 :=
    (mul_le_mul_of_nonneg_left hR (abs_nonneg δ)).trans (hδ.trans hI)
  have s2 := Real.abs_sin_le_one (2 * φ)
  have d1 : |δ| < 1 / 2 ^ 52 := by
    have : |Real.sin (2 * φ)| / 2 ^ 53 ≤ 1 / 2 ^ 53 := div_le_div_of_nonneg_right s2 (by positivity)
    norm_num at *
    linarith
  have d2 : |φ| ≤ 2 → |δ| < 1 / 2 ^ 53 := fun hle => by
    have s3 : |Real.sin (2 * φ)| ≤ 15 / 16 := by
      have := sin_double_le h1.le hle
      rcases abs_choice φ with q | q
      · rwa [q] at this
      · rwa [q, mul_neg, Real.sin_neg, abs_neg] at this
    have : |Real.sin (2 * φ)| / 2 ^ 53 ≤ 15 / 16 / 2 ^ 53 := div_le_div_of_nonneg_right s3 (by positivity)
    norm_num at *
    linarith
  have k0 : k = 0 := by
    have r := ratan2_mem A B
    have p := Real.pi_gt_d2
    rw [hk] at r
    rw [abs_le] at h3
    have d3 := abs_lt.1 d1
    have q1 : (k : ℝ) * (2 * Real.pi) < 1 * (2 * Real.pi) := by norm_num at *; linarith [r.2, h3.1, d3.1]
    have q2 : (-1) * (2 * Real.pi) < (k : ℝ) * (2 * Real.pi) := by norm_num at *; linarith [r.1, h3.2, d3.2]
    have q3 := lt_of_mul_lt_mul_right q1 (by positivity)
    have q4 := lt_of_mul_lt_mul_right q2 (by positivity)
    have q3 : k < 1 := by exact_mod_cast q3
    have q4 : -1 < k := by exact_mod_cast q4
    omega
  have ez : ratan2 A B - φ = δ := by rw [hk, k0]; push_cast; ring
  have pw : ∀ n : ℕ, (2 : ℝ) ^ (n + 1) = 2 ^ n * 2 := fun n => pow_succ 2 n
  rcases le_or_gt |φ| 2 with hle | hgt
  · refine h.cell (e := 1021) (by norm_num) hφ ?_ ?_
    · exact lt_mul_of_one_lt_left (by positivity) h1
    · rw [ez, show (2 : ℝ) ^ 1074 = 2 ^ 53 * 2 ^ 1021 by rw [← pow_add], ← mul_assoc]
      refine mul_lt_of_lt_one_left (by positivity) ?_
      rw [← lt_div_iff₀ (by positivity)]
      exact d2 hle
  · refine h.cell (e := 1022) (by norm_num) hφ ?_ ?_
    · rw [show 53 + 1022 = 1074 + 1 by norm_num, pow_succ, mul_comm]
      exact mul_lt_mul_of_pos_right hgt (by positivity)
    · rw [ez, show (2 : ℝ) ^ 1074 = 2 ^ 52 * 2 ^ 1022 by rw [← pow_add], ← mul_assoc]
      refine mul_lt_of_lt_one_left (by positivity) ?_
      rw [← lt_div_iff₀ (by positivity)]
      exact d1

/-! ### errors of the path length -/

/-- a coordinate relative to the point of closest approach -/
theorem shift_error {u η E ε r d t0 sN p x0 X dx Δ S σ : ℝ} (hu : 0 ≤ u) (hu' : u ≤ 1 / 1000) (hη : 0 ≤ η) (hηE : η ≤ E) (hdE : η * |d| ≤ E)
    (hε : 0 ≤ ε) (hσ : |σ| = 1) (ht0 : |t0| ≤ 1) (hsN : |sN - t0| ≤ 2 * u * |t0| + 2 * η) (hp : |p - sN * d| ≤ u * |sN * d| + η)
    (hx0 : |x0 - (r + σ * p)| ≤ u * |r + σ * p| + η) (hX : |X - (r + σ * (t0 * d) + Δ)| ≤ ε) (hΔ : |Δ| ≤ S)
    (hdx : |dx - (X - x0)| ≤ u * |X - x0| + η) : |dx - Δ| ≤ 2 * ε + u * (7 * |d| + 3 * |r| + 2 * S) + 10 * E := by
  have d0 := abs_nonneg d
  have r0 := abs_nonneg r
  have S0 : 0 ≤ S := (abs_nonneg Δ).trans hΔ
  have E0 : 0 ≤ E := hη.trans hηE
  have ud := mul_nonneg hu d0
  have ur := mul_nonneg hu r0
  have uS := mul_nonneg hu S0
  have uE := mul_nonneg hu E0
  have uE' : u * E ≤ 1 / 1000 * E := mul_le_mul_of_nonneg_right hu' E0
  have uud : u * (u * |d|) ≤ 1 / 1000 * (u * |d|) := mul_le_mul_of_nonneg_right hu' ud
  have uur : u * (u * |r|) ≤ 1 / 1000 * (u * |r|) := mul_le_mul_of_nonneg_right hu' ur
  have uε : u * ε ≤ 1 / 1000 * ε := mul_le_mul_of_nonneg_right hu' hε
  have uη : u * η ≤ 1 / 1000 * η := mul_le_mul_of_nonneg_right hu' hη
  -- the product
  have hsN' : |sN - t0| ≤ 2 * u + 2 * η := hsN.trans (by nlinarith)
  have a1 : |sN * d - t0 * d| ≤ 2 * (u * |d|) + 2 * E := by
    rw [← sub_mul, abs_mul]
    have := mul_le_mul_of_nonneg_right hsN' d0
    linarith
  have a2 : |t0 * d| ≤ |d| := by rw [abs_mul]; exact mul_le_of_le_one_left d0 ht0
  have a3 := abs_near a1
  have a4 : u * |sN * d| ≤ u * |d| + 2 * (u * (u * |d|)) + 2 * (u * E) := by
    have := mul_le_mul_of_nonneg_left (a3.trans (add_le_add_left a2 _)) hu
    linarith
  have a5 : |p - t0 * d| ≤ 4 * (u * |d|) + 4 * E := by
    have := near_trans hp a1
    linarith
  have a6 := abs_near a5
  -- the point of closest approach
  have b1 : |r + σ * p - (r + σ * (t0 * d))| ≤ 4 * (u * |d|) + 4 * E := by
    rw [add_sub_add_left_eq_sub, ← mul_sub, abs_mul, hσ, one_mul]
    exact a5
  have b2 : |r + σ * p| ≤ |r| + |p| := (abs_add_le _ _).trans (by rw [abs_mul, hσ, one_mul])
  have b3 := mul_le_mul_of_nonneg_left (b2.trans (add_le_add_right a6 _)) hu
  have b3' := mul_le_mul_of_nonneg_left a2 hu
  have b4 := near_trans hx0 b1
  have b5 : |x0 - (r + σ * (t0 * d))| ≤ 6 * (u * |d|) + 2 * (u * |r|) + 6 * E := by linarith
  -- the difference
  have c1 : |X - x0 - Δ| ≤ ε + (6 * (u * |d|) + 2 * (u * |r|) + 6 * E) := by
    have e : X - x0 - Δ = (X - (r + σ * (t0 * d) + Δ)) - (x0 - (r + σ * (t0 * d))) := by ring
    rw [e]
    exact (abs_sub _ _).trans (add_le_add hX b5)
  have c2 := abs_near c1
  have c3 := mul_le_mul_of_nonneg_left (c2.trans (add_le_add_left hΔ _)) hu
  have c4 := near_trans hdx c1
  linarith

/-- an argument of `atan2` -/
theorem arg_error {u η e om t0 sN dx Δ q A τ : ℝ} (hu : 0 ≤ u) (hu' : u ≤ 1 / 1000) (hη : 0 ≤ η) (hηu : 10 * η ≤ u) (hτ : |τ| = 1)
    (ht0 : |t0| ≤ 1) (hoΔ : |om * Δ| ≤ 2) (he : |om| * e ≤ 1 / 50) (hsN : |sN - t0| ≤ 2 * u * |t0| + 2 * η) (hdx : |dx - Δ| ≤ e)
    (hq : |q - om * dx| ≤ u * |om * dx| + η) (hA : |A - (sN + τ * q)| ≤ u * |sN + τ * q| + η) :
    |A - (t0 + τ * (om * Δ))| ≤ |om| * e + 12 * u := by
  have uη : u * η ≤ 1 / 1000 * η := mul_le_mul_of_nonneg_right hu' hη
  have uu : u * u ≤ 1 / 1000 * u := mul_le_mul_of_nonneg_right hu' hu
  have hsN' : |sN - t0| ≤ 2 * u + 2 * η := hsN.trans (by nlinarith)
  have s1 := abs_near hsN'
  have a1 : |om * dx - om * Δ| ≤ |om| * e := by
    rw [← mul_sub, abs_mul]
    exact mul_le_mul_of_nonneg_left hdx (abs_nonneg _)
  have a2 := abs_near a1
  have a3 : u * |om * dx| ≤ u * 3 := mul_le_mul_of_nonneg_left (by linarith) hu
  have a4 := near_trans hq a1
  have a5 := abs_near a4
  have b1 : |sN + τ * q| ≤ |sN| + |q| := (abs_add_le _ _).trans (by rw [abs_mul, hτ, one_mul])
  have b2 : u * |sN + τ * q| ≤ u * 5 := mul_le_mul_of_nonneg_left (by linarith) hu
  have b3 : |sN + τ * q - (t0 + τ * (om * Δ))| ≤ (2 * u + 2 * η) + (u * |om * dx| + η + |om| * e) := by
    rw [add_sub_add_comm, ← mul_sub]
    refine (abs_add_le _ _).trans (add_le_add hsN' ?_)
    rw [abs_mul, hτ, one_mul]
    exact a4
  have b4 := near_trans hA b3
  linarith

/-- the angle of a vector near the circle of radius 1 -/
theorem angle_error {A B θ α : ℝ} (hα : α ≤ 1 / 40) (hA : |A - Real.sin θ| ≤ α) (hB : |B - Real.cos θ| ≤ α) :
    (∃ (δ : ℝ) (k : ℤ), ratan2 A B = θ + δ + k * (2 * Real.pi) ∧ |δ| ≤ 2 * α) ∧ ¬ (B = 0 ∧ A = 0) := by
  have α0 : 0 ≤ α := (abs_nonneg _).trans hA
  have sc := Real.sin_sq_add_cos_sq θ
  have sum : |Real.sin θ| + |Real.cos θ| ≤ 3 / 2 := by
    have e : (|Real.sin θ| + |Real.cos θ|) ^ 2 ≤ (3 / 2) ^ 2 := by
      nlinarith [sq_nonneg (|Real.sin θ| - |Real.cos θ|), sq_abs (Real.sin θ), sq_abs (Real.cos θ)]
    exact le_of_sq_le_sq e (by norm_num)
  have eI : A * Real.cos θ - B * Real.sin θ = (A - Real.sin θ) * Real.cos θ - (B - Real.cos θ) * Real.sin θ := by ring
  have eR : B * Real.cos θ + A * Real.sin θ = 1 + ((B - Real.cos θ) * Real.cos θ + (A - Real.sin θ) * Real.sin θ) := by
    linear_combination sc
  have m1 : |(B - Real.cos θ) * Real.cos θ + (A - Real.sin θ) * Real.sin θ| ≤ 3 / 2 * α := by
    refine (abs_add_le _ _).trans ?_
    rw [abs_mul, abs_mul]
    have := mul_le_mul_of_nonneg_right hB (abs_nonneg (Real.cos θ))
    have := mul_le_mul_of_nonneg_right hA (abs_nonneg (Real.sin θ))
    nlinarith
  have m2 : |A * Real.cos θ - B * Real.sin θ| ≤ 3 / 2 * α := by
    rw [eI]
    refine (abs_sub _ _).trans ?_
    rw [abs_mul, abs_mul]
    have := mul_le_mul_of_nonneg_right hB (abs_nonneg (Real.sin θ))
    have := mul_le_mul_of_nonneg_right hA (abs_nonneg (Real.cos θ))
    nlinarith
  have hR : 3 / 4 ≤ B * Real.cos θ + A * Real.sin θ := by
    rw [eR]
    rw [abs_le] at m1
    linarith
  have hR0 : 0 < B * Real.cos θ + A * Real.sin θ := by linarith
  obtain ⟨δ, k, hk, hδ⟩ := ratan2_turn hR0
  refine ⟨⟨δ, k, hk, ?_⟩, fun h => ?_⟩
  · rw [le_div_iff₀ hR0] at hδ
    have := mul_le_mul_of_nonneg_left hR (abs_nonneg δ)
    nlinarith
  · rw [h.1, h.2] at hR0
    simp at hR0

/-- the difference of the angles, with the correction by a full turn -/
theorem turn_error {fl : ℝ → ℝ} {u η ph τ δ α phi m : ℝ} {k : ℤ} (hu' : u ≤ 1 / 1000) (hη : 0 ≤ η) (hηu : 10 * η ≤ u)
    (hfl : ∀ t, |fl t - t| ≤ u * |t| + η) (hm : |m - Real.pi| ≤ 2 * u) (hph : |ph| ≤ Real.pi) (hτ : |τ| ≤ 3) (hδ : |δ| ≤ 2 * α)
    (hα : α ≤ 1 / 40) (hphi : |phi| ≤ Real.pi + 8 * u) (hat : |phi - (ph - τ + δ + k * (2 * Real.pi))| ≤ 8 * u) (hf2 : fl (2 * m) = 2 * m) :
    |fl (phi - ph)| ≤ 8 ∧ |(if fl (phi - ph) < -m then fl (fl (phi - ph) + fl (2 * m)) else
      if m < fl (phi - ph) then fl (fl (phi - ph) - fl (2 * m)) else fl (phi - ph)) + τ| ≤ 2 * α + 30 * u := by
  have hu : 0 ≤ u := by linarith
  have p1 := Real.pi_gt_d2
  have p2 := Real.pi_lt_d2
  have uu : u * u ≤ 1 / 1000 * u := mul_le_mul_of_nonneg_right hu' hu
  have d1 : |phi - ph| ≤ 6.31 := by
    have := abs_sub phi ph
    linarith
  have d2 := hfl (phi - ph)
  have d3 : u * |phi - ph| ≤ u * 6.31 := mul_le_mul_of_nonneg_left d1 hu
  have d4 := abs_near d2
  rw [hf2]
  refine ⟨by linarith, ?_⟩
  have d5 : |fl (phi - ph) - (-τ + δ + k * (2 * Real.pi))| ≤ 15 * u := by
    have e : fl (phi - ph) - (-τ + δ + k * (2 * Real.pi)) = (fl (phi - ph) - (phi - ph)) + (phi - (ph - τ + δ + k * (2 * Real.pi))) := by ring
    rw [e]
    have := abs_add_le (fl (phi - ph) - (phi - ph)) (phi - (ph - τ + δ + k * (2 * Real.pi)))
    linarith
  generalize fl (phi - ph) = D0 at *
  have d6 : |D0| ≤ 6.4 := by linarith
  have k3 := abs_le.1 d5
  have t1 := abs_le.1 hτ
  have t2 := abs_le.1 hδ
  have t3 := abs_le.1 d6
  have t4 := abs_le.1 hm
  have kk : k = -1 ∨ k = 0 ∨ k = 1 := by
    have q1 : (k : ℝ) * (2 * Real.pi) < 2 * (2 * Real.pi) := by linarith [k3.1, t1.2, t2.1, t3.2]
    have q2 : (-2) * (2 * Real.pi) < (k : ℝ) * (2 * Real.pi) := by linarith [k3.2, t1.1, t2.2, t3.1]
    have q3 := lt_of_mul_lt_mul_right q1 (by positivity)
    have q4 := lt_of_mul_lt_mul_right q2 (by positivity)
    have q3 : k < 2 := by exact_mod_cast q3
    have q4 : -2 < k := by exact_mod_cast q4
    omega
  rcases kk with rfl | rfl | rfl
  · push_cast at k3
    rw [if_pos (by linarith [k3.2, t1.1, t2.2])]
    have b : |D0 + 2 * m| ≤ 3.2 := by rw [abs_le]; constructor <;> linarith [k3.1, k3.2, t1.1, t1.2, t2.1, t2.2, t4.1, t4.2]
    have c := hfl (D0 + 2 * m)
    have c1 : u * |D0 + 2 * m| ≤ u * 3.2 := mul_le_mul_of_nonneg_left b hu
    rw [abs_le] at c ⊢
    constructor <;> linarith [c.1, c.2, k3.1, k3.2, t2.1, t2.2, t4.1, t4.2]
  · push_cast at k3
    rw [if_neg (by linarith [k3.1, t1.2, t2.1]), if_neg (by linarith [k3.2, t1.1, t2.2])]
    rw [abs_le]
    constructor <;> linarith [k3.1, k3.2, t2.1, t2.2]
  · push_cast at k3
    rw [if_neg (by linarith [k3.1, t1.2, t2.1]), if_pos (by linarith [k3.1, t1.2, t2.1])]
    have b : |D0 - 2 * m| ≤ 3.2 := by rw [abs_le]; constructor <;> linarith [k3.1, k3.2, t1.1, t1.2, t2.1, t2.2, t4.1, t4.2]
    have c := hfl (D0 - 2 * m)
    have c1 : u * |D0 - 2 * m| ≤ u * 3.2 := mul_le_mul_of_nonneg_left b hu
    rw [abs_le] at c ⊢
    constructor <;> linarith [c.1, c.2, k3.1, k3.2, t2.1, t2.2, t4.1, t4.2]

/-- the path length from the displacement and the angle -/
theorem quotient_error {u η E e β om s ph dx dy Δx Δy c sN m1 m2 L D N SN S : ℝ} (hom : om ≠ 0) (hs : s ≠ 0) (hu' : u ≤ 1 / 1000)
    (hη : 0 ≤ η) (hηu : 10 * η ≤ u) (hηE : η ≤ E) (hηo : η ≤ E * |om * s|) (hηu' : 4 * η ≤ u * |om * s|) (hos : |om * s| ≤ 7 / 5)
    (hβ : β ≤ 1 / 20 * |om * s|) (hdx : |dx - Δx| ≤ e) (hdy : |dy - Δy| ≤ e) (hΔx : |Δx| ≤ |s|) (hΔy : |Δy| ≤ |s|)
    (hΔ : Δx * Real.cos ph + Δy * Real.sin ph = Real.sin (om * s) / om) (hc : |c - Real.cos ph| ≤ 3 * u) (hsN : |sN - Real.sin ph| ≤ 3 * u)
    (hm1 : |m1 - dx * c| ≤ u * |dx * c| + η) (hm2 : |m2 - dy * sN| ≤ u * |dy * sN| + η) (hL : |L - (m1 + m2)| ≤ u * |m1 + m2| + η)
    (hD : |D + om * s| ≤ β) (hN : |N - L * D| ≤ u * |L * D| + η) (hSN : |SN - Real.sin D| ≤ 2 * u * |Real.sin D| + 2 * η)
    (hS : |S - N / SN| ≤ u * |N / SN| + η) :
    D ≠ 0 ∧ 1 / 2 * |om * s| ≤ |SN| ∧ |S - s| ≤ 6 * e + 50 * u * |s| + 2 * |s| * β + 30 * E := by
  have hu : 0 ≤ u := by linarith
  have E0 : 0 ≤ E := hη.trans hηE
  have e0 : 0 ≤ e := (abs_nonneg _).trans hdx
  have s0 : 0 < |s| := abs_pos.2 hs
  have us := mul_nonneg hu s0.le
  have o0 : 0 < |om * s| := abs_pos.2 (mul_ne_zero hom hs)
  have ue : u * e ≤ 1 / 1000 * e := mul_le_mul_of_nonneg_right hu' e0
  have uus : u * (u * |s|) ≤ 1 / 1000 * (u * |s|) := mul_le_mul_of_nonneg_right hu' us
  have us' : u * |s| ≤ 1 / 1000 * |s| := mul_le_mul_of_nonneg_right hu' s0.le
  have uE : u * E ≤ 1 / 1000 * E := mul_le_mul_of_nonneg_right hu' E0
  have uη : u * η ≤ 1 / 1000 * η := mul_le_mul_of_nonneg_right hu' hη
  -- the products
  have term : ∀ {a A t T m : ℝ}, |a - A| ≤ e → |A| ≤ |s| → |t - T| ≤ 3 * u → |T| ≤ 1 → |m - a * t| ≤ u * |a * t| + η →
      |m - A * T| ≤ 1.01 * e + 5 * (u * |s|) + η := by
    intro a A t T m ha hA ht hT hm
    have t1 := abs_near ht
    have k1 := prod_error ha ht
    have k2 : e * |t| ≤ e * 1.003 := mul_le_mul_of_nonneg_left (by linarith) e0
    have k3 : |A| * (3 * u) ≤ |s| * (3 * u) := mul_le_mul_of_nonneg_right hA (by linarith)
    have k4 : |A * T| ≤ |s| := by rw [abs_mul]; exact (mul_le_of_le_one_right (abs_nonneg _) hT).trans hA
    have k5 := abs_near (k1.trans (add_le_add k2 k3))
    have k6 := mul_le_mul_of_nonneg_left (k5.trans (add_le_add_left k4 _)) hu
    have k7 := near_trans hm (k1.trans (add_le_add k2 k3))
    linarith
  have b1 := term hdx hΔx hc (Real.abs_cos_le_one _) hm1
  have b2 := term hdy hΔy hsN (Real.abs_sin_le_one _) hm2
  have b3 : |m1 + m2 - Real.sin (om * s) / om| ≤ 2.02 * e + 10 * (u * |s|) + 2 * η := by
    rw [← hΔ, add_sub_add_comm]
    have := abs_add_le (m1 - Δx * Real.cos ph) (m2 - Δy * Real.sin ph)
    linarith
  have b4 : |Real.sin (om * s) / om| ≤ |s| := by
    rw [abs_div, div_le_iff₀ (abs_pos.2 hom), mul_comm, ← abs_mul]
    exact Real.abs_sin_le_abs
  have b5 := mul_le_mul_of_nonneg_left ((abs_near b3).trans (add_le_add_left b4 _)) hu
  have b6 : |L - Real.sin (om * s) / om| ≤ 2.1 * e + 12 * (u * |s|) + 4 * E := by
    have := near_trans hL b3
    linarith
  -- the angle
  have g1 : |-D - om * s| ≤ β := by
    rw [show -D - om * s = -(D + om * s) by ring, abs_neg]
    exact hD
  have g2 := abs_near g1
  have g3 : 19 / 20 * |om * s| ≤ |-D| := by
    have := abs_sub_abs_le_abs_sub (om * s) (-D)
    rw [abs_sub_comm] at this
    linarith
  have g4 : -D ≠ 0 := abs_pos.1 (by linarith)
  have hD0 : D ≠ 0 := neg_ne_zero.1 g4
  obtain ⟨a1, a2⟩ := arc_turn (t := -D) hom g4 hs hos (by linarith)
  rw [Real.sin_neg, abs_neg, abs_neg] at a1
  rw [abs_neg] at g3
  have a3 : Real.sin (om * s) / om * -D / Real.sin (-D) = Real.sin (om * s) / om * (D / Real.sin D) := by
    rw [Real.sin_neg, mul_neg, neg_div_neg_eq, mul_div_assoc]
  rw [a3] at a2
  have a4 : |s| * |-D - om * s| ≤ |s| * β := mul_le_mul_of_nonneg_left g1 s0.le
  have sD : 11 / 20 * |om * s| ≤ |Real.sin D| := by linarith
  have sD0 : 0 < |Real.sin D| := by linarith
  have sDn : Real.sin D ≠ 0 := abs_pos.1 sD0
  have q1 : |D / Real.sin D| ≤ 8 / 5 := by rw [abs_div, div_le_iff₀ sD0]; exact a1
  -- the exact quotient
  set Q := L * (D / Real.sin D) with hQ
  have Q1 : |Q - s| ≤ 8 / 5 * (2.1 * e + 12 * (u * |s|) + 4 * E) + 8 / 5 * (|s| * β) := by
    have e1 : Q - s = (L - Real.sin (om * s) / om) * (D / Real.sin D) + (Real.sin (om * s) / om * (D / Real.sin D) - s) := by rw [hQ]; ring
    rw [e1]
    refine (abs_add_le _ _).trans (add_le_add ?_ (a2.trans (by linarith)))
    rw [abs_mul, mul_comm (8 / 5 : ℝ)]
    exact mul_le_mul b6 q1 (abs_nonneg _) (by positivity)
  have Q2 := abs_near Q1
  have LD : L * D = Q * Real.sin D := by rw [hQ]; field_simp
  have uQ := mul_nonneg hu (abs_nonneg Q)
  -- the computed quotient
  have n1 : |SN - Real.sin D| ≤ 3 * (u * |Real.sin D|) := by
    have := mul_le_mul_of_nonneg_left sD hu
    linarith
  have n2 : u * |Real.sin D| ≤ 1 / 1000 * |Real.sin D| := mul_le_mul_of_nonneg_right hu' sD0.le
  have n3 : 99 / 100 * |Real.sin D| ≤ |SN| := by
    have := abs_sub_abs_le_abs_sub (Real.sin D) SN
    rw [abs_sub_comm] at this
    linarith
  have SN0 : 0 < |SN| := by linarith
  have n4 : |N - Q * SN| ≤ (5 * (u * |Q|) + 2 * E) * |SN| := by
    have e1 : N - Q * SN = (N - L * D) - Q * (SN - Real.sin D) := by rw [LD]; ring
    have e2 : |N - L * D| ≤ u * |Q| * |Real.sin D| + η := by
      have := hN
      rw [LD, abs_mul Q, ← mul_assoc] at this
      rwa [LD]
    have e3 : |Q * (SN - Real.sin D)| ≤ 3 * (u * |Q| * |Real.sin D|) := by
      rw [abs_mul]
      have := mul_le_mul_of_nonneg_left n1 (abs_nonneg Q)
      linarith
    have e4 : u * |Q| * |Real.sin D| ≤ u * |Q| * (100 / 99 * |SN|) := mul_le_mul_of_nonneg_left (by linarith) uQ
    have e5 : E * |om * s| ≤ E * (2 * |SN|) := mul_le_mul_of_nonneg_left (by linarith) E0
    have e6 := mul_nonneg uQ SN0.le
    rw [e1]
    have := abs_sub (N - L * D) (Q * (SN - Real.sin D))
    linarith
  have n5 : |N / SN - Q| ≤ 5 * (u * |Q|) + 2 * E := by
    rw [div_sub' (abs_pos.1 SN0), abs_div, div_le_iff₀ SN0, mul_comm SN]
    exact n4
  have n6 := abs_near n5
  have n7 := mul_le_mul_of_nonneg_left n6 hu
  have n8 : u * (u * |Q|) ≤ 1 / 1000 * (u * |Q|) := mul_le_mul_of_nonneg_right hu' uQ
  have n9 : |S - Q| ≤ 7 * (u * |Q|) + 4 * E := by
    have := near_trans hS n5
    linarith
  have sβ : 0 ≤ |s| * β := mul_nonneg s0.le ((abs_nonneg _).trans hD)
  have usβ : u * (|s| * β) ≤ 1 / 1000 * (|s| * β) := mul_le_mul_of_nonneg_right hu' sβ
  have n10 := mul_le_mul_of_nonneg_left Q2 hu
  have fin' := near_trans n9 Q1
  refine ⟨hD0, by linarith, ?_⟩
  linarith

/-- the sine of an angle that is not close to a multiple of π -/
theorem sin_wide {t : ℝ} (h1 : 13 / 10 ≤ |t|) (h2 : |t| ≤ 303 / 100) : 69 / 1000 ≤ |Real.sin t| := by
  have e : |Real.sin t| = Real.sin |t| := by
    rcases abs_cases t with ⟨q, _⟩ | ⟨q, _⟩
    · rw [q, abs_of_nonneg (Real.sin_nonneg_of_nonneg_of_le_pi (by linarith) (by linarith [Real.pi_gt_d2]))]
    · rw [q, Real.sin_neg, abs_of_nonpos]
      have := Real.sin_nonneg_of_nonneg_of_le_pi (x := -t) (by linarith) (by linarith [Real.pi_gt_d2])
      rw [Real.sin_neg] at this
      linarith
  rw [e]
  have p1 := Real.pi_gt_d2
  have p2 := Real.pi_lt_d2
  have low : ∀ {r : ℝ}, 11 / 100 ≤ r → r ≤ Real.pi / 2 → 69 / 1000 ≤ Real.sin r := fun {r} k1 k2 => by
    refine le_trans ?_ (Real.mul_le_sin (by linarith) k2)
    rw [div_mul_eq_mul_div, le_div_iff₀ (by positivity)]
    linarith
  by_cases c : |t| ≤ Real.pi / 2
  · exact low (by linarith) c
  · rw [← Real.sin_pi_sub]
    exact low (by linarith) (by linarith)

/-- the path length from the displacement and the angle for more than 1/5 of a turn -/
theorem quotient_wide {u η E e β om s ph dx dy Δx Δy c sN m1 m2 L D N SN S : ℝ} (hom : om ≠ 0) (hs : s ≠ 0) (hu' : u ≤ 1 / 1000)
    (hη : 0 ≤ η) (hηu : 1000 * η ≤ u) (hηE : η ≤ E) (hηo : η ≤ E * |om * s|) (hos' : 7 / 5 ≤ |om * s|) (hos : |om * s| ≤ 3)
    (hβ : β ≤ 3 / 100) (hdx : |dx - Δx| ≤ e) (hdy : |dy - Δy| ≤ e) (hΔx : |Δx| ≤ |s|) (hΔy : |Δy| ≤ |s|)
    (hΔ : Δx * Real.cos ph + Δy * Real.sin ph = Real.sin (om * s) / om) (hc : |c - Real.cos ph| ≤ 3 * u) (hsN : |sN - Real.sin ph| ≤ 3 * u)
    (hm1 : |m1 - dx * c| ≤ u * |dx * c| + η) (hm2 : |m2 - dy * sN| ≤ u * |dy * sN| + η) (hL : |L - (m1 + m2)| ≤ u * |m1 + m2| + η)
    (hD : |D + om * s| ≤ β) (hN : |N - L * D| ≤ u * |L * D| + η) (hSN : |SN - Real.sin D| ≤ 2 * u * |Real.sin D| + 2 * η)
    (hS : |S - N / SN| ≤ u * |N / SN| + η) :
    D ≠ 0 ∧ 1 / 60 * |om * s| ≤ |SN| ∧ |S - s| ≤ 100 * e + 700 * u * |s| + 32 * |s| * β + 400 * E := by
  have hu : 0 ≤ u := by linarith
  have E0 : 0 ≤ E := hη.trans hηE
  have e0 : 0 ≤ e := (abs_nonneg _).trans hdx
  have s0 : 0 < |s| := abs_pos.2 hs
  have us := mul_nonneg hu s0.le
  have o0 : 0 < |om * s| := abs_pos.2 (mul_ne_zero hom hs)
  have ue : u * e ≤ 1 / 1000 * e := mul_le_mul_of_nonneg_right hu' e0
  have uus : u * (u * |s|) ≤ 1 / 1000 * (u * |s|) := mul_le_mul_of_nonneg_right hu' us
  have us' : u * |s| ≤ 1 / 1000 * |s| := mul_le_mul_of_nonneg_right hu' s0.le
  have uE : u * E ≤ 1 / 1000 * E := mul_le_mul_of_nonneg_right hu' E0
  have uη : u * η ≤ 1 / 1000 * η := mul_le_mul_of_nonneg_right hu' hη
  -- the products
  have term : ∀ {a A t T m : ℝ}, |a - A| ≤ e → |A| ≤ |s| → |t - T| ≤ 3 * u → |T| ≤ 1 → |m - a * t| ≤ u * |a * t| + η →
      |m - A * T| ≤ 1.01 * e + 5 * (u * |s|) + η := by
    intro a A t T m ha hA ht hT hm
    have t1 := abs_near ht
    have k1 := prod_error ha ht
    have k2 : e * |t| ≤ e * 1.003 := mul_le_mul_of_nonneg_left (by linarith) e0
    have k3 : |A| * (3 * u) ≤ |s| * (3 * u) := mul_le_mul_of_nonneg_right hA (by linarith)
    have k4 : |A * T| ≤ |s| := by rw [abs_mul]; exact (mul_le_of_le_one_right (abs_nonneg _) hT).trans hA
    have k5 := abs_near (k1.trans (add_le_add k2 k3))
    have k6 := mul_le_mul_of_nonneg_left (k5.trans (add_le_add_left k4 _)) hu
    have k7 := near_trans hm (k1.trans (add_le_add k2 k3))
    linarith
  have b1 := term hdx hΔx hc (Real.abs_cos_le_one _) hm1
  have b2 := term hdy hΔy hsN (Real.abs_sin_le_one _) hm2
  have b3 : |m1 + m2 - Real.sin (om * s) / om| ≤ 2.02 * e + 10 * (u * |s|) + 2 * η := by
    rw [← hΔ, add_sub_add_comm]
    have := abs_add_le (m1 - Δx * Real.cos ph) (m2 - Δy * Real.sin ph)
    linarith
  have b4 : |Real.sin (om * s) / om| ≤ |s| := by
    rw [abs_div, div_le_iff₀ (abs_pos.2 hom), mul_comm, ← abs_mul]
    exact Real.abs_sin_le_abs
  have b5 := mul_le_mul_of_nonneg_left ((abs_near b3).trans (add_le_add_left b4 _)) hu
  have b6 : |L - Real.sin (om * s) / om| ≤ 2.1 * e + 12 * (u * |s|) + 4 * E := by
    have := near_trans hL b3
    linarith
  -- the angle
  have g1 : |-D - om * s| ≤ β := by
    rw [show -D - om * s = -(D + om * s) by ring, abs_neg]
    exact hD
  have g2 := abs_near g1
  have g3 : 19 / 20 * |om * s| ≤ |-D| := by
    have := abs_sub_abs_le_abs_sub (om * s) (-D)
    rw [abs_sub_comm] at this
    linarith
  have g4 : -D ≠ 0 := abs_pos.1 (by linarith)
  have hD0 : D ≠ 0 := neg_ne_zero.1 g4
  rw [abs_neg] at g2 g3
  have a1 : 69 / 1000 ≤ |Real.sin D| := sin_wide (by linarith) (by linarith)
  have a4 : |s| * |-D - om * s| ≤ |s| * β := mul_le_mul_of_nonneg_left g1 s0.le
  have sD : 23 / 1000 * |om * s| ≤ |Real.sin D| := by linarith
  have sD0 : 0 < |Real.sin D| := by linarith
  have sDn : Real.sin D ≠ 0 := abs_pos.1 sD0
  have q1 : |D / Real.sin D| ≤ 44 := by rw [abs_div, div_le_iff₀ sD0]; linarith
  have a2 : |Real.sin (om * s) / om * (D / Real.sin D) - s| ≤ 29 * (|s| * β) := by
    have e1 : Real.sin (om * s) / om * (D / Real.sin D) - s =
        s * (Real.sin (om * s) * (D + om * s) - om * s * (Real.sin D - Real.sin (-(om * s)))) / (om * s * Real.sin D) := by
      rw [Real.sin_neg]
      field_simp
      ring
    have e2 : |Real.sin D - Real.sin (-(om * s))| ≤ β := (Real.abs_sin_sub_sin_le _ _).trans (by rw [sub_neg_eq_add]; exact hD)
    have e3 : |Real.sin (om * s) * (D + om * s) - om * s * (Real.sin D - Real.sin (-(om * s)))| ≤ 2 * (|om * s| * β) := by
      refine (abs_sub _ _).trans ?_
      rw [abs_mul, abs_mul (om * s)]
      have k1 := mul_le_mul (Real.abs_sin_le_abs (x := om * s)) hD (abs_nonneg _) o0.le
      have k2 := mul_le_mul_of_nonneg_left e2 o0.le
      linarith
    rw [e1, abs_div, div_le_iff₀ (by rw [abs_mul]; positivity), abs_mul, abs_mul (om * s)]
    refine (mul_le_mul_of_nonneg_left e3 s0.le).trans ?_
    have β0 : 0 ≤ β := (abs_nonneg _).trans hD
    have k3 : 2 ≤ 29 * |Real.sin D| := by linarith
    have k4 := mul_le_mul_of_nonneg_left k3 (mul_nonneg s0.le (mul_nonneg o0.le β0))
    linarith
  -- the exact quotient
  set Q := L * (D / Real.sin D) with hQ
  have Q1 : |Q - s| ≤ 44 * (2.1 * e + 12 * (u * |s|) + 4 * E) + 29 * (|s| * β) := by
    have e1 : Q - s = (L - Real.sin (om * s) / om) * (D / Real.sin D) + (Real.sin (om * s) / om * (D / Real.sin D) - s) := by rw [hQ]; ring
    rw [e1]
    refine (abs_add_le _ _).trans (add_le_add ?_ (a2.trans (by linarith)))
    rw [abs_mul, mul_comm (44 : ℝ)]
    exact mul_le_mul b6 q1 (abs_nonneg _) (by positivity)
  have Q2 := abs_near Q1
  have LD : L * D = Q * Real.sin D := by rw [hQ]; field_simp
  have uQ := mul_nonneg hu (abs_nonneg Q)
  -- the computed quotient
  have n1 : |SN - Real.sin D| ≤ 3 * (u * |Real.sin D|) := by
    have := mul_le_mul_of_nonneg_left a1 hu
    linarith
  have n2 : u * |Real.sin D| ≤ 1 / 1000 * |Real.sin D| := mul_le_mul_of_nonneg_right hu' sD0.le
  have n3 : 99 / 100 * |Real.sin D| ≤ |SN| := by
    have := abs_sub_abs_le_abs_sub (Real.sin D) SN
    rw [abs_sub_comm] at this
    linarith
  have SN0 : 0 < |SN| := by linarith
  have n4 : |N - Q * SN| ≤ (5 * (u * |Q|) + 60 * E) * |SN| := by
    have e1 : N - Q * SN = (N - L * D) - Q * (SN - Real.sin D) := by rw [LD]; ring
    have e2 : |N - L * D| ≤ u * |Q| * |Real.sin D| + η := by
      have := hN
      rw [LD, abs_mul Q, ← mul_assoc] at this
      rwa [LD]
    have e3 : |Q * (SN - Real.sin D)| ≤ 3 * (u * |Q| * |Real.sin D|) := by
      rw [abs_mul]
      have := mul_le_mul_of_nonneg_left n1 (abs_nonneg Q)
      linarith
    have e4 : u * |Q| * |Real.sin D| ≤ u * |Q| * (100 / 99 * |SN|) := mul_le_mul_of_nonneg_left (by linarith) uQ
    have e5 : E * |om * s| ≤ E * (60 * |SN|) := mul_le_mul_of_nonneg_left (by linarith) E0
    have e6 := mul_nonneg uQ SN0.le
    rw [e1]
    have := abs_sub (N - L * D) (Q * (SN - Real.sin D))
    linarith
  have n5 : |N / SN - Q| ≤ 5 * (u * |Q|) + 60 * E := by
    rw [div_sub' (abs_pos.1 SN0), abs_div, div_le_iff₀ SN0, mul_comm SN]
    exact n4
  have n6 := abs_near n5
  have n7 := mul_le_mul_of_nonneg_left n6 hu
  have n8 : u * (u * |Q|) ≤ 1 / 1000 * (u * |Q|) := mul_le_mul_of_nonneg_right hu' uQ
  have n9 : |S - Q| ≤ 7 * (u * |Q|) + 63 * E := by
    have := near_trans hS n5
    linarith
  have sβ : 0 ≤ |s| * β := mul_nonneg s0.le ((abs_nonneg _).trans hD)
  have usβ : u * (|s| * β) ≤ 1 / 1000 * (|s| * β) := mul_le_mul_of_nonneg_right hu' sβ
  have n10 := mul_le_mul_of_nonneg_left Q2 hu
  have fin' := near_trans n9 Q1
  refine ⟨hD0, by linarith, ?_⟩
  linarith

end Rnd

end Verif
