import Verif.Props.RoundedLcio
import Mathlib.Analysis.SpecialFunctions.Pow.NNReal

/-!
# `Vector3D` with rounding: C120
-/

open Classical

noncomputable section

namespace Verif

open Dbl Rnd

variable {fl : ℝ → ℝ}

/-! ### identities -/

theorem mul_comm' (a b : Dbl) : a * b = b * a := by
  cases a <;> cases b <;> simp [fin_mul_inf, inf_mul_fin, mul_comm, Bool.xor_comm]

theorem add_comm' (a b : Dbl) : a + b = b + a := by
  cases a <;> cases b <;> (simp [inf_add_inf, add_comm]; try (split_ifs <;> simp_all))

/-- C120: sums and scalar products do not depend on the order of the vectors, for all numbers. -/
theorem C120_commute (fl : ℝ → ℝ) (a b : V3) : addV fl a b = addV fl b a ∧ dotV fl a b = dotV fl b a := by
  constructor
  · simp only [addV, addD, add_comm' a.x, add_comm' a.y, add_comm' a.z]
  · simp only [dotV, mulD, mul_comm' a.x, mul_comm' a.y, mul_comm' a.z]

theorem neg_sub' (a b : Dbl) : b - a = -(a - b) := by
  cases a with
  | nan => simp
  | inf s =>
    cases b with
    | nan => simp
    | fin y => simp
    | inf t =>
      have e : ∀ s t : Bool, inf s - inf t = if s = !t then inf s else nan := fun s t => rfl
      rw [e, e]
      cases s <;> cases t <;> simp
  | fin x =>
    cases b with
    | nan => simp
    | inf t => simp
    | fin y => simp

theorem rnd_neg (ho : ∀ x, fl (-x) = -fl x) (top : ℕ) (a : Dbl) : rnd fl top (-a) = -rnd fl top a := by
  cases a with
  | nan => rfl
  | inf s => rfl
  | fin x =>
    rw [fin_neg]
    simp only [rnd]
    rw [ho, _root_.abs_neg]
    by_cases h : |fl x| < 2 ^ top
    · rw [if_pos h, if_pos h, fin_neg]
    · rw [if_neg h, if_neg h, neg_inf]
      have hx : x ≠ 0 := by
        rintro rfl
        have h0 := ho 0
        rw [neg_zero] at h0
        have : fl 0 = 0 := by linarith
        rw [this, _root_.abs_zero] at h
        exact h (by positivity)
      rcases lt_or_gt_of_ne hx with h1 | h1
      · simp [h1, h1.le]
      · simp [h1, h1.le]

/-- C120: the vector product changes sign when the vectors are exchanged, for all numbers, if rounding does not depend on the
sign. -/
theorem C120_antisymmetric (ho : ∀ x, fl (-x) = -fl x) (a b : V3) : crossV fl b a = (crossV fl a b).neg := by
  simp only [crossV, V3.neg, subD]
  have key : ∀ p q r s : Dbl, rnd fl 1024 (mulD fl p q - mulD fl r s) = -rnd fl 1024 (mulD fl s r - mulD fl q p) := by
    intro p q r s
    have e1 : mulD fl p q = mulD fl q p := by rw [mulD, mulD, mul_comm']
    have e2 : mulD fl r s = mulD fl s r := by rw [mulD, mulD, mul_comm']
    rw [← rnd_neg ho, ← neg_sub', e1, e2]
  rw [key b.y, key b.z, key b.x]

/-- C120_antisymmetric, concrete case: there is a rounding to nearest that does not depend on the sign. -/
example : ∃ fl, NearestF 53 1074 fl ∧ ∀ x, fl (-x) = -fl x := by
  obtain ⟨g, h⟩ := exists_nearestF 53 1074
  have g0 : g 0 = 0 := h.fix repF_zero
  refine ⟨fun x => if 0 ≤ x then g x else -g (-x), ⟨fun x => ?_, fun x y hy => ?_⟩, fun x => ?_⟩
  · show RepF 53 1074 (if 0 ≤ x then g x else -g (-x))
    split
    · exact h.rep x
    · exact repF_neg (h.rep _)
  · show |(if 0 ≤ x then g x else -g (-x)) - x| ≤ |y - x|
    split
    · exact h.near x y hy
    · have := h.near (-x) (-y) (repF_neg hy)
      rw [show -g (-x) - x = -(g (-x) - -x) by ring, _root_.abs_neg]
      rwa [show -y - -x = -(y - x) by ring, _root_.abs_neg (y - x)] at this
  · show (if 0 ≤ -x then g (-x) else -g (- -x)) = -(if 0 ≤ x then g x else -g (-x))
    rcases lt_trichotomy x 0 with hx | hx | hx
    · rw [if_pos (by linarith), if_neg (by linarith), _root_.neg_neg]
    · rw [hx, _root_.neg_zero, if_pos le_rfl, g0]; simp
    · rw [if_neg (by linarith), if_pos hx.le, _root_.neg_neg]

/-- C120: the vector product of a vector with itself is exactly zero if the products of its components are finite. -/
theorem C120_cross_self (h : NearestF 53 1074 fl) {x y z : ℝ} (hb : |x * y| ≤ 2 ^ 1000 ∧ |y * z| ≤ 2 ^ 1000 ∧ |z * x| ≤ 2 ^ 1000) :
    crossV fl (V3.re x y z) (V3.re x y z) = V3.re 0 0 0 := by
  obtain ⟨h1, h2, h3⟩ := hb
  have key : ∀ a b : ℝ, |a * b| ≤ 2 ^ 1000 → subD fl (mulD fl (fin a) (fin b)) (mulD fl (fin b) (fin a)) = fin 0 := by
    intro a b hab
    rw [mulD, mulD, fin_mul, fin_mul, mul_comm b a, rnd_double h hab, subD, fin_sub, sub_self, rnd_double h (by
      rw [_root_.abs_zero]; positivity), h.fix repF_zero]
  simp only [crossV, V3.re, key y z h2, key z x h3, key x y h1]

/-! ### unit vectors -/

/-- rounding errors of the norm, in terms of a relative error `u` and an absolute error `η` -/
theorem norm_error {u η x y z a b c s S n : ℝ} (hu : 0 ≤ u) (hu' : u ≤ 1 / 2 ^ 50) (hη : 0 ≤ η)
    (hηT : η ≤ u * (x ^ 2 + y ^ 2 + z ^ 2)) (ha : |a - x * x| ≤ u * (x * x) + η) (hb : |b - y * y| ≤ u * (y * y) + η)
    (hc : |c - z * z| ≤ u * (z * z) + η) (hs : |s - (a + b)| ≤ u * |a + b| + η) (hS : |S - (s + c)| ≤ u * |s + c| + η)
    (hn : |n - Real.sqrt S| ≤ u * Real.sqrt S + η) (hη2 : η ^ 2 ≤ u ^ 2 * (x ^ 2 + y ^ 2 + z ^ 2) / 4) :
    0 < x ^ 2 + y ^ 2 + z ^ 2 → 0 < n ∧ |n ^ 2 - (x ^ 2 + y ^ 2 + z ^ 2)| ≤ 15 * u * (x ^ 2 + y ^ 2 + z ^ 2) := by
  intro hT
  generalize hTT : x ^ 2 + y ^ 2 + z ^ 2 = T at *
  have hu2 : u ≤ 1 / 1000 := hu'.trans (by norm_num)
  have e : x * x + y * y + z * z = T := by rw [← hTT]; ring
  have px := mul_self_nonneg x
  have py := mul_self_nonneg y
  have pz := mul_self_nonneg z
  have huT : 0 ≤ u * T := mul_nonneg hu hT.le
  have hxT : u * (x * x) + u * (y * y) + u * (z * z) = u * T := by rw [← e]; ring
  have uT' : u * T ≤ 1 / 1000 * T := mul_le_mul_of_nonneg_right hu2 hT.le
  have qx := mul_nonneg hu px
  have qy := mul_nonneg hu py
  have qz := mul_nonneg hu pz
  rw [abs_le] at ha hb hc
  have hab : |a + b| ≤ 2 * T := by rw [abs_le]; constructor <;> linarith [ha.1, ha.2, hb.1, hb.2]
  have h1 : u * |a + b| ≤ 2 * (u * T) := by
    have := mul_le_mul_of_nonneg_left hab hu
    linarith
  have hs' := hs.trans (add_le_add_left h1 η)
  rw [abs_le] at hs'
  have hsc : |s + c| ≤ 2 * T := by rw [abs_le]; constructor <;> linarith [ha.1, ha.2, hb.1, hb.2, hc.1, hc.2, hs'.1, hs'.2]
  have h2 : u * |s + c| ≤ 2 * (u * T) := by
    have := mul_le_mul_of_nonneg_left hsc hu
    linarith
  have hS' := hS.trans (add_le_add_left h2 η)
  rw [abs_le] at hS'
  have hST : |S - T| ≤ 10 * (u * T) := by
    rw [abs_le]
    constructor <;> linarith [ha.1, ha.2, hb.1, hb.2, hc.1, hc.2, hs'.1, hs'.2, hS'.1, hS'.2]
  rw [abs_le] at hST
  have hS0 : 0 ≤ S := by linarith [hST.1]
  have hq := Real.sq_sqrt hS0
  have hr := Real.sqrt_nonneg S
  have hr' : 0 < Real.sqrt S := Real.sqrt_pos.2 (by linarith [hST.1])
  generalize Real.sqrt S = r at *
  have hηn : η ≤ u * r := by
    rw [← sq_le_sq₀ hη (by positivity), mul_pow, hq]
    have : u ^ 2 * T / 4 ≤ u ^ 2 * S := by
      rw [mul_div_assoc]
      exact mul_le_mul_of_nonneg_left (by linarith [hST.1]) (by positivity)
    linarith
  have hn' : |n - r| ≤ 2 * u * r := by linarith
  have hn0 : 0 < n := by
    have h1 := (abs_le.1 hn').1
    have h2 : u * r ≤ 1 / 1000 * r := mul_le_mul_of_nonneg_right hu2 hr
    linarith
  refine ⟨hn0, ?_⟩
  have h3 : |n ^ 2 - r ^ 2| ≤ 2 * u * r * (2 * r + 2 * u * r) := by
    rw [show n ^ 2 - r ^ 2 = (n - r) * (n + r) by ring, abs_mul]
    refine mul_le_mul hn' ?_ (abs_nonneg _) (by positivity)
    have : n + r = (n - r) + 2 * r := by ring
    rw [this]
    refine (abs_add_le _ _).trans ?_
    rw [abs_of_nonneg (by linarith : 0 ≤ 2 * r)]
    linarith
  have h4 : 2 * u * r * (2 * r + 2 * u * r) = (4 * u + 4 * u * u) * S := by rw [← hq]; ring
  have h5 : (4 * u + 4 * u * u) * S ≤ 5 * (u * T) := by
    have s1 : S ≤ 1.01 * T := by linarith [hST.2]
    have s2 : 4 * u + 4 * u * u ≤ 4.004 * u := by
      have : u * u ≤ 1 / 1000 * u := mul_le_mul_of_nonneg_right hu2 hu
      linarith
    have s3 : (4 * u + 4 * u * u) * S ≤ 4.004 * u * (1.01 * T) := mul_le_mul s2 s1 hS0 (by positivity)
    linarith
  rw [h4, hq] at h3
  have h6 := h3.trans h5
  rw [abs_le] at h6 ⊢
  constructor <;> linarith [h6.1, h6.2, hST.1, hST.2]

/-- rounding errors of the quotient by the norm -/
theorem unit_error {u η x y z n a b c : ℝ} (hu : 0 ≤ u) (hu' : u ≤ 1 / 2 ^ 50) (hη : 0 ≤ η) (hηu : 100 * η ≤ u) (hn0 : 0 < n)
    (hT : 0 < x ^ 2 + y ^ 2 + z ^ 2) (hn : |n ^ 2 - (x ^ 2 + y ^ 2 + z ^ 2)| ≤ 15 * u * (x ^ 2 + y ^ 2 + z ^ 2))
    (ha : |a - x / n| ≤ u * |x / n| + η) (hb : |b - y / n| ≤ u * |y / n| + η) (hc : |c - z / n| ≤ u * |z / n| + η) :
    |a ^ 2 + b ^ 2 + c ^ 2 - 1| ≤ 20 * u := by
  have hu2 : u ≤ 1 / 1000 := hu'.trans (by norm_num)
  have hn2 : 0 < n ^ 2 := by positivity
  have q : (x / n) ^ 2 + (y / n) ^ 2 + (z / n) ^ 2 = (x ^ 2 + y ^ 2 + z ^ 2) / n ^ 2 := by field_simp
  have hQ : |(x ^ 2 + y ^ 2 + z ^ 2) / n ^ 2 - 1| ≤ 16 * u := by
    generalize x ^ 2 + y ^ 2 + z ^ 2 = T at *
    rw [abs_le] at hn
    have uT : u * T ≤ 1 / 1000 * T := mul_le_mul_of_nonneg_right hu2 hT.le
    have h1 : T ≤ 1.02 * n ^ 2 := by linarith [hn.1]
    have h2 : u * T ≤ 1.02 * (u * n ^ 2) := by nlinarith
    have h3 : 0 ≤ u * n ^ 2 := mul_nonneg hu hn2.le
    rw [abs_le]
    constructor
    · rw [le_sub_iff_add_le, le_div_iff₀ hn2]; linarith [hn.2]
    · rw [sub_le_iff_le_add, div_le_iff₀ hn2]; linarith [hn.1]
  have key : ∀ t w : ℝ, |t| ≤ 2 → |w - t| ≤ u * |t| + η → |w ^ 2 - t ^ 2| ≤ 3 * u * t ^ 2 + 8 * η := by
    intro t w ht hw
    rw [show w ^ 2 - t ^ 2 = (w - t) * (w + t) by ring, abs_mul]
    have h1 : |w + t| ≤ 2 * |t| + (u * |t| + η) := by
      rw [show w + t = 2 * t + (w - t) by ring]
      refine (abs_add_le _ _).trans ?_
      rw [abs_mul, abs_two]
      linarith
    have h0 := abs_nonneg t
    have h2 : |w - t| * |w + t| ≤ (u * |t| + η) * (2 * |t| + (u * |t| + η)) :=
      mul_le_mul hw h1 (abs_nonneg _) (by positivity)
    refine h2.trans ?_
    rw [← sq_abs t]
    generalize |t| = v at *
    have h3 : η * v ≤ η * 2 := mul_le_mul_of_nonneg_left ht hη
    have h4 : u * (η * v) ≤ 1 / 1000 * (η * 2) := mul_le_mul hu2 h3 (by positivity) (by norm_num)
    have h5 : u * (u * v ^ 2) ≤ 1 / 1000 * (u * v ^ 2) := mul_le_mul_of_nonneg_right hu2 (by positivity)
    have h6 : η * η ≤ η * 1 := mul_le_mul_of_nonneg_left (by linarith) hη
    have h7 : 0 ≤ u * v ^ 2 := by positivity
    nlinarith
  have hQ' := hQ
  rw [abs_le] at hQ'
  have b2 : ∀ t : ℝ, t ^ 2 ≤ (x ^ 2 + y ^ 2 + z ^ 2) / n ^ 2 → |t| ≤ 2 := by
    intro t ht
    rw [← sq_le_sq₀ (abs_nonneg _) (by norm_num), sq_abs]
    linarith [hQ'.2]
  have k1 := key (x / n) a (b2 _ (by rw [← q]; linarith [sq_nonneg (y / n), sq_nonneg (z / n)])) ha
  have k2 := key (y / n) b (b2 _ (by rw [← q]; linarith [sq_nonneg (x / n), sq_nonneg (z / n)])) hb
  have k3 := key (z / n) c (b2 _ (by rw [← q]; linarith [sq_nonneg (y / n), sq_nonneg (x / n)])) hc
  have h3 : 3 * u * (x / n) ^ 2 + 3 * u * (y / n) ^ 2 + 3 * u * (z / n) ^ 2 ≤ 3.1 * u := by
    rw [← mul_add, ← mul_add, q]
    nlinarith [hQ'.2]
  rw [abs_le] at k1 k2 k3 ⊢
  rw [← q] at hQ'
  constructor <;> linarith [k1.1, k1.2, k2.1, k2.2, k3.1, k3.2, hQ'.1, hQ'.2]

theorem err_double (h : NearestF 53 1074 fl) (t : ℝ) : |fl t - t| ≤ 1 / 2 ^ 53 * |t| + 1 / 2 ^ 1075 := by
  have := h.err (by norm_num) t
  rw [div_eq_mul_one_div, mul_comm] at this
  exact this

/-- C120 (partial): vectors with a length between 2^-400 and 2^400 are normalised: the length of the result is 1 within 20 units of
2^-53, and each component is that of the exact unit vector within 20 units of 2^-53.  Missing: shorter and longer vectors
(`C120_short_false`, `C120_long_false`). -/
theorem C120_unit_partial (h : NearestF 53 1074 fl) {x y z : ℝ} (h1 : 1 / 2 ^ 800 ≤ x ^ 2 + y ^ 2 + z ^ 2)
    (h2 : x ^ 2 + y ^ 2 + z ^ 2 ≤ 2 ^ 800) :
    ∃ a b c, unitV fl (V3.re x y z) = V3.re a b c ∧ |a ^ 2 + b ^ 2 + c ^ 2 - 1| ≤ 20 / 2 ^ 53 ∧
      |a - x / Real.sqrt (x ^ 2 + y ^ 2 + z ^ 2)| ≤ 20 / 2 ^ 53 ∧ |b - y / Real.sqrt (x ^ 2 + y ^ 2 + z ^ 2)| ≤ 20 / 2 ^ 53 ∧
      |c - z / Real.sqrt (x ^ 2 + y ^ 2 + z ^ 2)| ≤ 20 / 2 ^ 53 := by
  obtain ⟨u, hu⟩ : ∃ u : ℝ, u = 1 / 2 ^ 53 := ⟨_, rfl⟩
  obtain ⟨η, hη⟩ : ∃ η : ℝ, η = 1 / 2 ^ 1075 := ⟨_, rfl⟩
  obtain ⟨A, hA⟩ : ∃ A : ℝ, A = 2 ^ 800 := ⟨_, rfl⟩
  have A1 : (1 : ℝ) ≤ A := by rw [hA]; exact one_le_pow₀ (by norm_num)
  obtain ⟨B, big, rd⟩ : ∃ B : ℝ, 1000 * A ≤ B ∧ ∀ t, |t| ≤ B → rnd fl 1024 (fin t) = fin (fl t) := by
    refine ⟨2 ^ 1000, ?_, fun t ht => rnd_double h ht⟩
    rw [hA, show (2 : ℝ) ^ 1000 = 2 ^ 200 * 2 ^ 800 by rw [← pow_add]]
    exact mul_le_mul_of_nonneg_right (by norm_num) (by positivity)
  have er : ∀ t, |fl t - t| ≤ u * |t| + η := by rw [hu, hη]; exact err_double h
  have u0 : 0 ≤ u := by rw [hu]; positivity
  have u1 : u ≤ 1 / 2 ^ 50 := by rw [hu]; norm_num
  have u2 : u ≤ 1 / 1000 := u1.trans (by norm_num)
  have η0 : 0 ≤ η := by rw [hη]; positivity
  have ηA : η = u * (1 / A) * (1 / 2 ^ 222) := by
    rw [hη, hu, hA, show (2 : ℝ) ^ 1075 = 2 ^ 53 * 2 ^ 800 * 2 ^ 222 by rw [← pow_add, ← pow_add]]
    field_simp
  have A0 : 0 < A := lt_of_lt_of_le one_pos A1
  have iA : 1 / A ≤ 1 := by rw [div_le_one A0]; exact A1
  have iA0 : 0 < 1 / A := by positivity
  have hηu : 100 * η ≤ u := by
    rw [ηA]
    have : u * (1 / A) ≤ u * 1 := mul_le_mul_of_nonneg_left iA u0
    have : (0 : ℝ) ≤ u * (1 / A) := by positivity
    have e : (1 / 2 ^ 222 : ℝ) ≤ 1 / 100 := by norm_num
    have : u * (1 / A) * (1 / 2 ^ 222) ≤ u * (1 / A) * (1 / 100) := mul_le_mul_of_nonneg_left e this
    linarith
  rw [← hA] at h1 h2
  clear hA hη
  have ηA' : η ≤ A := by
    have := u2
    linarith
  have hT : 0 < x ^ 2 + y ^ 2 + z ^ 2 := lt_of_lt_of_le iA0 h1
  have hηT : η ≤ u * (x ^ 2 + y ^ 2 + z ^ 2) := by
    rw [ηA]
    have a1 : u * (1 / A) ≤ u * (x ^ 2 + y ^ 2 + z ^ 2) := mul_le_mul_of_nonneg_left h1 u0
    have a2 : u * (1 / A) * (1 / 2 ^ 222) ≤ u * (1 / A) * 1 := mul_le_mul_of_nonneg_left (by norm_num) (by positivity)
    linarith
  have hη2 : η ^ 2 ≤ u ^ 2 * (x ^ 2 + y ^ 2 + z ^ 2) / 4 := by
    rw [ηA, mul_pow, mul_pow, mul_div_assoc, mul_assoc]
    refine mul_le_mul_of_nonneg_left ?_ (by positivity)
    have a1 : (1 / A) ^ 2 ≤ 1 / A := by rw [pow_two]; exact mul_le_of_le_one_left iA0.le iA
    have a2 : ((1 : ℝ) / 2 ^ 222) ^ 2 ≤ 1 / 4 := by norm_num
    have a3 : (1 / A) ^ 2 * (1 / 2 ^ 222) ^ 2 ≤ 1 / A * (1 / 4) := mul_le_mul a1 a2 (by positivity) iA0.le
    linarith
  -- the squares
  have hx : x * x ≤ x ^ 2 + y ^ 2 + z ^ 2 := by nlinarith [sq_nonneg y, sq_nonneg z]
  have hy : y * y ≤ x ^ 2 + y ^ 2 + z ^ 2 := by nlinarith [sq_nonneg x, sq_nonneg z]
  have hz : z * z ≤ x ^ 2 + y ^ 2 + z ^ 2 := by nlinarith [sq_nonneg x, sq_nonneg y]
  have sq' : ∀ t : ℝ, t * t ≤ x ^ 2 + y ^ 2 + z ^ 2 → mulD fl (fin t) (fin t) = fin (fl (t * t)) ∧
      |fl (t * t) - t * t| ≤ u * (t * t) + η ∧ |fl (t * t)| ≤ 2 * A := by
    intro t ht
    have p := mul_self_nonneg t
    have e := er (t * t)
    rw [abs_of_nonneg p] at e
    refine ⟨?_, e, ?_⟩
    · rw [mulD, fin_mul, rd]
      rw [abs_of_nonneg p]
      linarith
    · rw [abs_le] at e ⊢
      have : u * (t * t) ≤ 1 / 1000 * (t * t) := mul_le_mul_of_nonneg_right u2 p
      constructor <;> linarith [e.1, e.2]
  obtain ⟨ea, fa, ga⟩ := sq' x hx
  obtain ⟨eb, fb, gb⟩ := sq' y hy
  obtain ⟨ec, fc, gc⟩ := sq' z hz
  clear sq'
  have gab : |fl (x * x) + fl (y * y)| ≤ 4 * A := (abs_add_le _ _).trans (by linarith)
  have es := er (fl (x * x) + fl (y * y))
  have gs : |fl (fl (x * x) + fl (y * y))| ≤ 6 * A := by
    have h3 : u * |fl (x * x) + fl (y * y)| ≤ 1 / 1000 * (4 * A) := mul_le_mul u2 gab (abs_nonneg _) (by norm_num)
    have := abs_add_le (fl (fl (x * x) + fl (y * y)) - (fl (x * x) + fl (y * y))) (fl (x * x) + fl (y * y))
    rw [sub_add_cancel] at this
    linarith
  have es' : addD fl (fin (fl (x * x))) (fin (fl (y * y))) = fin (fl (fl (x * x) + fl (y * y))) := by
    rw [addD, fin_add, rd _ (by linarith)]
  generalize hs : fl (fl (x * x) + fl (y * y)) = s at *
  have gsc : |s + fl (z * z)| ≤ 8 * A := (abs_add_le _ _).trans (by linarith)
  have eS := er (s + fl (z * z))
  have eS' : addD fl (fin s) (fin (fl (z * z))) = fin (fl (s + fl (z * z))) := by
    rw [addD, fin_add, rd _ (by linarith)]
  have gS : |fl (s + fl (z * z))| ≤ 10 * A := by
    have h3 : u * |s + fl (z * z)| ≤ 1 / 1000 * (8 * A) := mul_le_mul u2 gsc (abs_nonneg _) (by norm_num)
    have := abs_add_le (fl (s + fl (z * z)) - (s + fl (z * z))) (s + fl (z * z))
    rw [sub_add_cancel] at this
    linarith
  have hdot : dotV fl (V3.re x y z) (V3.re x y z) = fin (fl (s + fl (z * z))) := by
    simp only [dotV, V3.re, ea, eb, ec, es', eS']
  generalize fl (s + fl (z * z)) = S at *
  -- the norm
  have en := er (Real.sqrt S)
  rw [abs_of_nonneg (Real.sqrt_nonneg S)] at en
  obtain ⟨n0, nn⟩ := norm_error u0 u1 η0 hηT fa fb fc es eS en hη2 hT
  have hS0 : 0 ≤ S := by
    by_contra hc
    rw [Real.sqrt_eq_zero_of_nonpos (le_of_not_ge hc)] at en n0
    rw [h.fix repF_zero] at n0
    exact lt_irrefl _ n0
  have hr : rV fl (V3.re x y z) = fin (fl (Real.sqrt S)) := by
    rw [rV, hdot, sqrtD, sqrt_fin hS0, rd]
    rw [abs_of_nonneg (Real.sqrt_nonneg S)]
    have : Real.sqrt S ≤ 1 + S := by
      rw [Real.sqrt_le_left (by linarith)]
      nlinarith
    rw [abs_of_nonneg hS0] at gS
    linarith
  generalize fl (Real.sqrt S) = n at *
  -- the quotients
  have hTn : Real.sqrt (x ^ 2 + y ^ 2 + z ^ 2) ^ 2 = x ^ 2 + y ^ 2 + z ^ 2 := Real.sq_sqrt hT.le
  have hr0 : 0 < Real.sqrt (x ^ 2 + y ^ 2 + z ^ 2) := Real.sqrt_pos.2 hT
  generalize hrr : Real.sqrt (x ^ 2 + y ^ 2 + z ^ 2) = r at *
  have hnr : |n - r| ≤ 15 * u * r := by
    have e : |n ^ 2 - (x ^ 2 + y ^ 2 + z ^ 2)| = |n - r| * (n + r) := by
      rw [← hTn, show n ^ 2 - r ^ 2 = (n - r) * (n + r) by ring, abs_mul, abs_of_pos (by linarith : 0 < n + r)]
    rw [e, ← hTn] at nn
    have a1 : |n - r| * r ≤ |n - r| * (n + r) := mul_le_mul_of_nonneg_left (by linarith) (abs_nonneg _)
    have : |n - r| * r ≤ 15 * u * r * r := by
      refine (a1.trans nn).trans (le_of_eq ?_)
      ring
    exact le_of_mul_le_mul_right this hr0
  have hnr' : r ≤ 1.1 * n := by
    have a1 := (abs_le.1 hnr).1
    have a2 : u * r ≤ 1 / 1000 * r := mul_le_mul_of_nonneg_right u2 hr0.le
    linarith
  have quo : ∀ t : ℝ, t * t ≤ x ^ 2 + y ^ 2 + z ^ 2 → divD fl (fin t) (fin n) = fin (fl (t / n)) ∧
      |fl (t / n) - t / n| ≤ u * |t / n| + η ∧ |fl (t / n) - t / r| ≤ 20 * u := by
    intro t ht
    have htr : |t| ≤ r := by
      rw [← sq_le_sq₀ (abs_nonneg _) hr0.le, sq_abs, hTn, pow_two]
      exact ht
    have htn : |t / n| ≤ 1.1 := by
      rw [abs_div, abs_of_pos n0, div_le_iff₀ n0]
      linarith
    have e := er (t / n)
    refine ⟨?_, e, ?_⟩
    · rw [divD, fin_div _ n0.ne', rd]
      linarith
    · have e2 : |t / n - t / r| ≤ 16.5 * u := by
        have h3 : t / n - t / r = t / r * ((r - n) / n) := by field_simp
        have h4 : |t / r| ≤ 1 := by rw [abs_div, abs_of_pos hr0, div_le_one hr0]; exact htr
        have h5 : |(r - n) / n| ≤ 16.5 * u := by
          rw [abs_div, abs_of_pos n0, div_le_iff₀ n0, abs_sub_comm]
          have : u * r ≤ 1.1 * (u * n) := by
            have := mul_le_mul_of_nonneg_left hnr' u0
            linarith
          linarith
        rw [h3, abs_mul]
        calc |t / r| * |(r - n) / n| ≤ 1 * (16.5 * u) := mul_le_mul h4 h5 (abs_nonneg _) (by norm_num)
          _ = 16.5 * u := one_mul _
      have h6 : u * |t / n| ≤ u * 1.1 := mul_le_mul_of_nonneg_left htn u0
      have := abs_add_le (fl (t / n) - t / n) (t / n - t / r)
      rw [sub_add_sub_cancel] at this
      linarith
  obtain ⟨qa, ra, ta⟩ := quo x hx
  obtain ⟨qb, rb, tb⟩ := quo y hy
  obtain ⟨qc, rc, tc⟩ := quo z hz
  have fin20 : (20 : ℝ) / 2 ^ 53 = 20 * u := by rw [hu]; ring
  refine ⟨fl (x / n), fl (y / n), fl (z / n), ?_, ?_, ?_, ?_, ?_⟩
  · simp only [unitV, hr]
    simp only [V3.re, qa, qb, qc]
  · rw [fin20]; exact unit_error u0 u1 η0 hηu n0 hT nn ra rb rc
  · rw [fin20]; exact ta
  · rw [fin20]; exact tb
  · rw [fin20]; exact tc

/-- C120, concrete case: the vector (1,1,1) is normalised. -/
example : ∃ fl, NearestF 53 1074 fl ∧ ∃ a b c, unitV fl (V3.re 1 1 1) = V3.re a b c ∧ |a ^ 2 + b ^ 2 + c ^ 2 - 1| ≤ 20 / 2 ^ 53 := by
  obtain ⟨fl, h⟩ := exists_nearestF 53 1074
  obtain ⟨a, b, c, e, l, -⟩ := C120_unit_partial h (x := 1) (y := 1) (z := 1)
    (le_trans (div_le_self (by norm_num) (one_le_pow₀ (by norm_num))) (by norm_num))
    (le_trans (by norm_num : (1 : ℝ) ^ 2 + 1 ^ 2 + 1 ^ 2 ≤ 2 ^ 2) (pow_le_pow_right₀ (by norm_num) (by norm_num)))
  exact ⟨fl, h, a, b, c, e, l⟩

/-- numbers below half the smallest one become zero -/
theorem round_tiny (h : NearestF 53 1074 fl) {t : ℝ} (ht : 2 * |t| * 2 ^ 1074 < 1) : fl t = 0 := by
  have h1 := h.near t 0 repF_zero
  rw [zero_sub, _root_.abs_neg] at h1
  have h2 : |fl t| ≤ 2 * |t| := by
    have := abs_add_le (fl t - t) t
    rw [sub_add_cancel] at this
    linarith
  obtain ⟨m, e, -, h4⟩ := h.rep t
  have hP : (0 : ℝ) < 2 ^ 1074 := by positivity
  generalize (2 : ℝ) ^ 1074 = P at *
  have h5 : |fl t| * P < 1 := lt_of_le_of_lt (mul_le_mul_of_nonneg_right h2 hP.le) ht
  have h6 : |(m : ℝ) * 2 ^ e| < 1 := by
    rw [← h4, abs_mul, abs_of_pos hP]
    exact h5
  have h7 : |m * 2 ^ e| < 1 := by exact_mod_cast h6
  have h8 : m * 2 ^ e = 0 := Int.abs_lt_one_iff.1 h7
  have h9 : (m : ℝ) * 2 ^ e = 0 := by exact_mod_cast h8
  rw [h9] at h4
  exact (mul_eq_zero.1 h4).resolve_right hP.ne'

/-- C120 is false as stated for short vectors: the square of the length of (2^-600, 0, 0) is rounded to zero, and the result is
infinite. -/
theorem C120_short_false : ∃ v : ℝ, RepF 53 1074 v ∧ 0 < v ∧ ∀ fl, NearestF 53 1074 fl →
    unitV fl (V3.re v 0 0) = ⟨inf false, nan, nan⟩ := by
  refine ⟨1 / 2 ^ 600, ⟨1, 474, by norm_num, ?_⟩, by positivity, fun fl h => ?_⟩
  · rw [show (2 : ℝ) ^ 1074 = 2 ^ 600 * 2 ^ 474 by rw [← pow_add]]
    push_cast
    field_simp
  have z0 : fl 0 = 0 := h.fix repF_zero
  have r0 : rnd fl 1024 (fin 0) = fin 0 := by
    rw [rnd_double h (by rw [_root_.abs_zero]; positivity), z0]
  have e1 : mulD fl (fin (1 / 2 ^ 600)) (fin (1 / 2 ^ 600)) = fin 0 := by
    rw [mulD, fin_mul, rnd_double h, round_tiny h]
    · rw [abs_of_pos (by positivity), show (2 : ℝ) ^ 1074 = 2 ^ 600 * 2 ^ 474 by rw [← pow_add],
        show 2 * (1 / 2 ^ 600 * (1 / 2 ^ 600)) * (2 ^ 600 * 2 ^ 474) = (2 ^ 475 : ℝ) / 2 ^ 600 by
          rw [show (2 : ℝ) ^ 475 = 2 * 2 ^ 474 by rw [← pow_succ']]; field_simp,
        div_lt_one (by positivity)]
      exact pow_lt_pow_right₀ (by norm_num) (by norm_num)
    · rw [abs_of_pos (by positivity), one_div_mul_one_div]
      exact le_trans (div_le_self (by norm_num) (one_le_mul_of_one_le_of_one_le (one_le_pow₀ (by norm_num)) (one_le_pow₀ (by norm_num))))
        (one_le_pow₀ (by norm_num))
  have e2 : mulD fl (fin 0) (fin 0) = fin 0 := by rw [mulD, fin_mul, mul_zero, r0]
  have e3 : addD fl (fin 0) (fin 0) = fin 0 := by rw [addD, fin_add, add_zero, r0]
  have e4 : rV fl (V3.re (1 / 2 ^ 600) 0 0) = fin 0 := by
    simp only [rV, dotV, V3.re, e1, e2, e3, sqrtD]
    rw [sqrt_fin le_rfl, Real.sqrt_zero, r0]
  rw [unitV, e4]
  have e5 : divD fl (fin (1 / 2 ^ 600)) (fin 0) = inf false := by
    rw [divD, fin_div_zero (by positivity)]
    have : sgn (1 / 2 ^ 600 : ℝ) = false := by
      have : (0 : ℝ) < 1 / 2 ^ 600 := by positivity
      simp [sgn]
    rw [this]
    rfl
  have e6 : divD fl (fin 0) (fin 0) = nan := by
    rw [divD, fin_zero_div_zero]
    rfl
  simp only [V3.re, e5, e6]

/-- C120 is false as stated for long vectors: the square of the length of (2^600, 0, 0) is infinite, and the result is zero. -/
theorem C120_long_false : ∃ v : ℝ, RepF 53 1074 v ∧ 0 < v ∧ v < 2 ^ 1024 ∧ ∀ fl, NearestF 53 1074 fl →
    unitV fl (V3.re v 0 0) = V3.re 0 0 0 := by
  refine ⟨2 ^ 600, ⟨1, 1674, by norm_num, ?_⟩, by positivity, pow_lt_pow_right₀ (by norm_num) (by norm_num), fun fl h => ?_⟩
  · rw [Int.cast_one, one_mul, ← pow_add]
  have z0 : fl 0 = 0 := h.fix repF_zero
  have r0 : rnd fl 1024 (fin 0) = fin 0 := by
    rw [rnd_double h (by rw [_root_.abs_zero]; positivity), z0]
  have e1 : mulD fl (fin (2 ^ 600)) (fin (2 ^ 600)) = inf false := by
    have hf : fl (2 ^ 600 * 2 ^ 600) = 2 ^ 600 * 2 ^ 600 := by
      refine h.fix ⟨1, 2274, by norm_num, ?_⟩
      rw [Int.cast_one, one_mul, ← pow_add, ← pow_add]
    rw [mulD, fin_mul]
    simp only [rnd, hf]
    have hp : (0 : ℝ) < 2 ^ 600 * 2 ^ 600 := by positivity
    rw [abs_of_pos hp, if_neg (not_lt.2 (by rw [← pow_add]; exact pow_le_pow_right₀ (by norm_num) (by norm_num)))]
    simp only [not_lt.2 hp.le, decide_false]
  have e2 : mulD fl (fin 0) (fin 0) = fin 0 := by rw [mulD, fin_mul, mul_zero, r0]
  have e3 : addD fl (inf false) (fin 0) = inf false := rfl
  have e4 : rV fl (V3.re (2 ^ 600) 0 0) = inf false := by
    simp only [rV, dotV, V3.re, e1, e2, e3, sqrtD]
    rfl
  have e5 : ∀ t : ℝ, divD fl (fin t) (inf false) = fin 0 := by
    intro t
    rw [divD, fin_div_inf, r0]
  rw [unitV, e4]
  simp only [V3.re, e5]

/-- C120: sums, differences and products with a number have in each component the number of type `double` next to the exact
result. -/
theorem C120_nearest (fl : ℝ → ℝ) (s : Dbl) (a b : V3) :
    addV fl a b = ⟨rnd fl 1024 (a + b).x, rnd fl 1024 (a + b).y, rnd fl 1024 (a + b).z⟩ ∧
    subV fl a b = ⟨rnd fl 1024 (a - b).x, rnd fl 1024 (a - b).y, rnd fl 1024 (a - b).z⟩ ∧
    smulV fl s a = ⟨rnd fl 1024 (V3.smul s a).x, rnd fl 1024 (V3.smul s a).y, rnd fl 1024 (V3.smul s a).z⟩ := ⟨rfl, rfl, rfl⟩

theorem sum_error {u η p q a b s : ℝ} (hu : 0 ≤ u) (hu' : u ≤ 1 / 1000) (hη : 0 ≤ η) (ha : |a - p| ≤ u * |p| + η)
    (hb : |b - q| ≤ u * |q| + η) (hs : |s - (a + b)| ≤ u * |a + b| + η) :
    |s - (p + q)| ≤ 3 * u * (|p| + |q|) + 4 * η ∧ |a + b| ≤ 2 * (|p| + |q|) + 2 * η := by
  have hp := abs_nonneg p
  have hq := abs_nonneg q
  have e1 : |a + b| ≤ |a - p| + |b - q| + |p| + |q| := by
    have h1 := abs_add_le (a - p + (b - q)) (p + q)
    have h2 := abs_add_le (a - p) (b - q)
    have h3 := abs_add_le p q
    rw [show a - p + (b - q) + (p + q) = a + b by ring] at h1
    linarith
  have e2 : |s - (p + q)| ≤ |s - (a + b)| + |a - p| + |b - q| := by
    have h1 := abs_add_le (s - (a + b)) (a - p + (b - q))
    have h2 := abs_add_le (a - p) (b - q)
    rw [show s - (a + b) + (a - p + (b - q)) = s - (p + q) by ring] at h1
    linarith
  have e3 : u * |p| ≤ 1 / 1000 * |p| := mul_le_mul_of_nonneg_right hu' hp
  have e4 : u * |q| ≤ 1 / 1000 * |q| := mul_le_mul_of_nonneg_right hu' hq
  have e5 : |a + b| ≤ 1001 / 1000 * (|p| + |q|) + 2 * η := by linarith
  have e6 : u * |a + b| ≤ u * (1001 / 1000 * (|p| + |q|) + 2 * η) := mul_le_mul_of_nonneg_left e5 hu
  have e7 : u * η ≤ 1 / 1000 * η := mul_le_mul_of_nonneg_right hu' hη
  have e8 : 0 ≤ u * |p| := mul_nonneg hu hp
  have e9 : 0 ≤ u * |q| := mul_nonneg hu hq
  constructor <;> nlinarith

/-- C120: errors of the scalar and the vector product, in units of the sums of the magnitudes of the products. -/
theorem C120_products (h : NearestF 53 1074 fl) {x y z x' y' z' : ℝ} (hx : |x| ≤ 2 ^ 400) (hy : |y| ≤ 2 ^ 400) (hz : |z| ≤ 2 ^ 400)
    (hx' : |x'| ≤ 2 ^ 400) (hy' : |y'| ≤ 2 ^ 400) (hz' : |z'| ≤ 2 ^ 400) :
    (∃ d, dotV fl (V3.re x y z) (V3.re x' y' z') = fin d ∧
      |d - (x * x' + y * y' + z * z')| ≤ 5 / 2 ^ 53 * (|x * x'| + |y * y'| + |z * z'|) + 7 / 2 ^ 1075) ∧
    (∃ a b c, crossV fl (V3.re x y z) (V3.re x' y' z') = V3.re a b c ∧
      |a - (y * z' - z * y')| ≤ 3 / 2 ^ 53 * (|y * z'| + |z * y'|) + 4 / 2 ^ 1075 ∧
      |b - (z * x' - x * z')| ≤ 3 / 2 ^ 53 * (|z * x'| + |x * z'|) + 4 / 2 ^ 1075 ∧
      |c - (x * y' - y * x')| ≤ 3 / 2 ^ 53 * (|x * y'| + |y * x'|) + 4 / 2 ^ 1075) := by
  have u0 : (0 : ℝ) ≤ 1 / 2 ^ 53 := by positivity
  have u1 : (1 : ℝ) / 2 ^ 53 ≤ 1 / 1000 := by norm_num
  have η0 : (0 : ℝ) ≤ 1 / 2 ^ 1075 := by positivity
  have η1 : (1 : ℝ) / 2 ^ 1075 ≤ 1 := div_le_self (by norm_num) (one_le_pow₀ (by norm_num))
  have er := err_double h
  have small : ∀ p q : ℝ, |p| ≤ 2 ^ 400 → |q| ≤ 2 ^ 400 → |p * q| ≤ 2 ^ 800 := by
    intro p q hp hq
    rw [abs_mul, show (2 : ℝ) ^ 800 = 2 ^ 400 * 2 ^ 400 by rw [← pow_add]]
    exact mul_le_mul hp hq (abs_nonneg _) (by positivity)
  have A1 : (1 : ℝ) ≤ 2 ^ 800 := one_le_pow₀ (by norm_num)
  have top : (16 : ℝ) * 2 ^ 800 ≤ 2 ^ 1000 := by
    rw [show (2 : ℝ) ^ 1000 = 2 ^ 200 * 2 ^ 800 by rw [← pow_add]]
    exact mul_le_mul_of_nonneg_right (by norm_num) (by positivity)
  have k5 : (5 : ℝ) / 2 ^ 53 = 5 * (1 / 2 ^ 53) := by ring
  have k3 : (3 : ℝ) / 2 ^ 53 = 3 * (1 / 2 ^ 53) := by ring
  have l7 : (7 : ℝ) / 2 ^ 1075 = 7 * (1 / 2 ^ 1075) := by rw [← mul_div_assoc, mul_one]
  have l4 : (4 : ℝ) / 2 ^ 1075 = 4 * (1 / 2 ^ 1075) := by rw [← mul_div_assoc, mul_one]
  have rd : ∀ t : ℝ, |t| ≤ 2 ^ 1000 → rnd fl 1024 (fin t) = fin (fl t) := fun t => rnd_double h
  rw [k5, k3, l7, l4]
  generalize (1 : ℝ) / 2 ^ 53 = u at *
  generalize (1 : ℝ) / 2 ^ 1075 = η at *
  generalize (2 : ℝ) ^ 1000 = T at *
  generalize (2 : ℝ) ^ 800 = A at *
  clear k5 k3 l7 l4
  have mulE : ∀ p q : ℝ, |p * q| ≤ A → mulD fl (fin p) (fin q) = fin (fl (p * q)) := by
    intro p q hpq
    rw [mulD, fin_mul, rd _ (by linarith)]
  constructor
  · have p1 := small _ _ hx hx'
    have p2 := small _ _ hy hy'
    have p3 := small _ _ hz hz'
    obtain ⟨e1, e2⟩ := sum_error u0 u1 η0 (er (x * x')) (er (y * y')) (er (fl (x * x') + fl (y * y')))
    have e3 := er (z * z')
    have e4 := er (fl (fl (x * x') + fl (y * y')) + fl (z * z'))
    have e5 : u * (|x * x'| + |y * y'|) ≤ 1 / 1000 * (|x * x'| + |y * y'|) :=
      mul_le_mul_of_nonneg_right u1 (add_nonneg (abs_nonneg _) (abs_nonneg _))
    have e6 : u * |z * z'| ≤ 1 / 1000 * |z * z'| := mul_le_mul_of_nonneg_right u1 (abs_nonneg _)
    have f1 : |fl (fl (x * x') + fl (y * y')) + fl (z * z')| ≤ 101 / 100 * (|x * x'| + |y * y'| + |z * z'|) + 5 * η := by
      have g1 := abs_add_le (fl (fl (x * x') + fl (y * y')) - (x * x' + y * y') + (fl (z * z') - z * z')) (x * x' + y * y' + z * z')
      have g2 := abs_add_le (fl (fl (x * x') + fl (y * y')) - (x * x' + y * y')) (fl (z * z') - z * z')
      have g3 := abs_add_le (x * x' + y * y') (z * z')
      have g4 := abs_add_le (x * x') (y * y')
      rw [show fl (fl (x * x') + fl (y * y')) - (x * x' + y * y') + (fl (z * z') - z * z') + (x * x' + y * y' + z * z') =
        fl (fl (x * x') + fl (y * y')) + fl (z * z') by ring] at g1
      linarith [abs_nonneg (z * z'), abs_nonneg (x * x'), abs_nonneg (y * y')]
    refine ⟨fl (fl (fl (x * x') + fl (y * y')) + fl (z * z')), ?_, ?_⟩
    · simp only [dotV, V3.re]
      rw [mulE _ _ p1, mulE _ _ p2, mulE _ _ p3, addD, addD, fin_add, rd _ (by linarith), fin_add, rd _ (by linarith)]
    · have g1 := abs_add_le (fl (fl (fl (x * x') + fl (y * y')) + fl (z * z')) - (fl (fl (x * x') + fl (y * y')) + fl (z * z')))
        (fl (fl (x * x') + fl (y * y')) - (x * x' + y * y') + (fl (z * z') - z * z'))
      have g2 := abs_add_le (fl (fl (x * x') + fl (y * y')) - (x * x' + y * y')) (fl (z * z') - z * z')
      rw [show fl (fl (fl (x * x') + fl (y * y')) + fl (z * z')) - (fl (fl (x * x') + fl (y * y')) + fl (z * z')) +
        (fl (fl (x * x') + fl (y * y')) - (x * x' + y * y') + (fl (z * z') - z * z')) =
        fl (fl (fl (x * x') + fl (y * y')) + fl (z * z')) - (x * x' + y * y' + z * z') by ring] at g1
      have g3 := mul_le_mul_of_nonneg_left f1 u0
      have g4 : u * η ≤ 1 / 1000 * η := mul_le_mul_of_nonneg_right u1 η0
      have g5 : 0 ≤ u * |z * z'| := mul_nonneg u0 (abs_nonneg _)
      have g6 : 0 ≤ u * (|x * x'| + |y * y'|) := mul_nonneg u0 (add_nonneg (abs_nonneg _) (abs_nonneg _))
      nlinarith
  · have key : ∀ p q r s : ℝ, |p * q| ≤ A → |r * s| ≤ A →
        ∃ a, subD fl (mulD fl (fin p) (fin q)) (mulD fl (fin r) (fin s)) = fin a ∧
          |a - (p * q - r * s)| ≤ 3 * u * (|p * q| + |r * s|) + 4 * η := by
      intro p q r s h1 h2
      have e0 : |-fl (r * s) - -(r * s)| ≤ u * |-(r * s)| + η := by
        rw [show -fl (r * s) - -(r * s) = -(fl (r * s) - r * s) by ring, _root_.abs_neg, _root_.abs_neg]
        exact er _
      obtain ⟨e1, e2⟩ := sum_error u0 u1 η0 (er (p * q)) e0 (er (fl (p * q) + -fl (r * s)))
      rw [_root_.abs_neg, ← sub_eq_add_neg, ← sub_eq_add_neg] at e1
      rw [_root_.abs_neg, ← sub_eq_add_neg] at e2
      refine ⟨fl (fl (p * q) - fl (r * s)), ?_, e1⟩
      rw [mulE _ _ h1, mulE _ _ h2, subD, fin_sub, rd _ (by linarith)]
    obtain ⟨a, a1, a2⟩ := key y z' z y' (small _ _ hy hz') (small _ _ hz hy')
    obtain ⟨b, b1, b2⟩ := key z x' x z' (small _ _ hz hx') (small _ _ hx hz')
    obtain ⟨c, c1, c2⟩ := key x y' y x' (small _ _ hx hy') (small _ _ hy hx')
    refine ⟨a, b, c, ?_, a2, b2, c2⟩
    simp only [crossV, V3.re, a1, b1, c1]

/-- C120_products, concrete case: (1,2,3) and (4,5,6), all roundings. -/
example (h : NearestF 53 1074 fl) : ∃ d, dotV fl (V3.re 1 2 3) (V3.re 4 5 6) = fin d ∧
    |d - (1 * 4 + 2 * 5 + 3 * 6)| ≤ 5 / 2 ^ 53 * (|1 * 4| + |2 * 5| + |3 * 6|) + 7 / 2 ^ 1075 := by
  have key : ∀ t : ℝ, 0 ≤ t → t ≤ 8 → |t| ≤ 2 ^ 400 := by
    intro t h0 h1
    rw [abs_of_nonneg h0]
    exact h1.trans (le_trans (by norm_num : (8 : ℝ) ≤ 2 ^ 3) (pow_le_pow_right₀ (by norm_num) (by norm_num)))
  exact (C120_products h (key 1 (by norm_num) (by norm_num)) (key 2 (by norm_num) (by norm_num)) (key 3 (by norm_num) (by norm_num))
    (key 4 (by norm_num) (by norm_num)) (key 5 (by norm_num) (by norm_num)) (key 6 (by norm_num) (by norm_num))).1

end Verif
