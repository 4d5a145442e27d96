import Verif.Model.RoundedMove
import Verif.Lemmas.RoundedPath

/-!
# Rounding errors of moved tracks, for real numbers
-/

open Classical

noncomputable section

namespace Verif

namespace Rnd

open Dbl Rounded

theorem mPi_bounds : |mPi - Real.pi| ≤ 2 * (1 / 2 ^ 53) ∧ mPi < Real.pi ∧ 3.14 < mPi ∧ mPi < 3.15 := by
  have a := Real.pi_gt_d20
  have b := Real.pi_lt_d20
  unfold mPi
  refine ⟨?_, ?_, by norm_num, by norm_num⟩
  · rw [abs_le]
    constructor <;> norm_num at a b ⊢ <;> linarith
  · norm_num at a ⊢
    linarith

theorem abs_le_one_of_sq_add_sq {a b : ℝ} (h : b ^ 2 + a ^ 2 = 1) : |a| ≤ 1 := by
  refine abs_le_of_sq_le_sq ?_ (by norm_num)
  have := sq_nonneg b
  linarith

theorem sq_sub_le {a b : ℝ} (ha : 0 ≤ a) (hb : 0 ≤ b) : (a - b) ^ 2 ≤ |a ^ 2 - b ^ 2| := by
  rcases le_total a b with h | h
  · rw [abs_of_nonpos (by nlinarith)]
    nlinarith
  · rw [abs_of_nonneg (by nlinarith)]
    nlinarith

/-- the length of the vector from the cosine and the sine computed from it -/
theorem sine_norm {u η t c w sn0 : ℝ} (hηu : 100 * η ≤ u) (hu : 0 < u) (u1 : u ≤ 1 / 1000000)
    (hc : |c - Real.cos t| ≤ 3 * u) (hw : |w - (1 - c) * (1 + c)| ≤ 4 * u * |(1 - c) * (1 + c)| + 4 * η)
    (hs : |sn0 - Real.sqrt (max 0 w)| ≤ u * Real.sqrt (max 0 w) + η) (hs0 : 0 ≤ sn0) :
    |c ^ 2 + sn0 ^ 2 - 1| ≤ 11 * u ∧ |Real.sin t ^ 2 - sn0 ^ 2| ≤ 18 * u := by
  have uu : u * u ≤ 1 / 1000000 * u := mul_le_mul_of_nonneg_right u1 hu.le
  have cb := Real.abs_cos_le_one t
  have c1 := abs_near hc
  have c2 : |c| ≤ 1 + 3 * u := by linarith
  have csq : c ^ 2 ≤ 1 + 7 * u := by
    have : |c| ^ 2 ≤ (1 + 3 * u) ^ 2 := pow_le_pow_left₀ (abs_nonneg c) c2 2
    rw [sq_abs] at this
    nlinarith
  have cp := sq_nonneg c
  have P : (1 - c) * (1 + c) = 1 - c ^ 2 := by ring
  rw [P] at hw
  have P1 : |1 - c ^ 2| ≤ 1 := abs_le.2 ⟨by linarith, by linarith⟩
  have w1 : |w - (1 - c ^ 2)| ≤ 5 * u := by
    have : 4 * u * |1 - c ^ 2| ≤ 4 * u * 1 := mul_le_mul_of_nonneg_left P1 (by linarith)
    linarith
  have W0 : 0 ≤ max 0 w := le_max_left _ _
  have W1 : |max 0 w - (1 - c ^ 2)| ≤ 8 * u := by
    rw [abs_le] at w1 ⊢
    rcases max_choice 0 w with q | q <;> rw [q]
    · have : w ≤ 0 := by rw [← q]; exact le_max_right _ _
      constructor <;> linarith
    · constructor <;> linarith
  generalize max 0 w = W at *
  have W2 : W ≤ 1.1 := by
    rw [abs_le] at W1
    linarith
  have S := Real.sq_sqrt W0
  have S0 := Real.sqrt_nonneg W
  generalize Real.sqrt W = q at *
  have q1 : q ≤ 1.1 := by nlinarith
  have sn1 : |sn0 - q| ≤ 1.2 * u := by
    have : u * q ≤ u * 1.1 := mul_le_mul_of_nonneg_left q1 hu.le
    linarith
  have sn2 : |sn0 ^ 2 - W| ≤ 3 * u := by
    rw [← S, sq_sub_sq, abs_mul]
    have a1 : |sn0 + q| ≤ 2.3 := by
      rw [abs_of_nonneg (by linarith)]
      rw [abs_le] at sn1
      linarith
    calc |sn0 + q| * |sn0 - q| ≤ 2.3 * (1.2 * u) := mul_le_mul a1 sn1 (abs_nonneg _) (by norm_num)
      _ ≤ _ := by linarith
  have nrm : |c ^ 2 + sn0 ^ 2 - 1| ≤ 11 * u := by
    rw [abs_le] at sn2 W1 ⊢
    constructor <;> linarith
  have sc := Real.sin_sq_add_cos_sq t
  have cc : |c ^ 2 - Real.cos t ^ 2| ≤ 7 * u := by
    rw [sq_sub_sq, abs_mul]
    have a1 : |c + Real.cos t| ≤ 2.1 := (abs_add_le _ _).trans (by linarith)
    calc |c + Real.cos t| * |c - Real.cos t| ≤ 2.1 * (3 * u) := mul_le_mul a1 hc (abs_nonneg _) (by norm_num)
      _ ≤ _ := by linarith
  refine ⟨nrm, ?_⟩
  rw [abs_le] at cc nrm ⊢
  constructor <;> linarith

/-- the sine computed from the cosine has half of the digits -/
theorem sine_half {u t sn0 : ℝ} (hu : u = 1 / 2 ^ 53) (ht0 : 0 ≤ t) (ht1 : t ≤ 2 * mPi) (hs0 : 0 ≤ sn0)
    (ss : |Real.sin t ^ 2 - sn0 ^ 2| ≤ 18 * u) :
    |(if mPi < t then -sn0 else sn0) - Real.sin t| ≤ 1 / 2 ^ 23 ∧ |(if mPi < t then -sn0 else sn0) - Real.sin t| * |Real.sin t| ≤ 20 * u := by
  obtain ⟨pd, p2, p3, p4⟩ := mPi_bounds
  rw [← hu] at pd
  have u0 : 0 < u := by rw [hu]; positivity
  have u1 : u ≤ 1 / 1000000 := by rw [hu]; norm_num
  have half : ∀ {a : ℝ}, 0 ≤ a → |a ^ 2 - sn0 ^ 2| ≤ 20 * u → |a - sn0| ≤ 1 / 2 ^ 24 := fun {a} ha h => by
    refine abs_le_of_sq_le_sq ?_ (by positivity)
    refine (sq_sub_le ha hs0).trans (h.trans ?_)
    rw [hu]
    norm_num
  have k0 : (1 : ℝ) / 2 ^ 24 + 2 * u ≤ 1 / 2 ^ 23 := by rw [hu]; norm_num
  have full : ∀ {a : ℝ}, 0 ≤ a → |a ^ 2 - sn0 ^ 2| ≤ 18 * u → |a - sn0| * a ≤ 20 * u := fun {a} ha h => by
    rw [sq_sub_sq, abs_mul, abs_of_nonneg (add_nonneg ha hs0)] at h
    have := mul_le_mul_of_nonneg_left (show a ≤ a + sn0 by linarith) (abs_nonneg (a - sn0))
    linarith
  have k1 : (1 : ℝ) / 2 ^ 23 ≤ 1 := by norm_num
  clear hu
  suffices |(if mPi < t then -sn0 else sn0) - Real.sin t| ≤ 1 / 2 ^ 24 + 2 * u ∧
      (|(if mPi < t then -sn0 else sn0) - Real.sin t| ≤ 1 / 2 ^ 23 → |(if mPi < t then -sn0 else sn0) - Real.sin t| * |Real.sin t| ≤ 20 * u) from
    ⟨this.1.trans k0, this.2 (this.1.trans k0)⟩
  by_cases h : mPi < t
  · rw [if_pos h]
    have s1 : Real.sin t ≤ 2 * u := by
      rcases le_or_gt Real.pi t with h' | h'
      · have := Real.sin_nonneg_of_nonneg_of_le_pi (x := t - Real.pi) (by linarith) (by linarith)
        rw [Real.sin_sub_pi] at this
        linarith
      · have a1 := Real.sin_le (x := Real.pi - t) (by linarith)
        rw [Real.sin_pi_sub] at a1
        rw [abs_le] at pd
        linarith
    rcases le_or_gt (Real.sin t) 0 with h' | h'
    · have := half (a := -Real.sin t) (by linarith) (by rw [neg_sq]; linarith)
      have f := full (a := -Real.sin t) (by linarith) (by rw [neg_sq]; linarith)
      rw [show -sn0 - Real.sin t = -Real.sin t - sn0 by ring]
      refine ⟨by linarith, fun _ => ?_⟩
      rw [abs_of_nonpos h']
      exact f
    · have a1 : Real.sin t ^ 2 ≤ 2 * u := by
        have a2 : Real.sin t * Real.sin t ≤ 2 * u * 1 := mul_le_mul s1 (Real.sin_le_one t) h'.le (by linarith)
        rw [sq]
        linarith
      have a3 := sq_nonneg (Real.sin t)
      have := half (a := 0) le_rfl (by
        rw [abs_le] at ss ⊢
        constructor <;> linarith)
      rw [zero_sub, abs_neg] at this
      refine ⟨(abs_sub _ _).trans ?_, fun g => ?_⟩
      · rw [abs_neg, abs_of_pos h']
        linarith
      · rw [abs_of_pos h']
        have := mul_le_mul (g.trans k1) s1 h'.le zero_le_one
        linarith
  · rw [if_neg h]
    have s1 := Real.sin_nonneg_of_nonneg_of_le_pi ht0 (by linarith)
    rw [abs_sub_comm]
    have := half s1 (by linarith)
    refine ⟨by linarith, fun _ => ?_⟩
    rw [abs_of_nonneg s1]
    exact full s1 ss

/-- cosine and sine of an angle, the sine from the cosine: those of an angle that is wrong by half of the digits -/
theorem sine_error {u η t c w sn0 : ℝ} (hηu : 100 * η ≤ u) (hu : u = 1 / 2 ^ 53) (ht0 : 0 ≤ t)
    (ht1 : t ≤ 2 * mPi) (hc : |c - Real.cos t| ≤ 3 * u) (hw : |w - (1 - c) * (1 + c)| ≤ 4 * u * |(1 - c) * (1 + c)| + 4 * η)
    (hs : |sn0 - Real.sqrt (max 0 w)| ≤ u * Real.sqrt (max 0 w) + η) (hs0 : 0 ≤ sn0) :
    ∃ δ, |δ| ≤ 1 / 2 ^ 22 ∧ |δ| * |Real.sin t| ≤ 40 * u ∧ |c - Real.cos (t + δ)| ≤ 10 * u ∧ |(if mPi < t then -sn0 else sn0) - Real.sin (t + δ)| ≤ 10 * u := by
  have u0 : 0 < u := by rw [hu]; positivity
  have u1 : u ≤ 1 / 1000000 := by rw [hu]; norm_num
  obtain ⟨nrm, ss⟩ := sine_norm hηu u0 u1 hc hw hs hs0
  obtain ⟨key, key2⟩ := sine_half hu ht0 ht1 hs0 ss
  have snq : (if mPi < t then -sn0 else sn0) ^ 2 = sn0 ^ 2 := by
    split_ifs
    · rw [neg_sq]
    · rfl
  generalize (if mPi < t then -sn0 else sn0) = sn at *
  have hα : max |sn - Real.sin t| |c - Real.cos t| ≤ 1 / 2 ^ 23 := max_le key (hc.trans (by rw [hu]; norm_num))
  have hα2 : max |sn - Real.sin t| |c - Real.cos t| * |Real.sin t| ≤ 20 * u := by
    rcases max_choice |sn - Real.sin t| |c - Real.cos t| with q | q <;> rw [q]
    · exact key2
    · have := mul_le_mul hc (Real.abs_sin_le_one t) (abs_nonneg _) (by linarith)
      linarith
  obtain ⟨⟨δ, k, hk, hδ⟩, hne⟩ := angle_error (θ := t) (hα.trans (by norm_num)) (le_max_left |sn - Real.sin t| |c - Real.cos t|) (le_max_right _ _)
  refine ⟨δ, hδ.trans (by linarith), ?_, ?_⟩
  · have := mul_le_mul_of_nonneg_right hδ (abs_nonneg (Real.sin t))
    linarith
  clear hu key
  have cr := cos_ratan2 sn c hne
  have sr := sin_ratan2 sn c
  rw [hk, Real.cos_add_int_mul_two_pi] at cr
  rw [hk, Real.sin_add_int_mul_two_pi] at sr
  rw [snq] at cr sr
  have n1 : |Real.sqrt (c ^ 2 + sn0 ^ 2) - 1| ≤ 10 * u ∧ 0 < Real.sqrt (c ^ 2 + sn0 ^ 2) := by
    have N0 : 0 ≤ c ^ 2 + sn0 ^ 2 := by positivity
    have N1 := Real.sq_sqrt N0
    have N2 := Real.sqrt_nonneg (c ^ 2 + sn0 ^ 2)
    generalize Real.sqrt (c ^ 2 + sn0 ^ 2) = ν at *
    rw [← N1] at nrm
    have ν1 : 0.9 ≤ ν := by
      rw [abs_le] at nrm
      nlinarith
    refine ⟨?_, by linarith⟩
    have e : ν ^ 2 - 1 = (ν + 1) * (ν - 1) := by ring
    rw [e, abs_mul, abs_of_pos (by linarith : 0 < ν + 1)] at nrm
    have := mul_le_mul_of_nonneg_right (show (1.9 : ℝ) ≤ ν + 1 by linarith) (abs_nonneg (ν - 1))
    linarith
  obtain ⟨n1, n2⟩ := n1
  generalize Real.sqrt (c ^ 2 + sn0 ^ 2) = ν at *
  have fin1 : ∀ {a b : ℝ}, |b| ≤ 1 → b = a / ν → |a - b| ≤ 10 * u := fun {a b} hb e => by
    have : a - b = b * (ν - 1) := by rw [e]; field_simp
    rw [this, abs_mul]
    exact (mul_le_of_le_one_left (abs_nonneg _) hb).trans n1
  exact ⟨fin1 (Real.abs_cos_le_one _) cr, fin1 (Real.abs_sin_le_one _) sr⟩

/-- `(1 - c) (1 + c)` rounded -/
theorem product_error {u η c a b w : ℝ} (hu : 0 ≤ u) (u1 : u ≤ 1 / 1000000) (hη : 0 ≤ η) (hηu : 100 * η ≤ u) (hc : |c| ≤ 1 + 3 * u)
    (ha : |a - (1 - c)| ≤ u * |1 - c| + η) (hb : |b - (1 + c)| ≤ u * |1 + c| + η) (hw : |w - a * b| ≤ u * |a * b| + η) :
    |w - (1 - c) * (1 + c)| ≤ 4 * u * |(1 - c) * (1 + c)| + 4 * η := by
  have A2 : |1 - c| ≤ 2.1 := (abs_sub _ _).trans (by rw [abs_one]; linarith)
  have B2 : |1 + c| ≤ 2.1 := (abs_add_le _ _).trans (by rw [abs_one]; linarith)
  have AB : |1 - c| + |1 + c| ≤ 2.1 := by
    rcases abs_cases (1 - c) with h | h <;> rcases abs_cases (1 + c) with h' | h' <;> rw [abs_le] at hc <;> rw [h.1, h'.1] <;> linarith
  have p := prod_error ha hb
  have b1 := abs_near hb
  rw [abs_mul (1 - c)]
  have q := abs_near p
  rw [abs_mul (1 - c)] at q
  have A0 := abs_nonneg (1 - c)
  have B0 := abs_nonneg (1 + c)
  generalize |1 - c| = A at *
  generalize |1 + c| = B at *
  have AB0 := mul_nonneg A0 B0
  have k1 := mul_le_mul_of_nonneg_left b1 (add_nonneg (mul_nonneg hu A0) hη)
  have uAB := mul_nonneg hu AB0
  have u2 : u * (u * (A * B)) ≤ 1 / 1000000 * (u * (A * B)) := mul_le_mul_of_nonneg_right u1 uAB
  have e1 : u * (A * η) ≤ u * 2.1 * η := by
    have := mul_le_mul_of_nonneg_left (mul_le_mul_of_nonneg_right (show A ≤ 2.1 by linarith) hη) hu
    linarith
  have e2 : η * (u * B) ≤ u * 2.1 * η := by
    have := mul_le_mul_of_nonneg_left (mul_le_mul_of_nonneg_right B2 hη) hu
    linarith
  have e3 : u * η ≤ 1 / 1000000 * η := mul_le_mul_of_nonneg_right u1 hη
  have e4 : η * η ≤ 1 / 1000000 * η := mul_le_mul_of_nonneg_right (by linarith) hη
  have e5 : η * A + η * B ≤ 2.1 * η := by
    have := mul_le_mul_of_nonneg_right AB hη
    linarith
  have expand : (u * A + η) * (B + (u * B + η)) + A * (u * B + η) =
      2 * (u * (A * B)) + u * (u * (A * B)) + (η * A + η * B) + u * (A * η) + η * (u * B) + η * η := by ring
  have tot : |a * b - (1 - c) * (1 + c)| ≤ 2.1 * (u * (A * B)) + 2.2 * η := by
    refine p.trans ?_
    refine (add_le_add_left k1 _).trans ?_
    rw [expand]
    linarith
  have t2 : |a * b| ≤ A * B + (2.1 * (u * (A * B)) + 2.2 * η) := by
    refine q.trans (add_le_add_right ?_ _)
    refine (add_le_add_left k1 _).trans ?_
    rw [expand]
    linarith
  have hw2 := mul_le_mul_of_nonneg_left t2 hu
  have := near_trans hw tot
  linarith

/-- a coordinate of the centre -/
theorem centre_error {u η M q d r rdr c C m x rx : ℝ} (hu : 0 ≤ u) (u1 : u ≤ 1 / 1000000) (hη : 0 ≤ η) (hηM : 1000 * η ≤ u * M)
    (hM : |q| + |d| + |rx| ≤ M) (hr : |r - q| ≤ u * |q| + η) (hd : |rdr - (r + -d)| ≤ u * |r + -d| + η) (hc : |c - C| ≤ 10 * u) (hC : |C| ≤ 1)
    (hm : |m - rdr * c| ≤ u * |rdr * c| + η) (hx : |x - (rx + m)| ≤ u * |rx + m| + η) :
    |x - (rx + (q - d) * C)| ≤ 20 * (u * M) ∧ |x| ≤ |rx| + |q| + |d| + 20 * (u * M) := by
  have q0 := abs_nonneg q
  have d0 := abs_nonneg d
  have x0 := abs_nonneg rx
  have M0 : 0 ≤ M := by linarith
  have uM : 0 ≤ u * M := mul_nonneg hu M0
  have uuM : u * (u * M) ≤ 1 / 1000000 * (u * M) := mul_le_mul_of_nonneg_right u1 uM
  have uη : u * η ≤ 1 / 1000000 * η := mul_le_mul_of_nonneg_right u1 hη
  have uq : u * |q| ≤ u * M := mul_le_mul_of_nonneg_left (by linarith) hu
  have r1 : |r - q| ≤ 1.01 * (u * M) := by linarith
  have D1 : |q - d| ≤ M := (abs_sub _ _).trans (by linarith)
  have e1 : |(r + -d) - (q - d)| ≤ 1.01 * (u * M) := by rw [show r + -d - (q - d) = r - q by ring]; exact r1
  have e2 : u * |r + -d| ≤ 1.01 * (u * M) := by
    have := mul_le_mul_of_nonneg_left (abs_near e1) hu
    have := mul_le_mul_of_nonneg_left D1 hu
    linarith
  have e3 : |rdr - (q - d)| ≤ 2.1 * (u * M) := by
    have := near_trans hd e1
    linarith
  have c1 : |c| ≤ 1.1 := by
    have := abs_near hc
    linarith
  have e4 := prod_error e3 hc
  have e5 : |rdr * c - (q - d) * C| ≤ 12.5 * (u * M) := by
    have k1 := mul_le_mul_of_nonneg_left c1 (show 0 ≤ 2.1 * (u * M) by linarith)
    have k2 := mul_le_mul_of_nonneg_right D1 (show 0 ≤ 10 * u by linarith)
    linarith
  have DC : |(q - d) * C| ≤ |q| + |d| := by
    rw [abs_mul]
    exact (mul_le_of_le_one_right (abs_nonneg _) hC).trans (abs_sub _ _)
  have e6 := abs_near e5
  have e7 : u * |rdr * c| ≤ 1.1 * (u * M) := by
    have := mul_le_mul_of_nonneg_left e6 hu
    have := mul_le_mul_of_nonneg_left DC hu
    have := mul_le_mul_of_nonneg_left (show |q| + |d| ≤ M by linarith) hu
    linarith
  have e8 : |m - (q - d) * C| ≤ 14 * (u * M) := by
    have := near_trans hm e5
    linarith
  have e9 : |rx + m - (rx + (q - d) * C)| ≤ 14 * (u * M) := by rw [add_sub_add_left_eq_sub]; exact e8
  have f1 : |rx + (q - d) * C| ≤ |rx| + |q| + |d| := (abs_add_le _ _).trans (by linarith)
  have f2 : u * |rx + m| ≤ 1.1 * (u * M) := by
    have := mul_le_mul_of_nonneg_left (abs_near e9) hu
    have := mul_le_mul_of_nonneg_left (show |rx + (q - d) * C| ≤ M by linarith) hu
    linarith
  have f3 : |x - (rx + (q - d) * C)| ≤ 20 * (u * M) := by
    have := near_trans hx e9
    linarith
  exact ⟨f3, by have := abs_near f3; linarith⟩

/-- the direction from the new reference point to the centre -/
theorem dir_error {u η M X Y a b σ t ψ : ℝ} {k : ℤ} (hu : 0 ≤ u) (u1 : u ≤ 1 / 1000000) (hηM : 1000 * η ≤ u * M) (hM : 0 ≤ M)
    (hX : |X| ≤ 1.01 * M) (hY : |Y| ≤ 1.01 * M) (hσ : |σ| = 1) (ha : |a - σ * X| ≤ u * |X| + η) (hb : |b - σ * Y| ≤ u * |Y| + η)
    (ht : ¬ (a = 0 ∧ b = 0) → |t - ratan2 b a| ≤ 8 * u) (hψ : |ψ - (t + k * (2 * Real.pi))| ≤ 11 * u) :
    ∃ ρ, 0 ≤ ρ ∧ |ρ| ≤ 2.1 * M ∧ |σ * X - ρ * Real.cos ψ| ≤ 42 * (u * M) ∧ |σ * Y - ρ * Real.sin ψ| ≤ 42 * (u * M) := by
  have uM : 0 ≤ u * M := mul_nonneg hu hM
  have uuM : u * (u * M) ≤ 1 / 1000000 * (u * M) := mul_le_mul_of_nonneg_right u1 uM
  have uM1 : u * M ≤ 1 / 1000000 * M := mul_le_mul_of_nonneg_right u1 hM
  have a1 : |a - σ * X| ≤ 1.1 * (u * M) := by
    have := mul_le_mul_of_nonneg_left hX hu
    linarith
  have b1 : |b - σ * Y| ≤ 1.1 * (u * M) := by
    have := mul_le_mul_of_nonneg_left hY hu
    linarith
  have a2 := abs_near a1
  have b2 := abs_near b1
  rw [abs_mul, hσ, one_mul] at a2 b2
  by_cases hab : a = 0 ∧ b = 0
  · refine ⟨0, le_rfl, by rw [_root_.abs_zero]; linarith, ?_, ?_⟩
    · rw [zero_mul, sub_zero]
      rw [hab.1, zero_sub, abs_neg] at a1
      linarith
    · rw [zero_mul, sub_zero]
      rw [hab.2, zero_sub, abs_neg] at b1
      linarith
  have cr := cos_ratan2 b a hab
  have sr := sin_ratan2 b a
  have t1 := ht hab
  have h1 : |ψ - (ratan2 b a + k * (2 * Real.pi))| ≤ 19 * u := by
    have := near_trans hψ (show |t + k * (2 * Real.pi) - (ratan2 b a + k * (2 * Real.pi))| ≤ 8 * u by rw [add_sub_add_right_eq_sub]; exact t1)
    linarith
  have c1 := (Real.abs_cos_sub_cos_le ψ (ratan2 b a + k * (2 * Real.pi))).trans h1
  have s1 := (Real.abs_sin_sub_sin_le ψ (ratan2 b a + k * (2 * Real.pi))).trans h1
  rw [Real.cos_add_int_mul_two_pi] at c1
  rw [Real.sin_add_int_mul_two_pi] at s1
  have N1 : 0 < a ^ 2 + b ^ 2 := by
    rcases not_and_or.1 hab with h | h
    · have := sq_pos_of_ne_zero h
      positivity
    · have := sq_pos_of_ne_zero h
      positivity
  have N2 := Real.sqrt_pos.2 N1
  have N3 : Real.sqrt (a ^ 2 + b ^ 2) ≤ |a| + |b| := by
    rw [Real.sqrt_le_left (by positivity)]
    have e : (|a| + |b|) ^ 2 = a ^ 2 + b ^ 2 + 2 * (|a| * |b|) := by
      rw [add_sq, sq_abs, sq_abs]
      ring
    rw [e]
    have : 0 ≤ |a| * |b| := by positivity
    linarith
  generalize Real.sqrt (a ^ 2 + b ^ 2) = ρ at *
  have ρ1 : |ρ| ≤ 2.1 * M := by
    rw [abs_of_pos N2]
    linarith
  rw [eq_div_iff N2.ne'] at cr sr
  refine ⟨ρ, N2.le, ρ1, ?_, ?_⟩
  · have k1 : |ρ * Real.cos (ratan2 b a) - ρ * Real.cos ψ| ≤ 2.1 * M * (19 * u) := by
      rw [← mul_sub, abs_mul, abs_sub_comm (Real.cos _)]
      exact mul_le_mul ρ1 c1 (abs_nonneg _) (by linarith)
    rw [mul_comm ρ (Real.cos (ratan2 b a)), cr] at k1
    rw [abs_sub_comm] at a1
    have := near_trans a1 k1
    linarith
  · have k1 : |ρ * Real.sin (ratan2 b a) - ρ * Real.sin ψ| ≤ 2.1 * M * (19 * u) := by
      rw [← mul_sub, abs_mul, abs_sub_comm (Real.sin _)]
      exact mul_le_mul ρ1 s1 (abs_nonneg _) (by linarith)
    rw [mul_comm ρ (Real.sin (ratan2 b a)), sr] at k1
    rw [abs_sub_comm] at b1
    have := near_trans b1 k1
    linarith

/-- the factor that makes the length 1 -/
theorem factor_error {u η c s C S c2 s2 v w n : ℝ} (hu : 0 ≤ u) (u1 : u ≤ 1 / 1000000) (hηu : 100 * η ≤ u) (hCS : S ^ 2 + C ^ 2 = 1)
    (hc : |c - C| ≤ 10 * u) (hs : |s - S| ≤ 10 * u) (hc2 : |c2 - c * c| ≤ u * |c * c| + η) (hs2 : |s2 - s * s| ≤ u * |s * s| + η)
    (hv : |v - (c2 + s2)| ≤ u * |c2 + s2| + η) (hw : |w - Real.sqrt v| ≤ u * |Real.sqrt v| + η) (hn : |n - 1 / w| ≤ u * |1 / w| + η) :
    0 ≤ v ∧ 0 < w ∧ |v - 1| ≤ 50 * u ∧ |w - 1| ≤ 55 * u ∧ |n - 1| ≤ 60 * u := by
  have C1 : |C| ≤ 1 := abs_le_one_of_sq_add_sq hCS
  have S1 : |S| ≤ 1 := abs_le_one_of_sq_add_sq (a := S) (b := C) (by linarith)
  have uu : u * u ≤ 1 / 1000000 * u := mul_le_mul_of_nonneg_right u1 hu
  have sq : ∀ {a A b : ℝ}, |A| ≤ 1 → |a - A| ≤ 10 * u → |b - a * a| ≤ u * |a * a| + η → |b - A ^ 2| ≤ 22 * u := fun {a A b} hA h hb => by
    have e := prod_error h h
    have a1 := abs_near h
    have k1 := mul_le_mul_of_nonneg_left (a1.trans (add_le_add_left hA _)) (show 0 ≤ 10 * u by linarith)
    have k2 := mul_le_mul_of_nonneg_right hA (show 0 ≤ 10 * u by linarith)
    have e' : |a * a - A ^ 2| ≤ 20.1 * u := by rw [sq A]; linarith
    have a2 : |a * a| ≤ 1.1 := by
      rw [abs_mul]
      have : |a| ≤ 1.01 := by linarith
      calc |a| * |a| ≤ 1.01 * 1.01 := mul_le_mul this this (abs_nonneg _) (by norm_num)
        _ ≤ _ := by norm_num
    have k3 := mul_le_mul_of_nonneg_left a2 hu
    have := near_trans hb e'
    linarith
  have e1 := sq C1 hc hc2
  have e2 := sq S1 hs hs2
  have e3 : |c2 + s2 - 1| ≤ 44 * u := by
    rw [show c2 + s2 - 1 = (c2 - C ^ 2) + (s2 - S ^ 2) by linarith]
    exact (abs_add_le _ _).trans (by linarith)
  have e4 := abs_near e3
  rw [abs_one] at e4
  have e5 := mul_le_mul_of_nonneg_left e4 hu
  have hv1 : |v - 1| ≤ 50 * u := by
    have := near_trans hv e3
    linarith
  have v0 : 0.9 ≤ v := by
    rw [abs_le] at hv1
    linarith
  have q1 : |Real.sqrt v - 1| ≤ 50 * u := by
    have r0 := Real.sqrt_nonneg v
    have r1 := Real.sq_sqrt (show 0 ≤ v by linarith)
    generalize Real.sqrt v = q at *
    have e : v - 1 = (q + 1) * (q - 1) := by rw [← r1]; ring
    rw [e, abs_mul, abs_of_pos (by linarith : 0 < q + 1)] at hv1
    have := mul_le_mul_of_nonneg_right (show (1 : ℝ) ≤ q + 1 by linarith) (abs_nonneg (q - 1))
    linarith
  have q2 := abs_near q1
  rw [abs_one] at q2
  have q3 := mul_le_mul_of_nonneg_left q2 hu
  have w1 : |w - 1| ≤ 51.1 * u := by
    have := near_trans hw q1
    linarith
  have w0 : 0.99 ≤ w := by
    rw [abs_le] at w1
    linarith
  have wp : 0 < w := by linarith
  have i1 : |1 / w - 1| ≤ 52 * u := by
    rw [show 1 / w - 1 = (1 - w) / w by field_simp, abs_div, abs_of_pos wp, div_le_iff₀ wp, abs_sub_comm]
    have := mul_le_mul_of_nonneg_left w0 (show 0 ≤ 52 * u by linarith)
    linarith
  have i2 := abs_near i1
  rw [abs_one] at i2
  have i3 := mul_le_mul_of_nonneg_left i2 hu
  refine ⟨by linarith, wp, hv1, by linarith, ?_⟩
  have := near_trans hn i1
  linarith

theorem scaled_error {u η c C n x : ℝ} (hu : 0 ≤ u) (u1 : u ≤ 1 / 1000000) (hηu : 100 * η ≤ u) (hC : |C| ≤ 1)
    (hc : |c - C| ≤ 10 * u) (hn : |n - 1| ≤ 60 * u) (hx : |x - c * n| ≤ u * |c * n| + η) : |x - C| ≤ 75 * u := by
  have uu : u * u ≤ 1 / 1000000 * u := mul_le_mul_of_nonneg_right u1 hu
  have e := prod_error hc hn
  rw [mul_one] at e
  have n1 := abs_near hn
  rw [abs_one] at n1
  have k1 := mul_le_mul_of_nonneg_left n1 (show 0 ≤ 10 * u by linarith)
  have k2 := mul_le_mul_of_nonneg_right hC (show 0 ≤ 60 * u by linarith)
  have e1 : |c * n - C| ≤ 71 * u := by linarith
  have k3 := mul_le_mul_of_nonneg_left (abs_near e1) hu
  have k4 := mul_le_mul_of_nonneg_left hC hu
  have := near_trans hx e1
  linarith

/-- the distance of the centre from the new reference point -/
theorem radius_error {u η M X Y A B q r c s ψ δ ρ σ m1 m2 w drp : ℝ} (hu : 0 ≤ u) (u1 : u ≤ 1 / 1000000) (hu2 : u = 1 / 2 ^ 53)
    (hηM : 1000 * η ≤ u * M) (hM : 0 ≤ M) (hX : |X| ≤ 1.01 * M) (hY : |Y| ≤ 1.01 * M) (hq : |q| ≤ M)
    (hr : |r - q| ≤ u * |q| + η) (hA : |A - X| ≤ u * |X| + η) (hB : |B - Y| ≤ u * |Y| + η) (hσ : |σ| = 1) (hσ2 : σ * σ = 1) (hρ : |ρ| ≤ 2.1 * M)
    (h1 : |σ * X - ρ * Real.cos ψ| ≤ 42 * (u * M)) (h2 : |σ * Y - ρ * Real.sin ψ| ≤ 42 * (u * M)) (hδ : |δ| ≤ 1 / 2 ^ 22)
    (hc : |c - Real.cos (ψ + δ)| ≤ 75 * u) (hs : |s - Real.sin (ψ + δ)| ≤ 75 * u)
    (hm1 : |m1 - A * c| ≤ u * |A * c| + η) (hm2 : |m2 - B * s| ≤ u * |B * s| + η) (hw : |w - (m1 + m2)| ≤ u * |m1 + m2| + η)
    (hdrp : |drp - (w - r)| ≤ u * |w - r| + η) : |drp + q - σ * ρ| ≤ 900 * (u * M) := by
  have uM : 0 ≤ u * M := mul_nonneg hu hM
  have uuM : u * (u * M) ≤ 1 / 1000000 * (u * M) := mul_le_mul_of_nonneg_right u1 uM
  have uM1 : u * M ≤ 1 / 1000000 * M := mul_le_mul_of_nonneg_right u1 hM
  have term : ∀ {X A c C m : ℝ}, |X| ≤ 1.01 * M → |C| ≤ 1 → |A - X| ≤ u * |X| + η → |c - C| ≤ 75 * u → |m - A * c| ≤ u * |A * c| + η →
      |m - X * C| ≤ 79 * (u * M) ∧ |X * C| ≤ 1.01 * M := fun {X A c C m} hX hC hA hc hm => by
    have k0 := mul_le_mul_of_nonneg_left hX hu
    have hA' : |A - X| ≤ 1.1 * (u * M) := by linarith
    have e := prod_error hA' hc
    have c1 : |c| ≤ 1.1 := by
      have := abs_near hc
      linarith
    have k1 := mul_le_mul_of_nonneg_left c1 (show 0 ≤ 1.1 * (u * M) by linarith)
    have k2 := mul_le_mul_of_nonneg_right hX (show 0 ≤ 75 * u by linarith)
    have e1 : |A * c - X * C| ≤ 77.5 * (u * M) := by linarith
    have XC : |X * C| ≤ 1.01 * M := by
      rw [abs_mul]
      exact (mul_le_of_le_one_right (abs_nonneg _) hC).trans hX
    have k3 := mul_le_mul_of_nonneg_left (abs_near e1) hu
    have k4 := mul_le_mul_of_nonneg_left XC hu
    have := near_trans hm e1
    exact ⟨by linarith, XC⟩
  obtain ⟨t1, t1'⟩ := term hX (Real.abs_cos_le_one _) hA hc hm1
  obtain ⟨t2, t2'⟩ := term hY (Real.abs_sin_le_one _) hB hs hm2
  have e1 : |m1 + m2 - (X * Real.cos (ψ + δ) + Y * Real.sin (ψ + δ))| ≤ 158 * (u * M) := by
    rw [add_sub_add_comm]
    exact (abs_add_le _ _).trans (by linarith)
  have e2 := abs_near e1
  have e3 := abs_add_le (X * Real.cos (ψ + δ)) (Y * Real.sin (ψ + δ))
  have e4 : |m1 + m2| ≤ 2.1 * M := by linarith
  have e5 := mul_le_mul_of_nonneg_left e4 hu
  have r1 : |r - q| ≤ 1.01 * (u * M) := by
    have := mul_le_mul_of_nonneg_left hq hu
    linarith
  have e6 : |w - (m1 + m2)| ≤ 2.2 * (u * M) := by linarith
  have e7 : |w - r| ≤ 3.2 * M := by
    have := abs_near e6
    have := abs_near r1
    exact (abs_sub _ _).trans (by linarith)
  have e8 := mul_le_mul_of_nonneg_left e7 hu
  have e9 : |drp - (w - r)| ≤ 3.3 * (u * M) := by linarith
  -- the exact distance
  have f1 : |(X * Real.cos (ψ + δ) + Y * Real.sin (ψ + δ)) - σ * ρ * Real.cos δ| ≤ 84 * (u * M) := by
    have id : (X * Real.cos (ψ + δ) + Y * Real.sin (ψ + δ)) - σ * ρ * Real.cos δ =
        σ * ((σ * X - ρ * Real.cos ψ) * Real.cos (ψ + δ) + (σ * Y - ρ * Real.sin ψ) * Real.sin (ψ + δ)) := by
      have c1 : Real.cos δ = Real.cos (ψ + δ) * Real.cos ψ + Real.sin (ψ + δ) * Real.sin ψ := by
        rw [← Real.cos_sub, add_sub_cancel_left]
      rw [c1]
      linear_combination (-(X * Real.cos (ψ + δ)) - Y * Real.sin (ψ + δ)) * hσ2
    rw [id, abs_mul, hσ, one_mul]
    refine (abs_add_le _ _).trans ?_
    rw [abs_mul, abs_mul]
    have := mul_le_of_le_one_right (abs_nonneg (σ * X - ρ * Real.cos ψ)) (Real.abs_cos_le_one (ψ + δ))
    have := mul_le_of_le_one_right (abs_nonneg (σ * Y - ρ * Real.sin ψ)) (Real.abs_sin_le_one (ψ + δ))
    linarith
  have f2 : |σ * ρ * Real.cos δ - σ * ρ| ≤ 540 * (u * M) := by
    rw [show σ * ρ * Real.cos δ - σ * ρ = σ * ρ * (Real.cos δ - 1) by ring, abs_mul, abs_mul, hσ, one_mul]
    have g1 := Real.one_sub_sq_div_two_le_cos (x := δ)
    have g2 := Real.cos_le_one δ
    have g3 : δ ^ 2 ≤ 512 * u := by
      have := pow_le_pow_left₀ (abs_nonneg δ) hδ 2
      rw [sq_abs] at this
      rw [hu2]
      norm_num at this ⊢
      linarith
    have g4 : |Real.cos δ - 1| ≤ 256 * u := by
      rw [abs_le]
      constructor <;> linarith
    have := mul_le_mul hρ g4 (abs_nonneg _) (by linarith)
    linarith
  have g : drp + q - σ * ρ = (drp - (w - r)) + (w - (m1 + m2)) + (m1 + m2 - (X * Real.cos (ψ + δ) + Y * Real.sin (ψ + δ))) +
      ((X * Real.cos (ψ + δ) + Y * Real.sin (ψ + δ)) - σ * ρ * Real.cos δ) + (σ * ρ * Real.cos δ - σ * ρ) - (r - q) := by ring
  rw [g]
  refine (abs_sub _ _).trans ?_
  have h3 := abs_add_le ((drp - (w - r)) + (w - (m1 + m2)) + (m1 + m2 - (X * Real.cos (ψ + δ) + Y * Real.sin (ψ + δ))) +
      ((X * Real.cos (ψ + δ) + Y * Real.sin (ψ + δ)) - σ * ρ * Real.cos δ)) (σ * ρ * Real.cos δ - σ * ρ)
  have h4 := abs_add_le ((drp - (w - r)) + (w - (m1 + m2)) + (m1 + m2 - (X * Real.cos (ψ + δ) + Y * Real.sin (ψ + δ))))
      ((X * Real.cos (ψ + δ) + Y * Real.sin (ψ + δ)) - σ * ρ * Real.cos δ)
  have h5 := abs_add_le ((drp - (w - r)) + (w - (m1 + m2))) (m1 + m2 - (X * Real.cos (ψ + δ) + Y * Real.sin (ψ + δ)))
  have h6 := abs_add_le (drp - (w - r)) (w - (m1 + m2))
  linarith

/-- a coordinate of the centre from the new parameters -/
theorem back_error {u M X σ ρ ψc sφ D : ℝ} (hu : 0 ≤ u) (hM : 0 ≤ M) (hσ : |σ| = 1) (hσ2 : σ * σ = 1)
    (hρ : |ρ| ≤ 2.1 * M) (h1 : |σ * X - ρ * ψc| ≤ 42 * (u * M)) (hD : |D - σ * ρ| ≤ 900 * (u * M)) (hs : |sφ - ψc| ≤ 25 * u) (hs1 : |sφ| ≤ 1) :
    |D * sφ - X| ≤ 1000 * (u * M) := by
  have uM : 0 ≤ u * M := mul_nonneg hu hM
  have e := prod_error hD hs
  have k1 := mul_le_mul_of_nonneg_left hs1 (show 0 ≤ 900 * (u * M) by linarith)
  rw [abs_mul, hσ, one_mul] at e
  have k2 := mul_le_mul_of_nonneg_right hρ (show 0 ≤ 25 * u by linarith)
  have id : σ * ρ * ψc - X = -σ * (σ * X - ρ * ψc) := by linear_combination X * hσ2
  have f : |σ * ρ * ψc - X| ≤ 42 * (u * M) := by
    rw [id, abs_mul, abs_neg, hσ, one_mul]
    exact h1
  have := near_trans e f
  linarith

/-- the height of the moved track -/
theorem height_error {u η rz vz z q tl f r a b p m z' : ℝ} (hu : 0 ≤ u) (u1 : u ≤ 1 / 1000000) (hη : 0 ≤ η) (hf : |f| ≤ 3.15)
    (hr : |r - q| ≤ u * |q| + η) (ha : |a - (rz - vz)| ≤ u * |rz - vz| + η) (hb : |b - (a + z)| ≤ u * |a + z| + η)
    (hp : |p - r * tl| ≤ u * |r * tl| + η) (hm : |m - p * f| ≤ u * |p * f| + η) (hz : |z' - (b - m)| ≤ u * |b - m| + η) :
    |z' - (rz - vz + z - q * tl * f)| ≤ 20 * (u * (|rz| + |vz| + |z| + |q * tl|)) + 20 * (η * (1 + |tl|)) := by
  have t0 := abs_nonneg tl
  have ηt : 0 ≤ η * |tl| := mul_nonneg hη t0
  have uη : u * η ≤ 1 / 1000000 * η := mul_le_mul_of_nonneg_right u1 hη
  have uηt : u * (η * |tl|) ≤ 1 / 1000000 * (η * |tl|) := mul_le_mul_of_nonneg_right u1 ηt
  -- the first part
  have A := abs_sub rz vz
  have uA := mul_le_mul_of_nonneg_left A hu
  have Z0 := mul_nonneg hu (abs_nonneg z)
  have UA : 0 ≤ u * (|rz| + |vz|) := by positivity
  have uuA : u * (u * (|rz| + |vz|)) ≤ 1 / 1000000 * (u * (|rz| + |vz|)) := mul_le_mul_of_nonneg_right u1 UA
  have uuz : u * (u * |z|) ≤ 1 / 1000000 * (u * |z|) := mul_le_mul_of_nonneg_right u1 Z0
  have a1 : |a + z - (rz - vz + z)| ≤ u * (|rz| + |vz|) + η := by rw [add_sub_add_right_eq_sub]; linarith
  have a2 := abs_near a1
  have a3 : |rz - vz + z| ≤ |rz| + |vz| + |z| := (abs_add_le _ _).trans (by linarith)
  have a4 := mul_le_mul_of_nonneg_left (a2.trans (add_le_add_left a3 _)) hu
  have b1 : |b - (rz - vz + z)| ≤ 2.1 * (u * (|rz| + |vz|)) + 1.1 * (u * |z|) + 2.1 * η := by
    have := near_trans hb a1
    linarith
  -- the second part
  have Q0 := abs_nonneg (q * tl)
  have UQ : 0 ≤ u * |q * tl| := mul_nonneg hu Q0
  have uuQ : u * (u * |q * tl|) ≤ 1 / 1000000 * (u * |q * tl|) := mul_le_mul_of_nonneg_right u1 UQ
  have p1 : |r * tl - q * tl| ≤ u * |q * tl| + η * |tl| := by
    rw [← sub_mul, abs_mul, abs_mul]
    have := mul_le_mul_of_nonneg_right hr t0
    linarith
  have p2 := mul_le_mul_of_nonneg_left (abs_near p1) hu
  have p3 : |p - q * tl| ≤ 2.1 * (u * |q * tl|) + 1.1 * (η * |tl|) + η := by
    have := near_trans hp p1
    linarith
  have p4 : |p * f - q * tl * f| ≤ 6.7 * (u * |q * tl|) + 3.5 * (η * |tl|) + 3.2 * η := by
    rw [← sub_mul, abs_mul]
    have := mul_le_mul p3 hf (abs_nonneg _) (by linarith)
    linarith
  have p5 : |q * tl * f| ≤ 3.15 * |q * tl| := by
    rw [abs_mul]
    have := mul_le_mul_of_nonneg_left hf Q0
    linarith
  have p6 := mul_le_mul_of_nonneg_left ((abs_near p4).trans (add_le_add_left p5 _)) hu
  have m1 : |m - q * tl * f| ≤ 9.9 * (u * |q * tl|) + 3.6 * (η * |tl|) + 4.3 * η := by
    have := near_trans hm p4
    linarith
  have e1 : |b - m - (rz - vz + z - q * tl * f)| ≤ 2.1 * (u * (|rz| + |vz|)) + 1.1 * (u * |z|) + 9.9 * (u * |q * tl|) + 3.6 * (η * |tl|) + 6.4 * η := by
    rw [sub_sub_sub_comm]
    exact (abs_sub _ _).trans (by linarith)
  have e2 : |rz - vz + z - q * tl * f| ≤ |rz| + |vz| + |z| + 3.15 * |q * tl| := (abs_sub _ _).trans (by linarith)
  have e3 := mul_le_mul_of_nonneg_left ((abs_near e1).trans (add_le_add_left e2 _)) hu
  have := near_trans hz e1
  linarith

end Rnd

end Verif
