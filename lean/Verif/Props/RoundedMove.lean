import Verif.Lemmas.RoundedMove
import Verif.Props.RoundedPath

/-!
# Moved tracks in double precision: C137
-/

open Classical

noncomputable section

namespace Verif

open Dbl Rnd Rounded

variable {fl : ℝ → ℝ} {lm : Libm} {at2 : ℝ → ℝ → ℝ}

/-- rounding keeps the order with numbers of the type -/
theorem fl_mem (h : NearestF 53 1074 fl) {x a b : ℝ} (ha : RepF 53 1074 a) (hb : RepF 53 1074 b) (h1 : a ≤ x) (h2 : x ≤ b) :
    a ≤ fl x ∧ fl x ≤ b := by
  have n1 := h.near x a ha
  have n2 := h.near x b hb
  rw [abs_of_nonpos (sub_nonpos.2 h1)] at n1
  rw [abs_of_nonneg (sub_nonneg.2 h2)] at n2
  rw [abs_le] at n1 n2
  constructor <;> linarith

theorem repF_twoPi : RepF 53 1074 (2 * mPi) := rep_two
theorem repF_mPi : RepF 53 1074 mPi := rep_pi
theorem repF_halfPi : RepF 53 1074 (mPi / 2) := rep_half
theorem repF_fivePi : RepF 53 1074 (5 / 2 * mPi) := rep_dyadic 4421398595017775 49 (by norm_num) (by norm_num) (by unfold mPi; norm_num)

theorem rnd_small (h : NearestF 53 1074 fl) {t : ℝ} (ht : |t| ≤ 100) : rnd fl 1024 (fin t) = fin (fl t) :=
  rnd_double h (ht.trans (by
    calc (100 : ℝ) ≤ 2 ^ 7 := by norm_num
      _ ≤ _ := pow_le_pow_right₀ (by norm_num) (by norm_num)))

theorem twoPiD_eq (h : NearestF 53 1074 fl) : twoPiD fl = fin (2 * mPi) := by
  obtain ⟨-, -, p3, p4⟩ := mPi_bounds
  rw [twoPiD, mulD, ofNat_eq, fin_mul]
  rw [rnd_small h (abs_le.2 ⟨by linarith, by linarith⟩), h.fix repF_twoPi]

theorem halfPiD_eq (h : NearestF 53 1074 fl) : divD fl (fin mPi) 2 = fin (mPi / 2) := by
  obtain ⟨-, -, p3, p4⟩ := mPi_bounds
  rw [divD, ofNat_eq, fin_div _ (by norm_num)]
  rw [rnd_small h (abs_le.2 ⟨by linarith, by linarith⟩), h.fix repF_halfPi]

/-- errors for numbers that are not large -/
theorem err_small (h : NearestF 53 1074 fl) {t B : ℝ} (ht : |t| ≤ B) : |fl t - t| ≤ 1 / 2 ^ 53 * (B + 1 / 100) := by
  have e := err_double h t
  have v0 : (0 : ℝ) ≤ 1 / 2 ^ 53 := by positivity
  have k := mul_le_mul_of_nonneg_left ht v0
  have η : (1 : ℝ) / 2 ^ 1075 ≤ 1 / 2 ^ 53 * (1 / 100) := by
    rw [show (2 : ℝ) ^ 1075 = 2 ^ 53 * 2 ^ 1022 by rw [← pow_add], ← one_div_mul_one_div]
    refine mul_le_mul_of_nonneg_left ?_ v0
    refine one_div_le_one_div_of_le (by norm_num) ?_
    calc (100 : ℝ) ≤ 2 ^ 7 := by norm_num
      _ ≤ _ := pow_le_pow_right₀ (by norm_num) (by norm_num)
  generalize (1 : ℝ) / 2 ^ 1075 = η at *
  linarith

theorem loop_skip {cond : Dbl → Prop} {step : Dbl → Dbl} {a : Dbl} (h : ¬ cond a) : whileLoop cond step a = .ok a := whileLoop_of_not h

theorem loop_once {cond : Dbl → Prop} {step : Dbl → Dbl} {a b : Dbl} (h : cond a) (hb : step a = b) (hn : ¬ cond b) :
    whileLoop cond step a = .ok b := by
  rw [whileLoop_of_cond h, hb, whileLoop_of_not hn]

/-- the loops for angles of less than one turn -/
theorem norm02D_ok (h : NearestF 53 1074 fl) {a : ℝ} (h1 : -(2 * mPi) ≤ a) (h2 : a ≤ 2 * mPi) :
    ∃ (b : ℝ) (k : ℤ), norm02D fl (fin a) = .ok (fin b) ∧ 0 ≤ b ∧ b ≤ 2 * mPi ∧ |b - (a + k * (2 * Real.pi))| ≤ 11 * (1 / 2 ^ 53) := by
  obtain ⟨pd, p2, p3, p4⟩ := mPi_bounds
  rw [norm02D]
  by_cases ha : a < 0
  · have r := fl_mem h repF_zero repF_twoPi (x := a + 2 * mPi) (by linarith) (by linarith)
    have sz : |a + 2 * mPi| ≤ 6.3 := abs_le.2 ⟨by linarith, by linarith⟩
    refine ⟨fl (a + 2 * mPi), 1, ?_, r.1, r.2, ?_⟩
    · rw [loop_once (cond := fun x : Dbl => x < 0) (b := fin (fl (a + 2 * mPi))) (by rw [zero_eq, fin_lt]; exact ha)
        (by rw [addD, twoPiD_eq h, fin_add, rnd_small h (sz.trans (by norm_num))]) (by rw [zero_eq, fin_lt]; linarith [r.1])]
      exact loop_skip (cond := fun x : Dbl => twoPiD fl < x) (by rw [twoPiD_eq h, fin_lt]; linarith [r.2])
    · have e := err_small h sz
      have e2 : |a + 2 * mPi - (a + (1 : ℤ) * (2 * Real.pi))| ≤ 4 * (1 / 2 ^ 53) := by
        rw [Int.cast_one, show a + 2 * mPi - (a + 1 * (2 * Real.pi)) = 2 * (mPi - Real.pi) by ring, abs_mul, abs_two]
        linarith
      have := near_trans e e2
      refine this.trans ?_
      norm_num
  · refine ⟨a, 0, ?_, not_lt.1 ha, h2, ?_⟩
    · rw [loop_skip (cond := fun x : Dbl => x < 0) (by rw [zero_eq, fin_lt]; exact ha)]
      exact loop_skip (cond := fun x : Dbl => twoPiD fl < x) (by rw [twoPiD_eq h, fin_lt]; linarith)
    · simp

theorem eta_100 : 100 * ((1 : ℝ) / 2 ^ 1075) ≤ 1 / 2 ^ 53 := by
  rw [mul_one_div, div_le_div_iff₀ (by positivity) (by positivity), one_mul, show (2 : ℝ) ^ 1075 = 2 ^ 1022 * 2 ^ 53 by rw [← pow_add]]
  refine mul_le_mul_of_nonneg_right ?_ (by positivity)
  calc (100 : ℝ) ≤ 2 ^ 7 := by norm_num
    _ ≤ _ := pow_le_pow_right₀ (by norm_num) (by norm_num)

/-- cosine and sine in `moveHelixTo` -/
theorem pair_ok (h : NearestF 53 1074 fl) (hl : IsLibm lm) {t : ℝ} (h1 : 0 ≤ t) (h2 : t ≤ 2 * mPi) :
    ∃ c s δ : ℝ, cosD lm (fin t) = fin c ∧ sineD fl (fin t) (fin c) = fin s ∧ |δ| ≤ 1 / 2 ^ 22 ∧ |δ| * |Real.sin t| ≤ 40 * (1 / 2 ^ 53) ∧
      |c - Real.cos (t + δ)| ≤ 10 * (1 / 2 ^ 53) ∧ |s - Real.sin (t + δ)| ≤ 10 * (1 / 2 ^ 53) := by
  have η0 : (0 : ℝ) ≤ 1 / 2 ^ 1075 := by positivity
  have v0 : (0 : ℝ) ≤ 1 / 2 ^ 53 := by positivity
  have v1 : (1 : ℝ) / 2 ^ 53 ≤ 1 / 1000000 := by norm_num
  have hc : |lm.cos t - Real.cos t| ≤ 3 * (1 / 2 ^ 53) := by
    have e := lib_err (hl.cos_err t)
    have k := mul_le_mul_of_nonneg_left (Real.abs_cos_le_one t) v0
    have := eta_100
    generalize (1 : ℝ) / 2 ^ 1075 = η at *
    generalize (1 : ℝ) / 2 ^ 53 = v at *
    linarith
  have c1 : |lm.cos t| ≤ 1 + 3 * (1 / 2 ^ 53) := (abs_near hc).trans (add_le_add_left (Real.abs_cos_le_one t) _)
  have c2 : |lm.cos t| ≤ 2 := c1.trans (by norm_num)
  generalize hcc : lm.cos t = c at *
  have a1 : |1 - c| ≤ 3 := (abs_sub _ _).trans (by rw [abs_one]; linarith)
  have b1 : |1 + c| ≤ 3 := (abs_add_le _ _).trans (by rw [abs_one]; linarith)
  have ab : |fl (1 - c) * fl (1 + c)| ≤ 36 := by
    rw [abs_mul]
    have := h.double (1 - c)
    have := h.double (1 + c)
    calc |fl (1 - c)| * |fl (1 + c)| ≤ 6 * 6 := mul_le_mul (by linarith) (by linarith) (abs_nonneg _) (by norm_num)
      _ = _ := by norm_num
  have hw := product_error v0 v1 η0 eta_100 c1 (err_double h _) (err_double h _) (err_double h (fl (1 - c) * fl (1 + c)))
  have wb := h.double (fl (1 - c) * fl (1 + c))
  generalize hww : fl (fl (1 - c) * fl (1 + c)) = w at *
  have m0 : 0 ≤ max 0 w := le_max_left _ _
  have m1 : max 0 w ≤ 72 := max_le (by norm_num) (by rw [abs_le] at wb; linarith [wb.2])
  have q0 := Real.sqrt_nonneg (max 0 w)
  have q1 : |Real.sqrt (max 0 w)| ≤ 100 := by
    rw [abs_of_nonneg q0, Real.sqrt_le_left (by norm_num)]
    linarith
  have hs := err_double h (Real.sqrt (max 0 w))
  have hs0 : 0 ≤ fl (Real.sqrt (max 0 w)) := by
    have := h.near (Real.sqrt (max 0 w)) 0 repF_zero
    rw [zero_sub, abs_neg, abs_of_nonneg q0, abs_le] at this
    linarith [this.1]
  rw [abs_of_nonneg q0] at hs
  obtain ⟨δ, d1, d4, d2, d3⟩ := sine_error eta_100 rfl h1 h2 hc hw hs hs0
  refine ⟨c, _, δ, by rw [cosD, hcc], ?_, d1, d4, d2, d3⟩
  rw [sineD]
  simp only [subD, addD, mulD, one_eq, zero_eq, fin_sub, fin_add]
  rw [rnd_small h (a1.trans (by norm_num)), rnd_small h (b1.trans (by norm_num)), fin_mul, rnd_small h (ab.trans (by norm_num)), hww, max_fin,
    sqrtD, sqrt_fin m0, rnd_small h q1]
  by_cases hp : mPi < t
  · rw [cif_pos (by rw [fin_lt]; exact hp), if_pos hp, fin_neg]
  · rw [cif_neg (by rw [fin_lt]; exact hp), if_neg hp]

/-- the angle between the points of closest approach -/
theorem fid_ok (h : NearestF 53 1074 fl) {t ψ : ℝ} (t1 : 0 ≤ t) (t2 : t ≤ 2 * mPi) (p1 : 0 ≤ ψ) (p2 : ψ ≤ 2 * mPi) :
    ∃ (f g : ℝ) (k : ℤ), norm02D fl (subD fl (fin ψ) (fin t)) = .ok (fin f) ∧
      (ifc fin mPi < fin f then subD fl (fin f) (twoPiD fl) else fin f) = fin g ∧ |g| ≤ mPi ∧
      |g - (ψ - t + k * (2 * Real.pi))| ≤ 30 * (1 / 2 ^ 53) := by
  obtain ⟨pd, q2, q3, q4⟩ := mPi_bounds
  have sz : |ψ - t| ≤ 6.3 := abs_le.2 ⟨by linarith, by linarith⟩
  have m := fl_mem h (repF_neg repF_twoPi) repF_twoPi (x := ψ - t) (by linarith) (by linarith)
  obtain ⟨f, k, n1, n2, n3, n4⟩ := norm02D_ok h m.1 m.2
  have e := err_small h sz
  have n5 : |f - (ψ - t + k * (2 * Real.pi))| ≤ 18 * (1 / 2 ^ 53) := by
    have := near_trans n4 (show |fl (ψ - t) + k * (2 * Real.pi) - (ψ - t + k * (2 * Real.pi))| ≤ 1 / 2 ^ 53 * (6.3 + 1 / 100) by
      rw [add_sub_add_right_eq_sub]
      exact e)
    refine this.trans ?_
    norm_num
  refine ⟨f, ?_⟩
  rw [subD, fin_sub, rnd_small h (sz.trans (by norm_num)), n1]
  by_cases hp : mPi < f
  · have sz2 : |f - 2 * mPi| ≤ 3.2 := abs_le.2 ⟨by linarith, by linarith⟩
    have m2 := fl_mem h (repF_neg repF_mPi) repF_zero (x := f - 2 * mPi) (by linarith) (by linarith)
    refine ⟨fl (f - 2 * mPi), k - 1, rfl, ?_, abs_le.2 ⟨m2.1, by linarith⟩, ?_⟩
    · rw [cif_pos (by rw [fin_lt]; exact hp), subD, twoPiD_eq h, fin_sub, rnd_small h (sz2.trans (by norm_num))]
    · have e2 := err_small h sz2
      have e3 : |f - 2 * mPi - (ψ - t + (k - 1 : ℤ) * (2 * Real.pi))| ≤ 22 * (1 / 2 ^ 53) := by
        rw [Int.cast_sub, Int.cast_one, show f - 2 * mPi - (ψ - t + (k - 1) * (2 * Real.pi)) =
          (f - (ψ - t + k * (2 * Real.pi))) - 2 * (mPi - Real.pi) by ring]
        refine (abs_sub _ _).trans ?_
        rw [abs_mul, abs_two]
        linarith
      refine (near_trans e2 e3).trans ?_
      norm_num
  · refine ⟨f, k, rfl, ?_, abs_le.2 ⟨by linarith, not_lt.1 hp⟩, n5.trans ?_⟩
    · rw [cif_neg (by rw [fin_lt]; exact hp)]
    · norm_num

/-- the new azimuth -/
theorem azimuth_ok (h : NearestF 53 1074 fl) {ψ : ℝ} (p1 : 0 ≤ ψ) (p2 : ψ ≤ 2 * mPi) :
    ∃ (x : Dbl) (φ : ℝ) (k : ℤ), whileLoop (fun a : Dbl => a < -(fin mPi)) (fun a => addD fl a (twoPiD fl)) (addD fl (fin ψ) (fin (mPi / 2))) = .ok x ∧
      whileLoop (fun a : Dbl => fin mPi < a) (fun a => subD fl a (twoPiD fl)) x = .ok (fin φ) ∧ |φ| ≤ mPi ∧
      |φ - (ψ + Real.pi / 2 + k * (2 * Real.pi))| ≤ 20 * (1 / 2 ^ 53) := by
  obtain ⟨pd, q2, q3, q4⟩ := mPi_bounds
  have sz : |ψ + mPi / 2| ≤ 7.9 := abs_le.2 ⟨by linarith, by linarith⟩
  have m := fl_mem h repF_zero repF_fivePi (x := ψ + mPi / 2) (by linarith) (by linarith)
  have e := err_small h sz
  have e1 : |fl (ψ + mPi / 2) - (ψ + Real.pi / 2)| ≤ 9 * (1 / 2 ^ 53) := by
    have : |ψ + mPi / 2 - (ψ + Real.pi / 2)| ≤ 1 / 2 ^ 53 := by
      rw [show ψ + mPi / 2 - (ψ + Real.pi / 2) = (mPi - Real.pi) / 2 by ring, abs_div, abs_two]
      linarith
    refine (near_trans e this).trans ?_
    norm_num
  have r : addD fl (fin ψ) (fin (mPi / 2)) = fin (fl (ψ + mPi / 2)) := by
    rw [addD, fin_add, rnd_small h (sz.trans (by norm_num))]
  rw [r]
  generalize fl (ψ + mPi / 2) = x at *
  refine ⟨fin x, ?_⟩
  have l1 : whileLoop (fun a : Dbl => a < -(fin mPi)) (fun a => addD fl a (twoPiD fl)) (fin x) = .ok (fin x) :=
    loop_skip (by rw [fin_neg, fin_lt]; linarith [m.1])
  by_cases hp : mPi < x
  · have sz2 : |x - 2 * mPi| ≤ 3.2 := abs_le.2 ⟨by linarith, by linarith⟩
    have m2 := fl_mem h (repF_neg repF_mPi) repF_mPi (x := x - 2 * mPi) (by linarith) (by linarith)
    refine ⟨fl (x - 2 * mPi), -1, l1, ?_, abs_le.2 m2, ?_⟩
    · exact loop_once (cond := fun a : Dbl => fin mPi < a) (by rw [fin_lt]; exact hp)
        (by rw [subD, twoPiD_eq h, fin_sub, rnd_small h (sz2.trans (by norm_num))]) (by rw [fin_lt]; linarith [m2.2])
    · have e2 := err_small h sz2
      have e3 : |x - 2 * mPi - (ψ + Real.pi / 2 + (-1 : ℤ) * (2 * Real.pi))| ≤ 13 * (1 / 2 ^ 53) := by
        rw [Int.cast_neg, Int.cast_one, show x - 2 * mPi - (ψ + Real.pi / 2 + -1 * (2 * Real.pi)) =
          (x - (ψ + Real.pi / 2)) - 2 * (mPi - Real.pi) by ring]
        refine (abs_sub _ _).trans ?_
        rw [abs_mul, abs_two]
        linarith
      refine (near_trans e2 e3).trans ?_
      norm_num
  · refine ⟨x, 0, l1, ?_, abs_le.2 ⟨by linarith [m.1], not_lt.1 hp⟩, ?_⟩
    · exact loop_skip (by rw [fin_lt]; exact hp)
    · rw [Int.cast_zero, zero_mul, add_zero]
      refine e1.trans ?_
      norm_num

/-- cosine and sine with the length corrected -/
theorem unit_ok (h : NearestF 53 1074 fl) {c s θ : ℝ} (hc : |c - Real.cos θ| ≤ 10 * (1 / 2 ^ 53)) (hs : |s - Real.sin θ| ≤ 10 * (1 / 2 ^ 53)) :
    ∃ n c' s' : ℝ, divD fl 1 (sqrtD fl (addD fl (mulD fl (fin c) (fin c)) (mulD fl (fin s) (fin s)))) = fin n ∧
      mulD fl (fin c) (fin n) = fin c' ∧ mulD fl (fin s) (fin n) = fin s' ∧ |c' - Real.cos θ| ≤ 75 * (1 / 2 ^ 53) ∧
      |s' - Real.sin θ| ≤ 75 * (1 / 2 ^ 53) := by
  have v0 : (0 : ℝ) ≤ 1 / 2 ^ 53 := by positivity
  have v1 : (1 : ℝ) / 2 ^ 53 ≤ 1 / 1000000 := by norm_num
  have c1 := Real.abs_cos_le_one θ
  have s1 := Real.abs_sin_le_one θ
  obtain ⟨f1, f2, f3, f4, f5⟩ := factor_error v0 v1 eta_100 (Real.sin_sq_add_cos_sq θ) hc hs (err_double h _) (err_double h _) (err_double h _)
    (err_double h _) (err_double h _)
  have g1 := scaled_error v0 v1 eta_100 c1 hc f5 (err_double h _)
  have g2 := scaled_error v0 v1 eta_100 s1 hs f5 (err_double h _)
  have cb : |c| ≤ 2 := by
    have := abs_near hc
    linarith
  have sb : |s| ≤ 2 := by
    have := abs_near hs
    linarith
  have cc : |c * c| ≤ 4 := by
    rw [abs_mul]
    calc |c| * |c| ≤ 2 * 2 := mul_le_mul cb cb (abs_nonneg _) (by norm_num)
      _ = _ := by norm_num
  have ss : |s * s| ≤ 4 := by
    rw [abs_mul]
    calc |s| * |s| ≤ 2 * 2 := mul_le_mul sb sb (abs_nonneg _) (by norm_num)
      _ = _ := by norm_num
  have sum : |fl (c * c) + fl (s * s)| ≤ 16 := by
    have := h.double (c * c)
    have := h.double (s * s)
    exact (abs_add_le _ _).trans (by linarith)
  refine ⟨fl (1 / fl (Real.sqrt (fl (fl (c * c) + fl (s * s))))), _, _, ?_, ?_, ?_, g1, g2⟩
  · rw [mulD, mulD, fin_mul, fin_mul, rnd_small h (cc.trans (by norm_num)), rnd_small h (ss.trans (by norm_num)), addD, fin_add,
      rnd_small h (sum.trans (by norm_num)), sqrtD, sqrt_fin f1]
    generalize fl (fl (c * c) + fl (s * s)) = v at *
    have q0 := Real.sqrt_nonneg v
    have v2 : v ≤ 2 := by
      rw [abs_le] at f3
      linarith [f3.2]
    rw [rnd_small h (by
      rw [abs_of_nonneg q0, Real.sqrt_le_left (by norm_num)]
      linarith), divD, one_eq, fin_div _ f2.ne']
    generalize fl (Real.sqrt v) = w at *
    rw [rnd_small h]
    rw [abs_div, abs_one, abs_of_pos f2, div_le_iff₀ f2]
    rw [abs_le] at f4
    linarith [f4.1]
  · rw [mulD, fin_mul, rnd_small h]
    rw [abs_mul]
    have := abs_near f5
    rw [abs_one] at this
    calc |c| * |_| ≤ 2 * 2 := mul_le_mul cb (by linarith) (abs_nonneg _) (by norm_num)
      _ ≤ _ := by norm_num
  · rw [mulD, fin_mul, rnd_small h]
    rw [abs_mul]
    have := abs_near f5
    rw [abs_one] at this
    calc |s| * |_| ≤ 2 * 2 := mul_le_mul sb (by linarith) (abs_nonneg _) (by norm_num)
      _ ≤ _ := by norm_num

/-- the direction from the new reference point to the centre -/
theorem start_ok (h : NearestF 53 1074 fl) {om xc yc xv yv : ℝ} (hom : om ≠ 0) (hx : |xc - xv| ≤ 2 ^ 600) (hy : |yc - yv| ≤ 2 ^ 600) :
    ∃ σ a b : ℝ, (σ = om / |om| ∧ |σ| = 1) ∧ σ * σ = 1 ∧ |a - σ * (xc - xv)| ≤ 1 / 2 ^ 53 * |xc - xv| + 1 / 2 ^ 1075 ∧
      |b - σ * (yc - yv)| ≤ 1 / 2 ^ 53 * |yc - yv| + 1 / 2 ^ 1075 ∧
      (ifc fin om < 0 then atan2D fl at2 (subD fl (fin yv) (fin yc)) (subD fl (fin xv) (fin xc)) else
        (ifc 0 < fin om then atan2D fl at2 (subD fl (fin yc) (fin yv)) (subD fl (fin xc) (fin xv)) else 0)) = fin (at2 b a) := by
  have R : ∀ {t : ℝ}, |t| ≤ 2 ^ 600 → rnd fl 1024 (fin t) = fin (fl t) := fun ht => rnd_double h (size_mono ht (by norm_num))
  have hx' : |xv - xc| ≤ 2 ^ 600 := by rwa [abs_sub_comm]
  have hy' : |yv - yc| ≤ 2 ^ 600 := by rwa [abs_sub_comm]
  rcases lt_or_gt_of_ne hom with ho | ho
  · refine ⟨-1, fl (xv - xc), fl (yv - yc), ⟨by rw [abs_of_neg ho, div_neg, div_self hom], by simp⟩, by norm_num, ?_, ?_, ?_⟩
    · have := err_double h (xv - xc)
      rw [abs_sub_comm xv xc] at this
      rwa [show -1 * (xc - xv) = xv - xc by ring]
    · have := err_double h (yv - yc)
      rw [abs_sub_comm yv yc] at this
      rwa [show -1 * (yc - yv) = yv - yc by ring]
    · rw [cif_pos (by rw [zero_eq, fin_lt]; exact ho)]
      simp only [subD, fin_sub]
      rw [R hx', R hy', atan2D]
  · refine ⟨1, fl (xc - xv), fl (yc - yv), ⟨by rw [abs_of_pos ho, div_self hom], by simp⟩, by norm_num, ?_, ?_, ?_⟩
    · rw [one_mul]
      exact err_double h _
    · rw [one_mul]
      exact err_double h _
    · rw [cif_neg (show ¬ fin om < 0 by rw [zero_eq, fin_lt]; linarith), cif_pos (by rw [zero_eq, fin_lt]; exact ho)]
      simp only [subD, fin_sub]
      rw [R hx, R hy, atan2D]

/-- the given azimuth: cosine and sine are those of an azimuth turned by `δ` -/
theorem given_ok (h : NearestF 53 1074 fl) (hl : IsLibm lm) {ph : ℝ} (hph : -4 ≤ ph ∧ ph ≤ 5) :
    ∃ t c0 s0 δ : ℝ, ∃ k0 : ℤ, norm02D fl (subD fl (fin ph) (fin (mPi / 2))) = .ok (fin t) ∧ 0 ≤ t ∧ t ≤ 2 * mPi ∧
      |t - (ph - Real.pi / 2 + k0 * (2 * Real.pi))| ≤ 18 * (1 / 2 ^ 53) ∧ cosD lm (fin t) = fin c0 ∧ sineD fl (fin t) (fin c0) = fin s0 ∧
      |δ| ≤ 1 / 2 ^ 21 ∧ |δ| * |Real.cos ph| ≤ 100 / 2 ^ 53 ∧ |c0 - Real.sin (ph + δ)| ≤ 10 * (1 / 2 ^ 53) ∧
      |s0 - -Real.cos (ph + δ)| ≤ 10 * (1 / 2 ^ 53) := by
  obtain ⟨pd, q2, q3, q4⟩ := mPi_bounds
  have v0 : (0 : ℝ) ≤ 1 / 2 ^ 53 := by positivity
  -- the old azimuth
  have sz : |ph - mPi / 2| ≤ 5.6 := abs_le.2 ⟨by linarith [hph.1], by linarith [hph.2]⟩
  have e0 := err_small h sz
  have a0 : |fl (ph - mPi / 2)| ≤ 6 := by
    have := abs_near e0
    refine this.trans ?_
    have : (1 : ℝ) / 2 ^ 53 * (5.6 + 1 / 100) ≤ 0.1 := by norm_num
    linarith
  obtain ⟨t, k0, n0, t1, t2, t3⟩ := norm02D_ok h (a := fl (ph - mPi / 2)) (by linarith [(abs_le.1 a0).1]) (by linarith [(abs_le.1 a0).2])
  have t4 : |t - (ph - Real.pi / 2 + k0 * (2 * Real.pi))| ≤ 18 * (1 / 2 ^ 53) := by
    have e1 : |fl (ph - mPi / 2) + k0 * (2 * Real.pi) - (ph - mPi / 2 + k0 * (2 * Real.pi))| ≤ 1 / 2 ^ 53 * (5.6 + 1 / 100) := by
      rw [add_sub_add_right_eq_sub]
      exact e0
    have e2 : |ph - mPi / 2 + k0 * (2 * Real.pi) - (ph - Real.pi / 2 + k0 * (2 * Real.pi))| ≤ 1 / 2 ^ 53 := by
      rw [show ph - mPi / 2 + k0 * (2 * Real.pi) - (ph - Real.pi / 2 + k0 * (2 * Real.pi)) = -((mPi - Real.pi) / 2) by ring, abs_neg, abs_div, abs_two]
      linarith
    refine (near_trans (near_trans t3 e1) e2).trans ?_
    norm_num
  obtain ⟨c0, s0, δ0, p1, p2, p3, p4, p5, p6⟩ := pair_ok h hl t1 t2
  -- the turn of the azimuth
  obtain ⟨ε, hε, eε⟩ : ∃ ε, t = ph - Real.pi / 2 + k0 * (2 * Real.pi) + ε ∧ |ε| ≤ 18 * (1 / 2 ^ 53) :=
    ⟨t - (ph - Real.pi / 2 + k0 * (2 * Real.pi)), by ring, t4⟩
  have cosT : Real.cos (t + δ0) = Real.sin (ph + (δ0 + ε)) := by
    rw [hε, show ph - Real.pi / 2 + k0 * (2 * Real.pi) + ε + δ0 = ph + (δ0 + ε) - Real.pi / 2 + k0 * (2 * Real.pi) by ring,
      Real.cos_add_int_mul_two_pi, Real.cos_sub_pi_div_two]
  have sinT : Real.sin (t + δ0) = -Real.cos (ph + (δ0 + ε)) := by
    rw [hε, show ph - Real.pi / 2 + k0 * (2 * Real.pi) + ε + δ0 = ph + (δ0 + ε) - Real.pi / 2 + k0 * (2 * Real.pi) by ring,
      Real.sin_add_int_mul_two_pi, Real.sin_sub_pi_div_two]
  have sint : |Real.cos ph| ≤ |Real.sin t| + 18 * (1 / 2 ^ 53) := by
    have e1 := Real.abs_sin_sub_sin_le (ph - Real.pi / 2 + k0 * (2 * Real.pi)) t
    rw [Real.sin_add_int_mul_two_pi, Real.sin_sub_pi_div_two, abs_sub_comm _ t] at e1
    have := abs_near (e1.trans t4)
    rwa [abs_neg] at this
  have δb : |δ0 + ε| ≤ 1 / 2 ^ 21 := (abs_add_le _ _).trans ((add_le_add p3 eε).trans (by norm_num))
  have δc : |δ0 + ε| * |Real.cos ph| ≤ 100 / 2 ^ 53 := by
    have k1 := mul_le_mul_of_nonneg_right (abs_add_le δ0 ε) (abs_nonneg (Real.cos ph))
    have k2 := mul_le_mul_of_nonneg_left sint (abs_nonneg δ0)
    have k3 := mul_le_mul eε (Real.abs_cos_le_one ph) (abs_nonneg _) (by positivity)
    have k4 := mul_le_mul_of_nonneg_right (p3.trans (show (1 : ℝ) / 2 ^ 22 ≤ 1 by norm_num)) (show (0 : ℝ) ≤ 18 * (1 / 2 ^ 53) by positivity)
    rw [div_eq_mul_one_div]
    generalize (1 : ℝ) / 2 ^ 53 = v at *
    linarith
  rw [cosT] at p5
  rw [sinT] at p6
  refine ⟨t, c0, s0, δ0 + ε, k0, ?_, t1, t2, t4, p1, p2, δb, δc, p5, p6⟩
  rw [subD, fin_sub, rnd_small h (sz.trans (by norm_num)), n0]

/-- the centre of the circle -/
theorem centre_ok (h : NearestF 53 1074 fl) {om d rx ry c0 s0 C S M : ℝ} (hom : om ≠ 0) (z1 : |1 / om| ≤ 2 ^ 500) (hd : |d| ≤ 2 ^ 200)
    (hrx : |rx| ≤ 2 ^ 200) (hry : |ry| ≤ 2 ^ 200) (p5 : |c0 - C| ≤ 10 * (1 / 2 ^ 53)) (p6 : |s0 - S| ≤ 10 * (1 / 2 ^ 53)) (hC : |C| ≤ 1)
    (hS : |S| ≤ 1) (ηM : 1000 * ((1 : ℝ) / 2 ^ 1075) ≤ 1 / 2 ^ 53 * M) (M1 : |1 / om| + |d| + |rx| ≤ M) (M2 : |1 / om| + |d| + |ry| ≤ M) :
    ∃ r rdr m m' xc yc : ℝ, divD fl 1 (fin om) = fin r ∧ addD fl (fin r) (fin (-d)) = fin rdr ∧ mulD fl (fin rdr) (fin c0) = fin m ∧
      mulD fl (fin rdr) (fin s0) = fin m' ∧ addD fl (fin rx) (fin m) = fin xc ∧ addD fl (fin ry) (fin m') = fin yc ∧ |r| ≤ 2 ^ 502 ∧
      |r - 1 / om| ≤ 1 / 2 ^ 53 * |1 / om| + 1 / 2 ^ 1075 ∧ |xc| ≤ 2 ^ 520 ∧ |yc| ≤ 2 ^ 520 ∧
      |xc - (rx + (1 / om - d) * C)| ≤ 20 * (1 / 2 ^ 53 * M) ∧ |xc| ≤ |rx| + |1 / om| + |d| + 20 * (1 / 2 ^ 53 * M) ∧
      |yc - (ry + (1 / om - d) * S)| ≤ 20 * (1 / 2 ^ 53 * M) ∧ |yc| ≤ |ry| + |1 / om| + |d| + 20 * (1 / 2 ^ 53 * M) := by
  have v0 : (0 : ℝ) ≤ 1 / 2 ^ 53 := by positivity
  have v1 : (1 : ℝ) / 2 ^ 53 ≤ 1 / 1000000 := by norm_num
  have η0 : (0 : ℝ) ≤ 1 / 2 ^ 1075 := by positivity
  have R : ∀ {t : ℝ} {n : ℕ}, |t| ≤ 2 ^ n → n ≤ 1000 → rnd fl 1024 (fin t) = fin (fl t) := fun ht hn => rnd_double h (size_mono ht hn)
  have er := err_double h (1 / om)
  have rr : divD fl 1 (fin om) = fin (fl (1 / om)) := by rw [divD, one_eq, fin_div _ hom, R z1 (by norm_num)]
  have z2 := size_fl h z1
  generalize fl (1 / om) = r at *
  have z3 := size_add z2 (size_mono (show |-d| ≤ 2 ^ 200 by rw [abs_neg]; exact hd) (by norm_num))
  have erd := err_double h (r + -d)
  have rd : addD fl (fin r) (fin (-d)) = fin (fl (r + -d)) := by rw [addD, fin_add, R z3 (by norm_num)]
  have z4 := size_fl h z3
  generalize fl (r + -d) = rdr at *
  have cs0 : |c0| ≤ 2 ^ 1 := by
    have := abs_near p5
    rw [pow_one]
    linarith
  have ss0 : |s0| ≤ 2 ^ 1 := by
    have := abs_near p6
    rw [pow_one]
    linarith
  have z5 := size_mul z4 cs0
  have z5' := size_mul z4 ss0
  have ex1 := err_double h (rdr * c0)
  have ey1 := err_double h (rdr * s0)
  have mx : mulD fl (fin rdr) (fin c0) = fin (fl (rdr * c0)) := by rw [mulD, fin_mul, R z5 (by norm_num)]
  have my : mulD fl (fin rdr) (fin s0) = fin (fl (rdr * s0)) := by rw [mulD, fin_mul, R z5' (by norm_num)]
  have z6 := size_fl h z5
  have z6' := size_fl h z5'
  generalize fl (rdr * c0) = mx' at *
  generalize fl (rdr * s0) = my' at *
  have z7 := size_add (size_mono hrx (by norm_num)) z6
  have z7' := size_add (size_mono hry (by norm_num)) z6'
  have ex2 := err_double h (rx + mx')
  have ey2 := err_double h (ry + my')
  have ax : addD fl (fin rx) (fin mx') = fin (fl (rx + mx')) := by rw [addD, fin_add, R z7 (by norm_num)]
  have ay : addD fl (fin ry) (fin my') = fin (fl (ry + my')) := by rw [addD, fin_add, R z7' (by norm_num)]
  have z8 := size_fl h z7
  have z8' := size_fl h z7'
  generalize fl (rx + mx') = xc at *
  generalize fl (ry + my') = yc at *
  obtain ⟨cx, cx'⟩ := centre_error v0 v1 η0 ηM M1 er erd p5 hC ex1 ex2
  obtain ⟨cy, cy'⟩ := centre_error v0 v1 η0 ηM M2 er erd p6 hS ey1 ey2
  exact ⟨r, rdr, mx', my', xc, yc, rr, rd, mx, my, ax, ay, z2, er, size_mono z8 (by norm_num), size_mono z8' (by norm_num), cx, cx', cy, cy'⟩

/-- the distance of the centre from the new reference point -/
theorem distance_ok (h : NearestF 53 1074 fl) {xc yc xv yv q r c' s' ψ δ1 σ ρ M : ℝ} (z8 : |xc| ≤ 2 ^ 520) (z8' : |yc| ≤ 2 ^ 520) (hxv : |xv| ≤ 2 ^ 200)
    (hyv : |yv| ≤ 2 ^ 200) (z2 : |r| ≤ 2 ^ 502) (er : |r - q| ≤ 1 / 2 ^ 53 * |q| + 1 / 2 ^ 1075) (hq : |q| ≤ M)
    (ηM : 1000 * ((1 : ℝ) / 2 ^ 1075) ≤ 1 / 2 ^ 53 * M) (M0 : 0 ≤ M) (X1 : |xc - xv| ≤ 1.01 * M) (Y1 : |yc - yv| ≤ 1.01 * M) (σ1 : |σ| = 1)
    (σ2 : σ * σ = 1) (ρ1 : |ρ| ≤ 2.1 * M) (ρ2 : |σ * (xc - xv) - ρ * Real.cos ψ| ≤ 42 * (1 / 2 ^ 53 * M))
    (ρ3 : |σ * (yc - yv) - ρ * Real.sin ψ| ≤ 42 * (1 / 2 ^ 53 * M)) (w3 : |δ1| ≤ 1 / 2 ^ 22) (g4 : |c' - Real.cos (ψ + δ1)| ≤ 75 * (1 / 2 ^ 53))
    (g5 : |s' - Real.sin (ψ + δ1)| ≤ 75 * (1 / 2 ^ 53)) :
    ∃ A B m1 m2 w drp : ℝ, subD fl (fin xc) (fin xv) = fin A ∧ subD fl (fin yc) (fin yv) = fin B ∧ mulD fl (fin A) (fin c') = fin m1 ∧
      mulD fl (fin B) (fin s') = fin m2 ∧ addD fl (fin m1) (fin m2) = fin w ∧ subD fl (fin w) (fin r) = fin drp ∧
      |drp + q - σ * ρ| ≤ 900 * (1 / 2 ^ 53 * M) := by
  have v0 : (0 : ℝ) ≤ 1 / 2 ^ 53 := by positivity
  have v1 : (1 : ℝ) / 2 ^ 53 ≤ 1 / 1000000 := by norm_num
  have R : ∀ {t : ℝ} {n : ℕ}, |t| ≤ 2 ^ n → n ≤ 1000 → rnd fl 1024 (fin t) = fin (fl t) := fun ht hn => rnd_double h (size_mono ht hn)
  have z9 := size_sub z8 (size_mono hxv (by norm_num))
  have z9' := size_sub z8' (size_mono hyv (by norm_num))
  have eA := err_double h (xc - xv)
  have eB := err_double h (yc - yv)
  have dA : subD fl (fin xc) (fin xv) = fin (fl (xc - xv)) := by rw [subD, fin_sub, R z9 (by norm_num)]
  have dB : subD fl (fin yc) (fin yv) = fin (fl (yc - yv)) := by rw [subD, fin_sub, R z9' (by norm_num)]
  have z10 := size_fl h z9
  have z10' := size_fl h z9'
  generalize fl (xc - xv) = A at *
  generalize fl (yc - yv) = B at *
  have cs1 : |c'| ≤ 2 ^ 1 := by
    have := abs_near g4
    have := Real.abs_cos_le_one (ψ + δ1)
    rw [pow_one]
    linarith
  have ss1 : |s'| ≤ 2 ^ 1 := by
    have := abs_near g5
    have := Real.abs_sin_le_one (ψ + δ1)
    rw [pow_one]
    linarith
  have z11 := size_mul z10 cs1
  have z11' := size_mul z10' ss1
  have em1 := err_double h (A * c')
  have em2 := err_double h (B * s')
  have pm1 : mulD fl (fin A) (fin c') = fin (fl (A * c')) := by rw [mulD, fin_mul, R z11 (by norm_num)]
  have pm2 : mulD fl (fin B) (fin s') = fin (fl (B * s')) := by rw [mulD, fin_mul, R z11' (by norm_num)]
  have z12 := size_fl h z11
  have z12' := size_fl h z11'
  generalize fl (A * c') = m1 at *
  generalize fl (B * s') = m2 at *
  have z13 := size_add z12 z12'
  have ew := err_double h (m1 + m2)
  have pw : addD fl (fin m1) (fin m2) = fin (fl (m1 + m2)) := by rw [addD, fin_add, R z13 (by norm_num)]
  have z14 := size_fl h z13
  generalize fl (m1 + m2) = w at *
  have z15 := size_sub z14 (size_mono z2 (by norm_num))
  have ed := err_double h (w - r)
  have pdr : subD fl (fin w) (fin r) = fin (fl (w - r)) := by rw [subD, fin_sub, R z15 (by norm_num)]
  generalize fl (w - r) = drp at *
  have rad := radius_error v0 v1 rfl ηM M0 X1 Y1 hq er eA eB σ1 σ2 ρ1 ρ2 ρ3 w3 g4 g5 em1 em2 ew ed
  exact ⟨A, B, m1, m2, w, drp, dA, dB, pm1, pm2, pw, pdr, rad⟩

/-- the height of the moved track -/
theorem height_ok (h : NearestF 53 1074 fl) {rz zv z tl r q f : ℝ} (hrz : |rz| ≤ 2 ^ 200) (hzv : |zv| ≤ 2 ^ 200) (hz : |z| ≤ 2 ^ 200)
    (htl : |tl| ≤ 2 ^ 200) (z2 : |r| ≤ 2 ^ 502) (er : |r - q| ≤ 1 / 2 ^ 53 * |q| + 1 / 2 ^ 1075) (f3 : |f| ≤ 3.15) :
    ∃ za zb zp zm z' : ℝ, subD fl (fin rz) (fin zv) = fin za ∧ addD fl (fin za) (fin z) = fin zb ∧ mulD fl (fin r) (fin tl) = fin zp ∧
      mulD fl (fin zp) (fin f) = fin zm ∧ subD fl (fin zb) (fin zm) = fin z' ∧
      |z' - (rz - zv + z - q * tl * f)| ≤ 20 * (1 / 2 ^ 53 * (|rz| + |zv| + |z| + |q * tl|)) + 1 / 2 ^ 800 := by
  have v0 : (0 : ℝ) ≤ 1 / 2 ^ 53 := by positivity
  have v1 : (1 : ℝ) / 2 ^ 53 ≤ 1 / 1000000 := by norm_num
  have η0 : (0 : ℝ) ≤ 1 / 2 ^ 1075 := by positivity
  have R : ∀ {t : ℝ} {n : ℕ}, |t| ≤ 2 ^ n → n ≤ 1000 → rnd fl 1024 (fin t) = fin (fl t) := fun ht hn => rnd_double h (size_mono ht hn)
  have y1 := size_sub hrz hzv
  have ez1 := err_double h (rz - zv)
  have pz1 : subD fl (fin rz) (fin zv) = fin (fl (rz - zv)) := by rw [subD, fin_sub, R y1 (by norm_num)]
  have y2 := size_fl h y1
  generalize fl (rz - zv) = za at *
  have y3 := size_add y2 (size_mono hz (by norm_num))
  have ez2 := err_double h (za + z)
  have pz2 : addD fl (fin za) (fin z) = fin (fl (za + z)) := by rw [addD, fin_add, R y3 (by norm_num)]
  have y4 := size_fl h y3
  generalize fl (za + z) = zb at *
  have y5 := size_mul z2 htl
  have ez3 := err_double h (r * tl)
  have pz3 : mulD fl (fin r) (fin tl) = fin (fl (r * tl)) := by rw [mulD, fin_mul, R y5 (by norm_num)]
  have y6 := size_fl h y5
  generalize fl (r * tl) = zp at *
  have y7 := size_mul y6 (show |f| ≤ 2 ^ 2 from f3.trans (by norm_num))
  have ez4 := err_double h (zp * f)
  have pz4 : mulD fl (fin zp) (fin f) = fin (fl (zp * f)) := by rw [mulD, fin_mul, R y7 (by norm_num)]
  have y8 := size_fl h y7
  generalize fl (zp * f) = zm at *
  have y9 := size_sub (size_mono y4 (by norm_num)) y8
  have ez5 := err_double h (zb - zm)
  have pz5 : subD fl (fin zb) (fin zm) = fin (fl (zb - zm)) := by rw [subD, fin_sub, R y9 (by norm_num)]
  generalize fl (zb - zm) = z' at *
  have he := height_error v0 v1 η0 f3 er ez1 ez2 ez3 ez4 ez5
  refine ⟨za, zb, zp, zm, z', pz1, pz2, pz3, pz4, pz5, he.trans (add_le_add_right ?_ _)⟩
  have t1 : 1 + |tl| ≤ 2 ^ 201 := by
    have : (1 : ℝ) ≤ 2 ^ 200 := one_le_pow₀ (by norm_num)
    rw [pow_succ]
    linarith
  refine (mul_le_mul_of_nonneg_left (mul_le_mul_of_nonneg_left t1 η0) (by norm_num)).trans ?_
  rw [one_div_mul_eq_div, mul_div_assoc', div_le_div_iff₀ (by positivity) (by positivity), one_mul, mul_assoc, ← pow_add,
    show (2 : ℝ) ^ 1075 = 2 ^ 74 * 2 ^ (201 + 800) by rw [← pow_add]]
  refine mul_le_mul_of_nonneg_right ?_ (by positivity)
  norm_num

theorem at2_ok (ha : IsAtan2 at2) (h00 : |at2 0 0| ≤ 4) (a b : ℝ) :
    (¬ (a = 0 ∧ b = 0) → |at2 b a - ratan2 b a| ≤ 8 * (1 / 2 ^ 53)) ∧ |at2 b a| ≤ 4 := by
  have v0 : (0 : ℝ) ≤ 1 / 2 ^ 53 := by positivity
  have e2 : |ratan2 b a| ≤ 3.2 := by
    have := ratan2_mem b a
    have := Real.pi_lt_d2
    rw [abs_le]
    constructor <;> linarith
  have at1 : ¬ (a = 0 ∧ b = 0) → |at2 b a - ratan2 b a| ≤ 8 * (1 / 2 ^ 53) := fun hab => by
    have e1 := lib_err (ha b a hab)
    have e3 := mul_le_mul_of_nonneg_left e2 v0
    have := eta_100
    generalize (1 : ℝ) / 2 ^ 1075 = η at *
    generalize (1 : ℝ) / 2 ^ 53 = v at *
    linarith
  refine ⟨at1, ?_⟩
  by_cases hab : a = 0 ∧ b = 0
  · rw [hab.1, hab.2]
    exact h00
  · have e1 := abs_near (at1 hab)
    have : 8 * ((1 : ℝ) / 2 ^ 53) ≤ 0.1 := by norm_num
    linarith

theorem hpR_get {om tl ph d z : ℝ} : hpR om tl ph d z OMEGA = fin om ∧ hpR om tl ph d z TANL = fin tl ∧ hpR om tl ph d z PHI0 = fin ph ∧
    hpR om tl ph d z D0 = fin d ∧ hpR om tl ph d z Z0 = fin z := ⟨rfl, rfl, rfl, rfl, rfl⟩

/-- C137 (partial): in double precision `moveHelixTo` gives a track whose centre is, within about 10^-13 of the lengths in the calculation,
that of the given track after a turn of its azimuth by `δ`.  `δ` is at most 2^-21, and of the order of 2^-53 except for azimuths next to
±π/2.  The new azimuth is between -π and π, and the sense of rotation is kept: seen in the direction of flight the centre stays on its side.  The angle
from the old to the new point of closest approach and the new height are right.
Missing for C137: `δ` is larger than the rounding errors (`C137_false`). -/
theorem C137_move_partial (h : NearestF 53 1074 fl) (hl : IsLibm lm) (ha : IsAtan2 at2) (h00 : |at2 0 0| ≤ 4) {om tl ph d z rx ry rz xv yv zv : ℝ}
    (hr : HelixRange om tl ph d z rx ry rz 0) (hv : |xv| ≤ 2 ^ 200 ∧ |yv| ≤ 2 ^ 200 ∧ |zv| ≤ 2 ^ 200) (hph : -4 ≤ ph ∧ ph ≤ 5) :
    ∃ φ d' z' f δ : ℝ, ∃ k : ℤ, moveParams fl lm at2 (hpR om tl ph d z) (V3.re rx ry rz) (V3.re xv yv zv) = .ok (hpR om tl φ d' z', fin f) ∧
      |δ| ≤ 1 / 2 ^ 21 ∧ |δ| * |Real.cos ph| ≤ 100 / 2 ^ 53 ∧ |φ| ≤ mPi ∧ |f| ≤ mPi ∧ |f - (φ - ph + k * (2 * Real.pi))| ≤ 100 / 2 ^ 53 ∧
      |(xv + (1 / om - d') * Real.sin φ) - (rx + (1 / om - d) * Real.sin (ph + δ))| ≤
        2000 / 2 ^ 53 * (|1 / om| + |d| + |rx| + |ry| + |xv| + |yv|) ∧
      |(yv - (1 / om - d') * Real.cos φ) - (ry - (1 / om - d) * Real.cos (ph + δ))| ≤
        2000 / 2 ^ 53 * (|1 / om| + |d| + |rx| + |ry| + |xv| + |yv|) ∧
      |(zv + z') - (rz + z - tl / om * f)| ≤ 100 / 2 ^ 53 * (|rz| + |zv| + |z| + |tl / om|) + 1 / 2 ^ 800 ∧
      -(1000 / 2 ^ 53 * (|1 / om| + |d| + |rx| + |ry| + |xv| + |yv|)) ≤ om / |om| * (1 / om - d') := by
  obtain ⟨hxv, hyv, hzv⟩ := hv
  have hom : om ≠ 0 := abs_pos.1 (lt_of_lt_of_le (by positivity) hr.om_pos)
  obtain ⟨-, -, q3, q4⟩ := mPi_bounds
  have v0 : (0 : ℝ) ≤ 1 / 2 ^ 53 := by positivity
  have v1 : (1 : ℝ) / 2 ^ 53 ≤ 1 / 1000000 := by norm_num
  obtain ⟨t, c0, s0, δ, k0, n0, t1, t2, t4, p1, p2, δb, δc, p5, p6⟩ := given_ok h hl hph
  obtain ⟨M, hM⟩ : ∃ M, M = |1 / om| + |d| + |rx| + |ry| + |xv| + |yv| := ⟨_, rfl⟩
  rw [← hM]
  have b1 := abs_nonneg (1 / om)
  have b2 := abs_nonneg d
  have b3 := abs_nonneg rx
  have b4 := abs_nonneg ry
  have b5 := abs_nonneg xv
  have b6 := abs_nonneg yv
  have M0 : 0 ≤ M := by linarith
  have ηM : 1000 * ((1 : ℝ) / 2 ^ 1075) ≤ 1 / 2 ^ 53 * M := by
    have o1 : 1 / 2 ^ 200 ≤ |1 / om| := by
      rw [abs_div, abs_one]
      exact one_div_le_one_div_of_le (abs_pos.2 hom) hr.om
    have o2 : 1 / 2 ^ 200 ≤ M := by linarith
    refine le_trans ?_ (mul_le_mul_of_nonneg_left o2 v0)
    rw [one_div_mul_one_div, ← pow_add, mul_one_div, div_le_div_iff₀ (by positivity) (by positivity), one_mul,
      show (2 : ℝ) ^ 1075 = 2 ^ 822 * 2 ^ (53 + 200) by rw [← pow_add]]
    refine mul_le_mul_of_nonneg_right ?_ (by positivity)
    calc (1000 : ℝ) ≤ 2 ^ 10 := by norm_num
      _ ≤ _ := pow_le_pow_right₀ (by norm_num) (by norm_num)
  have z1 : |1 / om| ≤ 2 ^ 500 := by
    rw [abs_div, abs_one, div_le_iff₀ (abs_pos.2 hom)]
    have := mul_le_mul_of_nonneg_left hr.om_pos (show (0 : ℝ) ≤ 2 ^ 500 by positivity)
    rwa [mul_one_div, div_self (by positivity)] at this
  obtain ⟨r, rdr, m, m', xc, yc, rr, rd, mx, my, ax, ay, z2, er, zx, zy, cx, cx', cy, cy'⟩ := centre_ok h hom z1 hr.d hr.rx hr.ry p5 p6
    (Real.abs_sin_le_one _) (by rw [abs_neg]; exact Real.abs_cos_le_one _) ηM (by linarith) (by linarith)
  have uM1 : 1 / 2 ^ 53 * M ≤ 1 / 1000000 * M := mul_le_mul_of_nonneg_right v1 M0
  have X1 : |xc - xv| ≤ 1.01 * M := (abs_sub _ _).trans (by linarith)
  have Y1 : |yc - yv| ≤ 1.01 * M := (abs_sub _ _).trans (by linarith)
  obtain ⟨σ, a, b, ⟨σe, σ1⟩, σ2, da, db, dir⟩ := start_ok (at2 := at2) h hom (size_mono (size_sub zx (size_mono hxv (by norm_num))) (by norm_num))
    (size_mono (size_sub zy (size_mono hyv (by norm_num))) (by norm_num))
  obtain ⟨at1, at4⟩ := at2_ok ha h00 a b
  obtain ⟨ψ, k1, n1, ψ1, ψ2, ψ3⟩ := norm02D_ok h (a := at2 b a) (by linarith [(abs_le.1 at4).1]) (by linarith [(abs_le.1 at4).2])
  obtain ⟨ρ, ρ0, ρ1, ρ2, ρ3⟩ := dir_error v0 v1 ηM M0 X1 Y1 σ1 da db at1 ψ3
  obtain ⟨c1, s1, δ1, w1, w2, w3, -, w5, w6⟩ := pair_ok h hl ψ1 ψ2
  obtain ⟨n, c', s', g1, g2, g3, g4, g5⟩ := unit_ok h w5 w6
  obtain ⟨f0, f, k2, f1, f2, f3, f4⟩ := fid_ok h t1 t2 ψ1 ψ2
  obtain ⟨fx, φ, k3, l1, l2, l3, l4⟩ := azimuth_ok h ψ1 ψ2
  obtain ⟨A, B, m1, m2, w, drp, dA, dB, pm1, pm2, pw, pdr, rad⟩ := distance_ok h zx zy hxv hyv z2 er (by linarith) ηM M0 X1 Y1 σ1 σ2 ρ1 ρ2 ρ3 w3
    g4 g5
  obtain ⟨za, zb, zp, zm, z', pz1, pz2, pz3, pz4, pz5, hz⟩ := height_ok h hr.rz hzv hr.z hr.tl z2 er (f3.trans q4.le)
  refine ⟨φ, -drp, z', f, δ, k2 - k0 - k3, ?_, δb, δc, l3, f3, ?_, ?_, ?_, ?_, ?_⟩
  · rw [moveParams]
    simp only [hpR_get, V3.re, halfPiD_eq h, fin_neg, n0, Out.ok_bind, p1, p2, rr, rd, mx, my, ax, ay]
    rw [dir]
    simp only [n1, Out.ok_bind, w1, w2, g1, g2, g3, f1]
    rw [f2]
    simp only [dA, dB, pm1, pm2, pw, pdr, pz1, pz2, pz3, pz4, pz5]
    rw [fin_neg] at l1
    rw [l1, Out.ok_bind, l2, Out.ok_bind]
    rfl
  · clear hz cx cy cx' cy' rad ρ2 ρ3
    rw [div_eq_mul_one_div 100]
    have e : f - (φ - ph + (k2 - k0 - k3 : ℤ) * (2 * Real.pi)) = (f - (ψ - t + k2 * (2 * Real.pi))) -
        (φ - (ψ + Real.pi / 2 + k3 * (2 * Real.pi))) - (t - (ph - Real.pi / 2 + k0 * (2 * Real.pi))) := by
      push_cast
      ring
    rw [e]
    have e1 := abs_sub ((f - (ψ - t + k2 * (2 * Real.pi))) - (φ - (ψ + Real.pi / 2 + k3 * (2 * Real.pi)))) (t - (ph - Real.pi / 2 + k0 * (2 * Real.pi)))
    have e2 := abs_sub (f - (ψ - t + k2 * (2 * Real.pi))) (φ - (ψ + Real.pi / 2 + k3 * (2 * Real.pi)))
    generalize (1 : ℝ) / 2 ^ 53 = v at *
    linarith
  · have sφ : |Real.sin φ - Real.cos ψ| ≤ 25 * (1 / 2 ^ 53) := by
      have := Real.abs_sin_sub_sin_le φ (ψ + Real.pi / 2 + k3 * (2 * Real.pi))
      rw [Real.sin_add_int_mul_two_pi, Real.sin_add_pi_div_two] at this
      generalize (1 : ℝ) / 2 ^ 53 = v at *
      linarith
    have e := back_error v0 M0 σ1 σ2 ρ1 ρ2 rad sφ (Real.abs_sin_le_one _)
    have e2 : |xv + (1 / om - -drp) * Real.sin φ - xc| ≤ 1000 * (1 / 2 ^ 53 * M) := by
      rwa [show xv + (1 / om - -drp) * Real.sin φ - xc = (drp + 1 / om) * Real.sin φ - (xc - xv) by ring]
    have := near_trans e2 cx
    rw [div_eq_mul_one_div 2000, mul_assoc]
    linarith
  · have sφ : |-Real.cos φ - Real.sin ψ| ≤ 25 * (1 / 2 ^ 53) := by
      have := Real.abs_cos_sub_cos_le φ (ψ + Real.pi / 2 + k3 * (2 * Real.pi))
      rw [Real.cos_add_int_mul_two_pi, Real.cos_add_pi_div_two] at this
      rw [show -Real.cos φ - Real.sin ψ = -(Real.cos φ - -Real.sin ψ) by ring, abs_neg]
      generalize (1 : ℝ) / 2 ^ 53 = v at *
      linarith
    have e := back_error v0 M0 σ1 σ2 ρ1 ρ3 rad sφ (by rw [abs_neg]; exact Real.abs_cos_le_one _)
    have e2 : |yv - (1 / om - -drp) * Real.cos φ - yc| ≤ 1000 * (1 / 2 ^ 53 * M) := by
      rwa [show yv - (1 / om - -drp) * Real.cos φ - yc = (drp + 1 / om) * -Real.cos φ - (yc - yv) by ring]
    have := near_trans e2 cy
    rw [mul_neg, ← sub_eq_add_neg] at this
    rw [div_eq_mul_one_div 2000, mul_assoc]
    linarith
  · rw [show 1 / om * tl = tl / om by ring] at hz
    rw [show zv + z' - (rz + z - tl / om * f) = z' - (rz - zv + z - tl / om * f) by ring]
    refine hz.trans (add_le_add_left ?_ _)
    rw [div_eq_mul_one_div 100, mul_assoc]
    refine mul_le_mul_of_nonneg_right (by norm_num) (by positivity)
  · rw [← σe, show 1 / om - -drp = drp + 1 / om by ring, div_eq_mul_one_div 1000, mul_assoc]
    have e : |σ * (drp + 1 / om) - ρ| ≤ 900 * (1 / 2 ^ 53 * M) := by
      rw [show σ * (drp + 1 / om) - ρ = σ * (drp + 1 / om - σ * ρ) by linear_combination ρ * σ2, abs_mul, σ1, one_mul]
      exact rad
    have e1 := (abs_le.1 e).1
    have e2 : 0 ≤ 1 / 2 ^ 53 * M := by positivity
    linarith

theorem rnd_exact (h : NearestF 53 1074 fl) {t : ℝ} (ht : RepF 53 1074 t) (hs : |t| ≤ 2 ^ 1000) : rnd fl 1024 (fin t) = fin t := by
  rw [rnd_double h hs, h.fix ht]

theorem repF_one : RepF 53 1074 (1 : ℝ) := rep_dyadic 1 0 (by norm_num) (by norm_num) (by norm_num)

/-- the cosine of 2^-27 is 1 in double precision -/
theorem cos_tiny (h : NearestF 53 1074 fl) : fl (Real.cos (1 / 2 ^ 27)) = 1 := by
  have c1 := Real.one_sub_sq_div_two_le_cos (x := 1 / 2 ^ 27)
  have c2 := Real.cos_le_one (1 / 2 ^ 27)
  generalize Real.cos (1 / 2 ^ 27) = c at *
  refine h.cell (e := 1020) (by norm_num) repF_one ?_ ?_
  · rw [abs_one, one_mul]
    exact pow_lt_pow_right₀ (by norm_num) (by norm_num)
  · have : |c - 1| ≤ 1 / 2 ^ 55 := by
      rw [abs_le]
      norm_num at *
      constructor <;> linarith
    refine lt_of_le_of_lt (mul_le_mul_of_nonneg_right this (by positivity)) ?_
    rw [one_div_mul_eq_div, div_lt_iff₀ (by positivity), ← pow_add]
    exact pow_lt_pow_right₀ (by norm_num) (by norm_num)

/-- C137: with correctly rounded library functions, moving the track with curvature 2^-17, slope 1 and azimuth π/2 + 2^-27 to its own reference
point turns it by 2^-27 and shifts it by 2^-10. -/
theorem C137_turned (h : NearestF 53 1074 fl) (hc : CorrectLib fl lm at2) :
    moveParams fl lm at2 (hpR (1 / 2 ^ 17) 1 (mPi / 2 + 1 / 2 ^ 27) 0 0) (V3.re 0 0 0) (V3.re 0 0 0) =
      .ok (hpR (1 / 2 ^ 17) 1 (mPi / 2) 0 (1 / 2 ^ 10), fin (-(1 / 2 ^ 27))) := by
  obtain ⟨-, -, q3, q4⟩ := mPi_bounds
  have big : ∀ {t : ℝ}, |t| ≤ 2 ^ 20 → |t| ≤ 2 ^ 1000 := fun ht => size_mono ht (by norm_num)
  have E : ∀ {t : ℝ} (m : ℤ) (k : ℕ), k ≤ 1074 → |m| ≤ 2 ^ 53 → t * 2 ^ k = m → |t| ≤ 2 ^ 20 → rnd fl 1024 (fin t) = fin t := fun m k hk hm e ht =>
    rnd_exact h (rep_dyadic m k hk hm e) (big ht)
  have e0 : rnd fl 1024 (fin 0) = fin 0 := E 0 0 (by norm_num) (by norm_num) (by norm_num) (by norm_num)
  have e1 : rnd fl 1024 (fin 1) = fin 1 := E 1 0 (by norm_num) (by norm_num) (by norm_num) (by norm_num)
  have e2 : rnd fl 1024 (fin 2) = fin 2 := E 2 0 (by norm_num) (by norm_num) (by norm_num) (by norm_num)
  have er : rnd fl 1024 (fin (2 ^ 17)) = fin (2 ^ 17) := E (2 ^ 17) 0 (by norm_num) (by norm_num) (by norm_num) (by norm_num)
  have e27 : rnd fl 1024 (fin (1 / 2 ^ 27)) = fin (1 / 2 ^ 27) := E 1 27 (by norm_num) (by norm_num) (by norm_num) (by norm_num)
  have e27' : rnd fl 1024 (fin (-(1 / 2 ^ 27))) = fin (-(1 / 2 ^ 27)) := E (-1) 27 (by norm_num) (by norm_num) (by norm_num) (by norm_num)
  have e10' : rnd fl 1024 (fin (-(1 / 2 ^ 10))) = fin (-(1 / 2 ^ 10)) := E (-1) 10 (by norm_num) (by norm_num) (by norm_num) (by norm_num)
  have e10 : rnd fl 1024 (fin (1 / 2 ^ 10)) = fin (1 / 2 ^ 10) := E 1 10 (by norm_num) (by norm_num) (by norm_num) (by norm_num)
  have eh : rnd fl 1024 (fin (mPi / 2)) = fin (mPi / 2) := rnd_exact h repF_halfPi (big (by rw [abs_of_pos (by linarith)]; norm_num; linarith))
  have et : rnd fl 1024 (fin (2 * mPi - 1 / 2 ^ 27)) = fin (2 * mPi - 1 / 2 ^ 27) :=
    E (884279719003555 - 2 ^ 20) 47 (by norm_num) (by norm_num) (by unfold mPi; norm_num) (by unfold mPi; norm_num [abs_of_pos])
  -- the angles
  have n0 : norm02D fl (fin (1 / 2 ^ 27)) = .ok (fin (1 / 2 ^ 27)) := by
    rw [norm02D, loop_skip (cond := fun x : Dbl => x < 0) (by rw [zero_eq, fin_lt]; norm_num)]
    exact loop_skip (cond := fun x : Dbl => twoPiD fl < x) (by rw [twoPiD_eq h, fin_lt]; norm_num; linarith)
  have nz : norm02D fl (fin 0) = .ok (fin 0) := by
    rw [norm02D, loop_skip (cond := fun x : Dbl => x < 0) (by rw [zero_eq, fin_lt]; norm_num)]
    exact loop_skip (cond := fun x : Dbl => twoPiD fl < x) (by rw [twoPiD_eq h, fin_lt]; linarith)
  have n1 : norm02D fl (fin (-(1 / 2 ^ 27))) = .ok (fin (2 * mPi - 1 / 2 ^ 27)) := by
    rw [norm02D, loop_once (cond := fun x : Dbl => x < 0) (b := fin (2 * mPi - 1 / 2 ^ 27)) (by rw [zero_eq, fin_lt]; norm_num)
      (by rw [addD, twoPiD_eq h, fin_add, neg_add_eq_sub, et]) (by rw [zero_eq, fin_lt]; norm_num; linarith)]
    exact loop_skip (cond := fun x : Dbl => twoPiD fl < x) (by rw [twoPiD_eq h, fin_lt]; norm_num)
  have f0 : subD fl (fin (mPi / 2 + 1 / 2 ^ 27)) (fin (mPi / 2)) = fin (1 / 2 ^ 27) := by rw [subD, fin_sub, add_sub_cancel_left, e27]
  have c0 : cosD lm (fin (1 / 2 ^ 27)) = fin 1 := by rw [cosD, hc.cos, cos_tiny h]
  have cz : cosD lm (fin 0) = fin 1 := by rw [cosD, hc.cos, Real.cos_zero, h.fix repF_one]
  have s0 : ∀ {t : ℝ}, t ≤ mPi → sineD fl (fin t) (fin 1) = fin 0 := fun {t} ht => by
    rw [sineD]
    simp only [subD, addD, mulD, one_eq, zero_eq, fin_sub, fin_add]
    rw [sub_self, e0, show (1 : ℝ) + 1 = 2 by norm_num, e2, fin_mul, zero_mul, e0, max_fin, max_self, sqrtD, sqrt_fin le_rfl, Real.sqrt_zero, e0,
      cif_neg (by rw [fin_lt]; exact not_lt.2 ht)]
  have at0 : atan2D fl at2 (fin 0) (fin (2 ^ 17)) = fin 0 := by
    have : ratan2 0 (2 ^ 17) = 0 := by
      have := ratan2_polar (r := 2 ^ 17) (θ := 0) (by positivity) (by linarith [Real.pi_pos]) Real.pi_pos.le
      rwa [Real.sin_zero, Real.cos_zero, mul_zero, mul_one] at this
    rw [atan2D, hc.atan2, this, h.fix repF_zero]
  have hr : divD fl 1 (fin (1 / 2 ^ 17)) = fin (2 ^ 17) := by
    rw [divD, one_eq, fin_div _ (by positivity), one_div_one_div, er]
  rw [moveParams]
  simp only [hpR_get, V3.re, halfPiD_eq h, f0, n0, Out.ok_bind, c0, s0 (show 1 / 2 ^ 27 ≤ mPi by norm_num; linarith), hr, fin_neg, neg_zero]
  simp only [addD, subD, mulD, fin_add, fin_sub, fin_mul, add_zero, sub_zero, mul_zero, mul_one, er, e0, zero_add]
  have pos : (0 : ℝ) < 1 / 2 ^ 17 := by positivity
  rw [cif_neg (show ¬ fin (1 / 2 ^ 17) < 0 by rw [zero_eq, fin_lt]; exact not_lt.2 pos.le), cif_pos (show 0 < fin (1 / 2 ^ 17) by rw [zero_eq, fin_lt]; exact pos),
    at0, nz, Out.ok_bind]
  have sq : divD fl 1 (sqrtD fl (fin 1)) = fin 1 := by
    rw [sqrtD, sqrt_fin zero_le_one, Real.sqrt_one, e1, divD, one_eq, fin_div _ one_ne_zero, div_one, e1]
  simp only [fin_sub, zero_sub, e27', n1, Out.ok_bind, cz, s0 (show (0 : ℝ) ≤ mPi by linarith), fin_mul, mul_one, mul_zero, e1, e0, fin_add, add_zero, sq,
    er, zero_add, eh, twoPiD_eq h, sub_self]
  rw [cif_pos (show fin mPi < fin (2 * mPi - 1 / 2 ^ 27) by rw [fin_lt]; norm_num; linarith), sub_sub_cancel_left, e27']
  rw [loop_skip (cond := fun x : Dbl => x < fin (-mPi)) (by rw [fin_lt]; linarith), Out.ok_bind,
    loop_skip (cond := fun x : Dbl => fin mPi < x) (by rw [fin_lt]; linarith), Out.ok_bind]
  rw [fin_mul, show (2 : ℝ) ^ 17 * -(1 / 2 ^ 27) = -(1 / 2 ^ 10) by norm_num, e10', fin_sub, zero_sub, neg_neg, e10, fin_neg, neg_zero]
  rfl

/-- the claim: moving a track to its own reference point changes azimuth and height by less than 10^-9, relative to the lengths in the
calculation -/
def C137_claim (fl : ℝ → ℝ) (lm : Libm) (at2 : ℝ → ℝ → ℝ) : Prop :=
  ∀ om tl ph d z rx ry rz : ℝ, HelixRange om tl ph d z rx ry rz 0 → |ph| ≤ Real.pi → RepF 53 1074 ph →
    ∃ φ d' z' f : ℝ, moveParams fl lm at2 (hpR om tl ph d z) (V3.re rx ry rz) (V3.re rx ry rz) = .ok (hpR om tl φ d' z', fin f) ∧
      (∃ k : ℤ, |φ - (ph + k * (2 * Real.pi))| ≤ 1 / 2 ^ 30) ∧
      |z' - z| ≤ 1 / 2 ^ 30 * (|1 / om| * (1 + |tl|) + |d| + |z| + |rx| + |ry| + |rz|)

/-- C137 fails: the track of `C137_turned` -/
theorem C137_false (h : NearestF 53 1074 fl) (hc : CorrectLib fl lm at2) : ¬ C137_claim fl lm at2 := by
  intro hcl
  obtain ⟨-, q2, q3, q4⟩ := mPi_bounds
  have e : ∀ {a : ℝ}, |a| ≤ 2 ^ 4 → |a| ≤ 2 ^ 200 := fun h => size_mono h (by norm_num)
  have hr : HelixRange (1 / 2 ^ 17) 1 (mPi / 2 + 1 / 2 ^ 27) 0 0 0 0 0 0 := by
    refine ⟨?_, e ?_, e ?_, e ?_, e ?_, e ?_, e ?_, e ?_, e ?_, e ?_⟩
    · rw [abs_of_pos (by positivity)]
      exact one_div_le_one_div_of_le (by positivity) (pow_le_pow_right₀ (by norm_num) (by norm_num))
    · rw [abs_of_pos (by positivity)]
      norm_num
    · norm_num
    · rw [abs_of_pos (by norm_num; linarith)]
      norm_num
      linarith
    all_goals norm_num
  obtain ⟨φ, d', z', f, h1, -, h3⟩ := hcl _ _ _ _ _ _ _ _ hr (by
    rw [abs_of_pos (by norm_num; linarith)]
    norm_num
    linarith) (rep_dyadic (884279719003555 + 2 ^ 22) 49 (by norm_num) (by norm_num) (by unfold mPi; norm_num))
  rw [C137_turned h hc] at h1
  injection h1 with h1
  have h4 := congrArg (fun x : V5 × Dbl => x.1 Z0) h1
  have h5 : fin (1 / 2 ^ 10) = fin z' := h4
  rw [fin_inj] at h5
  rw [← h5, one_div_one_div] at h3
  norm_num at h3

/-- `C137_move_partial` covers the track of `C137_turned` moved by 1 -/
example : HelixRange (1 / 2 ^ 17) 1 (mPi / 2 + 1 / 2 ^ 27) 0 0 0 0 0 0 ∧ (-4 ≤ mPi / 2 + 1 / 2 ^ 27 ∧ mPi / 2 + 1 / 2 ^ 27 ≤ 5) ∧
    (|(1 : ℝ)| ≤ 2 ^ 200 ∧ |(0 : ℝ)| ≤ 2 ^ 200 ∧ |(0 : ℝ)| ≤ 2 ^ 200) := by
  obtain ⟨-, q2, q3, q4⟩ := mPi_bounds
  have e : ∀ {a : ℝ}, |a| ≤ 2 ^ 4 → |a| ≤ 2 ^ 200 := fun h => size_mono h (by norm_num)
  have b : |mPi / 2 + 1 / 2 ^ 27| ≤ 4 := by
    rw [abs_of_pos (by norm_num; linarith)]
    norm_num
    linarith
  refine ⟨⟨?_, e ?_, e ?_, e (b.trans (by norm_num)), e ?_, e ?_, e ?_, e ?_, e ?_, e ?_⟩, ⟨by linarith [(abs_le.1 b).1], by linarith [(abs_le.1 b).2]⟩, e ?_, e ?_, e ?_⟩
  · rw [abs_of_pos (by positivity)]
    exact one_div_le_one_div_of_le (by positivity) (pow_le_pow_right₀ (by norm_num) (by norm_num))
  · rw [abs_of_pos (by positivity)]
    norm_num
  all_goals norm_num

/-- there are libraries with the accuracy asked for -/
example : ∃ (fl : ℝ → ℝ) (lm : Libm) (at2 : ℝ → ℝ → ℝ), NearestF 53 1074 fl ∧ CorrectLib fl lm at2 ∧ IsLibm lm ∧ IsAtan2 at2 ∧ |at2 0 0| ≤ 4 := by
  obtain ⟨fl, h⟩ := exists_nearestF 53 1074
  have hc : CorrectLib fl ⟨fun x => fl (Real.sin x), fun x => fl (Real.cos x)⟩ (fun y x => fl (ratan2 y x)) := ⟨fun _ => rfl, fun _ => rfl, fun _ _ => rfl⟩
  refine ⟨fl, _, _, h, hc, (correctLib_libm h hc).1, (correctLib_libm h hc).2, ?_⟩
  have z : ratan2 0 0 = 0 := by
    rw [ratan2]
    exact Complex.arg_zero
  show |fl (ratan2 0 0)| ≤ 4
  rw [z, h.fix repF_zero, _root_.abs_zero]
  norm_num

end Verif
