import Verif.Lemmas.RoundedHelix
import Verif.Props.RoundedVec
import Verif.Props.HelixGeometry

/-!
# Points of a track in double precision: C131, C132, C133
-/

open Classical

noncomputable section

namespace Verif

open Dbl Rnd

variable {fl : ℝ → ℝ} {lm : Libm}

/-- there are such functions `sin` and `cos` -/
theorem exists_libm : ∃ lm, IsLibm lm := by
  refine ⟨⟨Real.sin, Real.cos⟩, fun x => ?_, fun x => ?_⟩ <;> rw [sub_self, _root_.abs_zero] <;> positivity

/-! ### sizes -/

theorem size_mono {a : ℝ} {m n : ℕ} (h : |a| ≤ 2 ^ m) (hmn : m ≤ n) : |a| ≤ 2 ^ n := h.trans (pow_le_pow_right₀ (by norm_num) hmn)

theorem size_mul {a b : ℝ} {m n : ℕ} (ha : |a| ≤ 2 ^ m) (hb : |b| ≤ 2 ^ n) : |a * b| ≤ 2 ^ (m + n) := by
  rw [abs_mul, pow_add]
  exact mul_le_mul ha hb (abs_nonneg _) (by positivity)

theorem size_add {a b : ℝ} {m : ℕ} (ha : |a| ≤ 2 ^ m) (hb : |b| ≤ 2 ^ m) : |a + b| ≤ 2 ^ (m + 1) := by
  rw [pow_succ]
  linarith [abs_add_le a b]

theorem size_sub {a b : ℝ} {m : ℕ} (ha : |a| ≤ 2 ^ m) (hb : |b| ≤ 2 ^ m) : |a - b| ≤ 2 ^ (m + 1) := by
  rw [pow_succ]
  linarith [abs_sub a b]

theorem size_fl (h : NearestF 53 1074 fl) {a : ℝ} {m : ℕ} (ha : |a| ≤ 2 ^ m) : |fl a| ≤ 2 ^ (m + 2) := by
  have h1 := abs_round_le h a
  have h2 : (1 : ℝ) ≤ 2 ^ m := one_le_pow₀ (by norm_num)
  rw [pow_add]
  linarith

theorem lib_size {t T : ℝ} (ht : |t| ≤ 1) (h : |T - t| ≤ |t| / 2 ^ 52 + 1 / 2 ^ 1074) : |T| ≤ 2 ^ 1 := by
  have h1 := abs_near h
  have h2 : |t| / 2 ^ 52 ≤ 1 / 4 := by
    rw [div_le_div_iff₀ (by positivity) (by positivity)]
    have : (4 : ℝ) ≤ 2 ^ 52 := by norm_num
    linarith
  have h3 : (1 : ℝ) / 2 ^ 1074 ≤ 1 / 4 := by
    rw [show (4 : ℝ) = 2 ^ 2 by norm_num]
    exact one_div_le_one_div_of_le (by positivity) (pow_le_pow_right₀ (by norm_num) (by norm_num))
  generalize (1 : ℝ) / 2 ^ 1074 = e at *
  rw [pow_one]
  linarith

theorem lib_err {t T : ℝ} (h : |T - t| ≤ |t| / 2 ^ 52 + 1 / 2 ^ 1074) : |T - t| ≤ 2 * (1 / 2 ^ 53) * |t| + 2 * (1 / 2 ^ 1075) := by
  have e1 : 2 * ((1 : ℝ) / 2 ^ 53) * |t| = |t| / 2 ^ 52 := by norm_num; ring
  have e2 : 2 * ((1 : ℝ) / 2 ^ 1075) = 1 / 2 ^ 1074 := by rw [pow_succ]; field_simp
  rw [e1, e2]
  exact h

/-- the ranges of the numbers for which there is neither overflow nor underflow -/
structure HelixRange (om tl ph d z rx ry rz s : ℝ) : Prop where
  om_pos : 1 / 2 ^ 500 ≤ |om|
  om : |om| ≤ 2 ^ 200
  tl : |tl| ≤ 2 ^ 200
  ph : |ph| ≤ 2 ^ 200
  d : |d| ≤ 2 ^ 200
  z : |z| ≤ 2 ^ 200
  rx : |rx| ≤ 2 ^ 200
  ry : |ry| ≤ 2 ^ 200
  rz : |rz| ≤ 2 ^ 200
  s : |s| ≤ 2 ^ 200

theorem tiny {t : ℝ} (ht : |t| ≤ 2 ^ 505) : 1 / 2 ^ 1075 * |t| ≤ 1 / 2 ^ 570 := by
  rw [show (2 : ℝ) ^ 1075 = 2 ^ 570 * 2 ^ 505 by rw [← pow_add], one_div_mul_eq_div, div_le_div_iff₀ (by positivity) (by positivity), one_mul,
    mul_comm]
  exact mul_le_mul_of_nonneg_left ht (by positivity)

theorem arc_fin (h : NearestF 53 1074 fl) (hl : IsLibm lm) {om ph d r s t0 sN : ℝ} {c cF : ℝ → ℝ} {cD : Dbl → Dbl}
    (hcD : ∀ x, cD (fin x) = fin (cF x)) (hcF : ∀ x, |cF x - c x| ≤ |c x| / 2 ^ 52 + 1 / 2 ^ 1074)
    (hc1 : ∀ x, |c x| ≤ 1) (hcl : ∀ x y, |c x - c y| ≤ |x - y|) (ht0 : |t0| ≤ 1) (hsN : |sN - t0| ≤ |t0| / 2 ^ 52 + 1 / 2 ^ 1074)
    (o1 : 1 / 2 ^ 500 ≤ |om|) (o2 : |om| ≤ 2 ^ 200) (hph : |ph| ≤ 2 ^ 200) (hd : |d| ≤ 2 ^ 200) (hr : |r| ≤ 2 ^ 200) (hs : |s| ≤ 2 ^ 300) :
    ∃ X, addD fl (addD fl (mulD fl (fin sN) (fin d)) (fin r)) (mulD fl (mulD fl (divD fl 2 (fin om)) (sinD lm (divD fl (mulD fl (fin om) (fin s)) 2)))
      (cD (subD fl (fin ph) (divD fl (mulD fl (fin om) (fin s)) 2)))) = fin X ∧
      |X - (t0 * d + r + 2 / om * Real.sin (om * s / 2) * c (ph - om * s / 2))| ≤
      1 / 2 ^ 53 * (3 * |r| + 10 * |d| + |s| * (30 + |ph| + 3 * |om * s|)) + 1 / 2 ^ 500 := by
  have hom0 : 0 < |om| := lt_of_lt_of_le (by positivity) o1
  have hom : om ≠ 0 := abs_pos.1 hom0
  have e2 : |(2 : ℝ)| ≤ 2 ^ 1 := by norm_num
  have oinv : |1 / om| ≤ 2 ^ 500 := by
    rw [abs_div, abs_one, div_le_iff₀ hom0]
    rw [div_le_iff₀ (by positivity), mul_comm] at o1
    exact o1
  have q1 : |2 / om| ≤ 2 ^ 501 := by
    have := size_mul oinv e2
    rwa [one_div_mul_eq_div] at this
  have q2 := size_fl h q1
  have w1 : |om * s| ≤ 2 ^ 500 := size_mul o2 hs
  have w2 : |fl (om * s)| ≤ 2 ^ 502 := size_fl h w1
  have a1 : |fl (om * s) / 2| ≤ 2 ^ 502 := by
    rw [abs_div, abs_two]
    exact (div_le_self (abs_nonneg _) (by norm_num)).trans w2
  have a2 := size_fl h a1
  have b1 : |ph - fl (fl (om * s) / 2)| ≤ 2 ^ 505 := size_sub (size_mono hph (by norm_num)) a2
  have S1 := lib_size (Real.abs_sin_le_one _) (hl.sin_err (fl (fl (om * s) / 2)))
  have C1 := lib_size (hc1 _) (hcF (fl (ph - fl (fl (om * s) / 2))))
  have m1 := size_mul q2 S1
  have m2 := size_fl h m1
  have n1 := size_mul m2 C1
  have n2 := size_fl h n1
  have N1 := lib_size ht0 hsN
  have p1 := size_mul N1 hd
  have p2 := size_fl h p1
  have x1 := size_add p2 (size_mono hr (by norm_num))
  have x2 := size_fl h x1
  have f1 := size_add (size_mono x2 (by norm_num)) n2
  have R : ∀ {t : ℝ} {n : ℕ}, |t| ≤ 2 ^ n → n ≤ 1000 → rnd fl 1024 (fin t) = fin (fl t) := fun ht hn => rnd_double h (size_mono ht hn)
  refine ⟨fl (fl (fl (sN * d) + r) + fl (fl (fl (2 / om) * lm.sin (fl (fl (om * s) / 2))) * cF (fl (ph - fl (fl (om * s) / 2))))), ?_, ?_⟩
  · simp only [addD, mulD, divD, subD, ofNat_eq]
    rw [fin_mul, R p1 (by norm_num), fin_add, R x1 (by norm_num), fin_div _ hom]
    rw [R q1 (by norm_num), fin_mul, R w1 (by norm_num), fin_div _ (by norm_num), R a1 (by norm_num), fin_sub, R b1 (by norm_num), hcD]
    simp only [sinD]
    rw [fin_mul, R m1 (by norm_num), fin_mul, R n1 (by norm_num), fin_add, R f1 (by norm_num)]
  · have key := arc_error (u := 1 / 2 ^ 53) (η := 1 / 2 ^ 1075) (E := 1 / 2 ^ 570) (s := s) (ph := ph) (D := d) (rp := r) (c := c) hom (by positivity) (by norm_num) (by positivity)
      ?_ ?_ ?_ ?_ hc1 hcl ht0 (err_double h _) (err_double h _) (lib_err (hl.sin_err _)) (err_double h _) (lib_err (hcF _)) (err_double h _)
      (err_double h _) (err_double h _) (lib_err hsN) (err_double h _) (err_double h _) (err_double h _) ?_
    · refine key.trans (add_le_add_right ?_ _)
      rw [show (2 : ℝ) ^ 570 = 2 ^ 70 * 2 ^ 500 by rw [← pow_add], mul_one_div, div_le_div_iff₀ (by positivity) (by positivity), one_mul]
      exact mul_le_mul_of_nonneg_right (by norm_num) (by positivity)
    · rw [show (2 : ℝ) ^ 1075 = 2 ^ 53 * 2 ^ 1022 by rw [← pow_add], mul_one_div, div_le_div_iff₀ (by positivity) (by positivity), one_mul,
        mul_comm]
      refine mul_le_mul_of_nonneg_left ?_ (by positivity)
      calc (10 : ℝ) ≤ 2 ^ 4 := by norm_num
        _ ≤ 2 ^ 1022 := pow_le_pow_right₀ (by norm_num) (by norm_num)
    · exact one_div_le_one_div_of_le (by positivity) (pow_le_pow_right₀ (by norm_num) (by norm_num))
    · have := tiny (size_mono q1 (by norm_num))
      rwa [abs_div, abs_two] at this
    · refine tiny (size_mono (m := 500) ?_ (by norm_num))
      rw [abs_div, abs_two]
      exact (div_le_self (abs_nonneg _) (by norm_num)).trans w1
    · exact tiny (size_mono hd (by norm_num))

theorem xy_points (h : NearestF 53 1074 fl) (hl : IsLibm lm) {om tl ph d z rx ry rz s : ℝ} (o1 : 1 / 2 ^ 500 ≤ |om|) (o2 : |om| ≤ 2 ^ 200)
    (hph : |ph| ≤ 2 ^ 200) (hd : |d| ≤ 2 ^ 200) (hx : |rx| ≤ 2 ^ 200) (hy : |ry| ≤ 2 ^ 200) (hs : |s| ≤ 2 ^ 300) :
    ∃ X Y, Rnd.calculateXfromS fl lm (fin s) (hpR om tl ph d z) (V3.re rx ry rz) = fin X ∧
      Rnd.calculateYfromS fl lm (fin s) (hpR om tl ph d z) (V3.re rx ry rz) = fin Y ∧
      |X - rX om ph d rx s| ≤ 1 / 2 ^ 53 * (3 * |rx| + 10 * |d| + |s| * (30 + |ph| + 3 * |om * s|)) + 1 / 2 ^ 500 ∧
      |Y - rY om ph d ry s| ≤ 1 / 2 ^ 53 * (3 * |ry| + 10 * |d| + |s| * (30 + |ph| + 3 * |om * s|)) + 1 / 2 ^ 500 := by
  have hom : om ≠ 0 := abs_pos.1 (lt_of_lt_of_le (by positivity) o1)
  have e : ¬ Dbl.eqv (fin om) 0 := by rw [zero_eq, fin_eqv]; exact hom
  obtain ⟨X, hX, hX'⟩ := arc_fin (c := Real.cos) (cF := lm.cos) (cD := cosD lm) (t0 := Real.sin (-ph)) (sN := lm.sin (-ph)) (r := rx) h hl
    (fun _ => rfl) hl.cos_err Real.abs_cos_le_one Real.abs_cos_sub_cos_le (Real.abs_sin_le_one _) (hl.sin_err _) o1 o2 hph hd hx hs
  obtain ⟨Y, hY, hY'⟩ := arc_fin (c := Real.sin) (cF := lm.sin) (cD := sinD lm) (t0 := Real.cos ph) (sN := lm.cos ph) (r := ry) h hl
    (fun _ => rfl) hl.sin_err Real.abs_sin_le_one Real.abs_sin_sub_sin_le (Real.abs_cos_le_one _) (hl.cos_err _) o1 o2 hph hd hy hs
  refine ⟨X, Y, ?_, ?_, ?_, ?_⟩
  · rw [Rnd.calculateXfromS]
    simp only [calculateCurvature_hpR]
    rw [cif_pos e, ← hX]
    rfl
  · rw [Rnd.calculateYfromS]
    simp only [calculateCurvature_hpR]
    rw [cif_pos e, ← hY]
    rfl
  · have e1 := calculateXfromS_re (tl := tl) (z := z) (ph := ph) (d := d) (rx := rx) (ry := ry) (rz := rz) (s := s) hom
    have k : rX om ph d rx s = Real.sin (-ph) * d + rx + 2 / om * Real.sin (om * s / 2) * Real.cos (ph - om * s / 2) := by
      have key : 2 * Real.sin (om * s / 2) * Real.cos (ph - om * s / 2) = Real.sin ph - Real.sin (ph - s * om) := by
        rw [Real.sin_sub_sin, show (ph - (ph - s * om)) / 2 = om * s / 2 by ring, show (ph + (ph - s * om)) / 2 = ph - om * s / 2 by ring]
      rw [rX, ← key, Real.sin_neg]
      ring
    rw [k]
    exact hX'
  · have k : rY om ph d ry s = Real.cos ph * d + ry + 2 / om * Real.sin (om * s / 2) * Real.sin (ph - om * s / 2) := by
      have key : 2 * Real.sin (om * s / 2) * Real.sin (ph - om * s / 2) = -(Real.cos ph - Real.cos (ph - s * om)) := by
        rw [Real.cos_sub_cos, show (ph - (ph - s * om)) / 2 = om * s / 2 by ring, show (ph + (ph - s * om)) / 2 = ph - om * s / 2 by ring]
        ring
      have : Real.cos ph - Real.cos (ph - s * om) = -(2 * Real.sin (om * s / 2) * Real.sin (ph - om * s / 2)) := by rw [key]; ring
      rw [rY, this]
      ring
    rw [k]
    exact hY'

/-- C131: in double precision the coordinates computed by `calculateXfromS`, `calculateYfromS` and `calculateZfromS` are finite and those
of the track of the specification, within a few units of 2^-53 of the coordinates of the reference point, of the impact parameters and of
the path length. -/
theorem C131_points (h : NearestF 53 1074 fl) (hl : IsLibm lm) {om tl ph d z rx ry rz s : ℝ} (hr : HelixRange om tl ph d z rx ry rz s)
    {x y w : ℝ → ℝ} (ht : Spec.IsTrack om tl ph (rx - d * Real.sin ph) (ry + d * Real.cos ph) (rz + z) x y w) :
    ∃ X Y Z, Rnd.calculateXfromS fl lm (fin s) (hpR om tl ph d z) (V3.re rx ry rz) = fin X ∧
      Rnd.calculateYfromS fl lm (fin s) (hpR om tl ph d z) (V3.re rx ry rz) = fin Y ∧
      Rnd.calculateZfromS fl (fin s) (hpR om tl ph d z) (V3.re rx ry rz) = fin Z ∧
      |X - x s| ≤ 1 / 2 ^ 53 * (3 * |rx| + 10 * |d| + |s| * (30 + |ph| + 3 * |om * s|)) + 1 / 2 ^ 500 ∧
      |Y - y s| ≤ 1 / 2 ^ 53 * (3 * |ry| + 10 * |d| + |s| * (30 + |ph| + 3 * |om * s|)) + 1 / 2 ^ 500 ∧
      |Z - w s| ≤ 1 / 2 ^ 53 * (3 * |rz| + 3 * |z| + 3 * |s * tl|) + 1 / 2 ^ 500 := by
  have hom : om ≠ 0 := abs_pos.1 (lt_of_lt_of_le (by positivity) hr.om_pos)
  obtain ⟨u1, u2, u3⟩ := ht.unique (isTrack_r hom)
  subst u1 u2 u3
  obtain ⟨X, Y, h1, h2, h3, h4⟩ := xy_points h hl (tl := tl) (z := z) (rz := rz) hr.om_pos hr.om hr.ph hr.d hr.rx hr.ry (size_mono hr.s (by norm_num))
  have a1 := size_add hr.z hr.rz
  have a2 := size_fl h a1
  have b1 := size_mul hr.s hr.tl
  have b2 := size_fl h b1
  have c1 := size_add (size_mono a2 (by norm_num)) b2
  refine ⟨X, Y, fl (fl (z + rz) + fl (s * tl)), h1, h2, ?_, h3, h4, ?_⟩
  · simp only [Rnd.calculateZfromS, calculateZ0_hpR, calculateTanLambda_hpR, V3.re, addD, mulD]
    rw [fin_add, rnd_double h (size_mono a1 (by norm_num)), fin_mul, rnd_double h (size_mono b1 (by norm_num)), fin_add,
      rnd_double h (size_mono c1 (by norm_num))]
  · rw [rZ]
    have k1 := err_double h (z + rz)
    have k2 := err_double h (s * tl)
    have k3 := err_double h (fl (z + rz) + fl (s * tl))
    have e : (1 : ℝ) / 2 ^ 1075 ≤ 1 / 100 * (1 / 2 ^ 500) := by
      rw [show (2 : ℝ) ^ 1075 = 2 ^ 575 * 2 ^ 500 by rw [← pow_add], one_div_mul_one_div]
      refine one_div_le_one_div_of_le (by positivity) (mul_le_mul_of_nonneg_right ?_ (by positivity))
      calc (100 : ℝ) ≤ 2 ^ 7 := by norm_num
        _ ≤ 2 ^ 575 := pow_le_pow_right₀ (by norm_num) (by norm_num)
    have key := sum_error (by positivity) (by norm_num) (by positivity) k1 k2 k3
    have t := abs_add_le z rz
    have e0 : (0 : ℝ) ≤ 1 / 2 ^ 500 := by positivity
    rw [show rz + z + s * tl = z + rz + s * tl by ring]
    refine key.1.trans ?_
    clear key k1 k2 k3 h3 h4
    generalize (1 : ℝ) / 2 ^ 1075 = η at *
    generalize (1 : ℝ) / 2 ^ 500 = E at *
    have u0 : (0 : ℝ) < 1 / 2 ^ 53 := by positivity
    have t' := mul_le_mul_of_nonneg_left t u0.le
    linarith

/-- C131, concrete case: a track of curvature 1/100 cm with azimuth 1 and slope 1, reference point (1, 2, 3), at 10 cm. -/
example : HelixRange (1 / 100) 1 1 0 0 1 2 3 10 := by
  have e : ∀ {a : ℝ}, |a| ≤ 2 ^ 4 → |a| ≤ 2 ^ 200 := fun h => size_mono h (by norm_num)
  refine ⟨?_, e ?_, e ?_, e ?_, e ?_, e ?_, e ?_, e ?_, e ?_, e ?_⟩
  · rw [abs_of_pos (by norm_num)]
    refine one_div_le_one_div_of_le (by norm_num) ?_
    calc (100 : ℝ) ≤ 2 ^ 7 := by norm_num
      _ ≤ 2 ^ 500 := pow_le_pow_right₀ (by norm_num) (by norm_num)
  all_goals norm_num [abs_of_pos]

/-! ## C132 -/

theorem point_fin (h : NearestF 53 1074 fl) {om ph d r s : ℝ} {c cF : ℝ → ℝ}
    (hcF : ∀ x, |cF x - c x| ≤ |c x| / 2 ^ 52 + 1 / 2 ^ 1074) (hc1 : ∀ x, |c x| ≤ 1)
    (o1 : 1 / 2 ^ 500 ≤ |om|) (o2 : |om| ≤ 2 ^ 200) (hph : |ph| ≤ 2 ^ 200) (hd : |d| ≤ 2 ^ 200) (hr : |r| ≤ 2 ^ 200) (hs : |s| ≤ 2 ^ 200) :
    rnd fl 1024 (fin (s * om)) = fin (fl (s * om)) ∧
    rnd fl 1024 (fin (ph - fl (s * om))) = fin (fl (ph - fl (s * om))) ∧
    rnd fl 1024 (fin (cF ph - cF (fl (ph - fl (s * om))))) = fin (fl (cF ph - cF (fl (ph - fl (s * om))))) ∧
    rnd fl 1024 (fin (1 / om)) = fin (fl (1 / om)) ∧
    rnd fl 1024 (fin (fl (1 / om) * fl (cF ph - cF (fl (ph - fl (s * om)))))) = fin (fl (fl (1 / om) * fl (cF ph - cF (fl (ph - fl (s * om)))))) ∧
    rnd fl 1024 (fin (d * cF ph)) = fin (fl (d * cF ph)) ∧
    (∀ σ : ℝ, |σ| = 1 → rnd fl 1024 (fin (r + σ * fl (d * cF ph))) = fin (fl (r + σ * fl (d * cF ph))) ∧
      ∀ τ : ℝ, |τ| = 1 → rnd fl 1024 (fin (fl (r + σ * fl (d * cF ph)) + τ * fl (fl (1 / om) * fl (cF ph - cF (fl (ph - fl (s * om))))))) =
        fin (fl (fl (r + σ * fl (d * cF ph)) + τ * fl (fl (1 / om) * fl (cF ph - cF (fl (ph - fl (s * om)))))))) := by
  have hom0 : 0 < |om| := lt_of_lt_of_le (by positivity) o1
  have oinv : |1 / om| ≤ 2 ^ 500 := by
    rw [abs_div, abs_one, div_le_iff₀ hom0]
    rw [div_le_iff₀ (by positivity), mul_comm] at o1
    exact o1
  have R : ∀ {t : ℝ} {n : ℕ}, |t| ≤ 2 ^ n → n ≤ 1000 → rnd fl 1024 (fin t) = fin (fl t) := fun ht hn => rnd_double h (size_mono ht hn)
  have w1 := size_mul hs o2
  have w2 := size_fl h w1
  have b1 := size_sub (size_mono hph (by norm_num)) w2
  have C0 := lib_size (hc1 _) (hcF ph)
  have C1 := lib_size (hc1 _) (hcF (fl (ph - fl (s * om))))
  have D1 := size_sub C0 C1
  have D2 := size_fl h D1
  have q2 := size_fl h oinv
  have m1 := size_mul q2 D2
  have m2 := size_fl h m1
  have p1 := size_mul hd C0
  have p2 := size_fl h p1
  have p3 : |fl (d * cF ph)| ≤ 2 ^ 203 := p2
  refine ⟨R w1 (by norm_num), R b1 (by norm_num), R D1 (by norm_num), R oinv (by norm_num), R m1 (by norm_num), R p1 (by norm_num),
    fun σ hσ => ?_⟩
  have x1 := size_add (b := σ * fl (d * cF ph)) (size_mono (n := 203) hr (by norm_num)) (by rw [abs_mul, hσ, one_mul]; exact p3)
  have x2 := size_fl h x1
  refine ⟨R x1 (by norm_num), fun τ hτ => ?_⟩
  exact R (size_add (m := 508) (size_mono x2 (by norm_num)) (by rw [abs_mul, hτ, one_mul]; exact m2)) (by norm_num)

theorem eta_small : 10 * ((1 : ℝ) / 2 ^ 1075) ≤ 1 / 2 ^ 53 := by
  rw [show (2 : ℝ) ^ 1075 = 2 ^ 53 * 2 ^ 1022 by rw [← pow_add], mul_one_div, div_le_div_iff₀ (by positivity) (by positivity), one_mul,
    mul_comm]
  refine mul_le_mul_of_nonneg_left ?_ (by positivity)
  calc (10 : ℝ) ≤ 2 ^ 4 := by norm_num
    _ ≤ 2 ^ 1022 := pow_le_pow_right₀ (by norm_num) (by norm_num)

/-- C132 (partial): in double precision the point computed by `pointAt` is the point of the track within a few units of 2^-53 of the
coordinates of the reference point, of the impact parameters and of the *radius* of the track.  Missing for C132: for nearly straight
tracks this error is larger than the path length (`C132_stuck`, `C132_false`). -/
theorem C132_points_partial (h : NearestF 53 1074 fl) (hl : IsLibm lm) {om tl ph d z rx ry rz s : ℝ} (hr : HelixRange om tl ph d z rx ry rz s)
    {x y w : ℝ → ℝ} (ht : Spec.IsTrack om tl ph (rx - d * Real.sin ph) (ry + d * Real.cos ph) (rz + z) x y w) :
    ∃ X Y Z, Rnd.pointAt fl lm (fin s) (hpR om tl ph d z) (V3.re rx ry rz) = V3.re X Y Z ∧
      |X - x s| ≤ 1 / 2 ^ 53 * (3 * |rx| + 10 * |d| + (40 + 2 * |ph| + 4 * |om * s|) * |1 / om|) + 1 / 2 ^ 500 ∧
      |Y - y s| ≤ 1 / 2 ^ 53 * (3 * |ry| + 10 * |d| + (40 + 2 * |ph| + 4 * |om * s|) * |1 / om|) + 1 / 2 ^ 500 ∧
      |Z - w s| ≤ 1 / 2 ^ 53 * (3 * |rz| + 3 * |z| + 3 * |s * tl|) + 1 / 2 ^ 500 := by
  have hom : om ≠ 0 := abs_pos.1 (lt_of_lt_of_le (by positivity) hr.om_pos)
  obtain ⟨-, -, Z, -, -, hZ, -, -, hZ'⟩ := C131_points h hl hr ht
  obtain ⟨u1, u2, u3⟩ := ht.unique (isTrack_r hom)
  subst u1 u2 u3
  obtain ⟨k1, k2, k3, k4, k5, k6, k7⟩ := point_fin h hl.sin_err Real.abs_sin_le_one hr.om_pos hr.om hr.ph hr.d hr.rx hr.s
  obtain ⟨l1, l2, l3, l4, l5, l6, l7⟩ := point_fin h hl.cos_err Real.abs_cos_le_one hr.om_pos hr.om hr.ph hr.d hr.ry hr.s
  obtain ⟨k8, k9⟩ := k7 (-1) (by simp)
  have k9 := k9 1 (by simp)
  obtain ⟨l8, l9⟩ := l7 1 (by simp)
  have l9 := l9 (-1) (by simp)
  have hE : (1 : ℝ) / 2 ^ 1075 ≤ 1 / 2 ^ 570 := one_div_le_one_div_of_le (by positivity) (pow_le_pow_right₀ (by norm_num) (by norm_num))
  have E60 : 60 * ((1 : ℝ) / 2 ^ 570) ≤ 1 / 2 ^ 500 := by
    rw [show (2 : ℝ) ^ 570 = 2 ^ 70 * 2 ^ 500 by rw [← pow_add], mul_one_div, div_le_div_iff₀ (by positivity) (by positivity), one_mul]
    exact mul_le_mul_of_nonneg_right (by norm_num) (by positivity)
  have X := point_error (u := 1 / 2 ^ 53) (η := 1 / 2 ^ 1075) (E := 1 / 2 ^ 570) (om := om) (s := s) (ph := ph) (d := d) (r := rx) (σ := -1)
    (τ := 1) (c := Real.sin) (by positivity) (by norm_num) (by positivity) eta_small hE Real.abs_sin_le_one Real.abs_sin_sub_sin_le (by simp)
    (by simp) (err_double h _) (err_double h _) (lib_err (hl.sin_err _)) (lib_err (hl.sin_err _)) (err_double h _) (err_double h _)
    (err_double h _) (err_double h _) (err_double h _) (err_double h _)
  have Y := point_error (u := 1 / 2 ^ 53) (η := 1 / 2 ^ 1075) (E := 1 / 2 ^ 570) (om := om) (s := s) (ph := ph) (d := d) (r := ry) (σ := 1)
    (τ := -1) (c := Real.cos) (by positivity) (by norm_num) (by positivity) eta_small hE Real.abs_cos_le_one Real.abs_cos_sub_cos_le (by simp)
    (by simp) (err_double h _) (err_double h _) (lib_err (hl.cos_err _)) (lib_err (hl.cos_err _)) (err_double h _) (err_double h _)
    (err_double h _) (err_double h _) (err_double h _) (err_double h _)
  refine ⟨fl (fl (rx + -1 * fl (d * lm.sin ph)) + 1 * fl (fl (1 / om) * fl (lm.sin ph - lm.sin (fl (ph - fl (s * om)))))),
    fl (fl (ry + 1 * fl (d * lm.cos ph)) + -1 * fl (fl (1 / om) * fl (lm.cos ph - lm.cos (fl (ph - fl (s * om)))))), Z, ?_, ?_, ?_, hZ'⟩
  rotate_left
  · have e : rX om ph d rx s = rx + -1 * (d * Real.sin ph) + 1 * (1 / om * (Real.sin ph - Real.sin (ph - s * om))) := by rw [rX]; ring
    rw [e]
    exact X.trans (add_le_add_right E60 _)
  · have e : rY om ph d ry s = ry + 1 * (d * Real.cos ph) + -1 * (1 / om * (Real.cos ph - Real.cos (ph - s * om))) := by rw [rY]; ring
    rw [e]
    exact Y.trans (add_le_add_right E60 _)
  · have ez : addD fl (addD fl (fin rz) (fin z)) (mulD fl (fin s) (fin tl)) = fin Z := by
      rw [← hZ]
      simp only [Rnd.calculateZfromS, calculateZ0_hpR, calculateTanLambda_hpR, V3.re, addD, fin_add, add_comm]
    rw [Rnd.pointAt]
    simp only [calculateOmega_hpR, calculatePhi0_hpR, calculateTanLambda_hpR, calculateD0_hpR, calculateZ0_hpR]
    simp only [V3.re] at ez ⊢
    rw [ez]
    simp only [mulD, divD, addD, subD, fin_mul, one_eq, fin_div _ hom, sinD, cosD, k1, fin_sub, k2, k3, k4, k5, k6, l3, l5, l6, fin_add]
    have e1 : ∀ a b : ℝ, a - b = a + -1 * b := fun a b => by ring
    rw [e1 rx, k8]
    rw [show ry + fl (d * lm.cos ph) = ry + 1 * fl (d * lm.cos ph) by ring, l8]
    congr 1
    · rw [fin_add, ← k9, one_mul]
    · rw [fin_sub, ← l9, e1 (fl (ry + _))]

/-- C132 is false: if the track turns by less than 2^-58 of its azimuth on the path length `s`, the x and y coordinates computed by
`pointAt` are those for path length zero. -/
theorem C132_stuck (h : NearestF 53 1074 fl) (lm : Libm) {om tl ph d z s : ℝ} (rp : V3) (hp : RepF 53 1074 ph)
    (hp0 : 1 / 2 ^ 900 ≤ |ph|) (hp1 : |ph| ≤ 2 ^ 900) (hs : |s * om| * 2 ^ 58 ≤ |ph|) :
    (Rnd.pointAt fl lm (fin s) (hpR om tl ph d z) rp).x = (Rnd.pointAt fl lm (fin 0) (hpR om tl ph d z) rp).x ∧
      (Rnd.pointAt fl lm (fin s) (hpR om tl ph d z) rp).y = (Rnd.pointAt fl lm (fin 0) (hpR om tl ph d z) rp).y := by
  have e0 : subD fl (fin ph) (mulD fl (fin 0) (fin om)) = fin ph := by
    rw [mulD, fin_mul, zero_mul, rnd_double h (by rw [_root_.abs_zero]; positivity), h.fix repF_zero, subD, fin_sub, sub_zero,
      rnd_double h (size_mono hp1 (by norm_num)), h.fix hp]
  have hso : |s * om| ≤ 2 ^ 900 := by
    refine le_trans ?_ (hs.trans hp1)
    exact le_mul_of_one_le_right (abs_nonneg _) (by norm_num)
  have e1 : subD fl (fin ph) (mulD fl (fin s) (fin om)) = fin ph := by
    have a1 := err_double h (s * om)
    have a2 := abs_near a1
    have hη : (1 : ℝ) / 2 ^ 1075 * 2 ^ 58 ≤ |ph| / 4 := by
      have : (1 : ℝ) / 2 ^ 1075 * 2 ^ 58 ≤ 1 / 2 ^ 900 / 4 := by
        rw [show (2 : ℝ) ^ 1075 = 2 ^ 900 * 2 ^ 175 by rw [← pow_add], div_div, one_div_mul_eq_div, div_le_div_iff₀ (by positivity) (by positivity)]
        rw [one_mul, mul_left_comm]
        refine mul_le_mul_of_nonneg_left ?_ (by positivity)
        norm_num
      exact this.trans (div_le_div_of_nonneg_right hp0 (by norm_num))
    have hsmall : |fl (s * om)| * 2 ^ 56 ≤ |ph| := by
      have u : (1 : ℝ) / 2 ^ 53 * |s * om| ≤ |s * om| := mul_le_of_le_one_left (abs_nonneg _) (by norm_num)
      generalize (1 : ℝ) / 2 ^ 1075 = η at *
      have a3 : |fl (s * om)| ≤ 2 * |s * om| + η := by linarith
      have a4 := mul_le_mul_of_nonneg_right a3 (by positivity : (0 : ℝ) ≤ 2 ^ 56)
      rw [show (2 : ℝ) ^ 58 = 4 * 2 ^ 56 by norm_num] at hs hη
      generalize (2 : ℝ) ^ 56 = A at *
      clear hp0 hp1 hso
      linarith [abs_nonneg ph]
    have hb : fl (ph - fl (s * om)) = ph := by
      refine h.back hp ?_
      rw [show ph - fl (s * om) - ph = -fl (s * om) by ring, _root_.abs_neg]
      exact hsmall
    have hsm : |ph - fl (s * om)| ≤ 2 ^ 1000 := by
      have : |fl (s * om)| ≤ 2 ^ 902 := size_fl h hso
      exact size_mono (size_sub (size_mono hp1 (by norm_num)) this) (by norm_num)
    rw [mulD, fin_mul, rnd_double h (size_mono hso (by norm_num)), subD, fin_sub, rnd_double h hsm, hb]
  constructor
  · simp only [Rnd.pointAt, calculateOmega_hpR, calculatePhi0_hpR, e0, e1]
  · simp only [Rnd.pointAt, calculateOmega_hpR, calculatePhi0_hpR, e0, e1]

/-- C132 is false: a track of azimuth 1 with curvature 2^-60/cm.  At a path length of 1 cm the track has moved by more than 4 mm in x; the
point computed has not moved. -/
theorem C132_false (h : NearestF 53 1074 fl) (lm : Libm) {x y w : ℝ → ℝ} (ht : Spec.IsTrack (1 / 2 ^ 60) 0 1 0 0 0 x y w) :
    (Rnd.pointAt fl lm (fin 1) (hpR (1 / 2 ^ 60) 0 1 0 0) (V3.re 0 0 0)).x = fin 0 ∧ 2 / 5 < x 1 := by
  have h1 : (1 : ℝ) / 2 ^ 60 ≠ 0 := by norm_num
  have hp : RepF 53 1074 1 := ⟨1, 1074, by norm_num, by rw [Int.cast_one]⟩
  have big : (1 : ℝ) ≤ 2 ^ 900 := one_le_pow₀ (by norm_num)
  obtain ⟨q, -⟩ := C132_stuck h lm (om := 1 / 2 ^ 60) (tl := 0) (d := 0) (z := 0) (s := 1) (V3.re 0 0 0) hp
    (by rw [abs_one, div_le_one (by positivity)]; exact big) (by rw [abs_one]; exact big) (by rw [abs_one, abs_of_pos] <;> norm_num)
  have f0 := h.fix (repF_zero (p := 53) (k := 1074))
  have R : ∀ {t : ℝ}, |t| ≤ 2 ^ 100 → rnd fl 1024 (fin t) = fin (fl t) := fun ht => rnd_double h (size_mono ht (by norm_num))
  have z0 : |(0 : ℝ)| ≤ 2 ^ 100 := by rw [_root_.abs_zero]; positivity
  have r0 : rnd fl 1024 (fin 0) = fin 0 := by rw [R z0, f0]
  have r1 : rnd fl 1024 (fin 1) = fin 1 := by rw [R (by rw [abs_one]; norm_num), h.fix hp]
  have rq : rnd fl 1024 (fin (1 / (1 / 2 ^ 60))) = fin (fl (1 / (1 / 2 ^ 60))) := R (by rw [abs_of_pos] <;> norm_num)
  constructor
  · rw [q]
    simp only [Rnd.pointAt, calculateOmega_hpR, calculatePhi0_hpR, calculateD0_hpR, V3.re, sinD, mulD, divD, subD, addD, fin_mul, zero_mul,
      r0, fin_sub, sub_zero, r1, one_eq, fin_div _ h1, rq, sub_self, mul_zero, fin_add, add_zero]
  · obtain ⟨u1, -, -⟩ := ht.unique (by
      have := isTrack_r (om := 1 / 2 ^ 60) (tl := 0) (ph := 1) (d := 0) (z := 0) (rx := 0) (ry := 0) (rz := 0) h1
      simpa only [zero_mul, sub_zero, add_zero] using this)
    rw [u1, rX]
    have h2 : Real.sin 1 - Real.sin (1 - 1 * (1 / 2 ^ 60)) = 2 * Real.sin (1 / 2 ^ 61) * Real.cos (1 - 1 / 2 ^ 61) := by
      rw [Real.sin_sub_sin]
      congr 2 <;> norm_num
    have h3 : 1 / 2 ^ 61 - (1 / 2 ^ 61) ^ 3 / 6 < Real.sin (1 / 2 ^ 61) := Real.sin_gt_sub_cube (by norm_num)
    have h4 : 1 / 2 ≤ Real.cos (1 - 1 / 2 ^ 61) := by
      rw [← Real.cos_pi_div_three]
      refine Real.cos_le_cos_of_nonneg_of_le_pi (by norm_num) (by linarith [Real.pi_pos]) ?_
      have := Real.pi_gt_three
      norm_num
      linarith
    rw [h2]
    have h5 : 1 / 2 ^ 61 * (9 / 10) < Real.sin (1 / 2 ^ 61) := lt_of_le_of_lt (by norm_num) h3
    have h6 : 1 / 2 ^ 61 * (9 / 10) * (1 / 2) < Real.sin (1 / 2 ^ 61) * Real.cos (1 - 1 / 2 ^ 61) :=
      mul_lt_mul h5 h4 (by norm_num) (lt_trans (by norm_num) h5).le
    norm_num at h6 ⊢
    linarith

/-! ## C133 -/

/-- C133: in double precision the path length of the crossing with a disk is such that the track is at the z coordinate of the disk there,
within a few units of 2^-53, and the point returned is that point of the track; the z coordinate of the point is exactly that of the
disk. -/
theorem C133_disk (h : NearestF 53 1074 fl) (hl : IsLibm lm) {om tl ph d z rx ry rz oz ox oy : ℝ} (hr : HelixRange om tl ph d z rx ry rz oz)
    (htl : 1 / 2 ^ 90 ≤ |tl|) {surf : Surface} (hs : surf.origin = V3.re ox oy oz) (mode : ℤ) (checkBounds : Bool)
    {x y w : ℝ → ℝ} (ht : Spec.IsTrack om tl ph (rx - d * Real.sin ph) (ry + d * Real.cos ph) (rz + z) x y w) :
    ∃ s X Y, (Rnd.intersectWithZDisk fl lm surf (hpR om tl ph d z) (V3.re rx ry rz) mode checkBounds).s = fin s ∧
      (Rnd.intersectWithZDisk fl lm surf (hpR om tl ph d z) (V3.re rx ry rz) mode checkBounds).xx = V3.re X Y oz ∧
      |w s - oz| ≤ 1 / 2 ^ 53 * (3 * |oz| + 4 * |rz + z|) + 1 / 2 ^ 500 ∧
      |X - x s| ≤ 1 / 2 ^ 53 * (3 * |rx| + 10 * |d| + |s| * (30 + |ph| + 3 * |om * s|)) + 1 / 2 ^ 500 ∧
      |Y - y s| ≤ 1 / 2 ^ 53 * (3 * |ry| + 10 * |d| + |s| * (30 + |ph| + 3 * |om * s|)) + 1 / 2 ^ 500 ∧
      ((Rnd.intersectWithZDisk fl lm surf (hpR om tl ph d z) (V3.re rx ry rz) mode checkBounds).found = true ↔
        (mode = 0 ∨ 0 < mode * s) ∧ (checkBounds = true → surf.insideBounds (V3.re X Y oz) = true)) := by
  have hom : om ≠ 0 := abs_pos.1 (lt_of_lt_of_le (by positivity) hr.om_pos)
  have t0 : 0 < |tl| := lt_of_lt_of_le (by positivity) htl
  have tl0 : tl ≠ 0 := abs_pos.1 t0
  obtain ⟨u1, u2, u3⟩ := ht.unique (isTrack_r hom)
  subst u1 u2 u3
  have a1 := size_add hr.rz hr.z
  have a2 := size_fl h a1
  have b1 := size_sub (size_mono hr.s (by norm_num)) a2
  have b2 := size_fl h b1
  have ti : |1 / tl| ≤ 2 ^ 90 := by
    rw [abs_div, abs_one, div_le_iff₀ t0]
    rw [div_le_iff₀ (by positivity), mul_comm] at htl
    exact htl
  have c1 := size_mul b2 ti
  rw [mul_one_div] at c1
  have c2 := size_fl h c1
  obtain ⟨X, Y, h1, h2, h3, h4⟩ := xy_points h hl (tl := tl) (z := z) (rz := rz) hr.om_pos hr.om hr.ph hr.d hr.rx hr.ry
    (size_mono c2 (by norm_num))
  have es : divD fl (subD fl (fin oz) (addD fl (fin rz) (fin z))) (fin tl) = fin (fl (fl (oz - fl (rz + z)) / tl)) := by
    rw [addD, fin_add, rnd_double h (size_mono a1 (by norm_num)), subD, fin_sub, rnd_double h (size_mono b1 (by norm_num)), divD,
      fin_div _ tl0, rnd_double h (size_mono c1 (by norm_num))]
  have eh : Rnd.intersectWithZDisk fl lm surf (hpR om tl ph d z) (V3.re rx ry rz) mode checkBounds =
      ifc modeOk mode (fin (fl (fl (oz - fl (rz + z)) / tl))) then
        ⟨boundsOk surf checkBounds (V3.re X Y oz), fin (fl (fl (oz - fl (rz + z)) / tl)), V3.re X Y oz⟩
      else ⟨false, fin (fl (fl (oz - fl (rz + z)) / tl)), V3.re X Y oz⟩ := by
    rw [Rnd.intersectWithZDisk]
    simp only [hs, calculateZ0_hpR, calculateTanLambda_hpR]
    have e1 : (V3.re rx ry rz).z = fin rz := rfl
    have e2 : (V3.re ox oy oz).z = fin oz := rfl
    rw [e1, e2, es, h1, h2]
    rfl
  generalize hS : fl (fl (oz - fl (rz + z)) / tl) = S at *
  have key := disk_error (u := 1 / 2 ^ 53) (η := 1 / 2 ^ 1075) (E := 1 / 2 ^ 570) tl0 (by positivity) (by norm_num) (by positivity)
    (one_div_le_one_div_of_le (by positivity) (pow_le_pow_right₀ (by norm_num) (by norm_num))) (tiny (size_mono hr.tl (by norm_num)))
    (err_double h (rz + z)) (err_double h (oz - fl (rz + z))) (err_double h (fl (oz - fl (rz + z)) / tl))
  rw [hS] at key
  refine ⟨S, X, Y, ?_, ?_, ?_, h3, h4, ?_⟩
  · rw [eh]; exact cif_cases (P := fun q : Hit => q.s = fin S) (fun _ => rfl) (fun _ => rfl)
  · rw [eh]; exact cif_cases (P := fun q : Hit => q.xx = V3.re X Y oz) (fun _ => rfl) (fun _ => rfl)
  · rw [rZ]
    refine key.trans (add_le_add_right ?_ _)
    rw [show (2 : ℝ) ^ 570 = 2 ^ 70 * 2 ^ 500 by rw [← pow_add], mul_one_div, div_le_div_iff₀ (by positivity) (by positivity), one_mul]
    exact mul_le_mul_of_nonneg_right (by norm_num) (by positivity)
  · have em : modeOk mode (fin S) ↔ mode = 0 ∨ 0 < mode * S := by
      rw [modeOk, fin_mul, zero_eq, fin_lt, or_comm]
    rw [eh]
    refine cif_cases (P := fun q : Hit => q.found = true ↔ _) (fun hm => ?_) (fun hm => ?_)
    · rw [← em]
      simp only [hm, true_and, boundsOk]
      cases checkBounds <;> simp
    · rw [← em]
      simp only [hm, false_and]
      exact ⟨fun q => absurd q (by simp), fun q => q.elim⟩

end Verif
