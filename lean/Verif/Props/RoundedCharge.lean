import Verif.Props.RoundedConversion

/-!
# C151: charge over momentum in double precision

`calculateQoverP` in double precision, compared with the exact formula (which C21 compares with the momentum).
-/

open Classical

noncomputable section

namespace Verif

open Dbl Rnd Spec Rounded

variable {fl : ℝ → ℝ} {lm : Libm} {atn : ℝ → ℝ} {om tl ph d z bz : ℝ}

/-- C151, where it holds: for slopes up to 100 the relative error is at most 2^-43.  Missing for C151: steeper tracks, see `C151_false`. -/
theorem C151_partial (h : NearestF 53 1074 fl) (hl : IsLibm lm) (ha : IsAtan atn) (ht : |tl| ≤ 100) (o0 : 1 / 2 ^ 100 ≤ |om|) (o1 : |om| ≤ 2 ^ 100)
    (b0 : 1 / 2 ^ 100 ≤ |bz|) (b1 : |bz| ≤ 2 ^ 100) :
    ∃ r, Rnd.calculateQoverP fl lm atn (hpR om tl ph d z) (fin bz) = fin r ∧
      |r - om / (√(1 + tl ^ 2) * (bz * kBr))| ≤ 1 / 2 ^ 43 * |om / (√(1 + tl ^ 2) * (bz * kBr))| := by
  have k0 := kBr_pos
  have bn : bz ≠ 0 := by
    rintro rfl
    rw [abs_zero] at b0
    exact absurd b0 (not_le.2 (by positivity))
  have T0 : 0 < √(1 + tl ^ 2) := Real.sqrt_pos.2 (by positivity)
  have T1 : 1 ≤ √(1 + tl ^ 2) := Real.one_le_sqrt.2 (by nlinarith [sq_nonneg tl])
  have T2 : √(1 + tl ^ 2) ≤ 101 := by
    refine Real.sqrt_le_iff.2 ⟨by norm_num, ?_⟩
    have := sq_le_sq' (by linarith [(abs_le.1 ht).1]) (abs_le.1 ht).2
    linarith
  have cT : Real.cos (Real.arctan tl) = 1 / √(1 + tl ^ 2) := Real.cos_arctan tl
  have g1 := (Ap.cos hl (atan_ap (fl := fl) ha tl)).mono (B' := 1) (e' := 8) le_rfl (by norm_num)
  have cv : Dbl.cos (Dbl.atan (fin tl)) = fin (1 / √(1 + tl ^ 2)) := by rw [atan_fin, cos_fin, cT]
  generalize √(1 + tl ^ 2) = T at *
  have i1 : 1 / 101 ≤ 1 / T := one_div_le_one_div_of_le T0 T2
  have g2 : Ap 7 (1 / T) (cosD lm (atanD fl atn (fin tl))) (Dbl.cos (Dbl.atan (fin tl))) 1 808 := by
    obtain ⟨r, x, e1, e2, e3, -⟩ := g1.val
    rw [cv] at e2
    injection e2 with e2
    refine ⟨le_trans (by norm_num) i1, ?_, r, x, e1, by rw [cv, e2], e3.trans ?_, by rw [← e2, one_mul, abs_of_pos (by positivity)]⟩
    · rw [div_le_iff₀ T0]
      linarith
    · norm_num at i1 ⊢
      linarith
  have go : Ap 100 |om| (fin om) (fin om) 1 0 := Ap.given o0 o1 (by rw [one_mul])
  have gb : Ap 100 |bz| (fin bz) (fin bz) 1 0 := Ap.given b0 b1 (by rw [one_mul])
  have g3 := (Ap.mul h g2 go (by norm_num) (by norm_num) (by norm_num) (by norm_num)).mono (B' := 1) (e' := 811) (by norm_num) (by norm_num)
  have g4 := (Ap.mul h gb (conv_ap h) (by norm_num) (by norm_num) (by norm_num) (by norm_num)).mono (B' := 1) (e' := 5) (by norm_num) (by norm_num)
  have v4 : fin bz * convertBr2P_cm = fin (bz * kBr) := by rw [convert_eq, fin_mul]
  have g5 := (Ap.div h g3 g4 v4 (by rw [abs_mul, abs_of_pos k0]) (by norm_num) (by norm_num) (by norm_num) (by norm_num)).mono (B' := 1) (e' := 2 ^ 10)
    (by norm_num) (by norm_num)
  obtain ⟨r, x, e1, e2, e3, -⟩ := g5.val
  have ex : om / (T * (bz * kBr)) = x := by
    rw [cv, v4, fin_mul, fin_div _ (by positivity)] at e2
    injection e2 with e2
    rw [← e2]
    field_simp
  refine ⟨r, ?_, ?_⟩
  · rw [Rnd.calculateQoverP, cif_pos (show ¬ Dbl.eqv (fin bz) 0 by rw [zero_eq, fin_eqv]; exact bn)]
    exact e1
  · rw [ex]
    refine e3.trans (le_of_eq ?_)
    rw [← ex, abs_div, abs_mul, abs_mul, abs_of_pos T0, abs_of_pos k0]
    field_simp

/-- without field the result is 0, for all parameters -/
theorem C151_no_field (hp : V5) : Rnd.calculateQoverP fl lm atn hp 0 = 0 := by
  rw [Rnd.calculateQoverP, cif_neg (show ¬ ¬ Dbl.eqv 0 0 by rw [zero_eq, fin_eqv]; simp)]

/-- hypotheses of `C151_partial`: slope 3/4, radius 100, field of -3.5 T -/
example : |(3 / 4 : ℝ)| ≤ 100 ∧ 1 / 2 ^ 100 ≤ |(1 / 100 : ℝ)| ∧ |(1 / 100 : ℝ)| ≤ 2 ^ 100 ∧ 1 / 2 ^ 100 ≤ |(-7 / 2 : ℝ)| ∧ |(-7 / 2 : ℝ)| ≤ 2 ^ 100 := by
  norm_num

/-- C151 is false in general: for a track with the slope 2^80 the result is too large by a factor of more than 1000, for every library with results of
type `double`. -/
theorem C151_false (h : NearestF 53 1074 fl) (hl : IsLibm lm) (ha : IsAtan atn) (hr : ∀ x, RepF 53 1074 (atn x)) :
    ∃ r x, Rnd.calculateQoverP fl lm atn (hpR 1 (2 ^ 80) ph d z) (fin 1) = fin r ∧ Verif.calculateQoverP (hpR 1 (2 ^ 80) ph d z) (fin 1) = fin x ∧ 0 < x ∧
      1000 * x < |r| := by
  have k0 := kBr_pos
  have kb : kBr ≤ 1 := by norm_num [kBr]
  have kl : 1 / 2 ^ 20 ≤ kBr := by norm_num [kBr]
  obtain ⟨c1, c2⟩ := steep_atan ha hr
  obtain ⟨c, ec, c3, c4⟩ := conv_val h
  have w : ∀ {x : ℝ}, |x| ≤ 2 ^ 120 → |x| ≤ 2 ^ 500 := fun k => k.trans (pow_le_pow_right₀ (by norm_num) (by norm_num))
  have lo : (1 : ℝ) / 2 ^ 500 ≤ 1 / 2 ^ 100 := one_div_le_one_div_of_le (by positivity) (pow_le_pow_right₀ (by norm_num) (by norm_num))
  have cc : 1 / 2 ^ 56 ≤ |lm.cos (atn (2 ^ 80))| ∧ |lm.cos (atn (2 ^ 80))| ≤ 1 := by
    have e := hl.cos_err (atn (2 ^ 80))
    have tiny : (1 : ℝ) / 2 ^ 1074 ≤ 1 / 2 ^ 80 := one_div_le_one_div_of_le (by positivity) (pow_le_pow_right₀ (by norm_num) (by norm_num))
    generalize (1 : ℝ) / 2 ^ 1074 = q at *
    clear lo w
    generalize lm.cos (atn (2 ^ 80)) = v at *
    generalize Real.cos (atn (2 ^ 80)) = y at *
    have k1 := abs_sub_abs_le_abs_sub y v
    have k2 := abs_sub_abs_le_abs_sub v y
    rw [abs_sub_comm] at k1
    have k3 : |y| / 2 ^ 52 ≤ |y| / 8 := div_le_div_of_nonneg_left (abs_nonneg _) (by norm_num) (by norm_num)
    constructor
    · norm_num at c1 tiny ⊢
      linarith
    · norm_num at c2 tiny ⊢
      linarith
  obtain ⟨d1, d2⟩ := cc
  have n0 : cosD lm (atanD fl atn (fin (2 ^ 80))) = fin (lm.cos (atn (2 ^ 80))) := rfl
  generalize lm.cos (atn (2 ^ 80)) = y at *
  have n1 : mulD fl (fin y) (fin 1) = fin (fl y) := by
    rw [mulD, fin_mul, mul_one]
    exact rnd_mid h (w (d2.trans (by norm_num)))
  have e1 := fl_least h (x := y) (c := 1 / 2 ^ 56) (lo.trans (by norm_num)) d1
  have e2 := h.double y
  have n2 : mulD fl (fin 1) (fin c) = fin (fl c) := by
    rw [mulD, fin_mul, one_mul]
    exact rnd_mid h (w (by rw [abs_of_pos (by linarith)]; norm_num; linarith))
  obtain ⟨f1, f2⟩ := fl_half h (x := c) (lo.trans (by norm_num at kl ⊢; linarith))
  generalize fl y = y' at *
  generalize fl c = c' at *
  have c0 : 0 < c' := by linarith
  have u1 : |y' / c'| ≤ 2 ^ 120 := by
    rw [abs_div, abs_of_pos c0, div_le_iff₀ c0]
    norm_num at kl ⊢
    linarith
  have l1 : 1 / 2 ^ 59 / kBr ≤ |y' / c'| := by
    rw [abs_div, abs_of_pos c0]
    calc 1 / 2 ^ 59 / kBr = 1 / 2 ^ 57 / (4 * kBr) := by field_simp; norm_num
      _ ≤ |y'| / c' := div_le_div₀ (abs_nonneg _) (by norm_num at e1 ⊢; linarith) c0 (by linarith)
  have n3 : divD fl (fin y') (fin c') = fin (fl (y' / c')) := by
    rw [divD, fin_div _ c0.ne']
    exact rnd_mid h (w u1)
  have ki : 1 ≤ 1 / kBr := by
    rw [le_div_iff₀ k0]
    linarith
  have e3 := fl_least h (x := y' / c') (c := 1 / 2 ^ 59 / kBr) (lo.trans (by
    rw [div_eq_mul_one_div (1 / 2 ^ 59 : ℝ)]
    norm_num at ki ⊢
    linarith)) l1
  have T1 : (2 : ℝ) ^ 80 ≤ √(1 + (2 ^ 80) ^ 2) := Real.le_sqrt_of_sq_le (by linarith)
  refine ⟨fl (y' / c'), 1 / √(1 + (2 ^ 80) ^ 2) / kBr, ?_, ?_, by positivity, ?_⟩
  · rw [Rnd.calculateQoverP, cif_pos (show ¬ Dbl.eqv (fin 1) 0 by rw [zero_eq, fin_eqv]; norm_num)]
    change divD fl (mulD fl (cosD lm (atanD fl atn (fin (2 ^ 80)))) (fin 1)) (mulD fl (fin 1) (convD fl)) = _
    rw [n0, n1, ec, n2, n3]
  · rw [qoverP_re (by norm_num), Real.cos_arctan]
    congr 1
    ring
  · refine lt_of_lt_of_le ?_ e3
    have : 1 / √(1 + ((2 : ℝ) ^ 80) ^ 2) ≤ 1 / 2 ^ 80 := one_div_le_one_div_of_le (by positivity) T1
    rw [div_eq_mul_one_div _ kBr, div_eq_mul_one_div (1 / 2 ^ 59) kBr]
    norm_num at this ki ⊢
    nlinarith

end Verif
