import Verif.Lemmas.RoundedMaterial
import Verif.Props.Matter

/-!
# Rounding errors of the energy loss
-/

open Classical

noncomputable section

namespace Verif

open Dbl Spec

/-- a number cut off at 0 and 3 -/
def cut3 (x : ℝ) : ℝ := max 0 (min 3 x)

/-- the density correction without cases -/
theorem delR_cut (x C : ℝ) : delR x C = 4.606 * max x 0 + C * (1 - ((3 - cut3 x) / 3) ^ 3) := by
  unfold delR cut3
  by_cases h3 : 3 ≤ x
  · rw [if_pos h3, min_eq_left h3, max_eq_right (by norm_num : (0 : ℝ) ≤ 3), max_eq_left (by linarith : (0 : ℝ) ≤ x)]
    norm_num
  · rw [if_neg h3]
    push Not at h3
    rw [min_eq_right h3.le]
    by_cases h0 : 0 ≤ x
    · rw [if_pos h0, max_eq_right h0, max_eq_left h0]
      ring
    · push Not at h0
      rw [if_neg (not_le.2 h0), max_eq_left h0.le, max_eq_right h0.le]
      norm_num

theorem cut3_near {x y ε : ℝ} (h : |y - x| ≤ ε * (1 + |x|)) (hε : ε ≤ 1 / 10) : |cut3 y - cut3 x| ≤ 5 * ε := by
  have e0 : 0 ≤ ε := nonneg_of_mul_nonneg_left ((abs_nonneg _).trans h) (by positivity)
  have lip : |cut3 y - cut3 x| ≤ |y - x| := by
    unfold cut3
    rw [max_comm, max_comm 0 (min 3 x), min_comm 3 y, min_comm 3 x]
    exact (abs_max_sub_max_le_abs _ _ _).trans (abs_inf_sub_inf_le_abs _ _ _)
  by_cases h4 : |x| ≤ 4
  · refine lip.trans (h.trans ?_)
    nlinarith
  · push Not at h4
    have z : |cut3 y - cut3 x| = 0 := by
      rcases lt_abs.1 h4 with i | i
      · rw [abs_of_pos (by linarith : 0 < x)] at h
        have : 3 ≤ y := by
          have := (abs_le.1 h).1
          nlinarith
        unfold cut3
        rw [min_eq_left this, min_eq_left (by linarith : (3 : ℝ) ≤ x), sub_self, _root_.abs_zero]
      · rw [abs_of_neg (by linarith : x < 0)] at h
        have : y ≤ 0 := by
          have := (abs_le.1 h).2
          nlinarith
        unfold cut3
        rw [max_eq_left ((min_le_right _ _).trans this), max_eq_left ((min_le_right _ _).trans (by linarith : x ≤ 0)), sub_self, _root_.abs_zero]
    rw [z]
    linarith

theorem cut3_mem (x : ℝ) : 0 ≤ cut3 x ∧ cut3 x ≤ 3 := ⟨le_max_left _ _, max_le (by norm_num) (min_le_left _ _)⟩

theorem cube_part {s t : ℝ} (hs : 0 ≤ s ∧ s ≤ 3) (ht : 0 ≤ t ∧ t ≤ 3) :
    |(1 - ((3 - s) / 3) ^ 3) - (1 - ((3 - t) / 3) ^ 3)| ≤ |s - t| ∧ |1 - ((3 - s) / 3) ^ 3| ≤ 1 := by
  obtain ⟨a, ha⟩ : ∃ a, a = (3 - s) / 3 := ⟨_, rfl⟩
  obtain ⟨b, hb⟩ : ∃ b, b = (3 - t) / 3 := ⟨_, rfl⟩
  have a0 : 0 ≤ a := by rw [ha]; linarith
  have a1 : a ≤ 1 := by rw [ha]; linarith
  have b0 : 0 ≤ b := by rw [hb]; linarith
  have b1 : b ≤ 1 := by rw [hb]; linarith
  have e1 : s - t = 3 * (b - a) := by rw [ha, hb]; ring
  rw [← ha, ← hb, e1]
  constructor
  · rw [show 1 - a ^ 3 - (1 - b ^ 3) = (b - a) * (a * a + a * b + b * b) by ring, abs_mul, abs_mul, mul_comm |(3 : ℝ)|]
    refine mul_le_mul_of_nonneg_left ?_ (abs_nonneg _)
    rw [abs_of_nonneg (by positivity), abs_of_pos (by norm_num : (0 : ℝ) < 3)]
    nlinarith [mul_le_one₀ a1 a0 a1, mul_le_one₀ a1 b0 b1, mul_le_one₀ b1 b0 b1]
  · have i1 : 0 ≤ a ^ 3 := by positivity
    have i2 : a ^ 3 ≤ 1 := pow_le_one₀ a0 a1
    rw [abs_le]
    constructor <;> linarith

/-- sensitivity of the density correction -/
theorem delR_near {x y C D ε η : ℝ} (h : |y - x| ≤ ε * (1 + |x|)) (hε : ε ≤ 1 / 10) (hC : |D - C| ≤ η) :
    |delR y D - delR x C| ≤ 4.606 * (ε * (1 + |x|)) + η + |C| * (5 * ε) := by
  rw [delR_cut, delR_cut]
  obtain ⟨k1, k2⟩ := cube_part (cut3_mem y) (cut3_mem x)
  have k3 := cut3_near h hε
  have k4 : |max y 0 - max x 0| ≤ |y - x| := abs_max_sub_max_le_abs _ _ _
  generalize 1 - ((3 - cut3 y) / 3) ^ 3 = A at *
  generalize 1 - ((3 - cut3 x) / 3) ^ 3 = B at *
  rw [show 4.606 * max y 0 + D * A - (4.606 * max x 0 + C * B) = 4.606 * (max y 0 - max x 0) + (D - C) * A + C * (A - B) by ring]
  refine (abs_add_le _ _).trans (add_le_add ((abs_add_le _ _).trans (add_le_add ?_ ?_)) ?_)
  · rw [abs_mul, abs_of_pos (by norm_num : (0 : ℝ) < 4.606)]
    exact mul_le_mul_of_nonneg_left (k4.trans h) (by norm_num)
  · rw [abs_mul]
    exact (mul_le_of_le_one_right (abs_nonneg _) k2).trans hC
  · rw [abs_mul]
    exact mul_le_mul_of_nonneg_left (k1.trans k3) (abs_nonneg _)

namespace Rnd

variable {fl : ℝ → ℝ} {lg : LogLib} {k l : ℕ} {S T B C e f x y : ℝ} {a a' b b' : Dbl}

theorem three_eq : (3 : Dbl) = fin 3 := ofNat_eq 3

/-- the third power in the density correction -/
theorem cube_ap (h : NearestF 53 1074 fl) (hl : IsLogLib lg) {ξ : ℝ} (h0 : 0 ≤ ξ) (h3 : ξ < 3) :
    Ap 0 1 (powD lg (subD fl 3 (fin ξ)) 3) (fin ((3 - ξ) ^ 3)) 27 137 := by
  have s : Ap 0 1 (subD fl 3 (fin ξ)) (fin (3 - ξ)) 3 (0 + 3 + 1 / 1000) := by
    rw [subD, three_eq, fin_sub]
    exact Ap.round h (by norm_num) (by norm_num) (by norm_num) (by norm_num) (by norm_num) (by simp) (by rw [mul_one, abs_of_pos (by linarith)]; linarith)
  obtain ⟨w, w', e1, e2, i, -⟩ := s.val
  injection e2 with e2
  subst e2
  have w0 : 0 ≤ w := by
    rw [subD, three_eq, fin_sub, rnd_small h (by rw [abs_of_pos (by linarith)]; linarith)] at e1
    injection e1 with e1
    rw [← e1]
    have := h.near (3 - ξ) 0 repF_zero
    rw [zero_sub, abs_neg, abs_of_pos (by linarith : 0 < 3 - ξ)] at this
    linarith [(abs_le.1 this).1]
  have pw : w ^ (3 : ℝ) = w ^ 3 := by
    rw [show (3 : ℝ) = ((3 : ℕ) : ℝ) by norm_num, Real.rpow_natCast]
  have hp : 0 < w ∨ w = 0 ∧ (0 : ℝ) < 3 := by
    rcases lt_or_eq_of_le w0 with j | j
    · exact .inl j
    · exact .inr ⟨j.symm, by norm_num⟩
  have k1 := hl.pow_err w 3 hp
  rw [pw] at k1
  rw [e1, three_eq]
  refine ⟨by norm_num, by norm_num, lg.pow w 3, (3 - ξ) ^ 3, by simp only [powD, if_pos hp], rfl, ?_, ?_⟩
  · obtain ⟨v, hv⟩ : ∃ v, v = 3 - ξ := ⟨_, rfl⟩
    rw [← hv] at i ⊢
    have v0 : 0 ≤ v := by linarith
    have v3 : v ≤ 3 := by linarith
    have w1 : w ≤ 3001 / 1000 := by
      have := (abs_le.1 i).2
      norm_num at this
      linarith
    have k2 : |w ^ 3 - v ^ 3| ≤ 271 / 10 * |w - v| := by
      rw [show w ^ 3 - v ^ 3 = (w - v) * (w * w + w * v + v * v) by ring, abs_mul, mul_comm]
      refine mul_le_mul_of_nonneg_right ?_ (abs_nonneg _)
      rw [abs_of_nonneg (by positivity)]
      nlinarith
    have k3 := near_trans k1 (k2.trans (mul_le_mul_of_nonneg_left i (by norm_num)))
    have k4 : w ^ 3 ≤ 2703 / 100 := by
      have := pow_le_pow_left₀ w0 w1 3
      norm_num at this ⊢
      linarith
    have k5 : w ^ 3 / 2 ^ 52 ≤ 2703 / 100 / 2 ^ 52 := div_le_div_of_nonneg_right k4 (by positivity)
    have k6 : (1 : ℝ) / 2 ^ 1074 ≤ 1 / 2 ^ 60 := one_div_le_one_div_of_le (by positivity) (pow_le_pow_right₀ (by norm_num) (by norm_num))
    refine k3.trans ?_
    generalize (1 : ℝ) / 2 ^ 1074 = η at *
    norm_num at *
    linarith
  · rw [mul_one, abs_of_nonneg (by have : 0 ≤ 3 - ξ := by linarith
                                   positivity)]
    have := pow_le_pow_left₀ (by linarith) (show 3 - ξ ≤ 3 by linarith) 3
    norm_num at this ⊢
    linarith

/-- rounding errors of the density correction for exact arguments -/
theorem del_round (h : NearestF 53 1074 fl) (hl : IsLogLib lg) {ξ γ : ℝ} (lo : 1 / 2 ^ k ≤ S) (hi : S ≤ 2 ^ k) (hk : k ≤ 100) (h1 : |ξ| ≤ 1001 / 1000 * S)
    (h2 : |γ| ≤ 3001 / 1000 * S) : ∃ r, densityCorrection fl lg (fin ξ) (fin γ) = fin r ∧ |r - delR ξ γ| ≤ 50 * (S * (1 / 2 ^ 53)) := by
  have S0 : 0 < S := lt_of_lt_of_le (by positivity) lo
  have X := Ap.given lo hi h1
  have G := Ap.given lo hi h2
  have L : Ap 0 1 (lit fl 4.606) (fin 4.606) (4606 / 1000) (4606 / 1000 * (1001 / 1000)) :=
    (Rel.lit (x := 4.606) (k := 3) h (by norm_num) (by norm_num) (by norm_num)).ap.rescale (c := 4606 / 1000) (T := 1) (l := 0) (by norm_num) (by norm_num)
      (by norm_num) |>.mono (by norm_num) (by norm_num)
  have m := (Ap.mulr h L X (by omega) (by norm_num) (by norm_num) (by norm_num)).mono (B' := 462 / 100) (e' := 925 / 100) (by norm_num) (by norm_num)
  have s := (Ap.add h m G (by omega) (by norm_num) (by norm_num)).mono (B' := 763 / 100) (e' := 169 / 10) (by norm_num) (by norm_num)
  rw [fin_mul, fin_add] at s
  unfold densityCorrection
  simp only
  by_cases c3 : (3 : ℝ) ≤ ξ
  · rw [cif_pos (by rw [three_eq, fin_le]; exact c3)]
    obtain ⟨r, x, e1, e2, i, -⟩ := s.val
    injection e2 with e2
    refine ⟨r, e1, ?_⟩
    rw [delR, if_pos c3, e2]
    exact i.trans (mul_le_mul_of_nonneg_right (by norm_num) (by positivity))
  rw [cif_neg (by rw [three_eq, fin_le]; exact c3)]
  push Not at c3
  by_cases c0 : 0 ≤ ξ
  · rw [cif_pos (by rw [three_eq, zero_eq, fin_le, fin_lt]; exact ⟨c0, c3⟩)]
    have q : Ap k S (divD fl (-fin γ) 27) (fin (-γ / 27)) (112 / 1000) (113 / 1000) := by
      rw [show (27 : Dbl) = fin 27 from ofNat_eq 27, divD, fin_neg, fin_div _ (by norm_num)]
      refine (Ap.round (B := 112 / 1000) (e := 0) h lo hi (by omega) (by norm_num) (by norm_num) (by simp) ?_).mono le_rfl (by norm_num)
      rw [abs_div, abs_neg, abs_of_pos (by norm_num : (0 : ℝ) < 27), div_le_iff₀ (by norm_num)]
      linarith
    have m2 := (Ap.mull h q (cube_ap h hl c0 c3) (by omega) (by norm_num) (by norm_num) (by norm_num)).mono (B' := 303 / 100) (e' := 215 / 10) (by norm_num) (by norm_num)
    have t := (Ap.add h s m2 (by omega) (by norm_num) (by norm_num)).mono (e' := 50) le_rfl (by norm_num)
    rw [fin_mul, fin_add] at t
    obtain ⟨r, x, e1, e2, i, -⟩ := t.val
    injection e2 with e2
    refine ⟨r, e1, ?_⟩
    rw [delR, if_neg (not_le.2 c3), if_pos c0, e2]
    exact i
  · rw [cif_neg (by rw [three_eq, zero_eq, fin_le]; exact fun i => c0 i.1)]
    refine ⟨0, zero_eq, ?_⟩
    rw [delR, if_neg (not_le.2 c3), if_neg c0, sub_self, _root_.abs_zero]
    positivity

/-- rounding errors of the density correction -/
theorem del_ap (h : NearestF 53 1074 fl) (hl : IsLogLib lg) {S' : ℝ} (hx : Ap k S' a (fin x) 1 e) (hC : Ap k S b (fin C) 3 f) (hS' : S' = |x| + 1)
    (hSS : S' ≤ S) (hk : k ≤ 100) (he : e ≤ 2 ^ 30) (hf : f ≤ 2 ^ 30) :
    Ap k S (densityCorrection fl lg a b) (fin (delR x C)) (77 / 10) (50 + 4606 / 1000 * e + f + 15 * e) := by
  have S0 := hC.pos
  have S0' := hx.pos
  have C3 : |C| ≤ 3 * S := by
    obtain ⟨-, y, -, j1, -, j2⟩ := hC.val
    injection j1 with j1
    subst j1
    exact j2
  obtain ⟨ξ, x', rfl, e2, i1, -⟩ := hx.val
  injection e2 with e2
  subst e2
  obtain ⟨γ, C', rfl, e3, i2, -⟩ := hC.val
  injection e3 with e3
  subst e3
  have e0 : 0 ≤ e := nonneg_of_mul_nonneg_left ((abs_nonneg _).trans i1) (by positivity)
  have ε1 : e * (1 / 2 ^ 53) ≤ 1 / 2000 := by
    have := mul_le_mul_of_nonneg_right he (show (0 : ℝ) ≤ 1 / 2 ^ 53 by positivity)
    norm_num at this ⊢
    linarith
  have ε2 : f * (1 / 2 ^ 53) ≤ 1 / 2000 := by
    have := mul_le_mul_of_nonneg_right hf (show (0 : ℝ) ≤ 1 / 2 ^ 53 by positivity)
    norm_num at this ⊢
    linarith
  have j1 : |ξ - x| ≤ e * (1 / 2 ^ 53) * (1 + |x|) := by
    rw [add_comm 1, ← hS']
    linarith
  have b1 : |ξ| ≤ 1001 / 1000 * S := by
    have k1 := abs_near j1
    have k2 := mul_le_mul_of_nonneg_right ε1 (show 0 ≤ 1 + |x| by positivity)
    linarith
  have b2 : |γ| ≤ 3001 / 1000 * S := by
    have k1 := abs_near i2
    have k2 := mul_le_mul_of_nonneg_right ε2 S0.le
    linarith
  obtain ⟨r, hr, i3⟩ := del_round h hl hC.lo hC.hi hk b1 b2
  have k := delR_near j1 (by linarith) i2
  refine ⟨hC.lo, hC.hi, r, _, hr, rfl, ?_, ?_⟩
  · refine (near_trans i3 k).trans ?_
    have k1 : e * (1 / 2 ^ 53) * (1 + |x|) ≤ e * (1 / 2 ^ 53) * S := mul_le_mul_of_nonneg_left (by linarith) (by positivity)
    have k2 : |C| * (5 * (e * (1 / 2 ^ 53))) ≤ 3 * S * (5 * (e * (1 / 2 ^ 53))) := mul_le_mul_of_nonneg_right C3 (by positivity)
    generalize (1 : ℝ) / 2 ^ 53 = u at *
    generalize |C| * (5 * (e * u)) = w at *
    generalize e * u * (1 + |x|) = w' at *
    norm_num at *
    linarith
  · rw [delR_cut]
    obtain ⟨-, k2⟩ := cube_part (cut3_mem x) (cut3_mem x)
    refine (abs_add_le _ _).trans ?_
    rw [abs_mul, abs_mul]
    have k3 : |max x 0| ≤ |x| := by
      rw [abs_of_nonneg (le_max_right x 0)]
      exact max_le (le_abs_self x) (abs_nonneg x)
    have k4 : |C| * |1 - ((3 - cut3 x) / 3) ^ 3| ≤ |C| := mul_le_of_le_one_right (abs_nonneg _) k2
    generalize |1 - ((3 - cut3 x) / 3) ^ 3| = q at *
    rw [abs_of_pos (by norm_num : (0 : ℝ) < 4.606)]
    norm_num
    linarith

/-- sizes of the constants of a material: charge, mass number and density -/
structure MatSize (Z A rho : ℝ) : Prop where
  Z1 : 1 / 2 ^ 7 ≤ Z
  Z2 : Z ≤ 2 ^ 7
  A1 : 1 / 2 ^ 10 ≤ A
  A2 : A ≤ 2 ^ 10
  r1 : 1 / 2 ^ 100 ≤ rho
  r2 : rho ≤ 2 ^ 100

variable {Z A rho : ℝ}

theorem two_rel : Rel 1 2 2 0 := by
  have := Rel.given (k := 1) (x := 2) (by norm_num) (by norm_num)
  rwa [← ofNat_eq 2] at this

theorem one_rel : Rel 0 1 1 0 := by
  have := Rel.given (k := 0) (x := 1) (by norm_num) (by norm_num)
  rwa [← one_eq] at this

theorem excitation_rel (h : NearestF 53 1074 fl) (hl : IsLogLib lg) (hM : MatSize Z A rho) :
    Rel 42 (excitationEnergy fl lg (fin Z)) (excitation Z) (11 : ℝ) := by
  have Z0 : 0 < Z := lt_of_lt_of_le (by positivity) hM.Z1
  have lz : |Real.log Z| ≤ 7 := by exact_mod_cast log_le_of Z0 hM.Z1 hM.Z2
  have e0 := Rel.lit (fl := fl) (x := 0.19) (k := 3) h (by norm_num) (by norm_num) (by norm_num)
  obtain ⟨w, hw, iw⟩ := e0.val
  have l2 : Real.log 2 ≤ 7 / 10 := by
    have := Real.log_two_lt_d9
    norm_num at this ⊢
    linarith
  have l20 : 0 ≤ Real.log 2 := Real.log_nonneg (by norm_num)
  have lz' : |Real.log Z| ≤ 7 * Real.log 2 := by
    have k1 := Real.log_le_log Z0 hM.Z2
    have k2 := Real.log_le_log (by positivity) hM.Z1
    rw [Real.log_pow] at k1
    rw [one_div, Real.log_inv, Real.log_pow] at k2
    norm_num at k1 k2
    rw [abs_le]
    constructor <;> linarith
  have r1 : (1 : ℝ) / 2 ^ 2 ≤ Z ^ (-0.19 : ℝ) ∧ Z ^ (-0.19 : ℝ) ≤ 2 ^ 2 := by
    obtain ⟨j1, j2⟩ := abs_le.1 lz'
    constructor
    · rw [Real.rpow_def_of_pos Z0, ← Real.log_le_iff_le_exp (by positivity), one_div, Real.log_inv, Real.log_pow]
      norm_num
      linarith
    · rw [Real.rpow_def_of_pos Z0, ← Real.le_log_iff_exp_le (by positivity), Real.log_pow]
      norm_num
      linarith
  have pw : Rel 2 (powD lg (fin Z) (-lit fl 0.19)) (Z ^ (-0.19 : ℝ)) (5 : ℝ) := by
    rw [hw, fin_neg]
    refine (Rel.pow hl (f := 14 / 10) Z0 r1.1 r1.2 (by norm_num) ?_ (by norm_num)).mono le_rfl (by norm_num)
    rw [show -w - (-0.19 : ℝ) = -(w - 0.19) by ring, abs_mul, abs_neg]
    refine (mul_le_mul iw lz (abs_nonneg _) (by positivity)).trans ?_
    norm_num
  have a1 := ((Rel.lit (x := 9.76) (k := 4) h (by norm_num) (by norm_num) (by norm_num)).mul h (Rel.given hM.Z1 hM.Z2) (by norm_num) (by norm_num)
    (by norm_num)).mono (Nat.le_refl 11) (show _ ≤ (71 / 10 : ℝ) by norm_num)
  have a2 := ((Rel.lit (x := 58.8) (k := 6) h (by norm_num) (by norm_num) (by norm_num)).mul h pw (by norm_num) (by norm_num)
    (by norm_num)).mono (show 8 ≤ 11 by norm_num) (show _ ≤ (71 / 10 : ℝ) by norm_num)
  have s := Rel.add h a1.zero a2.zero (add_pos a1.pos a2.pos) (by norm_num) (by norm_num)
  exact (s.mul h (Rel.lit (x := 1e-9) (k := 30) h (by norm_num) (by norm_num) (by norm_num)) (by norm_num) (by norm_num) (by norm_num)).mono
    (Nat.le_refl 42) (by norm_num)

theorem plasma_rel (h : NearestF 53 1074 fl) (hM : MatSize Z A rho) :
    Rel 152 (mulD fl (mulD fl (lit fl 28.816) (sqrtD fl (divD fl (mulD fl (fin rho) (fin Z)) (fin A)))) (lit fl 1e-9)) (plasma rho Z A) (73 / 10 : ℝ) := by
  have q := (((Rel.given hM.r1 hM.r2).mul h (Rel.given hM.Z1 hM.Z2) (by norm_num) (by norm_num) (by norm_num)).div h (Rel.given hM.A1 hM.A2) (by norm_num)
    (by norm_num) (by norm_num)).sqrt h (by norm_num) (by norm_num)
  have w := ((Rel.lit (x := 28.816) (k := 5) h (by norm_num) (by norm_num) (by norm_num)).mul h q (by norm_num) (by norm_num) (by norm_num)).mul h
    (Rel.lit (x := 1e-9) (k := 30) h (by norm_num) (by norm_num) (by norm_num)) (by norm_num) (by norm_num) (by norm_num)
  have e : 28.816 * √(rho * Z / A) * 1e-9 = plasma rho Z A := by
    unfold plasma
    rw [mul_div_assoc]
    ring
  rw [e] at w
  exact w.mono (Nat.le_refl 152) (by norm_num)

/-- `C0` of the density correction -/
theorem C0_ap (h : NearestF 53 1074 fl) (hl : IsLogLib lg) (hM : MatSize Z A rho) (hS : |Real.log (excitation Z / plasma rho Z A)| + 1 ≤ S) (hS' : S ≤ 2 ^ k)
    (hk : k ≤ 100) :
    Ap k S (-addD fl (mulD fl 2 (logD lg (divD fl (excitationEnergy fl lg (fin Z)) (mulD fl (mulD fl (lit fl 28.816)
      (sqrtD fl (divD fl (mulD fl (fin rho) (fin Z)) (fin A)))) (lit fl 1e-9))))) 1) (fin (-(2 * Real.log (excitation Z / plasma rho Z A) + 1))) 3 49 := by
  have q := (excitation_rel h hl hM).div h (plasma_rel h hM) (by norm_num) (by norm_num) (by norm_num)
  have g := (Rel.log hl q (by norm_num) hS hS').mono (B' := 1) (e' := 218 / 10) le_rfl (by norm_num)
  have two : Ap 0 1 2 (fin 2) 2 0 := by
    have := Ap.unit (x := 2) (B := 2) (by norm_num)
    rwa [← ofNat_eq 2] at this ⊢
  have S1 : 1 ≤ S := by linarith [abs_nonneg (Real.log (excitation Z / plasma rho Z A))]
  have one : Ap k S 1 (fin 1) 1 0 := by
    rw [one_eq]
    exact Ap.given g.lo g.hi (by rw [abs_one]; linarith)
  have m := Ap.mulr h two g (by omega) (by norm_num) (by norm_num) (by norm_num)
  have s := ((Ap.add h m one (by omega) (by norm_num) (by norm_num)).mono (B' := 3) (e' := 49) (by norm_num) (by norm_num)).neg
  rw [fin_mul, fin_add, fin_neg] at s
  exact s

variable {P : Dbl} {p m : ℝ}

/-- momentum over mass -/
theorem ratio_rel (h : NearestF 53 1074 fl) (hp : Rel 50 P p (601 / 100)) (hm : Rel 50 (fin m) m 0) :
    Rel 200 (divD fl (mulD fl P P) (mulD fl (fin m) (fin m))) ((p / m) ^ 2) (151 / 10) := by
  have := ((hp.mul h hp (by norm_num) (by norm_num) (by norm_num)).div h (hm.mul h hm (by norm_num) (by norm_num) (by norm_num)) (by norm_num) (by norm_num)
    (by norm_num)).mono (Nat.le_refl 200) (show _ ≤ (151 / 10 : ℝ) by norm_num)
  rwa [show p * p / (m * m) = (p / m) ^ 2 by rw [div_pow, sq, sq]] at this

/-- the maximal energy transfer -/
theorem transfer_rel (h : NearestF 53 1074 fl) {Q : Dbl} (hq : Rel 200 Q ((p / m) ^ 2) (151 / 10)) (hm : Rel 50 (fin m) m 0) :
    Rel 212 (mulD fl (mulD fl 2 (lit fl 0.510998902e-3)) Q) (2 * electronMass * (p / m) ^ 2) (183 / 10) ∧
    Rel 477 (divD fl (mulD fl (mulD fl 2 (lit fl 0.510998902e-3)) Q) (addD fl 1 (mulD fl (divD fl (lit fl 0.510998902e-3) (fin m))
      (addD fl (mulD fl 2 (sqrtD fl (addD fl 1 Q))) (divD fl (lit fl 0.510998902e-3) (fin m)))))) (maxTransfer p m) (44 : ℝ) := by
  have k := Rel.lit (fl := fl) (x := 0.510998902e-3) (k := 11) h (by norm_num) (by norm_num) (by norm_num)
  have w := ((two_rel.mul h k (by norm_num) (by norm_num) (by norm_num)).mul h hq (by norm_num) (by norm_num) (by norm_num)).mono (Nat.le_refl 212)
    (show _ ≤ (183 / 10 : ℝ) by norm_num)
  refine ⟨w, ?_⟩
  have r := (k.div h hm (by norm_num) (by norm_num) (by norm_num)).mono (show 61 ≤ 202 by norm_num) (show _ ≤ (184 / 10 : ℝ) by norm_num)
  have r' := (k.div h hm (by norm_num) (by norm_num) (by norm_num)).mono (show 61 ≤ 61 by norm_num) (show _ ≤ (21 / 10 : ℝ) by norm_num)
  have g := Rel.add h (one_rel.mono (show 0 ≤ 200 by norm_num) (show _ ≤ (151 / 10 : ℝ) by norm_num)).zero hq.zero (by linarith [hq.pos]) (by norm_num)
    (by norm_num)
  have g2 := (two_rel.mul h (g.sqrt h (by norm_num) (by norm_num)) (by norm_num) (by norm_num) (by norm_num)).mono (Nat.le_refl 202)
    (show _ ≤ (184 / 10 : ℝ) by norm_num)
  have s := Rel.add h g2.zero r.zero (add_pos g2.pos r.pos) (by norm_num) (by norm_num)
  have t := (r'.mul h s (by norm_num) (by norm_num) (by norm_num)).mono (Nat.le_refl 264) (show _ ≤ (227 / 10 : ℝ) by norm_num)
  have u := Rel.add h (one_rel.mono (show 0 ≤ 264 by norm_num) (show _ ≤ (227 / 10 : ℝ) by norm_num)).zero t.zero (by linarith [t.pos]) (by norm_num)
    (by norm_num)
  have v := (w.div h u (by norm_num) (by norm_num) (by norm_num)).mono (Nat.le_refl 477) (show _ ≤ (44 : ℝ) by norm_num)
  have e5 : (2 : ℝ) * 0.510998902e-3 * (p / m) ^ 2 / (1 + 0.510998902e-3 / m * (2 * √(1 + (p / m) ^ 2) + 0.510998902e-3 / m)) = maxTransfer p m := by
    unfold maxTransfer electronMass
    congr 1
    ring
  rw [e5] at v
  exact v

end Rnd

/-- size of the terms of the Bethe formula: 1 and the absolute values of the three logarithms -/
def betheScale (Z A rho p m : ℝ) : ℝ :=
  1 + |Real.log (2 * electronMass * (p / m) ^ 2 * maxTransfer p m / excitation Z ^ 2)| + |Real.log (excitation Z / plasma rho Z A)| +
    |Real.log (p / m) / Real.log 10|

namespace Rnd

variable {fl : ℝ → ℝ} {lg : LogLib} {Z A rho p m : ℝ} {P rad : Dbl}

theorem scale_le (h : NearestF 53 1074 fl) (hl : IsLogLib lg) (hM : MatSize Z A rho) (hp : Rel 50 P p (601 / 100)) (hm : Rel 50 (fin m) m 0) :
    betheScale Z A rho p m ≤ 2 ^ 11 := by
  have q := ratio_rel h hp hm
  obtain ⟨w1, w2⟩ := transfer_rel h q hm
  have I := excitation_rel h hl hM
  have a := (w1.mul h w2 (by norm_num) (by norm_num) (by norm_num)).div h (I.mul h I (by norm_num) (by norm_num) (by norm_num)) (by norm_num) (by norm_num)
    (by norm_num)
  have b := I.div h (plasma_rel h hM) (by norm_num) (by norm_num) (by norm_num)
  have c := hp.div h hm (by norm_num) (by norm_num) (by norm_num)
  have l1 : |Real.log (2 * electronMass * (p / m) ^ 2 * maxTransfer p m / (excitation Z * excitation Z))| ≤ 773 := by exact_mod_cast log_le_of a.pos a.lo a.hi
  have l2 : |Real.log (excitation Z / plasma rho Z A)| ≤ 194 := by exact_mod_cast log_le_of b.pos b.lo b.hi
  have l3 : |Real.log (p / m)| ≤ 100 := by exact_mod_cast log_le_of c.pos c.lo c.hi
  have l4 : |Real.log (p / m) / Real.log 10| ≤ 100 := by
    obtain ⟨t1, -⟩ := log_ten
    rw [abs_div, abs_of_pos (by linarith : 0 < Real.log 10), div_le_iff₀ (by linarith)]
    linarith
  unfold betheScale
  rw [sq (excitation Z)]
  norm_num
  linarith

/-- rounding errors of the Bethe formula -/
theorem bethe_ap (h : NearestF 53 1074 fl) (hl : IsLogLib lg) (hM : MatSize Z A rho) (hp : Rel 50 P p (601 / 100)) (hm : Rel 50 (fin m) m 0) :
    Ap 441 (0.307075e-3 * (Z / A) / betaSq p m * betheScale Z A rho p m) (computeBetheBloch fl lg ⟨fin Z, fin A, fin rho, rad⟩ P (fin m))
      (fin (bethe Z A (excitation Z) (2 * sternheimer (excitation Z) (plasma rho Z A) (Real.log (p / m) / Real.log 10)) p m)) 10 800 := by
  have p0 := hp.pos
  have m0 := hm.pos
  have S2 := scale_le h hl hM hp hm
  have sn1 := abs_nonneg (Real.log (2 * electronMass * (p / m) ^ 2 * maxTransfer p m / excitation Z ^ 2))
  have sn2 := abs_nonneg (Real.log (excitation Z / plasma rho Z A))
  have sn3 := abs_nonneg (Real.log (p / m) / Real.log 10)
  obtain ⟨S, hS⟩ : ∃ S, S = betheScale Z A rho p m := ⟨_, rfl⟩
  have hS0 := hS
  unfold betheScale at hS0
  rw [← hS] at S2 ⊢
  have q := ratio_rel h hp hm
  obtain ⟨w1, w2⟩ := transfer_rel h q hm
  have I := excitation_rel h hl hM
  have C := C0_ap (S := S) (k := 11) h hl hM (by rw [hS0]; linarith) S2 (by norm_num)
  have x := Rel.log10 hl (q.sqrt h (by norm_num) (by norm_num)) (by norm_num) (S := |Real.log (p / m) / Real.log 10| + 1) (l := 11)
    (by rw [Real.sqrt_sq (by positivity)]) (by linarith)
  rw [Real.sqrt_sq (by positivity)] at x
  have x := x.mono (B' := 1) (e' := 92 / 10) le_rfl (by norm_num)
  have del := del_ap h hl x C rfl (by rw [hS0]; linarith) (by norm_num) (by norm_num) (by norm_num)
  have del := del.mono (B' := 77 / 10) (e' := 280) le_rfl (by norm_num)
  have a := ((w1.mul h w2 (by norm_num) (by norm_num) (by norm_num)).div h (I.mul h I (by norm_num) (by norm_num) (by norm_num)) (by norm_num) (by norm_num)
    (by norm_num)).mono (Nat.le_refl 773) (show _ ≤ (89 : ℝ) by norm_num)
  rw [← sq (excitation Z)] at a
  have la := (Rel.log hl a (by norm_num) (S := S) (l := 11) (by rw [hS0]; linarith) S2).mono (B' := 1) (e' := 912 / 10) le_rfl (by norm_num)
  have half : Ap 0 1 (lit fl 0.5) (fin 0.5) (1 / 2) (1 / 2 * (1001 / 1000)) :=
    (Rel.lit (x := 0.5) (k := 1) h (by norm_num) (by norm_num) (by norm_num)).ap.rescale (c := 1 / 2) (T := 1) (l := 0) (by norm_num) (by norm_num)
      (by norm_num) |>.mono (by norm_num) (by norm_num)
  have t1 := (Ap.mulr h half la (by norm_num) (by norm_num) (by norm_num) (by norm_num)).mono (B' := 1 / 2) (e' := 467 / 10) (by norm_num) (by norm_num)
  have g := (Rel.add h (one_rel.mono (show 0 ≤ 200 by norm_num) (show _ ≤ (151 / 10 : ℝ) by norm_num)).zero q.zero (by linarith [q.pos]) (by norm_num)
    (by norm_num)).mono (Nat.le_refl 201) (show _ ≤ (162 / 10 : ℝ) by norm_num)
  have t2 := ((q.div h g (by norm_num) (by norm_num) (by norm_num)).ap.rescale (c := 1) (T := S) (l := 11) (by
    rw [one_mul, hS0]
    refine le_trans ?_ (show 1 ≤ _ by linarith)
    rw [div_le_one g.pos]
    linarith) la.lo la.hi).mono (B' := 1) (e' := 324 / 10) (by norm_num) (by norm_num)
  have t3 := (Ap.sub h t1 t2 (by norm_num) (by norm_num) (by norm_num)).mono (B' := 3 / 2) (e' := 807 / 10) (by norm_num) (by norm_num)
  have t4 := (Ap.sub h t3 del (by norm_num) (by norm_num) (by norm_num)).mono (B' := 93 / 10) (e' := 371) (by norm_num) (by norm_num)
  have f1 := ((((Rel.lit (x := 0.307075e-3) (k := 12) h (by norm_num) (by norm_num) (by norm_num)).mul h (Rel.given hM.Z1 hM.Z2) (by norm_num) (by norm_num)
    (by norm_num)).div h (Rel.given hM.A1 hM.A2) (by norm_num) (by norm_num) (by norm_num)).mul h g (by norm_num) (by norm_num) (by norm_num)).div h q
    (by norm_num) (by norm_num) (by norm_num)
  have f1 := f1.mono (Nat.le_refl 430) (show _ ≤ (37 : ℝ) by norm_num)
  have b0 : betaSq p m ≠ 0 := by
    unfold betaSq
    positivity
  have e3 : (p / m) ^ 2 / (1 + (p / m) ^ 2) = betaSq p m := by
    unfold betaSq
    have : p ^ 2 + m ^ 2 ≠ 0 := by positivity
    have : 1 + (p / m) ^ 2 ≠ 0 := by positivity
    field_simp
    ring
  have e4 : 0.307075e-3 * Z / A * (1 + (p / m) ^ 2) / (p / m) ^ 2 = 0.307075e-3 * (Z / A) / betaSq p m := by
    rw [mul_div_assoc _ (1 + (p / m) ^ 2), ← one_div_div ((p / m) ^ 2), e3]
    ring
  rw [e4] at f1
  have r := (Ap.mul h f1.ap t4 (by norm_num) (by norm_num) (by norm_num) (by norm_num)).mono (B' := 10) (e' := 800) (by norm_num) (by norm_num)
  rw [fin_mul, fin_sub, fin_sub, fin_mul, delR_sternheimer, e3] at r
  have e5 : 0.307075e-3 * (Z / A) / betaSq p m * (0.5 * Real.log (2 * electronMass * (p / m) ^ 2 * maxTransfer p m / excitation Z ^ 2) - betaSq p m -
      sternheimer (excitation Z) (plasma rho Z A) (Real.log (p / m) / Real.log 10)) =
      bethe Z A (excitation Z) (2 * sternheimer (excitation Z) (plasma rho Z A) (Real.log (p / m) / Real.log 10)) p m := by
    unfold bethe
    ring
  rw [e5] at r
  exact r

end Rnd

end Verif
