import Verif.Lemmas.RoundedPath
import Verif.Props.RoundedHelix
import Verif.Props.Rounding

/-!
# Path lengths in double precision: C136
-/

open Classical

noncomputable section

namespace Verif

open Dbl Rnd

variable {fl : ℝ → ℝ} {lm : Libm} {at2 : ℝ → ℝ → ℝ}

/-- rounded functions meet the specification of the library -/
theorem correctLib_libm (h : NearestF 53 1074 fl) (hc : CorrectLib fl lm at2) : IsLibm lm ∧ IsAtan2 at2 := by
  have key : ∀ t, |fl t - t| ≤ |t| / 2 ^ 52 + 1 / 2 ^ 1074 := fun t => by
    refine (h.err (by norm_num) t).trans (add_le_add ?_ ?_)
    · exact div_le_div_of_nonneg_left (abs_nonneg t) (by positivity) (by norm_num)
    · exact one_div_le_one_div_of_le (by positivity) (pow_le_pow_right₀ (by norm_num) (by norm_num))
  exact ⟨⟨fun x => by rw [hc.sin]; exact key _, fun x => by rw [hc.cos]; exact key _⟩, fun y x _ => by rw [hc.atan2]; exact key _⟩

/-- C136: in double precision, with library functions that are correctly rounded, `calculateSfromXY` gives 0 for all points near which
the track is straight, however far away they are. -/
theorem C136_stuck (h : NearestF 53 1074 fl) (hc : CorrectLib fl lm at2) {om tl ph d z rx ry rz x y : ℝ} (hph : RepF 53 1074 ph)
    (h1 : 1 < |ph|) (h3 : |ph| ≤ 3) (ho : |om| ≤ 2 ^ 200) (hd : |d| ≤ 2 ^ 200) (hx : |rx| ≤ 2 ^ 200) (hy : |ry| ≤ 2 ^ 200)
    (hX : |x| ≤ 2 ^ 200) (hY : |y| ≤ 2 ^ 200) (hsmall : |om| * (|x| + |y| + |rx| + |ry| + |d|) ≤ 1 / 2 ^ 66) :
    Rnd.calculateSfromXY fl lm at2 (fin x) (fin y) (hpR om tl ph d z) (V3.re rx ry rz) = 0 := by
  obtain ⟨hl, -⟩ := correctLib_libm h hc
  have R : ∀ {t : ℝ} {n : ℕ}, |t| ≤ 2 ^ n → n ≤ 1000 → rnd fl 1024 (fin t) = fin (fl t) := fun ht hn => rnd_double h (size_mono ht hn)
  have S1 := lib_size (Real.abs_sin_le_one _) (hl.sin_err ph)
  have C1 := lib_size (Real.abs_cos_le_one _) (hl.cos_err ph)
  have p1 := size_mul S1 hd
  have p2 := size_fl h p1
  have r1 := size_mul C1 hd
  have r2 := size_fl h r1
  have x1 := size_sub (size_mono hx (by norm_num)) p2
  have x2 := size_fl h x1
  have y1 := size_add (size_mono hy (by norm_num)) r2
  have y2 := size_fl h y1
  have dx1 := size_sub (size_mono hX (by norm_num)) x2
  have dx2 := size_fl h dx1
  have dy1 := size_sub (size_mono hY (by norm_num)) y2
  have dy2 := size_fl h dy1
  have q1 := size_mul ho dx2
  have q2 := size_fl h q1
  have w1 := size_mul ho dy2
  have w2 := size_fl h w1
  have A1 := size_sub (size_mono S1 (by norm_num)) q2
  have B1 := size_add (size_mono C1 (by norm_num)) w2
  -- sizes of the small numbers
  have dS : ∀ t, |fl t| ≤ 2 * |t| := h.double
  have qs : |fl (om * fl (x - fl (rx - fl (lm.sin ph * d))))| ≤ 1 / 2 ^ 61 := by
    have k1 := dS (lm.sin ph * d)
    have k2 := dS (rx - fl (lm.sin ph * d))
    have k3 := dS (x - fl (rx - fl (lm.sin ph * d)))
    have k4 := dS (om * fl (x - fl (rx - fl (lm.sin ph * d))))
    have j1 := abs_sub rx (fl (lm.sin ph * d))
    have j2 := abs_sub x (fl (rx - fl (lm.sin ph * d)))
    rw [abs_mul] at k1 k4
    have k1' : |lm.sin ph| * |d| ≤ 2 * |d| := mul_le_mul_of_nonneg_right (by rwa [pow_one] at S1) (abs_nonneg d)
    have k5 : |fl (x - fl (rx - fl (lm.sin ph * d)))| ≤ 16 * (|x| + |y| + |rx| + |ry| + |d|) := by
      have := abs_nonneg x; have := abs_nonneg y; have := abs_nonneg rx; have := abs_nonneg ry; have := abs_nonneg d
      linarith
    have k6 := mul_le_mul_of_nonneg_left k5 (abs_nonneg om)
    norm_num at *
    linarith
  have ws : |fl (om * fl (y - fl (ry + fl (lm.cos ph * d))))| ≤ 1 / 2 ^ 61 := by
    have k1 := dS (lm.cos ph * d)
    have k2 := dS (ry + fl (lm.cos ph * d))
    have k3 := dS (y - fl (ry + fl (lm.cos ph * d)))
    have k4 := dS (om * fl (y - fl (ry + fl (lm.cos ph * d))))
    have j1 := abs_add_le ry (fl (lm.cos ph * d))
    have j2 := abs_sub y (fl (ry + fl (lm.cos ph * d)))
    rw [abs_mul] at k1 k4
    have k1' : |lm.cos ph| * |d| ≤ 2 * |d| := mul_le_mul_of_nonneg_right (by rwa [pow_one] at C1) (abs_nonneg d)
    have k5 : |fl (y - fl (ry + fl (lm.cos ph * d)))| ≤ 16 * (|x| + |y| + |rx| + |ry| + |d|) := by
      have := abs_nonneg x; have := abs_nonneg y; have := abs_nonneg rx; have := abs_nonneg ry; have := abs_nonneg d
      linarith
    have k6 := mul_le_mul_of_nonneg_left k5 (abs_nonneg om)
    norm_num at *
    linarith
  have tiny' : (1 : ℝ) / 2 ^ (1074 + 1) ≤ 1 / 2 ^ 60 := one_div_le_one_div_of_le (by positivity) (pow_le_pow_right₀ (by norm_num) (by norm_num))
  -- the arguments of atan2
  have hA : |fl (lm.sin ph - fl (om * fl (x - fl (rx - fl (lm.sin ph * d))))) - Real.sin ph| ≤ |Real.sin ph| / 2 ^ 53 + 1 / 2 ^ 59 := by
    generalize fl (om * fl (x - fl (rx - fl (lm.sin ph * d)))) = q at *
    have n1 := h.near (lm.sin ph - q) (lm.sin ph) (by rw [hc.sin]; exact h.rep _)
    rw [sub_sub_cancel] at n1
    have n2 := h.err (by norm_num) (Real.sin ph)
    rw [← hc.sin] at n2
    have n3 := near_trans n1 (show |lm.sin ph - q - lm.sin ph| ≤ |q| by rw [sub_sub_cancel_left, abs_neg])
    have n4 := near_trans n3 n2
    clear hsmall
    generalize (1 : ℝ) / 2 ^ (1074 + 1) = η at *
    norm_num at *
    linarith
  have hB : |fl (lm.cos ph + fl (om * fl (y - fl (ry + fl (lm.cos ph * d))))) - Real.cos ph| ≤ |Real.cos ph| / 2 ^ 53 + 1 / 2 ^ 59 := by
    generalize fl (om * fl (y - fl (ry + fl (lm.cos ph * d)))) = q at *
    have n1 := h.near (lm.cos ph + q) (lm.cos ph) (by rw [hc.cos]; exact h.rep _)
    rw [sub_add_cancel_left, abs_neg] at n1
    have n2 := h.err (by norm_num) (Real.cos ph)
    rw [← hc.cos] at n2
    have n3 := near_trans n1 (show |lm.cos ph + q - lm.cos ph| ≤ |q| by rw [add_sub_cancel_left])
    have n4 := near_trans n3 n2
    clear hsmall
    generalize (1 : ℝ) / 2 ^ (1074 + 1) = η at *
    norm_num at *
    linarith
  have back := azimuth_back h hph h1 h3 hA hB
  rw [Rnd.calculateSfromXY]
  simp only [calculateCurvature_hpR, calculatePhi0_hpR, calculateD0_hpR, V3.re, sinD, cosD, addD, subD, mulD, divD, fin_mul]
  rw [R p1 (by norm_num), R r1 (by norm_num), fin_sub, R x1 (by norm_num), fin_add, R y1 (by norm_num), fin_sub, R dx1 (by norm_num), fin_sub,
    R dy1 (by norm_num), fin_mul, R q1 (by norm_num), fin_mul, R w1 (by norm_num), fin_sub, R A1 (by norm_num), fin_add, R B1 (by norm_num)]
  simp only [atan2D, hc.atan2, back, fin_sub, sub_self]
  have f0 : rnd fl 1024 (fin 0) = fin 0 := by
    rw [rnd_double h (by rw [_root_.abs_zero]; positivity), h.fix repF_zero]
  rw [f0]
  have pi0 : 0 < Rounded.mPi := by unfold Rounded.mPi; norm_num
  rw [fin_neg, cif_neg (show ¬ fin 0 < fin (-Rounded.mPi) by rw [fin_lt]; linarith),
    cif_neg (show ¬ fin Rounded.mPi < fin 0 by rw [fin_lt]; linarith), cif_neg (by rw [zero_eq, fin_eqv]; simp)]

/-- C136, up to almost half a turn -/
theorem path_error (h : NearestF 53 1074 fl) (hl : IsLibm lm) (ha : IsAtan2 at2) {om tl ph d z rx ry rz s ε X Y : ℝ}
    (hr : HelixRange om tl ph d z rx ry rz s) {x y w : ℝ → ℝ}
    (ht : Spec.IsTrack om tl ph (rx - d * Real.sin ph) (ry + d * Real.cos ph) (rz + z) x y w) (hph : |ph| ≤ Real.pi)
    (hos1 : 1 / 2 ^ 40 ≤ |om * s|) (hos2 : |om * s| ≤ 3) (hX : |X - x s| ≤ ε) (hY : |Y - y s| ≤ ε) (hε : ε ≤ |s| / 1000)
    (hfar : |rx| + |ry| + |d| ≤ 2 ^ 40 * |s|) :
    ∃ S, Rnd.calculateSfromXY fl lm at2 (fin X) (fin Y) (hpR om tl ph d z) (V3.re rx ry rz) = fin S ∧
      (|om * s| ≤ 7 / 5 → |S - s| ≤ 30 * ε + 1 / 2 ^ 53 * (200 * |s| + 90 * |d| + 40 * |rx| + 40 * |ry|) + 1 / 2 ^ 500) ∧
      (7 / 5 ≤ |om * s| → |S - s| ≤ 600 * ε + 1 / 2 ^ 53 * (3100 * |s| + 2100 * |d| + 900 * |rx| + 900 * |ry|) + 1 / 2 ^ 500) := by
  have hom : om ≠ 0 := abs_pos.1 (lt_of_lt_of_le (by positivity) hr.om_pos)
  have o0 : 0 < |om * s| := lt_of_lt_of_le (by positivity) hos1
  have hs : s ≠ 0 := fun q => by rw [q, mul_zero, _root_.abs_zero] at o0; exact lt_irrefl _ o0
  have s0 : 0 < |s| := abs_pos.2 hs
  have ε0 : 0 ≤ ε := (abs_nonneg _).trans hX
  obtain ⟨u1, u2, -⟩ := ht.unique (isTrack_r hom)
  subst u1 u2
  set Δx := 1 / om * (Real.sin ph - Real.sin (ph - om * s)) with hΔx
  set Δy := 1 / om * (Real.cos (ph - om * s) - Real.cos ph) with hΔy
  have ex : rX om ph d rx s = rx + -1 * (Real.sin ph * d) + Δx := by rw [rX, hΔx, mul_comm s om]; ring
  have ey : rY om ph d ry s = ry + 1 * (Real.cos ph * d) + Δy := by rw [rY, hΔy, mul_comm s om]; ring
  have bΔ : ∀ {t : ℝ}, |t| ≤ |om * s| → |1 / om * t| ≤ |s| := fun {t} q => by
    rw [abs_mul, abs_div, abs_one, one_div, inv_mul_le_iff₀ (abs_pos.2 hom), ← abs_mul]
    exact q
  have bx : |Δx| ≤ |s| := bΔ ((Real.abs_sin_sub_sin_le _ _).trans (by rw [sub_sub_cancel]))
  have by' : |Δy| ≤ |s| := bΔ ((Real.abs_cos_sub_cos_le _ _).trans (by rw [sub_sub_cancel_left, abs_neg]))
  have oΔx : om * Δx = Real.sin ph - Real.sin (ph - om * s) := by rw [hΔx]; field_simp
  have oΔy : om * Δy = Real.cos (ph - om * s) - Real.cos ph := by rw [hΔy]; field_simp
  have eΔ : Δx * Real.cos ph + Δy * Real.sin ph = Real.sin (om * s) / om := by
    have e1 : Real.sin (om * s) = Real.sin (ph - (ph - om * s)) := by rw [sub_sub_cancel]
    rw [e1, Real.sin_sub, hΔx, hΔy]
    ring
  rw [ex] at hX
  rw [ey] at hY
  -- sizes
  have R : ∀ {t : ℝ} {n : ℕ}, |t| ≤ 2 ^ n → n ≤ 1000 → rnd fl 1024 (fin t) = fin (fl t) := fun ht hn => rnd_double h (size_mono ht hn)
  have S1 := lib_size (Real.abs_sin_le_one _) (hl.sin_err ph)
  have C1 := lib_size (Real.abs_cos_le_one _) (hl.cos_err ph)
  have big : ∀ {t r c e : ℝ}, |t - (r + e * (c * d) + 0)| ≤ ε + |s| → |e| = 1 → |c| ≤ 1 → |r| ≤ 2 ^ 200 → |t| ≤ 2 ^ 203 := by
    intro t r c e h1 h2 h3 h4
    have k1 := abs_near h1
    have k2 : |r + e * (c * d) + 0| ≤ |r| + |d| := by
      rw [add_zero]
      refine (abs_add_le _ _).trans (add_le_add le_rfl ?_)
      rw [abs_mul, h2, one_mul, abs_mul]
      exact mul_le_of_le_one_left (abs_nonneg d) h3
    have k3 := hr.d
    have k4 := hr.s
    have e : (2 : ℝ) ^ 203 = 2 ^ 200 * 8 := by rw [show (203 : ℕ) = 200 + 3 by norm_num, pow_add]; norm_num
    rw [e]
    generalize (2 : ℝ) ^ 200 = M at *
    linarith
  have X1 : |X| ≤ 2 ^ 203 := big (r := rx) (e := -1) (c := Real.sin ph)
    (by rw [show X - (rx + -1 * (Real.sin ph * d) + 0) = (X - (rx + -1 * (Real.sin ph * d) + Δx)) + Δx by ring]
        exact (abs_add_le _ _).trans (add_le_add hX bx)) (by simp) (Real.abs_sin_le_one _) hr.rx
  have Y1 : |Y| ≤ 2 ^ 203 := big (r := ry) (e := 1) (c := Real.cos ph)
    (by rw [show Y - (ry + 1 * (Real.cos ph * d) + 0) = (Y - (ry + 1 * (Real.cos ph * d) + Δy)) + Δy by ring]
        exact (abs_add_le _ _).trans (add_le_add hY by')) (by simp) (Real.abs_cos_le_one _) hr.ry
  have p1 := size_mul S1 hr.d
  have p2 := size_fl h p1
  have r1 := size_mul C1 hr.d
  have r2 := size_fl h r1
  have x1 := size_sub (size_mono hr.rx (by norm_num)) p2
  have x2 := size_fl h x1
  have y1 := size_add (size_mono hr.ry (by norm_num)) r2
  have y2 := size_fl h y1
  have dx1 := size_sub (size_mono X1 (by norm_num)) x2
  have dx2 := size_fl h dx1
  have dy1 := size_sub (size_mono Y1 (by norm_num)) y2
  have dy2 := size_fl h dy1
  have q1 := size_mul hr.om dx2
  have q2 := size_fl h q1
  have w1 := size_mul hr.om dy2
  have w2 := size_fl h w1
  have A1 := size_sub (size_mono S1 (by norm_num)) q2
  have B1 := size_add (size_mono C1 (by norm_num)) w2
  have m1 := size_mul dx2 C1
  have m2 := size_fl h m1
  have n1 := size_mul dy2 S1
  have n2 := size_fl h n1
  have L1 := size_add m2 n2
  have L2 := size_fl h L1
  -- the small numbers
  have os : |om| * |s| = |om * s| := (abs_mul _ _).symm
  have hsl : 1 / 2 ^ 240 ≤ |s| := by
    have k : 1 / 2 ^ 40 ≤ 2 ^ 200 * |s| := by
      refine hos1.trans ?_
      rw [← os]
      exact mul_le_mul_of_nonneg_right hr.om s0.le
    rw [show (2 : ℝ) ^ 240 = 2 ^ 40 * 2 ^ 200 by rw [← pow_add], ← div_div]
    rw [div_le_iff₀ (by positivity), mul_comm]
    exact k
  have hηE : (1 : ℝ) / 2 ^ 1075 ≤ 1 / 2 ^ 800 := one_div_le_one_div_of_le (by positivity) (pow_le_pow_right₀ (by norm_num) (by norm_num))
  have hηd : 1 / 2 ^ 1075 * |d| ≤ 1 / 2 ^ 800 := by
    rw [show (2 : ℝ) ^ 1075 = 2 ^ 800 * 2 ^ 275 by rw [← pow_add], one_div_mul_eq_div, div_le_div_iff₀ (by positivity) (by positivity), one_mul, mul_comm]
    exact mul_le_mul_of_nonneg_left (size_mono hr.d (by norm_num)) (by positivity)
  have hηo : (1 : ℝ) / 2 ^ 1075 ≤ 1 / 2 ^ 800 * |om * s| := by
    refine le_trans ?_ (mul_le_mul_of_nonneg_left hos1 (by positivity))
    rw [one_div_mul_one_div, ← pow_add]
    exact one_div_le_one_div_of_le (by positivity) (pow_le_pow_right₀ (by norm_num) (by norm_num))
  have hEs : 1000000 * ((1 : ℝ) / 2 ^ 800) ≤ |s| := by
    refine le_trans ?_ hsl
    rw [mul_one_div, div_le_div_iff₀ (by positivity) (by positivity), one_mul, show (2 : ℝ) ^ 800 = 2 ^ 560 * 2 ^ 240 by rw [← pow_add]]
    refine mul_le_mul_of_nonneg_right ?_ (by positivity)
    calc (1000000 : ℝ) ≤ 2 ^ 20 := by norm_num
      _ ≤ 2 ^ 560 := pow_le_pow_right₀ (by norm_num) (by norm_num)
  have hηu' : 4 * ((1 : ℝ) / 2 ^ 1075) ≤ 1 / 2 ^ 53 * |om * s| := by
    refine le_trans ?_ (mul_le_mul_of_nonneg_left hos1 (by positivity))
    rw [one_div_mul_one_div, ← pow_add, mul_one_div, div_le_div_iff₀ (by positivity) (by positivity), one_mul,
      show (2 : ℝ) ^ 1075 = 2 ^ 982 * 2 ^ (53 + 40) by rw [← pow_add]]
    refine mul_le_mul_of_nonneg_right ?_ (by positivity)
    calc (4 : ℝ) ≤ 2 ^ 2 := by norm_num
      _ ≤ 2 ^ 982 := pow_le_pow_right₀ (by norm_num) (by norm_num)
  have hE5 : 4000 * ((1 : ℝ) / 2 ^ 800) ≤ 1 / 2 ^ 500 := by
    rw [mul_one_div, div_le_div_iff₀ (by positivity) (by positivity), one_mul, show (2 : ℝ) ^ 800 = 2 ^ 300 * 2 ^ 500 by rw [← pow_add]]
    refine mul_le_mul_of_nonneg_right ?_ (by positivity)
    calc (4000 : ℝ) ≤ 2 ^ 12 := by norm_num
      _ ≤ 2 ^ 300 := pow_le_pow_right₀ (by norm_num) (by norm_num)
  have huo : (1 : ℝ) / 2 ^ 53 ≤ 1 / 8192 * |om * s| := by
    refine le_trans ?_ (mul_le_mul_of_nonneg_left hos1 (by norm_num))
    norm_num
  have hufar : 1 / 2 ^ 53 * (|rx| + |ry| + |d|) ≤ 1 / 8192 * |s| := by
    refine (mul_le_mul_of_nonneg_left hfar (by positivity)).trans ?_
    norm_num
    linarith
  have err := err_double h
  have hη0 : (0 : ℝ) ≤ 1 / 2 ^ 1075 := by positivity
  have hpi : |Rounded.mPi - Real.pi| ≤ 2 * (1 / 2 ^ 53) := by
    have a := Real.pi_gt_d20
    have b := Real.pi_lt_d20
    unfold Rounded.mPi
    rw [abs_le]
    constructor <;> norm_num at a b ⊢ <;> linarith
  have f2 : fl (2 * Rounded.mPi) = 2 * Rounded.mPi := h.fix Rounded.rep_two
  have lsin := fun t => lib_err (hl.sin_err t)
  have lcos := fun t => lib_err (hl.cos_err t)
  have lat : ∀ {a b : ℝ}, ¬ (b = 0 ∧ a = 0) → |at2 a b - ratan2 a b| ≤ 2 * (1 / 2 ^ 53) * |ratan2 a b| + 2 * (1 / 2 ^ 1075) := fun q => lib_err (ha _ _ q)
  have hηu := eta_small
  have hu1000 : (1 : ℝ) / 2 ^ 53 ≤ 1 / 1000 := by norm_num
  -- displacement
  have kx := shift_error (u := 1 / 2 ^ 53) (η := 1 / 2 ^ 1075) (E := 1 / 2 ^ 800) (r := rx) (d := d) (σ := -1) (by positivity) hu1000 hη0 hηE hηd ε0
    (by simp) (Real.abs_sin_le_one ph) (lsin ph) (err _) (err _) hX bx (err _)
  have ky := shift_error (u := 1 / 2 ^ 53) (η := 1 / 2 ^ 1075) (E := 1 / 2 ^ 800) (r := ry) (d := d) (σ := 1) (by positivity) hu1000 hη0 hηE hηd ε0
    (by simp) (Real.abs_cos_le_one ph) (lcos ph) (err _) (err _) hY by' (err _)
  have ec1 : rx + -1 * fl (lm.sin ph * d) = rx - fl (lm.sin ph * d) := by ring
  have ec2 : ry + 1 * fl (lm.cos ph * d) = ry + fl (lm.cos ph * d) := by ring
  rw [ec1] at kx
  rw [ec2] at ky
  rw [Rnd.calculateSfromXY]
  simp only [calculateCurvature_hpR, calculatePhi0_hpR, calculateD0_hpR, V3.re, sinD, cosD, addD, subD, mulD, divD, fin_mul]
  rw [R p1 (by norm_num), R r1 (by norm_num), fin_sub, R x1 (by norm_num), fin_add, R y1 (by norm_num), fin_sub, R dx1 (by norm_num), fin_sub,
    R dy1 (by norm_num), fin_mul, R q1 (by norm_num), fin_mul, R w1 (by norm_num), fin_sub, R A1 (by norm_num), fin_add, R B1 (by norm_num),
    fin_mul, R m1 (by norm_num), fin_mul, R n1 (by norm_num), fin_add, R L1 (by norm_num)]
  clear p1 p2 r1 r2 x1 x2 y1 y2 dx1 dy1 q1 q2 w1 w2 A1 B1 m1 m2 n1 n2 L1 ec1 ec2 X1 Y1 big hX hY ex ey
  generalize fl (X - fl (rx - fl (lm.sin ph * d))) = dx at *
  generalize fl (Y - fl (ry + fl (lm.cos ph * d))) = dy at *
  obtain ⟨e, he⟩ : ∃ e, e = 2 * ε + 1 / 2 ^ 53 * (7 * |d| + 3 * (|rx| + |ry|) + 2 * |s|) + 10 * (1 / 2 ^ 800) := ⟨_, rfl⟩
  have v0 : (0 : ℝ) < 1 / 2 ^ 53 := by positivity
  have kx' : |dx - Δx| ≤ e := by
    refine kx.trans ?_
    have := mul_nonneg v0.le (abs_nonneg ry)
    rw [he]
    generalize (1 : ℝ) / 2 ^ 800 = E at *
    linarith
  have ky' : |dy - Δy| ≤ e := by
    refine ky.trans ?_
    have := mul_nonneg v0.le (abs_nonneg rx)
    rw [he]
    generalize (1 : ℝ) / 2 ^ 800 = E at *
    linarith
  have es : e ≤ 1 / 300 * |s| := by
    have a1 := mul_nonneg v0.le (abs_nonneg rx)
    have a2 := mul_nonneg v0.le (abs_nonneg ry)
    have a3 : (1 : ℝ) / 2 ^ 53 * |s| ≤ 1 / 1000000 * |s| := mul_le_mul_of_nonneg_right (by norm_num) s0.le
    rw [he]
    generalize (1 : ℝ) / 2 ^ 53 = v at *
    generalize (1 : ℝ) / 2 ^ 800 = E at *
    linarith
  have oe : |om| * e ≤ 1 / 300 * |om * s| := by
    have := mul_le_mul_of_nonneg_left es (abs_nonneg om)
    rw [← os]
    linarith
  have e0 : 0 ≤ e := (abs_nonneg _).trans kx'
  -- arguments of atan2
  have bo : ∀ {a b : ℝ}, |a| ≤ 1 → |b| ≤ 1 → |a - b| ≤ 2 := fun p q => (abs_sub _ _).trans (by linarith)
  have KA := arg_error (u := 1 / 2 ^ 53) (η := 1 / 2 ^ 1075) (τ := -1) (t0 := Real.sin ph) (om := om) (Δ := Δx) v0.le hu1000 hη0 hηu (by simp)
    (Real.abs_sin_le_one _) (by rw [oΔx]; exact bo (Real.abs_sin_le_one _) (Real.abs_sin_le_one _)) (by linarith) (lsin ph) kx' (err _) (err _)
  have KB := arg_error (u := 1 / 2 ^ 53) (η := 1 / 2 ^ 1075) (τ := 1) (t0 := Real.cos ph) (om := om) (Δ := Δy) v0.le hu1000 hη0 hηu (by simp)
    (Real.abs_cos_le_one _) (by rw [oΔy]; exact bo (Real.abs_cos_le_one _) (Real.abs_cos_le_one _)) (by linarith) (lcos ph) ky' (err _) (err _)
  rw [show lm.sin ph + -1 * fl (om * dx) = lm.sin ph - fl (om * dx) by ring,
    show Real.sin ph + -1 * (om * Δx) = Real.sin (ph - om * s) by rw [oΔx]; ring] at KA
  rw [show lm.cos ph + 1 * fl (om * dy) = lm.cos ph + fl (om * dy) by ring,
    show Real.cos ph + 1 * (om * Δy) = Real.cos (ph - om * s) by rw [oΔy]; ring] at KB
  generalize fl (lm.sin ph - fl (om * dx)) = A at *
  generalize fl (lm.cos ph + fl (om * dy)) = B at *
  have hα : |om| * e + 12 * (1 / 2 ^ 53) ≤ 1 / 40 := by norm_num at *; linarith
  obtain ⟨⟨δ, k, hk, hδ⟩, hne⟩ := angle_error hα KA KB
  have hat := lat hne
  have hmem := ratan2_mem A B
  have hmem' : |ratan2 A B| ≤ Real.pi := abs_le.2 ⟨hmem.1.le, hmem.2⟩
  have hat' : |at2 A B - ratan2 A B| ≤ 8 * (1 / 2 ^ 53) := by
    have p := Real.pi_lt_d2
    have : 2 * ((1 : ℝ) / 2 ^ 53) * |ratan2 A B| ≤ 2 * (1 / 2 ^ 53) * 3.15 := mul_le_mul_of_nonneg_left (by linarith) (by positivity)
    generalize (1 : ℝ) / 2 ^ 1075 = η at *
    generalize (1 : ℝ) / 2 ^ 53 = v at *
    linarith
  have hphi : |at2 A B| ≤ Real.pi + 8 * (1 / 2 ^ 53) := (abs_near hat').trans (by linarith)
  rw [hk] at hat'
  obtain ⟨D1, D2⟩ := turn_error (fl := fl) (m := Rounded.mPi) hu1000 hη0 hηu err hpi hph hos2 hδ hα hphi hat' f2
  have hsize : |at2 A B - ph| ≤ 2 ^ 3 := by
    have p := Real.pi_lt_d2
    have := abs_sub (at2 A B) ph
    norm_num at *
    linarith
  have w3 : |fl (2 * Rounded.mPi)| ≤ 2 ^ 3 := by rw [f2]; unfold Rounded.mPi; rw [abs_of_pos (by norm_num)]; norm_num
  have w4 : |2 * Rounded.mPi| ≤ 2 ^ 3 := by rw [← f2]; exact w3
  have D1' : |fl (at2 A B - ph)| ≤ 2 ^ 3 := D1.trans (by norm_num)
  simp only [atan2D, fin_sub, ofNat_eq, fin_mul, fin_neg]
  rw [R hsize (by norm_num), R w4 (by norm_num), fin_add, R (size_add D1' w3) (by norm_num), fin_sub, R (size_sub D1' w3) (by norm_num)]
  have split : (ifc fin (fl (at2 A B - ph)) < fin (-Rounded.mPi) then fin (fl (fl (at2 A B - ph) + fl (2 * Rounded.mPi)))
      else ifc fin Rounded.mPi < fin (fl (at2 A B - ph)) then fin (fl (fl (at2 A B - ph) - fl (2 * Rounded.mPi))) else fin (fl (at2 A B - ph))) =
      fin (if fl (at2 A B - ph) < -Rounded.mPi then fl (fl (at2 A B - ph) + fl (2 * Rounded.mPi)) else
        if Rounded.mPi < fl (at2 A B - ph) then fl (fl (at2 A B - ph) - fl (2 * Rounded.mPi)) else fl (at2 A B - ph)) := by
    by_cases c1 : fl (at2 A B - ph) < -Rounded.mPi
    · rw [cif_pos (by rw [fin_lt]; exact c1), if_pos c1]
    · rw [cif_neg (by rw [fin_lt]; exact c1), if_neg c1]
      by_cases c2 : Rounded.mPi < fl (at2 A B - ph)
      · rw [cif_pos (by rw [fin_lt]; exact c2), if_pos c2]
      · rw [cif_neg (by rw [fin_lt]; exact c2), if_neg c2]
  rw [split]
  clear split
  generalize (if fl (at2 A B - ph) < -Rounded.mPi then fl (fl (at2 A B - ph) + fl (2 * Rounded.mPi)) else
        if Rounded.mPi < fl (at2 A B - ph) then fl (fl (at2 A B - ph) - fl (2 * Rounded.mPi)) else fl (at2 A B - ph)) = D at *
  -- the quotient
  obtain ⟨β, hβ⟩ : ∃ β, β = 2 * (|om| * e + 12 * (1 / 2 ^ 53)) + 30 * (1 / 2 ^ 53) := ⟨_, rfl⟩
  rw [← hβ] at D2
  have lib3 : ∀ {t T : ℝ}, |t| ≤ 1 → |T - t| ≤ 2 * (1 / 2 ^ 53) * |t| + 2 * (1 / 2 ^ 1075) → |T - t| ≤ 3 * (1 / 2 ^ 53) := fun {t T} h1 h2 => by
    have : 2 * ((1 : ℝ) / 2 ^ 53) * |t| ≤ 2 * (1 / 2 ^ 53) * 1 := mul_le_mul_of_nonneg_left h1 (by positivity)
    generalize (1 : ℝ) / 2 ^ 1075 = η at *
    generalize (1 : ℝ) / 2 ^ 53 = v at *
    linarith
  have hβ' : β ≤ 1 / 20 * |om * s| := by
    rw [hβ]
    generalize (1 : ℝ) / 2 ^ 53 = v at *
    linarith
  have hβ'' : β ≤ 3 / 100 := by
    rw [hβ]
    clear * - oe hos2
    norm_num at *
    linarith
  have hηw : 1000 * ((1 : ℝ) / 2 ^ 1075) ≤ 1 / 2 ^ 53 := by
    rw [mul_one_div, div_le_div_iff₀ (by positivity) (by positivity), one_mul, show (2 : ℝ) ^ 1075 = 2 ^ 1022 * 2 ^ 53 by rw [← pow_add]]
    refine mul_le_mul_of_nonneg_right ?_ (by positivity)
    calc (1000 : ℝ) ≤ 2 ^ 10 := by norm_num
      _ ≤ 2 ^ 1022 := pow_le_pow_right₀ (by norm_num) (by norm_num)
  have quot : ∀ {N S : ℝ}, |N - fl (fl (dx * lm.cos ph) + fl (dy * lm.sin ph)) * D| ≤ 1 / 2 ^ 53 * |fl (fl (dx * lm.cos ph) + fl (dy * lm.sin ph)) * D| + 1 / 2 ^ 1075 →
      |S - N / lm.sin D| ≤ 1 / 2 ^ 53 * |N / lm.sin D| + 1 / 2 ^ 1075 → D ≠ 0 ∧ 1 / 60 * |om * s| ≤ |lm.sin D| ∧
      (|om * s| ≤ 7 / 5 → |S - s| ≤ 6 * e + 50 * (1 / 2 ^ 53) * |s| + 2 * |s| * β + 30 * (1 / 2 ^ 800)) ∧
      (7 / 5 ≤ |om * s| → |S - s| ≤ 100 * e + 700 * (1 / 2 ^ 53) * |s| + 32 * |s| * β + 400 * (1 / 2 ^ 800)) := by
    intro N S hN hS
    have small : |om * s| ≤ 7 / 5 → _ := fun q =>
      quotient_error (u := 1 / 2 ^ 53) (η := 1 / 2 ^ 1075) (E := 1 / 2 ^ 800) (e := e) (β := β) hom hs hu1000 hη0 hηu hηE hηo hηu' q
        hβ' kx' ky' bx by' eΔ (lib3 (Real.abs_cos_le_one _) (lcos ph)) (lib3 (Real.abs_sin_le_one _) (lsin ph)) (err _) (err _) (err _) D2 hN
        (lsin D) hS
    have large : 7 / 5 ≤ |om * s| → _ := fun q =>
      quotient_wide (u := 1 / 2 ^ 53) (η := 1 / 2 ^ 1075) (E := 1 / 2 ^ 800) (e := e) (β := β) hom hs hu1000 hη0 hηw hηE hηo q hos2
        hβ'' kx' ky' bx by' eΔ (lib3 (Real.abs_cos_le_one _) (lcos ph)) (lib3 (Real.abs_sin_le_one _) (lsin ph)) (err _) (err _) (err _) D2 hN
        (lsin D) hS
    refine ⟨?_, ?_, fun q => (small q).2.2, fun q => (large q).2.2⟩
    · rcases le_total (|om * s|) (7 / 5) with q | q
      · exact (small q).1
      · exact (large q).1
    · rcases le_total (|om * s|) (7 / 5) with q | q
      · linarith [(small q).2.1]
      · exact (large q).2.1
  obtain ⟨k1, k2, k3, k4⟩ := quot (err _) (err _)
  have DS : |D| ≤ 2 ^ 3 := by
    have : D = (D + om * s) - om * s := by ring
    rw [this]
    refine (abs_sub _ _).trans ?_
    norm_num
    linarith
  have N1 := size_mul L2 DS
  have N2 := size_fl h N1
  have SNp : 1 / 2 ^ 46 ≤ |lm.sin D| := by
    refine le_trans ?_ k2
    rw [pow_add 2 40 6]
    norm_num at hos1 ⊢
    linarith
  have SN0 : 0 < |lm.sin D| := lt_of_lt_of_le (by positivity) SNp
  have SNn : lm.sin D ≠ 0 := abs_pos.1 SN0
  have inv : |1 / lm.sin D| ≤ 2 ^ 46 := by
    rw [abs_div, abs_one, div_le_iff₀ SN0]
    rw [div_le_iff₀ (by positivity), mul_comm] at SNp
    exact SNp
  have Q1 := size_mul N2 inv
  rw [mul_one_div] at Q1
  rw [cif_pos (by rw [zero_eq, fin_eqv]; exact k1), fin_mul, R N1 (by norm_num), fin_div _ SNn, R Q1 (by norm_num)]
  refine ⟨_, rfl, fun q => (k3 q).trans ?_, fun q => (k4 q).trans ?_⟩
  · have sβ : |s| * β ≤ 3 * e + 54 * (1 / 2 ^ 53 * |s|) := by
      rw [hβ]
      have : |om * s| * e ≤ 7 / 5 * e := mul_le_mul_of_nonneg_right q e0
      rw [← os] at this
      generalize (1 : ℝ) / 2 ^ 53 = v at *
      linarith
    have a1 := mul_nonneg v0.le (abs_nonneg rx)
    have a2 := mul_nonneg v0.le (abs_nonneg ry)
    have a3 := mul_nonneg v0.le (abs_nonneg d)
    have a4 := mul_nonneg v0.le (abs_nonneg s)
    clear k3 k4 hβ hβ' hβ'' hηo hηu' hηw hEs hufar huo quot
    rw [he] at sβ ⊢
    generalize (1 : ℝ) / 2 ^ 1075 = η at *
    generalize (1 : ℝ) / 2 ^ 800 = E at *
    generalize (1 : ℝ) / 2 ^ 500 = F at *
    generalize (1 : ℝ) / 2 ^ 53 = v at *
    linarith
  · have sβ : |s| * β ≤ 6 * e + 54 * (1 / 2 ^ 53 * |s|) := by
      rw [hβ]
      have : |om * s| * e ≤ 3 * e := mul_le_mul_of_nonneg_right hos2 e0
      rw [← os] at this
      generalize (1 : ℝ) / 2 ^ 53 = v at *
      linarith
    have a1 := mul_nonneg v0.le (abs_nonneg rx)
    have a2 := mul_nonneg v0.le (abs_nonneg ry)
    have a3 := mul_nonneg v0.le (abs_nonneg d)
    have a4 := mul_nonneg v0.le (abs_nonneg s)
    clear k3 k4 hβ hβ' hβ'' hηo hηu' hηw hEs hufar huo quot
    rw [he] at sβ ⊢
    generalize (1 : ℝ) / 2 ^ 1075 = η at *
    generalize (1 : ℝ) / 2 ^ 800 = E at *
    generalize (1 : ℝ) / 2 ^ 500 = F at *
    generalize (1 : ℝ) / 2 ^ 53 = v at *
    linarith

/-- C136 (partial): for points less than 1/5 of a turn away, where the track has turned by more than 2^-40, the path length is right within
a small multiple of the distance `ε` of the point from the track and of 2^-53 of the lengths in the calculation.  Missing for C136: points
where the track has turned less (`C136_stuck`, `C136_false`). -/
theorem C136_accurate_partial (h : NearestF 53 1074 fl) (hl : IsLibm lm) (ha : IsAtan2 at2) {om tl ph d z rx ry rz s ε X Y : ℝ}
    (hr : HelixRange om tl ph d z rx ry rz s) {x y w : ℝ → ℝ}
    (ht : Spec.IsTrack om tl ph (rx - d * Real.sin ph) (ry + d * Real.cos ph) (rz + z) x y w) (hph : |ph| ≤ Real.pi)
    (hos1 : 1 / 2 ^ 40 ≤ |om * s|) (hos2 : |om * s| ≤ 7 / 5) (hX : |X - x s| ≤ ε) (hY : |Y - y s| ≤ ε) (hε : ε ≤ |s| / 1000)
    (hfar : |rx| + |ry| + |d| ≤ 2 ^ 40 * |s|) :
    ∃ S, Rnd.calculateSfromXY fl lm at2 (fin X) (fin Y) (hpR om tl ph d z) (V3.re rx ry rz) = fin S ∧
      |S - s| ≤ 30 * ε + 1 / 2 ^ 53 * (200 * |s| + 90 * |d| + 40 * |rx| + 40 * |ry|) + 1 / 2 ^ 500 := by
  obtain ⟨S, h1, h2, -⟩ := path_error h hl ha hr ht hph hos1 (by linarith) hX hY hε hfar
  exact ⟨S, h1, h2 hos2⟩

/-- C136 (partial): the same for points between 1/5 and almost half of a turn away.  The sine in the denominator makes the errors larger. -/
theorem C136_wide_partial (h : NearestF 53 1074 fl) (hl : IsLibm lm) (ha : IsAtan2 at2) {om tl ph d z rx ry rz s ε X Y : ℝ}
    (hr : HelixRange om tl ph d z rx ry rz s) {x y w : ℝ → ℝ}
    (ht : Spec.IsTrack om tl ph (rx - d * Real.sin ph) (ry + d * Real.cos ph) (rz + z) x y w) (hph : |ph| ≤ Real.pi)
    (hos1 : 7 / 5 ≤ |om * s|) (hos2 : |om * s| ≤ 3) (hX : |X - x s| ≤ ε) (hY : |Y - y s| ≤ ε) (hε : ε ≤ |s| / 1000)
    (hfar : |rx| + |ry| + |d| ≤ 2 ^ 40 * |s|) :
    ∃ S, Rnd.calculateSfromXY fl lm at2 (fin X) (fin Y) (hpR om tl ph d z) (V3.re rx ry rz) = fin S ∧
      |S - s| ≤ 600 * ε + 1 / 2 ^ 53 * (3100 * |s| + 2100 * |d| + 900 * |rx| + 900 * |ry|) + 1 / 2 ^ 500 := by
  obtain ⟨S, h1, -, h2⟩ := path_error h hl ha hr ht hph (le_trans (by norm_num) hos1) hos2 hX hY hε hfar
  exact ⟨S, h1, h2 hos1⟩

/-- the claim: numbers of type `double` next to a point of the track less than 1/5 of a turn away get a path length that is at least half
right -/
def C136_claim (fl : ℝ → ℝ) (lm : Libm) (at2 : ℝ → ℝ → ℝ) : Prop :=
  ∀ (om tl ph d z rx ry rz s X Y : ℝ) (x y w : ℝ → ℝ), HelixRange om tl ph d z rx ry rz s → |ph| ≤ Real.pi → RepF 53 1074 ph →
    Spec.IsTrack om tl ph (rx - d * Real.sin ph) (ry + d * Real.cos ph) (rz + z) x y w → |om * s| ≤ 7 / 5 → RepF 53 1074 X → RepF 53 1074 Y →
    |X - x s| ≤ |s| / 2 ^ 50 → |Y - y s| ≤ |s| / 2 ^ 50 →
    ∃ S, Rnd.calculateSfromXY fl lm at2 (fin X) (fin Y) (hpR om tl ph d z) (V3.re rx ry rz) = fin S ∧ |S - s| ≤ |s| / 2

/-- C136 fails: with correctly rounded library functions the track with azimuth 3/2 and curvature 2^-80 gets path length 0 for its point at
path length 1. -/
theorem C136_false (h : NearestF 53 1074 fl) (hc : CorrectLib fl lm at2) : ¬ C136_claim fl lm at2 := by
  intro hcl
  have hom : ((1 : ℝ) / 2 ^ 80) ≠ 0 := by positivity
  have e : ∀ {a : ℝ}, |a| ≤ 2 ^ 4 → |a| ≤ 2 ^ 200 := fun h => size_mono h (by norm_num)
  have hph : RepF 53 1074 (3 / 2) := ⟨3, 1073, by norm_num, by
    rw [show (2 : ℝ) ^ 1074 = 2 ^ 1073 * 2 by rw [← pow_succ]]
    generalize (2 : ℝ) ^ 1073 = M
    push_cast
    ring⟩
  have o1 : |(1 : ℝ) / 2 ^ 80| ≤ 2 ^ 4 := by rw [abs_of_pos (by positivity)]; norm_num
  have hr : HelixRange (1 / 2 ^ 80) 0 (3 / 2) 0 0 0 0 0 1 := by
    refine ⟨?_, e o1, e ?_, e ?_, e ?_, e ?_, e ?_, e ?_, e ?_, e ?_⟩
    · rw [abs_of_pos (by positivity)]
      exact one_div_le_one_div_of_le (by positivity) (pow_le_pow_right₀ (by norm_num) (by norm_num))
    all_goals norm_num [abs_of_pos]
  have ht := isTrack_r (tl := 0) (ph := 3 / 2) (d := 0) (z := 0) (rx := 0) (ry := 0) (rz := 0) hom
  -- the point
  have dist : ∀ {t : ℝ}, |t| ≤ 1 * |(1 : ℝ) / 2 ^ 80| → |1 / (1 / 2 ^ 80) * t| ≤ 1 := fun {t} q => by
    rw [abs_mul, abs_div, abs_one, one_div, inv_mul_le_iff₀ (abs_pos.2 hom)]
    linarith
  have bx : |rX (1 / 2 ^ 80) (3 / 2) 0 0 1| ≤ 1 := by
    rw [rX, zero_mul, sub_zero, zero_add]
    refine dist ((Real.abs_sin_sub_sin_le _ _).trans ?_)
    rw [sub_sub_cancel, abs_mul, abs_one]
  have by' : |rY (1 / 2 ^ 80) (3 / 2) 0 0 1| ≤ 1 := by
    rw [rY, zero_mul, add_zero, zero_sub, abs_neg]
    refine dist ((Real.abs_cos_sub_cos_le _ _).trans ?_)
    rw [sub_sub_cancel, abs_mul, abs_one]
  have near1 : ∀ t : ℝ, |t| ≤ 1 → |fl t - t| ≤ |(1 : ℝ)| / 2 ^ 50 := fun t ht => by
    have k := h.err (by norm_num) t
    have k1 : |t| / 2 ^ 53 ≤ 1 / 2 ^ 53 := div_le_div_of_nonneg_right ht (by positivity)
    have k2 : (1 : ℝ) / 2 ^ (1074 + 1) ≤ 1 / 2 ^ 53 := one_div_le_one_div_of_le (by positivity) (pow_le_pow_right₀ (by norm_num) (by norm_num))
    generalize (1 : ℝ) / 2 ^ (1074 + 1) = η at *
    rw [abs_one]
    norm_num at *
    linarith
  obtain ⟨S, h1, h2⟩ := hcl (1 / 2 ^ 80) 0 (3 / 2) 0 0 0 0 0 1 _ _ _ _ _ hr (by rw [abs_of_pos (by norm_num)]; linarith [Real.pi_gt_three]) hph ht
    (by rw [mul_one]; rw [abs_of_pos (by positivity)]; norm_num) (h.rep _) (h.rep _) (near1 _ bx) (near1 _ by')
  have dx := (h.double (rX (1 / 2 ^ 80) (3 / 2) 0 0 1)).trans (mul_le_mul_of_nonneg_left bx (by norm_num))
  have dy := (h.double (rY (1 / 2 ^ 80) (3 / 2) 0 0 1)).trans (mul_le_mul_of_nonneg_left by' (by norm_num))
  have z0 : |(0 : ℝ)| ≤ 2 ^ 4 := by norm_num
  rw [C136_stuck h hc hph (by rw [abs_of_pos] <;> norm_num) (by rw [abs_of_pos] <;> norm_num) (e o1) (e z0) (e z0) (e z0)
    (e (dx.trans (by norm_num))) (e (dy.trans (by norm_num))) ?_, zero_eq, fin_inj] at h1
  · rw [← h1] at h2
    norm_num at h2
  · rw [_root_.abs_zero, abs_of_pos (by positivity : (0 : ℝ) < 1 / 2 ^ 80)]
    have : (1 : ℝ) / 2 ^ 80 * 4 ≤ 1 / 2 ^ 66 := by norm_num
    refine le_trans (mul_le_mul_of_nonneg_left ?_ (by positivity)) this
    linarith

/-- C136: there are correctly rounded library functions. -/
example : ∃ fl lm at2, NearestF 53 1074 fl ∧ CorrectLib fl lm at2 := by
  obtain ⟨fl, h⟩ := exists_nearestF 53 1074
  exact ⟨fl, ⟨fun x => fl (Real.sin x), fun x => fl (Real.cos x)⟩, fun y x => fl (ratan2 y x), h, fun _ => rfl, fun _ => rfl, fun _ _ => rfl⟩

/-- C136, concrete case: a track of curvature 1/100 cm with azimuth 1, reference point (1, 2, 3), and the point at 10 cm with errors of
10 μm. -/
example : HelixRange (1 / 100) 1 1 0 0 1 2 3 10 ∧ |(1 : ℝ)| ≤ Real.pi ∧ 1 / 2 ^ 40 ≤ |(1 / 100 : ℝ) * 10| ∧ |(1 / 100 : ℝ) * 10| ≤ 7 / 5 ∧
    (1 / 1000 : ℝ) ≤ |(10 : ℝ)| / 1000 ∧ |(1 : ℝ)| + |(2 : ℝ)| + |(0 : ℝ)| ≤ 2 ^ 40 * |(10 : ℝ)| := by
  have e : ∀ {a : ℝ}, |a| ≤ 2 ^ 4 → |a| ≤ 2 ^ 200 := fun h => size_mono h (by norm_num)
  refine ⟨⟨?_, e ?_, e ?_, e ?_, e ?_, e ?_, e ?_, e ?_, e ?_, e ?_⟩, ?_, ?_, ?_, ?_, ?_⟩
  · rw [abs_of_pos (by norm_num)]
    refine one_div_le_one_div_of_le (by norm_num) ?_
    calc (100 : ℝ) ≤ 2 ^ 7 := by norm_num
      _ ≤ 2 ^ 500 := pow_le_pow_right₀ (by norm_num) (by norm_num)
  rotate_right 5
  · rw [abs_one]; linarith [Real.pi_gt_three]
  all_goals norm_num [abs_of_pos]

/-- C136_wide_partial, concrete case: the same track after 200 cm. -/
example : 7 / 5 ≤ |(1 / 100 : ℝ) * 200| ∧ |(1 / 100 : ℝ) * 200| ≤ 3 ∧ (1 / 10 : ℝ) ≤ |(200 : ℝ)| / 1000 ∧
    |(1 : ℝ)| + |(2 : ℝ)| + |(0 : ℝ)| ≤ 2 ^ 40 * |(200 : ℝ)| := by
  norm_num [abs_of_pos]

end Verif
