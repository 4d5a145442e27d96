import Verif.Lemmas.RoundedMomentum

/-!
# C147: direction and momentum at a surface in double precision
-/

open Classical

noncomputable section

namespace Verif

open Dbl Rnd Spec

variable {fl : ℝ → ℝ} {lm : Libm} {at2 : ℝ → ℝ → ℝ} {asn atn : ℝ → ℝ} {lg : LogLib}

/-- bound for the error of the azimuth: `ε` is the distance of the point from the track in x and in y -/
def azimuthError (om d rx ry ε : ℝ) : ℝ := |om| * (4 * ε + 1 / 2 ^ 53 * (14 * |d| + 6 * (|rx| + |ry|))) + 42 / 2 ^ 53

/-- C147: in double precision `calculatePhifromXY` gives the direction of the track at a point on the track, up to full turns, and up to
a small multiple of the angle under which the distance of the point from the track is seen from the centre of the circle. -/
theorem C147_azimuth (h : NearestF 53 1074 fl) (hl : IsLibm lm) (ha : IsAtan2 at2) {om tl ph d z rx ry rz s ε X Y : ℝ}
    (hr : HelixRange om tl ph d z rx ry rz 0) {x y w : ℝ → ℝ}
    (ht : Spec.IsTrack om tl ph (rx - d * Real.sin ph) (ry + d * Real.cos ph) (rz + z) x y w)
    (hX : |X - x s| ≤ ε) (hY : |Y - y s| ≤ ε) (hε : |om| * (2 * ε + 1 / 2 ^ 53 * (7 * |d| + 3 * (|rx| + |ry|))) ≤ 1 / 60) :
    ∃ (f : ℝ) (k : ℤ), Rnd.calculatePhifromXY fl lm at2 (fin X) (fin Y) (hpR om tl ph d z) (V3.re rx ry rz) = fin f ∧
      |f - (ph - om * s + k * (2 * Real.pi))| ≤ azimuthError om d rx ry ε := by
  have om0 : 0 < |om| := lt_of_lt_of_le (by positivity) hr.om_pos
  have hom : om ≠ 0 := abs_pos.1 om0
  have ε0 : 0 ≤ ε := (abs_nonneg _).trans hX
  obtain ⟨u1, u2, -⟩ := ht.unique (isTrack_r hom)
  subst u1 u2
  set Δx := 1 / om * (Real.sin ph - Real.sin (ph - om * s)) with hΔx
  set Δy := 1 / om * (Real.cos (ph - om * s) - Real.cos ph) with hΔy
  have ex : rX om ph d rx s = rx + 1 * (Real.sin (-ph) * d) + Δx := by rw [rX, hΔx, mul_comm s om, Real.sin_neg]; ring
  have ey : rY om ph d ry s = ry + 1 * (Real.cos ph * d) + Δy := by rw [rY, hΔy, mul_comm s om]; ring
  have bo : ∀ {a b : ℝ}, |a| ≤ 1 → |b| ≤ 1 → |a - b| ≤ 2 := fun p q => (abs_sub _ _).trans (by linarith)
  have oΔx : om * Δx = Real.sin ph - Real.sin (ph - om * s) := by rw [hΔx]; field_simp
  have oΔy : om * Δy = Real.cos (ph - om * s) - Real.cos ph := by rw [hΔy]; field_simp
  have ox2 : |om * Δx| ≤ 2 := by rw [oΔx]; exact bo (Real.abs_sin_le_one _) (Real.abs_sin_le_one _)
  have oy2 : |om * Δy| ≤ 2 := by rw [oΔy]; exact bo (Real.abs_cos_le_one _) (Real.abs_cos_le_one _)
  have bΔ : ∀ {t : ℝ}, |om * t| ≤ 2 → |t| ≤ 2 / |om| := fun {t} q => by
    rw [le_div_iff₀ om0, mul_comm, ← abs_mul]
    exact q
  have bx := bΔ ox2
  have by' := bΔ oy2
  have hS : 2 / |om| ≤ 2 ^ 501 := by
    rw [div_le_iff₀ om0]
    have := hr.om_pos
    rw [div_le_iff₀ (by positivity)] at this
    rw [pow_succ (2 : ℝ) 500]
    generalize (2 : ℝ) ^ 500 = M at *
    linarith
  have hd0 : 0 ≤ 1 / 2 ^ 53 * (7 * |d| + 3 * (|rx| + |ry|)) := by positivity
  have hε' : ε ≤ 2 / |om| := by
    rw [le_div_iff₀ om0]
    nlinarith
  rw [ex] at hX
  rw [ey] at hY
  have R : ∀ {t : ℝ} {n : ℕ}, |t| ≤ 2 ^ n → n ≤ 1000 → rnd fl 1024 (fin t) = fin (fl t) := fun ht hn => rnd_double h (size_mono ht hn)
  have S0 := lib_size (Real.abs_sin_le_one _) (hl.sin_err (-ph))
  have S1 := lib_size (Real.abs_sin_le_one _) (hl.sin_err ph)
  have C1 := lib_size (Real.abs_cos_le_one _) (hl.cos_err ph)
  have big : ∀ {t r c Δ : ℝ}, |t - (r + 1 * (c * d) + Δ)| ≤ ε → |Δ| ≤ 2 / |om| → |c| ≤ 1 → |r| ≤ 2 ^ 200 → |t| ≤ 2 ^ 504 := by
    intro t r c Δ h1 h2 h3 h4
    have k1 := abs_near h1
    have k2 : |r + 1 * (c * d) + Δ| ≤ |r| + |d| + |Δ| := by
      refine (abs_add_le _ _).trans (add_le_add ((abs_add_le _ _).trans (add_le_add le_rfl ?_)) le_rfl)
      rw [one_mul, abs_mul]
      exact mul_le_of_le_one_left (abs_nonneg d) h3
    have k3 := hr.d
    have e : (2 : ℝ) ^ 504 = 2 ^ 501 * 8 := by rw [show (504 : ℕ) = 501 + 3 by norm_num, pow_add]; norm_num
    have e' : (2 : ℝ) ^ 200 ≤ 2 ^ 501 := pow_le_pow_right₀ (by norm_num) (by norm_num)
    rw [e]
    have k4 := h4.trans e'
    have k5 := k3.trans e'
    have k6 := h2.trans hS
    have k7 := hε'.trans hS
    have k8 := abs_nonneg r
    clear * - k1 k2 k4 k5 k6 k7 k8
    generalize (2 : ℝ) ^ 501 = M at *
    linarith
  have X1 : |X| ≤ 2 ^ 504 := big hX bx (Real.abs_sin_le_one _) hr.rx
  have Y1 : |Y| ≤ 2 ^ 504 := big hY by' (Real.abs_cos_le_one _) hr.ry
  have p1 := size_mul S0 hr.d
  have p2 := size_fl h p1
  have r1 := size_mul C1 hr.d
  have r2 := size_fl h r1
  have x1 := size_add p2 (size_mono hr.rx (by norm_num))
  have x2 := size_fl h x1
  have y1 := size_add r2 (size_mono hr.ry (by norm_num))
  have y2 := size_fl h y1
  have dx1 := size_sub X1 (size_mono x2 (by norm_num))
  have dx2 := size_fl h dx1
  have dy1 := size_sub Y1 (size_mono y2 (by norm_num))
  have dy2 := size_fl h dy1
  have q1 := size_mul hr.om dx2
  have q2 := size_fl h q1
  have w1 := size_mul hr.om dy2
  have w2 := size_fl h w1
  have A1 := size_sub (size_mono S1 (by norm_num)) q2
  have B1 := size_add (size_mono C1 (by norm_num)) w2
  have hηE : (1 : ℝ) / 2 ^ 1075 ≤ 1 / 2 ^ 800 := one_div_le_one_div_of_le (by positivity) (pow_le_pow_right₀ (by norm_num) (by norm_num))
  have hηd : 1 / 2 ^ 1075 * |d| ≤ 1 / 2 ^ 800 := by
    rw [show (2 : ℝ) ^ 1075 = 2 ^ 800 * 2 ^ 275 by rw [← pow_add], one_div_mul_eq_div, div_le_div_iff₀ (by positivity) (by positivity), one_mul, mul_comm]
    exact mul_le_mul_of_nonneg_left (size_mono hr.d (by norm_num)) (by positivity)
  have hoE : |om| * (10 * ((1 : ℝ) / 2 ^ 800)) ≤ 1 / 2 ^ 53 := by
    have : |om| * (10 * ((1 : ℝ) / 2 ^ 800)) ≤ 2 ^ 200 * (10 * (1 / 2 ^ 800)) := mul_le_mul_of_nonneg_right hr.om (by positivity)
    refine this.trans ?_
    rw [show (2 : ℝ) ^ 800 = 2 ^ 200 * (2 ^ 53 * 2 ^ 547) by rw [← pow_add, ← pow_add]]
    rw [show (2 : ℝ) ^ 200 * (10 * (1 / (2 ^ 200 * (2 ^ 53 * 2 ^ 547)))) = 10 / 2 ^ 547 * (1 / 2 ^ 53) by field_simp]
    refine mul_le_of_le_one_left (by positivity) ?_
    rw [div_le_one (by positivity)]
    calc (10 : ℝ) ≤ 2 ^ 4 := by norm_num
      _ ≤ 2 ^ 547 := pow_le_pow_right₀ (by norm_num) (by norm_num)
  have err := err_double h
  have hη0 : (0 : ℝ) ≤ 1 / 2 ^ 1075 := by positivity
  have lsin := fun t => lib_err (hl.sin_err t)
  have lcos := fun t => lib_err (hl.cos_err t)
  have lat : ∀ {a b : ℝ}, ¬ (b = 0 ∧ a = 0) → |at2 a b - ratan2 a b| ≤ 2 * (1 / 2 ^ 53) * |ratan2 a b| + 2 * (1 / 2 ^ 1075) := fun q => lib_err (ha _ _ q)
  have hηu := eta_small
  have hu1000 : (1 : ℝ) / 2 ^ 53 ≤ 1 / 1000 := by norm_num
  -- displacement
  have kx := shift_error (u := 1 / 2 ^ 53) (η := 1 / 2 ^ 1075) (E := 1 / 2 ^ 800) (r := rx) (d := d) (σ := 1) (by positivity) hu1000 hη0 hηE hηd ε0
    (by simp) (Real.abs_sin_le_one (-ph)) (lsin (-ph)) (err _) (err _) hX bx (err _)
  have ky := shift_error (u := 1 / 2 ^ 53) (η := 1 / 2 ^ 1075) (E := 1 / 2 ^ 800) (r := ry) (d := d) (σ := 1) (by positivity) hu1000 hη0 hηE hηd ε0
    (by simp) (Real.abs_cos_le_one ph) (lcos ph) (err _) (err _) hY by' (err _)
  have ec1 : rx + 1 * fl (lm.sin (-ph) * d) = fl (lm.sin (-ph) * d) + rx := by ring
  have ec2 : ry + 1 * fl (lm.cos ph * d) = fl (lm.cos ph * d) + ry := by ring
  rw [ec1] at kx
  rw [ec2] at ky
  rw [Rnd.calculatePhifromXY]
  simp only [Rnd.calculateX0, Rnd.calculateY0, calculateCurvature_hpR, calculatePhi0_hpR, calculateD0_hpR, V3.re, fin_neg, sinD, cosD, addD, subD, mulD, fin_mul]
  rw [R p1 (by norm_num), R r1 (by norm_num), fin_add, R x1 (by norm_num), fin_add, R y1 (by norm_num), fin_sub, R dx1 (by norm_num), fin_sub,
    R dy1 (by norm_num), fin_mul, R q1 (by norm_num), fin_mul, R w1 (by norm_num), fin_sub, R A1 (by norm_num), fin_add, R B1 (by norm_num)]
  clear p1 p2 r1 r2 x1 x2 y1 y2 dx1 dy1 q1 q2 w1 w2 A1 B1 ec1 ec2 X1 Y1 big hX hY ex ey
  generalize fl (X - fl (fl (lm.sin (-ph) * d) + rx)) = dx at *
  generalize fl (Y - fl (fl (lm.cos ph * d) + ry)) = dy at *
  obtain ⟨e, he⟩ : ∃ e, e = 2 * ε + 1 / 2 ^ 53 * (7 * |d| + 3 * (|rx| + |ry|) + 2 * (2 / |om|)) + 10 * (1 / 2 ^ 800) := ⟨_, rfl⟩
  have v0 : (0 : ℝ) < 1 / 2 ^ 53 := by positivity
  have kx' : |dx - Δx| ≤ e := by
    refine kx.trans ?_
    have := mul_nonneg v0.le (abs_nonneg ry)
    rw [he]
    generalize (1 : ℝ) / 2 ^ 800 = E at *
    linarith
  have ky' : |dy - Δy| ≤ e := by
    refine ky.trans ?_
    have := mul_nonneg v0.le (abs_nonneg rx)
    rw [he]
    generalize (1 : ℝ) / 2 ^ 800 = E at *
    linarith
  have oe : |om| * e ≤ |om| * (2 * ε + 1 / 2 ^ 53 * (7 * |d| + 3 * (|rx| + |ry|))) + 5 * (1 / 2 ^ 53) := by
    have i : |om| * (2 / |om|) = 2 := by field_simp
    have j : |om| * e = |om| * (2 * ε + 1 / 2 ^ 53 * (7 * |d| + 3 * (|rx| + |ry|))) + 2 * (1 / 2 ^ 53) * (|om| * (2 / |om|)) + |om| * (10 * (1 / 2 ^ 800)) := by
      rw [he]
      generalize (1 : ℝ) / 2 ^ 800 = E
      ring
    rw [j, i]
    generalize |om| * (10 * (1 / 2 ^ 800)) = E at *
    generalize |om| * (2 * ε + 1 / 2 ^ 53 * (7 * |d| + 3 * (|rx| + |ry|))) = E' at *
    linarith
  have oe' : |om| * e ≤ 1 / 50 := by
    refine oe.trans ?_
    generalize |om| * (2 * ε + 1 / 2 ^ 53 * (7 * |d| + 3 * (|rx| + |ry|))) = E' at *
    norm_num
    linarith
  -- arguments of atan2
  have KA := arg_error (u := 1 / 2 ^ 53) (η := 1 / 2 ^ 1075) (τ := -1) (t0 := Real.sin ph) (om := om) (Δ := Δx) v0.le hu1000 hη0 hηu (by simp)
    (Real.abs_sin_le_one _) ox2 oe' (lsin ph) kx' (err _) (err _)
  have KB := arg_error (u := 1 / 2 ^ 53) (η := 1 / 2 ^ 1075) (τ := 1) (t0 := Real.cos ph) (om := om) (Δ := Δy) v0.le hu1000 hη0 hηu (by simp)
    (Real.abs_cos_le_one _) oy2 oe' (lcos ph) ky' (err _) (err _)
  rw [show lm.sin ph + -1 * fl (om * dx) = lm.sin ph - fl (om * dx) by ring,
    show Real.sin ph + -1 * (om * Δx) = Real.sin (ph - om * s) by rw [oΔx]; ring] at KA
  rw [show lm.cos ph + 1 * fl (om * dy) = lm.cos ph + fl (om * dy) by ring,
    show Real.cos ph + 1 * (om * Δy) = Real.cos (ph - om * s) by rw [oΔy]; ring] at KB
  generalize fl (lm.sin ph - fl (om * dx)) = A at *
  generalize fl (lm.cos ph + fl (om * dy)) = B at *
  have hα : |om| * e + 12 * (1 / 2 ^ 53) ≤ 1 / 40 := by norm_num at *; linarith
  obtain ⟨⟨δ, k, hk, hδ⟩, hne⟩ := angle_error hα KA KB
  have hat := lat hne
  have hmem := ratan2_mem A B
  have hmem' : |ratan2 A B| ≤ Real.pi := abs_le.2 ⟨hmem.1.le, hmem.2⟩
  have hat' : |at2 A B - ratan2 A B| ≤ 8 * (1 / 2 ^ 53) := by
    have p := Real.pi_lt_d2
    have : 2 * ((1 : ℝ) / 2 ^ 53) * |ratan2 A B| ≤ 2 * (1 / 2 ^ 53) * 3.15 := mul_le_mul_of_nonneg_left (by linarith) (by positivity)
    generalize (1 : ℝ) / 2 ^ 1075 = η at *
    generalize (1 : ℝ) / 2 ^ 53 = v at *
    linarith
  refine ⟨at2 A B, k, rfl, ?_⟩
  rw [show at2 A B - (ph - om * s + k * (2 * Real.pi)) = (at2 A B - ratan2 A B) + δ by rw [hk]; ring]
  refine (abs_add_le _ _).trans ((add_le_add hat' hδ).trans ?_)
  rw [azimuthError]
  have : |om| * (4 * ε + 1 / 2 ^ 53 * (14 * |d| + 6 * (|rx| + |ry|))) = 2 * (|om| * (2 * ε + 1 / 2 ^ 53 * (7 * |d| + 3 * (|rx| + |ry|)))) := by ring
  rw [this]
  generalize |om| * (2 * ε + 1 / 2 ^ 53 * (7 * |d| + 3 * (|rx| + |ry|))) = E' at *
  generalize |om| * e = E at *
  clear * - oe
  norm_num at *
  linarith

/-- C147: the momentum in the material effects is, in double precision, the transverse momentum from curvature and field times the velocity
of the track (per transverse path length) where it crosses the surface.  Its size does not depend on the error of the azimuth. -/
theorem C147_momentum (h : NearestF 53 1074 fl) (hl : IsLibm lm) (ha : IsAtan2 at2) {om tl ph d z rx ry rz s ε X Y Z b : ℝ}
    (hr : HelixRange om tl ph d z rx ry rz 0) {x y w : ℝ → ℝ}
    (ht : Spec.IsTrack om tl ph (rx - d * Real.sin ph) (ry + d * Real.cos ph) (rz + z) x y w)
    (hX : |X - x s| ≤ ε) (hY : |Y - y s| ≤ ε) (hε : |om| * (2 * ε + 1 / 2 ^ 53 * (7 * |d| + 3 * (|rx| + |ry|))) ≤ 1 / 60)
    {bField : V3 → V3} (hB : (bField (V3.re X Y Z)).z = fin b) (hb : Size |b|) {vx vy vz : ℝ} (hvx : HasDerivAt x vx s) (hvy : HasDerivAt y vy s)
    (hvz : HasDerivAt w vz s) :
    let pt := |1 / om| * b * kBr
    ∃ px py pz, Rnd.momentumAt fl lm at2 bField (V3.re X Y Z) (hpR om tl ph d z) (V3.re rx ry rz) = V3.re px py pz ∧
      |px - pt * vx| ≤ |pt| * (azimuthError om d rx ry ε + 14 / 2 ^ 53) ∧ |py - pt * vy| ≤ |pt| * (azimuthError om d rx ry ε + 14 / 2 ^ 53) ∧
      |pz - pt * vz| ≤ 9 / 2 ^ 53 * (|pt| * (|tl| + 1 / 2 ^ 200)) ∧
      |√(px ^ 2 + py ^ 2 + pz ^ 2) - √((pt * vx) ^ 2 + (pt * vy) ^ 2 + (pt * vz) ^ 2)| ≤ 38 / 2 ^ 53 * (|pt| * (1 + |tl|)) := by
  intro pt
  obtain ⟨f, k, hf, hfk⟩ := C147_azimuth h hl ha hr ht hX hY hε
  have ex := hvx.unique (ht.vel_x s)
  have ey := hvy.unique (ht.vel_y s)
  have ez := hvz.unique (ht.vel_z s)
  rw [ex, ey, ez]
  clear ex ey ez hvx hvy hvz
  have P := pt_ap h hr.om_pos hr.om hb
  have ept : |1 / om * b * kBr| = |pt| := by
    show _ = |(|1 / om| * b * kBr)|
    rw [abs_mul, abs_mul, abs_mul, abs_mul, _root_.abs_abs]
  rw [ept] at P
  obtain ⟨r, p', hr1, hp', hr2, -⟩ := P.val
  injection hp' with hp'
  subst hp'
  have hβ : azimuthError om d rx ry ε ≤ 1 / 10 := by
    rw [azimuthError, show |om| * (4 * ε + 1 / 2 ^ 53 * (14 * |d| + 6 * (|rx| + |ry|))) = 2 * (|om| * (2 * ε + 1 / 2 ^ 53 * (7 * |d| + 3 * (|rx| + |ry|)))) by ring]
    generalize |om| * (2 * ε + 1 / 2 ^ 53 * (7 * |d| + 3 * (|rx| + |ry|))) = E at *
    norm_num
    linarith
  have l3 : ∀ {t T : ℝ}, |t| ≤ 1 → |T - t| ≤ |t| / 2 ^ 52 + 1 / 2 ^ 1074 → |T - t| ≤ 3 * (1 / 2 ^ 53) := fun {t T} h1 h2 => by
    have h2 := lib_err h2
    have h3 := eta_small
    have h4 : (0 : ℝ) ≤ 1 / 2 ^ 1075 := by positivity
    have : 2 * ((1 : ℝ) / 2 ^ 53) * |t| ≤ 2 * (1 / 2 ^ 53) * 1 := mul_le_mul_of_nonneg_left h1 (by positivity)
    generalize (1 : ℝ) / 2 ^ 1075 = η at *
    generalize (1 : ℝ) / 2 ^ 53 = v at *
    linarith
  have cs := l3 (Real.abs_cos_le_one f) (hl.cos_err f)
  have sn := l3 (Real.abs_sin_le_one f) (hl.sin_err f)
  have cs' : |lm.cos f - Real.cos (ph - om * s)| ≤ azimuthError om d rx ry ε + 3 * (1 / 2 ^ 53) := by
    have i := (Real.abs_cos_sub_cos_le f (ph - om * s + k * (2 * Real.pi))).trans hfk
    rw [Real.cos_add_int_mul_two_pi] at i
    have := near_trans cs i
    linarith
  have sn' : |lm.sin f - Real.sin (ph - om * s)| ≤ azimuthError om d rx ry ε + 3 * (1 / 2 ^ 53) := by
    have i := (Real.abs_sin_sub_sin_le f (ph - om * s + k * (2 * Real.pi))).trans hfk
    rw [Real.sin_add_int_mul_two_pi] at i
    have := near_trans sn i
    linarith
  obtain ⟨a1, a2⟩ := comp_near h P.lo P.hi hr2 (Real.abs_cos_le_one _) cs' hβ
  obtain ⟨b1, b2⟩ := comp_near h P.lo P.hi hr2 (Real.abs_sin_le_one _) sn' hβ
  obtain ⟨-, a3⟩ := comp_near (β := 0) h P.lo P.hi hr2 (Real.abs_cos_le_one f) (by rw [zero_add]; exact cs) (by norm_num)
  obtain ⟨-, b3⟩ := comp_near (β := 0) h P.lo P.hi hr2 (Real.abs_sin_le_one f) (by rw [zero_add]; exact sn) (by norm_num)
  -- the longitudinal momentum
  have T : Ap 201 (|tl| + 1 / 2 ^ 200) (fin tl) (fin tl) 1 0 := by
    refine Ap.given ?_ ?_ ?_
    · refine le_trans (one_div_le_one_div_of_le (by positivity) (pow_le_pow_right₀ (by norm_num) (by norm_num))) (le_add_of_nonneg_left (abs_nonneg tl))
    · rw [pow_succ (2 : ℝ) 200, mul_two]
      refine add_le_add hr.tl ?_
      rw [div_le_iff₀ (by positivity)]
      exact one_le_mul_of_one_le_of_one_le (one_le_pow₀ (by norm_num)) (one_le_pow₀ (by norm_num))
    · rw [one_mul]
      exact le_add_of_nonneg_right (by positivity)
  have Q := Ap.mul h P T (by norm_num) (by norm_num) (by norm_num) (by norm_num)
  obtain ⟨g, g', hg1, hg', hg2, -⟩ := Q.val
  rw [fin_mul] at hg'
  injection hg' with hg'
  subst hg'
  have p0 := P.pos
  have hg3 : |g - |1 / om| * b * kBr * tl| ≤ 9 / 2 ^ 53 * (|pt| * (|tl| + 1 / 2 ^ 200)) := by
    refine hg2.trans ?_
    rw [show (9 : ℝ) / 2 ^ 53 * (|pt| * (|tl| + 1 / 2 ^ 200)) = 9 * (|pt| * (|tl| + 1 / 2 ^ 200) * (1 / 2 ^ 53)) by ring]
    exact mul_le_mul_of_nonneg_right (by norm_num) (mul_nonneg (mul_nonneg p0.le (by positivity)) (by positivity))
  refine ⟨_, _, g, ?_, a2, b2, hg3, ?_⟩
  · rw [Rnd.momentumAt]
    simp only [V3.re] at hf hB ⊢
    rw [hf, hB, calculateOmega_hpR, calculateTanLambda_hpR]
    simp only [cosD, sinD]
    rw [hg1, hr1, a1, b1]
  · have e : √((pt * Real.cos (ph - om * s)) ^ 2 + (pt * Real.sin (ph - om * s)) ^ 2 + (pt * tl) ^ 2) =
        √((pt * Real.cos f) ^ 2 + (pt * Real.sin f) ^ 2 + (pt * tl) ^ 2) := by
      congr 2
      have h1 := Real.sin_sq_add_cos_sq (ph - om * s)
      have h2 := Real.sin_sq_add_cos_sq f
      linear_combination pt ^ 2 * h1 - pt ^ 2 * h2
    rw [e]
    refine norm_near.trans ((add_le_add (add_le_add a3 b3) hg3).trans ?_)
    have t1 : (1 : ℝ) / 2 ^ 200 ≤ 1 := by
      rw [div_le_one (by positivity)]
      exact one_le_pow₀ (by norm_num)
    have t2 : |pt| * (|tl| + 1 / 2 ^ 200) ≤ |pt| * (|tl| + 1) := mul_le_mul_of_nonneg_left (by linarith) p0.le
    have t3 : 0 ≤ |pt| * |tl| := by positivity
    change |pt| * (0 + 14 / 2 ^ 53) + |pt| * (0 + 14 / 2 ^ 53) + _ ≤ _
    have t4 := mul_le_mul_of_nonneg_left t2 (show (0 : ℝ) ≤ 9 / 2 ^ 53 by positivity)
    have t5 : 0 ≤ |pt| * (1 / 2 ^ 53) := by positivity
    have t6 : 0 ≤ |pt| * |tl| * (1 / 2 ^ 53) := by positivity
    generalize 9 / 2 ^ 53 * (|pt| * (|tl| + 1 / 2 ^ 200)) = E at *
    clear * - t4 t5 t6
    rw [div_mul_eq_mul_div, ← mul_one_div] at t4
    rw [zero_add, ← mul_one_div (14 : ℝ), ← mul_one_div (38 : ℝ)]
    generalize (1 : ℝ) / 2 ^ 53 = v at *
    linarith

/-- C147: if the track does not cross the surface there is no scattering and no energy loss, and energy and velocity keep their content. -/
theorem C147_missed {bField : V3 → V3} {surf : Surface} {tp : TP} {mass : Dbl} {energy beta : Option Dbl} {hit : Hit}
    (hi : Rnd.intersectWithSurface fl lm at2 asn atn surf tp.hp tp.rp 0 V3.zero 0 true = .ok hit) (hf : hit.found = false) :
    Rnd.computeQMSHelix fl lm at2 asn atn lg bField surf tp.hp tp.rp mass = .ok (fin 0) ∧
    Rnd.computeEnergyLossTrack fl lm at2 asn atn lg bField surf tp energy beta mass = .ok ⟨fin 0, energy, beta⟩ := by
  rw [Rnd.computeQMSHelix, Rnd.computeEnergyLossTrack, hi]
  simp only [Out.ok_bind, hf]
  exact ⟨by rw [← zero_eq]; rfl, by rw [← zero_eq]; rfl⟩

/-- size of the momentum -/
theorem momentum_scale {pt vx vy tl : ℝ} (hv : vx ^ 2 + vy ^ 2 = 1) : |pt| ≤ √((pt * vx) ^ 2 + (pt * vy) ^ 2 + (pt * tl) ^ 2) ∧
    |pt| * |tl| ≤ √((pt * vx) ^ 2 + (pt * vy) ^ 2 + (pt * tl) ^ 2) := by
  have e : (pt * vx) ^ 2 + (pt * vy) ^ 2 + (pt * tl) ^ 2 = pt ^ 2 * (1 + tl ^ 2) := by linear_combination pt ^ 2 * hv
  rw [e]
  constructor
  · refine Real.abs_le_sqrt ?_
    nlinarith [mul_nonneg (sq_nonneg pt) (sq_nonneg tl)]
  · rw [← abs_mul]
    refine Real.abs_le_sqrt ?_
    nlinarith [sq_nonneg pt]

/-- sum of the errors of the momentum, relative to the momentum -/
theorem momentum_near {pt px py pz vx vy tl β : ℝ} (h1 : |px - pt * vx| ≤ |pt| * (β + 14 / 2 ^ 53)) (h2 : |py - pt * vy| ≤ |pt| * (β + 14 / 2 ^ 53))
    (h3 : |pz - pt * tl| ≤ 9 / 2 ^ 53 * (|pt| * (|tl| + 1 / 2 ^ 200))) (hv : vx ^ 2 + vy ^ 2 = 1) (hβ : 42 / 2 ^ 53 ≤ β) :
    |px - pt * vx| + |py - pt * vy| + |pz - pt * tl| ≤ 4 * β * √((pt * vx) ^ 2 + (pt * vy) ^ 2 + (pt * tl) ^ 2) := by
  obtain ⟨n1, n2⟩ := momentum_scale (pt := pt) (tl := tl) hv
  have t1 : (1 : ℝ) / 2 ^ 200 ≤ 1 := by
    rw [div_le_one (by positivity)]
    exact one_le_pow₀ (by norm_num)
  have t2 : |pt| * (|tl| + 1 / 2 ^ 200) ≤ |pt| * |tl| + |pt| := by
    have := mul_le_mul_of_nonneg_left t1 (abs_nonneg pt)
    linarith
  generalize |pt| * (|tl| + 1 / 2 ^ 200) = E at *
  obtain ⟨p, hp⟩ : ∃ p, p = √((pt * vx) ^ 2 + (pt * vy) ^ 2 + (pt * tl) ^ 2) := ⟨_, rfl⟩
  rw [← hp] at n1 n2 ⊢
  have p0 : 0 ≤ p := (abs_nonneg pt).trans n1
  have b0 : 0 ≤ β := le_trans (by positivity) hβ
  have f1 := mul_le_mul_of_nonneg_right n1 b0
  have f2 := mul_le_mul_of_nonneg_right hβ p0
  rw [show (42 : ℝ) / 2 ^ 53 = 42 * (1 / 2 ^ 53) by ring] at f2
  rw [show (14 : ℝ) / 2 ^ 53 = 14 * (1 / 2 ^ 53) by ring] at h1 h2
  rw [show (9 : ℝ) / 2 ^ 53 = 9 * (1 / 2 ^ 53) by ring] at h3
  have v0 : (0 : ℝ) ≤ 1 / 2 ^ 53 := by positivity
  have f3 := mul_le_mul_of_nonneg_left n1 v0
  have f4 := mul_le_mul_of_nonneg_left n2 v0
  have f5 := mul_le_mul_of_nonneg_left t2 v0
  have f6 := mul_nonneg b0 p0
  clear hp t1 hβ
  generalize (1 : ℝ) / 2 ^ 53 = v at *
  linarith

/-- error of the size of the momentum -/
theorem momentum_size {pt q vx vy tl : ℝ} (hv : vx ^ 2 + vy ^ 2 = 1)
    (h4 : |q - √((pt * vx) ^ 2 + (pt * vy) ^ 2 + (pt * tl) ^ 2)| ≤ 38 / 2 ^ 53 * (|pt| * (1 + |tl|))) :
    |q - √((pt * vx) ^ 2 + (pt * vy) ^ 2 + (pt * tl) ^ 2)| ≤ 76 / 2 ^ 53 * √((pt * vx) ^ 2 + (pt * vy) ^ 2 + (pt * tl) ^ 2) := by
  obtain ⟨n1, n2⟩ := momentum_scale (pt := pt) (tl := tl) hv
  refine h4.trans ?_
  rw [show (38 : ℝ) / 2 ^ 53 = 38 * (1 / 2 ^ 53) by ring, show (76 : ℝ) / 2 ^ 53 = 38 * (1 / 2 ^ 53) * 2 by ring, mul_assoc _ (2 : ℝ)]
  refine mul_le_mul_of_nonneg_left ?_ (by positivity)
  linarith

/-- Highland's formula for a momentum near the given one -/
theorem scattering_near (h : NearestF 53 1074 fl) (hlg : IsLogLib lg) {gx gy gz px py pz β : ℝ} {surf : Surface} {uv : V2}
    {nx ny nz m ti tO Xi Xo : ℝ} (hn : surf.normal (surf.localToGlobal uv) = V3.re nx ny nz)
    (hti : surf.innerThickness = fin ti) (hto : surf.outerThickness = fin tO)
    (hXi : surf.innerMaterial.radLength = fin Xi) (hXo : surf.outerMaterial.radLength = fin Xo)
    (ht1 : SizeOrZero ti) (ht2 : SizeOrZero tO) (ht0 : 0 < ti + tO) (hx1 : Size Xi) (hx2 : Size Xo) (hm : SizeOrZero m)
    (hN : nx ^ 2 + ny ^ 2 + nz ^ 2 ≤ (1001 / 1000) ^ 2) :
    let p := √(gx ^ 2 + gy ^ 2 + gz ^ 2)
    let c := crossingCos gx gy gz nx ny nz
    let X0 := (ti / Xi + tO / Xo) / c
    1 / 2 ^ 90 ≤ p → p ≤ 2 ^ 90 → 1 / 2 ^ 19 ≤ c → 42 / 2 ^ 53 ≤ β → 1000 * β ≤ c → 2 / 10 ^ 6 ≤ X0 → X0 ≤ 10 ^ 5 →
    |px - gx| + |py - gy| + |pz - gz| ≤ 4 * β * p → |√(px ^ 2 + py ^ 2 + pz ^ 2) - p| ≤ 2 * β * p →
    ∃ q, Rnd.computeQMS fl lg surf uv (V3.re px py pz) (fin m) = fin q ∧ |q - highland X0 p m| ≤ (2 / 10 ^ 6 + 60 * (β / c)) * highland X0 p m := by
  intro p c X0 hp1 hp2 hc hβ0 hβ hX1 hX2 f1 f2
  have c0 : 0 < c := lt_of_lt_of_le (by positivity) hc
  have p0 : 0 < p := lt_of_lt_of_le (by positivity) hp1
  have c1 : c ≤ 1001 / 1000 := cos_le p0 hN
  have b0 : 0 ≤ β := le_trans (by positivity) hβ0
  have cn := cos_near (qx := px) (qy := py) (qz := pz) p0 hN f1 (by linarith)
  have cn : |crossingCos px py pz nx ny nz - c| ≤ 22 / 10 * (4 * β) := cn
  clear_value p c
  obtain ⟨c', hc'⟩ : ∃ c', c' = crossingCos px py pz nx ny nz := ⟨_, rfl⟩
  obtain ⟨κ, hκ⟩ : ∃ κ, κ = β / c := ⟨_, rfl⟩
  have κc : β = κ * c := by rw [hκ, div_mul_cancel₀ _ c0.ne']
  have κ0 : 0 ≤ κ := by rw [hκ]; positivity
  have κ1 : κ ≤ 1 / 1000 := by
    rw [hκ, div_le_iff₀ c0]
    linarith
  have βκ : β ≤ 1001 / 1000 * κ := by
    rw [κc, mul_comm]
    exact mul_le_mul_of_nonneg_right c1 κ0
  rw [← hκ]
  rw [← hc'] at cn
  have cn1 : |c' - c| ≤ 9 * κ * c := by
    refine cn.trans ?_
    rw [κc]
    have := mul_nonneg κ0 c0.le
    linarith
  have iv := inv_near cn1 c0 (by linarith)
  have cb := abs_le.1 cn1
  have kc : κ * c ≤ 1 / 1000 * c := mul_le_mul_of_nonneg_right κ1 c0.le
  have c'1 : 99 / 100 * c ≤ c' := by linarith
  have pb := abs_le.1 f2
  have kp : β * p ≤ 1 / 100 * p := mul_le_mul_of_nonneg_right (by linarith) p0.le
  have hP : Size (√(px ^ 2 + py ^ 2 + pz ^ 2)) := by
    constructor
    · refine le_trans ?_ (show p / 2 ≤ _ by linarith)
      rw [show (1 : ℝ) / 2 ^ 100 = 1 / 2 ^ 90 * (1 / 2 ^ 10) by rw [one_div_mul_one_div, ← pow_add]]
      generalize (1 : ℝ) / 2 ^ 90 = E at *
      norm_num
      linarith
    · refine le_trans (show _ ≤ p * 2 by linarith) ?_
      rw [show (2 : ℝ) ^ 100 = 2 ^ 90 * 2 ^ 10 by rw [← pow_add]]
      exact mul_le_mul hp2 (by norm_num) (by norm_num) (by positivity)
  have hX0 : 0 < X0 := lt_of_lt_of_le (by positivity) hX1
  have hx' : |(ti / Xi + tO / Xo) / c' - X0| ≤ 19 / 2 * κ * X0 := by
    have K0 : 0 < ti / Xi + tO / Xo := by
      rw [show ti / Xi + tO / Xo = X0 * c from (div_mul_cancel₀ _ c0.ne').symm]
      positivity
    show |(ti / Xi + tO / Xo) / c' - (ti / Xi + tO / Xo) / c| ≤ 19 / 2 * κ * ((ti / Xi + tO / Xo) / c)
    rw [← mul_one_div, ← mul_one_div (ti / Xi + tO / Xo) c, ← mul_sub, abs_mul, abs_of_pos K0]
    have := mul_le_mul_of_nonneg_left iv K0.le
    have t : 0 ≤ (ti / Xi + tO / Xo) * (κ * (1 / c)) := by positivity
    linarith
  have xb := abs_le.1 hx'
  have kx : κ * X0 ≤ 1 / 1000 * X0 := mul_le_mul_of_nonneg_right κ1 hX0.le
  have hp' : |√(px ^ 2 + py ^ 2 + pz ^ 2) - p| ≤ 19 / 2 * κ * p := by
    refine f2.trans (mul_le_mul_of_nonneg_right ?_ p0.le)
    linarith
  obtain ⟨y0, hy⟩ := highland_near (m := m) p0 (show 1 / 10 ^ 6 ≤ X0 by linarith) (show 19 / 2 * κ ≤ 1 / 100 by linarith) hx' hp'
  obtain ⟨q, hq, -, hqy⟩ := C145_positive h hlg hn hti hto hXi hXo ht1 ht2 ht0 hx1 hx2 hm hP hN
    (by rw [← hc']; norm_num at hc ⊢; linarith) (by rw [← hc']; linarith) (by rw [← hc']; linarith)
  rw [← hc'] at hqy
  refine ⟨q, hq, ?_⟩
  have yb := abs_le.1 hy
  refine (near_trans hqy hy).trans ?_
  have kk : κ * highland X0 p m ≤ 1 / 1000 * highland X0 p m := mul_le_mul_of_nonneg_right κ1 y0.le
  have k0 : 0 ≤ κ * highland X0 p m := mul_nonneg κ0 y0.le
  generalize highland X0 p m = H at *
  generalize highland ((ti / Xi + tO / Xo) / c') (√(px ^ 2 + py ^ 2 + pz ^ 2)) m = H' at *
  have : H' ≤ 2 * H := by linarith
  linarith

/-- C147: if the computed crossing point is near the track, the scattering angle computed for a helix is Highland's formula for the momentum
of the track at the crossing, up to a small multiple of the error of the azimuth over the cosine of the angle of incidence. -/
theorem C147_scattering (h : NearestF 53 1074 fl) (hl : IsLibm lm) (ha : IsAtan2 at2) (hlg : IsLogLib lg) {om tl ph d z rx ry rz s ε X Y Z b : ℝ}
    (hr : HelixRange om tl ph d z rx ry rz 0) {x y w : ℝ → ℝ}
    (ht : Spec.IsTrack om tl ph (rx - d * Real.sin ph) (ry + d * Real.cos ph) (rz + z) x y w)
    (hX : |X - x s| ≤ ε) (hY : |Y - y s| ≤ ε)
    {bField : V3 → V3} (hB : (bField (V3.re X Y Z)).z = fin b) (hb : Size |b|) {vx vy vz : ℝ} (hvx : HasDerivAt x vx s) (hvy : HasDerivAt y vy s)
    (hvz : HasDerivAt w vz s) {surf : Surface} {s' : Dbl}
    (hi : Rnd.intersectWithSurface fl lm at2 asn atn surf (hpR om tl ph d z) (V3.re rx ry rz) 0 V3.zero 0 true = .ok ⟨true, s', V3.re X Y Z⟩)
    {nx ny nz m ti tO Xi Xo : ℝ} (hn : surf.normal (surf.localToGlobal (surf.globalToLocal (V3.re X Y Z))) = V3.re nx ny nz)
    (hti : surf.innerThickness = fin ti) (hto : surf.outerThickness = fin tO)
    (hXi : surf.innerMaterial.radLength = fin Xi) (hXo : surf.outerMaterial.radLength = fin Xo)
    (ht1 : SizeOrZero ti) (ht2 : SizeOrZero tO) (ht0 : 0 < ti + tO) (hx1 : Size Xi) (hx2 : Size Xo) (hm : SizeOrZero m)
    (hN : nx ^ 2 + ny ^ 2 + nz ^ 2 ≤ (1001 / 1000) ^ 2) :
    let pt := |1 / om| * b * kBr
    let p := √((pt * vx) ^ 2 + (pt * vy) ^ 2 + (pt * vz) ^ 2)
    let c := crossingCos (pt * vx) (pt * vy) (pt * vz) nx ny nz
    let X0 := (ti / Xi + tO / Xo) / c
    1 / 2 ^ 90 ≤ p → p ≤ 2 ^ 90 → 1 / 2 ^ 19 ≤ c → 1000 * azimuthError om d rx ry ε ≤ c → 2 / 10 ^ 6 ≤ X0 → X0 ≤ 10 ^ 5 →
    ∃ q, Rnd.computeQMSHelix fl lm at2 asn atn lg bField surf (hpR om tl ph d z) (V3.re rx ry rz) (fin m) = .ok (fin q) ∧
      |q - highland X0 p m| ≤ (2 / 10 ^ 6 + 60 * (azimuthError om d rx ry ε / c)) * highland X0 p m := by
  intro pt p c X0 hp1 hp2 hc hβ hX1 hX2
  have ez := hvz.unique (ht.vel_z s)
  have hv : vx ^ 2 + vy ^ 2 = 1 := by
    rw [hvx.unique (ht.vel_x s), hvy.unique (ht.vel_y s)]
    exact Real.cos_sq_add_sin_sq _
  have c0 : 0 < c := lt_of_lt_of_le (by positivity) hc
  have p0 : 0 < p := lt_of_lt_of_le (by positivity) hp1
  have c1 : c ≤ 1001 / 1000 := cos_le p0 hN
  have ε0 : 0 ≤ ε := (abs_nonneg _).trans hX
  obtain ⟨β, hβd⟩ : ∃ β, β = azimuthError om d rx ry ε := ⟨_, rfl⟩
  have hβ0 : 42 / 2 ^ 53 ≤ β := by
    rw [hβd, azimuthError]
    exact le_add_of_nonneg_left (by positivity)
  have hε : |om| * (2 * ε + 1 / 2 ^ 53 * (7 * |d| + 3 * (|rx| + |ry|))) ≤ 1 / 60 := by
    rw [azimuthError, show |om| * (4 * ε + 1 / 2 ^ 53 * (14 * |d| + 6 * (|rx| + |ry|))) = 2 * (|om| * (2 * ε + 1 / 2 ^ 53 * (7 * |d| + 3 * (|rx| + |ry|)))) by ring] at hβ
    generalize |om| * (2 * ε + 1 / 2 ^ 53 * (7 * |d| + 3 * (|rx| + |ry|))) = E at *
    norm_num at hβ
    linarith
  obtain ⟨px, py, pz, hmom, e1, e2, e3, e4⟩ := C147_momentum h hl ha hr ht hX hY hε hB hb hvx hvy hvz
  rw [← hβd] at e1 e2 hβ ⊢
  rw [← ez] at e3 e4
  have f1 := momentum_near e1 e2 e3 hv hβ0
  have f2 : |√(px ^ 2 + py ^ 2 + pz ^ 2) - p| ≤ 2 * β * p := by
    refine (momentum_size hv e4).trans (mul_le_mul_of_nonneg_right ?_ p0.le)
    norm_num at hβ0 ⊢
    linarith
  obtain ⟨q, hq, hd⟩ := scattering_near (uv := surf.globalToLocal (V3.re X Y Z)) h hlg hn hti hto hXi hXo ht1 ht2 ht0 hx1 hx2 hm hN hp1 hp2 hc hβ0 hβ hX1 hX2 f1 f2
  refine ⟨q, ?_, hd⟩
  rw [Rnd.computeQMSHelix, hi]
  simp only [Out.ok_bind, if_true]
  rw [hmom, hq]
  rfl

/-- energy and velocity for a momentum near the given one -/
theorem energy_near (h : NearestF 53 1074 fl) {px py pz p m : ℝ} {surf : Surface} {uv : V2} (hm : SizeOrZero m) (hp1 : 1 / 2 ^ 90 ≤ p) (hp2 : p ≤ 2 ^ 90)
    (f2 : |√(px ^ 2 + py ^ 2 + pz ^ 2) - p| ≤ 76 / 2 ^ 53 * p) :
    ∃ E v, (Rnd.computeEnergyLoss fl lg surf uv (V3.re px py pz) (fin m)).energy = some (fin E) ∧
      (Rnd.computeEnergyLoss fl lg surf uv (V3.re px py pz) (fin m)).beta = some (fin v) ∧
      |E - √(p ^ 2 + m ^ 2)| ≤ 100 / 2 ^ 53 * √(p ^ 2 + m ^ 2) ∧ |v - √(betaSq p m)| ≤ 200 / 2 ^ 53 * √(betaSq p m) := by
  have p0 : 0 < p := lt_of_lt_of_le (by positivity) hp1
  obtain ⟨q, hq⟩ : ∃ q, q = √(px ^ 2 + py ^ 2 + pz ^ 2) := ⟨_, rfl⟩
  rw [← hq] at f2
  have pb := abs_le.1 f2
  have hp100 : 76 / 2 ^ 53 * p ≤ 1 / 100 * p := mul_le_mul_of_nonneg_right (by norm_num) p0.le
  have q0 : 0 < q := by linarith
  have hP : Size (√(px ^ 2 + py ^ 2 + pz ^ 2)) := by
    rw [← hq]
    constructor
    · refine le_trans ?_ (show p / 2 ≤ _ by linarith)
      rw [show (1 : ℝ) / 2 ^ 100 = 1 / 2 ^ 90 * (1 / 2 ^ 10) by rw [one_div_mul_one_div, ← pow_add]]
      generalize (1 : ℝ) / 2 ^ 90 = E at *
      norm_num
      linarith
    · refine le_trans (show _ ≤ p * 2 by linarith) ?_
      rw [show (2 : ℝ) ^ 100 = 2 ^ 90 * 2 ^ 10 by rw [← pow_add]]
      exact mul_le_mul hp2 (by norm_num) (by norm_num) (by positivity)
  obtain ⟨E, v, g1, g2, g3, g4⟩ := C146_energy (lg := lg) (s := surf) (uv := uv) h hP hm
  rw [← hq] at g3 g4
  have E0 : 0 < √(p ^ 2 + m ^ 2) := Real.sqrt_pos.2 (by positivity)
  have hE : |√(q ^ 2 + m ^ 2) - √(p ^ 2 + m ^ 2)| ≤ 76 / 2 ^ 53 * √(p ^ 2 + m ^ 2) := by
    obtain ⟨ρ, hρ⟩ : ∃ ρ : ℝ, ρ = 76 / 2 ^ 53 := ⟨_, rfl⟩
    have ρ0 : 0 ≤ ρ := by rw [hρ]; positivity
    have ρ1 : ρ ≤ 1 := by rw [hρ]; norm_num
    rw [← hρ] at pb ⊢
    have q1 : ((1 - ρ) * p) ^ 2 ≤ q ^ 2 := pow_le_pow_left₀ (mul_nonneg (by linarith) p0.le) (by linarith) 2
    have q2 : q ^ 2 ≤ ((1 + ρ) * p) ^ 2 := pow_le_pow_left₀ q0.le (by linarith) 2
    have q3 : (1 - ρ) ^ 2 * m ^ 2 ≤ m ^ 2 := mul_le_of_le_one_left (sq_nonneg m) (pow_le_one₀ (by linarith) (by linarith))
    have q4 : m ^ 2 ≤ (1 + ρ) ^ 2 * m ^ 2 := le_mul_of_one_le_left (sq_nonneg m) (one_le_pow₀ (by linarith))
    refine root_near ?_ ?_ ρ0 ρ1
    · rw [mul_pow] at q1
      linarith
    · rw [mul_pow] at q2
      linarith
  have hb' : ∀ {t : ℝ}, 0 < t → √(betaSq t m) = t * (1 / √(t ^ 2 + m ^ 2)) := fun {t} t0 => by
    rw [betaSq, Real.sqrt_div (sq_nonneg t), Real.sqrt_sq t0.le, mul_one_div]
  have hV := prod_near f2 (inv_near hE E0 (by norm_num)) p0.le (by positivity)
  rw [← hb' p0, ← hb' q0] at hV
  have b0 : 0 < √(betaSq p m) := by rw [hb' p0]; positivity
  refine ⟨E, v, g1, g2, ?_, ?_⟩
  · refine (near_trans g3 hE).trans ?_
    have := abs_le.1 hE
    have k : √(q ^ 2 + m ^ 2) ≤ 101 / 100 * √(p ^ 2 + m ^ 2) := by
      have : 76 / 2 ^ 53 * √(p ^ 2 + m ^ 2) ≤ 1 / 100 * √(p ^ 2 + m ^ 2) := mul_le_mul_of_nonneg_right (by norm_num) E0.le
      linarith
    have := mul_le_mul_of_nonneg_left k (show (0 : ℝ) ≤ 16 / 2 ^ 53 by positivity)
    generalize √(p ^ 2 + m ^ 2) = A at *
    generalize √(q ^ 2 + m ^ 2) = B at *
    norm_num at *
    linarith
  · have hV' : |√(betaSq q m) - √(betaSq p m)| ≤ 170 / 2 ^ 53 * √(betaSq p m) := hV.trans (mul_le_mul_of_nonneg_right (by norm_num) b0.le)
    refine (near_trans g4 hV').trans ?_
    have := abs_le.1 hV'
    have k : √(betaSq q m) ≤ 101 / 100 * √(betaSq p m) := by
      have : 170 / 2 ^ 53 * √(betaSq p m) ≤ 1 / 100 * √(betaSq p m) := mul_le_mul_of_nonneg_right (by norm_num) b0.le
      linarith
    have := mul_le_mul_of_nonneg_left k (show (0 : ℝ) ≤ 23 / 2 ^ 53 by positivity)
    generalize √(betaSq p m) = A at *
    generalize √(betaSq q m) = B at *
    norm_num at *
    linarith

/-- C147: the energy loss computed for track parameters is that for a momentum near the momentum of the track at the crossing, and the energy and
the velocity it reports are those of a particle of this momentum up to rounding errors. -/
theorem C147_loss (h : NearestF 53 1074 fl) (hl : IsLibm lm) (ha : IsAtan2 at2) {om tl ph d z rx ry rz s ε X Y Z b : ℝ}
    (hr : HelixRange om tl ph d z rx ry rz 0) {x y w : ℝ → ℝ}
    (ht : Spec.IsTrack om tl ph (rx - d * Real.sin ph) (ry + d * Real.cos ph) (rz + z) x y w)
    (hX : |X - x s| ≤ ε) (hY : |Y - y s| ≤ ε) (hε : |om| * (2 * ε + 1 / 2 ^ 53 * (7 * |d| + 3 * (|rx| + |ry|))) ≤ 1 / 60)
    {bField : V3 → V3} (hB : (bField (V3.re X Y Z)).z = fin b) (hb : Size |b|) {vx vy vz : ℝ} (hvx : HasDerivAt x vx s) (hvy : HasDerivAt y vy s)
    (hvz : HasDerivAt w vz s) {surf : Surface} {s' : Dbl} {tp : TP} (htp : tp.hp = hpR om tl ph d z) (htr : tp.rp = V3.re rx ry rz)
    (hi : Rnd.intersectWithSurface fl lm at2 asn atn surf tp.hp tp.rp 0 V3.zero 0 true = .ok ⟨true, s', V3.re X Y Z⟩)
    {m : ℝ} (hm : SizeOrZero m) {energy beta : Option Dbl} :
    let pt := |1 / om| * b * kBr
    let p := √((pt * vx) ^ 2 + (pt * vy) ^ 2 + (pt * vz) ^ 2)
    1 / 2 ^ 90 ≤ p → p ≤ 2 ^ 90 →
    ∃ px py pz E v, |px - pt * vx| + |py - pt * vy| + |pz - pt * vz| ≤ 4 * azimuthError om d rx ry ε * p ∧
      Rnd.computeEnergyLossTrack fl lm at2 asn atn lg bField surf tp energy beta (fin m) =
        .ok ⟨(Rnd.computeEnergyLoss fl lg surf (surf.globalToLocal (V3.re X Y Z)) (V3.re px py pz) (fin m)).deltaE, some (fin E), some (fin v)⟩ ∧
      |E - √(p ^ 2 + m ^ 2)| ≤ 100 / 2 ^ 53 * √(p ^ 2 + m ^ 2) ∧ |v - √(betaSq p m)| ≤ 200 / 2 ^ 53 * √(betaSq p m) := by
  intro pt p hp1 hp2
  have ez := hvz.unique (ht.vel_z s)
  have hv : vx ^ 2 + vy ^ 2 = 1 := by
    rw [hvx.unique (ht.vel_x s), hvy.unique (ht.vel_y s)]
    exact Real.cos_sq_add_sin_sq _
  have ε0 : 0 ≤ ε := (abs_nonneg _).trans hX
  obtain ⟨px, py, pz, hmom, e1, e2, e3, e4⟩ := C147_momentum h hl ha hr ht hX hY hε hB hb hvx hvy hvz
  rw [← ez] at e3 e4
  have f1 := momentum_near e1 e2 e3 hv (by rw [azimuthError]; exact le_add_of_nonneg_left (by positivity))
  have f2 : |√(px ^ 2 + py ^ 2 + pz ^ 2) - p| ≤ 76 / 2 ^ 53 * p := momentum_size hv e4
  have f1 : |px - pt * vx| + |py - pt * vy| + |pz - pt * vz| ≤ 4 * azimuthError om d rx ry ε * p := f1
  obtain ⟨E, v, g1, g2, g3, g4⟩ := energy_near (lg := lg) (surf := surf) (uv := surf.globalToLocal (V3.re X Y Z)) h hm hp1 hp2 f2
  refine ⟨px, py, pz, E, v, f1, ?_, g3, g4⟩
  rw [Rnd.computeEnergyLossTrack, hi]
  simp only [Out.ok_bind, if_true]
  rw [htp, htr, hmom, ← g1, ← g2]
  rfl

/-- hypotheses of C147: a helix of radius 100 cm in a field of 3.5 T that starts at the origin under 45 degrees and a disk of silicon at z = 0 -/
theorem C147_silicon (s : Surface) (h : NearestF 53 1074 fl) (hl : IsLibm lm) (ha : IsAtan2 at2) (hlg : IsLogLib lg) :
    ∃ s' : Surface, ∃ q, Rnd.computeQMSHelix fl lm at2 asn atn lg (fun _ => V3.re 0 0 3.5) s' (hpR (1 / 100) 1 0 0 0) (V3.re 0 0 0) (fin 0.13957018) =
      .ok (fin q) ∧ 0 < q := by
  obtain ⟨s', hs'⟩ : ∃ s' : Surface, s' = { s with
      type := fun i => i = 1 || i = 5
      origin := V3.re 0 0 0
      insideBounds := fun _ => true
      innerThickness := fin 0.03
      outerThickness := fin 0
      innerMaterial := ⟨fin 14, fin 28, fin 2.33, fin 9.37⟩
      outerMaterial := ⟨fin 1, fin 1, fin 1e-25, fin 1e12⟩
      normal := fun _ => V3.re 0 0 1 } := ⟨_, rfl⟩
  refine ⟨s', ?_⟩
  have tr := isTrack_r (om := 1 / 100) (tl := 1) (ph := 0) (d := 0) (z := 0) (rx := 0) (ry := 0) (rz := 0) (by norm_num)
  have big : ∀ {t : ℝ}, |t| ≤ 1 → |t| ≤ 2 ^ 200 := fun ht => ht.trans (one_le_pow₀ (by norm_num))
  have hr : HelixRange (1 / 100) 1 0 0 0 0 0 0 0 := by
    refine ⟨?_, ?_, ?_, ?_, ?_, ?_, ?_, ?_, ?_, ?_⟩
    · rw [abs_of_pos (by norm_num)]
      refine one_div_le_one_div_of_le (by norm_num) (le_trans (show (100 : ℝ) ≤ 2 ^ 7 by norm_num) (pow_le_pow_right₀ (by norm_num) (by norm_num)))
    all_goals exact big (by norm_num)
  obtain ⟨X, Y, -, hX, hY, -, hX', hY', -⟩ := C131_points h hl hr tr
  have ε' : ∀ {t : ℝ}, |t| ≤ 1 / 2 ^ 53 * (3 * |(0 : ℝ)| + 10 * |(0 : ℝ)| + |(0 : ℝ)| * (30 + |(0 : ℝ)| + 3 * |1 / 100 * (0 : ℝ)|)) + 1 / 2 ^ 500 → |t| ≤ 1 / 2 ^ 100 := by
    intro t ht
    refine ht.trans ?_
    rw [_root_.abs_zero, mul_zero, mul_zero, zero_mul, add_zero, add_zero, mul_zero, zero_add]
    exact one_div_le_one_div_of_le (by positivity) (pow_le_pow_right₀ (by norm_num) (by norm_num))
  have f0 : rnd fl 1024 (fin 0) = fin 0 := by
    rw [rnd_double h (by rw [_root_.abs_zero]; positivity), h.fix repF_zero]
  have hi : Rnd.intersectWithSurface fl lm at2 asn atn s' (hpR (1 / 100) 1 0 0 0) (V3.re 0 0 0) 0 V3.zero 0 true = .ok ⟨true, fin 0, V3.re X Y 0⟩ := by
    have t1 : s'.type.isZCylinder = false ∧ s'.type.isZPlane = false ∧ s'.type.isZDisk = true := by
      rw [hs']
      simp [SurfaceType.isZCylinder, SurfaceType.isZPlane, SurfaceType.isZDisk]
    have t2 : s'.origin.z = fin 0 := by rw [hs']; rfl
    have t3 : ∀ x, boundsOk s' true x = true := fun x => by rw [hs']; rfl
    have t4 : divD fl (subD fl (fin 0) (addD fl (V3.re 0 0 0).z (calculateZ0 (hpR (1 / 100) 1 0 0 0)))) (calculateTanLambda (hpR (1 / 100) 1 0 0 0)) = fin 0 := by
      rw [calculateZ0_hpR, calculateTanLambda_hpR]
      simp only [V3.re, addD, subD, divD, fin_add, fin_sub, add_zero, f0, sub_self]
      rw [fin_div _ one_ne_zero, zero_div, f0]
    rw [Rnd.intersectWithSurface, t1.1, t1.2.1, t1.2.2]
    simp only [Bool.false_eq_true, if_false, if_true]
    rw [Rnd.intersectWithZDisk]
    simp only [t2, t4]
    rw [cif_pos (.inr rfl), t3, hX, hY]
    rfl
  have k1 : kBr = 0.299792458 / 100 := by rw [kBr]; norm_num
  obtain ⟨pt, hpt⟩ : ∃ pt, pt = |1 / (1 / 100 : ℝ)| * 3.5 * kBr := ⟨_, rfl⟩
  have pt1 : 1 ≤ pt ∧ pt ≤ 2 := by
    rw [hpt, k1, abs_of_pos (by norm_num)]
    norm_num
  have pt0 : 0 < pt := by linarith [pt1.1]
  have ep : √((pt * 1) ^ 2 + (pt * 0) ^ 2 + (pt * 1) ^ 2) = pt * √2 := by
    rw [show (pt * 1) ^ 2 + (pt * 0) ^ 2 + (pt * 1) ^ 2 = pt ^ 2 * 2 by ring, Real.sqrt_mul (sq_nonneg _), Real.sqrt_sq pt0.le]
  have r1 : (14 : ℝ) / 10 ≤ √2 := Real.le_sqrt' (by norm_num) |>.2 (by norm_num)
  have r2 : √2 ≤ (15 : ℝ) / 10 := Real.sqrt_le_left (by norm_num) |>.2 (by norm_num)
  have ec : crossingCos (pt * 1) (pt * 0) (pt * 1) 0 0 1 = 1 / √2 := by
    rw [crossingCos, ep, mul_zero, mul_zero, zero_add, zero_add, mul_one, mul_one, ← div_div, div_self pt0.ne', abs_of_pos (by positivity)]
  have c1 : (6 : ℝ) / 10 ≤ 1 / √2 := by
    rw [le_div_iff₀ (by positivity)]
    linarith
  have c2 : 1 / √2 ≤ 1 := by
    rw [div_le_one (by positivity)]
    linarith
  obtain ⟨c, hc⟩ : ∃ c, c = 1 / √2 := ⟨_, rfl⟩
  rw [← hc] at ec c1 c2
  have c0 : 0 < c := by linarith
  have az : azimuthError (1 / 100) 0 0 0 (1 / 2 ^ 100) ≤ 1 / 10 ^ 10 := by
    rw [azimuthError]
    norm_num
  have x1 : 1 / 10 ^ 6 * 2 ≤ (0.03 / 9.37 + 0 / 1e12) / c := by
    rw [le_div_iff₀ c0]
    norm_num
    linarith
  have x2 : (0.03 / 9.37 + 0 / 1e12) / c ≤ 1 := by
    rw [div_le_iff₀ c0]
    norm_num
    linarith
  have key := C147_scattering (asn := asn) (atn := atn) (s := 0) (ε := 1 / 2 ^ 100) (X := X) (Y := Y) (Z := 0) (b := 3.5) (vx := 1) (vy := 0) (vz := 1)
    (surf := s') (nx := 0) (ny := 0) (nz := 1) (m := 0.13957018) (ti := 0.03) (tO := 0) (Xi := 9.37) (Xo := 1e12) (bField := fun _ => V3.re 0 0 3.5)
    h hl ha hlg hr tr (ε' hX') (ε' hY') rfl (by unfold Size; norm_num)
    (by simpa using tr.vel_x 0) (by simpa using tr.vel_y 0) (tr.vel_z 0) hi (by rw [hs']) (by rw [hs']) (by rw [hs']) (by rw [hs']) (by rw [hs'])
    (.inr (by norm_num)) (.inl rfl) (by norm_num) (by unfold Size; norm_num) (by unfold Size; norm_num) (.inr (by norm_num)) (by norm_num)
  simp only [← hpt] at key
  rw [ep, ec] at key
  obtain ⟨q, h1, h2⟩ := key (by norm_num; nlinarith) (by norm_num; nlinarith) (by norm_num; linarith) (by linarith) (by linarith) (by linarith)
  refine ⟨q, h1, ?_⟩
  obtain ⟨y0, -⟩ := highland_near (m := 0.13957018) (ρ := 0) (x := (0.03 / 9.37 + 0 / 1e12) / c) (x' := (0.03 / 9.37 + 0 / 1e12) / c)
    (p := pt * √2) (p' := pt * √2) (by positivity) (by linarith) (by norm_num) (by simp) (by simp)
  have h3 := (abs_le.1 h2).1
  have a1 : azimuthError (1 / 100) 0 0 0 (1 / 2 ^ 100) / c ≤ 1 / 10 ^ 9 := by
    rw [div_le_iff₀ c0]
    norm_num at *
    linarith
  have a2 := mul_le_mul_of_nonneg_right a1 y0.le
  generalize highland ((0.03 / 9.37 + 0 / 1e12) / c) (pt * √2) 0.13957018 = H at *
  generalize azimuthError (1 / 100) 0 0 0 (1 / 2 ^ 100) / c = A at *
  clear * - y0 h3 a2
  norm_num at *
  linarith

end Verif
