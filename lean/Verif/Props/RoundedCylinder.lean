import Verif.Model.RoundedCylinder
import Verif.Lemmas.TrackSide
import Verif.Props.RoundedCross

/-!
# Crossings with cylinders in double precision: C141
-/

open Classical

noncomputable section

namespace Verif

open Dbl Rnd Spec Rounded

variable {fl : ℝ → ℝ} {lm : Libm} {at2 : ℝ → ℝ → ℝ} {asn : ℝ → ℝ}

/-- the size of a track and of a cylinder with axis (a, b) and radius rho: lengths up to `M`, a radius of the cylinder above 2^-40 `M`, and an
axis that is not at the centre of the track (the last field is |omega| times the distance of the axis from the centre) -/
structure CylRange (M om ph d rx ry a b rho : ℝ) : Prop where
  M1 : 1 / 2 ^ 100 ≤ M
  M2 : M ≤ 2 ^ 100
  hom : |om| ≤ 2 ^ 100
  hd : |d| ≤ M
  hrx : |rx| ≤ M
  hry : |ry| ≤ M
  ha : |a| ≤ M
  hb : |b| ≤ M
  hrho : 1 / 2 ^ 40 * M ≤ rho
  hrho' : rho ≤ M
  hw : 1 / 2 ^ 40 * (1 + |om| * M) ≤
    √((Real.sin ph - om * (a - (rx - d * Real.sin ph))) ^ 2 + (Real.cos ph + om * (b - (ry + d * Real.cos ph))) ^ 2)

/-! the intermediate results of `intersectWithZCylinder` -/

def cyDx (fl : ℝ → ℝ) (a rx d S : ℝ) : ℝ := fl (a - fl (rx - fl (d * S)))
def cyDy (fl : ℝ → ℝ) (b ry d C : ℝ) : ℝ := fl (b - fl (ry + fl (d * C)))
def cySox (fl : ℝ → ℝ) (om S g : ℝ) : ℝ := fl (S - fl (om * g))
def cyCoy (fl : ℝ → ℝ) (om C h : ℝ) : ℝ := fl (C + fl (om * h))
def cyNum (fl : ℝ → ℝ) (om rho S C g h : ℝ) : ℝ :=
  fl (fl (fl (fl (fl (2 * g) * S) - fl (fl (2 * h) * C)) - fl (fl (om * rho) * rho)) - fl (om * fl (fl (g * g) + fl (h * h))))
def cyRoot (fl : ℝ → ℝ) (A B : ℝ) : ℝ := fl (fl (A * A) + fl (B * B))
def cyDen (fl : ℝ → ℝ) (rho A B : ℝ) : ℝ := fl (fl (2 * rho) * fl √(cyRoot fl A B))

section
variable {M om ph d rx ry a b rho : ℝ}

theorem CylRange.pos (hr : CylRange M om ph d rx ry a b rho) : 0 < M ∧ 1 ≤ 1 + |om| * M ∧ 0 < rho := by
  have M0 : 0 < M := lt_of_lt_of_le (by positivity) hr.M1
  exact ⟨M0, by have := mul_nonneg (abs_nonneg om) M0.le; linarith, lt_of_lt_of_le (by positivity) hr.hrho⟩

/-- the error of one operation, in units of `B`, with a smaller absolute part -/
theorem scaled_err' (h : NearestF 53 1074 fl) {t B : ℝ} (hB : 1 / 2 ^ 900 ≤ B) :
    |fl t / B - t / B| ≤ 1 / 2 ^ 53 * (|t / B| + 1 / 2 ^ 100) := by
  have B0 : 0 < B := lt_of_lt_of_le (by positivity) hB
  rw [← sub_div, abs_div, abs_of_pos B0, abs_div, abs_of_pos B0, div_le_iff₀ B0]
  refine (err_double h t).trans ?_
  have k : (1 : ℝ) / 2 ^ 1075 ≤ 1 / 2 ^ 53 * (1 / 2 ^ 100) * B := by
    have k1 := mul_le_mul_of_nonneg_left hB (show (0 : ℝ) ≤ 1 / 2 ^ 53 * (1 / 2 ^ 100) by positivity)
    refine le_trans ?_ k1
    rw [show (2 : ℝ) ^ 1075 = 2 ^ 900 * 2 ^ 175 by rw [← pow_add], ← one_div_mul_one_div, mul_comm]
    exact mul_le_mul_of_nonneg_right (by norm_num) (by positivity)
  have e : 1 / 2 ^ 53 * (|t| / B + 1 / 2 ^ 100) * B = 1 / 2 ^ 53 * |t| + 1 / 2 ^ 53 * (1 / 2 ^ 100) * B := by
    field_simp
  rw [e]
  exact add_le_add le_rfl k

/-- errors of functions of the C library -/
theorem lib_near {t T B : ℝ} (ht : |t| ≤ B) (h : |T - t| ≤ |t| / 2 ^ 52 + 1 / 2 ^ 1074) : |T - t| ≤ (2 * B + 1 / 1000) * (1 / 2 ^ 53) := by
  have k := lib_err h
  have e : 2 * ((1 : ℝ) / 2 ^ 1075) ≤ 1 / 1000 * (1 / 2 ^ 53) := by
    rw [show (2 : ℝ) ^ 1075 = 2 ^ 53 * 2 ^ 1022 by rw [← pow_add], ← one_div_mul_one_div]
    have : (1 : ℝ) / 2 ^ 1022 ≤ 1 / 2 ^ 20 := one_div_le_one_div_of_le (by positivity) (pow_le_pow_right₀ (by norm_num) (by norm_num))
    generalize (1 : ℝ) / 2 ^ 1022 = t at *
    have := mul_le_mul_of_nonneg_left this (show (0 : ℝ) ≤ 1 / 2 ^ 53 by positivity)
    norm_num at this ⊢
    linarith
  have := mul_le_mul_of_nonneg_left ht (show (0 : ℝ) ≤ 2 * (1 / 2 ^ 53) by positivity)
  clear h
  generalize (1 : ℝ) / 2 ^ 1075 = t at *
  linarith

/-- the computed (dx, dy) and (sox, coy), in units of the geometry -/
theorem cyl_slopes (h : NearestF 53 1074 fl) (hl : IsLibm lm) (hr : CylRange M om ph d rx ry a b rho) {W g k A B G K : ℝ} (eW : W = 1 + |om| * M)
    (eg : g = cyDx fl a rx d (lm.sin ph)) (ek : k = cyDy fl b ry d (lm.cos ph)) (eA : A = cySox fl om (lm.sin ph) g)
    (eB : B = cyCoy fl om (lm.cos ph) k) (eG : G = (a - (rx - d * Real.sin ph)) / M) (eK : K = (b - (ry + d * Real.cos ph)) / M) :
    (|g / M - G| ≤ 9 * (1 / 2 ^ 53) ∧ |G| ≤ 3) ∧ (|k / M - K| ≤ 9 * (1 / 2 ^ 53) ∧ |K| ≤ 3) ∧
    (|A / W - (1 / W * Real.sin ph - om * M / W * G)| ≤ 19 * (1 / 2 ^ 53) ∧ |1 / W * Real.sin ph - om * M / W * G| ≤ 4) ∧
    (|B / W - (1 / W * Real.cos ph + om * M / W * K)| ≤ 19 * (1 / 2 ^ 53) ∧ |1 / W * Real.cos ph + om * M / W * K| ≤ 4) := by
  obtain ⟨M0, W1, -⟩ := hr.pos
  rw [← eW] at W1
  have W0 : 0 < W := by linarith
  have u0 : (0 : ℝ) ≤ 1 / 2 ^ 53 := by positivity
  have u1 : (1 : ℝ) / 2 ^ 53 ≤ 1 / 1000000 := by norm_num
  have dv : ∀ {t B : ℝ}, 0 < B → |t| ≤ B → |t / B| ≤ 1 := fun hB ht => by rw [abs_div, abs_of_pos hB]; exact (div_le_one hB).2 ht
  have E : ∀ {t s B : ℝ} {n : ℕ}, 1 / 2 ^ n ≤ B → n ≤ 1000 → s = t / B → |fl t / B - s| ≤ 1 / 2 ^ 53 * (|s| + 1 / 1000) :=
    fun hB hn e => by rw [e]; exact scaled_err h (scale_mono hB hn)
  have hs : |lm.sin ph - Real.sin ph| ≤ 21 / 10 * (1 / 2 ^ 53) := (lib_near (Real.abs_sin_le_one ph) (hl.sin_err ph)).trans (by linarith)
  have hc : |lm.cos ph - Real.cos ph| ≤ 21 / 10 * (1 / 2 ^ 53) := (lib_near (Real.abs_cos_le_one ph) (hl.cos_err ph)).trans (by linarith)
  have s1 := Real.abs_sin_le_one ph
  have c1 := Real.abs_cos_le_one ph
  have WW : 1 / 2 ^ 0 ≤ W := by norm_num; exact W1
  have hv : |1 / W| ≤ 1 := by rw [abs_of_pos (by positivity), div_le_one W0]; exact W1
  have hm : |om * M / W| ≤ 1 := dv W0 (by rw [abs_mul, abs_of_pos M0, eW]; linarith)
  have t1 : |(-1 : ℝ)| = 1 := by simp
  have t2 : |(1 : ℝ)| = 1 := by simp
  have g1 := axis_error (g := g / M) (x := fl (rx - fl (d * lm.sin ph)) / M) (p := fl (d * lm.sin ph) / M) (τ := -1) u0 u1 (dv M0 hr.ha) (dv M0 hr.hrx)
    (dv M0 hr.hd) s1 t1 hs (E hr.M1 (by norm_num) (by ring)) (E hr.M1 (by norm_num) (by ring)) (by rw [eg]; exact E hr.M1 (by norm_num) (by ring))
  have k1 := axis_error (g := k / M) (x := fl (ry + fl (d * lm.cos ph)) / M) (p := fl (d * lm.cos ph) / M) (τ := 1) u0 u1 (dv M0 hr.hb) (dv M0 hr.hry)
    (dv M0 hr.hd) c1 t2 hc (E hr.M1 (by norm_num) (by ring)) (E hr.M1 (by norm_num) (by ring)) (by rw [ek]; exact E hr.M1 (by norm_num) (by ring))
  rw [show a / M - (rx / M + -1 * (d / M * Real.sin ph)) = G by rw [eG]; ring] at g1
  rw [show b / M - (ry / M + 1 * (d / M * Real.cos ph)) = K by rw [eK]; ring] at k1
  have a1 := slope_error (A := A / W) (q := fl (om * g) / W) (τ := -1) u0 u1 hv hm s1 t1 hs g1.2 g1.1
    (E WW (by norm_num) (by field_simp)) (by rw [eA]; exact E WW (by norm_num) (by ring))
  have b1 := slope_error (A := B / W) (q := fl (om * k) / W) (τ := 1) u0 u1 hv hm c1 t2 hc k1.2 k1.1
    (E WW (by norm_num) (by field_simp)) (by rw [eB]; exact E WW (by norm_num) (by ring))
  rw [neg_one_mul, ← sub_eq_add_neg] at a1
  rw [one_mul] at b1
  exact ⟨g1, k1, a1, b1⟩

/-- the computed numerator of `gamma`, in units of the geometry -/
theorem cyl_num (h : NearestF 53 1074 fl) (hl : IsLibm lm) (hr : CylRange M om ph d rx ry a b rho) {W g k G K N : ℝ} (eW : W = 1 + |om| * M)
    (hg : |g / M - G| ≤ 9 * (1 / 2 ^ 53)) (hG : |G| ≤ 3) (hk : |k / M - K| ≤ 9 * (1 / 2 ^ 53)) (hK : |K| ≤ 3)
    (eN : N = cyNum fl om rho (lm.sin ph) (lm.cos ph) g k) :
    |N / (M * W) - (1 / W * (2 * G * Real.sin ph) - 1 / W * (2 * K * Real.cos ph) - om * M / W * (rho / M) * (rho / M) -
      om * M / W * (G * G + K * K))| ≤ 320 * (1 / 2 ^ 53) ∧
    |1 / W * (2 * G * Real.sin ph) - 1 / W * (2 * K * Real.cos ph) - om * M / W * (rho / M) * (rho / M) - om * M / W * (G * G + K * K)| ≤ 31 := by
  obtain ⟨M0, W1, r0⟩ := hr.pos
  rw [← eW] at W1
  have W0 : 0 < W := by linarith
  have u0 : (0 : ℝ) ≤ 1 / 2 ^ 53 := by positivity
  have u1 : (1 : ℝ) / 2 ^ 53 ≤ 1 / 1000000 := by norm_num
  have dv : ∀ {t B : ℝ}, 0 < B → |t| ≤ B → |t / B| ≤ 1 := fun hB ht => by rw [abs_div, abs_of_pos hB]; exact (div_le_one hB).2 ht
  have E : ∀ {t s B : ℝ} {n : ℕ}, 1 / 2 ^ n ≤ B → n ≤ 1000 → s = t / B → |fl t / B - s| ≤ 1 / 2 ^ 53 * (|s| + 1 / 1000) :=
    fun hB hn e => by rw [e]; exact scaled_err h (scale_mono hB hn)
  have hs : |lm.sin ph - Real.sin ph| ≤ 21 / 10 * (1 / 2 ^ 53) := (lib_near (Real.abs_sin_le_one ph) (hl.sin_err ph)).trans (by linarith)
  have hc : |lm.cos ph - Real.cos ph| ≤ 21 / 10 * (1 / 2 ^ 53) := (lib_near (Real.abs_cos_le_one ph) (hl.cos_err ph)).trans (by linarith)
  have s1 := Real.abs_sin_le_one ph
  have c1 := Real.abs_cos_le_one ph
  have WW : 1 / 2 ^ 0 ≤ W := by norm_num; exact W1
  have MW := scale_mul hr.M1 WW
  have MM := scale_mul hr.M1 hr.M1
  have hv : |1 / W| ≤ 1 := by rw [abs_of_pos (by positivity), div_le_one W0]; exact W1
  have hm : |om * M / W| ≤ 1 := dv W0 (by rw [abs_mul, abs_of_pos M0, eW]; linarith)
  have x1 := twice_error (T := fl (fl (2 * g) * lm.sin ph) / (M * W)) (t := fl (2 * g) / M) u0 u1 hv s1 hs hG hg
    (E hr.M1 (by norm_num) (by ring)) (E MW (by norm_num) (by field_simp))
  have x2 := twice_error (T := fl (fl (2 * k) * lm.cos ph) / (M * W)) (t := fl (2 * k) / M) u0 u1 hv c1 hc hK hk
    (E hr.M1 (by norm_num) (by ring)) (E MW (by norm_num) (by field_simp))
  exact num_error (N := N / (M * W)) (r := rho / M) (k1 := fl (om * rho) / W) (G := fl (g * g) / (M * M)) (H := fl (k * k) / (M * M))
    (Q := fl (fl (g * g) + fl (k * k)) / (M * M)) u0 u1 hm (dv M0 (by rw [abs_of_pos r0]; exact hr.hrho')) hG hg hK hk x1.1 x1.2 x2.1 x2.2
    (E (t := fl (fl (2 * g) * lm.sin ph) - fl (fl (2 * k) * lm.cos ph)) MW (by norm_num) (by rw [sub_div])) (E WW (by norm_num) (by field_simp))
    (E (t := fl (om * rho) * rho) MW (by norm_num) (by field_simp)) (E (t := fl (fl (fl (2 * g) * lm.sin ph) - fl (fl (2 * k) * lm.cos ph)) - fl (fl (om * rho) * rho)) MW (by norm_num) (by rw [sub_div]))
    (E MM (by norm_num) (by field_simp)) (E MM (by norm_num) (by field_simp)) (E MM (by norm_num) (by rw [add_div]))
    (E (t := om * fl (fl (g * g) + fl (k * k))) MW (by norm_num) (by field_simp)) (by rw [eN]; exact E MW (by norm_num) (by rw [sub_div]))

/-- the computed denominator of `gamma`, in units of the geometry -/
theorem cyl_den (h : NearestF 53 1074 fl) (hr : CylRange M om ph d rx ry a b rho) {W A B A' B' n n' den : ℝ} (eW : W = 1 + |om| * M)
    (hA : |A / W - A'| ≤ 19 * (1 / 2 ^ 53)) (hA' : |A'| ≤ 4) (hB : |B / W - B'| ≤ 19 * (1 / 2 ^ 53)) (hB' : |B'| ≤ 4)
    (en : n = √(A' ^ 2 + B' ^ 2)) (en' : n' = √((A / W) ^ 2 + (B / W) ^ 2)) (hn : 1 / 2 ^ 40 ≤ n) (ed : den = cyDen fl rho A B) :
    |n' - n| ≤ 38 * (1 / 2 ^ 53) ∧ 0 < n' ∧ n' ≤ 6 ∧ |den / (M * W) - 2 * (rho / M) * n'| ≤ 70 * (1 / 2 ^ 53) ∧ 1 / 2 ^ 90 ≤ den / (M * W) ∧
      den / (M * W) ≤ 13 ∧ 0 < cyRoot fl A B := by
  obtain ⟨M0, W1, r0⟩ := hr.pos
  rw [← eW] at W1
  have W0 : 0 < W := by linarith
  have u0 : (0 : ℝ) ≤ 1 / 2 ^ 53 := by positivity
  have u2 : (1 : ℝ) / 2 ^ 53 ≤ 1 / 2 ^ 52 := by norm_num
  have E : ∀ {t s B : ℝ} {n : ℕ}, 1 / 2 ^ n ≤ B → n ≤ 1000 → s = t / B → |fl t / B - s| ≤ 1 / 2 ^ 53 * (|s| + 1 / 1000) :=
    fun hB hn e => by rw [e]; exact scaled_err h (scale_mono hB hn)
  have E' : ∀ {t s B : ℝ} {n : ℕ}, 1 / 2 ^ n ≤ B → n ≤ 900 → s = t / B → |fl t / B - s| ≤ 1 / 2 ^ 53 * (|s| + 1 / 2 ^ 100) :=
    fun hB hn e => by rw [e]; exact scaled_err' h (scale_mono hB hn)
  have WW : 1 / 2 ^ 0 ≤ W := by norm_num; exact W1
  have MW := scale_mul hr.M1 WW
  have W2 := scale_mul WW WW
  obtain ⟨p1, p2, p3, p4, p5⟩ := slope_norm_error (w := fl √(cyRoot fl A B) / W) (Q := cyRoot fl A B / (W * W)) u0 u2 hA' hB' hA hB en en' hn
    (E' (t := A * A) W2 (by norm_num) (mul_div_mul_comm A A W W).symm) (E' (t := B * B) W2 (by norm_num) (mul_div_mul_comm B B W W).symm)
    (by unfold cyRoot; exact E' W2 (by norm_num) (by rw [add_div]))
    (E WW (by norm_num) (by rw [Real.sqrt_div' _ (by positivity), Real.sqrt_mul_self W0.le]))
  obtain ⟨q1, q2, -, q4⟩ := den_error (r := rho / M) (den := den / (M * W)) (D1 := fl (2 * rho) / M) u0 u2
    (by rw [le_div_iff₀ M0]; exact hr.hrho) (by rw [div_le_one M0]; exact hr.hrho') p3 p4 p2 (E' hr.M1 (by norm_num) (by ring))
    (by rw [ed]; exact E' MW (by norm_num) (by field_simp))
  refine ⟨p1, lt_of_lt_of_le (by positivity) p3, p4, q1, q2, q4, ?_⟩
  rw [lt_div_iff₀ (by positivity), zero_mul] at p5
  exact p5

/-- the numbers of the computation: the exact and the computed geometry, in units of the geometry.  `s`, `c`: sine and cosine of phi0;
`G`, `K`: distances to the axis; `N`: numerator; `n`: length of (sox, coy) -/
theorem cyl_numbers (h : NearestF 53 1074 fl) (hl : IsLibm lm) (hr : CylRange M om ph d rx ry a b rho) {W g k A B N den G K : ℝ}
    (eW : W = 1 + |om| * M) (eg : g = cyDx fl a rx d (lm.sin ph)) (ek : k = cyDy fl b ry d (lm.cos ph)) (eA : A = cySox fl om (lm.sin ph) g)
    (eB : B = cyCoy fl om (lm.cos ph) k) (eN : N = cyNum fl om rho (lm.sin ph) (lm.cos ph) g k) (ed : den = cyDen fl rho A B)
    (eG : G = (a - (rx - d * Real.sin ph)) / M) (eK : K = (b - (ry + d * Real.cos ph)) / M) :
    ∃ Ne n n', Ne = 1 / W * (2 * G * Real.sin ph) - 1 / W * (2 * K * Real.cos ph) - om * M / W * (rho / M) * (rho / M) - om * M / W * (G * G + K * K) ∧
      n = √((1 / W * Real.sin ph - om * M / W * G) ^ 2 + (1 / W * Real.cos ph + om * M / W * K) ^ 2) ∧
      n' = √((A / W) ^ 2 + (B / W) ^ 2) ∧ |A / W - (1 / W * Real.sin ph - om * M / W * G)| ≤ 19 * (1 / 2 ^ 53) ∧
      |B / W - (1 / W * Real.cos ph + om * M / W * K)| ≤ 19 * (1 / 2 ^ 53) ∧ |N / (M * W) - Ne| ≤ 320 * (1 / 2 ^ 53) ∧
      |n' - n| ≤ 38 * (1 / 2 ^ 53) ∧ 0 < n' ∧ n' ≤ 6 ∧ |den / (M * W) - 2 * (rho / M) * n'| ≤ 70 * (1 / 2 ^ 53) ∧ 1 / 2 ^ 90 ≤ den / (M * W) ∧
      den / (M * W) ≤ 13 ∧ 0 < cyRoot fl A B ∧ 1 / 2 ^ 40 ≤ n ∧ |G| ≤ 3 ∧ |K| ≤ 3 ∧ |Ne| ≤ 31 := by
  obtain ⟨M0, W1, r0⟩ := hr.pos
  rw [← eW] at W1
  have W0 : 0 < W := by linarith
  obtain ⟨⟨g1, g2⟩, ⟨k1, k2⟩, ⟨a1, a2⟩, ⟨b1, b2⟩⟩ := cyl_slopes h hl hr eW eg ek eA eB eG eK
  obtain ⟨n1, n2⟩ := cyl_num h hl hr eW g1 g2 k1 k2 eN
  have e1 : 1 / W * Real.sin ph - om * M / W * G = (Real.sin ph - om * (a - (rx - d * Real.sin ph))) / W := by
    rw [eG]
    field_simp
  have e2 : 1 / W * Real.cos ph + om * M / W * K = (Real.cos ph + om * (b - (ry + d * Real.cos ph))) / W := by
    rw [eK]
    field_simp
  have hn : 1 / 2 ^ 40 ≤ √((1 / W * Real.sin ph - om * M / W * G) ^ 2 + (1 / W * Real.cos ph + om * M / W * K) ^ 2) := by
    rw [e1, e2, div_pow, div_pow, ← add_div, Real.sqrt_div' _ (by positivity), Real.sqrt_sq W0.le, le_div_iff₀ W0, eW]
    exact hr.hw
  obtain ⟨d1, d2, d3, d4, d5, d6, d7⟩ := cyl_den h hr eW a1 a2 b1 b2 rfl rfl hn ed
  exact ⟨_, _, _, rfl, rfl, rfl, a1, b1, n1, d1, d2, d3, d4, d5, d6, d7, hn, g2, k2, n2⟩

/-- the intermediate results are finite: the computation with real numbers -/
theorem cyl_values (h : NearestF 53 1074 fl) (hl : IsLibm lm) (ha2 : IsAtan2 at2) (has : IsAsin asn) (hr : CylRange M om ph d rx ry a b rho)
    {tl z rz c g k A B N den γ : ℝ} (eg : g = cyDx fl a rx d (lm.sin ph)) (ek : k = cyDy fl b ry d (lm.cos ph))
    (eA : A = cySox fl om (lm.sin ph) g) (eB : B = cyCoy fl om (lm.cos ph) k) (eN : N = cyNum fl om rho (lm.sin ph) (lm.cos ph) g k)
    (ed : den = cyDen fl rho A B) (eγ : γ = fl (N / den)) :
    (1 < |γ| → Rnd.cylinderCandidates fl lm at2 asn (fin rho) (V3.re a b c) (hpR om tl ph d z) (V3.re rx ry rz) = none) ∧
    (|γ| ≤ 1 → ∃ σ φ0 φ1, |σ| = 1 ∧ φ0 = fl (asn γ + at2 A B) ∧ φ1 = fl (fl (σ * mPi - asn γ) + at2 A B) ∧
      Rnd.cylinderCandidates fl lm at2 asn (fin rho) (V3.re a b c) (hpR om tl ph d z) (V3.re rx ry rz) =
        some ((fin (fl (a + fl (rho * lm.cos φ0))), fin (fl (b + fl (rho * lm.sin φ0)))),
          (fin (fl (a + fl (rho * lm.cos φ1))), fin (fl (b + fl (rho * lm.sin φ1)))))) := by
  have R : ∀ {t : ℝ} {n : ℕ}, |t| ≤ 2 ^ n → n ≤ 1000 → rnd fl 1024 (fin t) = fin (fl t) := fun ht hn => rnd_double h (size_mono ht hn)
  obtain ⟨M0, W1, r0⟩ := hr.pos
  obtain ⟨Ne, n, n', -, -, en', -, -, hN, -, n0, -, -, den0, -, Q0, -, -, -, hNe⟩ := cyl_numbers h hl hr rfl eg ek eA eB eN ed rfl rfl
  have S1 := lib_size (Real.abs_sin_le_one _) (hl.sin_err ph)
  have C1 := lib_size (Real.abs_cos_le_one _) (hl.cos_err ph)
  have x1 := hr.hd.trans hr.M2
  have x2 := hr.hrx.trans hr.M2
  have x3 := hr.hry.trans hr.M2
  have x4 := hr.ha.trans hr.M2
  have x5 := hr.hb.trans hr.M2
  have x6 : |rho| ≤ 2 ^ 100 := by rw [abs_of_pos r0]; exact hr.hrho'.trans hr.M2
  have x7 := hr.hom
  have two : |(2 : ℝ)| ≤ 2 ^ 1 := by norm_num
  have p1 := size_mul x1 S1
  have p2 := size_mul x1 C1
  have p3 := size_sub (size_mono x2 (by norm_num : 100 ≤ 103)) (size_fl h p1)
  have p4 := size_add (size_mono x3 (by norm_num : 100 ≤ 103)) (size_fl h p2)
  have p5 := size_sub (size_mono x4 (by norm_num : 100 ≤ 106)) (size_fl h p3)
  have p6 := size_sub (size_mono x5 (by norm_num : 100 ≤ 106)) (size_fl h p4)
  have hg := size_fl h p5
  have hk := size_fl h p6
  change |cyDx fl a rx d (lm.sin ph)| ≤ _ at hg
  change |cyDy fl b ry d (lm.cos ph)| ≤ _ at hk
  rw [← eg] at hg
  rw [← ek] at hk
  have p7 := size_mul x7 hg
  have p8 := size_mul x7 hk
  have p9 := size_sub (size_mono S1 (by norm_num : 1 ≤ 211)) (size_fl h p7)
  have p10 := size_add (size_mono C1 (by norm_num : 1 ≤ 211)) (size_fl h p8)
  have hA1 := size_fl h p9
  have hB1 := size_fl h p10
  change |cySox fl om (lm.sin ph) g| ≤ _ at hA1
  change |cyCoy fl om (lm.cos ph) k| ≤ _ at hB1
  rw [← eA] at hA1
  rw [← eB] at hB1
  have q1 := size_mul two hg
  have q2 := size_mul two hk
  have q3 := size_mul (size_fl h q1) S1
  have q4 := size_mul (size_fl h q2) C1
  have q5 := size_sub (size_fl h q3) (size_fl h q4)
  have q6 := size_mul x7 x6
  have q7 := size_mul (size_fl h q6) x6
  have q8 := size_sub (size_mono (n := 304) (size_fl h q5) (by norm_num)) (size_fl h q7)
  have q9 := size_mul hg hg
  have q10 := size_mul hk hk
  have q11 := size_add (size_fl h q9) (size_fl h q10)
  have q12 := size_mul x7 (size_fl h q11)
  have q13 := size_sub (size_mono (n := 325) (size_fl h q8) (by norm_num)) (size_fl h q12)
  have q14 := size_mul hA1 hA1
  have q15 := size_mul hB1 hB1
  have q16 := size_add (size_fl h q14) (size_fl h q15)
  have q17 := size_fl h q16
  change |cyRoot fl A B| ≤ _ at q17
  have q18 : |√(cyRoot fl A B)| ≤ 2 ^ 433 := by
    rw [abs_of_nonneg (Real.sqrt_nonneg _)]
    refine (Real.sqrt_le_left (by positivity)).2 ?_
    rw [abs_of_pos Q0] at q17
    refine q17.trans ?_
    rw [← pow_mul]
    exact pow_le_pow_right₀ (by norm_num) (by norm_num)
  have q19 := size_mul two x6
  have q20 := size_mul (size_fl h q19) (size_fl h q18)
  have MW : 0 < M * (1 + |om| * M) := by positivity
  have dpos : 0 < den := by
    have := lt_of_lt_of_le (by positivity) den0
    rwa [lt_div_iff₀ MW, zero_mul] at this
  have AB : ¬ (B = 0 ∧ A = 0) := by
    rintro ⟨rfl, rfl⟩
    simp [en'] at n0
  have q21 : |N / den| ≤ 2 ^ 100 := by
    have k1 : |N / (M * (1 + |om| * M))| ≤ 2 ^ 9 := by
      refine (abs_near hN).trans ?_
      norm_num
      linarith
    have e : N / den = N / (M * (1 + |om| * M)) / (den / (M * (1 + |om| * M))) := by
      field_simp
    rw [e, abs_div, abs_of_pos (lt_of_lt_of_le (by positivity) den0), div_le_iff₀ (lt_of_lt_of_le (by positivity) den0)]
    have := mul_le_mul_of_nonneg_left den0 (show (0 : ℝ) ≤ 2 ^ 100 by positivity)
    refine k1.trans (le_trans ?_ this)
    norm_num
  have G1 : Rnd.cylinderCandidates fl lm at2 asn (fin rho) (V3.re a b c) (hpR om tl ph d z) (V3.re rx ry rz) = ifc 1 < Dbl.abs (fin γ) then none
      else
        let phirho := atan2D fl at2 (fin A) (fin B)
        let asing := asinD asn (fin γ)
        let phic0 := addD fl asing phirho
        let phic1 := ifc 0 < asing then subD fl (.fin Rounded.mPi) asing else subD fl (-.fin Rounded.mPi) asing
        let phic1 := addD fl phic1 phirho
        some ((addD fl (fin a) (mulD fl (fin rho) (cosD lm phic0)), addD fl (fin b) (mulD fl (fin rho) (sinD lm phic0))),
          (addD fl (fin a) (mulD fl (fin rho) (cosD lm phic1)), addD fl (fin b) (mulD fl (fin rho) (sinD lm phic1)))) := by
    have f1 : fl (a - fl (rx - fl (d * lm.sin ph))) = g := eg.symm
    have f2 : fl (b - fl (ry + fl (d * lm.cos ph))) = k := ek.symm
    have f3 : fl (lm.sin ph - fl (om * g)) = A := eA.symm
    have f4 : fl (lm.cos ph + fl (om * k)) = B := eB.symm
    have f5 : fl (fl (fl (fl (fl (2 * g) * lm.sin ph) - fl (fl (2 * k) * lm.cos ph)) - fl (fl (om * rho) * rho)) -
      fl (om * fl (fl (g * g) + fl (k * k)))) = N := eN.symm
    have f6 : fl (fl (A * A) + fl (B * B)) = cyRoot fl A B := rfl
    have f7 : fl (fl (2 * rho) * fl √(cyRoot fl A B)) = den := ed.symm
    simp only [Rnd.cylinderCandidates, calculateOmega_hpR, calculatePhi0_hpR, calculateD0_hpR, V3.re, sinD, cosD, mulD, subD, addD, sqrtD, divD, ofNat_eq,
      fin_mul, fin_sub, fin_add, R p1 (by norm_num), R p2 (by norm_num), R p3 (by norm_num), R p4 (by norm_num)]
    rw [R p5 (by norm_num), R p6 (by norm_num), f1, f2]
    simp only [fin_mul, fin_sub, fin_add, R p7 (by norm_num), R p8 (by norm_num), R p9 (by norm_num), R p10 (by norm_num), f3, f4]
    simp only [R q1 (by norm_num), R q2 (by norm_num), R q6 (by norm_num), R q9 (by norm_num), R q10 (by norm_num), R q14 (by norm_num), R q15 (by norm_num),
      R q19 (by norm_num), fin_mul, fin_sub, fin_add, R q3 (by norm_num), R q4 (by norm_num), R q7 (by norm_num), R q11 (by norm_num),
      R q16 (by norm_num), R q5 (by norm_num), R q12 (by norm_num), R q8 (by norm_num), R q13 (by norm_num), f5, f6, sqrt_fin Q0.le,
      R q18 (by norm_num), R q20 (by norm_num), f7, fin_div _ dpos.ne', R q21 (by norm_num), ← eγ]
  constructor
  · intro hγ
    rw [G1]
    simp only [abs_fin, one_eq, fin_lt]
    exact cif_pos hγ
  · intro hγ
    have as1 := lib_near (B := 2) (by
      have := Real.arcsin_le_pi_div_two γ
      have := Real.neg_pi_div_two_le_arcsin γ
      have := Real.pi_lt_four
      rw [abs_le]
      constructor <;> linarith) (has γ hγ)
    have th1 := lib_near (B := 4) (by
      have := ratan2_mem A B
      have := Real.pi_lt_four
      rw [abs_le]
      constructor <;> linarith) (ha2 A B AB)
    have as2 : |asn γ| ≤ 2 ^ 2 := by
      refine (abs_near as1).trans ?_
      have := Real.arcsin_le_pi_div_two γ
      have := Real.neg_pi_div_two_le_arcsin γ
      have := Real.pi_lt_four
      have : |Real.arcsin γ| ≤ 2 := by
        rw [abs_le]
        constructor <;> linarith
      norm_num
      linarith
    have th2 : |at2 A B| ≤ 2 ^ 3 := by
      refine (abs_near th1).trans ?_
      have := ratan2_mem A B
      have := Real.pi_lt_four
      have : |ratan2 A B| ≤ 4 := by
        rw [abs_le]
        constructor <;> linarith
      norm_num
      linarith
    have pi2 : |mPi| ≤ 2 ^ 2 := by
      obtain ⟨-, -, m1, m2⟩ := mPi_bounds
      rw [abs_le]
      constructor <;> norm_num at * <;> linarith
    have fin_tail : ∀ σ : ℝ, |σ| = 1 →
        (let phic0 := addD fl (fin (asn γ)) (fin (at2 A B))
         let phic1 := addD fl (subD fl (fin (σ * mPi)) (fin (asn γ))) (fin (at2 A B))
         some ((addD fl (fin a) (mulD fl (fin rho) (cosD lm phic0)), addD fl (fin b) (mulD fl (fin rho) (sinD lm phic0))),
          (addD fl (fin a) (mulD fl (fin rho) (cosD lm phic1)), addD fl (fin b) (mulD fl (fin rho) (sinD lm phic1))))) =
        some ((fin (fl (a + fl (rho * lm.cos (fl (asn γ + at2 A B))))), fin (fl (b + fl (rho * lm.sin (fl (asn γ + at2 A B)))))),
          (fin (fl (a + fl (rho * lm.cos (fl (fl (σ * mPi - asn γ) + at2 A B))))),
            fin (fl (b + fl (rho * lm.sin (fl (fl (σ * mPi - asn γ) + at2 A B))))))) := by
      intro σ hσ
      have r1 := size_add (size_mono as2 (by norm_num : 2 ≤ 3)) th2
      have r2 : |σ * mPi - asn γ| ≤ 2 ^ (2 + 1) := by
        refine size_sub ?_ as2
        rw [abs_mul, hσ, one_mul]
        exact pi2
      have r3 := size_add (size_fl h r2) (size_mono th2 (by norm_num : 3 ≤ 2 + 1 + 2))
      have r4 : ∀ {t T : ℝ}, |T| ≤ 2 ^ 1 → |t| ≤ 2 ^ 100 → addD fl (fin t) (mulD fl (fin rho) (fin T)) = fin (fl (t + fl (rho * T))) := by
        intro t T hT ht
        have w1 := size_mul x6 hT
        have w2 := size_add (size_mono ht (by norm_num : 100 ≤ 100 + 1 + 2)) (size_fl h w1)
        simp only [addD, mulD, fin_mul, fin_add, R w1 (by norm_num), R w2 (by norm_num)]
      have b1 : addD fl (fin (asn γ)) (fin (at2 A B)) = fin (fl (asn γ + at2 A B)) := by
        simp only [addD, fin_add, R r1 (by norm_num)]
      have b2 : addD fl (subD fl (fin (σ * mPi)) (fin (asn γ))) (fin (at2 A B)) = fin (fl (fl (σ * mPi - asn γ) + at2 A B)) := by
        simp only [addD, subD, fin_add, fin_sub, R r2 (by norm_num), R r3 (by norm_num)]
      have sn : ∀ x, |lm.sin x| ≤ 2 ^ 1 := fun x => lib_size (Real.abs_sin_le_one _) (hl.sin_err x)
      have cn : ∀ x, |lm.cos x| ≤ 2 ^ 1 := fun x => lib_size (Real.abs_cos_le_one _) (hl.cos_err x)
      simp only [b1, b2, sinD, cosD, r4 (cn _) x4, r4 (sn _) x5]
    have G2 : ∀ {σ : ℝ}, (σ = if 0 < asn γ then 1 else -1) → Rnd.cylinderCandidates fl lm at2 asn (fin rho) (V3.re a b c) (hpR om tl ph d z) (V3.re rx ry rz) =
        (let phic0 := addD fl (fin (asn γ)) (fin (at2 A B))
         let phic1 := addD fl (subD fl (fin (σ * mPi)) (fin (asn γ))) (fin (at2 A B))
         some ((addD fl (fin a) (mulD fl (fin rho) (cosD lm phic0)), addD fl (fin b) (mulD fl (fin rho) (sinD lm phic0))),
          (addD fl (fin a) (mulD fl (fin rho) (cosD lm phic1)), addD fl (fin b) (mulD fl (fin rho) (sinD lm phic1))))) := by
      intro σ hσ
      rw [G1, cif_neg (by simp only [abs_fin, one_eq, fin_lt]; exact not_lt.2 hγ)]
      simp only [asinD, if_pos hγ, atan2D, zero_eq, fin_lt, fin_neg]
      by_cases h0 : 0 < asn γ
      · rw [if_pos h0] at hσ
        rw [cif_pos h0, hσ, one_mul]
      · rw [if_neg h0] at hσ
        rw [cif_neg h0, hσ, neg_one_mul]
    have hσ : |(if 0 < asn γ then (1 : ℝ) else -1)| = 1 := by split_ifs <;> simp
    exact ⟨_, _, _, hσ, rfl, rfl, (G2 rfl).trans (fin_tail _ hσ)⟩

theorem lib_u {t T : ℝ} (h : |T - t| ≤ |t| / 2 ^ 52 + 1 / 2 ^ 1074) : |T - t| ≤ 2 * (1 / 2 ^ 53) * |t| + 1 / 2 ^ 53 / 1000 := by
  have k := lib_err h
  have e : 2 * ((1 : ℝ) / 2 ^ 1075) ≤ 1 / 2 ^ 53 / 1000 := by
    rw [show (2 : ℝ) ^ 1075 = 2 ^ 53 * 2 ^ 1022 by rw [← pow_add], ← one_div_mul_one_div]
    have : (1 : ℝ) / 2 ^ 1022 ≤ 1 / 2 ^ 20 := one_div_le_one_div_of_le (by positivity) (pow_le_pow_right₀ (by norm_num) (by norm_num))
    generalize (1 : ℝ) / 2 ^ 1022 = t at *
    have := mul_le_mul_of_nonneg_left this (show (0 : ℝ) ≤ 1 / 2 ^ 53 by positivity)
    norm_num at this ⊢
    linarith
  exact k.trans (add_le_add le_rfl e)

/-- the two computed points, if `gamma` is not above 1 -/
theorem cyl_core (h : NearestF 53 1074 fl) (hl : IsLibm lm) (ha2 : IsAtan2 at2) (has : IsAsin asn) (hr : CylRange M om ph d rx ry a b rho)
    {tl z rz c W g k A B N den γ n' : ℝ} (eW : W = 1 + |om| * M) (eg : g = cyDx fl a rx d (lm.sin ph)) (ek : k = cyDy fl b ry d (lm.cos ph))
    (eA : A = cySox fl om (lm.sin ph) g) (eB : B = cyCoy fl om (lm.cos ph) k) (eN : N = cyNum fl om rho (lm.sin ph) (lm.cos ph) g k)
    (ed : den = cyDen fl rho A B) (eγ : γ = fl (N / den)) (en' : n' = √((A / W) ^ 2 + (B / W) ^ 2)) (n0 : 0 < n') (hγ : |γ| ≤ 1) :
    ∃ σ θ ψ0 ψ1 X0 Y0 X1 Y1, |σ| = 1 ∧ A / W = n' * Real.sin θ ∧ B / W = n' * Real.cos θ ∧
      ψ0 = Real.arcsin γ + θ ∧ ψ1 = σ * Real.pi - Real.arcsin γ + θ ∧
      Rnd.cylinderCandidates fl lm at2 asn (fin rho) (V3.re a b c) (hpR om tl ph d z) (V3.re rx ry rz) = some ((fin X0, fin Y0), (fin X1, fin Y1)) ∧
      |X0 / M - (a / M + rho / M * Real.cos ψ0)| ≤ 33 * (1 / 2 ^ 53) ∧ |Y0 / M - (b / M + rho / M * Real.sin ψ0)| ≤ 33 * (1 / 2 ^ 53) ∧
      |X1 / M - (a / M + rho / M * Real.cos ψ1)| ≤ 33 * (1 / 2 ^ 53) ∧ |Y1 / M - (b / M + rho / M * Real.sin ψ1)| ≤ 33 * (1 / 2 ^ 53) := by
  obtain ⟨M0, W1, r0⟩ := hr.pos
  rw [← eW] at W1
  have W0 : 0 < W := by linarith
  have u0 : (0 : ℝ) ≤ 1 / 2 ^ 53 := by positivity
  have u1 : (1 : ℝ) / 2 ^ 53 ≤ 1 / 1000000 := by norm_num
  have dv : ∀ {t B : ℝ}, 0 < B → |t| ≤ B → |t / B| ≤ 1 := fun hB ht => by rw [abs_div, abs_of_pos hB]; exact (div_le_one hB).2 ht
  have E : ∀ {t s B : ℝ} {n : ℕ}, 1 / 2 ^ n ≤ B → n ≤ 1000 → s = t / B → |fl t / B - s| ≤ 1 / 2 ^ 53 * (|s| + 1 / 1000) :=
    fun hB hn e => by rw [e]; exact scaled_err h (scale_mono hB hn)
  have E1 : ∀ t, |fl t - t| ≤ 1 / 2 ^ 53 * (|t| + 1 / 1000) := fun t => by
    have := E (t := t) (B := 1) (n := 0) (by norm_num) (by norm_num) rfl
    simpa using this
  have AB : ¬ (B = 0 ∧ A = 0) := by
    rintro ⟨rfl, rfl⟩
    simp [en'] at n0
  obtain ⟨σ, φ0, φ1, hσ, e0, e1, hc⟩ := (cyl_values h hl ha2 has hr (tl := tl) (z := z) (rz := rz) (c := c) eg ek eA eB eN ed eγ).2 hγ
  obtain ⟨hP, -⟩ := mPi_bounds
  have tm := ratan2_mem A B
  obtain ⟨w0, w1, -⟩ := crossing_angle_error (γ := γ) (a := asn γ) (θ := ratan2 A B) (th := at2 A B) (σ := σ) (P := mPi) (e := fl (σ * mPi - asn γ)) (φ0 := φ0) (φ1 := φ1)
    u0 u1 hσ hP (abs_le.2 ⟨tm.1.le, tm.2⟩) (lib_u (has γ hγ)) (lib_u (ha2 A B AB)) (by rw [e0]; exact E1 _) (E1 _) (by rw [e1]; exact E1 _)
  have cl : ∀ {φ ψ : ℝ}, |φ - ψ| ≤ 26 * (1 / 2 ^ 53) → |lm.cos φ - Real.cos ψ| ≤ 29 * (1 / 2 ^ 53) := by
    intro φ ψ hφ
    have k1 := lib_near (Real.abs_cos_le_one φ) (hl.cos_err φ)
    have k2 : |Real.cos φ - Real.cos ψ| ≤ |φ - ψ| := by
      have := Real.abs_cos_sub_cos_le φ ψ
      exact this
    exact (near_trans k1 (k2.trans hφ)).trans (by linarith)
  have sl : ∀ {φ ψ : ℝ}, |φ - ψ| ≤ 26 * (1 / 2 ^ 53) → |lm.sin φ - Real.sin ψ| ≤ 29 * (1 / 2 ^ 53) := by
    intro φ ψ hφ
    have k1 := lib_near (Real.abs_sin_le_one φ) (hl.sin_err φ)
    have k2 : |Real.sin φ - Real.sin ψ| ≤ |φ - ψ| := by
      have := Real.abs_sin_sub_sin_le φ ψ
      exact this
    exact (near_trans k1 (k2.trans hφ)).trans (by linarith)
  have hρ : |rho / M| ≤ 1 := dv M0 (by rw [abs_of_pos r0]; exact hr.hrho')
  have en2 : n' = √(B ^ 2 + A ^ 2) / W := by
    rw [en', div_pow, div_pow, ← add_div, Real.sqrt_div' _ (by positivity), Real.sqrt_sq W0.le, add_comm]
  have s0 : √(B ^ 2 + A ^ 2) ≠ 0 := by
    intro h0
    rw [en2, h0, zero_div] at n0
    exact lt_irrefl _ n0
  refine ⟨σ, ratan2 A B, _, _, _, _, _, _, hσ, ?_, ?_, rfl, rfl, hc, ?_, ?_, ?_, ?_⟩
  · rw [sin_ratan2, en2]
    field_simp
  · rw [cos_ratan2 _ _ AB, en2]
    field_simp
  · exact place_error (p := fl (rho * lm.cos φ0) / M) u0 u1 (dv M0 hr.ha) hρ (Real.abs_cos_le_one _) (cl w0) (E hr.M1 (by norm_num) (by ring))
      (E hr.M1 (by norm_num) (by ring))
  · exact place_error (p := fl (rho * lm.sin φ0) / M) u0 u1 (dv M0 hr.hb) hρ (Real.abs_sin_le_one _) (sl w0) (E hr.M1 (by norm_num) (by ring))
      (E hr.M1 (by norm_num) (by ring))
  · exact place_error (p := fl (rho * lm.cos φ1) / M) u0 u1 (dv M0 hr.ha) hρ (Real.abs_cos_le_one _) (cl w1) (E hr.M1 (by norm_num) (by ring))
      (E hr.M1 (by norm_num) (by ring))
  · exact place_error (p := fl (rho * lm.sin φ1) / M) u0 u1 (dv M0 hr.hb) hρ (Real.abs_sin_le_one _) (sl w1) (E hr.M1 (by norm_num) (by ring))
      (E hr.M1 (by norm_num) (by ring))

theorem side_scale (M0 : M ≠ 0) {W : ℝ} (W0 : W ≠ 0) (s c x y : ℝ) :
    side (om * M / W) (1 / W) s c (x / M) (y / M) = side om 1 s c x y / (M * W) := by
  unfold side
  field_simp

/-- a computed point is next to the cylinder and next to the track -/
theorem cyl_near (hr : CylRange M om ph d rx ry a b rho) {W A B Ne γ n' ψ θ X Y G K : ℝ} (eW : W = 1 + |om| * M)
    (eG : G = (a - (rx - d * Real.sin ph)) / M) (eK : K = (b - (ry + d * Real.cos ph)) / M) (hG : |G| ≤ 3) (hK : |K| ≤ 3)
    (eNe : Ne = 1 / W * (2 * G * Real.sin ph) - 1 / W * (2 * K * Real.cos ph) - om * M / W * (rho / M) * (rho / M) - om * M / W * (G * G + K * K))
    (hA : |A / W - (1 / W * Real.sin ph - om * M / W * G)| ≤ 19 * (1 / 2 ^ 53)) (hB : |B / W - (1 / W * Real.cos ph + om * M / W * K)| ≤ 19 * (1 / 2 ^ 53))
    (eA : A / W = n' * Real.sin θ) (eB : B / W = n' * Real.cos θ) (hψ : Real.sin (ψ - θ) = γ)
    (hN : |Ne - 2 * (rho / M) * n' * γ| ≤ 410 * (1 / 2 ^ 53)) (hX : |X / M - (a / M + rho / M * Real.cos ψ)| ≤ 33 * (1 / 2 ^ 53))
    (hY : |Y / M - (b / M + rho / M * Real.sin ψ)| ≤ 33 * (1 / 2 ^ 53)) :
    |√((X - a) ^ 2 + (Y - b) ^ 2) - rho| ≤ 1 / 2 ^ 46 * M ∧
    |side om 1 (Real.sin ph) (Real.cos ph) (X - (rx - d * Real.sin ph)) (Y - (ry + d * Real.cos ph))| ≤ 1 / 2 ^ 42 * (M * W) := by
  obtain ⟨M0, W1, r0⟩ := hr.pos
  rw [← eW] at W1
  have W0 : 0 < W := by linarith
  have u0 : (0 : ℝ) ≤ 1 / 2 ^ 53 := by positivity
  have u1 : (1 : ℝ) / 2 ^ 53 ≤ 1 / 1000000 := by norm_num
  have ρ1 : rho / M ≤ 1 := (div_le_one M0).2 hr.hrho'
  have ρ0 : 0 < rho / M := by positivity
  have hρ : |rho / M| ≤ 1 := by rwa [abs_of_pos ρ0]
  constructor
  · have e1 : (X - a) / M - rho / M * Real.cos ψ = X / M - (a / M + rho / M * Real.cos ψ) := by ring
    have e2 : (Y - b) / M - rho / M * Real.sin ψ = Y / M - (b / M + rho / M * Real.sin ψ) := by ring
    rw [← e1] at hX
    rw [← e2] at hY
    have k := length_error hX hY
    have k1 : (rho / M * Real.cos ψ) ^ 2 + (rho / M * Real.sin ψ) ^ 2 = (rho / M) ^ 2 := by
      linear_combination (rho / M) ^ 2 * Real.sin_sq_add_cos_sq ψ
    rw [k1, Real.sqrt_sq ρ0.le, div_pow, div_pow, ← add_div, Real.sqrt_div' _ (by positivity), Real.sqrt_sq M0.le, ← sub_div, abs_div,
      abs_of_pos M0, div_le_iff₀ M0] at k
    refine k.trans (mul_le_mul_of_nonneg_right ?_ M0.le)
    norm_num
  · have hv : |1 / W| ≤ 1 := by rw [abs_of_pos (by positivity), div_le_one W0]; exact W1
    have hm : |om * M / W| ≤ 1 := by
      rw [abs_div, abs_of_pos W0, div_le_one W0, abs_mul, abs_of_pos M0, eW]
      linarith
    have k1 := side_angle (s := Real.sin ph) (c := Real.cos ph) (v := 1 / W) (m := om * M / W) (g := G) (h := K) (r := rho / M) ρ0.le ρ1 eNe hA hB eA eB hψ hN
    have e1 : (X - (rx - d * Real.sin ph)) / M - (G + rho / M * Real.cos ψ) = X / M - (a / M + rho / M * Real.cos ψ) := by
      rw [eG]
      ring
    have e2 : (Y - (ry + d * Real.cos ph)) / M - (K + rho / M * Real.sin ψ) = Y / M - (b / M + rho / M * Real.sin ψ) := by
      rw [eK]
      ring
    have z1 := abs_mul_le_of hρ (Real.abs_cos_le_one ψ)
    have z2 := abs_mul_le_of hρ (Real.abs_sin_le_one ψ)
    have k2 := side_moved u0 u1 hm hv (Real.abs_sin_le_one ph) (Real.abs_cos_le_one ph) ((abs_add_le _ _).trans (by linarith))
      ((abs_add_le _ _).trans (by linarith)) (by rw [e1]; exact hX) (by rw [e2]; exact hY) k1
    rw [side_scale M0.ne' W0.ne', abs_div, abs_of_pos (by positivity : 0 < M * W), div_le_iff₀ (by positivity)] at k2
    refine k2.trans (mul_le_mul_of_nonneg_right ?_ (by positivity))
    norm_num

theorem sin_second {σ t : ℝ} (hσ : |σ| = 1) : Real.sin (σ * Real.pi - t) = Real.sin t := by
  rcases (abs_eq (by norm_num)).1 hσ with rfl | rfl
  · rw [one_mul, Real.sin_pi_sub]
  · rw [neg_one_mul, show -Real.pi - t = -(t + Real.pi) by ring, Real.sin_neg, Real.sin_add_pi, neg_neg]

/-- the result of the computation: no points if `gamma` is above 1, else two points for angles `ψ0`, `ψ1` -/
theorem cyl_all (h : NearestF 53 1074 fl) (hl : IsLibm lm) (ha2 : IsAtan2 at2) (has : IsAsin asn) (hr : CylRange M om ph d rx ry a b rho) (tl z rz c : ℝ)
    {W G K : ℝ} (eW : W = 1 + |om| * M) (eG : G = (a - (rx - d * Real.sin ph)) / M) (eK : K = (b - (ry + d * Real.cos ph)) / M) :
    ∃ A B N den γ Ne n n' : ℝ, Ne = 1 / W * (2 * G * Real.sin ph) - 1 / W * (2 * K * Real.cos ph) - om * M / W * (rho / M) * (rho / M) - om * M / W * (G * G + K * K) ∧
      n = √((1 / W * Real.sin ph - om * M / W * G) ^ 2 + (1 / W * Real.cos ph + om * M / W * K) ^ 2) ∧
      |A / W - (1 / W * Real.sin ph - om * M / W * G)| ≤ 19 * (1 / 2 ^ 53) ∧
      |B / W - (1 / W * Real.cos ph + om * M / W * K)| ≤ 19 * (1 / 2 ^ 53) ∧ |N / (M * W) - Ne| ≤ 320 * (1 / 2 ^ 53) ∧
      |n' - n| ≤ 38 * (1 / 2 ^ 53) ∧ 0 < n' ∧ |den / (M * W) - 2 * (rho / M) * n'| ≤ 70 * (1 / 2 ^ 53) ∧ 0 < den / (M * W) ∧
      den / (M * W) ≤ 13 ∧ 1 / 2 ^ 40 ≤ n ∧ |G| ≤ 3 ∧ |K| ≤ 3 ∧
      |γ - N / (M * W) / (den / (M * W))| ≤ 1 / 2 ^ 53 * (|N / (M * W) / (den / (M * W))| + 1 / 1000) ∧
      (|N / (M * W) / (den / (M * W))| ≤ 1 → |γ| ≤ 1) ∧
      (1 < |γ| → Rnd.cylinderCandidates fl lm at2 asn (fin rho) (V3.re a b c) (hpR om tl ph d z) (V3.re rx ry rz) = none) ∧
      (|γ| ≤ 1 → |Ne - 2 * (rho / M) * n' * γ| ≤ 410 * (1 / 2 ^ 53) ∧ ∃ σ θ ψ0 ψ1 X0 Y0 X1 Y1, |σ| = 1 ∧ A / W = n' * Real.sin θ ∧ B / W = n' * Real.cos θ ∧
      ψ0 = Real.arcsin γ + θ ∧ ψ1 = σ * Real.pi - Real.arcsin γ + θ ∧ Real.sin (ψ0 - θ) = γ ∧ Real.sin (ψ1 - θ) = γ ∧
      Rnd.cylinderCandidates fl lm at2 asn (fin rho) (V3.re a b c) (hpR om tl ph d z) (V3.re rx ry rz) = some ((fin X0, fin Y0), (fin X1, fin Y1)) ∧
      |X0 / M - (a / M + rho / M * Real.cos ψ0)| ≤ 33 * (1 / 2 ^ 53) ∧ |Y0 / M - (b / M + rho / M * Real.sin ψ0)| ≤ 33 * (1 / 2 ^ 53) ∧
      |X1 / M - (a / M + rho / M * Real.cos ψ1)| ≤ 33 * (1 / 2 ^ 53) ∧ |Y1 / M - (b / M + rho / M * Real.sin ψ1)| ≤ 33 * (1 / 2 ^ 53)) := by
  obtain ⟨M0, W1, r0⟩ := hr.pos
  rw [← eW] at W1
  obtain ⟨g, eg⟩ : ∃ g, g = cyDx fl a rx d (lm.sin ph) := ⟨_, rfl⟩
  obtain ⟨k, ek⟩ : ∃ k, k = cyDy fl b ry d (lm.cos ph) := ⟨_, rfl⟩
  obtain ⟨A, eA⟩ : ∃ A, A = cySox fl om (lm.sin ph) g := ⟨_, rfl⟩
  obtain ⟨B, eB⟩ : ∃ B, B = cyCoy fl om (lm.cos ph) k := ⟨_, rfl⟩
  obtain ⟨N, eN⟩ : ∃ N, N = cyNum fl om rho (lm.sin ph) (lm.cos ph) g k := ⟨_, rfl⟩
  obtain ⟨den, ed⟩ : ∃ den, den = cyDen fl rho A B := ⟨_, rfl⟩
  obtain ⟨γ, eγ⟩ : ∃ γ, γ = fl (N / den) := ⟨_, rfl⟩
  obtain ⟨Ne, n, n', eNe, en, en', hA, hB, hN, hn, n0, -, hD, den0, den1, -, hn', hG, hK, -⟩ := cyl_numbers h hl hr eW eg ek eA eB eN ed eG eK
  have u0 : (0 : ℝ) ≤ 1 / 2 ^ 53 := by positivity
  have u1 : (1 : ℝ) / 2 ^ 53 ≤ 1 / 1000000 := by norm_num
  have MW : 0 < M * W := by positivity
  have den2 : 0 < den / (M * W) := lt_of_lt_of_le (by positivity) den0
  have hγ : |γ - N / (M * W) / (den / (M * W))| ≤ 1 / 2 ^ 53 * (|N / (M * W) / (den / (M * W))| + 1 / 1000) := by
    rw [div_div_div_cancel_right₀ MW.ne', eγ]
    simpa using scaled_err h (t := N / den) (B := 1) (by
      rw [div_le_one (by positivity)]
      exact one_le_pow₀ (by norm_num))
  have vals := cyl_values h hl ha2 has hr (tl := tl) (z := z) (rz := rz) (c := c) eg ek eA eB eN ed eγ
  refine ⟨A, B, N, den, γ, Ne, n, n', eNe, en, hA, hB, hN, hn, n0, hD, den2, den1, hn', hG, hK, hγ, ?_, vals.1, ?_⟩
  · intro h1
    rw [div_div_div_cancel_right₀ MW.ne'] at h1
    rw [eγ]
    obtain ⟨l1, l2⟩ := abs_le.1 h1
    have m1 := h.near (N / den) 1 repF_one
    have m2 := h.near (N / den) (-1) (rep_dyadic (-1) 0 (by norm_num) (by norm_num) (by norm_num))
    rw [abs_of_nonneg (by linarith : 0 ≤ 1 - N / den)] at m1
    rw [abs_of_nonpos (by linarith : -1 - N / den ≤ 0)] at m2
    have k1 := (abs_le.1 m1).2
    have k2 := (abs_le.1 m2).1
    exact abs_le.2 ⟨by linarith, by linarith⟩
  · intro h1
    refine ⟨gamma_error u0 u1 hN hD den2 den1 hγ h1, ?_⟩
    obtain ⟨σ, θ, ψ0, ψ1, X0, Y0, X1, Y1, hσ, eA', eB', e0, e1, hc', x0, y0, x1, y1⟩ :=
      cyl_core h hl ha2 has hr (tl := tl) (z := z) (rz := rz) (c := c) eW eg ek eA eB eN ed eγ en' n0 h1
    obtain ⟨l1, l2⟩ := abs_le.1 h1
    refine ⟨σ, θ, ψ0, ψ1, X0, Y0, X1, Y1, hσ, eA', eB', e0, e1, ?_, ?_, hc', x0, y0, x1, y1⟩
    · rw [e0, add_sub_cancel_right, Real.sin_arcsin l1 l2]
    · rw [e1, add_sub_cancel_right, sin_second hσ, Real.sin_arcsin l1 l2]

/-- the two computed points are next to the cylinder and next to the track -/
theorem cyl_points (h : NearestF 53 1074 fl) (hl : IsLibm lm) (ha2 : IsAtan2 at2) (has : IsAsin asn) (hr : CylRange M om ph d rx ry a b rho)
    {tl z rz c : ℝ} {P0 P1 : Dbl × Dbl}
    (hc : Rnd.cylinderCandidates fl lm at2 asn (fin rho) (V3.re a b c) (hpR om tl ph d z) (V3.re rx ry rz) = some (P0, P1)) :
    ∀ P, P = P0 ∨ P = P1 → ∃ X Y, P = (fin X, fin Y) ∧ |√((X - a) ^ 2 + (Y - b) ^ 2) - rho| ≤ 1 / 2 ^ 46 * M ∧
      |side om 1 (Real.sin ph) (Real.cos ph) (X - (rx - d * Real.sin ph)) (Y - (ry + d * Real.cos ph))| ≤ 1 / 2 ^ 42 * (M * (1 + |om| * M)) := by
  obtain ⟨W, eW⟩ : ∃ W, W = 1 + |om| * M := ⟨_, rfl⟩
  rw [← eW]
  obtain ⟨A, B, N, den, γ, Ne, n, n', eNe, -, hA, hB, -, -, -, -, -, -, -, hG, hK, -, -, hnone, hsome⟩ :=
    cyl_all h hl ha2 has hr tl z rz c eW rfl rfl
  by_cases h1 : |γ| ≤ 1
  · obtain ⟨hg, σ, θ, ψ0, ψ1, X0, Y0, X1, Y1, -, eA, eB, -, -, s0, s1, hc', x0, y0, x1, y1⟩ := hsome h1
    rw [hc'] at hc
    intro P hP
    injection hc with hc
    injection hc with c0 c1
    rcases hP with rfl | rfl
    · exact ⟨X0, Y0, c0.symm, cyl_near hr eW rfl rfl hG hK eNe hA hB eA eB s0 hg x0 y0⟩
    · exact ⟨X1, Y1, c1.symm, cyl_near hr eW rfl rfl hG hK eNe hA hB eA eB s1 hg x1 y1⟩
  · rw [hnone (not_le.1 h1)] at hc
    cases hc

/-- `side` on the cylinder -/
theorem cyl_side (M0 : 0 < M) {W G K Ne n : ℝ} (W0 : 0 < W)
    (eG : G = (a - (rx - d * Real.sin ph)) / M) (eK : K = (b - (ry + d * Real.cos ph)) / M)
    (eNe : Ne = 1 / W * (2 * G * Real.sin ph) - 1 / W * (2 * K * Real.cos ph) - om * M / W * (rho / M) * (rho / M) - om * M / W * (G * G + K * K))
    (en : n = √((1 / W * Real.sin ph - om * M / W * G) ^ 2 + (1 / W * Real.cos ph + om * M / W * K) ^ 2)) :
    ∃ τ, ∀ φ, side om 1 (Real.sin ph) (Real.cos ph) (a + rho * Real.cos φ - (rx - d * Real.sin ph)) (b + rho * Real.sin φ - (ry + d * Real.cos ph)) / (M * W) =
      -Ne + 2 * (rho / M) * n * Real.sin (φ - τ) := by
  obtain ⟨τ, h1, h2⟩ := exists_polar (1 / W * Real.cos ph + om * M / W * K) (1 / W * Real.sin ph - om * M / W * G)
  rw [add_comm ((1 / W * Real.cos ph + om * M / W * K) ^ 2), ← en] at h1 h2
  refine ⟨τ, fun φ => ?_⟩
  rw [← side_scale M0.ne' W0.ne', show (a + rho * Real.cos φ - (rx - d * Real.sin ph)) / M = G + rho / M * Real.cos φ by rw [eG]; ring,
    show (b + rho * Real.sin φ - (ry + d * Real.cos ph)) / M = K + rho / M * Real.sin φ by rw [eK]; ring, side_cylinder, ← eNe, h1, h2, Real.sin_sub]
  ring

theorem select_zero (s0 s1 : Dbl) : Rnd.cylinderSelect fl 0 s0 s1 ≠ none := by
  simp only [Rnd.cylinderSelect, cif_eq]
  split_ifs <;> simp at *

/-- C141: in double precision a crossing reported by `intersectWithZCylinder` is next to the cylinder and next to the track, whatever the
mode; its path length and its z coordinate are those computed for this point. -/
theorem C141_points (h : NearestF 53 1074 fl) (hl : IsLibm lm) (ha2 : IsAtan2 at2) (has : IsAsin asn) (hr : CylRange M om ph d rx ry a b rho)
    {tl z rz c : ℝ} {surf : Surface} (hs : surf.cyl = some (fin rho, V3.re a b c)) {s : Dbl} {xx : V3} {mode : ℤ} {cb : Bool} {hit : Hit}
    (hh : Rnd.intersectWithZCylinder fl lm at2 asn surf (hpR om tl ph d z) (V3.re rx ry rz) s xx mode cb = .ok hit) (hf : hit.found = true)
    {x y w : ℝ → ℝ} (ht : Spec.IsTrack om tl ph (rx - d * Real.sin ph) (ry + d * Real.cos ph) (rz + z) x y w) :
    ∃ X Y t, hit.xx.x = fin X ∧ hit.xx.y = fin Y ∧ |√((X - a) ^ 2 + (Y - b) ^ 2) - rho| ≤ 1 / 2 ^ 46 * M ∧
      √((X - x t) ^ 2 + (Y - y t) ^ 2) ≤ 1 / 2 ^ 42 * (M * (1 + |om| * M)) ∧
      hit.s = Rnd.calculateSfromXY fl lm at2 (fin X) (fin Y) (hpR om tl ph d z) (V3.re rx ry rz) ∧
      hit.xx.z = Rnd.calculateZfromS fl hit.s (hpR om tl ph d z) (V3.re rx ry rz) ∧ (cb = true → surf.insideBounds hit.xx = true) := by
  unfold Rnd.intersectWithZCylinder at hh
  rw [hs] at hh
  simp only at hh
  split_ifs at hh with hp
  cases hc : Rnd.cylinderCandidates fl lm at2 asn (fin rho) (V3.re a b c) (hpR om tl ph d z) (V3.re rx ry rz) with
  | none =>
    rw [hc] at hh
    injection hh with hh
    rw [← hh] at hf
    cases hf
  | some P =>
    obtain ⟨⟨X0, Y0⟩, ⟨X1, Y1⟩⟩ := P
    rw [hc] at hh
    simp only at hh
    have key := cyl_points h hl ha2 has hr hc
    cases hsel : Rnd.cylinderSelect fl mode (Rnd.calculateSfromXY fl lm at2 X0 Y0 (hpR om tl ph d z) (V3.re rx ry rz))
        (Rnd.calculateSfromXY fl lm at2 X1 Y1 (hpR om tl ph d z) (V3.re rx ry rz)) with
    | none =>
      rw [hsel] at hh
      injection hh with hh
      rw [← hh] at hf
      cases hf
    | some b =>
      rw [hsel] at hh
      cases b
      · obtain ⟨X, Y, e, k1, k2⟩ := key (X1, Y1) (Or.inr rfl)
        injection e with e1 e2
        subst e1 e2
        injection hh with hh
        obtain ⟨t, ht⟩ := near_track ht k2
        rw [← hh] at hf ⊢
        exact ⟨X, Y, t, rfl, rfl, k1, ht, rfl, rfl, fun hcb => by rw [hcb] at hf; exact hf⟩
      · obtain ⟨X, Y, e, k1, k2⟩ := key (X0, Y0) (Or.inl rfl)
        injection e with e1 e2
        subst e1 e2
        injection hh with hh
        obtain ⟨t, ht⟩ := near_track ht k2
        rw [← hh] at hf ⊢
        exact ⟨X, Y, t, rfl, rfl, k1, ht, rfl, rfl, fun hcb => by rw [hcb] at hf; exact hf⟩

/-- C141, no crossing: if all points of the cylinder are at a distance of at least 2^-44 M (1 + |omega| M) from the track, none is reported, and
the variables `s` and `xx` keep their content. -/
theorem C141_none (h : NearestF 53 1074 fl) (hl : IsLibm lm) (ha2 : IsAtan2 at2) (has : IsAsin asn) (hr : CylRange M om ph d rx ry a b rho)
    {tl z rz c : ℝ} {surf : Surface} (hs : surf.cyl = some (fin rho, V3.re a b c)) (hz : surf.type.isParallelToZ = true) (s : Dbl) (xx : V3) (mode : ℤ)
    (cb : Bool) {x y w : ℝ → ℝ} (ht : Spec.IsTrack om tl ph (rx - d * Real.sin ph) (ry + d * Real.cos ph) (rz + z) x y w)
    (hfar : ∀ φ t, 1 / 2 ^ 44 * (M * (1 + |om| * M)) ≤ √((a + rho * Real.cos φ - x t) ^ 2 + (b + rho * Real.sin φ - y t) ^ 2)) :
    Rnd.intersectWithZCylinder fl lm at2 asn surf (hpR om tl ph d z) (V3.re rx ry rz) s xx mode cb = .ok ⟨false, s, xx⟩ := by
  obtain ⟨M0, W1, r0⟩ := hr.pos
  obtain ⟨W, eW⟩ : ∃ W, W = 1 + |om| * M := ⟨_, rfl⟩
  rw [← eW] at W1 hfar
  have W0 : 0 < W := by linarith
  obtain ⟨A, B, N, den, γ, Ne, n, n', eNe, en, -, -, hN, hn, -, hD, den0, den1, hn', -, -, hγ, -, hnone, -⟩ :=
    cyl_all h hl ha2 has hr tl z rz c eW rfl rfl
  obtain ⟨τ, hτ⟩ := cyl_side (om := om) (ph := ph) (d := d) (rx := rx) (ry := ry) (a := a) (b := b) (rho := rho) M0 W0 rfl rfl eNe en
  have u0 : (0 : ℝ) < 1 / 2 ^ 53 := by positivity
  have u1 : (1 : ℝ) / 2 ^ 53 ≤ 1 / 1000000 := by norm_num
  have ρ1 : rho / M ≤ 1 := (div_le_one M0).2 hr.hrho'
  have ρ0 : 0 < rho / M := by positivity
  have n0 : 0 < n := lt_of_lt_of_le (by positivity) hn'
  have far : ∀ φ, 512 * (1 / 2 ^ 53) ≤ |-Ne + 2 * (rho / M) * n * Real.sin (φ - τ)| := fun φ => by
    have k := far_track ht (hfar φ)
    rw [← hτ, abs_div, abs_of_pos (by positivity : 0 < M * W), le_div_iff₀ (by positivity)]
    refine le_trans (mul_le_mul_of_nonneg_right ?_ (by positivity)) k
    norm_num
  have T0 : 0 < 2 * (rho / M) * n := by positivity
  have big : 2 * (rho / M) * n + 512 * (1 / 2 ^ 53) ≤ |Ne| := by
    rcases le_or_gt |Ne| (2 * (rho / M) * n) with hle | hlt
    · exfalso
      have k := far (Real.arcsin (Ne / (2 * (rho / M) * n)) + τ)
      have l : |Ne / (2 * (rho / M) * n)| ≤ 1 := by rwa [abs_div, abs_of_pos T0, div_le_one T0]
      obtain ⟨l1, l2⟩ := abs_le.1 l
      rw [add_sub_cancel_right, Real.sin_arcsin l1 l2, mul_div_cancel₀ _ T0.ne', neg_add_cancel, abs_zero] at k
      linarith
    · rcases abs_cases Ne with ⟨e, -⟩ | ⟨e, -⟩
      · have k := far (Real.pi / 2 + τ)
        rw [add_sub_cancel_right, Real.sin_pi_div_two, mul_one, abs_of_neg (by linarith)] at k
        linarith
      · have k := far (-(Real.pi / 2) + τ)
        rw [add_sub_cancel_right, Real.sin_neg, Real.sin_pi_div_two, mul_neg, mul_one, abs_of_pos (by linarith)] at k
        linarith
  have hc := hnone (gamma_large u0 u1 ρ0.le ρ1 hN hD rfl hn den0 den1 hγ big)
  unfold Rnd.intersectWithZCylinder
  rw [hs]
  simp only [hz, if_true, hc]

/-- C141, crossing: if the cylinder has a point inside of the circle of the track and one outside, both at a distance of at least
2^-44 M (1 + |omega| M) from the circle, a crossing is reported (without a condition on direction and bounds). -/
theorem C141_found (h : NearestF 53 1074 fl) (hl : IsLibm lm) (ha2 : IsAtan2 at2) (has : IsAsin asn) (hr : CylRange M om ph d rx ry a b rho)
    {tl z rz c : ℝ} {surf : Surface} (hs : surf.cyl = some (fin rho, V3.re a b c)) (hz : surf.type.isParallelToZ = true) (s : Dbl) (xx : V3)
    (hom : om ≠ 0) {φ1 φ2 r1 r2 : ℝ} (r1p : 0 ≤ r1) (r2p : 0 ≤ r2)
    (h1 : r1 ^ 2 = (a + rho * Real.cos φ1 - (rx - d * Real.sin ph + Real.sin ph / om)) ^ 2 + (b + rho * Real.sin φ1 - (ry + d * Real.cos ph - Real.cos ph / om)) ^ 2)
    (h2 : r2 ^ 2 = (a + rho * Real.cos φ2 - (rx - d * Real.sin ph + Real.sin ph / om)) ^ 2 + (b + rho * Real.sin φ2 - (ry + d * Real.cos ph - Real.cos ph / om)) ^ 2)
    (hin : r1 + 1 / 2 ^ 44 * (M * (1 + |om| * M)) ≤ 1 / |om|) (hout : 1 / |om| + 1 / 2 ^ 44 * (M * (1 + |om| * M)) ≤ r2) :
    ∃ hit, Rnd.intersectWithZCylinder fl lm at2 asn surf (hpR om tl ph d z) (V3.re rx ry rz) s xx 0 false = .ok hit ∧ hit.found = true := by
  obtain ⟨M0, W1, r0⟩ := hr.pos
  obtain ⟨W, eW⟩ : ∃ W, W = 1 + |om| * M := ⟨_, rfl⟩
  rw [← eW] at W1 hin hout
  have W0 : 0 < W := by linarith
  obtain ⟨A, B, N, den, γ, Ne, n, n', eNe, en, -, -, hN, hn, -, hD, den0, den1, hn', -, -, -, hsmall, -, hsome⟩ :=
    cyl_all h hl ha2 has hr tl z rz c eW rfl rfl
  obtain ⟨τ, hτ⟩ := cyl_side (om := om) (ph := ph) (d := d) (rx := rx) (ry := ry) (a := a) (b := b) (rho := rho) M0 W0 rfl rfl eNe en
  have u0 : (0 : ℝ) < 1 / 2 ^ 53 := by positivity
  have ρ1 : rho / M ≤ 1 := (div_le_one M0).2 hr.hrho'
  have ρ0 : 0 < rho / M := by positivity
  have n0 : 0 < n := lt_of_lt_of_le (by positivity) hn'
  have T0 : 0 < 2 * (rho / M) * n := by positivity
  have MW : 0 < M * W := by positivity
  have o0 : 0 < |om| := abs_pos.2 hom
  have R1 : |om| * (1 / |om|) = 1 := by field_simp
  have R2 : (1 / om) ^ 2 = (1 / |om|) ^ 2 := by rw [← sq_abs (1 / om), abs_div, abs_one]
  have R0 : 0 < 1 / |om| := by positivity
  have v1 := side_center hom h1
  have v2 := side_center hom h2
  have k1 := hτ φ1
  have k2 := hτ φ2
  rw [v1, R2] at k1
  rw [v2, R2] at k2
  have i1 : 1 / 2 ^ 44 * (M * W) ≤ |om| * ((1 / |om|) ^ 2 - r1 ^ 2) := by
    have e : |om| * ((1 / |om|) ^ 2 - r1 ^ 2) = (1 / |om| - r1) * (|om| * (1 / |om|) + |om| * r1) := by ring
    rw [e, R1]
    have : 0 ≤ |om| * r1 := by positivity
    have w1 : 1 / 2 ^ 44 * (M * W) ≤ 1 / |om| - r1 := by linarith
    exact w1.trans (le_mul_of_one_le_right (le_trans (by positivity) w1) (by linarith))
  have i2 : 1 / 2 ^ 44 * (M * W) ≤ |om| * (r2 ^ 2 - (1 / |om|) ^ 2) := by
    have e : |om| * (r2 ^ 2 - (1 / |om|) ^ 2) = (r2 - 1 / |om|) * (|om| * (1 / |om|) + |om| * r2) := by ring
    rw [e, R1]
    have : 0 ≤ |om| * r2 := by positivity
    have w1 : 1 / 2 ^ 44 * (M * W) ≤ r2 - 1 / |om| := by linarith
    exact w1.trans (le_mul_of_one_le_right (le_trans (by positivity) w1) (by linarith))
  have c1 := Real.neg_one_le_sin (φ1 - τ)
  have c2 := Real.sin_le_one (φ1 - τ)
  have c3 := Real.neg_one_le_sin (φ2 - τ)
  have c4 := Real.sin_le_one (φ2 - τ)
  have t1 := mul_le_mul_of_nonneg_left c1 T0.le
  have t2 := mul_le_mul_of_nonneg_left c2 T0.le
  have t3 := mul_le_mul_of_nonneg_left c3 T0.le
  have t4 := mul_le_mul_of_nonneg_left c4 T0.le
  have δ : (1 : ℝ) / 2 ^ 44 = 512 * (1 / 2 ^ 53) := by norm_num
  have small : |Ne| + 512 * (1 / 2 ^ 53) ≤ 2 * (rho / M) * n := by
    rw [← δ]
    have j1 : 1 / 2 ^ 44 ≤ |om| * ((1 / |om|) ^ 2 - r1 ^ 2) / (M * W) := by rwa [le_div_iff₀ MW]
    have j2 : 1 / 2 ^ 44 ≤ |om| * (r2 ^ 2 - (1 / |om|) ^ 2) / (M * W) := by rwa [le_div_iff₀ MW]
    rcases abs_cases om with ⟨e, -⟩ | ⟨e, -⟩
    · have e1 : |om| * ((1 / |om|) ^ 2 - r1 ^ 2) / (M * W) = -(om * (r1 ^ 2 - (1 / |om|) ^ 2) / (M * W)) := by rw [e]; ring
      have e2 : |om| * (r2 ^ 2 - (1 / |om|) ^ 2) / (M * W) = om * (r2 ^ 2 - (1 / |om|) ^ 2) / (M * W) := by rw [e]
      rw [e1, k1] at j1
      rw [e2, k2] at j2
      rcases abs_cases Ne with ⟨q, -⟩ | ⟨q, -⟩ <;> rw [q] <;> linarith
    · have e1 : |om| * ((1 / |om|) ^ 2 - r1 ^ 2) / (M * W) = om * (r1 ^ 2 - (1 / |om|) ^ 2) / (M * W) := by rw [e]; ring
      have e2 : |om| * (r2 ^ 2 - (1 / |om|) ^ 2) / (M * W) = -(om * (r2 ^ 2 - (1 / |om|) ^ 2) / (M * W)) := by rw [e]; ring
      rw [e1, k1] at j1
      rw [e2, k2] at j2
      rcases abs_cases Ne with ⟨q, -⟩ | ⟨q, -⟩ <;> rw [q] <;> linarith
  obtain ⟨-, σ, θ, ψ0, ψ1, X0, Y0, X1, Y1, -, -, -, -, -, -, -, hc, -⟩ := hsome (hsmall (gamma_small u0.le ρ0.le ρ1 hN hD rfl hn den0 small))
  unfold Rnd.intersectWithZCylinder
  rw [hs]
  simp only [hz, if_true, hc]
  cases hsel : Rnd.cylinderSelect fl 0 (Rnd.calculateSfromXY fl lm at2 (fin X0) (fin Y0) (hpR om tl ph d z) (V3.re rx ry rz))
        (Rnd.calculateSfromXY fl lm at2 (fin X1) (fin Y1) (hpR om tl ph d z) (V3.re rx ry rz)) with
  | none =>
    exact absurd hsel (select_zero _ _)
  | some b => cases b <;> exact ⟨_, rfl, by simp [boundsOk]⟩

/-- C141, all crossings: for every crossing of the track with the cylinder one of the two computed points is close to it; the bound holds also
for tracks that touch the cylinder. -/
theorem C141_all (h : NearestF 53 1074 fl) (hl : IsLibm lm) (ha2 : IsAtan2 at2) (has : IsAsin asn) (hr : CylRange M om ph d rx ry a b rho)
    {tl z rz c : ℝ} {P0 P1 : Dbl × Dbl}
    (hc : Rnd.cylinderCandidates fl lm at2 asn (fin rho) (V3.re a b c) (hpR om tl ph d z) (V3.re rx ry rz) = some (P0, P1))
    {x y w : ℝ → ℝ} (ht : Spec.IsTrack om tl ph (rx - d * Real.sin ph) (ry + d * Real.cos ph) (rz + z) x y w) {t : ℝ}
    (hon : (x t - a) ^ 2 + (y t - b) ^ 2 = rho ^ 2) {v : ℝ}
    (hv : v = √((Real.sin ph - om * (a - (rx - d * Real.sin ph))) ^ 2 + (Real.cos ph + om * (b - (ry + d * Real.cos ph))) ^ 2)) :
    ∃ X Y, ((fin X, fin Y) = P0 ∨ (fin X, fin Y) = P1) ∧
      √((X - x t) ^ 2 + (Y - y t) ^ 2) ≤ 1 / 2 ^ 20 * √(M * rho * ((1 + |om| * M) / v)) := by
  obtain ⟨M0, W1, r0⟩ := hr.pos
  obtain ⟨W, eW⟩ : ∃ W, W = 1 + |om| * M := ⟨_, rfl⟩
  rw [← eW] at W1 ⊢
  have W0 : 0 < W := by linarith
  obtain ⟨A, B, N, den, γ, Ne, n, n', eNe, en, hA, hB, -, hn, n'0, -, -, -, hn', hG, hK, -, -, hnone, hsome⟩ :=
    cyl_all h hl ha2 has hr tl z rz c eW rfl rfl
  have u0 : (0 : ℝ) ≤ 1 / 2 ^ 53 := by positivity
  have ρ1 : rho / M ≤ 1 := (div_le_one M0).2 hr.hrho'
  have ρ0 : 0 < rho / M := by positivity
  have ρ2 : 1 / 2 ^ 40 ≤ rho / M := by rw [le_div_iff₀ M0]; exact hr.hrho
  have n0 : 0 < n := lt_of_lt_of_le (by positivity) hn'
  have nv : n = v / W := by
    have e1 : 1 / W * Real.sin ph - om * M / W * ((a - (rx - d * Real.sin ph)) / M) = (Real.sin ph - om * (a - (rx - d * Real.sin ph))) / W := by
      field_simp
    have e2 : 1 / W * Real.cos ph + om * M / W * ((b - (ry + d * Real.cos ph)) / M) = (Real.cos ph + om * (b - (ry + d * Real.cos ph))) / W := by
      field_simp
    rw [en, hv, e1, e2, div_pow, div_pow, ← add_div, Real.sqrt_div' _ (by positivity), Real.sqrt_sq W0.le]
  have v0 : 0 < v := by
    rw [nv] at n0
    exact (div_pos_iff_of_pos_right W0).1 n0
  have n8 : n ≤ 8 := by
    have hv1 : |1 / W| ≤ 1 := by rw [abs_of_pos (by positivity), div_le_one W0]; exact W1
    have hm : |om * M / W| ≤ 1 := by
      rw [abs_div, abs_of_pos W0, div_le_one W0, abs_mul, abs_of_pos M0, eW]
      linarith
    have a1 := (abs_sub _ _).trans (add_le_add (abs_mul_le_of hv1 (Real.abs_sin_le_one ph)) (abs_mul_le_of hm hG))
    have a2 := (abs_add_le _ _).trans (add_le_add (abs_mul_le_of hv1 (Real.abs_cos_le_one ph)) (abs_mul_le_of hm hK))
    rw [en]
    refine (Real.sqrt_le_left (by norm_num)).2 ?_
    have k1 := sq_le_sq' (abs_le.1 a1).1 (abs_le.1 a1).2
    have k2 := sq_le_sq' (abs_le.1 a2).1 (abs_le.1 a2).2
    norm_num at k1 k2 ⊢
    linarith
  by_cases h1 : |γ| ≤ 1
  · obtain ⟨hg, σ, θ, ψ0, ψ1, X0, Y0, X1, Y1, hσ, eA, eB, e0, e1, s0, s1, hc', x0, y0, x1, y1⟩ := hsome h1
    rw [hc'] at hc
    injection hc with hc
    injection hc with c0 c1
    obtain ⟨φ, hφ1, hφ2⟩ := exists_polar (x t - a) (y t - b)
    rw [hon, Real.sqrt_sq r0.le] at hφ1 hφ2
    have hs := side_track ht t
    have h0 : side (om * M / W) (1 / W) (Real.sin ph) (Real.cos ph) ((a - (rx - d * Real.sin ph)) / M + rho / M * Real.cos φ)
        ((b - (ry + d * Real.cos ph)) / M + rho / M * Real.sin φ) = 0 := by
      rw [show (a - (rx - d * Real.sin ph)) / M + rho / M * Real.cos φ = (x t - (rx - d * Real.sin ph)) / M by
          rw [show x t = a + rho * Real.cos φ by linarith]; ring,
        show (b - (ry + d * Real.cos ph)) / M + rho / M * Real.sin φ = (y t - (ry + d * Real.cos ph)) / M by
          rw [show y t = b + rho * Real.sin φ by linarith]; ring, side_scale M0.ne' W0.ne', hs, zero_div]
    have k1 := side_exact ρ0.le ρ1 eNe hA hB eA eB h0
    have k2 : |Real.sin (φ - θ) - Real.sin (Real.arcsin γ)| ≤ 243 * (1 / 2 ^ 53) / (rho / M * n') := by
      obtain ⟨l1, l2⟩ := abs_le.1 h1
      rw [Real.sin_arcsin l1 l2, le_div_iff₀ (by positivity), ← abs_of_pos (show 0 < rho / M * n' by positivity), ← abs_mul]
      rw [abs_sub_comm] at k1
      have k3 := near_trans k1 hg
      have e : 2 * (rho / M) * n' * Real.sin (φ - θ) - 2 * (rho / M) * n' * γ = 2 * ((Real.sin (φ - θ) - γ) * (rho / M * n')) := by ring
      rw [e, abs_mul, abs_two] at k3
      linarith
    have n'h : n / 2 ≤ n' := by
      have := (abs_le.1 hn).1
      norm_num at this hn' ⊢
      linarith
    have D2 : (1 / 2 ^ 22 : ℝ) ≤ √(rho / M / n) := by
      refine Real.le_sqrt_of_sq_le ?_
      rw [le_div_iff₀ n0]
      norm_num at ρ2 ⊢
      linarith
    -- the distance in units of M from the exact point of one of the angles
    have fin1 : ∀ {ψ X Y : ℝ}, Real.sin ((φ - ψ) / 2) ^ 2 ≤ 243 * (1 / 2 ^ 53) / (rho / M * n') / 2 → |X / M - (a / M + rho / M * Real.cos ψ)| ≤ 33 * (1 / 2 ^ 53) →
        |Y / M - (b / M + rho / M * Real.sin ψ)| ≤ 33 * (1 / 2 ^ 53) → √((X - x t) ^ 2 + (Y - y t) ^ 2) ≤ 1 / 2 ^ 20 * √(M * rho * (W / v)) := by
      intro ψ X Y hψ hX hY
      have q1 : (rho / M * Real.cos φ - rho / M * Real.cos ψ) ^ 2 + (rho / M * Real.sin φ - rho / M * Real.sin ψ) ^ 2 ≤ (1 / 2 ^ 21 * √(rho / M / n)) ^ 2 := by
        rw [chord_sq, mul_pow, Real.sq_sqrt (by positivity)]
        refine (mul_le_mul_of_nonneg_left hψ (by positivity)).trans ?_
        have e : 4 * (rho / M) ^ 2 * (243 * (1 / 2 ^ 53) / (rho / M * n') / 2) = 486 * (1 / 2 ^ 53) * (rho / M / n') := by
          field_simp
          norm_num
        rw [e]
        have k : rho / M / n' ≤ 2 * (rho / M / n) := by
          rw [mul_div_assoc', div_le_div_iff₀ n'0 n0]
          have := mul_le_mul_of_nonneg_left n'h ρ0.le
          linarith
        have p : 0 < rho / M / n := by positivity
        refine (mul_le_mul_of_nonneg_left k (by positivity)).trans ?_
        rw [← mul_assoc]
        refine mul_le_mul_of_nonneg_right ?_ p.le
        norm_num
      have q2 := (Real.sqrt_le_left (by positivity)).2 q1
      have d1 : |(X - x t) / M - -(rho / M * Real.cos φ - rho / M * Real.cos ψ)| ≤ 33 * (1 / 2 ^ 53) := by
        rw [show x t = a + rho * Real.cos φ by linarith]
        convert hX using 2
        ring
      have d2 : |(Y - y t) / M - -(rho / M * Real.sin φ - rho / M * Real.sin ψ)| ≤ 33 * (1 / 2 ^ 53) := by
        rw [show y t = b + rho * Real.sin φ by linarith]
        convert hY using 2
        ring
      have q3 := (abs_le.1 (length_error d1 d2)).2
      rw [neg_sq, neg_sq, div_pow, div_pow, ← add_div, Real.sqrt_div' _ (by positivity), Real.sqrt_sq M0.le] at q3
      have q4 : √((X - x t) ^ 2 + (Y - y t) ^ 2) / M ≤ 1 / 2 ^ 20 * √(rho / M / n) := by
        generalize √(rho / M / n) = D at *
        generalize √((rho / M * Real.cos φ - rho / M * Real.cos ψ) ^ 2 + (rho / M * Real.sin φ - rho / M * Real.sin ψ) ^ 2) = S at *
        norm_num at q2 q3 D2 ⊢
        linarith
      rw [div_le_iff₀ M0] at q4
      refine q4.trans (le_of_eq ?_)
      rw [mul_assoc, nv]
      congr 1
      rw [show M * rho * (W / v) = rho / M / (v / W) * M ^ 2 by field_simp, Real.sqrt_mul (by positivity), Real.sqrt_sq M0.le]
    rcases sine_cases k2 with k3 | k3
    · refine ⟨X0, Y0, Or.inl c0, fin1 ?_ x0 y0⟩
      rw [e0]
      convert k3 using 3
      ring
    · refine ⟨X1, Y1, Or.inr c1, fin1 ?_ x1 y1⟩
      rw [e1, show (φ - (σ * Real.pi - Real.arcsin γ + θ)) / 2 = (φ - θ + Real.arcsin γ) / 2 - σ * (Real.pi / 2) by ring]
      rcases (abs_eq (by norm_num)).1 hσ with rfl | rfl
      · rw [one_mul, Real.sin_sub_pi_div_two, neg_sq]
        exact k3
      · rw [neg_one_mul, sub_neg_eq_add, Real.sin_add_pi_div_two]
        exact k3
  · rw [hnone (not_le.1 h1)] at hc
    cases hc

end

theorem preferD_near (h : NearestF 53 1074 fl) : ∃ p, preferD fl = fin p ∧ |p - 1e-4| ≤ 1 / 2 ^ 60 := by
  refine ⟨fl 1e-4, ?_, ?_⟩
  · unfold preferD
    rw [ofSci_eq]
    exact rnd_small h (by norm_num)
  · refine (err_double h _).trans ?_
    have : (1 : ℝ) / 2 ^ 1075 ≤ 1 / 2 ^ 61 := one_div_le_one_div_of_le (by positivity) (pow_le_pow_right₀ (by norm_num) (by norm_num))
    refine (add_le_add le_rfl this).trans ?_
    rw [abs_of_pos (by norm_num)]
    norm_num

/-- the wanted one of two path lengths: `c` is chosen and `o` is the other one -/
structure Chosen (mode : ℤ) (c o : ℝ) : Prop where
  forward : 0 < mode → 0 ≤ c ∧ (0 ≤ o → c ≤ o)
  backward : mode < 0 → c < 0 ∧ (o < 0 → o ≤ c)
  both : mode = 0 → |c| ≤ |o| + 1.001e-4 ∧ (c < 0 → |c| ≤ |o| ∧ (0 ≤ o → |c| + 0.999e-4 ≤ |o|))

/-- C141, choice between the two points: forward or backward the closest one in this direction, else the closest one, with a preference of 1e-4
for positive path lengths. -/
theorem C141_select (h : NearestF 53 1074 fl) (mode : ℤ) {s0 s1 : ℝ} (h0 : |s0| ≤ 2 ^ 20) (h1 : |s1| ≤ 2 ^ 20) :
    (Rnd.cylinderSelect fl mode (fin s0) (fin s1) = none ∧ ((0 < mode ∧ s0 < 0 ∧ s1 < 0) ∨ (mode < 0 ∧ 0 ≤ s0 ∧ 0 ≤ s1))) ∨
    (Rnd.cylinderSelect fl mode (fin s0) (fin s1) = some true ∧ Chosen mode s0 s1) ∨
    (Rnd.cylinderSelect fl mode (fin s0) (fin s1) = some false ∧ Chosen mode s1 s0) := by
  obtain ⟨p, ep, hp⟩ := preferD_near h
  have key : ∀ {t : ℝ}, |t| ≤ 2 ^ 20 → ∃ q, addD fl (fin |t|) (fin p) = fin q ∧ |t| + 0.999e-4 ≤ q ∧ q ≤ |t| + 1.001e-4 := by
    intro t ht
    obtain ⟨l1, l2⟩ := abs_le.1 hp
    have t0 := abs_nonneg t
    refine ⟨fl (|t| + p), ?_, ?_⟩
    · rw [addD, fin_add]
      refine rnd_double h ?_
      have : |(|t| + p)| ≤ 2 ^ 21 := by
        refine (abs_add_le _ _).trans ?_
        rw [abs_abs, abs_of_pos (show 0 < p by norm_num at l1 ⊢; linarith)]
        norm_num at l2 ht ⊢
        linarith
      exact size_mono this (by norm_num)
    · have k := err_double h (|t| + p)
      have : (1 : ℝ) / 2 ^ 1075 ≤ 1 / 2 ^ 61 := one_div_le_one_div_of_le (by positivity) (pow_le_pow_right₀ (by norm_num) (by norm_num))
      have k := abs_le.1 (k.trans (add_le_add le_rfl this))
      rw [abs_of_pos (by norm_num at l1 ⊢; linarith : 0 < |t| + p)] at k
      norm_num at k l1 l2 ht ⊢
      constructor <;> linarith [k.1, k.2]
  obtain ⟨q0, e0, a0, b0⟩ := key h0
  obtain ⟨q1, e1, a1, b1⟩ := key h1
  simp only [Rnd.cylinderSelect, zero_eq, fin_lt, fin_le, abs_fin, ep, e0, e1]
  rcases lt_or_ge s0 0 with z0 | z0 <;> rcases lt_or_ge s1 0 with z1 | z1
  · rw [cif_pos ⟨z0, z1⟩]
    rw [abs_of_neg z0] at a0 b0
    rw [abs_of_neg z1] at a1 b1
    by_cases hm : mode < 1
    · rw [if_pos hm]
      by_cases hlt : s1 < s0
      · rw [cif_pos hlt]
        refine Or.inr (Or.inl ⟨rfl, fun h => by omega, fun _ => ⟨z0, fun _ => hlt.le⟩, fun _ => ?_⟩)
        rw [abs_of_neg z0, abs_of_neg z1]
        exact ⟨by linarith, fun _ => ⟨by linarith, fun _ => by linarith⟩⟩
      · rw [cif_neg hlt]
        refine Or.inr (Or.inr ⟨rfl, fun h => by omega, fun _ => ⟨z1, fun _ => not_lt.mp hlt⟩, fun _ => ?_⟩)
        rw [abs_of_neg z0, abs_of_neg z1]
        exact ⟨by linarith, fun _ => ⟨by linarith, fun _ => by linarith⟩⟩
    · rw [if_neg hm]
      exact Or.inl ⟨rfl, Or.inl ⟨by omega, z0, z1⟩⟩
  · rw [cif_neg (fun hc => absurd hc.2 (not_lt.mpr z1)), cif_pos ⟨z0, z1⟩]
    by_cases hm : mode < 0
    · rw [if_pos hm]
      exact Or.inr (Or.inl ⟨rfl, fun h => by omega, fun _ => ⟨z0, fun h => by linarith⟩, fun h => by omega⟩)
    · rw [if_neg hm]
      by_cases hm' : mode > 0
      · rw [if_pos hm']
        exact Or.inr (Or.inr ⟨rfl, fun _ => ⟨z1, fun h => by linarith⟩, fun h => by omega, fun h => by omega⟩)
      · rw [if_neg hm']
        by_cases hlt : q0 < |s1|
        · rw [cif_pos hlt]
          exact Or.inr (Or.inl ⟨rfl, fun h => by omega, fun h => by omega, fun _ => ⟨by linarith, fun _ => ⟨by linarith, fun _ => by linarith⟩⟩⟩)
        · rw [cif_neg hlt]
          exact Or.inr (Or.inr ⟨rfl, fun h => by omega, fun h => by omega, fun _ => ⟨by linarith, fun h => by linarith⟩⟩)
  · rw [cif_neg (fun hc => absurd hc.1 (not_lt.mpr z0)), cif_neg (fun hc => absurd hc.1 (not_lt.mpr z0)), cif_pos ⟨z0, z1⟩]
    by_cases hm : mode > 0
    · rw [if_pos hm]
      exact Or.inr (Or.inl ⟨rfl, fun h => ⟨z0, fun h => by linarith⟩, fun h => by omega, fun h => by omega⟩)
    · rw [if_neg hm]
      by_cases hm' : mode < 0
      · rw [if_pos hm']
        exact Or.inr (Or.inr ⟨rfl, fun h => by omega, fun h => ⟨z1, fun h => by linarith⟩, fun h => by omega⟩)
      · rw [if_neg hm']
        by_cases hlt : |s0| < q1
        · rw [cif_pos hlt]
          exact Or.inr (Or.inl ⟨rfl, fun h => by omega, fun h => by omega, fun _ => ⟨by linarith, fun h => by linarith⟩⟩)
        · rw [cif_neg hlt]
          exact Or.inr (Or.inr ⟨rfl, fun h => by omega, fun h => by omega, fun _ => ⟨by linarith, fun _ => ⟨by linarith, fun _ => by linarith⟩⟩⟩)
  · rw [cif_neg (fun hc => absurd hc.1 (not_lt.mpr z0)), cif_neg (fun hc => absurd hc.1 (not_lt.mpr z0)),
      cif_neg (fun hc => absurd hc.2 (not_lt.mpr z1))]
    by_cases hm : mode > -1
    · rw [if_pos hm]
      by_cases hlt : s0 < s1
      · rw [cif_pos hlt]
        refine Or.inr (Or.inl ⟨rfl, fun _ => ⟨z0, fun _ => hlt.le⟩, fun h => by omega, fun _ => ⟨?_, fun h => by linarith⟩⟩)
        rw [abs_of_nonneg z0, abs_of_nonneg z1]; linarith
      · rw [cif_neg hlt]
        refine Or.inr (Or.inr ⟨rfl, fun _ => ⟨z1, fun _ => not_lt.mp hlt⟩, fun h => by omega, fun _ => ⟨?_, fun h => by linarith⟩⟩)
        rw [abs_of_nonneg z0, abs_of_nonneg z1]; linarith
    · rw [if_neg hm]
      exact Or.inl ⟨rfl, Or.inr ⟨by omega, z0, z1⟩⟩

/-- C141: the reported point is the chosen one of the two computed points; without a wanted point none is reported, and the variables keep
their content. -/
theorem C141_choice {surf : Surface} {rho : Dbl} {cylc : V3} (hs : surf.cyl = some (rho, cylc)) (hz : surf.type.isParallelToZ = true) (hp : V5)
    (rp : V3) (s : Dbl) (xx : V3) (mode : ℤ) (cb : Bool) {X0 Y0 X1 Y1 : Dbl}
    (hc : Rnd.cylinderCandidates fl lm at2 asn rho cylc hp rp = some ((X0, Y0), (X1, Y1))) {s0 s1 : Dbl}
    (e0 : s0 = Rnd.calculateSfromXY fl lm at2 X0 Y0 hp rp) (e1 : s1 = Rnd.calculateSfromXY fl lm at2 X1 Y1 hp rp) :
    (Rnd.cylinderSelect fl mode s0 s1 = none → Rnd.intersectWithZCylinder fl lm at2 asn surf hp rp s xx mode cb = .ok ⟨false, s, xx⟩) ∧
    (Rnd.cylinderSelect fl mode s0 s1 = some true → ∃ hit, Rnd.intersectWithZCylinder fl lm at2 asn surf hp rp s xx mode cb = .ok hit ∧
      hit.s = s0 ∧ hit.xx = ⟨X0, Y0, Rnd.calculateZfromS fl s0 hp rp⟩ ∧ (cb = false → hit.found = true)) ∧
    (Rnd.cylinderSelect fl mode s0 s1 = some false → ∃ hit, Rnd.intersectWithZCylinder fl lm at2 asn surf hp rp s xx mode cb = .ok hit ∧
      hit.s = s1 ∧ hit.xx = ⟨X1, Y1, Rnd.calculateZfromS fl s1 hp rp⟩ ∧ (cb = false → hit.found = true)) := by
  unfold Rnd.intersectWithZCylinder
  rw [hs]
  simp only [hz, if_true, hc, ← e0, ← e1]
  refine ⟨fun hsel => by rw [hsel], fun hsel => ?_, fun hsel => ?_⟩
  · rw [hsel]
    exact ⟨_, rfl, rfl, rfl, fun hcb => by rw [hcb]; rfl⟩
  · rw [hsel]
    exact ⟨_, rfl, rfl, rfl, fun hcb => by rw [hcb]; rfl⟩

/-- C141: surfaces that are not cylinders parallel to z are rejected with an exception. -/
theorem C141_rejects {surf : Surface} (hp : V5) (rp : V3) (s : Dbl) (xx : V3) (mode : ℤ) (cb : Bool)
    (hs : surf.cyl = none ∨ surf.type.isParallelToZ = false) :
    ∃ m, Rnd.intersectWithZCylinder fl lm at2 asn surf hp rp s xx mode cb = .throw m := by
  unfold Rnd.intersectWithZCylinder
  cases hcy : surf.cyl with
  | none => exact ⟨_, rfl⟩
  | some P =>
    obtain ⟨rho, cylc⟩ := P
    rcases hs with hs | hs
    · rw [hcy] at hs
      cases hs
    · exact ⟨_, by simp only [hs]; rfl⟩

/-- C141, concrete case: a track of radius 100 cm through the origin and a cylinder of radius 30 cm around the z axis. -/
example : CylRange 30 (1 / 100) 0 0 0 0 0 0 30 where
  M1 := by norm_num
  M2 := by norm_num
  hom := by rw [abs_of_pos (by norm_num)]; norm_num
  hd := by norm_num
  hrx := by norm_num
  hry := by norm_num
  ha := by norm_num
  hb := by norm_num
  hrho := by norm_num
  hrho' := by norm_num
  hw := by
    rw [abs_of_pos (by norm_num)]
    simp only [Real.sin_zero, Real.cos_zero]
    norm_num

/-- C141, concrete case of the crossing: the cylinder has points inside and outside of the circle of this track. -/
example : (70 : ℝ) ^ 2 = (0 + 30 * Real.cos (-(Real.pi / 2)) - (0 - 0 * Real.sin 0 + Real.sin 0 / (1 / 100))) ^ 2 +
    (0 + 30 * Real.sin (-(Real.pi / 2)) - (0 + 0 * Real.cos 0 - Real.cos 0 / (1 / 100))) ^ 2 ∧
    (130 : ℝ) ^ 2 = (0 + 30 * Real.cos (Real.pi / 2) - (0 - 0 * Real.sin 0 + Real.sin 0 / (1 / 100))) ^ 2 +
    (0 + 30 * Real.sin (Real.pi / 2) - (0 + 0 * Real.cos 0 - Real.cos 0 / (1 / 100))) ^ 2 ∧
    70 + 1 / 2 ^ 44 * (30 * (1 + |(1 : ℝ) / 100| * 30)) ≤ 1 / |(1 : ℝ) / 100| ∧ 1 / |(1 : ℝ) / 100| + 1 / 2 ^ 44 * (30 * (1 + |(1 : ℝ) / 100| * 30)) ≤ 130 := by
  rw [abs_of_pos (by norm_num)]
  simp only [Real.sin_zero, Real.cos_zero, Real.cos_neg, Real.sin_neg, Real.sin_pi_div_two, Real.cos_pi_div_two]
  norm_num

/-- C141, concrete case without crossing: a straight track along the x axis and a cylinder of radius 1 around (0, 10). -/
example : CylRange 10 0 0 0 0 0 0 10 1 ∧ Spec.IsTrack 0 0 0 (0 - 0 * Real.sin 0) (0 + 0 * Real.cos 0) (0 + 0) (fun s => s) (fun _ => 0) (fun _ => 0) ∧
    ∀ φ t : ℝ, 1 / 2 ^ 44 * (10 * (1 + |(0 : ℝ)| * 10)) ≤ √((0 + 1 * Real.cos φ - t) ^ 2 + (10 + 1 * Real.sin φ - 0) ^ 2) := by
  refine ⟨⟨?_, ?_, ?_, ?_, ?_, ?_, ?_, ?_, ?_, ?_, ?_⟩, ?_, fun φ t => ?_⟩
  · norm_num
  · norm_num
  · norm_num
  · norm_num
  · norm_num
  · norm_num
  · norm_num
  · rw [abs_of_pos (by norm_num)]
  · norm_num
  · norm_num
  · simp only [Real.sin_zero, Real.cos_zero]
    norm_num
  · have := isTrack_straight (tl := 0) (ph := 0) (x0 := 0) (y0 := 0) (z0 := 0)
    simpa using this
  · refine Real.le_sqrt_of_sq_le ?_
    have h1 := Real.neg_one_le_sin φ
    have h2 := sq_nonneg (0 + 1 * Real.cos φ - t)
    have h3 : (9 : ℝ) ^ 2 ≤ (10 + 1 * Real.sin φ - 0) ^ 2 := pow_le_pow_left₀ (by norm_num) (by linarith) 2
    rw [abs_zero]
    norm_num at h3 ⊢
    linarith

end Verif
