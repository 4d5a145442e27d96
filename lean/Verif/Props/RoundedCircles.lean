import Verif.Props.RoundedCross
import Verif.Lemmas.RoundedCircles

/-!
# Crossings of two circles in double precision: C140
-/

open Classical

noncomputable section

namespace Verif

open Dbl Rnd Spec Rounded

variable {fl : ℝ → ℝ}

/-- the sizes of two circles: coordinates and radii up to `M`, and centres at a distance of about `L` -/
structure CirclesRange (L M a1 b1 r1 a2 b2 r2 : ℝ) : Prop where
  L1 : 1 / 2 ^ 39 ≤ L
  M2 : M ≤ 2 ^ 96
  hL : L = max |a2 - a1| |b2 - b1|
  ha1 : |a1| ≤ M
  hb1 : |b1| ≤ M
  hr1 : |r1| ≤ M
  ha2 : |a2| ≤ M
  hb2 : |b2| ≤ M
  hr2 : |r2| ≤ M

section
variable {L M a1 b1 r1 a2 b2 r2 : ℝ}

theorem CirclesRange.sizes (hr : CirclesRange L M a1 b1 r1 a2 b2 r2) :
    0 < L ∧ 0 < M ∧ L ≤ 2 * M ∧ 1 / 2 ^ 40 ≤ M ∧ |a2 - a1| ≤ L ∧ |b2 - b1| ≤ L := by
  have L0 : 0 < L := lt_of_lt_of_le (by positivity) hr.L1
  have k : L ≤ 2 * M := by
    rw [hr.hL, max_le_iff]
    exact ⟨(abs_sub _ _).trans (by linarith [hr.ha1, hr.ha2]), (abs_sub _ _).trans (by linarith [hr.hb1, hr.hb2])⟩
  have L1 := hr.L1
  refine ⟨L0, by linarith, k, ?_, ?_, ?_⟩
  · norm_num at *
    linarith
  · rw [hr.hL]; exact le_max_left _ _
  · rw [hr.hL]; exact le_max_right _ _

/-- the intermediate results are finite: the computation with real numbers -/
theorem circles_values (h : NearestF 53 1074 fl) (hr : CirclesRange L M a1 b1 r1 a2 b2 r2) {p q D : ℝ}
    (hp : p = fl (2 * fl (a2 - a1))) (hq : q = fl (2 * fl (b2 - b1)))
    (hD : D = fl (fl (fl (fl (fl (fl (r1 * r1) - fl (r2 * r2)) - fl (a1 * a1)) + fl (a2 * a2)) - fl (b1 * b1)) + fl (b2 * b2))) :
    Rnd.intersectCircleCircle fl ⟨fin a1, fin b1, fin r1⟩ ⟨fin a2, fin b2, fin r2⟩ =
      makeLine fl (fin p) (fin q) (fin D) >>= fun l => pure (Rnd.intersectCircleStraightLine fl ⟨fin a1, fin b1, fin r1⟩ l) := by
  have R : ∀ {t : ℝ} {n : ℕ}, |t| ≤ 2 ^ n → n ≤ 1000 → rnd fl 1024 (fin t) = fin (fl t) := fun ht hn => rnd_double h (size_mono ht hn)
  have x1 := hr.ha1.trans hr.M2
  have x2 := hr.hb1.trans hr.M2
  have x3 := hr.hr1.trans hr.M2
  have x4 := hr.ha2.trans hr.M2
  have x5 := hr.hb2.trans hr.M2
  have x6 := hr.hr2.trans hr.M2
  have two : |(2 : ℝ)| ≤ 2 ^ 1 := by norm_num
  have n1 := size_sub x4 x1
  have n2 := size_sub x5 x2
  have n3 := size_mul two (size_fl h n1)
  have n4 := size_mul two (size_fl h n2)
  have m1 := size_mul x1 x1
  have m2 := size_mul x2 x2
  have m3 := size_mul x3 x3
  have m4 := size_mul x4 x4
  have m5 := size_mul x5 x5
  have m6 := size_mul x6 x6
  have s1 := size_sub (size_fl h m3) (size_fl h m6)
  have s2 := size_sub (size_fl h s1) (size_mono (size_fl h m1) (by norm_num))
  have s3 := size_add (size_fl h s2) (size_mono (size_fl h m4) (by norm_num))
  have s4 := size_sub (size_fl h s3) (size_mono (size_fl h m2) (by norm_num))
  have s5 := size_add (size_fl h s4) (size_mono (size_fl h m5) (by norm_num))
  simp only [Rnd.intersectCircleCircle, ofNat_eq, mulD, addD, subD, fin_mul, fin_add, fin_sub, R n1 (by norm_num), R n2 (by norm_num), R n3 (by norm_num),
    R n4 (by norm_num), R m1 (by norm_num), R m2 (by norm_num), R m3 (by norm_num), R m4 (by norm_num), R m5 (by norm_num),
    R m6 (by norm_num), R s1 (by norm_num), R s2 (by norm_num), R s3 (by norm_num), R s4 (by norm_num), R s5 (by norm_num), ← hp, ← hq, ← hD]

/-- the computed line through the crossings, in units of the geometry -/
theorem circles_errors (h : NearestF 53 1074 fl) (hr : CirclesRange L M a1 b1 r1 a2 b2 r2) {p q D : ℝ}
    (hp : p = fl (2 * fl (a2 - a1))) (hq : q = fl (2 * fl (b2 - b1)))
    (hD : D = fl (fl (fl (fl (fl (fl (r1 * r1) - fl (r2 * r2)) - fl (a1 * a1)) + fl (a2 * a2)) - fl (b1 * b1)) + fl (b2 * b2))) :
    |p / L - 2 * (a2 - a1) / L| ≤ 5 * (1 / 2 ^ 53) ∧ |q / L - 2 * (b2 - b1) / L| ≤ 5 * (1 / 2 ^ 53) ∧
    |D - radicalDist a1 b1 r1 a2 b2 r2| ≤ 32 * (1 / 2 ^ 53) * M ^ 2 := by
  obtain ⟨L0, M0, -, M1, dx, dy⟩ := hr.sizes
  have u0 : (0 : ℝ) ≤ 1 / 2 ^ 53 := by positivity
  have u1 : (1 : ℝ) / 2 ^ 53 ≤ 1 / 1000000 := by norm_num
  have dv : ∀ {t B : ℝ}, 0 < B → |t| ≤ B → |t / B| ≤ 1 := fun hB ht => by rw [abs_div, abs_of_pos hB]; exact (div_le_one hB).2 ht
  have E : ∀ {t s B : ℝ} {n : ℕ}, 1 / 2 ^ n ≤ B → n ≤ 1000 → s = t / B → |fl t / B - s| ≤ 1 / 2 ^ 53 * (|s| + 1 / 1000) :=
    fun hB hn e => by rw [e]; exact scaled_err h (scale_mono hB hn)
  have mm := scale_mul M1 M1
  have sq : ∀ {t : ℝ}, |t| ≤ M → |t * t / (M * M)| ≤ 1 := fun ht => dv (by positivity) (abs_mul_le_of ht ht)
  refine ⟨?_, ?_, ?_⟩
  · have := double_error (n := p / L) u0 u1 (dv L0 dx) (E (t := a2 - a1) hr.L1 (by norm_num) rfl)
      (by rw [hp]; exact E hr.L1 (by norm_num) (by ring))
    rwa [← mul_div_assoc] at this
  · have := double_error (n := q / L) u0 u1 (dv L0 dy) (E (t := b2 - b1) hr.L1 (by norm_num) rfl)
      (by rw [hq]; exact E hr.L1 (by norm_num) (by ring))
    rwa [← mul_div_assoc] at this
  · have := radical_error (s5 := D / (M * M)) u0 u1 (sq hr.hr1) (sq hr.hr2) (sq hr.ha1) (sq hr.ha2) (sq hr.hb1) (sq hr.hb2)
      (E mm (by norm_num) rfl) (E mm (by norm_num) rfl) (E mm (by norm_num) rfl) (E mm (by norm_num) rfl) (E mm (by norm_num) rfl)
      (E mm (by norm_num) rfl) (E mm (by norm_num) (by rw [sub_div])) (E mm (by norm_num) (by rw [sub_div])) (E mm (by norm_num) (by rw [add_div]))
      (E mm (by norm_num) (by rw [sub_div])) (by rw [hD]; exact E mm (by norm_num) (by rw [add_div]))
    have e : D / (M * M) - (r1 * r1 / (M * M) - r2 * r2 / (M * M) - a1 * a1 / (M * M) + a2 * a2 / (M * M) - b1 * b1 / (M * M) + b2 * b2 / (M * M)) =
        (D - radicalDist a1 b1 r1 a2 b2 r2) / M ^ 2 := by
      unfold radicalDist
      field_simp
    rwa [e, abs_div, abs_of_pos (by positivity : 0 < M ^ 2), div_le_iff₀ (by positivity)] at this

/-- the computed line is next to the exact one -/
theorem circles_moved (h : NearestF 53 1074 fl) (hr : CirclesRange L M a1 b1 r1 a2 b2 r2) {p q D P Q R δ δ' Δ Δ' κ : ℝ}
    (hp : p = fl (2 * fl (a2 - a1))) (hq : q = fl (2 * fl (b2 - b1)))
    (hD : D = fl (fl (fl (fl (fl (fl (r1 * r1) - fl (r2 * r2)) - fl (a1 * a1)) + fl (a2 * a2)) - fl (b1 * b1)) + fl (b2 * b2)))
    (hP : P = 2 * (a2 - a1)) (hQ : Q = 2 * (b2 - b1)) (hR : R = radicalDist a1 b1 r1 a2 b2 r2)
    (hδ : δ = R - (P * a1 + Q * b1)) (hδ' : δ' = D - (p * a1 + q * b1)) (hΔe : Δ = clDisc a1 b1 r1 P Q R)
    (hΔe' : Δ' = clDisc a1 b1 r1 p q D) (hκe : κ = 1 / 2 ^ 53 * (M / L)) (hΔ : 1 / 2 ^ 36 * (L * M ^ 3) ≤ Δ) :
    0 < κ ∧ κ ≤ 1 / 2 ^ 14 ∧ 1 / 2 ^ 53 ≤ 2 * κ ∧ 2 ^ 17 * κ ≤ Δ / (L * M) ^ 2 ∧ Δ / (L * M) ^ 2 ≤ 8 ∧ |δ / (L * M)| ≤ 3 ∧
    |P / L| ≤ 2 ∧ |Q / L| ≤ 2 ∧ 4 ≤ (P ^ 2 + Q ^ 2) / L ^ 2 ∧ |p / L - P / L| ≤ 5 * (1 / 2 ^ 53) ∧ |q / L - Q / L| ≤ 5 * (1 / 2 ^ 53) ∧
    |δ' / (L * M) - δ / (L * M)| ≤ 52 * κ ∧ |(p ^ 2 + q ^ 2) / L ^ 2 - (P ^ 2 + Q ^ 2) / L ^ 2| ≤ 82 * κ ∧
    |Δ' / (L * M) ^ 2 - Δ / (L * M) ^ 2| ≤ 400 * κ := by
  obtain ⟨L0, M0, LM, M1, dx, dy⟩ := hr.sizes
  obtain ⟨e1, e2, e3⟩ := circles_errors h hr hp hq hD
  rw [← hP] at e1
  rw [← hQ] at e2
  rw [← hR] at e3
  have LM0 : 0 < L * M := mul_pos L0 M0
  have dv : ∀ {t B : ℝ}, 0 < B → |t| ≤ B → |t / B| ≤ 1 := fun hB ht => by rw [abs_div, abs_of_pos hB]; exact (div_le_one hB).2 ht
  have P2 : |P / L| ≤ 2 := by
    have := dv L0 dx
    rw [hP, mul_div_assoc, abs_mul, abs_two]
    linarith
  have Q2 : |Q / L| ≤ 2 := by
    have := dv L0 dy
    rw [hQ, mul_div_assoc, abs_mul, abs_two]
    linarith
  have r1' := dv M0 hr.hr1
  have nE : (P / L) ^ 2 + (Q / L) ^ 2 = (P ^ 2 + Q ^ 2) / L ^ 2 := by rw [div_pow, div_pow, add_div]
  have nE' : (p / L) ^ 2 + (q / L) ^ 2 = (p ^ 2 + q ^ 2) / L ^ 2 := by rw [div_pow, div_pow, add_div]
  have ΔE : (r1 / M) ^ 2 * ((P ^ 2 + Q ^ 2) / L ^ 2) - (δ / (L * M)) ^ 2 = Δ / (L * M) ^ 2 := by
    rw [hΔe, clDisc, ← hδ]
    field_simp
  have ΔE' : (r1 / M) ^ 2 * ((p ^ 2 + q ^ 2) / L ^ 2) - (δ' / (L * M)) ^ 2 = Δ' / (L * M) ^ 2 := by
    rw [hΔe', clDisc, ← hδ']
    field_simp
  have n8 : (P ^ 2 + Q ^ 2) / L ^ 2 ≤ 8 := by
    rw [← nE]
    have k1 := sq_le_sq' (abs_le.1 P2).1 (abs_le.1 P2).2
    have k2 := sq_le_sq' (abs_le.1 Q2).1 (abs_le.1 Q2).2
    linarith
  have n4 : 4 ≤ (P ^ 2 + Q ^ 2) / L ^ 2 := by
    rw [le_div_iff₀ (by positivity), hP, hQ, mul_pow, mul_pow]
    have k : L ^ 2 ≤ (a2 - a1) ^ 2 + (b2 - b1) ^ 2 := by
      rw [hr.hL]
      rcases max_choice |a2 - a1| |b2 - b1| with e | e <;> rw [e, sq_abs]
      · linarith [sq_nonneg (b2 - b1)]
      · linarith [sq_nonneg (a2 - a1)]
    linarith
  have q8 : (r1 / M) ^ 2 * ((P ^ 2 + Q ^ 2) / L ^ 2) ≤ 8 := by
    have k1 : (r1 / M) ^ 2 ≤ 1 := by
      have := sq_le_sq' (abs_le.1 r1').1 (abs_le.1 r1').2
      linarith
    have := mul_le_mul k1 n8 (by linarith) (by norm_num)
    linarith
  have Δ8 : Δ / (L * M) ^ 2 ≤ 8 := by
    rw [← ΔE]
    linarith [sq_nonneg (δ / (L * M))]
  have Δ0 : 0 ≤ Δ / (L * M) ^ 2 := div_nonneg (le_trans (by positivity) hΔ) (by positivity)
  have δ3 : |δ / (L * M)| ≤ 3 := by
    refine abs_le_of_sq_le_sq ?_ (by norm_num)
    linarith
  have Δl : 2 ^ 17 * κ ≤ Δ / (L * M) ^ 2 := by
    rw [hκe, le_div_iff₀ (by positivity)]
    refine le_trans (le_of_eq ?_) hΔ
    field_simp
  have κ0 : 0 < κ := by rw [hκe]; positivity
  have κ1 : κ ≤ 1 / 2 ^ 14 := by
    norm_num at *
    linarith
  have κu : 1 / 2 ^ 53 ≤ 2 * κ := by
    rw [hκe]
    have : 1 ≤ 2 * (M / L) := by
      rw [mul_div_assoc', le_div_iff₀ L0]
      linarith
    have k := mul_le_mul_of_nonneg_left this (show (0 : ℝ) ≤ 1 / 2 ^ 53 by positivity)
    linarith
  have D1 : |D / (L * M) - R / (L * M)| ≤ 32 * κ := by
    rw [← sub_div, abs_div, abs_of_pos LM0, div_le_iff₀ LM0]
    refine e3.trans (le_of_eq ?_)
    rw [hκe]
    field_simp
  have u0 : (0 : ℝ) ≤ 1 / 2 ^ 53 := by positivity
  obtain ⟨l1, l2, l3⟩ := line_moved u0 κu κ1 (dv M0 hr.ha1) (dv M0 hr.hb1) r1' P2 Q2 e1 e2 D1
    (show δ / (L * M) = _ by rw [hδ]; field_simp) (show δ' / (L * M) = _ by rw [hδ']; field_simp) δ3
  rw [nE, nE'] at l2 l3
  rw [ΔE, ΔE'] at l3
  exact ⟨κ0, κ1, κu, Δl, Δ8, δ3, P2, Q2, n4, e1, e2, l1, l2, l3⟩

/-- a coordinate of a crossing of the computed line -/
theorem circles_coord {P Q p q δ δ' Δ Δ' n n' κ σ : ℝ} (L0 : 0 < L) (M0 : 0 < M) (hκe : κ = 1 / 2 ^ 53 * (M / L)) (κ0 : 0 < κ)
    (κ1 : κ ≤ 1 / 2 ^ 14) (κu : 1 / 2 ^ 53 ≤ 2 * κ) (Δl : 2 ^ 17 * κ ≤ Δ / (L * M) ^ 2) (Δ8 : Δ / (L * M) ^ 2 ≤ 8) (δ3 : |δ / (L * M)| ≤ 3)
    (P2 : |P / L| ≤ 2) (Q2 : |Q / L| ≤ 2) (n4 : 4 ≤ n / L ^ 2) (e1 : |p / L - P / L| ≤ 5 * (1 / 2 ^ 53)) (e2 : |q / L - Q / L| ≤ 5 * (1 / 2 ^ 53))
    (l1 : |δ' / (L * M) - δ / (L * M)| ≤ 52 * κ) (l2 : |n' / L ^ 2 - n / L ^ 2| ≤ 82 * κ)
    (l3 : |Δ' / (L * M) ^ 2 - Δ / (L * M) ^ 2| ≤ 400 * κ) (hσ : |σ| = 1) :
    |(p * δ' + σ * (q * √Δ')) * (1 / n') - (P * δ + σ * (Q * √Δ)) * (1 / n)| ≤ M ^ 3 / (2 ^ 43 * √Δ) := by
  have LM0 : 0 < L * M := mul_pos L0 M0
  have rt : ∀ t : ℝ, √(t / (L * M) ^ 2) = √t / (L * M) := fun t => by
    rw [Real.sqrt_div' _ (by positivity), Real.sqrt_sq LM0.le]
  have t0 : 0 < Δ / (L * M) ^ 2 := lt_of_lt_of_le (by positivity) Δl
  have k3 := abs_le.1 l3
  have t0' : 0 ≤ Δ' / (L * M) ^ 2 := by
    norm_num at Δl
    linarith [k3.1]
  have t16 : Δ' / (L * M) ^ 2 ≤ 16 := by
    norm_num at κ1
    linarith [k3.2]
  have s1 := root_error t0' t0 l3
  have s0 := Real.sqrt_pos.2 t0
  have s3 : √(Δ / (L * M) ^ 2) ≤ 3 := (Real.sqrt_le_left (by norm_num)).2 (by linarith)
  have s4 : |√(Δ' / (L * M) ^ 2)| ≤ 4 := by
    rw [abs_of_nonneg (Real.sqrt_nonneg _)]
    exact (Real.sqrt_le_left (by norm_num)).2 (by linarith)
  have n0 : 0 < n := by
    have := (le_div_iff₀ (by positivity)).1 n4
    have : 0 < 4 * L ^ 2 := by positivity
    linarith
  have n0' : 0 < n' := by
    have k := (abs_le.1 l2).1
    have : 0 < n' / L ^ 2 := by
      norm_num at κ1
      linarith
    exact (div_pos_iff_of_pos_right (by positivity)).1 this
  have key := point_moved (show (0 : ℝ) ≤ 1 / 2 ^ 53 by positivity) κu κ1 P2 Q2 e1 e2 δ3 l1 s0 s3 s4 s1 n4 l2 hσ
  rw [rt, rt] at key
  rw [rt] at s0
  have z0 : 0 < √Δ := (div_pos_iff_of_pos_right LM0).1 s0
  have e : (p / L * (δ' / (L * M)) + σ * (q / L * (√Δ' / (L * M)))) * (1 / (n' / L ^ 2)) -
      (P / L * (δ / (L * M)) + σ * (Q / L * (√Δ / (L * M)))) * (1 / (n / L ^ 2)) =
      ((p * δ' + σ * (q * √Δ')) * (1 / n') - (P * δ + σ * (Q * √Δ)) * (1 / n)) / M := by
    field_simp
  rw [e, abs_div, abs_of_pos M0, div_le_iff₀ M0] at key
  refine key.trans (le_of_eq ?_)
  rw [hκe]
  field_simp
  norm_num

theorem tinyNormalD_eq (h : NearestF 53 1074 fl) : tinyNormalD fl = fin (fl (1 / 10 ^ 12)) ∧ fl (1 / 10 ^ 12) ≤ 2 / 10 ^ 12 := by
  have e : ((1e-12 : ℝ)) = 1 / 10 ^ 12 := by norm_num
  have k := err_double h (1 / 10 ^ 12)
  rw [abs_of_pos (show (0 : ℝ) < 1 / 10 ^ 12 by positivity)] at k
  have k1 := (abs_le.1 k).2
  have k2 : (1 : ℝ) / 2 ^ 1075 ≤ 1 / 2 ^ 60 := one_div_le_one_div_of_le (by positivity) (pow_le_pow_right₀ (by norm_num) (by norm_num))
  refine ⟨?_, ?_⟩
  · rw [tinyNormalD, ofSci_eq, e]
    exact rnd_small h (by rw [abs_of_pos (by positivity)]; norm_num)
  · generalize (1 : ℝ) / 2 ^ 1075 = z at *
    norm_num at *
    linarith

/-- the normal of the computed line -/
theorem circles_normal {P Q p q : ℝ} (hr : CirclesRange L M a1 b1 r1 a2 b2 r2) (hP : P = 2 * (a2 - a1)) (hQ : Q = 2 * (b2 - b1))
    (e1 : |p / L - P / L| ≤ 5 * (1 / 2 ^ 53)) (e2 : |q / L - Q / L| ≤ 5 * (1 / 2 ^ 53)) :
    19 / 10 * L ≤ max |p| |q| ∧ max |p| |q| ≤ 21 / 10 * L := by
  obtain ⟨L0, -, -, -, dx, dy⟩ := hr.sizes
  rw [← sub_div, abs_div, abs_of_pos L0, div_le_iff₀ L0] at e1 e2
  have u1 : 5 * ((1 : ℝ) / 2 ^ 53) * L ≤ 1 / 10 * L := mul_le_mul_of_nonneg_right (by norm_num) L0.le
  have pz : |P| = 2 * |a2 - a1| := by rw [hP, abs_mul, abs_two]
  have qz : |Q| = 2 * |b2 - b1| := by rw [hQ, abs_mul, abs_two]
  have p1 := abs_sub_abs_le_abs_sub p P
  have p2 := abs_sub_abs_le_abs_sub P p
  have q1 := abs_sub_abs_le_abs_sub q Q
  have q2 := abs_sub_abs_le_abs_sub Q q
  rw [abs_sub_comm] at p2 q2
  constructor
  · have k := hr.hL
    rcases max_choice |a2 - a1| |b2 - b1| with e | e <;> rw [e] at k
    · refine le_trans ?_ (le_max_left _ _)
      linarith
    · refine le_trans ?_ (le_max_right _ _)
      linarith
  · rw [max_le_iff]
    constructor <;> linarith

/-- C140 (partial): two circles whose crossings are far enough from each other (the discriminant is 4 times the square of the distance of
the centres times the square of half the chord) and whose radical line is not too close to the origin get two points in double
precision, next to the two crossings.  Missing: circles that nearly touch each other, and negative distances (C140_throws). -/
theorem C140_points_partial (h : NearestF 53 1074 fl) (hr : CirclesRange L M a1 b1 r1 a2 b2 r2)
    (hd : 1 / 2 ^ 48 * M ^ 2 ≤ radicalDist a1 b1 r1 a2 b2 r2)
    (hΔ : 4 / 10 ^ 9 + 1 / 2 ^ 36 * (L * M ^ 3) ≤ clDisc a1 b1 r1 (2 * (a2 - a1)) (2 * (b2 - b1)) (radicalDist a1 b1 r1 a2 b2 r2)) :
    ∃ X1 Y1 X2 Y2 x1 y1 x2 y2 e : ℝ,
      Rnd.intersectCircleCircle fl ⟨fin a1, fin b1, fin r1⟩ ⟨fin a2, fin b2, fin r2⟩ = .ok [(fin X1, fin Y1), (fin X2, fin Y2)] ∧
      (x1, y1) ≠ (x2, y2) ∧
      (∀ x y, (OnCircle a1 b1 r1 x y ∧ OnCircle a2 b2 r2 x y) ↔ ((x, y) = (x1, y1) ∨ (x, y) = (x2, y2))) ∧
      e = M ^ 3 / (2 ^ 37 * √(clDisc a1 b1 r1 (2 * (a2 - a1)) (2 * (b2 - b1)) (radicalDist a1 b1 r1 a2 b2 r2))) ∧
      |X1 - x1| ≤ e ∧ |Y1 - y1| ≤ e ∧ |X2 - x2| ≤ e ∧ |Y2 - y2| ≤ e := by
  obtain ⟨p, hp⟩ : ∃ t, t = fl (2 * fl (a2 - a1)) := ⟨_, rfl⟩
  obtain ⟨q, hq⟩ : ∃ t, t = fl (2 * fl (b2 - b1)) := ⟨_, rfl⟩
  obtain ⟨D, hD⟩ : ∃ t, t = fl (fl (fl (fl (fl (fl (r1 * r1) - fl (r2 * r2)) - fl (a1 * a1)) + fl (a2 * a2)) - fl (b1 * b1)) + fl (b2 * b2)) := ⟨_, rfl⟩
  obtain ⟨P, hP⟩ : ∃ t, t = 2 * (a2 - a1) := ⟨_, rfl⟩
  obtain ⟨Q, hQ⟩ : ∃ t, t = 2 * (b2 - b1) := ⟨_, rfl⟩
  obtain ⟨R, hR⟩ : ∃ t, t = radicalDist a1 b1 r1 a2 b2 r2 := ⟨_, rfl⟩
  obtain ⟨δ, hδ⟩ : ∃ t, t = R - (P * a1 + Q * b1) := ⟨_, rfl⟩
  obtain ⟨δ', hδ'⟩ : ∃ t, t = D - (p * a1 + q * b1) := ⟨_, rfl⟩
  obtain ⟨Δ, hΔe⟩ : ∃ t, t = clDisc a1 b1 r1 P Q R := ⟨_, rfl⟩
  obtain ⟨Δ', hΔe'⟩ : ∃ t, t = clDisc a1 b1 r1 p q D := ⟨_, rfl⟩
  obtain ⟨κ, hκe⟩ : ∃ t, t = 1 / 2 ^ 53 * (M / L) := ⟨_, rfl⟩
  obtain ⟨L0, M0, LM, M1, -, -⟩ := hr.sizes
  have LM0 : 0 < L * M := mul_pos L0 M0
  have hset : ∀ x y, (OnCircle a1 b1 r1 x y ∧ OnCircle a2 b2 r2 x y) ↔ (OnCircle a1 b1 r1 x y ∧ OnLine P Q R x y) := fun x y => by
    rw [hP, hQ, hR]
    exact and_congr_right fun hc => radical_iff hc
  obtain ⟨-, -, dE⟩ := circles_errors h hr hp hq hD
  have val := circles_values h hr hp hq hD
  rw [← hR] at dE hd
  rw [← hP, ← hQ, ← hR, ← hΔe] at hΔ ⊢
  obtain ⟨κ0, κ1, κu, Δl, Δ8, δ3, P2, Q2, n4, e1, e2, l1, l2, l3⟩ :=
    circles_moved h hr hp hq hD hP hQ hR hδ hδ' hΔe hΔe' hκe (le_trans (by norm_num) hΔ)
  obtain ⟨A1, A2⟩ := circles_normal hr hP hQ e1 e2
  obtain ⟨t1, t2⟩ := tinyNormalD_eq h
  -- the line is made
  have D0 : ¬ D < 0 := by
    have := (abs_le.1 dE).1
    have e : 32 * ((1 : ℝ) / 2 ^ 53) = 1 / 2 ^ 48 := by norm_num
    rw [e] at this
    rw [not_lt]
    linarith
  have nz : ¬ (|p| < fl (1 / 10 ^ 12) ∧ |q| < fl (1 / 10 ^ 12)) := by
    rw [← max_lt_iff, not_lt]
    have := hr.L1
    refine t2.trans (le_trans ?_ A1)
    norm_num at *
    linarith
  have made : makeLine fl (fin p) (fin q) (fin D) = .ok ⟨fin p, fin q, fin D⟩ := by
    simp only [makeLine, zero_eq, fin_lt, abs_fin, t1, D0, nz, cif_false]
  rw [made, Out.ok_bind, Out.pure_eq] at val
  -- its crossings
  have κΔ : 4 / 10 ^ 9 + 2 ^ 17 * κ * (L * M) ^ 2 ≤ Δ := by
    refine le_trans (le_of_eq ?_) hΔ
    rw [hκe]
    field_simp
  have B0 : 0 < (L * M) ^ 2 := by positivity
  have l3' := l3
  rw [← sub_div, abs_div, abs_of_pos B0, div_le_iff₀ B0] at l3'
  have Δlow := (abs_le.1 l3').1
  have A0 : 0 < max |p| |q| := lt_of_lt_of_le (by positivity) A1
  have range : CrossRange (max |p| |q|) (4 * M) a1 b1 r1 p q D := by
    refine ⟨?_, ?_, ?_, ?_, le_max_left _ _, le_max_right _ _, ?_, ?_, ?_, ?_, ?_⟩
    · have := hr.L1
      refine le_trans ?_ A1
      norm_num at *
      linarith
    · have := hr.M2
      refine A2.trans ?_
      norm_num at *
      linarith
    · norm_num at *
      linarith
    · have := hr.M2
      norm_num at *
      linarith
    · rcases max_choice |p| |q| with e | e <;> rw [e, sq_abs]
      · linarith [sq_nonneg q]
      · linarith [sq_nonneg p]
    · exact hr.ha1.trans (by linarith)
    · exact hr.hb1.trans (by linarith)
    · exact hr.hr1.trans (by linarith)
    · have k1 : |δ'| ≤ 31 / 10 * (L * M) := by
        have k := abs_add_le (δ' / (L * M) - δ / (L * M)) (δ / (L * M))
        rw [sub_add_cancel, abs_div, abs_of_pos LM0] at k
        rw [← div_le_iff₀ LM0]
        norm_num at κ1
        linarith
      have k2 := abs_mul_le_of (le_max_left |p| |q|) hr.ha1
      have k3 := abs_mul_le_of (le_max_right |p| |q|) hr.hb1
      have k4 : D = δ' + (p * a1 + q * b1) := by rw [hδ']; ring
      have k5 := mul_le_mul_of_nonneg_right A1 M0.le
      rw [k4]
      refine (abs_add_le _ _).trans ((add_le_add k1 ((abs_add_le _ _).trans (add_le_add k2 k3))).trans ?_)
      linarith
  have thr : 2 / 10 ^ 9 + 1 / 2 ^ 45 * (max |p| |q| * (4 * M)) ^ 2 ≤ Δ' := by
    have k1 : max |p| |q| * (4 * M) ≤ 42 / 5 * (L * M) := by
      have := mul_le_mul_of_nonneg_right A2 M0.le
      linarith
    have k2 := pow_le_pow_left₀ (by positivity) k1 2
    rw [mul_pow (42 / 5 : ℝ)] at k2
    have k3 := mul_le_mul_of_nonneg_right κu B0.le
    norm_num at *
    linarith
  rw [hΔe'] at thr
  obtain ⟨X1, Y1, X2, Y2, x1', y1', x2', y2', cr, -, -, ⟨w1, w2, w3, w4⟩, f1, f2, f3, f4⟩ := cross_points h range thr
  rw [← hΔe', ← hδ'] at f1 f2 f3 f4
  rw [← hΔe'] at w1 w2 w3 w4
  have N0 : 0 < P ^ 2 + Q ^ 2 := by
    have := (le_div_iff₀ (by positivity)).1 n4
    have : 0 < 4 * L ^ 2 := by positivity
    linarith
  have Δ1 : 1e-9 < Δ := by
    have : 0 ≤ 1 / 2 ^ 36 * (L * M ^ 3) := by positivity
    norm_num at *
    linarith
  have Δ0 : 0 < Δ := lt_trans (by norm_num) Δ1
  obtain ⟨x1, y1, x2, y2, ex, ne, hiff⟩ := cl_cross (a := a1) (b := b1) (r := r1) (d := R) N0 (by rw [← hΔe]; exact Δ1)
  rw [cl_nonneg N0 (by rw [← hΔe]; exact Δ0.le), cif_neg (by rw [← hΔe]; exact not_le.2 Δ1)] at ex
  simp only [List.cons.injEq, Prod.mk.injEq, fin_inj, and_true] at ex
  rw [← hΔe, ← hδ] at ex
  obtain ⟨⟨q1, q2⟩, q3, q4⟩ := ex
  have C := fun {P Q p q : ℝ} {σ : ℝ} P2 Q2 e1 e2 hσ => circles_coord (P := P) (Q := Q) (p := p) (q := q) (σ := σ) L0 M0 hκe κ0 κ1 κu Δl Δ8 δ3 P2 Q2 n4 e1 e2 l1 l2 l3 hσ
  have v1 := C P2 Q2 e1 e2 (σ := 1) (by norm_num)
  have v2 := C Q2 P2 e2 e1 (σ := -1) (by norm_num)
  have v3 := C P2 Q2 e1 e2 (σ := -1) (by norm_num)
  have v4 := C Q2 P2 e2 e1 (σ := 1) (by norm_num)
  rw [one_mul, one_mul] at v1 v4
  rw [neg_one_mul, neg_one_mul, ← sub_eq_add_neg, ← sub_eq_add_neg] at v2 v3
  -- the two errors together
  have s0 : 0 < √Δ := Real.sqrt_pos.2 Δ0
  have s9 : 9 / 10 * √Δ ≤ √Δ' := by
    rw [Real.le_sqrt' (by positivity), mul_pow, Real.sq_sqrt Δ0.le]
    have : 0 < κ * (L * M) ^ 2 := by positivity
    norm_num at *
    linarith
  have tot : max |p| |q| * (4 * M) ^ 2 / (2 ^ 44 * √Δ') + M ^ 3 / (2 ^ 43 * √Δ) ≤ M ^ 3 / (2 ^ 37 * √Δ) := by
    have k1 : max |p| |q| * (4 * M) ^ 2 ≤ 336 / 5 * M ^ 3 := by
      have := mul_le_mul_of_nonneg_right (A2.trans (by linarith : _ ≤ 21 / 5 * M)) (sq_nonneg (4 * M))
      refine this.trans (le_of_eq ?_)
      ring
    have k2 : max |p| |q| * (4 * M) ^ 2 / (2 ^ 44 * √Δ') ≤ 336 / 5 * M ^ 3 / (2 ^ 44 * (9 / 10 * √Δ)) :=
      div_le_div₀ (by positivity) k1 (by positivity) (mul_le_mul_of_nonneg_left s9 (by positivity))
    have k3 : 336 / 5 * M ^ 3 / (2 ^ 44 * (9 / 10 * √Δ)) = 336 / 5 / (2 ^ 44 * (9 / 10)) * (M ^ 3 / √Δ) := by
      field_simp
    have k4 : M ^ 3 / (2 ^ 43 * √Δ) = 1 / 2 ^ 43 * (M ^ 3 / √Δ) := by field_simp
    have k5 : M ^ 3 / (2 ^ 37 * √Δ) = 1 / 2 ^ 37 * (M ^ 3 / √Δ) := by field_simp
    have k6 : 0 ≤ M ^ 3 / √Δ := by positivity
    rw [k3] at k2
    rw [k4, k5]
    norm_num at *
    linarith
  have fin' : ∀ {X x' x c F G : ℝ}, |X - x'| ≤ max |p| |q| * (4 * M) ^ 2 / (2 ^ 44 * √Δ') → c + F = x' → c + G = x → |F - G| ≤ M ^ 3 / (2 ^ 43 * √Δ) →
      |X - x| ≤ M ^ 3 / (2 ^ 37 * √Δ) := fun {X x' x c F G} h1 h2 h3 h4 => by
    have e : X - x = (X - x') + (F - G) := by rw [← h2, ← h3]; ring
    rw [e]
    exact (abs_add_le _ _).trans ((add_le_add h1 h4).trans tot)
  refine ⟨X1, Y1, X2, Y2, x1, y1, x2, y2, _, by rw [val, cr], ne, fun x y => by rw [hset, hiff], rfl, ?_, ?_, ?_, ?_⟩
  · exact fin' w1 f1 q1 v1
  · exact fin' w2 f2 q2 v2
  · exact fin' w3 f3 q3 v3
  · exact fin' w4 f4 q4 v4

end

theorem rep_big {x : ℝ} (m : ℤ) (j : ℕ) (hm : |m| ≤ 2 ^ 53) (h : x = m * 2 ^ j) : RepF 53 1074 x :=
  ⟨m, 1074 + j, hm, by rw [h, mul_assoc, ← pow_add, add_comm j]⟩

theorem rnd_big (h : NearestF 53 1074 fl) {x : ℝ} (m : ℤ) (j : ℕ) (hm : |m| ≤ 2 ^ 53) (e : x = m * 2 ^ j) (hx : |x| ≤ 2 ^ 70) :
    rnd fl 1024 (fin x) = fin x :=
  rnd_exact h (rep_big m j hm e) (size_mono hx (by norm_num))

theorem rnd_next (h : NearestF 53 1074 fl) {x z : ℝ} (m : ℤ) (j e : ℕ) (hm : |m| ≤ 2 ^ 53) (hx : x = m * 2 ^ j) (he : 2 ^ e < |x|)
    (hz : |z| ≤ 2 ^ 70) (hzx : |z - x| < 2 ^ e / 2 ^ 53) : rnd fl 1024 (fin z) = fin x := by
  rw [rnd_double h (size_mono hz (by norm_num))]
  congr 1
  refine h.cell (e := e + 1021) (by norm_num) (rep_big m j hm hx) ?_ ?_
  · rw [show 53 + (e + 1021) = e + 1074 by ring, pow_add]
    exact mul_lt_mul_of_pos_right he (by positivity)
  · rw [lt_div_iff₀ (by positivity)] at hzx
    rw [pow_add, show (2 : ℝ) ^ 1074 = 2 ^ 53 * 2 ^ 1021 by rw [← pow_add], ← mul_assoc]
    exact mul_lt_mul_of_pos_right hzx (by positivity)

/-- C140: two circles of radius 1 whose centres are at a distance of 1 from each other and 2^30 from the origin: the points given in double
precision are not on the second circle; their distance from its centre is √2.  Without rounding errors the two crossings are found. -/
theorem C140_far (h : NearestF 53 1074 fl) :
    Rnd.intersectCircleCircle fl ⟨fin (2 ^ 30), fin 0, fin 1⟩ ⟨fin (2 ^ 30 + 1), fin 0, fin 1⟩ = .ok [(fin (2 ^ 30), fin (-1)), (fin (2 ^ 30), fin 1)] ∧
    (∀ x y : ℝ, OnCircle (2 ^ 30) 0 1 x y → OnCircle (2 ^ 30 + 1) 0 1 x y → x = 2 ^ 30 + 1 / 2) ∧
    ∃ y1 y2 : ℝ, Verif.intersectCircleCircle ⟨fin (2 ^ 30), fin 0, fin 1⟩ ⟨fin (2 ^ 30 + 1), fin 0, fin 1⟩ =
      .ok [(fin (2 ^ 30 + 1 / 2), fin y1), (fin (2 ^ 30 + 1 / 2), fin y2)] := by
  have cross : ∀ x y : ℝ, OnCircle (2 ^ 30) 0 1 x y → OnCircle (2 ^ 30 + 1) 0 1 x y → x = 2 ^ 30 + 1 / 2 := by
    intro x y h1 h2
    unfold OnCircle at h1 h2
    linarith
  refine ⟨?_, cross, ?_⟩
  · have E : ∀ {t : ℝ} (m : ℤ) (j : ℕ), |m| ≤ 2 ^ 53 → t = m * 2 ^ j → |t| ≤ 2 ^ 70 → rnd fl 1024 (fin t) = fin t := fun m j => rnd_big h m j
    have z : rnd fl 1024 (fin 0) = fin 0 := E 0 0 (by norm_num) (by norm_num) (by norm_num)
    have o : rnd fl 1024 (fin 1) = fin 1 := E 1 0 (by norm_num) (by norm_num) (by norm_num)
    have t : rnd fl 1024 (fin 2) = fin 2 := E 2 0 (by norm_num) (by norm_num) (by norm_num)
    have q1 : rnd fl 1024 (fin (2 ^ 30 * 2 ^ 30)) = fin (2 ^ 60) := by
      rw [← pow_add]
      exact E 1 60 (by norm_num) (by norm_num) (by norm_num)
    have q2 : rnd fl 1024 (fin ((2 ^ 30 + 1) * (2 ^ 30 + 1))) = fin (2 ^ 60 + 2 ^ 31) :=
      rnd_next h (2 ^ 29 + 1) 31 60 (by norm_num) (by norm_num) (by norm_num) (by norm_num) (by norm_num)
    have q3 : rnd fl 1024 (fin (-2 ^ 60)) = fin (-2 ^ 60) := E (-1) 60 (by norm_num) (by norm_num) (by norm_num)
    have q4 : rnd fl 1024 (fin (2 ^ 31)) = fin (2 ^ 31) := E 1 31 (by norm_num) (by norm_num) (by norm_num)
    have q5 : rnd fl 1024 (fin (2 ^ 30)) = fin (2 ^ 30) := E 1 30 (by norm_num) (by norm_num) (by norm_num)
    have q6 : rnd fl 1024 (fin 4) = fin 4 := E 4 0 (by norm_num) (by norm_num) (by norm_num)
    have q6' : rnd fl 1024 (fin (-4)) = fin (-4) := E (-4) 0 (by norm_num) (by norm_num) (by norm_num)
    have q7 : rnd fl 1024 (fin (-1)) = fin (-1) := E (-1) 0 (by norm_num) (by norm_num) (by norm_num)
    have q8 : rnd fl 1024 (fin (1 / 4)) = fin (1 / 4) := rnd_exact h (rep_dyadic 1 2 (by norm_num) (by norm_num) (by norm_num)) 
      (size_mono (show |(1 / 4 : ℝ)| ≤ 2 ^ 1 by rw [abs_of_pos (by norm_num)]; norm_num) (by norm_num))
    have dist : addD fl (subD fl (addD fl (subD fl (subD fl (mulD fl (fin 1) (fin 1)) (mulD fl (fin 1) (fin 1))) (mulD fl (fin (2 ^ 30)) (fin (2 ^ 30))))
        (mulD fl (fin (2 ^ 30 + 1)) (fin (2 ^ 30 + 1)))) (mulD fl (fin 0) (fin 0))) (mulD fl (fin 0) (fin 0)) = fin (2 ^ 31) := by
      simp only [mulD, addD, subD, fin_mul, fin_add, fin_sub, mul_one, mul_zero, o, z, sub_self, zero_sub, q1, q2, q3,
        show (-2 ^ 60 + (2 ^ 60 + 2 ^ 31) : ℝ) = 2 ^ 31 by ring, q4, sub_zero, add_zero]
    have nx : mulD fl (fin 2) (subD fl (fin (2 ^ 30 + 1)) (fin (2 ^ 30))) = fin 2 := by
      simp only [mulD, subD, fin_mul, fin_sub, add_sub_cancel_left, o, mul_one, t]
    have ny : mulD fl (fin 2) (subD fl (fin 0) (fin 0)) = fin 0 := by
      simp only [mulD, subD, fin_mul, fin_sub, sub_self, z, mul_zero]
    obtain ⟨t1, t2⟩ := tinyNormalD_eq h
    have big : ¬ |(2 : ℝ)| < fl (1 / 10 ^ 12) := by
      rw [not_lt]
      exact t2.trans (by norm_num)
    obtain ⟨s1, s2, s3⟩ := tinyD_eq h
    have made : makeLine fl (fin 2) (fin 0) (fin (2 ^ 31)) = .ok ⟨fin 2, fin 0, fin (2 ^ 31)⟩ := by
      simp only [makeLine, zero_eq, fin_lt, abs_fin, t1, big, false_and, cif_false, not_lt.2 (show (0 : ℝ) ≤ 2 ^ 31 by positivity)]
    have mv : moveLine fl ⟨fin 2, fin 0, fin (2 ^ 31)⟩ (fin (2 ^ 30)) (fin 0) = ⟨fin 2, fin 0, fin 0⟩ := by
      simp only [moveLine, mulD, addD, subD, fin_mul, fin_add, fin_sub, mul_zero, z, add_zero, show (2 * 2 ^ 30 : ℝ) = 2 ^ 31 by norm_num, q4, sub_self]
    have ns : normalSquare fl ⟨fin 2, fin 0, fin 0⟩ = fin 4 := by
      simp only [normalSquare, mulD, addD, fin_mul, fin_add, mul_zero, z, add_zero, show (2 * 2 : ℝ) = 4 by norm_num, q6]
    have ds : subD fl (mulD fl (mulD fl (fin 1) (fin 1)) (fin 4)) (mulD fl (fin 0) (fin 0)) = fin 4 := by
      simp only [mulD, subD, fin_mul, fin_sub, mul_one, one_mul, o, q6, mul_zero, z, sub_zero]
    have sq : sqrtD fl (fin 4) = fin 2 := by
      rw [sqrtD, sqrt_fin (by norm_num), show (4 : ℝ) = 2 ^ 2 by norm_num, Real.sqrt_sq (by norm_num), t]
    have dv : divD fl 1 (fin 4) = fin (1 / 4) := by
      rw [one_eq, divD, fin_div _ (by norm_num), q8]
    have n1 : ¬ ((4 : ℝ) < 0 ∧ fl (1 / 10 ^ 9) < |4|) := by norm_num
    have n2 : ¬ |(4 : ℝ)| ≤ fl (1 / 10 ^ 9) := by
      rw [not_le]
      exact lt_of_le_of_lt s2 (by norm_num)
    simp only [Rnd.intersectCircleCircle, ofNat_eq, dist, nx, ny, made, Out.ok_bind, Out.pure_eq, Rnd.intersectCircleStraightLine, mv, ns, ds, sq, dv, s1,
      zero_eq, fin_lt, fin_le, abs_fin, n1, n2, cif_false]
    simp only [mulD, addD, subD, fin_mul, fin_add, fin_sub, mul_zero, zero_mul, z, add_zero, sub_zero, zero_add, zero_sub, q5,
      show (2 * 2 : ℝ) = 4 by norm_num, q6, q6', show (4 * (1 / 4) : ℝ) = 1 by norm_num, show (-4 * (1 / 4) : ℝ) = -1 by norm_num, o, q7]
  · obtain ⟨x1, y1, x2, y2, e, -, k⟩ := (C27_sound_complete_partial ((C29_circle (fin (2 ^ 30)) (fin 0) (fin 1)).2 (by simp [IsNeg]))
      ((C29_circle (fin (2 ^ 30 + 1)) (fin 0) (fin 1)).2 (by simp [IsNeg])) (by norm_num [radicalDist]) (by norm_num)).1 (by norm_num [clDisc, radicalDist])
    have k1 := (k x1 y1).2 (Or.inl rfl)
    have k2 := (k x2 y2).2 (Or.inr rfl)
    rw [cross _ _ k1.1 k1.2, cross _ _ k2.1 k2.2] at e
    exact ⟨y1, y2, e⟩

/-- C140: the claim that in double precision the points are close to both circles is false, even if "close" is a quarter of the radius. -/
theorem C140_false (h : NearestF 53 1074 fl) :
    ¬ ∀ a1 b1 r1 a2 b2 r2 x y : ℝ, RepF 53 1074 a1 → RepF 53 1074 b1 → RepF 53 1074 r1 → RepF 53 1074 a2 → RepF 53 1074 b2 → RepF 53 1074 r2 →
      0 < r1 → 0 < r2 → ∀ l, Rnd.intersectCircleCircle fl ⟨fin a1, fin b1, fin r1⟩ ⟨fin a2, fin b2, fin r2⟩ = .ok l → (fin x, fin y) ∈ l →
      |√((x - a1) ^ 2 + (y - b1) ^ 2) - r1| ≤ r1 / 4 ∧ |√((x - a2) ^ 2 + (y - b2) ^ 2) - r2| ≤ r2 / 4 := by
  intro q
  have k := (q (2 ^ 30) 0 1 (2 ^ 30 + 1) 0 1 (2 ^ 30) 1 (rep_big 1 30 (by norm_num) (by norm_num)) (rep_big 0 0 (by norm_num) (by norm_num)) repF_one
    (rep_big (2 ^ 30 + 1) 0 (by norm_num) (by norm_num)) (rep_big 0 0 (by norm_num) (by norm_num)) repF_one (by norm_num) (by norm_num) _
    (C140_far h).1 (by simp)).2
  have e : ((2 : ℝ) ^ 30 - (2 ^ 30 + 1)) ^ 2 + (1 - 0) ^ 2 = 2 := by ring
  rw [e] at k
  have k1 := (abs_le.1 k).2
  have k2 : (7 : ℝ) / 5 ≤ √2 := (Real.le_sqrt' (by norm_num)).2 (by norm_num)
  linarith

/-- C140: two circles that cross, and whose crossings are found without rounding errors, while in double precision there is an exception. -/
theorem C140_throws (h : NearestF 53 1074 fl) :
    (∃ x1 y1 x2 y2 : ℝ, (x1, y1) ≠ (x2, y2) ∧ Verif.intersectCircleCircle ⟨fin 276, fin 402, fin (2 ^ 30)⟩ ⟨fin 160530, fin 401, fin (2 ^ 30 + 12)⟩ =
      .ok [(fin x1, fin y1), (fin x2, fin y2)] ∧ OnCircle 276 402 (2 ^ 30) x1 y1 ∧ OnCircle 160530 401 (2 ^ 30 + 12) x1 y1) ∧
    ∃ msg, Rnd.intersectCircleCircle fl ⟨fin 276, fin 402, fin (2 ^ 30)⟩ ⟨fin 160530, fin 401, fin (2 ^ 30 + 12)⟩ = .throw msg := by
  constructor
  · obtain ⟨x1, y1, x2, y2, e, ne, k⟩ := (C27_sound_complete_partial ((C29_circle (fin 276) (fin 402) (fin (2 ^ 30))).2 (by simp [IsNeg]))
      ((C29_circle (fin 160530) (fin 401) (fin (2 ^ 30 + 12))).2 (by simp [IsNeg]; norm_num)) (by norm_num [radicalDist]) (by norm_num)).1
      (by norm_num [clDisc, radicalDist])
    have k1 := (k x1 y1).2 (Or.inl rfl)
    exact ⟨x1, y1, x2, y2, ne, e, k1.1, k1.2⟩
  · have I : ∀ {t : ℝ} (m : ℤ), t = m → |m| ≤ 2 ^ 53 → rnd fl 1024 (fin t) = fin (m : ℝ) := fun {t} m e hm => by
      rw [e]
      have k : |(m : ℝ)| ≤ 2 ^ 53 := by exact_mod_cast hm
      exact rnd_big h m 0 hm (by norm_num) (k.trans (by norm_num))
    have q1 : rnd fl 1024 (fin (2 ^ 30 * 2 ^ 30)) = fin (2 ^ 60) := by
      rw [← pow_add]
      exact rnd_big h 1 60 (by norm_num) (by norm_num) (by norm_num)
    have q2 : rnd fl 1024 (fin ((2 ^ 30 + 12) * (2 ^ 30 + 12))) = fin (2 ^ 60 + 12 * 2 ^ 31 + 256) :=
      rnd_next h (2 ^ 52 + 12 * 2 ^ 23 + 1) 8 60 (by norm_num) (by norm_num) (by norm_num) (by norm_num) (by norm_num)
    have dist : addD fl (subD fl (addD fl (subD fl (subD fl (mulD fl (fin (2 ^ 30)) (fin (2 ^ 30))) (mulD fl (fin (2 ^ 30 + 12)) (fin (2 ^ 30 + 12))))
        (mulD fl (fin 276) (fin 276))) (mulD fl (fin 160530) (fin 160530))) (mulD fl (fin 402) (fin 402))) (mulD fl (fin 401) (fin 401)) = fin (-111) := by
      simp only [mulD, addD, subD, fin_mul, fin_sub, q1, q2,
        I (t := 276 * 276) 76176 (by norm_num) (by norm_num), I (t := 160530 * 160530) 25769880900 (by norm_num) (by norm_num),
        I (t := 402 * 402) 161604 (by norm_num) (by norm_num), I (t := 401 * 401) 160801 (by norm_num) (by norm_num),
        I (t := 2 ^ 60 - (2 ^ 60 + 12 * 2 ^ 31 + 256)) (-25769804032) (by norm_num) (by norm_num)]
      rw [I (t := ((-25769804032 : ℤ) : ℝ) - ((76176 : ℤ) : ℝ)) (-25769880208) (by norm_num) (by norm_num), fin_add,
        I (t := ((-25769880208 : ℤ) : ℝ) + ((25769880900 : ℤ) : ℝ)) 692 (by norm_num) (by norm_num), fin_sub,
        I (t := ((692 : ℤ) : ℝ) - ((161604 : ℤ) : ℝ)) (-160912) (by norm_num) (by norm_num), fin_add,
        I (t := ((-160912 : ℤ) : ℝ) + ((160801 : ℤ) : ℝ)) (-111) (by norm_num) (by norm_num)]
      norm_num
    simp only [Rnd.intersectCircleCircle, dist, makeLine, zero_eq, fin_lt, show (-111 : ℝ) < 0 by norm_num, cif_true, Out.throw_bind]
    exact ⟨_, rfl⟩

/-- the hypotheses of C140_points_partial can be met: the unit circles around the origin and around (1, 0) -/
example (h : NearestF 53 1074 fl) : ∃ X1 Y1 X2 Y2 : ℝ,
    Rnd.intersectCircleCircle fl ⟨fin 0, fin 0, fin 1⟩ ⟨fin 1, fin 0, fin 1⟩ = .ok [(fin X1, fin Y1), (fin X2, fin Y2)] ∧ |X1 - 1 / 2| ≤ 1 / 2 ^ 37 := by
  obtain ⟨X1, Y1, X2, Y2, x1, y1, x2, y2, e, h1, -, h2, h3, h4, -⟩ := C140_points_partial (L := 1) (M := 1) (a1 := 0) (b1 := 0) (r1 := 1) (a2 := 1) (b2 := 0)
    (r2 := 1) h ⟨by norm_num, by norm_num, by norm_num, by norm_num, by norm_num, by norm_num, by norm_num, by norm_num, by norm_num⟩
    (by norm_num [radicalDist]) (by norm_num [clDisc, radicalDist])
  refine ⟨X1, Y1, X2, Y2, h1, ?_⟩
  have k := (h2 x1 y1).2 (Or.inl rfl)
  have k1 : x1 = 1 / 2 := by
    have a := k.1
    have b := k.2
    unfold OnCircle at a b
    linarith
  rw [← k1]
  refine h4.trans ?_
  rw [h3]
  refine div_le_div₀ (by norm_num) (by norm_num) (by norm_num) ?_
  have : 1 ≤ √(clDisc 0 0 1 (2 * (1 - 0)) (2 * (0 - 0)) (radicalDist 0 0 1 1 0 1)) := (Real.le_sqrt' (by norm_num)).2 (by norm_num [clDisc, radicalDist])
  linarith

end Verif
