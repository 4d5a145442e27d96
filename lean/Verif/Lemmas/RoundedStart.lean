import Verif.Model.RoundedStart
import Verif.Lemmas.RoundedUtilities
import Verif.Lemmas.RoundedMomentum
import Verif.Lemmas.StartHelix
import Verif.Lemmas.RoundedMove
import Verif.Lemmas.RoundedPath

/-! Helper lemmas for the start helix in double precision. -/

open Classical

noncomputable section

namespace Verif

open Dbl

namespace Rnd

variable {fl : ℝ → ℝ} {at2 : ℝ → ℝ → ℝ}

/-- differences of coordinates -/
theorem diff_ap (h : NearestF 53 1074 fl) {k : ℕ} {x y n : ℝ} (hk : k ≤ 900) (h1 : 1 / 2 ^ k ≤ n) (h2 : n ≤ 2 ^ k) (hx : |x - y| ≤ n) :
    Ap k n (subD fl (fin x) (fin y)) (fin (x - y)) 1 (101 / 100) := by
  rw [subD, fin_sub]
  refine (Ap.round h (t := x - y) (x := x - y) (e := 0) (B := 1) h1 h2 hk (by norm_num) (by norm_num) (by simp) (by rw [one_mul]; exact hx)).mono le_rfl (by norm_num)

/-- length and direction of a transverse vector -/
theorem flat_ap (h : NearestF 53 1074 fl) {X Y : Dbl} {x y n : ℝ} (h1 : 1 / 2 ^ 104 ≤ n) (h2 : n ≤ 2 ^ 104) (hn : n * n = x * x + y * y)
    (hx : Ap 104 n X (fin x) 1 (101 / 100)) (hy : Ap 104 n Y (fin y) 1 (101 / 100)) :
    Ap 104 n (rV fl ⟨X, Y, 0⟩) (fin n) 1 10 ∧ ApV 0 1 (unitV fl ⟨X, Y, 0⟩) ⟨fin (x / n), fin (y / n), fin 0⟩ 1 (122 / 10) := by
  have n0 : 0 < n := lt_of_lt_of_le (by positivity) h1
  have p0 := Ap.mul h hx hx (by norm_num) (by norm_num) (by norm_num) (by norm_num)
  have p1 := Ap.mul h hy hy (by norm_num) (by norm_num) (by norm_num) (by norm_num)
  have z : Ap 104 n (0 : Dbl) (fin 0) 1 0 := by
    rw [zero_eq]
    exact Ap.given h1 h2 (by rw [abs_zero]; positivity)
  have p2 : Ap 208 (n * n) (mulD fl 0 0) (fin 0 * fin 0) 1 0 := by
    rw [zero_eq, mulD, fin_mul, mul_zero, rnd_zero h]
    exact Ap.given p0.lo p0.hi (by rw [abs_zero]; positivity)
  have s := Ap.addB h p0 p1 (D := 1) (fun t ht => by
    simp only [fin_mul, fin_add, fin.injEq] at ht
    rw [← ht, hn, one_mul, abs_of_nonneg (add_nonneg (mul_self_nonneg _) (mul_self_nonneg _))]) (by norm_num) (by norm_num) (by norm_num)
  have s' := Ap.addB h s p2 (D := 1) (fun t ht => by
    simp only [fin_mul, fin_add, fin.injEq] at ht
    rw [← ht, hn, one_mul, mul_zero, add_zero, abs_of_nonneg (add_nonneg (mul_self_nonneg _) (mul_self_nonneg _))]) (by norm_num) (by norm_num) (by norm_num)
  have v : fin x * fin x + fin y * fin y + fin 0 * fin 0 = fin (n * n) := by simp only [fin_mul, fin_add, hn, mul_zero, add_zero]
  have r := (Ap.sqrt h s' (k := 104) (by norm_num) (by norm_num) v h1 h2).mono (B' := 1) (e' := 10) le_rfl (by norm_num)
  rw [v, sqrt_fin (by positivity), Real.sqrt_mul_self n0.le] at r
  have r' : Ap 104 n (rV fl ⟨X, Y, 0⟩) (fin n) 1 10 := r
  have D : ∀ {a : Dbl} {t : ℝ}, Ap 104 n a (fin t) 1 (101 / 100) → Ap 0 1 (divD fl a (rV fl ⟨X, Y, 0⟩)) (fin (t / n)) 1 (122 / 10) := by
    intro a t ha
    have := Ap.div h ha r' rfl (le_abs_self _) (by norm_num) (by norm_num) (by norm_num) (by norm_num)
    rw [fin_div _ n0.ne'] at this
    exact (this.rescale (l := 0) (T := 1) (c := 1) (by rw [mul_one_div_cancel n0.ne', one_mul]) (by norm_num) (by norm_num)).mono (by norm_num) (by norm_num)
  refine ⟨r', ⟨D hx, D hy, ?_, ?_⟩⟩
  · have := D (z.mono le_rfl (by norm_num))
    rwa [zero_div] at this
  · intro a b c e
    simp only [V3.mk.injEq, fin.injEq] at e
    obtain ⟨rfl, rfl, rfl⟩ := e
    refine le_of_eq ?_
    field_simp
    linarith

/-- the angle of a point near the one at the angle θ -/
theorem near_angle {A B ρ θ ε : ℝ} (hρ : 0 < ρ) (hA : |A - ρ * Real.sin θ| ≤ ε * ρ) (hB : |B - ρ * Real.cos θ| ≤ ε * ρ) (hε : ε ≤ 1 / 20) :
    ∃ (δ : ℝ) (k : ℤ), ratan2 A B = θ + δ + k * (2 * Real.pi) ∧ |δ| ≤ 5 / 2 * ε := by
  have p := Real.sin_sq_add_cos_sq θ
  have ε0 : 0 ≤ ε := nonneg_of_mul_nonneg_left ((abs_nonneg _).trans hA) hρ
  have c := Real.abs_cos_le_one θ
  have s := Real.abs_sin_le_one θ
  have up : ∀ {t u : ℝ}, |t| ≤ ε * ρ → |u| ≤ 1 → |t * u| ≤ ε * ρ := by
    intro t u h1 h2
    rw [abs_mul]
    calc |t| * |u| ≤ ε * ρ * 1 := mul_le_mul h1 h2 (abs_nonneg _) (by positivity)
      _ = _ := by ring
  have e1 : B * Real.cos θ + A * Real.sin θ = ρ + ((B - ρ * Real.cos θ) * Real.cos θ + (A - ρ * Real.sin θ) * Real.sin θ) := by
    linear_combination ρ * p
  have e2 : A * Real.cos θ - B * Real.sin θ = (A - ρ * Real.sin θ) * Real.cos θ - (B - ρ * Real.cos θ) * Real.sin θ := by ring
  have R : 4 / 5 * ρ ≤ B * Real.cos θ + A * Real.sin θ := by
    rw [e1]
    have k1 := (abs_le.1 (up hB c)).1
    have k2 := (abs_le.1 (up hA s)).1
    nlinarith
  have R0 : 0 < B * Real.cos θ + A * Real.sin θ := lt_of_lt_of_le (by positivity) R
  obtain ⟨δ, k, h1, h2⟩ := ratan2_turn R0
  refine ⟨δ, k, h1, h2.trans ?_⟩
  rw [div_le_iff₀ R0, e2]
  have I : |(A - ρ * Real.sin θ) * Real.cos θ - (B - ρ * Real.cos θ) * Real.sin θ| ≤ 2 * (ε * ρ) := by
    refine (abs_sub _ _).trans ?_
    have := up hA c
    have := up hB s
    linarith
  refine I.trans ?_
  have := mul_le_mul_of_nonneg_left R (show 0 ≤ 5 / 2 * ε by positivity)
  linarith

/-- the same without full turns, for angles that are not close to 0 or ±π -/
theorem near_angle_half {A B θ ε : ℝ} (hA : |A - Real.sin θ| ≤ ε) (hB : |B - Real.cos θ| ≤ ε) (hε : ε ≤ 1 / 20) (h1 : -Real.pi < θ) (h2 : θ < Real.pi)
    (hs : ε < |Real.sin θ|) : |ratan2 A B - θ| ≤ 5 / 2 * ε := by
  obtain ⟨δ, k, e, hδ⟩ := near_angle (ρ := 1) (ε := ε) (θ := θ) one_pos (by rw [one_mul, mul_one]; exact hA) (by rw [one_mul, mul_one]; exact hB) hε
  have pi := Real.pi_gt_three
  have m := ratan2_mem A B
  have k0 : k = 0 := by
    have sg : Real.sqrt (B ^ 2 + A ^ 2) * Real.sin (ratan2 A B) = A := by
      rw [sin_ratan2]
      by_cases z : Real.sqrt (B ^ 2 + A ^ 2) = 0
      · have : B ^ 2 + A ^ 2 = 0 := (Real.sqrt_eq_zero (by positivity)).1 z
        have : A = 0 := by nlinarith [sq_nonneg A, sq_nonneg B]
        rw [z, this, zero_mul]
      · field_simp
    have dist : |ratan2 A B - θ| < Real.pi := by
      rcases lt_or_ge 0 (Real.sin θ) with p | p
      · have t0 : 0 < θ := by
          by_contra q
          push Not at q
          have := Real.sin_nonpos_of_nonpos_of_neg_pi_le q h1.le
          linarith
        have A0 : 0 < A := by
          rw [abs_of_pos p] at hs
          have := (abs_le.1 hA).1
          linarith
        have : 0 < ratan2 A B := by
          by_contra q
          push Not at q
          have := Real.sin_nonpos_of_nonpos_of_neg_pi_le q m.1.le
          have := mul_nonpos_of_nonneg_of_nonpos (Real.sqrt_nonneg (B ^ 2 + A ^ 2)) this
          linarith
        rw [abs_lt]
        constructor <;> linarith
      · have p' : Real.sin θ < 0 := by
          rcases p.lt_or_eq with q | q
          · exact q
          · rw [q, abs_zero] at hs
            exact absurd hs (not_lt.2 ((abs_nonneg _).trans hA))
        have t0 : θ < 0 := by
          by_contra q
          push Not at q
          have := Real.sin_nonneg_of_nonneg_of_le_pi q h2.le
          linarith
        have A0 : A < 0 := by
          rw [abs_of_neg p'] at hs
          have := (abs_le.1 hA).2
          linarith
        have : ratan2 A B < 0 := by
          by_contra q
          push Not at q
          have := Real.sin_nonneg_of_nonneg_of_le_pi q m.2
          have := mul_nonneg (Real.sqrt_nonneg (B ^ 2 + A ^ 2)) this
          linarith
        rw [abs_lt]
        constructor <;> linarith
    by_contra hk
    have k1 : (1 : ℝ) ≤ |(k : ℝ)| := by exact_mod_cast Int.one_le_abs hk
    have q : |(k : ℝ) * (2 * Real.pi)| ≤ |ratan2 A B - θ| + |δ| := by
      have : (k : ℝ) * (2 * Real.pi) = (ratan2 A B - θ) - δ := by rw [e]; ring
      rw [this]
      exact abs_sub _ _
    rw [abs_mul, abs_of_pos (show 0 < 2 * Real.pi by linarith)] at q
    have := mul_le_mul_of_nonneg_right k1 (show 0 ≤ 2 * Real.pi by linarith)
    linarith
  rw [k0] at e
  push_cast at e
  rw [e, show θ + δ + 0 * (2 * Real.pi) - θ = δ by ring]
  exact hδ

/-- the cosine from the lengths of the sides -/
theorem cosine_ap (h : NearestF 53 1074 fl) {L a b c κ : ℝ} {A B C : Dbl} (l1 : 1 / 2 ^ 104 ≤ L) (l2 : L ≤ 2 ^ 104) (a0 : L / 16 ≤ a) (a1 : a ≤ L) (b0 : L / 16 ≤ b)
    (c1 : c ≤ L) (hA : Ap 104 a A (fin a) 1 10) (hB : Ap 104 b B (fin b) 1 10) (hC : Ap 104 c C (fin c) 1 10) (hb1 : b ≤ L)
    (hκ : c ^ 2 = a ^ 2 + b ^ 2 - 2 * (a * b * κ)) (k1 : |κ| ≤ 1) :
    Ap 0 1 (mulD fl (fin (1 / 2)) (addD fl (divD fl B A) (divD fl (mulD fl (subD fl 1 (divD fl C A)) (addD fl A C)) B))) (fin κ) 1 (2 ^ 14) := by
  have a00 := hA.pos
  have b00 := hB.pos
  have L0 : 0 < L := lt_of_lt_of_le a00 a1
  have q1 : ∀ {t : ℝ} {T : Dbl}, Ap 104 t T (fin t) 1 10 → t ≤ L → Ap 0 1 (divD fl T A) (fin (t / a)) 16 338 := by
    intro t T hT ht
    have := Ap.div h hT hA rfl (le_abs_self _) (by norm_num) (by norm_num) (by norm_num) (by norm_num)
    rw [fin_div _ a00.ne'] at this
    refine (this.rescale (l := 0) (T := 1) (c := 16) ?_ (by norm_num) (by norm_num)).mono (by norm_num) (by norm_num)
    rw [mul_one_div, div_le_iff₀ a00]
    linarith
  have q2 := Ap.sub h (Ap.unit (x := 1) (B := 1) (by norm_num)) (q1 hC c1) (by norm_num) (by norm_num) (by norm_num)
  have up : ∀ {t : ℝ} {T : Dbl}, Ap 104 t T (fin t) 1 10 → t ≤ L → Ap 104 L T (fin t) 1 10 := by
    intro t T hT ht
    exact (hT.rescale (c := 1) (by rwa [one_mul]) l1 l2).mono (by norm_num) (by norm_num)
  have q3 := Ap.add h (up hA a1) (up hC c1) (by norm_num) (by norm_num) (by norm_num)
  have q4 := Ap.mulr h q2 q3 (by norm_num) (by norm_num) (by norm_num) (by norm_num)
  have q5 := Ap.div h q4 hB rfl (le_abs_self _) (by norm_num) (by norm_num) (by norm_num) (by norm_num)
  have q6 := (q5.rescale (l := 0) (T := 1) (c := 16) (by rw [mul_one_div, div_le_iff₀ b00]; linarith) (by norm_num) (by norm_num)).mono
    (B' := 1000) (e' := 24500) (by norm_num) (by norm_num)
  have v : fin (b / a) + (fin 1 - fin (c / a)) * (fin a + fin c) / fin b = fin (2 * κ) := by
    rw [fin_sub, fin_add, fin_mul, fin_div _ b00.ne', fin_add]
    congr 1
    field_simp
    nlinarith [hκ]
  have q7 := Ap.addB h (q1 hB hb1) q6 (D := 2) (fun t ht => by
    rw [v, fin.injEq] at ht
    rw [← ht, abs_mul, abs_two, mul_one]
    linarith) (by norm_num) (by norm_num) (by norm_num)
  rw [v] at q7
  have q8 := Ap.mulr h (Ap.unit (x := 1 / 2) (B := 1 / 2) (by rw [abs_of_pos (by norm_num)])) q7 (by norm_num) (by norm_num) (by norm_num) (by norm_num)
  rw [fin_mul, show (1 : ℝ) / 2 * (2 * κ) = κ by ring] at q8
  rw [one_eq]
  exact q8.mono (by norm_num) (by norm_num)

/-- the half angle -/
theorem half_ap (ha : IsAtan2 at2) {θ q : ℝ} {A B : Dbl} (hA : Ap 0 1 A (fin (Real.sin θ)) 1 54) (hB : Ap 0 1 B (fin (Real.cos θ)) 1 (2 ^ 14)) (h1 : -Real.pi < θ)
    (h2 : θ < Real.pi) (q0 : 0 < q) (hq : q * |Real.sin θ| = 1) (q1 : q ≤ 2 ^ 20) : Ap 20 |θ| (atan2D fl at2 A B) (fin θ) 1 (2 ^ 16 * q) := by
  obtain ⟨A', x, rfl, e1, hA, -⟩ := hA.val
  obtain ⟨B', y, rfl, e2, hB, -⟩ := hB.val
  rw [fin.injEq] at e1 e2
  subst e1 e2
  have s0 : 1 / 2 ^ 20 ≤ |Real.sin θ| := by
    have : |Real.sin θ| = 1 / q := by field_simp; linarith
    rw [this]
    exact one_div_le_one_div_of_le q0 q1
  have t0 : |Real.sin θ| ≤ |θ| := Real.abs_sin_le_abs
  have t1 : |θ| < Real.pi := abs_lt.2 ⟨h1, h2⟩
  have pi := Real.pi_lt_four
  have k1 := near_angle_half (A := A') (B := B') (θ := θ) (ε := 2 ^ 14 * (1 / 2 ^ 53)) (hA.trans (by norm_num)) (hB.trans (by norm_num)) (by norm_num) h1 h2
    (lt_of_lt_of_le (by norm_num) s0)
  have nz : ¬ (B' = 0 ∧ A' = 0) := by
    rintro ⟨-, rfl⟩
    rw [zero_sub, abs_neg] at hA
    have := s0.trans hA
    norm_num at this
  have k2 := ha A' B' nz
  have m := ratan2_mem A' B'
  have m' : |ratan2 A' B'| ≤ 4 := by
    rw [abs_le]
    constructor <;> linarith [m.1, m.2]
  refine ⟨s0.trans t0, by norm_num; linarith, at2 A' B', θ, rfl, rfl, ?_, by rw [one_mul]⟩
  have k3 : |at2 A' B' - θ| ≤ 2 ^ 16 * (1 / 2 ^ 53) := by
    have e : |at2 A' B' - θ| ≤ |at2 A' B' - ratan2 A' B'| + |ratan2 A' B' - θ| := abs_sub_le _ _ _
    have k4 : |at2 A' B' - ratan2 A' B'| ≤ 10 * (1 / 2 ^ 53) := by
      refine k2.trans ?_
      have : (1 : ℝ) / 2 ^ 1074 ≤ 1 / 2 ^ 53 := one_div_le_one_div_of_le (by positivity) (pow_le_pow_right₀ (by norm_num) (by norm_num))
      have k5 : |ratan2 A' B'| / 2 ^ 52 ≤ 8 * (1 / 2 ^ 53) := by
        norm_num
        linarith
      linarith
    refine (e.trans (add_le_add k4 k1)).trans ?_
    norm_num
  refine k3.trans ?_
  have k6 : 1 ≤ q * |θ| := by
    rw [← hq]
    exact mul_le_mul_of_nonneg_left t0 q0.le
  have := mul_le_mul_of_nonneg_left k6 (show (0 : ℝ) ≤ 2 ^ 16 * (1 / 2 ^ 53) by positivity)
  linarith

/-- the azimuth of the start point -/
theorem azimuth_ap (h : NearestF 53 1074 fl) (ha : IsAtan2 at2) {R ph E : ℝ} {A B : Dbl} (hA : Ap 240 (R * R) A (fin (R * R * -Real.cos ph)) 1 E)
    (hB : Ap 240 (R * R) B (fin (R * R * Real.sin ph)) 1 E) (hE : E ≤ 2 ^ 40) :
    ∃ (r : ℝ) (k : ℤ), addD fl (atan2D fl at2 A B) (divD fl (fin Rounded.mPi) 2) = fin r ∧ |r - ph - k * (2 * Real.pi)| ≤ (5 / 2 * E + 25) * (1 / 2 ^ 53) ∧
      -4 ≤ r ∧ r ≤ 5 := by
  have ρ0 := hA.pos
  obtain ⟨A', x, rfl, e1, hA, -⟩ := hA.val
  obtain ⟨B', y, rfl, e2, hB, -⟩ := hB.val
  rw [fin.injEq] at e1 e2
  subst e1 e2
  have c1 : Real.sin (ph - Real.pi / 2) = -Real.cos ph := Real.sin_sub_pi_div_two ph
  have c2 : Real.cos (ph - Real.pi / 2) = Real.sin ph := Real.cos_sub_pi_div_two ph
  have hE' : E * (1 / 2 ^ 53) ≤ 1 / 20 := by
    norm_num at hE ⊢
    linarith
  have E0 : 0 ≤ E := by
    by_contra q
    push Not at q
    have := (abs_nonneg _).trans hA
    have : E * (R * R * (1 / 2 ^ 53)) < 0 := mul_neg_of_neg_of_pos q (by positivity)
    linarith
  obtain ⟨δ, k, h1, h2⟩ := near_angle (A := A') (B := B') (θ := ph - Real.pi / 2) (ε := E * (1 / 2 ^ 53)) ρ0 (by rw [c1]; exact hA.trans (by linarith))
    (by rw [c2]; exact hB.trans (by linarith)) hE'
  have nz : ¬ (B' = 0 ∧ A' = 0) := by
    rintro ⟨rfl, rfl⟩
    rw [zero_sub, abs_neg, abs_mul, abs_of_pos ρ0] at hA hB
    have p := Real.sin_sq_add_cos_sq ph
    have k1 : |-Real.cos ph| ≤ 1 / 20 := by
      by_contra q
      push Not at q
      have := mul_lt_mul_of_pos_left q ρ0
      have := mul_le_mul_of_nonneg_left hE' ρ0.le
      linarith
    have k2 : |Real.sin ph| ≤ 1 / 20 := by
      by_contra q
      push Not at q
      have := mul_lt_mul_of_pos_left q ρ0
      have := mul_le_mul_of_nonneg_left hE' ρ0.le
      linarith
    rw [abs_le] at k1 k2
    nlinarith
  have m := ratan2_mem A' B'
  have pi := Real.pi_lt_four
  have m' : |ratan2 A' B'| ≤ 4 := by
    rw [abs_le]
    constructor <;> linarith [m.1, m.2]
  have k2 := ha A' B' nz
  have k4 : |at2 A' B' - ratan2 A' B'| ≤ 10 * (1 / 2 ^ 53) := by
    refine k2.trans ?_
    have : (1 : ℝ) / 2 ^ 1074 ≤ 1 / 2 ^ 53 := one_div_le_one_div_of_le (by positivity) (pow_le_pow_right₀ (by norm_num) (by norm_num))
    have k5 : |ratan2 A' B'| / 2 ^ 52 ≤ 8 * (1 / 2 ^ 53) := by
      norm_num
      linarith
    linarith
  have g1 : Ap 0 1 (fin (at2 A' B')) (fin (ratan2 A' B')) 4 10 :=
    ⟨by norm_num, by norm_num, _, _, rfl, rfl, by rw [one_mul]; exact k4, by rwa [mul_one]⟩
  have g2 : Ap 0 1 (fin Rounded.mPi) (fin Real.pi) 4 2 :=
    ⟨by norm_num, by norm_num, _, _, rfl, rfl, by rw [one_mul]; exact mPi_bounds.1, by rw [abs_of_pos Real.pi_pos]; linarith⟩
  have g3 := Ap.divr h g2 (Ap.given (k := 1) (S := 2) (x := 2) (B := 1) (by norm_num) (by norm_num) (by norm_num)) rfl (le_abs_self _) (by norm_num) (by norm_num) (by norm_num) (by norm_num)
  have g4 := (g3.rescale (l := 0) (T := 1) (c := 1 / 2) (by norm_num) (by norm_num) (by norm_num)).mono (B' := 2) (e' := 4) (by norm_num) (by norm_num)
  have g5 := Ap.add h g1 g4 (by norm_num) (by norm_num) (by norm_num)
  rw [fin_div _ two_ne_zero, fin_add] at g5
  obtain ⟨r, x, i1, i2, i3, -⟩ := g5.val
  rw [fin.injEq] at i2
  subst i2
  have two : (2 : Dbl) = fin 2 := rfl
  have i4 : |r - (ratan2 A' B' + Real.pi / 2)| ≤ 1 / 100 := i3.trans (by norm_num)
  rw [abs_le] at i4
  have i5 : -4 ≤ r ∧ r ≤ 5 := ⟨by linarith [m.1, Real.pi_pos], by linarith [m.2, Real.pi_lt_d2]⟩
  refine ⟨r, k, by rw [two]; exact i1, ?_, i5⟩
  rw [h1] at i3
  have e : r - ph - k * (2 * Real.pi) = (r - (ph - Real.pi / 2 + δ + k * (2 * Real.pi) + Real.pi / 2)) + δ := by ring
  rw [e]
  refine (abs_add_le _ _).trans ((add_le_add i3 h2).trans ?_)
  norm_num
  linarith

theorem start_centre {a b p q r ph : ℝ} (h1 : r * Real.sin (ph - p) = a / 2) (h2 : r * Real.sin (ph - q) = b / 2) (hs : Real.sin (q - p) ≠ 0) :
    (a * Real.cos p + b * Real.cos q) / 2 - Real.cos (q - p) * (b * Real.sin q - a * Real.sin p) / (2 * Real.sin (q - p)) = r * Real.sin ph ∧
    (a * Real.sin p + b * Real.sin q) / 2 + Real.cos (q - p) * (b * Real.cos q - a * Real.cos p) / (2 * Real.sin (q - p)) = -(r * Real.cos ph) := by
  have e1 := Real.sin_sub q p
  have e2 := Real.cos_sub q p
  rw [Real.sin_sub] at h1 h2
  have p1 := Real.sin_sq_add_cos_sq p
  have p2 := Real.sin_sq_add_cos_sq q
  have ha : a = 2 * (r * (Real.sin ph * Real.cos p - Real.cos ph * Real.sin p)) := by linarith
  have hb : b = 2 * (r * (Real.sin ph * Real.cos q - Real.cos ph * Real.sin q)) := by linarith
  constructor
  · rw [div_sub_div _ _ two_ne_zero (mul_ne_zero two_ne_zero hs), div_eq_iff (by positivity)]
    rw [e1, e2]
    have i1 : (Real.sin q * Real.cos p - Real.cos q * Real.sin p) * Real.cos p + (Real.cos q * Real.cos p + Real.sin q * Real.sin p) * Real.sin p = Real.sin q := by
      linear_combination Real.sin q * p1
    have i2 : (Real.sin q * Real.cos p - Real.cos q * Real.sin p) * Real.cos q - (Real.cos q * Real.cos p + Real.sin q * Real.sin p) * Real.sin q = -Real.sin p := by
      linear_combination -Real.sin p * p2
    have : a * Real.sin q - b * Real.sin p = 2 * (r * Real.sin ph) * (Real.sin q * Real.cos p - Real.cos q * Real.sin p) := by
      rw [ha, hb]; ring
    linear_combination 2 * a * i1 + 2 * b * i2 + 2 * this
  · rw [div_add_div _ _ two_ne_zero (mul_ne_zero two_ne_zero hs), div_eq_iff (by positivity)]
    rw [e1, e2]
    have i1 : (Real.sin q * Real.cos p - Real.cos q * Real.sin p) * Real.sin p - (Real.cos q * Real.cos p + Real.sin q * Real.sin p) * Real.cos p = -Real.cos q := by
      linear_combination -Real.cos q * p1
    have i2 : (Real.sin q * Real.cos p - Real.cos q * Real.sin p) * Real.sin q + (Real.cos q * Real.cos p + Real.sin q * Real.sin p) * Real.cos q = Real.cos p := by
      linear_combination Real.cos p * p2
    have : -(a * Real.cos q) + b * Real.cos p = -(2 * (r * Real.cos ph)) * (Real.sin q * Real.cos p - Real.cos q * Real.sin p) := by
      rw [ha, hb]; ring
    linear_combination 2 * a * i1 + 2 * b * i2 + 2 * this

/-- the distance of the second and the third point -/
theorem start_chord {a b p q r ph : ℝ} (h1 : r * Real.sin (ph - p) = a / 2) (h2 : r * Real.sin (ph - q) = b / 2) :
    a ^ 2 + b ^ 2 - 2 * (a * b * Real.cos (q - p)) = (2 * r * Real.sin (q - p)) ^ 2 := by
  rw [Real.sin_sub] at h1 h2
  have ha : a = 2 * (r * (Real.sin ph * Real.cos p - Real.cos ph * Real.sin p)) := by linarith
  have hb : b = 2 * (r * (Real.sin ph * Real.cos q - Real.cos ph * Real.sin q)) := by linarith
  rw [ha, hb, Real.sin_sub, Real.cos_sub]
  have p1 := Real.sin_sq_add_cos_sq p
  have p2 := Real.sin_sq_add_cos_sq q
  have p3 := Real.sin_sq_add_cos_sq ph
  have c1 : Real.cos p ^ 2 = 1 - Real.sin p ^ 2 := by linarith
  have c2 : Real.cos q ^ 2 = 1 - Real.sin q ^ 2 := by linarith
  have c3 : Real.cos ph ^ 2 = 1 - Real.sin ph ^ 2 := by linarith
  ring_nf
  simp only [c1, c2, c3]
  ring

theorem comp_side {u v n : ℝ} (hn : n * n = u * u + v * v) (n0 : 0 < n) : |u| ≤ n ∧ |v| ≤ n := by
  constructor <;> refine abs_le_of_sq_le_sq ?_ n0.le <;> nlinarith [sq_nonneg u, sq_nonneg v]

theorem side_ap (h : NearestF 53 1074 fl) {x y z x' y' z' n L : ℝ} (l0 : 1 / 2 ^ 100 ≤ L) (l1 : L ≤ 2 ^ 100) (n0 : L / 16 ≤ n) (n1 : n ≤ L)
    (hn : n * n = (x' - x) * (x' - x) + (y' - y) * (y' - y)) :
    Ap 104 n (rV fl { subV fl (V3.re x' y' z') (V3.re x y z) with z := 0 }) (fin n) 1 10 ∧
      ApV 0 1 (unitV fl { subV fl (V3.re x' y' z') (V3.re x y z) with z := 0 }) ⟨fin ((x' - x) / n), fin ((y' - y) / n), fin 0⟩ 1 (122 / 10) := by
  have u0 : (1 : ℝ) / 2 ^ 104 ≤ 1 / 2 ^ 100 / 16 := by norm_num
  have lo : 1 / 2 ^ 104 ≤ n := u0.trans ((by linarith : (1 : ℝ) / 2 ^ 100 / 16 ≤ L / 16).trans n0)
  have hi : n ≤ 2 ^ 104 := (n1.trans l1).trans (by norm_num)
  have k := comp_side hn (lt_of_lt_of_le (by positivity) lo)
  exact flat_ap h lo hi hn (diff_ap h (by norm_num) lo hi k.1) (diff_ap h (by norm_num) lo hi k.2)

/-- the radius with its sign -/
theorem radius_ap (h : NearestF 53 1074 fl) {c s r Q L : ℝ} {C T : Dbl} (l0 : 1 / 2 ^ 100 ≤ L) (l1 : L ≤ 2 ^ 100) (c0 : L / 16 ≤ c) (c1 : c ≤ L)
    (hC : Ap 104 c C (fin c) 1 10) (hT : Ap 0 1 T (fin s) 1 54) (hs : |s| ≤ 1) (hr : c = -(2 * r * s)) (Q1 : 1 ≤ Q) (hQ : Q * |s| = 1) (Q2 : Q ≤ 2 ^ 20) :
    Ap 120 |r| (divD fl (mulD fl (-fin (1 / 2)) C) T) (fin r) 1 (68 * Q) ∧ L / 32 ≤ |r| ∧ r ≠ 0 := by
  have σ0 : 0 < |s| := by
    by_contra z
    have : |s| = 0 := le_antisymm (not_lt.1 z) (abs_nonneg _)
    rw [this, mul_zero] at hQ
    norm_num at hQ
  have sne : s ≠ 0 := abs_pos.1 σ0
  have σ2 : 1 / 2 ^ 20 ≤ |s| := by
    have : |s| = 1 / Q := by field_simp; linarith
    rw [this]
    exact one_div_le_one_div_of_le (by linarith) Q2
  have c00 := hC.pos
  have S' := hT.rescale (l := 20) (T := |s|) (c := Q) (by rw [hQ]) σ2 (hs.trans (by norm_num))
  have hmh : |(-(1 / 2) : ℝ)| ≤ 1 / 2 := by rw [abs_neg, abs_of_pos (by norm_num)]
  have r1 := Ap.mulr h (Ap.unit hmh) hC (by norm_num) (by norm_num) (by norm_num) (by norm_num)
  have Q3 : Q ≤ 1048576 := Q2.trans (by norm_num)
  have r2 := Ap.div h r1 S' rfl le_rfl (by norm_num) (by norm_num; linarith) (by norm_num; linarith) (by norm_num)
  have hR : |r| = c / (2 * |s|) := by
    rw [eq_div_iff (by positivity)]
    have : |c| = c := abs_of_pos c00
    rw [← this, hr, abs_neg, abs_mul, abs_mul, abs_two]
    ring
  have rne : r ≠ 0 := by
    rintro rfl
    rw [mul_zero, zero_mul, neg_zero] at hr
    linarith
  have R1 : L / 32 ≤ |r| := by
    rw [hR, le_div_iff₀ (by positivity)]
    have : 0 < L := lt_of_lt_of_le (by positivity) l0
    have := mul_le_mul_of_nonneg_left hs (show 0 ≤ L / 32 * 2 by positivity)
    linarith
  have R2 : 1 / 2 ^ 120 ≤ |r| := by
    refine le_trans ?_ R1
    have : (1 : ℝ) / 2 ^ 120 ≤ 1 / 2 ^ 100 / 32 := by norm_num
    linarith
  have R3 : |r| ≤ 2 ^ 120 := by
    rw [hR, div_le_iff₀ (by positivity)]
    have k1 := mul_le_mul_of_nonneg_left σ2 (show (0 : ℝ) ≤ 2 ^ 121 by positivity)
    have : (2 : ℝ) ^ 121 * (1 / 2 ^ 20) = 2 * 2 ^ 100 := by norm_num
    have k2 : (2 : ℝ) ^ 121 = 2 * 2 ^ 120 := by norm_num
    rw [this, k2] at k1
    linarith
  have rv : fin (-(1 / 2)) * fin c / fin s = fin r := by
    rw [fin_mul, fin_div _ sne]
    congr 1
    rw [hr]
    field_simp
  rw [rv] at r2
  have r3 := (r2.rescale (l := 120) (T := |r|) (c := 2) (by rw [hR]; apply le_of_eq; field_simp) R2 R3).mono (B' := 1) (e' := 68 * Q) (by norm_num) (by linarith)
  exact ⟨r3, R1, rne⟩

/-- curvature and slope -/
theorem slope_ap (h : NearestF 53 1074 fl) {r th z2 z3 Q L : ℝ} {R H : Dbl} (l0 : 1 / 2 ^ 100 ≤ L) (l1 : L ≤ 2 ^ 100) (hR : Ap 120 |r| R (fin r) 1 (68 * Q))
    (hH : Ap 20 |th| H (fin th) 1 (2 ^ 16 * Q)) (Q1 : 1 ≤ Q) (Q2 : Q ≤ 2 ^ 20) (hz : |z2 - z3| ≤ 2 ^ 100) (rne : r ≠ 0) (hc : L / 16 ≤ 2 * |r| * |th|) :
    ∃ om tl : ℝ, divD fl 1 R = fin om ∧ divD fl (subD fl (fin z2) (fin z3)) (mulD fl (mulD fl R 2) H) = fin tl ∧
      |om - 1 / r| ≤ 70 * Q / 2 ^ 53 * |1 / r| ∧ |tl - (z2 - z3) / (r * 2 * th)| ≤ 2 ^ 17 * Q / 2 ^ 53 * (|(z2 - z3) / (r * 2 * th)| + 16) := by
  have Q3 : Q ≤ 1048576 := Q2.trans (by norm_num)
  have R0 := hR.pos
  have T0 := hH.pos
  have tne : th ≠ 0 := abs_pos.1 T0
  have L0 : 0 < L := lt_of_lt_of_le (by positivity) l0
  have o1 := Ap.divr h (Ap.unit (x := 1) (B := 1) (by norm_num)) hR rfl le_rfl (by norm_num) (by norm_num; linarith) (by norm_num; linarith) (by norm_num)
  rw [fin_div _ rne] at o1
  obtain ⟨om, x, i1, i2, i3, -⟩ := o1.val
  rw [fin.injEq] at i2
  subst i2
  have Z0 : 1 / 2 ^ 101 ≤ |z2 - z3| + L := by
    have : (1 : ℝ) / 2 ^ 101 ≤ 1 / 2 ^ 100 := by norm_num
    linarith [abs_nonneg (z2 - z3)]
  have Z1 : |z2 - z3| + L ≤ 2 ^ 101 := by
    have : (2 : ℝ) ^ 101 = 2 ^ 100 + 2 ^ 100 := by norm_num
    linarith
  have n := diff_ap h (k := 101) (n := |z2 - z3| + L) (x := z2) (y := z3) (by norm_num) Z0 Z1 (by linarith)
  have d1 := Ap.mull h hR (Ap.unit (x := 2) (B := 2) (by norm_num)) (by norm_num) (by norm_num) (by norm_num; linarith) (by norm_num)
  have d2 := Ap.mul h d1 hH (by norm_num) (by norm_num; linarith) (by norm_num; linarith) (by norm_num)
  rw [fin_mul, fin_mul] at d2
  have lo2 : 1 / 2 ^ 141 ≤ 2 * (|r| * |th|) := by
    have := d2.lo
    have : (1 : ℝ) / 2 ^ 141 ≤ 1 / 2 ^ (120 + 20) := by norm_num
    have : 0 < |r| * |th| := by positivity
    linarith
  have hi2 : 2 * (|r| * |th|) ≤ 2 ^ 141 := by
    have := d2.hi
    have : (2 : ℝ) ^ 141 = 2 * 2 ^ (120 + 20) := by norm_num
    linarith
  have d3 := (d2.rescale (l := 141) (T := 2 * (|r| * |th|)) (c := 1 / 2) (by linarith) lo2 hi2).mono (B' := 1) (e' := 65700 * Q) (by norm_num) (by linarith)
  have t1 := Ap.div h n d3 rfl (by rw [abs_mul, abs_mul, abs_two]; linarith) (by norm_num) (by norm_num; linarith) (by norm_num; linarith) (by norm_num)
  have dne : r * 2 * th ≠ 0 := by positivity
  rw [fin_div _ dne] at t1
  obtain ⟨tl, y, j1, j2, j3, -⟩ := t1.val
  rw [fin.injEq] at j2
  subst j2
  have two : (2 : Dbl) = fin 2 := rfl
  refine ⟨om, tl, by rw [one_eq]; exact i1, by rw [two]; exact j1, i3.trans ?_, j3.trans ?_⟩
  · rw [abs_div, abs_one]
    have k := mul_le_mul_of_nonneg_right (show 1001 / 1000 * (0 + 1 * (68 * Q)) + 1 + 1 / 1000 ≤ 70 * Q by linarith) (show 0 ≤ 1 / |r| * (1 / 2 ^ 53) by positivity)
    refine k.trans (le_of_eq ?_)
    ring
  · have e : (|z2 - z3| + L) * (1 / (2 * (|r| * |th|))) ≤ |(z2 - z3) / (r * 2 * th)| + 16 := by
      rw [abs_div, abs_mul, abs_mul, abs_two, add_mul]
      have k1 : L * (1 / (2 * (|r| * |th|))) ≤ 16 := by
        rw [mul_one_div, div_le_iff₀ (by positivity)]
        linarith
      have k2 : |z2 - z3| * (1 / (2 * (|r| * |th|))) = |z2 - z3| / (|r| * 2 * |th|) := by
        rw [mul_one_div]
        congr 1
        ring
      linarith
    have k := mul_le_mul (show 1001 / 1000 * (101 / 100 + 1 * (65700 * Q)) + 1 + 1 / 1000 ≤ 2 ^ 17 * Q by linarith)
      (mul_le_mul_of_nonneg_right e (show (0 : ℝ) ≤ 1 / 2 ^ 53 by positivity)) (by positivity) (by positivity)
    refine k.trans (le_of_eq ?_)
    ring

/-- a coordinate of the centre relative to the first point -/
theorem centre_ap (h : NearestF 53 1074 fl) {r κ n x1 x2 x3 L P Q d : ℝ} {R K N : Dbl} (l0 : 1 / 2 ^ 100 ≤ L) (l1 : L ≤ 2 ^ 100) (P0 : 1 ≤ P) (P1 : P ≤ 2 ^ 20)
    (p1 : |x1| ≤ P * L) (p2 : |x2| ≤ P * L) (p3 : |x3| ≤ P * L) (hR : Ap 120 |r| R (fin r) 1 (68 * Q)) (R1 : L / 32 ≤ |r|) (hK : Ap 0 1 K (fin κ) 1 (2 ^ 14))
    (hN : Ap 0 1 N (fin n) 1 28) (Q1 : 1 ≤ Q) (Q2 : Q ≤ 2 ^ 20) (hd : 1 / 2 * (x2 + x3) + r * κ * n - x1 = d) (hd1 : |d| ≤ |r|) :
    Ap 120 |r| (subD fl (addD fl (mulD fl (fin (1 / 2)) (addD fl (fin x2) (fin x3))) (mulD fl (mulD fl R K) N)) (fin x1)) (fin d) 1 (97 * P + 70 * Q + 2 ^ 14 + 64) := by
  have Q3 : Q ≤ 1048576 := Q2.trans (by norm_num)
  have P3 : P ≤ 1048576 := P1.trans (by norm_num)
  have L0 : 0 < L := lt_of_lt_of_le (by positivity) l0
  have PL1 : 1 / 2 ^ 120 ≤ P * L := by
    have k1 : 1 * L ≤ P * L := mul_le_mul_of_nonneg_right P0 L0.le
    have k2 : (1 : ℝ) / 2 ^ 120 ≤ 1 / 2 ^ 100 := by norm_num
    linarith
  have PL2 : P * L ≤ 2 ^ 120 := by
    have : P * L ≤ 2 ^ 20 * 2 ^ 100 := mul_le_mul P1 l1 L0.le (by positivity)
    have e : (2 : ℝ) ^ 20 * 2 ^ 100 = 2 ^ 120 := by norm_num
    linarith
  have sc : P * L ≤ 32 * P * |r| := by
    have := mul_le_mul_of_nonneg_left R1 (show 0 ≤ 32 * P by linarith)
    linarith
  have g : ∀ {x : ℝ}, |x| ≤ P * L → Ap 120 (P * L) (fin x) (fin x) 1 0 := fun hx => Ap.given PL1 PL2 (by rwa [one_mul])
  have m1 := Ap.add h (g p2) (g p3) (by norm_num) (by norm_num) (by norm_num)
  have m2 := Ap.mulr h (Ap.unit (x := 1 / 2) (B := 1 / 2) (by rw [abs_of_pos (by norm_num)])) m1 (by norm_num) (by norm_num) (by norm_num) (by norm_num)
  have m3 := (m2.rescale (l := 120) sc hR.lo hR.hi).mono (B' := 32 * P) (e' := 65 * P) (by linarith) (by linarith)
  have o1 := Ap.mull h hR hK (by norm_num) (by norm_num) (by norm_num; linarith) (by norm_num)
  have o2 := Ap.mull h o1 hN (by norm_num) (by norm_num) (by norm_num; linarith) (by norm_num)
  have o3 := o2.mono (B' := 1) (e' := 70 * Q + 2 ^ 14 + 60) (by norm_num) (by norm_num; linarith)
  have c := Ap.add h m3 o3 (by norm_num) (by norm_num; linarith) (by norm_num; linarith)
  have f := Ap.subB h c ((g p1).rescale (l := 120) sc hR.lo hR.hi) (D := 1) (fun t ht => by
    simp only [fin_add, fin_mul, fin_sub, fin.injEq] at ht
    rw [hd] at ht
    rw [← ht, one_mul]
    exact hd1) (by norm_num) (by norm_num; linarith) (by norm_num)
  simp only [fin_add, fin_mul, fin_sub, hd] at f
  exact f.mono le_rfl (by linarith)

/-- the three parameters from radius, half angle and centre -/
theorem pars_ap (h : NearestF 53 1074 fl) (ha : IsAtan2 at2) {z2 z3 L P th r ph Q r' ph' : ℝ} {R H X Y : Dbl} (l0 : 1 / 2 ^ 100 ≤ L) (l1 : L ≤ 2 ^ 100) (P1 : P ≤ 2 ^ 20)
    (Q1 : 1 ≤ Q) (Q2 : Q ≤ 2 ^ 20) (hz : |z2 - z3| ≤ 2 ^ 100) (hc : L / 16 ≤ 2 * |r| * |th|) (HH : Ap 20 |th| H (fin th) 1 (2 ^ 16 * Q))
    (HX : Ap 120 |r| X (fin (r * Real.sin ph)) 1 (97 * P + 70 * Q + 2 ^ 14 + 64)) (HY : Ap 120 |r| Y (fin (-(r * Real.cos ph))) 1 (97 * P + 70 * Q + 2 ^ 14 + 64))
    (P0 : 1 ≤ P) (HR : Ap 120 |r'| R (fin r') 1 (68 * Q)) (er : |r'| = |r|) (rne' : r' ≠ 0) (v1 : r' * (r * Real.sin ph) = |r| * |r| * Real.sin ph')
    (v2 : r' * -(r * Real.cos ph) = |r| * |r| * -Real.cos ph') : ∃ (om tl f : ℝ) (k : ℤ), divD fl 1 R = fin om ∧
      divD fl (subD fl (fin z2) (fin z3)) (mulD fl (mulD fl R 2) H) = fin tl ∧
      addD fl (atan2D fl at2 (mulD fl R Y) (mulD fl R X)) (divD fl (fin Rounded.mPi) 2) = fin f ∧
      |om - 1 / r'| ≤ 70 * Q / 2 ^ 53 * |1 / r'| ∧ |tl - (z2 - z3) / (r' * 2 * th)| ≤ 2 ^ 17 * Q / 2 ^ 53 * (|(z2 - z3) / (r' * 2 * th)| + 16) ∧
      |f - ph' - k * (2 * Real.pi)| ≤ (250 * P + 350 * Q + 2 ^ 16) / 2 ^ 53 ∧ (-4 ≤ f ∧ f ≤ 5) ∧ (1 / 2 ^ 120 ≤ |1 / r'| ∧ |1 / r'| ≤ 2 ^ 120) ∧
      |(z2 - z3) / (r' * 2 * th)| * L ≤ 16 * |z2 - z3| := by
  have Q3 : Q ≤ 1048576 := Q2.trans (by norm_num)
  have P3 : P ≤ 1048576 := P1.trans (by norm_num)
  obtain ⟨om, tl, o1, o2, o3, o4⟩ := slope_ap h l0 l1 HR HH Q1 Q2 hz rne' (by rw [er]; exact hc)
  have b1 : 1 / 2 ^ 120 ≤ |1 / r'| := by
    rw [abs_div, abs_one]
    exact one_div_le_one_div_of_le (abs_pos.2 rne') HR.hi
  have b2 : |1 / r'| ≤ 2 ^ 120 := by
    rw [abs_div, abs_one, ← one_div_one_div ((2 : ℝ) ^ 120)]
    exact one_div_le_one_div_of_le (by positivity) HR.lo
  have b3 : |(z2 - z3) / (r' * 2 * th)| * L ≤ 16 * |z2 - z3| := by
    rw [← er] at hc
    have L0 : 0 < L := lt_of_lt_of_le (by positivity) l0
    have d0 : 0 < |r' * 2 * th| := by
      rw [abs_mul, abs_mul, abs_two]
      linarith
    rw [abs_div, div_mul_eq_mul_div, div_le_iff₀ d0, abs_mul, abs_mul, abs_two]
    have := mul_le_mul_of_nonneg_left hc (abs_nonneg (z2 - z3))
    linarith
  rw [er] at HR
  have A1 := Ap.mul h HR HY (by norm_num) (by norm_num; linarith) (by norm_num; linarith) (by norm_num)
  have A2 := Ap.mul h HR HX (by norm_num) (by norm_num; linarith) (by norm_num; linarith) (by norm_num)
  rw [fin_mul, v2] at A1
  rw [fin_mul, v1] at A2
  obtain ⟨f, k, f1, f2, f3⟩ := azimuth_ap h ha (E := 97 * P + 139 * Q + 2 ^ 14 + 66) (A1.mono (by norm_num) (by linarith)) (A2.mono (by norm_num) (by linarith)) (by norm_num; linarith)
  refine ⟨om, tl, f, k, o1, o2, f1, o3, o4, f2.trans ?_, f3, ⟨b1, b2⟩, b3⟩
  rw [mul_one_div]
  apply div_le_div_of_nonneg_right _ (by positivity)
  norm_num
  linarith

/-- the start helix compared with given exact values -/
theorem start_values (h : NearestF 53 1074 fl) (ha : IsAtan2 at2) {x1 y1 z1 x2 y2 z2 x3 y3 z3 L P a b c p q th r ph Q : ℝ} (tp : TP) (l0 : 1 / 2 ^ 100 ≤ L) (l1 : L ≤ 2 ^ 100)
    (a0 : L / 16 ≤ a) (a1 : a ≤ L) (b0 : L / 16 ≤ b) (b1 : b ≤ L) (c0 : L / 16 ≤ c) (c1 : c ≤ L) (P0 : 1 ≤ P) (P1 : P ≤ 2 ^ 20)
    (p1 : |x1| ≤ P * L ∧ |y1| ≤ P * L) (p2 : |x2| ≤ P * L ∧ |y2| ≤ P * L) (p3 : |x3| ≤ P * L ∧ |y3| ≤ P * L)
    (e1 : x2 - x1 = a * Real.cos p) (e2 : y2 - y1 = a * Real.sin p) (e3 : x3 - x1 = b * Real.cos q) (e4 : y3 - y1 = b * Real.sin q)
    (aa : a * a = (x2 - x1) * (x2 - x1) + (y2 - y1) * (y2 - y1)) (bb : b * b = (x3 - x1) * (x3 - x1) + (y3 - y1) * (y3 - y1))
    (cc : c * c = (x3 - x2) * (x3 - x2) + (y3 - y2) * (y3 - y2)) (c2 : c ^ 2 = a ^ 2 + b ^ 2 - 2 * (a * b * Real.cos th))
    (s1 : Real.sin th = Real.sin (q - p)) (s2 : Real.cos th = Real.cos (q - p)) (t1 : -Real.pi < th) (t2 : th < Real.pi) (hr : c = -(2 * r * Real.sin th))
    (h1 : r * Real.sin (ph - p) = a / 2) (h2 : r * Real.sin (ph - q) = b / 2) (Q1 : 1 ≤ Q) (hQ : Q * |Real.sin th| = 1) (Q2 : Q ≤ 2 ^ 20) (hz : |z2 - z3| ≤ 2 ^ 100) (bw : Bool)
    {ph' : ℝ} (g1 : Real.sin ph' = (if bw then -1 else 1) * Real.sin ph) (g2 : Real.cos ph' = (if bw then -1 else 1) * Real.cos ph) :
    ∃ (om tl f : ℝ) (k : ℤ), Rnd.calculateStartHelix fl at2 (V3.re x1 y1 z1) (V3.re x2 y2 z2) (V3.re x3 y3 z3) tp bw = ⟨tp.cov, hpR om tl f 0 0, V3.re x1 y1 z1⟩ ∧
      |om - 1 / ((if bw then -1 else 1) * r)| ≤ 70 * Q / 2 ^ 53 * |1 / ((if bw then -1 else 1) * r)| ∧
      |tl - (z2 - z3) / ((if bw then -1 else 1) * r * 2 * th)| ≤ 2 ^ 17 * Q / 2 ^ 53 * (|(z2 - z3) / ((if bw then -1 else 1) * r * 2 * th)| + 16) ∧
      |f - ph' - k * (2 * Real.pi)| ≤ (250 * P + 350 * Q + 2 ^ 16) / 2 ^ 53 ∧ (-4 ≤ f ∧ f ≤ 5) ∧
      (1 / 2 ^ 120 ≤ |1 / ((if bw then -1 else 1) * r)| ∧ |1 / ((if bw then -1 else 1) * r)| ≤ 2 ^ 120) ∧
      |(z2 - z3) / ((if bw then -1 else 1) * r * 2 * th)| * L ≤ 16 * |z2 - z3| := by
  have a00 : 0 < a := by linarith [lt_of_lt_of_le (show (0 : ℝ) < 1 / 2 ^ 100 by positivity) l0]
  have b00 : 0 < b := by linarith [lt_of_lt_of_le (show (0 : ℝ) < 1 / 2 ^ 100 by positivity) l0]
  have L0 : 0 < L := by linarith
  have c00 : 0 < c := by linarith
  obtain ⟨A, U⟩ := side_ap h (z := z1) (z' := z2) l0 l1 a0 a1 aa
  obtain ⟨B, V⟩ := side_ap h (z := z1) (z' := z3) l0 l1 b0 b1 bb
  obtain ⟨C, W⟩ := side_ap h (z := z2) (z' := z3) l0 l1 c0 c1 cc
  have S := ((U.cross h V (by norm_num) (by norm_num) (by norm_num) (by norm_num) (by norm_num)).z).mono (B' := 1) (e' := 54) (by norm_num) (by norm_num)
  have sv : ((V3.mk (fin ((x2 - x1) / a)) (fin ((y2 - y1) / a)) (fin 0)).cross (V3.mk (fin ((x3 - x1) / b)) (fin ((y3 - y1) / b)) (fin 0))).z = fin (Real.sin th) := by
    simp only [V3.cross, fin_mul, fin_sub]
    rw [e1, e2, e3, e4, s1, Real.sin_sub]
    congr 1
    field_simp
  rw [sv] at S
  have K := cosine_ap h (le_trans (by norm_num) l0) (l1.trans (by norm_num)) a0 a1 b0 c1 A B C b1 c2 (Real.abs_cos_le_one th)
  have H := half_ap (fl := fl) ha S K t1 t2 (by linarith) hQ Q2
  obtain ⟨R, R1, rne⟩ := radius_ap h l0 l1 c0 c1 C S (Real.abs_sin_le_one th) hr Q1 hQ Q2
  have EZ : ApV 0 1 (⟨0, 0, 1⟩ : V3) ⟨fin 0, fin 0, fin 1⟩ 1 0 := by
    refine ⟨?_, ?_, ?_, ?_⟩
    · change Ap 0 1 (0 : Dbl) (fin 0) 1 0
      rw [zero_eq]
      exact Ap.unit (x := 0) (B := 1) (by norm_num)
    · change Ap 0 1 (0 : Dbl) (fin 0) 1 0
      rw [zero_eq]
      exact Ap.unit (x := 0) (B := 1) (by norm_num)
    · change Ap 0 1 (1 : Dbl) (fin 1) 1 0
      rw [one_eq]
      exact Ap.unit (x := 1) (B := 1) (by norm_num)
    · intro x y z e
      simp only [V3.mk.injEq, fin.injEq] at e
      obtain ⟨rfl, rfl, rfl⟩ := e
      norm_num
  have N := W.cross h EZ (by norm_num) (by norm_num) (by norm_num) (by norm_num) (by norm_num)
  have sne : Real.sin (q - p) ≠ 0 := by
    intro z
    rw [s1, z, mul_zero, neg_zero] at hr
    linarith
  obtain ⟨m1, m2⟩ := start_centre h1 h2 sne
  have N1 := N.x.mono (B' := 1) (e' := 28) (by norm_num) (by norm_num)
  have N2 := N.y.mono (B' := 1) (e' := 28) (by norm_num) (by norm_num)
  simp only [V3.cross, fin_mul, fin_sub] at N1 N2
  have X := centre_ap h l0 l1 P0 P1 p1.1 p2.1 p3.1 R R1 K N1 Q1 Q2 (d := r * Real.sin ph) (by
    rw [← m1, s2, show (y3 - y2) / c * 1 - 0 * 0 = (b * Real.sin q - a * Real.sin p) / c by rw [show y3 - y2 = b * Real.sin q - a * Real.sin p by linarith]; ring,
      show x2 = x1 + a * Real.cos p by linarith, show x3 = x1 + b * Real.cos q by linarith, hr, s1]
    field_simp
    ring) (by rw [abs_mul]; exact mul_le_of_le_one_right (abs_nonneg _) (Real.abs_sin_le_one ph))
  have Y := centre_ap h l0 l1 P0 P1 p1.2 p2.2 p3.2 R R1 K N2 Q1 Q2 (d := -(r * Real.cos ph)) (by
    rw [← m2, s2, show 0 * 0 - (x3 - x2) / c * 1 = -((b * Real.cos q - a * Real.cos p) / c) by rw [show x3 - x2 = b * Real.cos q - a * Real.cos p by linarith]; ring,
      show y2 = y1 + a * Real.sin p by linarith, show y3 = y1 + b * Real.sin q by linarith, hr, s1]
    field_simp
    ring) (by rw [abs_neg, abs_mul]; exact mul_le_of_le_one_right (abs_nonneg _) (Real.abs_cos_le_one ph))
  have hc : L / 16 ≤ 2 * |r| * |th| := by
    have k1 : c = 2 * |r| * |Real.sin th| := by
      rw [← abs_of_pos c00, hr, abs_neg, abs_mul, abs_mul, abs_two]
    have k2 : 2 * |r| * |Real.sin th| ≤ 2 * |r| * |th| := mul_le_mul_of_nonneg_left Real.abs_sin_le_abs (by positivity)
    linarith
  cases bw with
  | false =>
    simp only [Bool.false_eq_true, if_false, one_mul] at g1 g2 ⊢
    obtain ⟨om, tl, f, k, o1, o2, o3, o4, o5, o6, o7⟩ := pars_ap h ha l0 l1 P1 Q1 Q2 hz hc H X Y P0 (ph' := ph') R rfl rne (by rw [g1, abs_mul_abs_self]; ring) (by rw [g2, abs_mul_abs_self]; ring)
    refine ⟨om, tl, f, k, ?_, o4, o5, o6, o7⟩
    unfold Rnd.calculateStartHelix
    simp only [Bool.false_eq_true, if_false]
    exact congrArg₂ (fun hp rp => TP.mk tp.cov hp rp) (by
      have : hpR om tl f 0 0 = V5.mk (fin om) (fin tl) (fin f) 0 0 := by rw [zero_eq]; rfl
      rw [this, ← o1, ← o2, ← o3]
      rfl) rfl
  | true =>
    simp only [if_true, neg_one_mul] at g1 g2 ⊢
    have Rn := R.neg
    rw [fin_neg, ← abs_neg] at Rn
    obtain ⟨om, tl, f, k, o1, o2, o3, o4, o5, o6, o7⟩ := pars_ap h ha l0 l1 P1 Q1 Q2 hz hc H X Y P0 (ph' := ph') Rn (abs_neg r) (neg_ne_zero.2 rne) (by rw [g1, abs_mul_abs_self]; ring) (by rw [g2, abs_mul_abs_self]; ring)
    refine ⟨om, tl, f, k, ?_, o4, o5, o6, o7⟩
    unfold Rnd.calculateStartHelix
    simp only [if_true]
    exact congrArg₂ (fun hp rp => TP.mk tp.cov hp rp) (by
      have : hpR om tl f 0 0 = V5.mk (fin om) (fin tl) (fin f) 0 0 := by rw [zero_eq]; rfl
      rw [this, ← o1, ← o2, ← o3]
      rfl) rfl

end Rnd

end Verif
