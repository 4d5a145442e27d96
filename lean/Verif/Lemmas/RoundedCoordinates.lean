import Verif.Model.RoundedCoordinates
import Verif.Lemmas.RoundedPath
import Verif.Lemmas.RoundedMove
import Verif.Lemmas.RoundedMaterial

/-!
# Lengths and angles of vectors in double precision
-/

open Classical

noncomputable section

namespace Verif

open Dbl Rounded

namespace Rnd

variable {fl : ℝ → ℝ} {lm : Libm} {at2 : ℝ → ℝ → ℝ}

/-- the length of a vector of two components -/
theorem trans_rel (h : NearestF 53 1074 fl) {k : ℕ} {X Y Z : Dbl} {x y S e : ℝ} (hX : Ap k S X (fin x) 1 e) (hY : Ap k S Y (fin y) 1 e) (hS : S * S = x * x + y * y)
    (hk : k + k ≤ 900) (e0 : 0 ≤ e) (he : e ≤ 2 ^ 20) : Rel k (transV fl ⟨X, Y, Z⟩) S (4002 / 1000 * e + 4004 / 1000) := by
  have he' : e * (1 + 1 / 1000) + 1 * e ≤ 2 ^ 40 := by norm_num at *; linarith
  have he2 : e ≤ 2 ^ 40 := by norm_num at *; linarith
  have X2 := Ap.mul h hX hX hk he2 he' (by norm_num)
  have Y2 := Ap.mul h hY hY hk he2 he' (by norm_num)
  have A := Ap.addB h X2 Y2 (D := 1) (fun w hw => by
    rw [fin_mul, fin_mul, fin_add, fin_inj] at hw
    rw [← hw, ← hS, one_mul, abs_of_nonneg (mul_self_nonneg S)]) (by omega) (by norm_num at *; linarith) (by norm_num)
  rw [fin_mul, fin_mul, fin_add, ← hS] at A
  have B := Ap.sqrt (k := k) h A (by omega) (by norm_num at *; linarith) rfl hX.lo hX.hi
  rw [sqrt_fin (mul_self_nonneg S), Real.sqrt_mul_self hX.pos.le] at B
  exact B.rel.mono le_rfl (by linarith)

/-- the length of a vector of three components -/
theorem r_rel (h : NearestF 53 1074 fl) {k : ℕ} {X Y Z : Dbl} {x y z S e : ℝ} (hX : Ap k S X (fin x) 1 e) (hY : Ap k S Y (fin y) 1 e) (hZ : Ap k S Z (fin z) 1 e)
    (hS : S * S = x * x + y * y + z * z) (hk : k + k ≤ 900) (e0 : 0 ≤ e) (he : e ≤ 2 ^ 20) : Rel k (rV fl ⟨X, Y, Z⟩) S (6003 / 1000 * e + 6006 / 1000) := by
  have he' : e * (1 + 1 / 1000) + 1 * e ≤ 2 ^ 40 := by norm_num at *; linarith
  have he2 : e ≤ 2 ^ 40 := by norm_num at *; linarith
  have X2 := Ap.mul h hX hX hk he2 he' (by norm_num)
  have Y2 := Ap.mul h hY hY hk he2 he' (by norm_num)
  have Z2 := Ap.mul h hZ hZ hk he2 he' (by norm_num)
  have A := Ap.addB h X2 Y2 (D := 1) (fun w hw => by
    rw [fin_mul, fin_mul, fin_add, fin_inj] at hw
    rw [← hw, one_mul, abs_of_nonneg (add_nonneg (mul_self_nonneg x) (mul_self_nonneg y)), hS]
    linarith [mul_self_nonneg z]) (by omega) (by norm_num at *; linarith) (by norm_num)
  have A := Ap.addB h A Z2 (D := 1) (fun w hw => by
    rw [fin_mul, fin_mul, fin_mul, fin_add, fin_add, fin_inj] at hw
    rw [← hw, ← hS, one_mul, abs_of_nonneg (mul_self_nonneg S)]) (by omega) (by norm_num at *; linarith) (by norm_num)
  rw [fin_mul, fin_mul, fin_mul, fin_add, fin_add, ← hS] at A
  have B := Ap.sqrt (k := k) h A (by omega) (by norm_num at *; linarith) rfl hX.lo hX.hi
  rw [sqrt_fin (mul_self_nonneg S), Real.sqrt_mul_self hX.pos.le] at B
  exact B.rel.mono le_rfl (by linarith)

/-- one component of a vector with the length `ρ` -/
theorem comp_error (h : NearestF 53 1074 fl) {ρ c c' : ℝ} (h1 : 1 / 2 ^ 400 ≤ ρ) (h2 : ρ ≤ 2 ^ 400) (hc : |c| ≤ 1) (hc' : |c' - c| ≤ |c| / 2 ^ 52 + 1 / 2 ^ 1074) :
    mulD fl (fin ρ) (fin c') = fin (fl (ρ * c')) ∧ |fl (ρ * c') - ρ * c| ≤ ρ * (4 / 2 ^ 53 * |c| + 1 / 2 ^ 600) := by
  have ρ0 : 0 < ρ := lt_of_lt_of_le (by positivity) h1
  have e1 := err_double h (ρ * c')
  have t1 : (1 : ℝ) / 2 ^ 1074 ≤ 1 / 2 ^ 1000 := one_div_le_one_div_of_le (by positivity) (pow_le_pow_right₀ (by norm_num) (by norm_num))
  have t2 : (1 : ℝ) / 2 ^ 1075 ≤ 1 / 2 ^ 601 * ρ := by
    refine le_trans ?_ (mul_le_mul_of_nonneg_left h1 (by positivity))
    rw [one_div_mul_one_div, ← pow_add]
    exact one_div_le_one_div_of_le (by positivity) (pow_le_pow_right₀ (by norm_num) (by norm_num))
  have t3 : (1 : ℝ) / 2 ^ 1000 ≤ 1 / 8 * (1 / 2 ^ 601) := by
    rw [show (1 : ℝ) / 8 = 1 / 2 ^ 3 by norm_num, one_div_mul_one_div, ← pow_add]
    exact one_div_le_one_div_of_le (by positivity) (pow_le_pow_right₀ (by norm_num) (by norm_num))
  have t4 : (1 : ℝ) / 2 ^ 600 = 2 * (1 / 2 ^ 601) := by
    rw [show (2 : ℝ) ^ 601 = 2 ^ 600 * 2 by rw [← pow_succ]]
    field_simp
  have t5 : (1 : ℝ) / 2 ^ 601 ≤ 1 / 2 := by
    rw [show (1 : ℝ) / 2 = 1 / 2 ^ 1 by norm_num]
    exact one_div_le_one_div_of_le (by positivity) (pow_le_pow_right₀ (by norm_num) (by norm_num))
  have q1 : |c'| ≤ |c| + (|c| / 2 ^ 52 + 1 / 2 ^ 1000) := by
    have := abs_sub_abs_le_abs_sub c' c
    linarith
  have q2 : |ρ * c'| = ρ * |c'| := by rw [abs_mul, abs_of_pos ρ0]
  have q3 : |ρ * c' - ρ * c| ≤ ρ * (|c| / 2 ^ 52 + 1 / 2 ^ 1000) := by
    rw [← mul_sub, abs_mul, abs_of_pos ρ0]
    exact mul_le_mul_of_nonneg_left (by linarith) ρ0.le
  have q4 := mul_le_mul_of_nonneg_left q1 ρ0.le
  constructor
  · rw [mulD, fin_mul]
    refine rnd_double h ?_
    rw [q2]
    have : ρ * |c'| ≤ 2 ^ 400 * 4 := by
      refine mul_le_mul h2 ?_ (abs_nonneg _) (by positivity)
      norm_num at q1 ⊢
      norm_num at t3 t5
      linarith
    refine this.trans ?_
    rw [show (4 : ℝ) = 2 ^ 2 by norm_num, ← pow_add]
    exact pow_le_pow_right₀ (by norm_num) (by norm_num)
  · have := abs_sub_le (fl (ρ * c')) (ρ * c') (ρ * c)
    refine this.trans ?_
    rw [q2] at e1
    rw [t4]
    have q5 := mul_le_mul_of_nonneg_left t3 ρ0.le
    have c0 : 0 ≤ ρ * |c| := by positivity
    generalize (1 : ℝ) / 2 ^ 1000 = w at *
    generalize (1 : ℝ) / 2 ^ 1075 = η at *
    have w0 : 0 ≤ ρ * (1 / 2 ^ 601) := by positivity
    generalize (1 : ℝ) / 2 ^ 601 = v at *
    clear t1 t3 t4 t5 q1 h1 h2 hc hc'
    norm_num at *
    rw [mul_add] at q3 ⊢
    rw [mul_add, mul_add] at q4
    generalize |c'| = C' at *
    rw [show ρ * (|c| / 4503599627370496) = ρ * |c| / 4503599627370496 by ring] at q3 q4
    rw [show ρ * (1 / 2251799813685248 * |c|) = ρ * |c| / 2251799813685248 by ring]
    rw [show ρ * (2 * v) = 2 * (ρ * v) by ring]
    generalize ρ * |c| = P at *
    rw [show ρ * (1 / 8 * v) = ρ * v / 8 by ring] at q5
    rw [mul_comm v ρ] at t2
    generalize ρ * v = V at *
    generalize ρ * w = W at *
    generalize ρ * C' = D at *
    linarith

/-- the angle of a vector next to the one with the length `ρ` and the angle `φ` -/
theorem polar_error {A B φ ρ a τ : ℝ} (hρ : 0 < ρ) (a0 : 0 ≤ a) (ha : a ≤ 1 / 2 ^ 40) (t0 : 0 ≤ τ) (ht : τ ≤ 1 / 2 ^ 100) (h1 : -Real.pi < φ) (h2 : φ ≤ Real.pi)
    (hk : |φ| ≤ 3 ∨ (0 < A ∧ 0 ≤ φ) ∨ (A < 0 ∧ φ ≤ 0)) (hA : |A - ρ * Real.sin φ| ≤ ρ * (a * |Real.sin φ| + τ))
    (hB : |B - ρ * Real.cos φ| ≤ ρ * (a * |Real.cos φ| + τ)) :
    ¬ (B = 0 ∧ A = 0) ∧ |ratan2 A B - φ| ≤ 21 / 10 * (a * |Real.sin φ * Real.cos φ|) + 3 * τ := by
  have p1 := Real.pi_gt_d4
  have p2 := Real.pi_lt_d4
  have s1 := Real.abs_sin_le_one φ
  have c1 := Real.abs_cos_le_one φ
  have sc := Real.sin_sq_add_cos_sq φ
  have s0 := abs_nonneg (Real.sin φ)
  have c0 := abs_nonneg (Real.cos φ)
  have eR : B * Real.cos φ + A * Real.sin φ = ρ + ((B - ρ * Real.cos φ) * Real.cos φ + (A - ρ * Real.sin φ) * Real.sin φ) := by linear_combination ρ * sc
  have eI : A * Real.cos φ - B * Real.sin φ = (A - ρ * Real.sin φ) * Real.cos φ - (B - ρ * Real.cos φ) * Real.sin φ := by ring
  have b1 : |(B - ρ * Real.cos φ) * Real.cos φ| ≤ ρ * (a * |Real.cos φ| + τ) * |Real.cos φ| := by rw [abs_mul]; exact mul_le_mul_of_nonneg_right hB c0
  have b2 : |(A - ρ * Real.sin φ) * Real.sin φ| ≤ ρ * (a * |Real.sin φ| + τ) * |Real.sin φ| := by rw [abs_mul]; exact mul_le_mul_of_nonneg_right hA s0
  have b3 : |(A - ρ * Real.sin φ) * Real.cos φ| ≤ ρ * (a * |Real.sin φ| + τ) * |Real.cos φ| := by rw [abs_mul]; exact mul_le_mul_of_nonneg_right hA c0
  have b4 : |(B - ρ * Real.cos φ) * Real.sin φ| ≤ ρ * (a * |Real.cos φ| + τ) * |Real.sin φ| := by rw [abs_mul]; exact mul_le_mul_of_nonneg_right hB s0
  have t3 : τ * |Real.sin φ| ≤ τ := mul_le_of_le_one_right t0 s1
  have t4 : τ * |Real.cos φ| ≤ τ := mul_le_of_le_one_right t0 c1
  have sq1 : |Real.sin φ| * |Real.sin φ| + |Real.cos φ| * |Real.cos φ| = 1 := by rw [abs_mul_abs_self, abs_mul_abs_self]; linarith
  have R1 : ρ * (1 - a - 2 * τ) ≤ B * Real.cos φ + A * Real.sin φ := by
    rw [eR]
    have k1 := (abs_le.1 b1).1
    have k2 := (abs_le.1 b2).1
    have k3 : ρ * (a * |Real.cos φ| + τ) * |Real.cos φ| + ρ * (a * |Real.sin φ| + τ) * |Real.sin φ| ≤ ρ * (a + 2 * τ) := by
      have : (a * |Real.cos φ| + τ) * |Real.cos φ| + (a * |Real.sin φ| + τ) * |Real.sin φ| ≤ a + 2 * τ := by
        have : a * (|Real.sin φ| * |Real.sin φ| + |Real.cos φ| * |Real.cos φ|) = a := by rw [sq1, mul_one]
        linarith
      calc _ = ρ * ((a * |Real.cos φ| + τ) * |Real.cos φ| + (a * |Real.sin φ| + τ) * |Real.sin φ|) := by ring
        _ ≤ _ := mul_le_mul_of_nonneg_left this hρ.le
    linarith
  have R2 : 99 / 100 * ρ ≤ B * Real.cos φ + A * Real.sin φ := by
    refine le_trans ?_ R1
    rw [mul_comm]
    refine mul_le_mul_of_nonneg_left ?_ hρ.le
    norm_num at ha ht
    linarith
  have R0 : 0 < B * Real.cos φ + A * Real.sin φ := by linarith
  have I1 : |A * Real.cos φ - B * Real.sin φ| ≤ ρ * (2 * (a * |Real.sin φ * Real.cos φ|) + 2 * τ) := by
    rw [eI]
    refine (abs_sub _ _).trans ((add_le_add b3 b4).trans ?_)
    have : (a * |Real.sin φ| + τ) * |Real.cos φ| + (a * |Real.cos φ| + τ) * |Real.sin φ| ≤ 2 * (a * |Real.sin φ * Real.cos φ|) + 2 * τ := by
      rw [abs_mul]
      linarith
    calc _ = ρ * ((a * |Real.sin φ| + τ) * |Real.cos φ| + (a * |Real.cos φ| + τ) * |Real.sin φ|) := by ring
      _ ≤ _ := mul_le_mul_of_nonneg_left this hρ.le
  obtain ⟨δ, k, e, hδ⟩ := ratan2_turn R0
  have D : |δ| ≤ 21 / 10 * (a * |Real.sin φ * Real.cos φ|) + 3 * τ := by
    refine hδ.trans ?_
    rw [div_le_iff₀ R0]
    have m0 : 0 ≤ 21 / 10 * (a * |Real.sin φ * Real.cos φ|) + 3 * τ := by positivity
    have := mul_le_mul_of_nonneg_left R2 m0
    refine I1.trans (le_trans ?_ this)
    have q0 : 0 ≤ ρ * (a * |Real.sin φ * Real.cos φ|) := by positivity
    have q1 : 0 ≤ ρ * τ := by positivity
    linarith
  have D1 : |δ| ≤ 1 / 100 := by
    refine D.trans ?_
    have : a * |Real.sin φ * Real.cos φ| ≤ a := mul_le_of_le_one_right a0 (by rw [abs_mul]; exact mul_le_one₀ s1 c0 c1)
    norm_num at ha ht
    linarith
  obtain ⟨d1, d2⟩ := abs_le.1 D1
  have g1 : -Real.pi < ratan2 A B := Complex.neg_pi_lt_arg _
  have g2 : ratan2 A B ≤ Real.pi := Complex.arg_le_pi _
  have k0 : k = 0 := by
    have lo : -1 < (k : ℝ) := by
      by_contra hc
      have : (k : ℝ) * (2 * Real.pi) ≤ -1 * (2 * Real.pi) := mul_le_mul_of_nonneg_right (not_lt.1 hc) (by positivity)
      rcases hk with hk | ⟨hk, hk'⟩ | ⟨hk, hk'⟩
      · have := (abs_le.1 hk).2
        linarith
      · have : 0 ≤ ratan2 A B := Complex.arg_nonneg_iff.2 hk.le
        linarith
      · linarith
    have hi : (k : ℝ) < 1 := by
      by_contra hc
      have : 1 * (2 * Real.pi) ≤ (k : ℝ) * (2 * Real.pi) := mul_le_mul_of_nonneg_right (not_lt.1 hc) (by positivity)
      rcases hk with hk | ⟨hk, hk'⟩ | ⟨hk, hk'⟩
      · have := (abs_le.1 hk).1
        linarith
      · linarith
      · have : ratan2 A B < 0 := Complex.arg_neg_iff.2 hk
        linarith
    have lo' : -1 < k := by exact_mod_cast lo
    have hi' : k < 1 := by exact_mod_cast hi
    omega
  refine ⟨?_, ?_⟩
  · rintro ⟨rfl, rfl⟩
    simp at R0
  · rw [e, k0, Int.cast_zero, zero_mul, add_zero, add_sub_cancel_left]
    exact D

/-- sines of angles away from a half turn -/
theorem sin_away {φ : ℝ} (h1 : 3 ≤ φ) (h2 : φ ≤ mPi) : 1 / 2 ^ 60 ≤ Real.sin φ := by
  have p := Real.pi_gt_d20
  have m : mPi = 884279719003555 / 2 ^ 48 := rfl
  have p2 := Real.pi_lt_d4
  rw [← Real.sin_pi_sub]
  have := Real.mul_le_sin (x := Real.pi - φ) (by rw [m] at h2; norm_num at h2 p; linarith) (by linarith)
  refine le_trans ?_ this
  have q : 1 / 2 ^ 59 ≤ Real.pi - φ := by
    rw [m] at h2
    norm_num at h2 p ⊢
    linarith
  have r : (1 : ℝ) / 2 ≤ 2 / Real.pi := by
    rw [div_le_div_iff₀ (by norm_num) Real.pi_pos]
    linarith
  have := mul_le_mul r q (by positivity) (by positivity)
  refine le_trans (le_of_eq ?_) this
  norm_num

/-- the condition on the sign of `polar_error` holds for all numbers up to `M_PI` -/
theorem polar_sign {A φ ρ a τ : ℝ} (hρ : 0 < ρ) (ha : a ≤ 1 / 2 ^ 40) (ht : τ ≤ 1 / 2 ^ 100) (h : |φ| ≤ mPi)
    (hA : |A - ρ * Real.sin φ| ≤ ρ * (a * |Real.sin φ| + τ)) : |φ| ≤ 3 ∨ (0 < A ∧ 0 ≤ φ) ∨ (A < 0 ∧ φ ≤ 0) := by
  obtain ⟨l1, l2⟩ := abs_le.1 h
  by_cases c : |φ| ≤ 3
  · exact .inl c
  have key : ∀ {s : ℝ}, 1 / 2 ^ 60 ≤ s → 0 < s - (a * s + τ) := by
    intro s hs
    have : a * s ≤ 1 / 2 ^ 40 * s := mul_le_mul_of_nonneg_right ha (le_trans (by positivity) hs)
    norm_num at *
    linarith
  rcases le_total 0 φ with p | p
  · rw [abs_of_nonneg p] at c
    have s := sin_away (by linarith) l2
    have s0 : 0 < Real.sin φ := lt_of_lt_of_le (by positivity) s
    rw [abs_of_pos s0] at hA
    have := mul_pos hρ (key s)
    have := (abs_le.1 hA).1
    exact .inr (.inl ⟨by linarith, p⟩)
  · rw [abs_of_nonpos p] at c
    have s := sin_away (φ := -φ) (by linarith) (by linarith)
    rw [Real.sin_neg] at s
    have s0 : Real.sin φ < 0 := by
      have : (0 : ℝ) < 1 / 2 ^ 60 := by positivity
      linarith
    rw [abs_of_neg s0] at hA
    have := mul_pos hρ (key s)
    have := (abs_le.1 hA).2
    exact .inr (.inr ⟨by linarith, p⟩)

/-- `atan2` of the library -/
theorem at2_value (ha : IsAtan2 at2) {A B φ E : ℝ} (hn : ¬ (B = 0 ∧ A = 0)) (h : |ratan2 A B - φ| ≤ E) : |at2 A B - φ| ≤ E + (|φ| + E) / 2 ^ 52 + 1 / 2 ^ 1074 := by
  have h1 := ha A B hn
  have h2 := abs_sub_le (at2 A B) (ratan2 A B) φ
  have h3 := abs_sub_abs_le_abs_sub (ratan2 A B) φ
  have h4 : |ratan2 A B| / 2 ^ 52 ≤ (|φ| + E) / 2 ^ 52 := div_le_div_of_nonneg_right (by linarith) (by positivity)
  linarith

theorem phiV_value (fl : ℝ → ℝ) (at2 : ℝ → ℝ → ℝ) {A B : ℝ} {Z : Dbl} (hn : ¬ (B = 0 ∧ A = 0)) : phiV fl at2 ⟨fin B, fin A, Z⟩ = fin (at2 A B) := by
  unfold phiV
  have : ¬ (Dbl.eqv (fin B) 0 ∧ Dbl.eqv (fin A) 0) := by
    simpa using hn
  simp only
  rw [cif_neg this]
  rfl

theorem thetaV_value (fl : ℝ → ℝ) (at2 : ℝ → ℝ → ℝ) {A B C S : ℝ} (hn : ¬ (B = 0 ∧ A = 0)) (hS : rhoV fl ⟨fin B, fin A, fin C⟩ = fin S) :
    thetaV fl at2 ⟨fin B, fin A, fin C⟩ = fin (at2 S C) := by
  unfold thetaV
  have : ¬ (Dbl.eqv (fin B) 0 ∧ Dbl.eqv (fin A) 0 ∧ Dbl.eqv (fin C) 0) := fun q => hn (by simpa using And.intro q.1 q.2.1)
  simp only
  rw [cif_neg this, hS]
  rfl

theorem sin_cos_le (φ : ℝ) : |Real.sin φ * Real.cos φ| ≤ |φ| := by
  rw [abs_mul]
  have := Real.abs_sin_sub_sin_le φ 0
  rw [Real.sin_zero, sub_zero, sub_zero] at this
  exact (mul_le_of_le_one_right (abs_nonneg _) (Real.abs_cos_le_one φ)).trans this

/-- the azimuth of a vector, close to the exact one -/
theorem phi_near (ha : IsAtan2 at2) {x y : ℝ} (hn : ¬ (x = 0 ∧ y = 0)) (Z : Dbl) : Ap 2 1 (phiV fl at2 ⟨fin x, fin y, Z⟩) (fin (ratan2 y x)) 4 (632 / 100) := by
  rw [phiV_value fl at2 hn]
  have b : |ratan2 y x| ≤ 315 / 100 := by
    have := Complex.abs_arg_le_pi ⟨x, y⟩
    have := Real.pi_lt_d2
    unfold ratan2
    norm_num at *
    linarith
  refine ⟨by norm_num, by norm_num, _, _, rfl, rfl, (ha y x hn).trans ?_, by linarith⟩
  have t2 : (1 : ℝ) / 2 ^ 1074 ≤ 1 / 2 ^ 100 := one_div_le_one_div_of_le (by positivity) (pow_le_pow_right₀ (by norm_num) (by norm_num))
  generalize (1 : ℝ) / 2 ^ 1074 = η at *
  generalize |ratan2 y x| = q at *
  norm_num at *
  linarith

theorem polar_parts {x y S : ℝ} (hS : S = √(x ^ 2 + y ^ 2)) (S0 : 0 < S) :
    S * Real.cos (ratan2 y x) = x ∧ S * Real.sin (ratan2 y x) = y ∧ ¬ (x = 0 ∧ y = 0) ∧ S * S = x * x + y * y ∧ |x| ≤ S ∧ |y| ≤ S := by
  have e2 : S * S = x * x + y * y := by
    rw [hS, Real.mul_self_sqrt (by positivity)]
    ring
  have n : ‖(⟨x, y⟩ : ℂ)‖ = S := by
    rw [Complex.norm_eq_sqrt_sq_add_sq, hS]
  have c := Complex.norm_mul_cos_arg ⟨x, y⟩
  have d := Complex.norm_mul_sin_arg ⟨x, y⟩
  rw [n] at c d
  refine ⟨c, d, ?_, e2, abs_le_of_sq_le_sq (by nlinarith) S0.le, abs_le_of_sq_le_sq (by nlinarith) S0.le⟩
  rintro ⟨rfl, rfl⟩
  nlinarith

/-- the polar angle of a vector, close to the exact one -/
theorem theta_near (ha : IsAtan2 at2) {x y z S r : ℝ} (p3 : ¬ (x = 0 ∧ y = 0)) (S0 : 0 < S) (r0 : 0 < r) (q1 : r * Real.cos (ratan2 S z) = z) (q2 : r * Real.sin (ratan2 S z) = S)
    (T : Rel 400 (transV fl ⟨fin x, fin y, fin z⟩) S (4002 / 1000 * 0 + 4004 / 1000)) :
    Ap 2 1 (thetaV fl at2 ⟨fin x, fin y, fin z⟩) (fin (ratan2 S z)) 4 (119 / 10) := by
  obtain ⟨w, w1, w2⟩ := T.val
  have w0 : 0 < w := by
    have := (abs_le.1 w2).1
    norm_num at this
    linarith
  have θ0 : 0 ≤ ratan2 S z := by
    unfold ratan2
    exact Complex.arg_nonneg_iff.2 S0.le
  have θ1 : ratan2 S z ≤ Real.pi := by
    unfold ratan2
    exact Complex.arg_le_pi _
  rw [thetaV_value fl at2 p3 w1]
  generalize eθ : ratan2 S z = θ at *
  have t00 : (0 : ℝ) ≤ r * (1 / 2 ^ 600) := by positivity
  have bw : |w - r * Real.sin θ| ≤ r * (5 / 2 ^ 53 * |Real.sin θ| + 1 / 2 ^ 600) := by
    have : r * |Real.sin θ| = S := by
      have : |r * Real.sin θ| = S := by rw [q2, abs_of_pos S0]
      rw [abs_mul, abs_of_pos r0] at this
      exact this
    rw [mul_add, show r * (5 / 2 ^ 53 * |Real.sin θ|) = 5 / 2 ^ 53 * (r * |Real.sin θ|) by ring, this, q2]
    generalize r * (1 / 2 ^ 600) = V at *
    norm_num at w2 ⊢
    linarith
  have bz : |z - r * Real.cos θ| ≤ r * (5 / 2 ^ 53 * |Real.cos θ| + 1 / 2 ^ 600) := by
    rw [q1, sub_self, abs_zero]
    positivity
  have t100 : (1 : ℝ) / 2 ^ 600 ≤ 1 / 2 ^ 100 := one_div_le_one_div_of_le (by positivity) (pow_le_pow_right₀ (by norm_num) (by norm_num))
  obtain ⟨j1, j2⟩ := polar_error (A := w) (B := z) r0 (by positivity) (by norm_num) (by positivity) t100 (by linarith [Real.pi_pos]) (by linarith) (.inr (.inl ⟨w0, θ0⟩)) bw bz
  have k3 := at2_value ha j1 j2
  have hb := Real.pi_lt_d2
  have sc : |Real.sin θ * Real.cos θ| ≤ 1 / 2 := by
    have e := Real.sin_sq_add_cos_sq θ
    rw [abs_le]
    constructor <;> nlinarith [sq_nonneg (Real.sin θ + Real.cos θ), sq_nonneg (Real.sin θ - Real.cos θ)]
  refine ⟨by norm_num, by norm_num, _, _, rfl, rfl, k3.trans ?_, ?_⟩
  · rw [abs_of_nonneg θ0]
    have t2 : (1 : ℝ) / 2 ^ 1074 ≤ 1 / 2 ^ 100 := one_div_le_one_div_of_le (by positivity) (pow_le_pow_right₀ (by norm_num) (by norm_num))
    generalize (1 : ℝ) / 2 ^ 600 = τ at *
    generalize (1 : ℝ) / 2 ^ 1074 = η at *
    generalize |Real.sin θ * Real.cos θ| = q at *
    clear * - sc θ0 θ1 t2 t100 hb
    norm_num at *
    linarith
  · rw [abs_of_nonneg θ0]
    norm_num at hb ⊢
    linarith

end Rnd

end Verif
