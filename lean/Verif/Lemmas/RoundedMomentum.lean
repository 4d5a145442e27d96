import Verif.Model.RoundedMomentum
import Verif.Props.RoundedPath
import Verif.Props.RoundedMaterial

/-!
# Lemmas for C147: errors of the momentum and their effect on Highland's formula
-/

open Classical

noncomputable section

namespace Verif

open Dbl Rnd Spec

variable {fl : ℝ → ℝ}

/-- a product with a number near a sine or cosine -/
theorem comp_near (h : NearestF 53 1074 fl) {p r c C β : ℝ} (h1 : 1 / 2 ^ 609 ≤ |p|) (h2 : |p| ≤ 2 ^ 609) (hr : |r - p| ≤ 7 * (|p| * (1 / 2 ^ 53)))
    (hC : |C| ≤ 1) (hc : |c - C| ≤ β + 3 * (1 / 2 ^ 53)) (hβ : β ≤ 1 / 10) :
    mulD fl (fin r) (fin c) = fin (fl (r * c)) ∧ |fl (r * c) - p * C| ≤ |p| * (β + 14 / 2 ^ 53) := by
  have p0 : 0 < |p| := lt_of_lt_of_le (by positivity) h1
  have c1 : |c| ≤ 11 / 10 + 1 / 1000 := by
    have := abs_near hc
    norm_num at *
    linarith
  have r1 : |r| ≤ |p| * (1001 / 1000) := by
    have := abs_near hr
    have k : |p| * (1 / 2 ^ 53) ≤ |p| * (1 / 10000) := mul_le_mul_of_nonneg_left (by norm_num) p0.le
    linarith
  have rc : |r * c| ≤ |p| * (12 / 10) := by
    rw [abs_mul]
    have := mul_le_mul r1 c1 (abs_nonneg _) (by positivity)
    linarith
  have a1 : |r * c - p * C| ≤ |p| * (β + 11 * (1 / 2 ^ 53)) := by
    rw [show r * c - p * C = (r - p) * c + p * (c - C) by ring]
    refine (abs_add_le _ _).trans ?_
    rw [abs_mul, abs_mul]
    have b1 := mul_le_mul hr c1 (abs_nonneg _) (by positivity)
    have b2 := mul_le_mul_of_nonneg_left hc p0.le
    have b3 : 0 ≤ |p| * (1 / 2 ^ 53) := by positivity
    linarith
  have e := err_double h (r * c)
  have η : (1 : ℝ) / 2 ^ 1075 ≤ |p| * (1 / 2 ^ 53) * (1 / 100) := by
    have : (1 : ℝ) / 2 ^ 1075 = 1 / 2 ^ 609 * (1 / 2 ^ 53) * (1 / 2 ^ 413) := by rw [one_div_mul_one_div, ← pow_add, one_div_mul_one_div, ← pow_add]
    rw [this]
    refine mul_le_mul (mul_le_mul_of_nonneg_right h1 (by positivity)) ?_ (by positivity) (by positivity)
    refine one_div_le_one_div_of_le (by norm_num) ?_
    calc (100 : ℝ) ≤ 2 ^ 7 := by norm_num
      _ ≤ 2 ^ 413 := pow_le_pow_right₀ (by norm_num) (by norm_num)
  refine ⟨?_, ?_⟩
  · rw [mulD, fin_mul]
    refine rnd_double h (rc.trans ?_)
    calc |p| * (12 / 10) ≤ 2 ^ 609 * 2 := mul_le_mul h2 (by norm_num) (by norm_num) (by positivity)
      _ = 2 ^ 610 := (pow_succ (2 : ℝ) 609).symm
      _ ≤ 2 ^ 1000 := pow_le_pow_right₀ (by norm_num) (by norm_num)
  · refine (near_trans e a1).trans ?_
    have k := mul_le_mul_of_nonneg_left rc (show (0 : ℝ) ≤ 1 / 2 ^ 53 by positivity)
    have b3 : 0 ≤ |p| * (1 / 2 ^ 53) := by positivity
    generalize (1 : ℝ) / 2 ^ 1075 = y at *
    rw [show (14 : ℝ) / 2 ^ 53 = 14 * (1 / 2 ^ 53) by ring]
    generalize (1 : ℝ) / 2 ^ 53 = v at *
    linarith

theorem norm_near {a b c a' b' c' : ℝ} :
    |√(a ^ 2 + b ^ 2 + c ^ 2) - √(a' ^ 2 + b' ^ 2 + c' ^ 2)| ≤ |a - a'| + |b - b'| + |c - c'| := by
  have key : ∀ a b c a' b' c' : ℝ, √(a ^ 2 + b ^ 2 + c ^ 2) ≤ √(a' ^ 2 + b' ^ 2 + c' ^ 2) + (|a - a'| + |b - b'| + |c - c'|) := by
    intro a b c a' b' c'
    have N0 := Real.sqrt_nonneg (a' ^ 2 + b' ^ 2 + c' ^ 2)
    have N2 : √(a' ^ 2 + b' ^ 2 + c' ^ 2) ^ 2 = a' ^ 2 + b' ^ 2 + c' ^ 2 := Real.sq_sqrt (by positivity)
    have d1 := abs_nonneg (a - a')
    have d2 := abs_nonneg (b - b')
    have d3 := abs_nonneg (c - c')
    rw [Real.sqrt_le_left (by positivity)]
    have m : ∀ t e : ℝ, t ^ 2 ≤ √(a' ^ 2 + b' ^ 2 + c' ^ 2) ^ 2 → t * e ≤ √(a' ^ 2 + b' ^ 2 + c' ^ 2) * |e| := fun t e ht => by
      refine (le_abs_self _).trans ?_
      rw [abs_mul]
      exact mul_le_mul_of_nonneg_right (abs_le_of_sq_le_sq ht N0) (abs_nonneg _)
    have m1 := m a' (a - a') (by rw [N2]; nlinarith)
    have m2 := m b' (b - b') (by rw [N2]; nlinarith)
    have m3 := m c' (c - c') (by rw [N2]; nlinarith)
    have q1 := sq_abs (a - a')
    have q2 := sq_abs (b - b')
    have q3 := sq_abs (c - c')
    have x1 := mul_nonneg d1 d2
    have x2 := mul_nonneg d1 d3
    have x3 := mul_nonneg d2 d3
    nlinarith
  rw [abs_le]
  constructor
  · have := key a' b' c' a b c
    rw [abs_sub_comm a', abs_sub_comm b', abs_sub_comm c'] at this
    linarith
  · have := key a b c a' b' c'
    linarith

/-- the transverse momentum -/
theorem pt_ap (h : NearestF 53 1074 fl) {om b : ℝ} (h1 : 1 / 2 ^ 500 ≤ |om|) (h2 : |om| ≤ 2 ^ 200) (hb : Size |b|) :
    Ap 609 |1 / om * b * kBr| (mulD fl (mulD fl (Dbl.abs (divD fl 1 (fin om))) (fin b)) (convD fl)) (fin (|1 / om| * b * kBr)) 1 7 := by
  have om0 : 0 < |om| := lt_of_lt_of_le (by positivity) h1
  have hom : om ≠ 0 := abs_pos.1 om0
  have h2' : |om| ≤ 2 ^ 500 := size_mono h2 (by norm_num)
  have a1 : Ap 500 (1 / |om|) (divD fl 1 (fin om)) (fin (1 / om)) 1 (1001 / 1000 * (0 + 1 * 0) + 1 + 1 / 1000) := by
    have := Ap.divr (fl := fl) (a := fin 1) (a' := fin 1) h (Ap.unit (B := 1) (by simp)) (Ap.given (k := 500) (S := |om|) (x := om) (B := 1) h1 h2' (by rw [one_mul])) rfl le_rfl
      (by norm_num) (by norm_num) (by norm_num) (by norm_num)
    rw [fin_div _ hom] at this
    rw [one_eq]
    exact this
  have i1 : |1 / om| = 1 / |om| := by rw [abs_div, abs_one]
  have r1 := Rel.abs a1 (by rw [i1]; exact a1.lo) (by rw [i1]; exact a1.hi)
  rw [i1, div_self (ne_of_gt (by positivity))] at r1
  have a2 := (r1.mono le_rfl (show _ ≤ (1002 / 1000 : ℝ) by norm_num)).ap
  have gb : Ap 100 |b| (fin b) (fin b) 1 0 := Ap.given hb.1 hb.2 (by rw [one_mul])
  have a3 := (Ap.mul h a2 gb (by norm_num) (by norm_num) (by norm_num) (by norm_num)).mono (B' := 1) (e' := 21 / 10) (by norm_num) (by norm_num)
  have a4 := (Ap.mul h a3 (conv_ap h) (by norm_num) (by norm_num) (by norm_num) (by norm_num)).mono (B' := 1) (e' := 7) (by norm_num) (by norm_num)
  rw [convert_eq, fin_mul, fin_mul] at a4
  rw [abs_mul, abs_mul, abs_of_pos kBr_pos, i1]
  exact a4

/-- relative errors of a product -/
theorem prod_near {a a' b b' α β : ℝ} (ha : |a' - a| ≤ α * a) (hb : |b' - b| ≤ β * b) (a0 : 0 ≤ a) (b00 : 0 ≤ b) :
    |a' * b' - a * b| ≤ (α + β + α * β) * (a * b) := by
  rw [show a' * b' - a * b = (a' - a) * (b' - b) + (a' - a) * b + a * (b' - b) by ring]
  have b0 : |a' - a| * |b' - b| ≤ (α * a) * (β * b) := mul_le_mul ha hb (abs_nonneg _) ((abs_nonneg _).trans ha)
  have b1 : |(a' - a) * b| ≤ α * a * |b| := by rw [abs_mul]; exact mul_le_mul_of_nonneg_right ha (abs_nonneg _)
  have b2 : |a * (b' - b)| ≤ a * (β * b) := by rw [abs_mul, abs_of_nonneg a0]; exact mul_le_mul_of_nonneg_left hb a0
  have c1 := abs_add_le ((a' - a) * (b' - b) + (a' - a) * b) (a * (b' - b))
  have c2 := abs_add_le ((a' - a) * (b' - b)) ((a' - a) * b)
  rw [abs_mul (a' - a) (b' - b)] at c2
  rw [abs_of_nonneg b00] at b1
  linarith

theorem inv_near {a a' ρ : ℝ} (ha : |a' - a| ≤ ρ * a) (a0 : 0 < a) (hρ : ρ ≤ 1 / 50) : |1 / a' - 1 / a| ≤ 21 / 20 * ρ * (1 / a) := by
  have h1 := abs_le.1 ha
  have ρ0 : 0 ≤ ρ := nonneg_of_mul_nonneg_left ((abs_nonneg _).trans ha) a0
  have k : ρ * a ≤ 1 / 50 * a := mul_le_mul_of_nonneg_right hρ a0.le
  have a1 : 49 / 50 * a ≤ a' := by linarith
  have a'0 : 0 < a' := by linarith
  rw [show 1 / a' - 1 / a = (a - a') / (a' * a) by field_simp, abs_div, abs_of_pos (mul_pos a'0 a0), div_le_iff₀ (mul_pos a'0 a0), abs_sub_comm]
  refine ha.trans ?_
  rw [show 21 / 20 * ρ * (1 / a) * (a' * a) = 21 / 20 * ρ * a' by field_simp]
  have := mul_le_mul_of_nonneg_left a1 ρ0
  have := mul_nonneg ρ0 a0.le
  linarith

theorem root_near {a a' ρ : ℝ} (h1 : (1 - ρ) ^ 2 * a ≤ a') (h2 : a' ≤ (1 + ρ) ^ 2 * a) (ρ0 : 0 ≤ ρ) (ρ1 : ρ ≤ 1) : |√a' - √a| ≤ ρ * √a := by
  have k1 := Real.sqrt_le_sqrt h1
  have k2 := Real.sqrt_le_sqrt h2
  rw [Real.sqrt_mul (sq_nonneg _), Real.sqrt_sq (by linarith)] at k1 k2
  rw [abs_le]
  constructor <;> linarith

theorem errors_sum {ρ : ℝ} (ρ0 : 0 ≤ ρ) (hρ : ρ ≤ 1 / 100) :
    ρ + (21 / 20 * ρ + 21 / 20 * ρ + 21 / 20 * ρ * (21 / 20 * ρ)) + ρ * (21 / 20 * ρ + 21 / 20 * ρ + 21 / 20 * ρ * (21 / 20 * ρ)) +
      (ρ + 1 / 10 * ρ + ρ * (1 / 10 * ρ)) +
      (ρ + (21 / 20 * ρ + 21 / 20 * ρ + 21 / 20 * ρ * (21 / 20 * ρ)) + ρ * (21 / 20 * ρ + 21 / 20 * ρ + 21 / 20 * ρ * (21 / 20 * ρ))) *
      (ρ + 1 / 10 * ρ + ρ * (1 / 10 * ρ)) ≤ 5 * ρ := by
  have r2 : ρ * ρ ≤ 1 / 100 * ρ := mul_le_mul_of_nonneg_right hρ ρ0
  have a1 : 21 / 20 * ρ + 21 / 20 * ρ + 21 / 20 * ρ * (21 / 20 * ρ) ≤ 22 / 10 * ρ := by linarith
  have a0 : 0 ≤ 21 / 20 * ρ + 21 / 20 * ρ + 21 / 20 * ρ * (21 / 20 * ρ) := by positivity
  generalize 21 / 20 * ρ + 21 / 20 * ρ + 21 / 20 * ρ * (21 / 20 * ρ) = a at *
  have b1 := mul_le_mul_of_nonneg_left a1 ρ0
  have b2 : ρ + a + ρ * a ≤ 33 / 10 * ρ := by linarith
  have b0 : 0 ≤ ρ + a + ρ * a := by positivity
  generalize ρ + a + ρ * a = b at *
  have c1 : ρ + 1 / 10 * ρ + ρ * (1 / 10 * ρ) ≤ 12 / 10 * ρ := by linarith
  have c0 : 0 ≤ ρ + 1 / 10 * ρ + ρ * (1 / 10 * ρ) := by positivity
  generalize ρ + 1 / 10 * ρ + ρ * (1 / 10 * ρ) = c at *
  have d1 := mul_le_mul b2 c1 c0 (by positivity)
  linarith

/-- Highland's formula as function of path and momentum -/
theorem highland_near {x x' p p' m ρ : ℝ} (p0 : 0 < p) (hx : 1 / 10 ^ 6 ≤ x) (hρ : ρ ≤ 1 / 100) (h1 : |x' - x| ≤ ρ * x) (h2 : |p' - p| ≤ ρ * p) :
    0 < highland x p m ∧ |highland x' p' m - highland x p m| ≤ 5 * ρ * highland x p m := by
  have ρ0 : 0 ≤ ρ := nonneg_of_mul_nonneg_left ((abs_nonneg _).trans h2) p0
  have x0 : 0 < x := lt_of_lt_of_le (by positivity) hx
  have a1 := abs_le.1 h1
  have a2 := abs_le.1 h2
  have kx : ρ * x ≤ 1 / 100 * x := mul_le_mul_of_nonneg_right hρ x0.le
  have kp : ρ * p ≤ 1 / 100 * p := mul_le_mul_of_nonneg_right hρ p0.le
  have x'0 : 0 < x' := by linarith
  have p'0 : 0 < p' := by linarith
  have l6 : Real.log (10 ^ 6) ≤ 139 / 10 := by
    rw [Real.log_pow]
    have := log_ten.2
    push_cast
    linarith
  have l2 : -(139 / 10) ≤ Real.log x := by
    have := Real.log_le_log (by positivity) hx
    rw [one_div, Real.log_inv] at this
    exact (neg_le_neg l6).trans this
  have form : ∀ {x p : ℝ}, 0 < p → highland x p m = 0.0136 * (√(p ^ 2 + m ^ 2) * (1 / p * (1 / p)) * (√x * (1 + 0.038 * Real.log x))) := by
    intro x p p0
    have E0 : 0 < √(p ^ 2 + m ^ 2) := Real.sqrt_pos.2 (by positivity)
    rw [highland, betaSq, Real.sqrt_div (sq_nonneg p), Real.sqrt_sq p0.le]
    field_simp
  have F0 : 47 / 100 ≤ 1 + 0.038 * Real.log x := by
    norm_num
    linarith
  have hF : |(1 + 0.038 * Real.log x') - (1 + 0.038 * Real.log x)| ≤ 1 / 10 * ρ * (1 + 0.038 * Real.log x) := by
    have e : Real.log x' - Real.log x = Real.log (x' / x) := (Real.log_div x'0.ne' x0.ne').symm
    have up : Real.log (x' / x) ≤ 21 / 20 * ρ := by
      refine (Real.log_le_sub_one_of_pos (by positivity)).trans ?_
      rw [sub_le_iff_le_add, div_le_iff₀ x0]
      have := mul_nonneg ρ0 x0.le
      linarith
    have lo : -(21 / 20 * ρ) ≤ Real.log (x' / x) := by
      have := Real.log_le_sub_one_of_pos (show 0 < x / x' by positivity)
      rw [show Real.log (x' / x) = - Real.log (x / x') by rw [Real.log_div x'0.ne' x0.ne', Real.log_div x0.ne' x'0.ne']; ring]
      refine neg_le_neg (this.trans ?_)
      rw [sub_le_iff_le_add, div_le_iff₀ x'0]
      nlinarith [mul_nonneg ρ0 x0.le]
    have k : |Real.log (x' / x)| ≤ 21 / 20 * ρ := abs_le.2 ⟨lo, up⟩
    rw [show (1 + 0.038 * Real.log x') - (1 + 0.038 * Real.log x) = 0.038 * Real.log (x' / x) by rw [← e]; ring, abs_mul,
      abs_of_pos (by norm_num)]
    have := mul_le_mul_of_nonneg_left F0 (show 0 ≤ 1 / 10 * ρ by positivity)
    norm_num at *
    linarith
  have hX : |√x' - √x| ≤ ρ * √x := root_near (by nlinarith [mul_nonneg ρ0 x0.le]) (by nlinarith [mul_nonneg ρ0 x0.le, mul_nonneg (mul_nonneg ρ0 ρ0) x0.le]) ρ0 (by linarith)
  have hE : |√(p' ^ 2 + m ^ 2) - √(p ^ 2 + m ^ 2)| ≤ ρ * √(p ^ 2 + m ^ 2) := by
    have q1 : ((1 - ρ) * p) ^ 2 ≤ p' ^ 2 := pow_le_pow_left₀ (mul_nonneg (by linarith) p0.le) (by linarith) 2
    have q2 : p' ^ 2 ≤ ((1 + ρ) * p) ^ 2 := pow_le_pow_left₀ p'0.le (by linarith) 2
    have q3 : (1 - ρ) ^ 2 * m ^ 2 ≤ m ^ 2 := mul_le_of_le_one_left (sq_nonneg m) (pow_le_one₀ (by linarith) (by linarith))
    have q4 : m ^ 2 ≤ (1 + ρ) ^ 2 * m ^ 2 := le_mul_of_one_le_left (sq_nonneg m) (one_le_pow₀ (by linarith))
    refine root_near ?_ ?_ ρ0 (by linarith)
    · rw [mul_pow] at q1
      linarith
    · rw [mul_pow] at q2
      linarith
  have hp := inv_near h2 p0 (by linarith)
  have E0 : 0 < √(p ^ 2 + m ^ 2) := Real.sqrt_pos.2 (by positivity)
  have X0 : 0 < √x := Real.sqrt_pos.2 x0
  have hpp := prod_near hp hp (by positivity) (by positivity)
  have h3 := prod_near hE hpp E0.le (by positivity)
  have h4 := prod_near hX hF X0.le (by linarith)
  have h5 := prod_near h3 h4 (mul_nonneg E0.le (by positivity)) (mul_nonneg X0.le (by linarith))
  rw [form p0, form p'0]
  have Y0 : 0 < √(p ^ 2 + m ^ 2) * (1 / p * (1 / p)) * (√x * (1 + 0.038 * Real.log x)) := by
    have : 0 < 1 + 0.038 * Real.log x := by linarith
    positivity
  refine ⟨by positivity, ?_⟩
  rw [← mul_sub, abs_mul, abs_of_pos (by norm_num : (0 : ℝ) < 0.0136), mul_left_comm (5 * ρ)]
  refine mul_le_mul_of_nonneg_left (h5.trans (mul_le_mul_of_nonneg_right (b := _) (c := 5 * ρ) ?_ Y0.le)) (by norm_num)
  exact errors_sum ρ0 hρ

theorem cos_le {px py pz nx ny nz : ℝ} (hp : 0 < √(px ^ 2 + py ^ 2 + pz ^ 2)) (hN : nx ^ 2 + ny ^ 2 + nz ^ 2 ≤ (1001 / 1000) ^ 2) :
    crossingCos px py pz nx ny nz ≤ 1001 / 1000 := by
  have e : √(px ^ 2 + py ^ 2 + pz ^ 2) ^ 2 = px ^ 2 + py ^ 2 + pz ^ 2 := by rw [Real.sq_sqrt (by positivity)]
  have cs : (px * nx + py * ny + pz * nz) ^ 2 ≤ (px ^ 2 + py ^ 2 + pz ^ 2) * (nx ^ 2 + ny ^ 2 + nz ^ 2) := by
    nlinarith [sq_nonneg (px * ny - py * nx), sq_nonneg (px * nz - pz * nx), sq_nonneg (py * nz - pz * ny)]
  rw [crossingCos, abs_div, abs_of_pos hp, div_le_iff₀ hp]
  refine abs_le_of_sq_le_sq ?_ (by positivity)
  rw [mul_pow, e]
  refine cs.trans ((mul_le_mul_of_nonneg_left hN (by positivity)).trans (le_of_eq ?_))
  ring

/-- the cosine of the angle between momentum and normal as function of the momentum -/
theorem cos_near {px py pz qx qy qz nx ny nz δ : ℝ} (hp : 0 < √(px ^ 2 + py ^ 2 + pz ^ 2)) (hN : nx ^ 2 + ny ^ 2 + nz ^ 2 ≤ (1001 / 1000) ^ 2)
    (hd : |qx - px| + |qy - py| + |qz - pz| ≤ δ * √(px ^ 2 + py ^ 2 + pz ^ 2)) (hδ : δ ≤ 1 / 20) :
    |crossingCos qx qy qz nx ny nz - crossingCos px py pz nx ny nz| ≤ 22 / 10 * δ := by
  have nn := norm_near (a := qx) (b := qy) (c := qz) (a' := px) (b' := py) (c' := pz)
  obtain ⟨p, hpd⟩ : ∃ p, p = √(px ^ 2 + py ^ 2 + pz ^ 2) := ⟨_, rfl⟩
  obtain ⟨q, hqd⟩ : ∃ q, q = √(qx ^ 2 + qy ^ 2 + qz ^ 2) := ⟨_, rfl⟩
  unfold crossingCos
  rw [← hpd] at hp hd nn ⊢
  rw [← hqd] at nn ⊢
  have d0 : 0 ≤ δ := nonneg_of_mul_nonneg_left (le_trans (by positivity) hd) hp
  have pq := nn.trans hd
  have k : δ * p ≤ 1 / 20 * p := mul_le_mul_of_nonneg_right hδ hp.le
  have pq' := abs_le.1 pq
  have q0 : 19 / 20 * p ≤ q := by linarith
  have q1 : 0 < q := by linarith
  have comp : ∀ t : ℝ, t ^ 2 ≤ nx ^ 2 + ny ^ 2 + nz ^ 2 → |t| ≤ 1001 / 1000 := fun t ht => abs_le_of_sq_le_sq (ht.trans hN) (by norm_num)
  have n1 := comp nx (by nlinarith)
  have n2 := comp ny (by nlinarith)
  have n3 := comp nz (by nlinarith)
  -- the scalar product
  have s1 : |(qx * nx + qy * ny + qz * nz) - (px * nx + py * ny + pz * nz)| ≤ 1001 / 1000 * (δ * p) := by
    rw [show (qx * nx + qy * ny + qz * nz) - (px * nx + py * ny + pz * nz) = (qx - px) * nx + (qy - py) * ny + (qz - pz) * nz by ring]
    have m1 := mul_le_mul_of_nonneg_left n1 (abs_nonneg (qx - px))
    have m2 := mul_le_mul_of_nonneg_left n2 (abs_nonneg (qy - py))
    have m3 := mul_le_mul_of_nonneg_left n3 (abs_nonneg (qz - pz))
    have c1 := abs_add_le ((qx - px) * nx + (qy - py) * ny) ((qz - pz) * nz)
    have c2 := abs_add_le ((qx - px) * nx) ((qy - py) * ny)
    rw [abs_mul] at c1
    rw [abs_mul, abs_mul] at c2
    linarith
  have s2 : |px * nx + py * ny + pz * nz| ≤ 1001 / 1000 * p := by
    have e : p ^ 2 = px ^ 2 + py ^ 2 + pz ^ 2 := by rw [hpd, Real.sq_sqrt (by positivity)]
    refine abs_le_of_sq_le_sq ?_ (by positivity)
    have cs : (px * nx + py * ny + pz * nz) ^ 2 ≤ (px ^ 2 + py ^ 2 + pz ^ 2) * (nx ^ 2 + ny ^ 2 + nz ^ 2) := by
      nlinarith [sq_nonneg (px * ny - py * nx), sq_nonneg (px * nz - pz * nx), sq_nonneg (py * nz - pz * ny)]
    rw [mul_pow, e]
    refine cs.trans ((mul_le_mul_of_nonneg_left hN (by positivity)).trans (le_of_eq ?_))
    ring
  refine (abs_abs_sub_abs_le _ _).trans ?_
  have e : (qx * nx + qy * ny + qz * nz) / q - (px * nx + py * ny + pz * nz) / p =
      (((qx * nx + qy * ny + qz * nz) - (px * nx + py * ny + pz * nz)) * p + (px * nx + py * ny + pz * nz) * (p - q)) / (q * p) := by
    field_simp
    ring
  rw [e, abs_div, abs_of_pos (mul_pos q1 hp), div_le_iff₀ (mul_pos q1 hp)]
  refine (abs_add_le _ _).trans ?_
  rw [abs_mul, abs_mul, abs_of_pos hp, abs_sub_comm p q]
  have m1 := mul_le_mul_of_nonneg_right s1 hp.le
  have m2 := mul_le_mul s2 pq (abs_nonneg _) (by positivity)
  have m3 := mul_le_mul_of_nonneg_left q0 (mul_nonneg d0 hp.le)
  have m4 : 0 ≤ δ * p * p := by positivity
  linarith

end Verif
