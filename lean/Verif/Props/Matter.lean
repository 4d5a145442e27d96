import Verif.Props.Material
import Verif.Spec.Matter
import Mathlib.Analysis.Complex.ExponentialBounds

/-!
# C75-C77: energy loss and multiple scattering against the textbook formulas
-/

noncomputable section

namespace Verif

open Dbl Spec

/-! ## C75 -/

theorem log_sqrt_ratio {p m : ℝ} (hm : 0 < m) (hp : 0 < p) : Real.sqrt (p * p / (m * m)) = p / m := by
  rw [show p * p / (m * m) = (p / m) ^ 2 by rw [div_pow, sq, sq]]
  exact Real.sqrt_sq (div_pos hp hm).le

theorem delR_sternheimer (x I hwp : ℝ) : delR x (-(2 * Real.log (I / hwp) + 1)) = sternheimer I hwp x := by
  unfold delR sternheimer
  by_cases h3 : (3 : ℝ) ≤ x
  · rw [if_pos h3, if_neg (by linarith), if_neg (by linarith)]; ring
  · rw [if_neg h3]
    push Not at h3
    by_cases h0 : 0 ≤ x
    · rw [if_pos h0, if_neg (by linarith), if_pos h3]; ring
    · rw [if_neg h0, if_pos (by push Not at h0; exact h0)]

/-- C75: what the code computes, for all positive material constants, masses and momenta: the Bethe formula with twice the
density correction. -/
theorem C75_value {Z A rho rad m p : ℝ} (hZ : 0 < Z) (hA : 0 < A) (hr : 0 < rho) (hm : 0 < m) (hp : 0 < p) :
    computeBetheBloch ⟨fin Z, fin A, fin rho, fin rad⟩ (fin p) (fin m) =
      fin (bethe Z A (excitation Z) (2 * sternheimer (excitation Z) (plasma rho Z A) (Real.log (p / m) / Real.log 10)) p m) := by
  have h := betheBloch_re (rad := rad) hZ hA hr hm hp
  dsimp only at h
  rw [h, delR_sternheimer, log_sqrt_ratio hm hp]
  congr 1
  have e1 : p * p / (m * m) = (p / m) ^ 2 := by rw [div_pow, sq, sq]
  have e2 : (28.816 : ℝ) * Real.sqrt (rho * Z / A) * 1e-9 = plasma rho Z A := by
    unfold plasma; rw [mul_div_assoc]; ring
  have e3 : (p / m) ^ 2 / (1 + (p / m) ^ 2) = betaSq p m := by
    unfold betaSq
    have : p ^ 2 + m ^ 2 ≠ 0 := by positivity
    have : 1 + (p / m) ^ 2 ≠ 0 := by positivity
    field_simp
    ring
  have hb : betaSq p m ≠ 0 := by unfold betaSq; positivity
  have e4 : (1 + (p / m) ^ 2) / (p / m) ^ 2 = 1 / betaSq p m := by
    rw [← e3, one_div_div]
  rw [e1, e2, e3]
  have e5 : (2 : ℝ) * 0.510998902e-3 * (p / m) ^ 2 / (1 + 0.510998902e-3 / m * (2 * Real.sqrt (1 + (p / m) ^ 2) + 0.510998902e-3 / m)) =
      maxTransfer p m := by
    unfold maxTransfer electronMass
    congr 1
    ring
  rw [e5, show (9.76 * Z + 58.8 * Z ^ (-0.19 : ℝ)) * 1e-9 = excitation Z from rfl]
  unfold bethe
  rw [mul_div_assoc (0.307075e-3 * Z / A), e4]
  unfold electronMass
  rw [sq (excitation Z)]
  ring

/-- C75 (partial): for momenta below the mass, where the density correction vanishes, the code gives the Bethe formula.  Missing:
larger momenta (`C75_false`). -/
theorem C75_slow_partial {Z A rho rad m p : ℝ} (hZ : 0 < Z) (hA : 0 < A) (hr : 0 < rho) (hm : 0 < m) (hp : 0 < p) (h : p < m) :
    computeBetheBloch ⟨fin Z, fin A, fin rho, fin rad⟩ (fin p) (fin m) =
      fin (bethe Z A (excitation Z) (sternheimer (excitation Z) (plasma rho Z A) (Real.log (p / m) / Real.log 10)) p m) := by
  rw [C75_value hZ hA hr hm hp]
  have : sternheimer (excitation Z) (plasma rho Z A) (Real.log (p / m) / Real.log 10) = 0 := by
    unfold sternheimer
    dsimp only
    rw [if_pos]
    exact div_neg_of_neg_of_pos (Real.log_neg (div_pos hp hm) ((div_lt_one hm).mpr h)) (Real.log_pos (by norm_num))
  rw [this, mul_zero]

/-- C75 is false for every material and mass: from some momentum on the code differs from the Bethe formula. -/
theorem C75_false {Z A rho rad m : ℝ} (hZ : 0 < Z) (hA : 0 < A) (hr : 0 < rho) (hm : 0 < m) :
    ∃ p0, ∀ p, p0 < p → computeBetheBloch ⟨fin Z, fin A, fin rho, fin rad⟩ (fin p) (fin m) ≠
      fin (bethe Z A (excitation Z) (sternheimer (excitation Z) (plasma rho Z A) (Real.log (p / m) / Real.log 10)) p m) := by
  set C := 2 * Real.log (excitation Z / plasma rho Z A) + 1
  refine ⟨m * max 1000 (Real.exp (Real.log 10 * C)), fun p hp => ?_⟩
  have hx : max 1000 (Real.exp (Real.log 10 * C)) < p / m := by rw [lt_div_iff₀ hm, mul_comm]; exact hp
  have hx1 : 1000 < p / m := lt_of_le_of_lt (le_max_left _ _) hx
  have hx2 : Real.exp (Real.log 10 * C) < p / m := lt_of_le_of_lt (le_max_right _ _) hx
  have hl10 : 0 < Real.log 10 := Real.log_pos (by norm_num)
  have hx0 : 0 < p / m := by linarith
  have hp0 : 0 < p := by
    have : p = p / m * m := by field_simp
    rw [this]; exact mul_pos hx0 hm
  have h3 : 3 ≤ Real.log (p / m) / Real.log 10 := by
    rw [le_div_iff₀ hl10]
    have : (3 : ℝ) * Real.log 10 = Real.log 1000 := by
      rw [show (1000 : ℝ) = 10 ^ (3 : ℕ) by norm_num, Real.log_pow]; norm_num
    rw [this]
    exact Real.log_le_log (by norm_num) hx1.le
  have hC : C < Real.log (p / m) / Real.log 10 := by
    rw [lt_div_iff₀ hl10, mul_comm]
    exact (Real.lt_log_iff_exp_lt hx0).mpr hx2
  have hs : 0 < sternheimer (excitation Z) (plasma rho Z A) (Real.log (p / m) / Real.log 10) := by
    unfold sternheimer
    dsimp only
    rw [if_neg (by linarith), if_neg (by linarith)]
    linarith
  rw [C75_value hZ hA hr hm hp0]
  generalize sternheimer _ _ _ = δ at hs
  intro h
  have h := (fin_inj _ _).mp h
  unfold bethe at h
  have hb : 0 < betaSq p m := by unfold betaSq; positivity
  have hk : (0 : ℝ) < 0.307075e-3 * (Z / A) / betaSq p m := div_pos (mul_pos (by norm_num) (div_pos hZ hA)) hb
  have := mul_left_cancel₀ hk.ne' h
  linarith

/-- C75: for every material and mass the computed energy loss is negative from some momentum on, so that the particle gains
energy in matter. -/
theorem C75_negative_false {Z A rho rad m : ℝ} (hZ : 0 < Z) (hA : 0 < A) (hr : 0 < rho) (hm : 0 < m) :
    ∃ p0, ∀ p, p0 < p → ∃ d, d < 0 ∧ computeBetheBloch ⟨fin Z, fin A, fin rho, fin rad⟩ (fin p) (fin m) = fin d := by
  set I := excitation Z
  have hI : 0 < I := mul_pos (add_pos (mul_pos (by norm_num) hZ) (mul_pos (by norm_num) (Real.rpow_pos_of_pos hZ _))) (by norm_num)
  set C := 2 * Real.log (I / plasma rho Z A) + 1
  -- the bracket is at most K - log(p/m)/2
  set K := 1 / 2 * Real.log (2 * electronMass * m / I ^ 2) + C with hK
  refine ⟨m * max 1000 (Real.exp (2 * K)), fun p hp => ?_⟩
  have hx : max 1000 (Real.exp (2 * K)) < p / m := by rw [lt_div_iff₀ hm, mul_comm]; exact hp
  have hx1 : 1000 < p / m := lt_of_le_of_lt (le_max_left _ _) hx
  have hx2 : Real.exp (2 * K) < p / m := lt_of_le_of_lt (le_max_right _ _) hx
  set x := p / m with hxdef
  have hx0 : 0 < x := by linarith
  have hp0 : 0 < p := by
    have : p = x * m := by rw [hxdef]; field_simp
    rw [this]; exact mul_pos hx0 hm
  refine ⟨_, ?_, C75_value hZ hA hr hm hp0⟩
  have hl10 : 0 < Real.log 10 := Real.log_pos (by norm_num)
  have hlx : 0 < Real.log x := Real.log_pos (by linarith)
  have he : 0 < electronMass := by unfold electronMass; norm_num
  have hb : 0 < betaSq p m := by unfold betaSq; positivity
  unfold bethe
  refine mul_neg_of_pos_of_neg (div_pos (mul_pos (by norm_num) (div_pos hZ hA)) hb) ?_
  have h3 : 3 ≤ Real.log x / Real.log 10 := by
    rw [le_div_iff₀ hl10]
    have : (3 : ℝ) * Real.log 10 = Real.log 1000 := by
      rw [show (1000 : ℝ) = 10 ^ (3 : ℕ) by norm_num, Real.log_pow]; norm_num
    rw [this]
    exact Real.log_le_log (by norm_num) hx1.le
  have hs : sternheimer I (plasma rho Z A) (Real.log x / Real.log 10) = 4.606 * (Real.log x / Real.log 10) - C := by
    unfold sternheimer
    dsimp only
    rw [if_neg (by linarith), if_neg (by linarith)]
  have hl : Real.log 10 ≤ 2.303 := by
    have h : Real.log 10 = Real.log 2 + Real.log 5 := by
      rw [← Real.log_mul (by norm_num) (by norm_num)]; norm_num
    have := Real.log_two_lt_d9
    have := Real.log_five_lt_d9
    rw [h]; linarith
  have hslope : 2 * Real.log x ≤ 4.606 * (Real.log x / Real.log 10) := by
    rw [mul_div_assoc', le_div_iff₀ hl10]
    nlinarith
  have hT : 2 * electronMass * x ^ 2 * maxTransfer p m / I ^ 2 ≤ 2 * electronMass * m / I ^ 2 * x ^ 3 := by
    have hk : 0 < electronMass / m := div_pos he hm
    have hsq : x ≤ Real.sqrt (1 + x ^ 2) := by
      refine Real.le_sqrt_of_sq_le ?_
      linarith
    have hden : 2 * x * (electronMass / m) ≤ 1 + 2 * Real.sqrt (1 + x ^ 2) * (electronMass / m) + (electronMass / m) ^ 2 := by
      have := mul_le_mul_of_nonneg_right hsq hk.le
      nlinarith [sq_nonneg (electronMass / m)]
    have hden0 : 0 < 2 * x * (electronMass / m) := by positivity
    have hmt : maxTransfer p m ≤ m * x := by
      unfold maxTransfer
      rw [← hxdef]
      calc _ ≤ 2 * electronMass * x ^ 2 / (2 * x * (electronMass / m)) :=
            div_le_div_of_nonneg_left (by positivity) hden0 hden
        _ = m * x := by field_simp
    have : 2 * electronMass * m / I ^ 2 * x ^ 3 = 2 * electronMass * x ^ 2 * (m * x) / I ^ 2 := by ring
    rw [this]
    gcongr
  have hmt0 : 0 < maxTransfer p m := by
    unfold maxTransfer
    rw [← hxdef]
    positivity
  have hlog : Real.log (2 * electronMass * x ^ 2 * maxTransfer p m / I ^ 2) ≤ Real.log (2 * electronMass * m / I ^ 2) + 3 * Real.log x := by
    refine (Real.log_le_log (by positivity) hT).trans ?_
    rw [Real.log_mul (by positivity) (by positivity), Real.log_pow]
    push_cast
    exact le_rfl
  have hfin : 2 * K < Real.log x := (Real.lt_log_iff_exp_lt hx0).mpr hx2
  rw [hs]
  linarith

/-- hypotheses of C75: silicon and a pion of 100 MeV -/
example : ∃ d, computeBetheBloch ⟨fin 14, fin 28.0855, fin 2.33, fin 9.37⟩ (fin 0.1) (fin 0.13957018) = fin d :=
  ⟨_, C75_slow_partial (by norm_num) (by norm_num) (by norm_num) (by norm_num) (by norm_num) (by norm_num)⟩

/-! ## C76 -/

/-- cosine of the angle between momentum and normal, without sign -/
def crossingCos (px py pz nx ny nz : ℝ) : ℝ := |(px * nx + py * ny + pz * nz) / Real.sqrt (px ^ 2 + py ^ 2 + pz ^ 2)|

theorem momentum_r (px py pz : ℝ) : (V3.re px py pz).r = fin (Real.sqrt (px ^ 2 + py ^ 2 + pz ^ 2)) := by
  have h0 : 0 ≤ px * px + py * py + pz * pz := add_nonneg (add_nonneg (mul_self_nonneg _) (mul_self_nonneg _)) (mul_self_nonneg _)
  simp only [V3.r, V3.re, fin_mul, fin_add, sqrt_fin h0, sq]

theorem cosTrk_re {px py pz : ℝ} (nx ny nz : ℝ) (hp : 0 < Real.sqrt (px ^ 2 + py ^ 2 + pz ^ 2)) :
    Dbl.abs ((V3.re px py pz).unit.dot (V3.re nx ny nz)) = fin (crossingCos px py pz nx ny nz) := by
  unfold V3.unit
  rw [momentum_r]
  simp only [V3.re, fin_div _ hp.ne', V3.dot, fin_mul, fin_add, abs_fin, crossingCos]
  congr 2
  field_simp

/-- C76: multiple scattering is Highland's formula for the path in units of radiation lengths, for two layers of material crossed
at an angle; the mass may be zero. -/
theorem C76_highland {s : Surface} {uv : V2} {px py pz nx ny nz m ti tO Xi Xo : ℝ}
    (hn : s.normal (s.localToGlobal uv) = V3.re nx ny nz) (hti : s.innerThickness = fin ti) (hto : s.outerThickness = fin tO)
    (hXi : s.innerMaterial.radLength = fin Xi) (hXo : s.outerMaterial.radLength = fin Xo)
    (ht1 : 0 ≤ ti) (ht2 : 0 ≤ tO) (ht : 0 < ti + tO) (hx1 : 0 < Xi) (hx2 : 0 < Xo)
    (hp : 0 < px ^ 2 + py ^ 2 + pz ^ 2) (hc : px * nx + py * ny + pz * nz ≠ 0) :
    computeQMS s uv (V3.re px py pz) (fin m) =
      fin (highland ((ti / Xi + tO / Xo) / crossingCos px py pz nx ny nz) (Real.sqrt (px ^ 2 + py ^ 2 + pz ^ 2)) m) := by
  have hp' := Real.sqrt_pos.mpr hp
  have hcos : 0 < crossingCos px py pz nx ny nz := abs_pos.mpr (div_ne_zero hc hp'.ne')
  unfold computeQMS
  simp only [hn, hti, hto, hXi, hXo, cosTrk_re nx ny nz hp', momentum_r]
  generalize Real.sqrt (px ^ 2 + py ^ 2 + pz ^ 2) = p at hp'
  generalize crossingCos px py pz nx ny nz = c at hcos
  have hsum : 0 < ti / Xi + tO / Xo := by
    rcases lt_or_eq_of_le ht1 with h | h
    · exact add_pos_of_pos_of_nonneg (div_pos h hx1) (div_nonneg ht2 hx2.le)
    · have : 0 < tO := by linarith
      exact add_pos_of_nonneg_of_pos (div_nonneg ht1 hx1.le) (div_pos this hx2)
  have hE : 0 < p * p + m * m := add_pos_of_pos_of_nonneg (mul_pos hp' hp') (mul_self_nonneg m)
  have hs := Real.sqrt_pos.mpr hE
  have hX : (ti + tO) / c * ((ti / Xi + tO / Xo) / (ti + tO)) = (ti / Xi + tO / Xo) / c := by
    have := ht.ne'
    generalize ti / Xi + tO / Xo = q at *
    field_simp
  simp only [fin_add, fin_div _ hx1.ne', fin_div _ hx2.ne', fin_div _ ht.ne', fin_div _ hcos.ne', fin_mul, sqrt_fin hE.le,
    fin_div _ hs.ne']
  rw [hX]
  have hxpos : 0 < (ti / Xi + tO / Xo) / c := div_pos hsum hcos
  have hpb : p * (p / Real.sqrt (p * p + m * m)) ≠ 0 := (mul_pos hp' (div_pos hp' hs)).ne'
  simp only [ofSci_eq, sqrt_fin hxpos.le, log_fin hxpos, fin_mul, one_eq, fin_add, fin_div _ hpb]
  congr 1
  unfold highland
  have : Real.sqrt (betaSq p m) = p / Real.sqrt (p * p + m * m) := by
    unfold betaSq
    rw [Real.sqrt_div (sq_nonneg p), Real.sqrt_sq hp'.le]
    congr 2
    ring
  rw [this, mul_comm p, mul_one]

/-- C76: the width is positive if the path is longer than 4e-12 radiation lengths (below, Highland's formula is not applicable). -/
theorem C76_positive {x p m : ℝ} (hx : Real.exp (-(1 / 0.038)) < x) (hp : 0 < p) : 0 < highland x p m := by
  have hx0 := (Real.exp_pos _).trans hx
  unfold highland betaSq
  have hb : 0 < Real.sqrt (p ^ 2 / (p ^ 2 + m ^ 2)) := Real.sqrt_pos.mpr (by positivity)
  have hl : -(1 / 0.038) < Real.log x := (Real.lt_log_iff_exp_lt hx0).mpr hx
  have : 0 < 1 + 0.038 * Real.log x := by
    have h2 : (0.038 : ℝ) * -(1 / 0.038) = -1 := by norm_num
    nlinarith
  have := Real.sqrt_pos.mpr hx0
  positivity

/-! ## C77 -/

/-- C77: the energy loss is the sum over both layers of specific loss times density times path, for any normal, momentum and
thickness. -/
theorem C77_sum {s : Surface} {uv : V2} {px py pz nx ny nz m ti tO ri ro di dO : ℝ}
    (hn : s.normal (s.localToGlobal uv) = V3.re nx ny nz) (hti : s.innerThickness = fin ti) (hto : s.outerThickness = fin tO)
    (hri : s.innerMaterial.density = fin ri) (hro : s.outerMaterial.density = fin ro)
    (hdi : computeBetheBloch s.innerMaterial (fin (Real.sqrt (px ^ 2 + py ^ 2 + pz ^ 2))) (fin m) = fin di)
    (hdo : computeBetheBloch s.outerMaterial (fin (Real.sqrt (px ^ 2 + py ^ 2 + pz ^ 2))) (fin m) = fin dO)
    (hp : 0 < px ^ 2 + py ^ 2 + pz ^ 2) (hc : px * nx + py * ny + pz * nz ≠ 0) :
    (computeEnergyLoss s uv (V3.re px py pz) (fin m)).deltaE =
      fin ((di * ri * ti + dO * ro * tO) / crossingCos px py pz nx ny nz) := by
  have hp' := Real.sqrt_pos.mpr hp
  have hcos : 0 < crossingCos px py pz nx ny nz := abs_pos.mpr (div_ne_zero hc hp'.ne')
  unfold computeEnergyLoss
  simp only [hn, hti, hto, hri, hro, cosTrk_re nx ny nz hp', momentum_r, hdi, hdo, fin_div _ hcos.ne', fin_mul, fin_add]
  congr 1
  field_simp

/-- C77 needs a track that is not parallel to the surface: otherwise the path is infinite, and so is the loss. -/
theorem C77_parallel {s : Surface} {uv : V2} {px py pz nx ny nz m ti tO ri ro di dO : ℝ}
    (hn : s.normal (s.localToGlobal uv) = V3.re nx ny nz) (hti : s.innerThickness = fin ti) (hto : s.outerThickness = fin tO)
    (hri : s.innerMaterial.density = fin ri) (hro : s.outerMaterial.density = fin ro)
    (hdi : computeBetheBloch s.innerMaterial (fin (Real.sqrt (px ^ 2 + py ^ 2 + pz ^ 2))) (fin m) = fin di)
    (hdo : computeBetheBloch s.outerMaterial (fin (Real.sqrt (px ^ 2 + py ^ 2 + pz ^ 2))) (fin m) = fin dO)
    (hp : 0 < px ^ 2 + py ^ 2 + pz ^ 2) (hc : px * nx + py * ny + pz * nz = 0)
    (h1 : 0 < ti) (h2 : 0 < tO) (h3 : 0 < di * ri) (h4 : 0 < dO * ro) :
    (computeEnergyLoss s uv (V3.re px py pz) (fin m)).deltaE = .inf false := by
  have hp' := Real.sqrt_pos.mpr hp
  have hcos : crossingCos px py pz nx ny nz = 0 := by unfold crossingCos; rw [hc]; simp
  unfold computeEnergyLoss
  simp only [hn, hti, hto, hri, hro, cosTrk_re nx ny nz hp', momentum_r, hdi, hdo, hcos, fin_mul]
  have g1 : sgn ti = false := by simp [sgn, h1.le]
  have g2 : sgn tO = false := by simp [sgn, h2.le]
  have g3 : sgn (di * ri) = false := by simp [sgn, h3.le]
  have g4 : sgn (dO * ro) = false := by simp [sgn, h4.le]
  rw [fin_div_zero h1.ne', fin_div_zero h2.ne', fin_mul_inf, fin_mul_inf, if_neg h3.ne', if_neg h4.ne', g1, g2, g3, g4]
  rfl

end Verif
