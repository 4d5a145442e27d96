import Verif.Model.Material
import Verif.Lemmas.Helix
import Mathlib.Analysis.SpecialFunctions.Pow.Continuity
import Mathlib.Analysis.SpecialFunctions.Log.Basic
import Mathlib.Topology.Order.OrderClosed
import Mathlib.Topology.Piecewise

/-!
# C64-C66: material effects
-/

noncomputable section

namespace Verif

open Dbl

/-! ## Algebra valid for all values, including infinities and NaN -/

theorem dadd_comm (a b : Dbl) : a + b = b + a := by
  rcases a with a | a | _ <;> rcases b with b | b | _ <;> try rfl
  · rw [fin_add, fin_add, add_comm]
  · rw [inf_add_inf, inf_add_inf]
    by_cases h : a = b
    · simp [h]
    · rw [if_neg h, if_neg (Ne.symm h)]

theorem dmul_neg (a b : Dbl) : a * (-b) = -(a * b) := by
  rcases a with a | a | _ <;> rcases b with b | b | _ <;> try rfl
  · simp
  · rw [neg_inf, fin_mul_inf, fin_mul_inf]; split <;> simp
  · rw [fin_neg, inf_mul_fin, inf_mul_fin]
    by_cases h : b = 0
    · simp [h]
    · rw [if_neg h, if_neg (neg_ne_zero.mpr h), neg_inf]
      congr 1
      unfold sgn
      rcases lt_or_gt_of_ne h with h' | h' <;> simp [h', not_lt.mpr h'.le]
  · simp

theorem dneg_mul (a b : Dbl) : -a * b = -(a * b) := by
  rcases a with a | a | _ <;> rcases b with b | b | _ <;> try rfl
  · simp
  · rw [fin_neg, fin_mul_inf, fin_mul_inf]
    by_cases h : a = 0
    · simp [h]
    · rw [if_neg h, if_neg (neg_ne_zero.mpr h), neg_inf]
      congr 1
      unfold sgn
      rcases lt_or_gt_of_ne h with h' | h' <;> simp [h', not_lt.mpr h'.le]
  · rw [neg_inf, inf_mul_fin, inf_mul_fin]; split <;> simp
  · simp

theorem dneg_div (a b : Dbl) : -a / b = -(a / b) := by
  rcases a with a | a | _ <;> rcases b with b | b | _ <;> try rfl
  · rw [fin_neg, fin_div_eq, fin_div_eq]
    by_cases hb : b = 0
    · by_cases h : a = 0
      · simp [hb, h]
      · simp only [hb, if_true, neg_eq_zero, h, if_false, neg_inf]
        congr 1
        unfold sgn
        rcases lt_or_gt_of_ne h with h' | h' <;> simp [h', not_lt.mpr h'.le]
    · simp [hb, neg_div]
  · simp
  · simp

theorem dneg_add (a b : Dbl) : -a + -b = -(a + b) := by
  rcases a with a | a | _ <;> rcases b with b | b | _ <;> try rfl
  · simp [add_comm]
  · rw [neg_inf, neg_inf, inf_add_inf, inf_add_inf]
    by_cases h : a = b
    · simp [h]
    · rw [if_neg h, if_neg (by simpa using h), neg_nan]

theorem dabs_neg (a : Dbl) : Dbl.abs (-a) = Dbl.abs a := by
  rcases a with a | a | _ <;> simp

theorem dmul_self_neg (a : Dbl) : -a * -a = a * a := by
  rw [dmul_neg, dneg_mul]
  rcases h : a * a with x | x | _ <;> simp

theorem V3.dot_neg (a b : V3) : a.dot (-b) = -a.dot b := by
  show a.x * (-b.x) + a.y * (-b.y) + a.z * (-b.z) = _
  rw [dmul_neg, dmul_neg, dmul_neg, dneg_add, dneg_add]; rfl

theorem V3.neg_dot (a b : V3) : (-a).dot b = -a.dot b := by
  show (-a.x) * b.x + (-a.y) * b.y + (-a.z) * b.z = _
  rw [dneg_mul, dneg_mul, dneg_mul, dneg_add, dneg_add]; rfl

theorem V3.r_neg (a : V3) : (-a).r = a.r := by
  show Dbl.sqrt ((-a.x) * (-a.x) + (-a.y) * (-a.y) + (-a.z) * (-a.z)) = _
  rw [dmul_self_neg, dmul_self_neg, dmul_self_neg]; rfl

theorem V3.unit_neg (a : V3) : (-a).unit = -a.unit := by
  unfold V3.unit
  rw [V3.r_neg]
  show (⟨(-a.x) / a.r, (-a.y) / a.r, (-a.z) / a.r⟩ : V3) = ⟨-(a.x / a.r), -(a.y / a.r), -(a.z / a.r)⟩
  rw [dneg_div, dneg_div, dneg_div]

/-! ## C64 -/

/-- the surface seen from the other side: opposite normal, inner and outer material and thickness exchanged -/
def Surface.flip (s : Surface) : Surface :=
  { s with
    normal := fun x => -s.normal x
    innerMaterial := s.outerMaterial
    outerMaterial := s.innerMaterial
    innerThickness := s.outerThickness
    outerThickness := s.innerThickness }

/-- C64: multiple scattering does not depend on which side of the surface is called inside; for all values, also infinite and NaN. -/
theorem C64_scattering_flip (s : Surface) (uv : V2) (p : V3) (m : Dbl) :
    computeQMS s.flip uv p m = computeQMS s uv p m := by
  unfold computeQMS Surface.flip
  simp only [V3.dot_neg, dabs_neg, dadd_comm s.outerThickness s.innerThickness,
    dadd_comm (s.outerThickness / s.outerMaterial.radLength)]

/-- C64: nor does the energy loss. -/
theorem C64_energyLoss_flip (s : Surface) (uv : V2) (p : V3) (m : Dbl) :
    computeEnergyLoss s.flip uv p m = computeEnergyLoss s uv p m := by
  unfold computeEnergyLoss Surface.flip
  simp only [V3.dot_neg, dabs_neg]
  rw [dadd_comm (_ * s.outerMaterial.density * _)]

/-- C64: multiple scattering is the same for the opposite momentum. -/
theorem C64_scattering_reversed (s : Surface) (uv : V2) (p : V3) (m : Dbl) :
    computeQMS s uv (-p) m = computeQMS s uv p m := by
  unfold computeQMS
  simp only [V3.unit_neg, V3.neg_dot, dabs_neg, V3.r_neg]

/-- C64: nor does the energy loss depend on the sense of the momentum. -/
theorem C64_energyLoss_reversed (s : Surface) (uv : V2) (p : V3) (m : Dbl) :
    computeEnergyLoss s uv (-p) m = computeEnergyLoss s uv p m := by
  unfold computeEnergyLoss
  simp only [V3.unit_neg, V3.neg_dot, dabs_neg, V3.r_neg]

/-! ## C65 -/

/-- C65: for every finite momentum and positive mass the reported energy and velocity are those of special relativity. -/
theorem C65_energy_beta_partial (s : Surface) (uv : V2) (px py pz : ℝ) {m : ℝ} (hm : 0 < m) :
    ∃ E b : ℝ, (computeEnergyLoss s uv (V3.re px py pz) (fin m)).energy = some (fin E) ∧
      (computeEnergyLoss s uv (V3.re px py pz) (fin m)).beta = some (fin b) ∧
      0 < E ∧ E ^ 2 = px ^ 2 + py ^ 2 + pz ^ 2 + m ^ 2 ∧ 0 ≤ b ∧ b < 1 ∧ (b * E) ^ 2 = px ^ 2 + py ^ 2 + pz ^ 2 := by
  have h0 : 0 ≤ px * px + py * py + pz * pz := add_nonneg (add_nonneg (mul_self_nonneg _) (mul_self_nonneg _)) (mul_self_nonneg _)
  have hr : (V3.re px py pz).r = fin (Real.sqrt (px * px + py * py + pz * pz)) := by
    simp only [V3.r, V3.re, fin_mul, fin_add, sqrt_fin h0]
  have hsq := Real.mul_self_sqrt h0
  have hs0 := Real.sqrt_nonneg (px * px + py * py + pz * pz)
  unfold computeEnergyLoss
  simp only [hr, fin_mul, fin_add]
  rw [hsq]
  generalize Real.sqrt (px * px + py * py + pz * pz) = p at *
  have h1 : 0 < px * px + py * py + pz * pz + m * m := add_pos_of_nonneg_of_pos h0 (mul_pos hm hm)
  rw [sqrt_fin h1.le]
  have hE := Real.sqrt_pos.mpr h1
  have hEE := Real.mul_self_sqrt h1.le
  rw [fin_div _ hE.ne']
  generalize Real.sqrt (px * px + py * py + pz * pz + m * m) = E at *
  refine ⟨E, p / E, rfl, rfl, hE, by linarith [sq E], div_nonneg hs0 hE.le, ?_, ?_⟩
  · rw [div_lt_one hE]
    exact lt_of_mul_self_lt_mul_self₀ hE.le (by rw [hsq, hEE]; linarith [mul_pos hm hm])
  · rw [div_mul_cancel₀ _ hE.ne']; linarith [sq p]

/-- C65 fails for the variant taking track parameters: if the track does not cross the surface within its bounds, the variables
passed for energy and velocity are left as they were, e.g. uninitialised, and 0 is returned. -/
theorem C65_early_return_false (bField : V3 → V3) (s : Surface) (tp : TP) (e b : Option Dbl) (m : Dbl) {h : Hit}
    (hi : intersectWithSurface s tp.hp tp.rp 0 V3.zero 0 true = .ok h) (hf : h.found = false) :
    computeEnergyLossTrack bField s tp e b m = .ok ⟨0, e, b⟩ := by
  unfold computeEnergyLossTrack
  rw [hi, Out.ok_bind, hf]
  rfl

/-- C65 for the variant taking track parameters, where the track crosses the surface: both variables are set. -/
theorem C65_track_partial (bField : V3 → V3) (s : Surface) (tp : TP) (e b : Option Dbl) (m : Dbl) {h : Hit}
    (hi : intersectWithSurface s tp.hp tp.rp 0 V3.zero 0 true = .ok h) (hf : h.found = true) :
    ∃ p uv, computeEnergyLossTrack bField s tp e b m = .ok (computeEnergyLoss s uv p m) ∧
      (computeEnergyLoss s uv p m).energy.isSome ∧ (computeEnergyLoss s uv p m).beta.isSome := by
  unfold computeEnergyLossTrack
  rw [hi, Out.ok_bind, hf]
  exact ⟨_, _, rfl, rfl, rfl⟩

/-- both cases of C65 occur: a surface of unsupported type is never crossed -/
example (tp : TP) (s : Surface) (hs : s.type = SurfaceType.empty) (hc : s.isCone = false) :
    ∃ h, intersectWithSurface s tp.hp tp.rp 0 V3.zero 0 true = .ok h ∧ h.found = false := by
  refine ⟨⟨false, 0, V3.zero⟩, ?_, rfl⟩
  simp [intersectWithSurface, SurfaceType.isZCylinder, SurfaceType.isZPlane, SurfaceType.isZDisk, hs, hc, SurfaceType.empty]

/-! ## C66 -/

/-- the density correction over the reals -/
def delR (x C0 : ℝ) : ℝ := if 3 ≤ x then 4.606 * x + C0 else if 0 ≤ x then 4.606 * x + C0 + -C0 / 27 * (3 - x) ^ 3 else 0

theorem densityCorrection_re (x C0 : ℝ) : densityCorrection (fin x) (fin C0) = fin (delR x C0) := by
  unfold densityCorrection delR
  simp only [ofNat_eq, zero_eq, fin_le, fin_lt, ofSci_eq, fin_mul, fin_add, fin_neg, fin_sub,
    fin_div _ (show (27 : ℝ) ≠ 0 by norm_num)]
  by_cases h3 : (3 : ℝ) ≤ x
  · rw [cif_pos (by exact_mod_cast h3), if_pos h3]
  · rw [cif_neg (by exact_mod_cast h3), if_neg h3]
    by_cases h0 : 0 ≤ x
    · rw [cif_pos ⟨h0, by push Not at h3; exact_mod_cast h3⟩, if_pos h0]
      have hp : 0 < 3 - x := by push Not at h3; linarith
      rw [pow_fin _ hp, fin_mul, fin_add]
      congr 1
      rw [show (3 : ℝ) = ((3 : ℕ) : ℝ) by norm_num, Real.rpow_natCast]
    · rw [cif_neg (fun h => h0 h.1), if_neg h0]

/-- C66: the density correction is a continuous function of x = log10(beta*gamma), for every material constant. -/
theorem C66_continuous_x (C0 : ℝ) : ∃ f : ℝ → ℝ, Continuous f ∧ ∀ x, densityCorrection (fin x) (fin C0) = fin (f x) := by
  refine ⟨fun x => delR x C0, ?_, fun x => densityCorrection_re x C0⟩
  unfold delR
  refine Continuous.if_le (by fun_prop) ?_ continuous_const continuous_id ?_
  · refine Continuous.if_le (by fun_prop) continuous_const continuous_const continuous_id ?_
    intro x hx
    have : x = 0 := hx.symm
    subst this
    norm_num
  · intro x hx
    have : x = 3 := hx.symm
    subst this
    norm_num

/-- the specific energy loss over the reals, for positive momentum -/
theorem betheBloch_re {Z A rho rad m p : ℝ} (hZ : 0 < Z) (hA : 0 < A) (hr : 0 < rho) (hm : 0 < m) (hp : 0 < p) :
    let I := (9.76 * Z + 58.8 * Z ^ (-0.19 : ℝ)) * 1e-9
    let hwp := 28.816 * Real.sqrt (rho * Z / A) * 1e-9
    let bg2 := p * p / (m * m)
    let tmax := 2 * 0.510998902e-3 * bg2 / (1 + 0.510998902e-3 / m * (2 * Real.sqrt (1 + bg2) + 0.510998902e-3 / m))
    computeBetheBloch ⟨fin Z, fin A, fin rho, fin rad⟩ (fin p) (fin m) =
      fin (0.307075e-3 * Z / A * (1 + bg2) / bg2 * (0.5 * Real.log (2 * 0.510998902e-3 * bg2 * tmax / (I * I)) - bg2 / (1 + bg2) -
        delR (Real.log (Real.sqrt bg2) / Real.log 10) (-(2 * Real.log (I / hwp) + 1)))) := by
  intro I hwp bg2 tmax
  have hI : 0 < I := mul_pos (add_pos (mul_pos (by norm_num) hZ) (mul_pos (by norm_num) (Real.rpow_pos_of_pos hZ _))) (by norm_num)
  have hq : 0 < rho * Z / A := div_pos (mul_pos hr hZ) hA
  have hh : 0 < hwp := mul_pos (mul_pos (by norm_num) (Real.sqrt_pos.mpr hq)) (by norm_num)
  have hb : 0 < bg2 := div_pos (mul_pos hp hp) (mul_pos hm hm)
  have hg : 0 < 1 + bg2 := by linarith
  have hden : 0 < 1 + 0.510998902e-3 / m * (2 * Real.sqrt (1 + bg2) + 0.510998902e-3 / m) := by
    have : 0 < 0.510998902e-3 / m := div_pos (by norm_num) hm
    have := Real.sqrt_nonneg (1 + bg2)
    positivity
  have ht : 0 < tmax := div_pos (mul_pos (by norm_num) hb) hden
  have harg : 0 < 2 * 0.510998902e-3 * bg2 * tmax / (I * I) := div_pos (mul_pos (mul_pos (by norm_num) hb) ht) (mul_pos hI hI)
  have hl : Real.log 10 ≠ 0 := (Real.log_pos (by norm_num)).ne'
  have eI : excitationEnergy (fin Z) = fin I := by
    simp only [excitationEnergy, ofSci_eq, fin_neg, pow_fin _ hZ, fin_mul, fin_add, I]
  unfold computeBetheBloch
  simp only [eI, fin_mul, fin_div _ (mul_pos hm hm).ne', fin_div _ hA.ne', ofSci_eq, sqrt_fin hq.le, fin_div _ hm.ne']
  have e1 : p * p / (m * m) = bg2 := rfl
  have e2 : 28.816 * Real.sqrt (rho * Z / A) * 1e-9 = hwp := rfl
  rw [e1, e2]
  simp only [one_eq, ofNat_eq, fin_add, sqrt_fin hb.le, sqrt_fin hg.le, fin_mul, fin_div _ hh.ne', dlog10,
    log_fin (Real.sqrt_pos.mpr hb), fin_div _ hl, log_fin (div_pos hI hh), fin_neg, densityCorrection_re, fin_div _ hden.ne',
    fin_div _ (mul_pos hI hI).ne', fin_div _ hg.ne', fin_div _ hb.ne']
  rw [log_fin harg]
  simp only [fin_mul, fin_sub]

/-- C66: for a material with positive atomic number, mass and density the specific energy loss is a continuous function of
the momentum on all positive momenta. -/
theorem C66_continuous_momentum {Z A rho rad m : ℝ} (hZ : 0 < Z) (hA : 0 < A) (hr : 0 < rho) (hm : 0 < m) :
    ∃ f : ℝ → ℝ, ContinuousOn f (Set.Ioi 0) ∧
      ∀ p, 0 < p → computeBetheBloch ⟨fin Z, fin A, fin rho, fin rad⟩ (fin p) (fin m) = fin (f p) := by
  refine ⟨_, ?_, fun p hp => betheBloch_re (rad := rad) hZ hA hr hm hp⟩
  have hI : 0 < (9.76 * Z + 58.8 * Z ^ (-0.19 : ℝ)) * 1e-9 :=
    mul_pos (add_pos (mul_pos (by norm_num) hZ) (mul_pos (by norm_num) (Real.rpow_pos_of_pos hZ _))) (by norm_num)
  have hdel : ∀ C0, Continuous fun x => delR x C0 := by
    intro C0
    obtain ⟨f, hf, he⟩ := C66_continuous_x C0
    have : (fun x => delR x C0) = f := by
      funext x
      have := he x
      rw [densityCorrection_re] at this
      exact (fin_inj _ _).mp this
    rw [this]; exact hf
  intro p hp
  have hp : 0 < p := hp
  refine ContinuousAt.continuousWithinAt ?_
  generalize (9.76 * Z + 58.8 * Z ^ (-0.19 : ℝ)) * 1e-9 = I at *
  generalize (-(2 * Real.log (I / (28.816 * Real.sqrt (rho * Z / A) * 1e-9)) + 1)) = C0
  have hb : 0 < p * p / (m * m) := div_pos (mul_pos hp hp) (mul_pos hm hm)
  have hme : 0 < 0.510998902e-3 / m := div_pos (by norm_num) hm
  generalize 0.510998902e-3 / m = k at *
  have cb : ContinuousAt (fun p : ℝ => p * p / (m * m)) p := by fun_prop
  have hden : 0 < 1 + k * (2 * Real.sqrt (1 + p * p / (m * m)) + k) := by
    have := Real.sqrt_nonneg (1 + p * p / (m * m))
    positivity
  have cd : ContinuousAt (fun p : ℝ => 1 + k * (2 * Real.sqrt (1 + p * p / (m * m)) + k)) p := by fun_prop
  have ct : ContinuousAt (fun p : ℝ => 2 * 0.510998902e-3 * (p * p / (m * m)) / (1 + k * (2 * Real.sqrt (1 + p * p / (m * m)) + k))) p :=
    (continuousAt_const.mul cb).div cd hden.ne'
  have cl : ContinuousAt (fun p : ℝ => Real.log (2 * 0.510998902e-3 * (p * p / (m * m)) *
      (2 * 0.510998902e-3 * (p * p / (m * m)) / (1 + k * (2 * Real.sqrt (1 + p * p / (m * m)) + k))) / (I * I))) p := by
    refine ContinuousAt.log (((continuousAt_const.mul cb).mul ct).div_const _) ?_
    exact (div_pos (mul_pos (mul_pos (by norm_num) hb) (div_pos (mul_pos (by norm_num) hb) hden)) (mul_pos hI hI)).ne'
  have cx : ContinuousAt (fun p : ℝ => delR (Real.log (Real.sqrt (p * p / (m * m))) / Real.log 10) C0) p := by
    refine ContinuousAt.comp (g := fun x => delR x C0) (hdel C0).continuousAt ?_
    refine ContinuousAt.div_const (ContinuousAt.log cb.sqrt (Real.sqrt_pos.mpr hb).ne') _
  have cg : ContinuousAt (fun p : ℝ => p * p / (m * m) / (1 + p * p / (m * m))) p :=
    cb.div (continuousAt_const.add cb) (by linarith)
  exact ((continuousAt_const.mul (continuousAt_const.add cb)).div cb hb.ne').mul (((continuousAt_const.mul cl).sub cg).sub cx)

/-- hypotheses of C66: silicon and a pion -/
example : (0 : ℝ) < 14 ∧ (0 : ℝ) < 28.0855 ∧ (0 : ℝ) < 2.33 ∧ (0 : ℝ) < 0.13957018 := by norm_num

end Verif
