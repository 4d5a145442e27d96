import Verif.Props.GblPoints
import Verif.Props.Matter

/-!
# A measurement on a disk with material
-/

open Classical

noncomputable section

namespace Verif

open Dbl Traj

namespace Example

/-- a disk at z = 1 of the given thickness -/
def diskT (th : ℝ) : Surface := { diskB fun _ => true with innerThickness := fin th }

/-- transverse momentum of the track -/
def pt : ℝ := 1 * 3 * (0.299792458 * (1 / 100))

theorem pt_pos : 0 < pt := by unfold pt; norm_num

/-- momentum of the track -/
def pp : ℝ := Real.sqrt (2 * pt ^ 2)

theorem pp_pos : 0 < pp := Real.sqrt_pos.mpr (by have := pt_pos; positivity)

theorem mom_eq (fn : ℝ) (xx : V3) : momentumAtPCA env.globalField (hpR 1 1 fn 0 0) xx =
    V3.re (pt * Real.cos fn) (pt * Real.sin fn) (pt * 1) := by
  unfold momentumAtPCA
  simp only [calculatePhi0_hpR, calculateOmega_hpR, calculateTanLambda_hpR, env, envJ, V3.re, one_eq, fin_div _ one_ne_zero,
    abs_fin, convertBr2P_cm, fin_mul, cos_fin, sin_fin, div_one, abs_one, pt]

theorem mom_r (fn : ℝ) : (V3.re (pt * Real.cos fn) (pt * Real.sin fn) (pt * 1)).r = fin pp := by
  have hq : pt * Real.cos fn * (pt * Real.cos fn) + pt * Real.sin fn * (pt * Real.sin fn) + pt * 1 * (pt * 1) = 2 * pt ^ 2 := by
    have := Real.sin_sq_add_cos_sq fn
    linear_combination pt ^ 2 * this
  have := pt_pos
  simp only [V3.r, V3.re, fin_mul, fin_add, hq]
  rw [sqrt_fin (by positivity)]
  rfl

theorem mom_cos (fn : ℝ) : Dbl.abs ((V3.re (pt * Real.cos fn) (pt * Real.sin fn) (pt * 1)).unit.dot (V3.re 0 0 1)) =
    fin (pt / pp) := by
  have h1 := pt_pos
  have h2 := pp_pos
  simp only [V3.unit, mom_r, V3.dot]
  simp only [V3.re, fin_div _ h2.ne', fin_mul, fin_add, abs_fin]
  rw [mul_zero, mul_zero, zero_add, zero_add, mul_one, mul_one, abs_of_pos (div_pos h1 h2)]

/-- the specific energy loss of the track is positive -/
theorem bethe_pos : ∃ b : ℝ, 0 < b ∧ computeBetheBloch mat (fin pp) pionMass = fin b := by
  have hpp : pp ^ 2 = 2 * pt ^ 2 := Real.sq_sqrt (by have := pt_pos; positivity)
  have hlt : pp < 0.13957018 := by
    refine lt_of_pow_lt_pow_left₀ 2 (by norm_num) ?_
    rw [hpp]; unfold pt; norm_num
  have h := C75_slow_partial (Z := 14) (A := 28) (rho := 2) (rad := 9) (m := 0.13957018) (p := pp) (by norm_num) (by norm_num)
      (by norm_num) (by norm_num) pp_pos hlt
  refine ⟨_, ?_, h⟩
  have hδ : Spec.sternheimer (Spec.excitation 14) (Spec.plasma 2 14 28) (Real.log (pp / 0.13957018) / Real.log 10) = 0 := by
    unfold Spec.sternheimer
    dsimp only
    rw [if_pos]
    exact div_neg_of_neg_of_pos (Real.log_neg (div_pos pp_pos (by norm_num)) ((div_lt_one (by norm_num)).mpr hlt))
      (Real.log_pos (by norm_num))
  rw [hδ]
  have hx : (pp / 0.13957018) ^ 2 = 2 * pt ^ 2 / 0.13957018 ^ 2 := by rw [div_pow, hpp]
  have hxl : 0.008 < (pp / 0.13957018) ^ 2 := by rw [hx]; unfold pt; norm_num
  have hxu : (pp / 0.13957018) ^ 2 < 0.009 := by rw [hx]; unfold pt; norm_num
  have hb : 0 < Spec.betaSq pp 0.13957018 := by unfold Spec.betaSq; have := pp_pos; positivity
  have hb1 : Spec.betaSq pp 0.13957018 < 1 := by
    unfold Spec.betaSq
    have := pp_pos
    rw [div_lt_one (by positivity)]
    norm_num
  have hI0 : 0 < Spec.excitation 14 := by
    have := Real.rpow_pos_of_pos (show (0 : ℝ) < 14 by norm_num) (-0.19)
    unfold Spec.excitation
    positivity
  have hI : Spec.excitation 14 ≤ 2e-7 := by
    have := Real.rpow_le_one_of_one_le_of_nonpos (show (1 : ℝ) ≤ 14 by norm_num) (show (-0.19 : ℝ) ≤ 0 by norm_num)
    unfold Spec.excitation
    linarith
  have hT : 1e-6 ≤ Spec.maxTransfer pp 0.13957018 := by
    unfold Spec.maxTransfer
    generalize (pp / 0.13957018) ^ 2 = y at *
    have hs : Real.sqrt (1 + y) ≤ 2 := Real.sqrt_le_iff.mpr ⟨by norm_num, by linarith⟩
    have hs0 := Real.sqrt_nonneg (1 + y)
    unfold Spec.electronMass
    have hk : (0.510998902e-3 : ℝ) / 0.13957018 ≤ 0.004 := by norm_num
    have hk0 : (0 : ℝ) ≤ 0.510998902e-3 / 0.13957018 := by norm_num
    generalize (0.510998902e-3 : ℝ) / 0.13957018 = k at *
    have hd : 1 + 2 * Real.sqrt (1 + y) * k + k ^ 2 ≤ 2 := by nlinarith
    have hd0 : 0 < 1 + 2 * Real.sqrt (1 + y) * k + k ^ 2 := by positivity
    rw [le_div_iff₀ hd0]
    nlinarith
  have hlog : 4 ≤ Real.log (2 * Spec.electronMass * (pp / 0.13957018) ^ 2 * Spec.maxTransfer pp 0.13957018 / Spec.excitation 14 ^ 2) := by
    rw [Real.le_log_iff_exp_le (by have := pp_pos; unfold Spec.electronMass; positivity)]
    have he : Real.exp 4 ≤ 81 := by
      have := Real.exp_one_lt_d9
      have h4 : Real.exp 4 = Real.exp 1 ^ 4 := by rw [← Real.exp_nat_mul]; norm_num
      rw [h4]
      calc Real.exp 1 ^ 4 ≤ 3 ^ 4 := by gcongr; linarith
        _ = 81 := by norm_num
    refine he.trans ?_
    rw [le_div_iff₀ (by positivity)]
    have h1 : Spec.excitation 14 ^ 2 ≤ (2e-7) ^ 2 := by gcongr
    have h2 : 2 * 0.510998902e-3 * 0.008 * 1e-6 ≤
        2 * Spec.electronMass * (pp / 0.13957018) ^ 2 * Spec.maxTransfer pp 0.13957018 := by
      unfold Spec.electronMass; gcongr
    refine le_trans ?_ h2
    calc 81 * Spec.excitation 14 ^ 2 ≤ 81 * (2e-7) ^ 2 := by gcongr
      _ ≤ _ := by norm_num
  unfold Spec.bethe
  refine mul_pos (div_pos (by norm_num) hb) ?_
  linarith

/-- the energy loss is proportional to the thickness -/
theorem loss_thick (xx : V3) (uv : V2) : ∃ c : ℝ, 0 < c ∧ ∀ fn th : ℝ, 1 - c * th ≠ 0 →
    lossHp (diskT th) uv (momentumAtPCA env.globalField (hpR 1 1 fn 0 0) xx) pionMass (hpR 1 1 fn 0 0) =
      hpR (1 / (1 - c * th)) 1 fn 0 0 := by
  obtain ⟨b, hb0, hb⟩ := bethe_pos
  have hE : 0 < pp * pp + 0.13957018 * 0.13957018 := by have := pp_pos; positivity
  have hE' : Real.sqrt (pp * pp + 0.13957018 * 0.13957018) ≠ 0 := (Real.sqrt_pos.mpr hE).ne'
  have hpr : pt / pp ≠ 0 := (div_pos pt_pos pp_pos).ne'
  refine ⟨b * 2 / (pt / pp) / Real.sqrt (pp * pp + 0.13957018 * 0.13957018), ?_, ?_⟩
  · have := pt_pos
    have := pp_pos
    have := Real.sqrt_pos.mpr hE
    positivity
  intro fn th hth
  unfold lossHp
  rw [mom_eq]
  have hd : (computeEnergyLoss (diskT th) uv (V3.re (pt * Real.cos fn) (pt * Real.sin fn) (pt * 1)) pionMass).deltaE =
      fin (b * 2 * (th / (pt / pp))) := by
    unfold computeEnergyLoss
    simp only [mom_r, show (diskT th).innerMaterial = mat from rfl, show (diskT th).outerMaterial = mat from rfl, hb,
      show (diskT th).innerThickness = fin th from rfl, show (diskT th).outerThickness = fin 0 from rfl,
      show ∀ x, (diskT th).normal x = V3.re 0 0 1 from fun _ => rfl, mom_cos, fin_div _ hpr, show mat.density = fin 2 from rfl,
      fin_mul, fin_add]
    simp
  rw [hd, mom_r]
  funext i
  by_cases hi : i = OMEGA
  · subst hi
    simp only [V5.set, if_true, pionMass, ofSci_eq, fin_mul, fin_add]
    rw [sqrt_fin hE.le, fin_div _ hE', one_eq, fin_sub]
    have he : b * 2 * (th / (pt / pp)) / Real.sqrt (pp * pp + 0.13957018 * 0.13957018) =
        b * 2 / (pt / pp) / Real.sqrt (pp * pp + 0.13957018 * 0.13957018) * th := by ring
    rw [he]
    show fin 1 / fin _ = fin _
    rw [fin_div _ hth]
  · simp only [V5.set, hi, if_false]
    fin_cases i
    · exact absurd rfl hi
    all_goals rfl

/-- multiple scattering in a disk that is thick enough -/
theorem qms_thick (fn th : ℝ) (xx : V3) (uv : V2) (h : 9 < th) : ∃ q : ℝ, 0 < q ∧
    computeQMS (diskT th) uv (momentumAtPCA env.globalField (hpR 1 1 fn 0 0) xx) pionMass = fin q := by
  have h1 := pt_pos
  have h2 := pp_pos
  have hth : 0 < th := by linarith
  have hE : 0 < pp * pp + 0.13957018 * 0.13957018 := by positivity
  have hE' : 0 < Real.sqrt (pp * pp + 0.13957018 * 0.13957018) := Real.sqrt_pos.mpr hE
  have hpr : 0 < pt / pp := div_pos h1 h2
  have hle : pt / pp ≤ 1 := by
    rw [div_le_one h2]
    exact Real.le_sqrt_of_sq_le (by nlinarith)
  have hx : 1 < th / (pt / pp) * (th / 9 / th) := by
    have e : th / (pt / pp) * (th / 9 / th) = th / 9 / (pt / pp) := by field_simp
    rw [e, lt_div_iff₀ hpr]
    linarith
  have hx0 : 0 < th / (pt / pp) * (th / 9 / th) := by linarith
  refine ⟨0.0136 / (pp * (pp / Real.sqrt (pp * pp + 0.13957018 * 0.13957018))) * 1 * Real.sqrt (th / (pt / pp) * (th / 9 / th)) *
    (1 + 0.038 * Real.log (th / (pt / pp) * (th / 9 / th))), ?_, ?_⟩
  · have hl := Real.log_pos hx
    positivity
  · unfold computeQMS
    rw [mom_eq]
    simp only [mom_r, show (diskT th).innerMaterial = mat from rfl, show (diskT th).outerMaterial = mat from rfl,
      show (diskT th).innerThickness = fin th from rfl, show (diskT th).outerThickness = fin 0 from rfl,
      show ∀ x, (diskT th).normal x = V3.re 0 0 1 from fun _ => rfl, mom_cos, fin_div _ hpr.ne',
      show mat.radLength = fin 9 from rfl, fin_mul, fin_add, fin_div _ (show (9 : ℝ) ≠ 0 by norm_num), zero_div, add_zero,
      fin_div _ hth.ne', pionMass, ofSci_eq, sqrt_fin hE.le, fin_div _ hE'.ne', sqrt_fin hx0.le, log_fin hx0, one_eq,
      fin_div _ (mul_pos h2 (div_pos h2 hE')).ne']

/-- a measurement on the thick disk can be added to the track; the curvature of the new element -/
theorem added_at (pos : V3) (prec : List Dbl) (id : ℕ) (sc : Bool) : ∃ c fn : ℝ, 0 < c ∧ Real.cos fn = Real.cos 1 ∧
    ∀ th : ℝ, 1 - c * th ≠ 0 → ∃ e, (make tp).step env (.measurement pos prec (diskT th) id sc) =
      ({ (make tp).withStart with elems := (make tp).withStart.elems ++ [e] }, .ok true) ∧
    e.tp.hp = hpR (1 / (1 - c * th)) 1 fn 0 0 := by
  obtain ⟨fn, k, hfn, -, -, h5⟩ := move_to_track (om := 1) (tl := 1) (ph := 0) (d := 0) (z := 0) (rx := 0) (ry := 0) (rz := 0)
    (sv := 1) M5.zero one_ne_zero (by rw [mul_one, abs_one]; linarith [Real.pi_gt_three])
  obtain ⟨hit, h1, h2, h3, h4⟩ := disk_hit (ib := fun _ => true) 0 0 1 one_pos false (fun h => by cases h)
  rw [← h4] at h5
  obtain ⟨c, hc0, hc⟩ := loss_thick hit.xx (disk.globalToLocal pos)
  have hcos : Real.cos fn = Real.cos 1 := by
    rw [hfn, Real.cos_add_int_mul_two_pi, zero_sub, mul_one, Real.cos_neg]
  refine ⟨c, fn, hc0, hcos, fun th hct => ?_⟩
  obtain ⟨proj, h6⟩ := proj_ok fn (1 / (1 - c * th))
  have hl := hc fn th hct
  have hw : (make tp).withStart = ⟨tp, [Element.start (fin 0) tp 0], [], pionMass⟩ := by
    unfold withStart
    rw [if_pos (show (make tp).elems = [] from rfl)]
    simp only [addElement, make, List.nil_append]
    rw [show calculateSfromXY V3.zero.x V3.zero.y tp.hp tp.rp = fin 0 from start_zero]
  have hs : ∃ e, measurementElement env pionMass (Element.start (fin 0) tp 0) pos prec (diskT th) id sc = .ok (some e) ∧
      e.tp.hp = hpR (1 / (1 - c * th)) 1 fn 0 0 := by
    unfold lossHp at hl
    unfold measurementElement
    simp only [Element.start]
    have h1' : intersectWithSurface (diskT th) tp.hp tp.rp 0 V3.zero 1 false = .ok hit := h1
    have h5' : moveHelixTo tp hit.xx false = _ := h5
    rw [h1', Out.ok_bind, if_pos h2, h5', Out.ok_bind]
    have hl' : V5.set (hpR 1 1 fn 0 0) OMEGA (hpR 1 1 fn 0 0 OMEGA / (1 - (computeEnergyLoss (diskT th)
      ((diskT th).globalToLocal pos) (momentumAtPCA env.globalField (hpR 1 1 fn 0 0) hit.xx) pionMass).deltaE / _)) = _ := hl
    simp only [computeEnergyLoss] at hl' ⊢
    rw [hl']
    simp only [Element.make]
    have h6' : calculateLocalToMeasurementProjectionMatrix (calculateLocalCurvilinearSystem 0 (hpR (1 / (1 - c * th)) 1 fn 0 0)).1
      (calculateLocalCurvilinearSystem 0 (hpR (1 / (1 - c * th)) 1 fn 0 0)).2 [(diskT th).u pos, (diskT th).v pos] = .ok proj := h6
    rw [h6', Out.ok_bind]
    exact ⟨_, rfl, rfl⟩
  obtain ⟨e, q1, q2⟩ := hs
  refine ⟨e, ?_, q2⟩
  simp only [step, addMeasurement, hw, List.getLast?_singleton, q1, append]

/-- a measurement on the thick disk can be added to the track, for a thickness with positive scattering -/
theorem added_thick (pos : V3) (prec : List Dbl) (id : ℕ) (sc : Bool) : ∃ th : ℝ, 9 < th ∧
    ((make tp).step env (.measurement pos prec (diskT th) id sc)).2 = .ok true := by
  obtain ⟨c, fn, -, -, hc⟩ := added_at pos prec id sc
  obtain ⟨th, ht, hct⟩ : ∃ th : ℝ, 9 < th ∧ 1 - c * th ≠ 0 := by
    by_cases h : 1 - c * 10 = 0
    · exact ⟨11, by norm_num, fun h' => by linarith⟩
    · exact ⟨10, by norm_num, h⟩
  obtain ⟨e, he, -⟩ := hc th hct
  exact ⟨th, ht, by rw [he]⟩

end Example

open Example

/-- C52 is false: a one-dimensional measurement on a disk with material; the second precision handed to the fitter is
positive instead of 0. -/
theorem C52_false (pos : V3) (p : Dbl) (id : ℕ) (j : M5) :
    ∃ (surf : Surface) (e : Element) (pt : GblPoint) (P : Fin 2 → Fin 2 → Dbl) (R : Fin 2 → Dbl) (q : ℝ),
      ((make tp).step env (.measurement pos [p] surf id true)).2 = .ok true ∧
      ((make tp).step env (.measurement pos [p] surf id true)).1.elems = (make tp).withStart.elems ++ [e] ∧
      gblPoint { e with jac := some j } = .ok pt ∧ pt.meas = some (P, R, ![p, fin q]) ∧ 0 < q := by
  obtain ⟨th, h9, hadd⟩ := added_thick pos [p] id true
  obtain ⟨back, e, hit, tp', w, r1, r2, r3, r4, r5⟩ := C52_second_false hadd
  obtain ⟨pt, s1, s2⟩ := r5 j
  obtain ⟨P, hP⟩ := s2.meas
  have hb : back = Element.start (fin 0) tp 0 := by
    have hw : (make tp).withStart.elems = [Element.start (fin 0) tp 0] := by
      unfold withStart
      rw [if_pos (show (make tp).elems = [] from rfl)]
      simp only [addElement, make, List.nil_append]
      rw [show calculateSfromXY V3.zero.x V3.zero.y tp.hp tp.rp = fin 0 from start_zero]
    rw [hw] at r1
    simpa using r1.symm
  subst hb
  obtain ⟨hit', h1, h2, h3, h4⟩ := disk_hit (ib := fun _ => true) 0 0 1 one_pos false (fun h => by cases h)
  have hh : hit = hit' := by
    have : intersectWithSurface (diskT th) tp.hp tp.rp 0 V3.zero 1 false = .ok hit' := h1
    have r3' : intersectWithSurface (diskT th) tp.hp tp.rp 0 V3.zero 1 false = .ok hit := r3
    rw [this] at r3'
    injection r3' with r3'
    exact r3'.symm
  subst hh
  obtain ⟨fn, k, -, -, -, h5⟩ := move_to_track (om := 1) (tl := 1) (ph := 0) (d := 0) (z := 0) (rx := 0) (ry := 0) (rz := 0)
    (sv := 1) M5.zero one_ne_zero (by rw [mul_one, abs_one]; linarith [Real.pi_gt_three])
  rw [← h4] at h5
  have h5' : moveHelixTo tp hit.xx false = _ := h5
  have r4' : moveHelixTo tp hit.xx false = .ok (tp', w) := r4
  rw [h5'] at r4'
  injection r4' with r4'
  injection r4' with r4' _
  subst r4'
  obtain ⟨q, hq, hqe⟩ := qms_thick fn th hit.xx ((diskT th).globalToLocal hit.xx) h9
  have : hitQMS env (make tp).mass (diskT th) hit ⟨M5.zero, hpR 1 1 fn 0 0, hit.xx⟩ = fin q := hqe
  rw [this, fin_mul] at hP
  exact ⟨diskT th, e, pt, P, _, q * q, hadd, r2, s1, hP, mul_pos hq hq⟩

end Verif
