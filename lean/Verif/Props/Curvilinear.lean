import Verif.Model.Utilities
import Verif.Lemmas.Containers
import Verif.Lemmas.Helix
import Verif.Props.Momentum
import Verif.Props.Conversions
import Mathlib.LinearAlgebra.Matrix.Determinant.Basic
import Mathlib.LinearAlgebra.Matrix.Notation
import Mathlib.Analysis.SpecialFunctions.Trigonometric.ArctanDeriv

/-!
# C41: from curvilinear corrections to track parameters
-/

noncomputable section

namespace Verif

open Dbl Matrix Filter Topology

variable {om tl ph d z B : ℝ}

/-- the sign of the field, as in `bfield.unit()` -/
def hs (B : ℝ) : ℝ := B / Real.sqrt (0 * 0 + 0 * 0 + B * B)

theorem hs_eq (hB : B ≠ 0) : hs B = if 0 < B then 1 else -1 := by
  have e : Real.sqrt (0 * 0 + 0 * 0 + B * B) = |B| := by
    rw [← Real.sqrt_mul_self_eq_abs]; congr 1; ring
  unfold hs
  rw [e]
  split_ifs with h
  · rw [abs_of_pos h, div_self hB]
  · rw [abs_of_neg (lt_of_le_of_ne (not_lt.mp h) hB), div_neg, div_self hB]

theorem sqrt_B_ne (hB : B ≠ 0) : Real.sqrt (0 * 0 + 0 * 0 + B * B) ≠ 0 := by
  have : 0 < 0 * 0 + 0 * 0 + B * B := by have := mul_self_pos.mpr hB; linarith
  exact (Real.sqrt_pos.mpr this).ne'

theorem cl2p_aux {C S c s h : ℝ} (h1 : c * c + s * s = 1) :
    let T : V3 := V3.re (c * C) (s * C) S
    let U : V3 := V3.re (-s) c 0
    let V : V3 := V3.re (-c * S) (-s * S) C
    let I := (V3.re s (-c) 0).cross (V3.re 0 0 1)
    let aN := (V3.re 0 0 h).cross T
    U.dot I = fin 0 ∧ aN.dot V = fin 0 ∧ T.dot I = fin (-C) ∧ V.dot I = fin S ∧ aN.dot U = fin (h * C) ∧
      V.dot (V3.re 0 0 1) = fin C := by
  simp only [V3.re, V3.dot, V3.cross, fin_mul, fin_add, fin_sub, fin_inj]
  refine ⟨by ring, by ring, ?_, ?_, ?_, by ring⟩
  · linear_combination (-C) * h1
  · linear_combination S * h1
  · linear_combination (h * C) * h1

/-- the matrix in a solenoidal field, for finite parameters -/
theorem curvilinearToL3_re (hB : B ≠ 0) : curvilinearToL3Jacobian (hpR om tl ph d z) (V3.re 0 0 B) =
    (let C := Real.cos (Real.arctan tl)
     M5.re !![B * kBr / C, -(om * tl), 0, 0, 0;
              0, 1 + tl * tl, 0, 0, 0;
              0, 0, 0, 0, hs B * om * Real.sin (Real.arctan tl);
              0, 0, 0, 1, 0;
              0, 0, 0, 0, 1 / C]) := by
  have hC : Real.cos (Real.arctan tl) ≠ 0 := (Real.cos_arctan_pos tl).ne'
  have htl : tl = Real.sin (Real.arctan tl) / Real.cos (Real.arctan tl) := by
    rw [← Real.tan_eq_sin_div_cos, Real.tan_arctan]
  have hpos : (0 : ℝ) ≤ 1 + tl * tl := by have := mul_self_nonneg tl; linarith
  have hcl : (1 : ℝ) / Real.sqrt (1 + tl * tl) = Real.cos (Real.arctan tl) := by
    rw [Real.cos_arctan, pow_two]
  have hsq : Real.sqrt (1 + tl * tl) ≠ 0 := by
    intro h0; rw [h0, div_zero] at hcl; exact hC hcl.symm
  have h1 : Real.cos ph * Real.cos ph + Real.sin ph * Real.sin ph = 1 := by
    have := Real.cos_sq_add_sin_sq ph; linarith
  have hunit : (V3.re 0 0 B).unit = V3.re 0 0 (hs B) := by
    have hn : (0 : ℝ) ≤ 0 * 0 + 0 * 0 + B * B := by have := mul_self_nonneg B; linarith
    simp only [V3.unit, V3.r, V3.re, fin_mul, fin_add, sqrt_fin hn, fin_div _ (sqrt_B_ne hB), zero_div]
    rfl
  have hcl' : fin 1 / Dbl.sqrt (fin (1 + tl * tl)) = fin (Real.cos (Real.arctan tl)) := by
    rw [sqrt_fin hpos, fin_div _ hsq, hcl]
  obtain ⟨a1, a2, a3, a4, a5, a6⟩ := cl2p_aux (C := Real.cos (Real.arctan tl)) (S := Real.sin (Real.arctan tl)) (h := hs B) h1
  have hC' : -Real.cos (Real.arctan tl) ≠ 0 := neg_ne_zero.mpr hC
  have hmat : curvilinearToPerigeeJacobian (hpR om tl ph d z) (V3.re 0 0 B) =
      (let C := Real.cos (Real.arctan tl)
       M5.re !![-(B * kBr) / C, om * tl, 0, 0, 0;
              0, -1, 0, 0, 0;
              0, 0, 0, 0, hs B * om * Real.sin (Real.arctan tl);
              0, 0, 0, -1, 0;
              0, 0, 0, 0, 1 / C]) := by
    unfold curvilinearToPerigeeJacobian
    simp only [calculateLambda_hpR, calculatePhi0_hpR, calculateCurvature_hpR, hunit, cos_fin, sin_fin, tan_fin hC,
      Real.tan_arctan, fin_mul, fin_add, fin_neg, zero_eq, one_eq, hcl']
    simp only [V3.re] at a1 a2 a3 a4 a5 a6 ⊢
    simp only [a1, a2, a3, a4, a5, a6, convert_eq, fin_mul, fin_neg, fin_div _ hC, fin_div _ hC']
    clear a1 a2 a3 a4 a5 a6 hcl' hcl htl
    generalize Real.sin (Real.arctan tl) = S at *
    generalize Real.cos (Real.arctan tl) = C at *
    funext i j
    fin_cases i <;> fin_cases j <;>
      simp [M5.set, M5.re, M5.zero, M5.unit] <;> field_simp
  unfold curvilinearToL3Jacobian
  rw [hmat, perigeeToL3_re, M5.mul_re]
  congr 1
  ext i j
  rw [Matrix.diagonal_mul]
  fin_cases i <;> fin_cases j <;> (simp; try ring)

/-- A one-parameter family of tracks in a solenoidal field `B`, given by L3 parameters with respect to the fixed reference
point (0,0,0), that realises a curvilinear correction: at "time" t the track with q/p `qop + t*dq` passes, at arc length
`s t`, through the point `t*(x*U + y*V)`, with azimuth `ph0 + t*dp` and dip angle `lam + t*dl`.  (U, V) is the
curvilinear frame of the unperturbed track (C22), which starts at the reference point. -/
structure Corrected (B lam ph0 dq dl dp x y : ℝ) (om tl ph d z s : ℝ → ℝ) : Prop where
  qop : ∃ q0 : ℝ, ∀ᶠ t in 𝓝 0, calculateQoverP (hpR (om t) (tl t) (ph t) (d t) (z t)) (fin B) = fin (q0 + t * dq)
  dip : ∀ᶠ t in 𝓝 0, calculateLambda (hpR (om t) (tl t) (ph t) (d t) (z t)) = fin (lam + t * dl)
  azimuth : ∀ᶠ t in 𝓝 0, ph t - om t * s t = ph0 + t * dp
  point : ∀ᶠ t in 𝓝 0, pointAt (fin (s t)) (hpR (om t) (tl t) (ph t) (d t) (z t)) (V3.re 0 0 0) =
    V3.re (t * (x * -Real.sin ph0 + y * (-Real.cos ph0 * Real.sin lam)))
      (t * (x * Real.cos ph0 + y * (-Real.sin ph0 * Real.sin lam))) (t * (y * Real.cos lam))
  startD : d 0 = 0
  startZ : z 0 = 0
  startS : s 0 = 0

/-- What the derivative of the L3 parameters has to be: for every family that realises a curvilinear correction. -/
theorem corrected_deriv (hB : B ≠ 0) {lam ph0 dq dl dp x y : ℝ} {om tl ph d z s : ℝ → ℝ} {om' tl' ph' d' z' s' : ℝ}
    (F : Corrected B lam ph0 dq dl dp x y om tl ph d z s) (hom : om 0 ≠ 0)
    (h1 : HasDerivAt om om' 0) (h2 : HasDerivAt tl tl' 0) (h3 : HasDerivAt ph ph' 0) (h4 : HasDerivAt d d' 0)
    (h5 : HasDerivAt z z' 0) (h6 : HasDerivAt s s' 0) :
    om' = B * kBr / Real.cos lam * dq + om 0 * Real.tan lam * dl ∧
    tl' = 1 / Real.cos lam ^ 2 * dl ∧
    ph' = dp - om 0 * Real.sin lam * y ∧ d' = x ∧ z' = 1 / Real.cos lam * y := by
  have hlam : Real.arctan (tl 0) = lam := by
    have := F.dip.self_of_nhds
    simpa using this
  have hC : Real.cos lam ≠ 0 := by rw [← hlam]; exact (Real.cos_arctan_pos _).ne'
  have htl0 : tl 0 = Real.tan lam := by rw [← hlam, Real.tan_arctan]
  have hph0 : ph 0 = ph0 := by
    have := F.azimuth.self_of_nhds
    rw [F.startS] at this
    simpa using this
  have lin : ∀ c k : ℝ, HasDerivAt (fun t : ℝ => c + t * k) k 0 := fun c k => by
    simpa using ((hasDerivAt_id (0 : ℝ)).mul_const k).const_add c
  have lin' : ∀ k : ℝ, HasDerivAt (fun t : ℝ => t * k) k 0 := fun k => by
    simpa using (hasDerivAt_id (0 : ℝ)).mul_const k
  -- dip angle
  have etl : tl' = 1 / Real.cos lam ^ 2 * dl := by
    have a : HasDerivAt (fun t => Real.tan (lam + t * dl)) (1 / Real.cos lam ^ 2 * dl) 0 := by
      have := (Real.hasDerivAt_tan (x := lam + 0 * dl) (by simpa using hC)).comp (0 : ℝ) (lin lam dl)
      simpa [Function.comp_def] using this
    have b : tl =ᶠ[𝓝 0] fun t => Real.tan (lam + t * dl) := by
      filter_upwards [F.dip] with t ht
      simp only [calculateLambda_hpR, fin_inj] at ht
      rw [← ht, Real.tan_arctan]
    exact h2.unique (a.congr_of_eventuallyEq b)
  -- curvature
  have eom : om' = B * kBr / Real.cos lam * dq + om 0 * Real.tan lam * dl := by
    obtain ⟨q0, hq⟩ := F.qop
    have b : (fun t => Real.cos (lam + t * dl) * om t) =ᶠ[𝓝 0] fun t => B * kBr * (q0 + t * dq) := by
      filter_upwards [F.dip, hq] with t ht hq
      simp only [calculateLambda_hpR, fin_inj] at ht
      rw [qoverP_re hB, fin_inj, div_eq_iff (mul_ne_zero hB kBr_pos.ne')] at hq
      rw [← ht, hq]; ring
    have a1 : HasDerivAt (fun t => Real.cos (lam + t * dl) * om t) (-Real.sin lam * dl * om 0 + Real.cos lam * om') 0 := by
      have c := (Real.hasDerivAt_cos (lam + 0 * dl)).comp (0 : ℝ) (lin lam dl)
      refine (c.mul h1).congr_deriv ?_
      simp
    have a2 : HasDerivAt (fun t => B * kBr * (q0 + t * dq)) (B * kBr * dq) 0 := (lin q0 dq).const_mul _
    have := a1.unique (a2.congr_of_eventuallyEq b)
    rw [Real.tan_eq_sin_div_cos]
    field_simp
    linarith
  -- position
  have hne : ∀ᶠ t in 𝓝 0, om t ≠ 0 := h1.continuousAt.eventually_ne hom
  have hsin : HasDerivAt (fun t => Real.sin (ph t)) (Real.cos ph0 * ph') 0 := by
    have := (Real.hasDerivAt_sin (ph 0)).comp (0 : ℝ) h3
    rwa [hph0] at this
  have hcos : HasDerivAt (fun t => Real.cos (ph t)) (-Real.sin ph0 * ph') 0 := by
    have := (Real.hasDerivAt_cos (ph 0)).comp (0 : ℝ) h3
    rwa [hph0] at this
  have hsin' : HasDerivAt (fun t => Real.sin (ph0 + t * dp)) (Real.cos ph0 * dp) 0 := by
    have := (Real.hasDerivAt_sin (ph0 + 0 * dp)).comp (0 : ℝ) (lin ph0 dp)
    simpa [Function.comp_def] using this
  have hcos' : HasDerivAt (fun t => Real.cos (ph0 + t * dp)) (-Real.sin ph0 * dp) 0 := by
    have := (Real.hasDerivAt_cos (ph0 + 0 * dp)).comp (0 : ℝ) (lin ph0 dp)
    simpa [Function.comp_def] using this
  have ex : om 0 * (-(d' * Real.sin ph0)) + (Real.cos ph0 * ph' - Real.cos ph0 * dp) =
      om 0 * (x * -Real.sin ph0 + y * (-Real.cos ph0 * Real.sin lam)) := by
    have b : (fun t => om t * -(d t * Real.sin (ph t)) + (Real.sin (ph t) - Real.sin (ph0 + t * dp))) =ᶠ[𝓝 0]
        fun t => om t * (t * (x * -Real.sin ph0 + y * (-Real.cos ph0 * Real.sin lam))) := by
      filter_upwards [F.point, F.azimuth, hne] with t hp ha hn
      rw [pointAt_re hn] at hp
      simp only [V3.re, V3.mk.injEq, fin_inj] at hp
      rw [← hp.1, ← ha, rX, mul_comm (s t)]
      field_simp
      ring
    have a1 : HasDerivAt (fun t => om t * -(d t * Real.sin (ph t)) + (Real.sin (ph t) - Real.sin (ph0 + t * dp)))
        (om 0 * (-(d' * Real.sin ph0)) + (Real.cos ph0 * ph' - Real.cos ph0 * dp)) 0 := by
      refine ((h1.mul (h4.mul hsin).neg).add (hsin.sub hsin')).congr_deriv ?_
      simp [F.startD, hph0]
    have a2 := h1.mul (lin' (x * -Real.sin ph0 + y * (-Real.cos ph0 * Real.sin lam)))
    have := a1.unique (a2.congr_of_eventuallyEq b)
    simpa using this
  have ey : om 0 * (d' * Real.cos ph0) - (-Real.sin ph0 * ph' - -Real.sin ph0 * dp) =
      om 0 * (x * Real.cos ph0 + y * (-Real.sin ph0 * Real.sin lam)) := by
    have b : (fun t => om t * (d t * Real.cos (ph t)) - (Real.cos (ph t) - Real.cos (ph0 + t * dp))) =ᶠ[𝓝 0]
        fun t => om t * (t * (x * Real.cos ph0 + y * (-Real.sin ph0 * Real.sin lam))) := by
      filter_upwards [F.point, F.azimuth, hne] with t hp ha hn
      rw [pointAt_re hn] at hp
      simp only [V3.re, V3.mk.injEq, fin_inj] at hp
      rw [← hp.2.1, ← ha, rY, mul_comm (s t)]
      field_simp
      ring
    have a1 : HasDerivAt (fun t => om t * (d t * Real.cos (ph t)) - (Real.cos (ph t) - Real.cos (ph0 + t * dp)))
        (om 0 * (d' * Real.cos ph0) - (-Real.sin ph0 * ph' - -Real.sin ph0 * dp)) 0 := by
      refine ((h1.mul (h4.mul hcos)).sub (hcos.sub hcos')).congr_deriv ?_
      simp [F.startD, hph0]
    have a2 := h1.mul (lin' (x * Real.cos ph0 + y * (-Real.sin ph0 * Real.sin lam)))
    have := a1.unique (a2.congr_of_eventuallyEq b)
    simpa using this
  have es : ph' - om 0 * s' = dp := by
    have a := (h3.sub (h1.mul h6)).unique ((lin ph0 dp).congr_of_eventuallyEq F.azimuth)
    simpa [F.startS] using a
  have ez : z' + s' * tl 0 = y * Real.cos lam := by
    have b : (fun t => z t + s t * tl t) =ᶠ[𝓝 0] fun t => t * (y * Real.cos lam) := by
      filter_upwards [F.point, hne] with t hp hn
      rw [pointAt_re hn] at hp
      simp only [V3.re, V3.mk.injEq, fin_inj] at hp
      rw [← hp.2.2, rZ]; ring
    have a := (h5.add (h6.mul h2)).unique ((lin' (y * Real.cos lam)).congr_of_eventuallyEq b)
    simpa [F.startS] using a
  have hp2 := Real.sin_sq_add_cos_sq ph0
  have hl2 := Real.sin_sq_add_cos_sq lam
  have ed : d' = x := by
    have : om 0 * d' = om 0 * x := by
      linear_combination (-Real.sin ph0) * ex + Real.cos ph0 * ey + (om 0 * x - om 0 * d') * hp2
    exact mul_left_cancel₀ hom this
  have eph : ph' = dp - om 0 * Real.sin lam * y := by
    linear_combination Real.cos ph0 * ex + Real.sin ph0 * ey + (dp - ph' - om 0 * y * Real.sin lam) * hp2
  have es' : s' = -(Real.sin lam * y) := by
    have : om 0 * s' = om 0 * -(Real.sin lam * y) := by linear_combination eph - es
    exact mul_left_cancel₀ hom this
  refine ⟨eom, etl, eph, ed, ?_⟩
  rw [htl0, es', Real.tan_eq_sin_div_cos] at ez
  field_simp at ez ⊢
  linear_combination ez + y * hl2

/-- the corrections computed by the code -/
theorem computed_correction (hB : B ≠ 0) (om tl ph d z dq dl dp x y : ℝ) :
    M5.mulVec (curvilinearToL3Jacobian (hpR om tl ph d z) (V3.re 0 0 B)) (V5.re ![dq, dl, dp, x, y]) =
      V5.re ![B * kBr / Real.cos (Real.arctan tl) * dq - om * tl * dl, (1 + tl * tl) * dl,
      hs B * om * Real.sin (Real.arctan tl) * y, x, 1 / Real.cos (Real.arctan tl) * y] := by
  simp only [curvilinearToL3_re hB, M5.mulVec_re]
  congr 1
  funext i
  fin_cases i <;> (simp [Matrix.mulVec, dotProduct, Fin.sum_univ_succ]; try ring)

/-- C41, how wrong the rows of omega and phi0 are: a correction of the dip angle by `dl` enters omega with the wrong sign,
the correction of the azimuth `dp` is lost and, for Bz > 0, a correction y of y_t enters phi0 with the wrong sign. -/
theorem C41_deviation (hB : B ≠ 0) {lam ph0 dq dl dp x y : ℝ} {om tl ph d z s : ℝ → ℝ} {om' tl' ph' d' z' s' : ℝ}
    (F : Corrected B lam ph0 dq dl dp x y om tl ph d z s) (hom : om 0 ≠ 0)
    (h1 : HasDerivAt om om' 0) (h2 : HasDerivAt tl tl' 0) (h3 : HasDerivAt ph ph' 0) (h4 : HasDerivAt d d' 0)
    (h5 : HasDerivAt z z' 0) (h6 : HasDerivAt s s' 0) :
    let c := M5.mulVec (curvilinearToL3Jacobian (hpR (om 0) (tl 0) (ph 0) (d 0) (z 0)) (V3.re 0 0 B))
      (V5.re ![dq, dl, dp, x, y])
    c OMEGA = fin (om' - 2 * om 0 * Real.tan lam * dl) ∧
      c PHI0 = fin (ph' - dp + (if 0 < B then 2 else 0) * (om 0 * Real.sin lam * y)) := by
  obtain ⟨e1, e2, e3, e4, e5⟩ := corrected_deriv hB F hom h1 h2 h3 h4 h5 h6
  have hlam : Real.arctan (tl 0) = lam := by
    have := F.dip.self_of_nhds
    simpa using this
  have htl0 : tl 0 = Real.tan lam := by rw [← hlam, Real.tan_arctan]
  intro c
  simp only [c, computed_correction hB, hlam]
  constructor
  · show fin (B * kBr / Real.cos lam * dq - om 0 * tl 0 * dl) = _
    rw [e1, htl0]; congr 1; ring
  · show fin (hs B * om 0 * Real.sin lam * y) = _
    rw [e3, hs_eq hB]
    split_ifs <;> (congr 1; ring)

/-- C41 (partial): the rows of tan(lambda), d0 and z0 are the derivatives of these parameters for every correction; the
row of omega is if the dip angle is not corrected (or tan(lambda) = 0); for Bz < 0 the row of phi0 is, apart from the
correction of the azimuth itself.  Missing for C41: dependence of omega on the dip angle (wrong sign), of phi0 on the
azimuth (lost: `C41_false`), of phi0 on y_t for Bz > 0 (wrong sign). -/
theorem C41_partial (hB : B ≠ 0) {lam ph0 dq dl dp x y : ℝ} {om tl ph d z s : ℝ → ℝ} {om' tl' ph' d' z' s' : ℝ}
    (F : Corrected B lam ph0 dq dl dp x y om tl ph d z s) (hom : om 0 ≠ 0)
    (h1 : HasDerivAt om om' 0) (h2 : HasDerivAt tl tl' 0) (h3 : HasDerivAt ph ph' 0) (h4 : HasDerivAt d d' 0)
    (h5 : HasDerivAt z z' 0) (h6 : HasDerivAt s s' 0) :
    let c := M5.mulVec (curvilinearToL3Jacobian (hpR (om 0) (tl 0) (ph 0) (d 0) (z 0)) (V3.re 0 0 B))
      (V5.re ![dq, dl, dp, x, y])
    c TANL = fin tl' ∧ c D0 = fin d' ∧ c Z0 = fin z' ∧ (dl = 0 ∨ lam = 0 → c OMEGA = fin om') ∧
      (B < 0 ∧ dp = 0 → c PHI0 = fin ph') := by
  obtain ⟨e1, e2, e3, e4, e5⟩ := corrected_deriv hB F hom h1 h2 h3 h4 h5 h6
  have hlam : Real.arctan (tl 0) = lam := by
    have := F.dip.self_of_nhds
    simpa using this
  have hC : Real.cos lam ≠ 0 := by rw [← hlam]; exact (Real.cos_arctan_pos _).ne'
  have htl0 : tl 0 = Real.tan lam := by rw [← hlam, Real.tan_arctan]
  have hl2 := Real.sin_sq_add_cos_sq lam
  intro c
  have hc : c = V5.re ![B * kBr / Real.cos lam * dq - om 0 * tl 0 * dl, (1 + tl 0 * tl 0) * dl,
      hs B * om 0 * Real.sin lam * y, x, 1 / Real.cos lam * y] := by
    simp only [c, computed_correction hB, hlam]
  rw [hc]
  refine ⟨?_, ?_, ?_, ?_, ?_⟩
  · show fin ((1 + tl 0 * tl 0) * dl) = fin tl'
    rw [e2, htl0, fin_inj, Real.tan_eq_sin_div_cos]
    field_simp
    linear_combination dl * hl2
  · show fin x = fin d'
    rw [e4]
  · show fin (1 / Real.cos lam * y) = fin z'
    rw [e5]
  · intro h
    show fin (B * kBr / Real.cos lam * dq - om 0 * tl 0 * dl) = fin om'
    rw [e1, htl0]
    rcases h with h | h
    · rw [h]; simp
    · rw [h]; simp
  · rintro ⟨hb, rfl⟩
    show fin (hs B * om 0 * Real.sin lam * y) = fin ph'
    rw [e3, hs_eq hB, if_neg (not_lt.mpr hb.le)]
    congr 1; ring

/-- C41 as stated is false, for every track and every solenoidal field: a correction of the azimuth is lost (while
rotating the track by t about the reference point changes phi0 by t), and the matrix is singular. -/
theorem C41_false (hB : B ≠ 0) (om tl ph : ℝ) (hom : om ≠ 0) (t : ℝ) :
    M5.mulVec (curvilinearToL3Jacobian (hpR om tl ph 0 0) (V3.re 0 0 B)) (V5.re ![0, 0, t, 0, 0]) = V5.zero ∧
    (∃ J, curvilinearToL3Jacobian (hpR om tl ph 0 0) (V3.re 0 0 B) = M5.re J ∧ Matrix.det J = 0) ∧
    Corrected B (Real.arctan tl) ph 0 0 1 0 0 (fun _ => om) (fun _ => tl) (fun t => ph + t) (fun _ => 0) (fun _ => 0)
      (fun _ => 0) ∧ HasDerivAt (fun t => ph + t) 1 0 := by
  refine ⟨?_, ⟨_, curvilinearToL3_re hB, ?_⟩, ?_, ?_⟩
  · rw [curvilinearToL3_re hB, M5.mulVec_re]
    funext i
    fin_cases i <;> simp [V5.re, V5.zero, Matrix.mulVec, dotProduct, Fin.sum_univ_succ]
  · exact Matrix.det_eq_zero_of_column_eq_zero 2 (fun i => by fin_cases i <;> rfl)
  · refine ⟨⟨Real.cos (Real.arctan tl) * om / (B * kBr), Filter.Eventually.of_forall fun t => ?_⟩, ?_, ?_, ?_, rfl, rfl, rfl⟩
    · rw [qoverP_re hB]; simp
    · exact Filter.Eventually.of_forall fun t => by simp
    · exact Filter.Eventually.of_forall fun t => by simp
    · exact Filter.Eventually.of_forall fun t => by rw [pointAt_re hom]; simp [rX, rY, rZ]
  · simpa using (hasDerivAt_id (0 : ℝ)).const_add ph

/-- families exist for corrections of q/p and x_t -/
theorem corrected_example (hB : B ≠ 0) (ph x dq : ℝ) :
    Corrected B 0 ph dq 0 0 x 0 (fun t => 1 + B * kBr * (t * dq)) (fun _ => 0) (fun _ => ph) (fun t => t * x) (fun _ => 0)
      (fun _ => 0) := by
  have hk := kBr_pos.ne'
  refine ⟨⟨1 / (B * kBr), Filter.Eventually.of_forall fun t => ?_⟩, ?_, ?_, ?_, by simp, rfl, rfl⟩
  · rw [qoverP_re hB]; simp; field_simp
  · exact Filter.Eventually.of_forall fun t => by simp
  · exact Filter.Eventually.of_forall fun t => by simp
  · have hc : ContinuousAt (fun t : ℝ => 1 + B * kBr * (t * dq)) 0 := by fun_prop
    filter_upwards [hc.eventually_ne (by simp : (1 : ℝ) + B * kBr * (0 * dq) ≠ 0)] with t ht
    rw [pointAt_re ht]
    simp [rX, rY, rZ]
    ring_nf

/-- and for corrections of the dip angle -/
theorem corrected_example_dip (hB : B ≠ 0) (ph : ℝ) :
    Corrected B (Real.pi / 4) ph 0 1 0 0 0 (fun t => 1 / Real.cos (Real.pi / 4 + t)) (fun t => Real.tan (Real.pi / 4 + t))
      (fun _ => ph) (fun _ => 0) (fun _ => 0) (fun _ => 0) := by
  have hk := kBr_pos.ne'
  have hpi := Real.pi_pos
  have hev : ∀ᶠ t in 𝓝 (0 : ℝ), -(Real.pi / 2) < Real.pi / 4 + t ∧ Real.pi / 4 + t < Real.pi / 2 := by
    filter_upwards [Ioo_mem_nhds (show -(Real.pi / 4) < 0 by linarith) (show 0 < Real.pi / 4 by linarith)] with t ht
    exact ⟨by linarith [ht.1], by linarith [ht.2]⟩
  refine ⟨⟨1 / (B * kBr), ?_⟩, ?_, ?_, ?_, rfl, rfl, rfl⟩
  · filter_upwards [hev] with t ht
    have hc : Real.cos (Real.pi / 4 + t) ≠ 0 := (Real.cos_pos_of_mem_Ioo ht).ne'
    rw [qoverP_re hB, Real.arctan_tan ht.1 ht.2]
    simp only [fin_inj, mul_zero, add_zero]
    rw [mul_one_div_cancel hc]
  · filter_upwards [hev] with t ht
    simp only [calculateLambda_hpR, Real.arctan_tan ht.1 ht.2, mul_one]
  · exact Filter.Eventually.of_forall fun t => by simp
  · filter_upwards [hev] with t ht
    have hc : Real.cos (Real.pi / 4 + t) ≠ 0 := (Real.cos_pos_of_mem_Ioo ht).ne'
    rw [pointAt_re (one_div_ne_zero hc)]
    simp [rX, rY, rZ]

end Verif
