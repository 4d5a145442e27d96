import Verif.Model.SurfaceIntersection
import Verif.Props.HelixGeometry
import Verif.Spec.Plane
import Verif.Spec.Selection

/-! Helper lemmas: candidate points of the cylinder and plane intersections. -/

noncomputable section

namespace Verif

open Dbl Spec

variable {om tl ph d z rx ry rz : ℝ}

/-- a point of the track circle other than the one opposite to the starting point belongs to a path
length within half a turn -/
theorem circle_point (h : om ≠ 0) (hph : |ph| ≤ 2 * Real.pi) {x y : ℝ}
    (hon : (x - rCx om ph d rx) ^ 2 + (y - rCy om ph d ry) ^ 2 = (1 / om) ^ 2)
    (hopp : ¬ (x = rX om ph d rx (Real.pi / om) ∧ y = rY om ph d ry (Real.pi / om))) :
    ∃ s : ℝ, |om * s| < Real.pi ∧ rX om ph d rx s = x ∧ rY om ph d ry s = y := by
  have hpi : Real.pi / om * om = Real.pi := by field_simp
  obtain ⟨s, w, -, h2, h3⟩ := C12_inverse_xy om 0 ph d 0 rx ry 0 h hph x y (rCx om ph d rx)
    (rCy om ph d ry) |1 / om| (rx - d * Real.sin ph) (ry + d * Real.cos ph) (calculateXCenter_re h)
    (calculateYCenter_re h) (calculateRadius_re h) calculateX0_re calculateY0_re (by rw [hon, sq_abs])
    (by
      rintro ⟨h1, h2⟩
      apply hopp
      constructor
      · have e := rX_center (om := om) (ph := ph) (d := d) (rx := rx) (s := Real.pi / om)
        rw [hpi, Real.sin_sub_pi] at e
        have e2 : rx - d * Real.sin ph - rCx om ph d rx = -(1 / om) * Real.sin ph := by unfold rCx; ring
        rw [e2] at h1
        linarith
      · have e := rY_center (om := om) (ph := ph) (d := d) (ry := ry) (s := Real.pi / om)
        rw [hpi, Real.cos_sub_pi] at e
        have e2 : ry + d * Real.cos ph - rCy om ph d ry = (1 / om) * Real.cos ph := by unfold rCy; ring
        rw [e2] at h2
        linarith)
  rw [pointAt_re h] at h3
  simp only [V3.re, V3.mk.injEq, fin_inj] at h3
  exact ⟨s, h2, h3.1, h3.2.1⟩

/-- within half a turn the transverse position determines the path length -/
theorem path_unique (h : om ≠ 0) (hph : |ph| ≤ 2 * Real.pi) {s s' : ℝ} (hs : |om * s| < Real.pi)
    (hs' : |om * s'| < Real.pi) (hx : rX om ph d rx s = rX om ph d rx s')
    (hy : rY om ph d ry s = rY om ph d ry s') : s = s' := by
  have h1 := calculateSfromXY_track (tl := 0) (d := d) (z := 0) (rx := rx) (ry := ry) (rz := 0) h hph hs
  have h2 := calculateSfromXY_track (tl := 0) (d := d) (z := 0) (rx := rx) (ry := ry) (rz := 0) h hph hs'
  rw [hx, hy, h2, fin_inj] at h1
  exact h1.symm

/-- every track point is on the circle -/
theorem on_circle (s : ℝ) :
    (rX om ph d rx s - rCx om ph d rx) ^ 2 + (rY om ph d ry s - rCy om ph d ry) ^ 2 = (1 / om) ^ 2 := by
  rw [rX_center, rY_center]
  have := Real.sin_sq_add_cos_sq (ph - s * om)
  linear_combination (1 / om) ^ 2 * this

/-! ## cylinder -/

/-- sine offset -/
def cSox (om ph d rx a : ℝ) : ℝ := Real.sin ph - om * (a - (rx - d * Real.sin ph))
/-- cosine offset -/
def cCoy (om ph d ry b : ℝ) : ℝ := Real.cos ph + om * (b - (ry + d * Real.cos ph))
/-- numerator of gamma -/
def cNum (om ph d rx ry a b rho : ℝ) : ℝ :=
  2 * (a - (rx - d * Real.sin ph)) * Real.sin ph - 2 * (b - (ry + d * Real.cos ph)) * Real.cos ph - om * rho * rho -
    om * ((a - (rx - d * Real.sin ph)) * (a - (rx - d * Real.sin ph)) +
      (b - (ry + d * Real.cos ph)) * (b - (ry + d * Real.cos ph)))
/-- root -/
def cK (om ph d rx ry a b : ℝ) : ℝ :=
  Real.sqrt (cSox om ph d rx a * cSox om ph d rx a + cCoy om ph d ry b * cCoy om ph d ry b)
/-- gamma -/
def cGam (om ph d rx ry a b rho : ℝ) : ℝ := cNum om ph d rx ry a b rho / (2 * rho * cK om ph d rx ry a b)
/-- phirho -/
def cPhi (om ph d rx ry a b : ℝ) : ℝ := ratan2 (cSox om ph d rx a) (cCoy om ph d ry b)

variable {a b c rho : ℝ}

theorem cSox_eq (h : om ≠ 0) : cSox om ph d rx a = om * (rCx om ph d rx - a) := by
  unfold cSox rCx; field_simp; ring

theorem cCoy_eq (h : om ≠ 0) : cCoy om ph d ry b = -(om * (rCy om ph d ry - b)) := by
  unfold cCoy rCy; field_simp; ring

theorem cNum_eq (h : om ≠ 0) : cNum om ph d rx ry a b rho =
    -om * ((rCx om ph d rx - a) ^ 2 + (rCy om ph d ry - b) ^ 2 + rho ^ 2 - (1 / om) ^ 2) := by
  have h1 : Real.sin ph ^ 2 + Real.cos ph ^ 2 = 1 := Real.sin_sq_add_cos_sq ph
  unfold cNum rCx rCy
  generalize Real.sin ph = σ at *
  generalize Real.cos ph = κ at *
  field_simp
  linear_combination h1

theorem cK_pos (h : om ≠ 0) (hD : ¬ (rCx om ph d rx = a ∧ rCy om ph d ry = b)) :
    0 < cK om ph d rx ry a b := by
  unfold cK
  rw [cSox_eq h, cCoy_eq h]
  apply Real.sqrt_pos.mpr
  have h0 : 0 ≤ om * (rCx om ph d rx - a) * (om * (rCx om ph d rx - a)) := mul_self_nonneg _
  have h1 : 0 ≤ -(om * (rCy om ph d ry - b)) * -(om * (rCy om ph d ry - b)) := mul_self_nonneg _
  by_contra hc
  push Not at hc
  apply hD
  constructor
  · have : om * (rCx om ph d rx - a) * (om * (rCx om ph d rx - a)) = 0 := by linarith
    have := mul_self_eq_zero.mp this
    have := (mul_eq_zero.mp this).resolve_left h
    linarith
  · have : -(om * (rCy om ph d ry - b)) * -(om * (rCy om ph d ry - b)) = 0 := by linarith
    have := neg_eq_zero.mp (mul_self_eq_zero.mp this)
    have := (mul_eq_zero.mp this).resolve_left h
    linarith

theorem sin_cPhi (om ph d rx ry a b : ℝ) : Real.sin (cPhi om ph d rx ry a b) = cSox om ph d rx a / cK om ph d rx ry a b := by
  unfold cPhi cK
  rw [sin_ratan2]
  congr 2
  ring

theorem cos_cPhi (h : om ≠ 0) (hD : ¬ (rCx om ph d rx = a ∧ rCy om ph d ry = b)) :
    Real.cos (cPhi om ph d rx ry a b) = cCoy om ph d ry b / cK om ph d rx ry a b := by
  have hK := cK_pos (rx := rx) (ry := ry) h hD
  unfold cPhi
  rw [cos_ratan2]
  · unfold cK; congr 2; ring
  · rintro ⟨h1, h2⟩
    unfold cK at hK
    rw [h1, h2] at hK
    simp at hK

/-- a point of the cylinder is on the track circle iff the sine of its angle relative to phirho is gamma -/
theorem cyl_angle (h : om ≠ 0) (hr : 0 < rho) (hD : ¬ (rCx om ph d rx = a ∧ rCy om ph d ry = b)) (φ : ℝ) :
    (a + rho * Real.cos φ - rCx om ph d rx) ^ 2 + (b + rho * Real.sin φ - rCy om ph d ry) ^ 2 = (1 / om) ^ 2 ↔
      Real.sin (φ - cPhi om ph d rx ry a b) = cGam om ph d rx ry a b rho := by
  have hK := cK_pos (rx := rx) (ry := ry) h hD
  have e : cGam om ph d rx ry a b rho = (cNum om ph d rx ry a b rho / (2 * rho)) / cK om ph d rx ry a b := by
    unfold cGam; rw [div_div]
  rw [Real.sin_sub, sin_cPhi, cos_cPhi h hD, e, mul_div_assoc', mul_div_assoc', ← sub_div, div_left_inj' hK.ne',
    eq_div_iff (by positivity), cSox_eq h, cCoy_eq h, cNum_eq h]
  have h1 : Real.sin φ ^ 2 + Real.cos φ ^ 2 = 1 := Real.sin_sq_add_cos_sq φ
  generalize (1 / om) ^ 2 = q at *
  generalize rCx om ph d rx = X at *
  generalize rCy om ph d ry = Y at *
  constructor
  · intro h2
    linear_combination om * h2 - om * rho ^ 2 * h1
  · intro h2
    have h3 : om * ((a + rho * Real.cos φ - X) ^ 2 + (b + rho * Real.sin φ - Y) ^ 2) = om * q := by
      linear_combination h2 + om * rho ^ 2 * h1
    exact mul_left_cancel₀ h h3

/-- angle of the second solution -/
def cPhic1 (om ph d rx ry a b rho : ℝ) : ℝ :=
  (ifc 0 < Real.arcsin (cGam om ph d rx ry a b rho) then Real.pi - Real.arcsin (cGam om ph d rx ry a b rho)
    else -Real.pi - Real.arcsin (cGam om ph d rx ry a b rho)) + cPhi om ph d rx ry a b

/-- angle of the first solution -/
def cPhic0 (om ph d rx ry a b rho : ℝ) : ℝ :=
  Real.arcsin (cGam om ph d rx ry a b rho) + cPhi om ph d rx ry a b

theorem cylinderCandidates_re (h : om ≠ 0) (hr : 0 < rho) (hD : ¬ (rCx om ph d rx = a ∧ rCy om ph d ry = b)) :
    cylinderCandidates (fin rho) (V3.re a b c) (hpR om tl ph d z) (V3.re rx ry rz) =
      ifc 1 < |cGam om ph d rx ry a b rho| then none else
        some ((fin (a + rho * Real.cos (cPhic0 om ph d rx ry a b rho)), fin (b + rho * Real.sin (cPhic0 om ph d rx ry a b rho))),
          (fin (a + rho * Real.cos (cPhic1 om ph d rx ry a b rho)), fin (b + rho * Real.sin (cPhic1 om ph d rx ry a b rho)))) := by
  have hK := cK_pos (rx := rx) (ry := ry) h hD
  have hne : 2 * rho * cK om ph d rx ry a b ≠ 0 := by positivity
  have hsq : 0 ≤ cSox om ph d rx a * cSox om ph d rx a + cCoy om ph d ry b * cCoy om ph d ry b :=
    add_nonneg (mul_self_nonneg _) (mul_self_nonneg _)
  simp only [cylinderCandidates, calculateOmega_hpR, calculatePhi0_hpR, calculateD0_hpR, V3.re, sin_fin, cos_fin, fin_mul,
    fin_sub, fin_add, ofNat_eq]
  have e1 : Real.sin ph - om * (a - (rx - d * Real.sin ph)) = cSox om ph d rx a := rfl
  have e2 : Real.cos ph + om * (b - (ry + d * Real.cos ph)) = cCoy om ph d ry b := rfl
  rw [e1, e2, sqrt_fin hsq]
  have e3 : Real.sqrt (cSox om ph d rx a * cSox om ph d rx a + cCoy om ph d ry b * cCoy om ph d ry b) =
    cK om ph d rx ry a b := rfl
  have e4 : (2 * (a - (rx - d * Real.sin ph)) * Real.sin ph - 2 * (b - (ry + d * Real.cos ph)) * Real.cos ph - om * rho * rho -
    om * ((a - (rx - d * Real.sin ph)) * (a - (rx - d * Real.sin ph)) +
      (b - (ry + d * Real.cos ph)) * (b - (ry + d * Real.cos ph)))) = cNum om ph d rx ry a b rho := rfl
  rw [e3, e4, fin_mul, fin_div _ hne]
  have e5 : cNum om ph d rx ry a b rho / (2 * rho * cK om ph d rx ry a b) = cGam om ph d rx ry a b rho := rfl
  rw [e5, abs_fin, one_eq]
  simp only [fin_lt]
  by_cases hg : 1 < |cGam om ph d rx ry a b rho|
  · rw [cif_pos hg, cif_pos hg]
  · rw [cif_neg hg, cif_neg hg, asin_fin (not_lt.mp hg), atan2_fin, pi_eq, zero_eq]
    have e6 : ratan2 (cSox om ph d rx a) (cCoy om ph d ry b) = cPhi om ph d rx ry a b := rfl
    rw [e6]
    simp only [fin_lt, fin_sub, fin_neg]
    rw [← apply_cif fin]
    simp only [fin_add, sin_fin, cos_fin, fin_mul]
    rfl

/-- Summary for the cylinder: either there is no candidate and the track circle does not meet the cylinder, or
the two candidates are track points within half a turn and every common point within half a turn is one of
them. -/
theorem cyl_candidates (h : om ≠ 0) (hph : |ph| ≤ 2 * Real.pi) (hr : 0 < rho)
    (hD : ¬ (rCx om ph d rx = a ∧ rCy om ph d ry = b))
    (hopp : ¬ OnCircle a b rho (rX om ph d rx (Real.pi / om)) (rY om ph d ry (Real.pi / om))) :
    (cylinderCandidates (fin rho) (V3.re a b c) (hpR om tl ph d z) (V3.re rx ry rz) = none ∧
      ∀ s, ¬ OnCircle a b rho (rX om ph d rx s) (rY om ph d ry s)) ∨
    (∃ s0 s1 : ℝ, |om * s0| < Real.pi ∧ |om * s1| < Real.pi ∧
      cylinderCandidates (fin rho) (V3.re a b c) (hpR om tl ph d z) (V3.re rx ry rz) =
        some ((fin (rX om ph d rx s0), fin (rY om ph d ry s0)), (fin (rX om ph d rx s1), fin (rY om ph d ry s1))) ∧
      ∀ s, |om * s| < Real.pi → (OnCircle a b rho (rX om ph d rx s) (rY om ph d ry s) ↔ s = s0 ∨ s = s1)) := by
  rw [cylinderCandidates_re h hr hD]
  -- the angle of a common point
  have hang : ∀ s, OnCircle a b rho (rX om ph d rx s) (rY om ph d ry s) → ∃ φ,
      rX om ph d rx s = a + rho * Real.cos φ ∧ rY om ph d ry s = b + rho * Real.sin φ ∧
      Real.sin (φ - cPhi om ph d rx ry a b) = cGam om ph d rx ry a b rho := by
    intro s hs
    unfold OnCircle at hs
    have hne : ¬ (rX om ph d rx s - a = 0 ∧ rY om ph d ry s - b = 0) := by
      rintro ⟨h1, h2⟩
      rw [h1, h2] at hs
      have := sq_pos_of_pos hr
      simp at hs
      linarith
    refine ⟨ratan2 (rY om ph d ry s - b) (rX om ph d rx s - a), ?_, ?_, ?_⟩
    · rw [cos_ratan2 _ _ hne, hs, Real.sqrt_sq hr.le]; field_simp; ring
    · rw [sin_ratan2, hs, Real.sqrt_sq hr.le]; field_simp; ring
    · rw [← cyl_angle h hr hD, cos_ratan2 _ _ hne, sin_ratan2, hs, Real.sqrt_sq hr.le]
      have e1 : a + rho * ((rX om ph d rx s - a) / rho) = rX om ph d rx s := by field_simp; ring
      have e2 : b + rho * ((rY om ph d ry s - b) / rho) = rY om ph d ry s := by field_simp; ring
      rw [e1, e2]
      exact on_circle s
  by_cases hg : 1 < |cGam om ph d rx ry a b rho|
  · left
    rw [cif_pos hg]
    refine ⟨rfl, ?_⟩
    intro s hs
    obtain ⟨φ, -, -, h3⟩ := hang s hs
    rw [← h3] at hg
    exact absurd (Real.abs_sin_le_one _) (not_le.mpr hg)
  · right
    rw [cif_neg hg]
    have hg' := abs_le.mp (not_lt.mp hg)
    have hsin := Real.sin_arcsin hg'.1 hg'.2
    have hs0 : Real.sin (cPhic0 om ph d rx ry a b rho - cPhi om ph d rx ry a b) = cGam om ph d rx ry a b rho := by
      unfold cPhic0; rw [add_sub_cancel_right, hsin]
    have hs1 : Real.sin (cPhic1 om ph d rx ry a b rho - cPhi om ph d rx ry a b) = cGam om ph d rx ry a b rho := by
      unfold cPhic1
      rw [add_sub_cancel_right]
      refine cif_cases (P := fun x => Real.sin x = _) (fun _ => ?_) (fun _ => ?_)
      · rw [Real.sin_pi_sub, hsin]
      · have : -Real.pi - Real.arcsin (cGam om ph d rx ry a b rho) =
          -(Real.arcsin (cGam om ph d rx ry a b rho) + Real.pi) := by ring
        rw [this, Real.sin_neg, Real.sin_add_pi, neg_neg, hsin]
    have honc : ∀ φ, OnCircle a b rho (a + rho * Real.cos φ) (b + rho * Real.sin φ) := by
      intro φ
      unfold OnCircle
      have := Real.sin_sq_add_cos_sq φ
      linear_combination rho ^ 2 * this
    have hpt : ∀ φ, Real.sin (φ - cPhi om ph d rx ry a b) = cGam om ph d rx ry a b rho → ∃ s, |om * s| < Real.pi ∧
        rX om ph d rx s = a + rho * Real.cos φ ∧ rY om ph d ry s = b + rho * Real.sin φ := by
      intro φ hφ
      refine circle_point h hph ((cyl_angle h hr hD φ).2 hφ) ?_
      rintro ⟨h1, h2⟩
      apply hopp
      rw [← h1, ← h2]
      exact honc φ
    obtain ⟨s0, b0, x0, y0⟩ := hpt _ hs0
    obtain ⟨s1, b1, x1, y1⟩ := hpt _ hs1
    refine ⟨s0, s1, b0, b1, by rw [x0, y0, x1, y1], ?_⟩
    intro s hs
    constructor
    · intro hon
      obtain ⟨φ, hX, hY, hφ⟩ := hang s hon
      -- compare angles
      have hcmp : ∀ ψ t, |om * t| < Real.pi → rX om ph d rx t = a + rho * Real.cos ψ → rY om ph d ry t = b + rho * Real.sin ψ →
          Real.cos ψ = Real.cos φ → Real.sin ψ = Real.sin φ → s = t := by
        intro ψ t ht e1 e2 e3 e4
        exact path_unique (rx := rx) (ry := ry) h hph hs ht (by rw [hX, e1, e3]) (by rw [hY, e2, e4])
      rw [← hsin] at hφ
      obtain ⟨k, hk⟩ := Real.sin_eq_sin_iff.mp hφ
      rcases hk with hk | hk
      · left
        apply hcmp _ _ b0 x0 y0
        · have : cPhic0 om ph d rx ry a b rho = φ + k * (2 * Real.pi) := by unfold cPhic0; linarith
          rw [this, Real.cos_add_int_mul_two_pi]
        · have : cPhic0 om ph d rx ry a b rho = φ + k * (2 * Real.pi) := by unfold cPhic0; linarith
          rw [this, Real.sin_add_int_mul_two_pi]
      · right
        have hm : ∃ m : ℤ, cPhic1 om ph d rx ry a b rho = φ + m * (2 * Real.pi) := by
          unfold cPhic1
          refine cif_cases (P := fun x => ∃ m : ℤ, x + cPhi om ph d rx ry a b = φ + m * (2 * Real.pi)) (fun _ => ?_) (fun _ => ?_)
          · refine ⟨-k, ?_⟩
            push_cast; linarith
          · refine ⟨-k - 1, ?_⟩
            push_cast; linarith
        obtain ⟨m, hm⟩ := hm
        apply hcmp _ _ b1 x1 y1
        · rw [hm, Real.cos_add_int_mul_two_pi]
        · rw [hm, Real.sin_add_int_mul_two_pi]
    · rintro (rfl | rfl)
      · rw [x0, y0]; exact honc _
      · rw [x1, y1]; exact honc _

/-! ## selection of one of two solutions -/

theorem cylinderSelect_spec (mode : ℤ) (s0 s1 : ℝ) :
    (cylinderSelect mode (fin s0) (fin s1) = none ∧
      ((0 < mode ∧ s0 < 0 ∧ s1 < 0) ∨ (mode < 0 ∧ 0 ≤ s0 ∧ 0 ≤ s1))) ∨
    (cylinderSelect mode (fin s0) (fin s1) = some true ∧ SelOk 1e-4 mode s0 s1) ∨
    (cylinderSelect mode (fin s0) (fin s1) = some false ∧ SelOk 1e-4 mode s1 s0) := by
  simp only [cylinderSelect, zero_eq, fin_lt, fin_le, abs_fin, ofSci_eq, fin_add, SelOk]
  rcases lt_or_ge s0 0 with h0 | h0 <;> rcases lt_or_ge s1 0 with h1 | h1
  · rw [cif_pos ⟨h0, h1⟩]
    by_cases hm : mode < 1
    · rw [if_pos hm]
      by_cases hlt : s1 < s0
      · rw [cif_pos hlt]
        refine Or.inr (Or.inl ⟨rfl, fun h => by omega, fun _ => ⟨h0, fun _ => hlt.le⟩, fun _ => Or.inl ⟨?_, fun _ _ => by linarith⟩⟩)
        rw [abs_of_neg h0, abs_of_neg h1]; linarith
      · rw [cif_neg hlt]
        refine Or.inr (Or.inr ⟨rfl, fun h => by omega, fun _ => ⟨h1, fun _ => not_lt.mp hlt⟩, fun _ => Or.inl ⟨?_, fun _ _ => by linarith⟩⟩)
        rw [abs_of_neg h0, abs_of_neg h1]; linarith
    · rw [if_neg hm]
      exact Or.inl ⟨rfl, Or.inl ⟨by omega, h0, h1⟩⟩
  · rw [cif_neg (fun hc => absurd hc.2 (not_lt.mpr h1)), cif_pos ⟨h0, h1⟩]
    by_cases hm : mode < 0
    · rw [if_pos hm]
      exact Or.inr (Or.inl ⟨rfl, fun h => by omega, fun _ => ⟨h0, fun h => by linarith⟩, fun h => by omega⟩)
    · rw [if_neg hm]
      by_cases hm' : mode > 0
      · rw [if_pos hm']
        exact Or.inr (Or.inr ⟨rfl, fun _ => ⟨h1, fun h => by linarith⟩, fun h => by omega, fun h => by omega⟩)
      · rw [if_neg hm']
        by_cases hlt : |s0| + 1e-4 < |s1|
        · rw [cif_pos hlt]
          refine Or.inr (Or.inl ⟨rfl, fun h => by omega, fun h => by omega, fun _ => Or.inl ⟨?_, fun _ _ => hlt.le⟩⟩)
          norm_num at hlt; linarith
        · rw [cif_neg hlt]
          refine Or.inr (Or.inr ⟨rfl, fun h => by omega, fun h => by omega, fun _ => Or.inr ⟨h1, h0, not_lt.mp hlt⟩⟩)
  · rw [cif_neg (fun hc => absurd hc.1 (not_lt.mpr h0)), cif_neg (fun hc => absurd hc.1 (not_lt.mpr h0)), cif_pos ⟨h0, h1⟩]
    by_cases hm : mode > 0
    · rw [if_pos hm]
      exact Or.inr (Or.inl ⟨rfl, fun h => ⟨h0, fun h => by linarith⟩, fun h => by omega, fun h => by omega⟩)
    · rw [if_neg hm]
      by_cases hm' : mode < 0
      · rw [if_pos hm']
        exact Or.inr (Or.inr ⟨rfl, fun h => by omega, fun h => ⟨h1, fun h => by linarith⟩, fun h => by omega⟩)
      · rw [if_neg hm']
        by_cases hlt : |s0| < |s1| + 1e-4
        · rw [cif_pos hlt]
          exact Or.inr (Or.inl ⟨rfl, fun h => by omega, fun h => by omega, fun _ => Or.inr ⟨h0, h1, hlt.le⟩⟩)
        · rw [cif_neg hlt]
          refine Or.inr (Or.inr ⟨rfl, fun h => by omega, fun h => by omega, fun _ => Or.inl ⟨?_, fun _ _ => not_lt.mp hlt⟩⟩)
          rw [not_lt] at hlt
          norm_num at hlt; linarith
  · rw [cif_neg (fun hc => absurd hc.1 (not_lt.mpr h0)), cif_neg (fun hc => absurd hc.1 (not_lt.mpr h0)),
      cif_neg (fun hc => absurd hc.2 (not_lt.mpr h1))]
    by_cases hm : mode > -1
    · rw [if_pos hm]
      by_cases hlt : s0 < s1
      · rw [cif_pos hlt]
        refine Or.inr (Or.inl ⟨rfl, fun _ => ⟨h0, fun _ => hlt.le⟩, fun h => by omega, fun _ => Or.inl ⟨?_, fun _ _ => by linarith⟩⟩)
        rw [abs_of_nonneg h0, abs_of_nonneg h1]; linarith
      · rw [cif_neg hlt]
        refine Or.inr (Or.inr ⟨rfl, fun _ => ⟨h1, fun _ => not_lt.mp hlt⟩, fun h => by omega, fun _ => Or.inl ⟨?_, fun _ _ => by linarith⟩⟩)
        rw [abs_of_nonneg h0, abs_of_nonneg h1]; linarith
    · rw [if_neg hm]
      exact Or.inl ⟨rfl, Or.inr ⟨by omega, h0, h1⟩⟩

theorem planeSelect_spec (mode : ℤ) (s0 s1 : ℝ) :
    (planeSelect mode (fin s0) (fin s1) = none ∧
      ((0 < mode ∧ s0 < 0 ∧ s1 < 0) ∨ (mode < 0 ∧ 0 ≤ s0 ∧ 0 ≤ s1))) ∨
    (planeSelect mode (fin s0) (fin s1) = some true ∧ SelOk 0 mode s0 s1) ∨
    (planeSelect mode (fin s0) (fin s1) = some false ∧ SelOk 0 mode s1 s0) := by
  simp only [planeSelect, zero_eq, fin_lt, fin_le, abs_fin, SelOk]
  rcases lt_or_ge s0 0 with h0 | h0 <;> rcases lt_or_ge s1 0 with h1 | h1
  · rw [cif_pos ⟨h0, h1⟩]
    by_cases hm : mode < 1
    · rw [if_pos hm]
      by_cases hlt : s1 < s0
      · rw [cif_pos hlt]
        refine Or.inr (Or.inl ⟨rfl, fun h => by omega, fun _ => ⟨h0, fun _ => hlt.le⟩, fun _ => Or.inl ⟨?_, fun _ _ => by linarith⟩⟩)
        rw [abs_of_neg h0, abs_of_neg h1]; linarith
      · rw [cif_neg hlt]
        refine Or.inr (Or.inr ⟨rfl, fun h => by omega, fun _ => ⟨h1, fun _ => not_lt.mp hlt⟩, fun _ => Or.inl ⟨?_, fun _ _ => by linarith⟩⟩)
        rw [abs_of_neg h0, abs_of_neg h1]; linarith
    · rw [if_neg hm]
      exact Or.inl ⟨rfl, Or.inl ⟨by omega, h0, h1⟩⟩
  · rw [cif_neg (fun hc => absurd hc.2 (not_lt.mpr h1)), cif_pos ⟨h0, h1⟩]
    by_cases hm : mode < 0
    · rw [if_pos hm]
      exact Or.inr (Or.inl ⟨rfl, fun h => by omega, fun _ => ⟨h0, fun h => by linarith⟩, fun h => by omega⟩)
    · rw [if_neg hm]
      by_cases hm' : mode > 0
      · rw [if_pos hm']
        exact Or.inr (Or.inr ⟨rfl, fun _ => ⟨h1, fun h => by linarith⟩, fun h => by omega, fun h => by omega⟩)
      · rw [if_neg hm']
        by_cases hlt : |s0| < |s1|
        · rw [cif_pos hlt]
          exact Or.inr (Or.inl ⟨rfl, fun h => by omega, fun h => by omega, fun _ => Or.inl ⟨hlt.le, fun _ _ => by rw [add_zero]; exact hlt.le⟩⟩)
        · rw [cif_neg hlt]
          exact Or.inr (Or.inr ⟨rfl, fun h => by omega, fun h => by omega, fun _ => Or.inl ⟨not_lt.mp hlt, fun _ _ => by rw [add_zero]; exact not_lt.mp hlt⟩⟩)
  · rw [cif_neg (fun hc => absurd hc.1 (not_lt.mpr h0)), cif_neg (fun hc => absurd hc.1 (not_lt.mpr h0)), cif_pos ⟨h0, h1⟩]
    by_cases hm : mode > 0
    · rw [if_pos hm]
      exact Or.inr (Or.inl ⟨rfl, fun h => ⟨h0, fun h => by linarith⟩, fun h => by omega, fun h => by omega⟩)
    · rw [if_neg hm]
      by_cases hm' : mode < 0
      · rw [if_pos hm']
        exact Or.inr (Or.inr ⟨rfl, fun h => by omega, fun h => ⟨h1, fun h => by linarith⟩, fun h => by omega⟩)
      · rw [if_neg hm']
        by_cases hlt : |s0| < |s1|
        · rw [cif_pos hlt]
          exact Or.inr (Or.inl ⟨rfl, fun h => by omega, fun h => by omega, fun _ => Or.inl ⟨hlt.le, fun _ _ => by rw [add_zero]; exact hlt.le⟩⟩)
        · rw [cif_neg hlt]
          exact Or.inr (Or.inr ⟨rfl, fun h => by omega, fun h => by omega, fun _ => Or.inl ⟨not_lt.mp hlt, fun _ _ => by rw [add_zero]; exact not_lt.mp hlt⟩⟩)
  · rw [cif_neg (fun hc => absurd hc.1 (not_lt.mpr h0)), cif_neg (fun hc => absurd hc.1 (not_lt.mpr h0)),
      cif_neg (fun hc => absurd hc.2 (not_lt.mpr h1))]
    by_cases hm : mode > -1
    · rw [if_pos hm]
      by_cases hlt : s0 < s1
      · rw [cif_pos hlt]
        refine Or.inr (Or.inl ⟨rfl, fun _ => ⟨h0, fun _ => hlt.le⟩, fun h => by omega, fun _ => Or.inl ⟨?_, fun _ _ => by linarith⟩⟩)
        rw [abs_of_nonneg h0, abs_of_nonneg h1]; linarith
      · rw [cif_neg hlt]
        refine Or.inr (Or.inr ⟨rfl, fun _ => ⟨h1, fun _ => not_lt.mp hlt⟩, fun h => by omega, fun _ => Or.inl ⟨?_, fun _ _ => by linarith⟩⟩)
        rw [abs_of_nonneg h0, abs_of_nonneg h1]; linarith
    · rw [if_neg hm]
      exact Or.inl ⟨rfl, Or.inr ⟨by omega, h0, h1⟩⟩

end Verif
