import Verif.Props.RoundedSmall
import Mathlib.Analysis.SpecialFunctions.Trigonometric.InverseDeriv

/-!
# C172: the program intersection_calculator in double precision, detectors of cylinders
-/

open Classical

noncomputable section

namespace Verif

open Dbl Rnd Spec SmallPrograms

variable {fl : ℝ → ℝ} {lm : Libm} {at2 : ℝ → ℝ → ℝ} {asn atn : ℝ → ℝ}

/-- the track is at the radius of the cylinder, within its bounds, at path length `t` in the first half turn -/
def CrossesLayer (x y w : ℝ → ℝ) (q : Surface × ℝ) (t : ℝ) : Prop :=
  0 < t ∧ t < Real.pi / 0.23 ∧ x t ^ 2 + y t ^ 2 = q.2 ^ 2 ∧ q.1.insideBounds (V3.re (x t) (y t) (w t)) = true

/-- a cylinder around the z axis of the given radius in cm, that the track reaches (the diameter of the track is 8.69 cm) or clearly does not
reach; the crossing is not at the edge of the cylinder -/
structure Layer (x y w : ℝ → ℝ) (q : Surface × ℝ) : Prop where
  cylinder : q.1.type.isZCylinder = true
  shape : ∃ c, q.1.cyl = some (fin q.2, V3.re 0 0 c)
  radius : 1 / 100 ≤ q.2 ∧ q.2 ≤ 8 ∨ 9 ≤ q.2 ∧ q.2 ≤ 10 ^ 6
  edge : ∀ t, 0 < t → t < Real.pi / 0.23 → x t ^ 2 + y t ^ 2 = q.2 ^ 2 → ClearBounds q.1 x y w t (1 / 100)

/-- path length at which a track of curvature `om` from the axis reaches the radius `rho` -/
def layerArc (om rho : ℝ) : ℝ := 2 / om * Real.arcsin (om / 2 * rho)

theorem layerArc_facts {om rho : ℝ} (o1 : 0.2299 ≤ om) (o2 : om ≤ 0.2301) (r1 : 1 / 100 ≤ rho) (r2 : rho ≤ 8) :
    rho ≤ layerArc om rho ∧ om * layerArc om rho ≤ 3 ∧ Real.sin (om / 2 * layerArc om rho) = om / 2 * rho ∧ layerArc om rho ≤ 14 := by
  norm_num at o1 o2
  have om0 : 0 < om := by linarith
  have u0 : 0 ≤ om / 2 * rho := by nlinarith
  have u1 : om / 2 * rho ≤ 0.9204 := by
    norm_num
    nlinarith
  have e : om / 2 * layerArc om rho = Real.arcsin (om / 2 * rho) := by
    rw [layerArc]
    field_simp
  have s : Real.sin (om / 2 * layerArc om rho) = om / 2 * rho := by
    rw [e, Real.sin_arcsin (by linarith) (by norm_num at u1; linarith)]
  have n : 0 ≤ om / 2 * layerArc om rho := by rw [e]; exact Real.arcsin_nonneg.2 u0
  have lo : om / 2 * rho ≤ om / 2 * layerArc om rho := by
    rw [← s]
    exact Real.sin_le n
  have hi : om / 2 * layerArc om rho ≤ 3 / 2 := by
    rw [e]
    have p1 := Real.pi_gt_three
    have p2 := Real.pi_lt_d2
    rw [Real.arcsin_le_iff_le_sin' ⟨by linarith, by linarith⟩]
    rw [← Real.cos_pi_div_two_sub]
    refine u1.trans (le_trans ?_ (Real.one_sub_sq_div_two_le_cos))
    norm_num at p2 ⊢
    nlinarith
  have lo' : rho ≤ layerArc om rho := le_of_mul_le_mul_left lo (by linarith)
  exact ⟨lo', by linarith, s, by nlinarith⟩

theorem layer_radius {om tl ph : ℝ} (om0 : 0 < om) {x y w : ℝ → ℝ} (ht : IsTrack om tl ph 0 0 0 x y w) (t : ℝ) :
    x t ^ 2 + y t ^ 2 = (2 / om * Real.sin (om / 2 * t)) ^ 2 := by
  rw [track_chord om0.ne' ht, show t * om = 2 * (om / 2 * t) by ring, Real.cos_two_mul, Real.cos_sq']
  field_simp
  ring

/-- the crossing of a track with the given rounded parameters -/
theorem layer_computed (h : NearestF 53 1074 fl) (hl : IsLibm lm) (ha2 : IsAtan2 at2) (has : IsAsin asn) {om a p rho c : ℝ}
    (o1 : 0.2299 ≤ om) (o2 : om ≤ 0.2301) (a1 : 0 < a) (a2 : a ≤ 0.011) (p1 : 1 ≤ p) (p2 : p ≤ 2) (r1 : 1 / 100 ≤ rho) (r2 : rho ≤ 8)
    {surf : Surface} (hs : surf.cyl = some (fin rho, V3.re 0 0 c)) (h1 : surf.type.isZCylinder = true) {x y w : ℝ → ℝ}
    (ht : IsTrack om a p 0 0 0 x y w) :
    ComputedAt fl lm at2 asn atn (hpR om a p 0 0) (V3.re 0 0 0) x y w surf (layerArc om rho) (9 / 1000) := by
  obtain ⟨l1, l2, l3, l4⟩ := layerArc_facts o1 o2 r1 r2
  have om0 : 0 < om := by linarith
  have rad := layer_radius om0 ht
  have oa : |om| = om := abs_of_pos om0
  norm_num at o1 o2 a2
  have one : √((Real.sin p - om * (0 - (0 - 0 * Real.sin p))) ^ 2 + (Real.cos p + om * (0 - (0 + 0 * Real.cos p))) ^ 2) = 1 := by
    rw [zero_mul, zero_mul, add_zero, sub_zero, sub_zero, mul_zero, sub_zero, add_zero, Real.sin_sq_add_cos_sq, Real.sqrt_one]
  obtain ⟨δ, hδ⟩ : ∃ δ, δ = cylPointError rho om p 0 0 0 0 0 rho := ⟨_, rfl⟩
  have eδ : δ ≤ 1 / 2 ^ 20 * (17 / 10 * rho) := by
    rw [hδ, cylPointError, one, oa, div_one]
    refine mul_le_mul_of_nonneg_left ?_ (by positivity)
    rw [Real.sqrt_le_left (by linarith)]
    have k : om * rho ≤ 189 / 100 := by nlinarith
    have := mul_le_mul_of_nonneg_left k (by positivity : 0 ≤ rho * rho)
    linarith
  have e4 : ∀ {a : ℝ}, |a| ≤ 2 ^ 7 → |a| ≤ 2 ^ 200 := fun h => size_mono h (by norm_num)
  have hR : HelixRange om a p 0 0 0 0 0 0 := by
    refine ⟨?_, e4 ?_, e4 ?_, e4 ?_, e4 (by norm_num), e4 (by norm_num), e4 (by norm_num), e4 (by norm_num), e4 (by norm_num), e4 (by norm_num)⟩
    · rw [oa]
      refine le_trans (one_div_le_one_div_of_le (by positivity) (pow_le_pow_right₀ (by norm_num) (by norm_num : 4 ≤ 500))) ?_
      norm_num
      linarith
    · rw [oa]; norm_num; linarith
    · rw [abs_of_pos a1]; norm_num; linarith
    · rw [abs_of_pos (by linarith)]; norm_num; linarith
  have small : om * rho ≤ 2 := by nlinarith
  have hr : CylRange rho om p 0 0 0 0 0 rho := by
    refine ⟨?_, ?_, ?_, ?_, ?_, ?_, ?_, ?_, ?_, le_rfl, ?_⟩
    · norm_num; linarith
    · norm_num; linarith
    · rw [oa]; norm_num; linarith
    · norm_num; linarith
    · norm_num; linarith
    · norm_num; linarith
    · norm_num; linarith
    · norm_num; linarith
    · norm_num; linarith
    · rw [oa, one]; norm_num; linarith
  have ar : ∀ t : ℝ, |t| = layerArc om rho → ArcRange om 0 0 0 δ t := by
    intro t e
    refine ⟨?_, ?_, ?_, ?_, ?_⟩
    · rw [abs_mul, oa, e]; norm_num; nlinarith
    · rw [abs_mul, oa, e]; linarith
    · refine le_trans ?_ (pow_le_pow_right₀ (a := (2 : ℝ)) (by norm_num) (show 7 ≤ 199 by norm_num))
      rw [e]; norm_num; linarith
    · rw [e, _root_.abs_zero]; norm_num; linarith
    · rw [e]
      refine eδ.trans ?_
      norm_num
      linarith
  have on : ∀ t, Real.sin (om / 2 * t) ^ 2 = (om / 2 * rho) ^ 2 → (x t - 0) ^ 2 + (y t - 0) ^ 2 = rho ^ 2 := by
    intro t e
    rw [sub_zero, sub_zero, rad, mul_pow, e]
    field_simp
  have pos : 0 < layerArc om rho := by linarith
  have mx : 1 / 2 ^ 44 * (rho * (1 + |om| * rho)) ≤ 1 / 2 ^ 40 * rho := by
    rw [oa]
    norm_num
    nlinarith
  have c1 := C148_cylinder_partial (atn := atn) (surf := surf) (tl := a) (z := 0) (rz := 0) (c := c) (t0 := -layerArc om rho) (t1 := layerArc om rho)
    (t2 := 0) (t3 := Real.pi / om) h hl ha2 has hr hR (by rw [abs_of_pos (by linarith)]; linarith [Real.pi_gt_three]) hs h1 (by simpa using ht)
    (by
      rw [sub_zero, sub_zero, rad, mul_zero, Real.sin_zero, mul_zero, zero_pow two_ne_zero, Real.sqrt_zero, zero_add]
      refine mx.trans ?_
      norm_num
      linarith)
    (by
      rw [sub_zero, sub_zero, rad, show om / 2 * (Real.pi / om) = Real.pi / 2 by field_simp, Real.sin_pi_div_two, mul_one, Real.sqrt_sq (by positivity)]
      refine (add_le_add_right mx rho).trans ?_
      rw [le_div_iff₀ om0]
      norm_num
      nlinarith)
    (on _ (by rw [mul_neg, Real.sin_neg, neg_sq, l3])) (on _ (by rw [l3])) hδ (ar _ (by rw [abs_neg, abs_of_pos pos])) (ar _ (abs_of_pos pos))
    ⟨pos, .inl (by linarith)⟩
  refine c1.mono ?_
  have tiny : (1 : ℝ) / 2 ^ 500 ≤ 1 / 2 ^ 50 := one_div_le_one_div_of_le (by positivity) (pow_le_pow_right₀ (by norm_num) (by norm_num))
  have δ0 : 0 ≤ δ := by
    rw [hδ, cylPointError]
    positivity
  have ae : arcError om δ 0 0 0 (layerArc om rho) ≤ 8 / 1000 := by
    rw [arcError, abs_of_pos pos, _root_.abs_zero]
    generalize (1 : ℝ) / 2 ^ 500 = η at *
    split_ifs
    · clear * - δ0 eδ tiny l4 r2
      norm_num at *
      linarith
    · clear * - δ0 eδ tiny l4 r2
      norm_num at *
      linarith
  rw [arcTolerance, abs_of_pos a1, _root_.abs_zero, abs_of_pos (mul_pos pos a1)]
  have k1 : (1 + a) * arcError om δ 0 0 0 (layerArc om rho) ≤ (1 + 11 / 1000) * (8 / 1000) :=
    mul_le_mul (by linarith) ae (arcTolerance_le (tl := 0) (z := 0) (rz := 0) δ0).1 (by norm_num)
  have k2 : layerArc om rho * a ≤ 14 * (11 / 1000) := mul_le_mul l4 a2 a1.le (by norm_num)
  generalize (1 : ℝ) / 2 ^ 500 = η at *
  clear * - k1 k2 tiny
  norm_num at *
  linarith

theorem arcsin_near {u v : ℝ} (hu : |u| ≤ 0.93) (hv : |v| ≤ 0.93) : |Real.arcsin u - Real.arcsin v| ≤ 3 * |u - v| := by
  have := Convex.norm_image_sub_le_of_norm_hasDerivWithin_le (f := Real.arcsin) (f' := fun r => 1 / √(1 - r ^ 2)) (C := 3) (s := Set.Icc (-0.93) 0.93) (x := v) (y := u)
    (fun r hr => by
      norm_num at hr
      exact (Real.hasDerivAt_arcsin (by linarith [hr.1]) (by linarith [hr.2])).hasDerivWithinAt)
    (fun r hr => by
      norm_num at hr
      have k : (1 / 3 : ℝ) ≤ √(1 - r ^ 2) := Real.le_sqrt_of_sq_le (by nlinarith [hr.1, hr.2])
      rw [Real.norm_eq_abs, abs_of_nonneg (by positivity), div_le_iff₀ (by linarith)]
      linarith) (convex_Icc _ _) (abs_le.1 hv) (abs_le.1 hu)
  exact this

theorem layerArc_near {om rho : ℝ} (hb : |om - 0.23| ≤ 1 / 10 ^ 15) (r1 : 1 / 100 ≤ rho) (r2 : rho ≤ 8) :
    |layerArc om rho - layerArc 0.23 rho| ≤ 1 / 10 ^ 11 := by
  have hb' := abs_le.1 hb
  norm_num at hb'
  have om0 : 0 < om := by linarith
  have sz : ∀ {o : ℝ}, 0 < o → o ≤ 0.231 → |o / 2 * rho| ≤ 0.93 := by
    intro o k1 k2
    rw [abs_of_nonneg (mul_nonneg (by linarith) (by linarith))]
    norm_num at k2 ⊢
    nlinarith
  have n := arcsin_near (sz om0 (by norm_num; linarith)) (sz (o := 0.23) (by norm_num) (by norm_num))
  have n1 : |om / 2 * rho - 0.23 / 2 * rho| ≤ 4 / 10 ^ 15 := by
    rw [show om / 2 * rho - 0.23 / 2 * rho = (om - 0.23) * (rho / 2) by ring, abs_mul, abs_of_pos (by linarith : 0 < rho / 2)]
    have := mul_le_mul hb (by linarith : rho / 2 ≤ 4) (by linarith) (by positivity)
    norm_num at this ⊢
    linarith
  have n2 : |2 / om - 2 / 0.23| ≤ 1 / 10 ^ 13 := by
    rw [show 2 / om - 2 / 0.23 = (0.23 - om) * (2 / (om * 0.23)) by field_simp, abs_mul, abs_sub_comm, abs_of_pos (by positivity : 0 < 2 / (om * 0.23))]
    have k : 2 / (om * 0.23) ≤ 40 := by
      rw [div_le_iff₀ (by positivity)]
      norm_num
      linarith
    have := mul_le_mul hb k (by positivity) (by positivity)
    norm_num at this ⊢
    linarith
  have n3 : |Real.arcsin (om / 2 * rho)| ≤ 2 := by
    have := Real.arcsin_le_pi_div_two (om / 2 * rho)
    have := Real.neg_pi_div_two_le_arcsin (om / 2 * rho)
    have := Real.pi_lt_d2
    rw [abs_le]
    norm_num at this
    constructor <;> linarith
  rw [layerArc, layerArc, show 2 / om * Real.arcsin (om / 2 * rho) - 2 / 0.23 * Real.arcsin (0.23 / 2 * rho) =
    (2 / om - 2 / 0.23) * Real.arcsin (om / 2 * rho) + 2 / 0.23 * (Real.arcsin (om / 2 * rho) - Real.arcsin (0.23 / 2 * rho)) by ring]
  refine (abs_add_le _ _).trans ?_
  rw [abs_mul, abs_mul, abs_of_pos (by norm_num : (0 : ℝ) < 2 / 0.23)]
  have k1 := mul_le_mul n2 n3 (abs_nonneg _) (by positivity)
  generalize |Real.arcsin (om / 2 * rho) - Real.arcsin (0.23 / 2 * rho)| = D at *
  norm_num at *
  linarith

/-- the same for the track with the numbers of the source -/
theorem layer_program (h : NearestF 53 1074 fl) (hl : IsLibm lm) (ha2 : IsAtan2 at2) (has : IsAsin asn) {x y w : ℝ → ℝ} (ht : CalcHelix x y w)
    {rho c : ℝ} (r1 : 1 / 100 ≤ rho) (r2 : rho ≤ 8) {surf : Surface} (hs : surf.cyl = some (fin rho, V3.re 0 0 c)) (h1 : surf.type.isZCylinder = true) :
    ComputedAt fl lm at2 asn atn (Rnd.calcTrack fl).hp (Rnd.calcTrack fl).rp x y w surf (layerArc 0.23 rho) (1 / 100) := by
  obtain ⟨eT, bo, ba, bp⟩ := lit_bounds h
  rw [eT]
  have bo' := abs_le.1 bo
  have ba' := abs_le.1 ba
  have bp' := abs_le.1 bp
  generalize fl 0.23 = om at *
  generalize fl 0.01 = a at *
  generalize fl 1.57 = p at *
  norm_num at bo' ba' bp'
  have om0 : 0 < om := by linarith
  have ht' : IsTrack om a p 0 0 0 (rX om p 0 0) (rY om p 0 0) (rZ a 0 0) := by
    have := isTrack_r (om := om) (tl := a) (ph := p) (d := 0) (z := 0) (rx := 0) (ry := 0) (rz := 0) om0.ne'
    simpa using this
  have lf := layerArc_facts (om := om) (by norm_num; linarith) (by norm_num; linarith) r1 r2
  obtain ⟨S, X, Y, Z, q1, q2, q3, q4, q5⟩ := layer_computed (atn := atn) h hl ha2 has (om := om) (a := a) (p := p) (by norm_num; linarith) (by norm_num; linarith)
    (by linarith) (by norm_num; linarith) (by linarith) (by linarith) r1 r2 hs h1 ht'
  have near := layerArc_near (om := om) (bo.trans (by norm_num)) r1 r2
  generalize layerArc om rho = t' at *
  generalize layerArc 0.23 rho = t at *
  have tr := tracks_near ht ht' t'
  have lip := track_lip ht t' t
  have t0 : |t'| ≤ 15 := by rw [abs_of_pos (by linarith)]; linarith
  have s0 := abs_nonneg t'
  have big : (|p - 1.57| + |om - 0.23| * |t'|) * |t'| ≤ (2 / 2 ^ 53 + 1 / 2 ^ 53 * 15) * 15 := by
    refine mul_le_mul ?_ t0 s0 (by positivity)
    have : |om - 0.23| * |t'| ≤ 1 / 2 ^ 53 * 15 := mul_le_mul (bo.trans (by norm_num)) t0 s0 (by positivity)
    norm_num at bp this ⊢
    linarith
  have zz : |rZ a 0 0 t' - w t| ≤ 1 / 10000 := by
    rw [calc_w ht, rZ, show (0 : ℝ) + 0 + t' * a - 0.01 * t = (a - 0.01) * t' + 0.01 * (t' - t) by ring]
    refine (abs_add_le _ _).trans ?_
    rw [abs_mul, abs_mul, abs_of_pos (by norm_num : (0 : ℝ) < 0.01)]
    have k := mul_le_mul ba t0 s0 (by positivity)
    generalize |t' - t| = D at *
    generalize |a - 0.01| * |t'| = D' at *
    norm_num at *
    linarith
  refine ⟨S, X, Y, Z, q1, ?_, ?_, ?_, ?_⟩
  · have k := abs_add_le (S - t') (t' - t)
    rw [sub_add_sub_cancel] at k
    generalize |t' - t| = D at *
    norm_num at *
    linarith
  · have k := abs_add_three (X - rX om p 0 0 t') (rX om p 0 0 t' - x t') (x t' - x t)
    rw [show X - rX om p 0 0 t' + (rX om p 0 0 t' - x t') + (x t' - x t) = X - x t by ring] at k
    have k1 := tr.1
    have k2 := lip.1
    generalize (|p - 1.57| + |om - 0.23| * |t'|) * |t'| = m2 at *
    clear * - k k1 k2 big near q3
    norm_num at *
    linarith
  · have k := abs_add_three (Y - rY om p 0 0 t') (rY om p 0 0 t' - y t') (y t' - y t)
    rw [show Y - rY om p 0 0 t' + (rY om p 0 0 t' - y t') + (y t' - y t) = Y - y t by ring] at k
    have k1 := tr.2
    have k2 := lip.2
    generalize (|p - 1.57| + |om - 0.23| * |t'|) * |t'| = m2 at *
    clear * - k k1 k2 big near q4
    norm_num at *
    linarith
  · have k := abs_add_le (Z - rZ a 0 0 t') (rZ a 0 0 t' - w t)
    rw [sub_add_sub_cancel] at k
    clear * - k zz q5
    norm_num at *
    linarith

/-- cylinders that the track does not reach -/
theorem layer_missed (h : NearestF 53 1074 fl) (hl : IsLibm lm) (ha2 : IsAtan2 at2) (has : IsAsin asn)
    {rho c : ℝ} (r1 : 9 ≤ rho) (r2 : rho ≤ 10 ^ 6) {surf : Surface} (hs : surf.cyl = some (fin rho, V3.re 0 0 c)) (h1 : surf.type.isZCylinder = true) :
    ComputedMiss fl lm at2 asn atn (Rnd.calcTrack fl).hp (Rnd.calcTrack fl).rp surf := by
  obtain ⟨eT, bo, -, -⟩ := lit_bounds h
  rw [eT]
  have bo' := abs_le.1 bo
  generalize fl 0.23 = om at *
  generalize fl 0.01 = a at *
  generalize fl 1.57 = p at *
  norm_num at bo' r2
  have om0 : 0 < om := by linarith
  have oa : |om| = om := abs_of_pos om0
  have ht' : IsTrack om a p 0 0 0 (rX om p 0 0) (rY om p 0 0) (rZ a 0 0) := by
    have := isTrack_r (om := om) (tl := a) (ph := p) (d := 0) (z := 0) (rx := 0) (ry := 0) (rz := 0) om0.ne'
    simpa using this
  have rad := layer_radius om0 ht'
  have one : √((Real.sin p - om * (0 - (0 - 0 * Real.sin p))) ^ 2 + (Real.cos p + om * (0 - (0 + 0 * Real.cos p))) ^ 2) = 1 := by
    rw [zero_mul, zero_mul, add_zero, sub_zero, sub_zero, mul_zero, sub_zero, add_zero, Real.sin_sq_add_cos_sq, Real.sqrt_one]
  have orho : om * rho ≤ 0.24 * 1000000 := mul_le_mul (by norm_num; linarith) r2 (by linarith) (by norm_num)
  have hr : CylRange rho om p 0 0 0 0 0 rho := by
    norm_num at orho
    refine ⟨?_, ?_, ?_, ?_, ?_, ?_, ?_, ?_, ?_, le_rfl, ?_⟩
    · norm_num; linarith
    · norm_num; linarith
    · rw [oa]; norm_num; linarith
    · norm_num; linarith
    · norm_num; linarith
    · norm_num; linarith
    · norm_num; linarith
    · norm_num; linarith
    · norm_num; linarith
    · rw [oa, one]; norm_num; linarith
  refine C148_missed (tl := a) (z := 0) (rz := 0) (c := c) h hl ha2 has hr hs h1 (by simpa using ht') ?_
  intro φ t
  rw [zero_add, zero_add]
  have q : (rX om p 0 0 t) ^ 2 + (rY om p 0 0 t) ^ 2 ≤ (87 / 10) ^ 2 := by
    rw [rad]
    have k1 : 2 / om ≤ 87 / 10 := by
      rw [div_le_iff₀ om0]
      linarith
    have k2 := Real.sin_sq_le_one (om / 2 * t)
    have k3 : (2 / om) ^ 2 ≤ (87 / 10) ^ 2 := pow_le_pow_left₀ (by positivity) k1 2
    rw [mul_pow]
    nlinarith [sq_nonneg (Real.sin (om / 2 * t)), sq_nonneg (2 / om)]
  have low : rho - 87 / 10 ≤ √((rho * Real.cos φ - rX om p 0 0 t) ^ 2 + (rho * Real.sin φ - rY om p 0 0 t) ^ 2) := by
    refine Real.le_sqrt_of_sq_le ?_
    have cs := Real.sin_sq_add_cos_sq φ
    generalize Real.sin φ = s at *
    generalize Real.cos φ = k at *
    generalize rX om p 0 0 t = X at *
    generalize rY om p 0 0 t = Y at *
    have in' : k * X + s * Y ≤ √(X ^ 2 + Y ^ 2) := by
      refine Real.le_sqrt_of_sq_le ?_
      have e : (k * X + s * Y) ^ 2 + (k * Y - s * X) ^ 2 = (s ^ 2 + k ^ 2) * (X ^ 2 + Y ^ 2) := by ring
      rw [cs, one_mul] at e
      nlinarith [sq_nonneg (k * Y - s * X)]
    have r0 : √(X ^ 2 + Y ^ 2) ≤ 87 / 10 := by
      rw [Real.sqrt_le_left (by norm_num)]
      exact q
    have e2 := Real.sq_sqrt (by positivity : 0 ≤ X ^ 2 + Y ^ 2)
    generalize √(X ^ 2 + Y ^ 2) = R at *
    have e3 : (rho * k - X) ^ 2 + (rho * s - Y) ^ 2 = rho ^ 2 * (s ^ 2 + k ^ 2) - 2 * rho * (k * X + s * Y) + (X ^ 2 + Y ^ 2) := by ring
    rw [e3, cs, ← e2]
    nlinarith
  refine le_trans ?_ low
  rw [oa]
  have : rho * (1 + om * rho) ≤ rho * 250000 := mul_le_mul_of_nonneg_left (by norm_num at orho; linarith) (by linarith)
  norm_num
  linarith

/-- C172 (partial): for a geometry of cylinders around the z axis, with radii that differ by more than 0.2 mm, the program prints exactly those that the
track with the decimal numbers of the source crosses within their bounds in the first half turn, from the inside to the outside, with path
lengths that are right up to 0.1 mm.  Missing for C172: that this is the geometry in the file (`C172_false`), and that the path lengths
are right up to rounding (the cosine law loses half of the digits, see C141). -/
theorem C172_barrel_partial (h : NearestF 53 1074 fl) (hl : IsLibm lm) (ha2 : IsAtan2 at2) (has : IsAsin asn)
    {sort : List (Dbl × Surface) → List (Dbl × Surface)} (hsort : IsStdSort Traj.sortWithS sort) {x y w : ℝ → ℝ} (ht : CalcHelix x y w)
    {dd : Dd4hep} {ls : List (Surface × ℝ)} (hu : dd.unloaded = some (ls.map Prod.fst)) (hs : ∀ q ∈ ls, Layer x y w q)
    (hsep : ls.Pairwise (fun a b => 2 / 100 < |a.2 - b.2|)) (f : String) (more : List String) :
    ∃ l A, Rnd.intersectionCalculator fl lm at2 asn atn dd sort (f :: more) = .ok (0, l) ∧
      A.Perm (ls.filter (fun q => decide (∃ t, CrossesLayer x y w q t))) ∧ A.Pairwise (fun a b => a.2 < b.2) ∧
      List.Forall₂ (fun q e => e.2 = q.1 ∧ ∃ S t, e.1 = fin S ∧ CrossesLayer x y w q t ∧ |S - t| ≤ 1 / 100) A l := by
  have o0 : (0 : ℝ) < 0.23 := by norm_num
  have rad := layer_radius o0 ht
  have pi3 := Real.pi_gt_three
  obtain ⟨eT, bo, -, -⟩ := lit_bounds h
  have bo' := abs_le.1 bo
  norm_num at bo'
  have om0 : 0 < fl 0.23 := by linarith
  have facts : ∀ {rho : ℝ}, 1 / 100 ≤ rho → rho ≤ 8 → _ := fun r1 r2 => layerArc_facts (om := 0.23) (by norm_num) (by norm_num) r1 r2
  -- the crossing is unique
  have uniq : ∀ {rho t : ℝ}, 0 < rho → 0 < t → t < Real.pi / 0.23 → x t ^ 2 + y t ^ 2 = rho ^ 2 → t = layerArc 0.23 rho ∧ rho < 9 := by
    intro rho t r0 t0 t1 e
    rw [lt_div_iff₀ o0] at t1
    have s0 : 0 < Real.sin (0.23 / 2 * t) := Real.sin_pos_of_pos_of_lt_pi (by norm_num; linarith) (by norm_num at t1 ⊢; linarith)
    rw [rad] at e
    have e' : 2 / 0.23 * Real.sin (0.23 / 2 * t) = rho := (sq_eq_sq₀ (by positivity) r0.le).1 e
    constructor
    · have : 0.23 / 2 * rho = Real.sin (0.23 / 2 * t) := by rw [← e']; ring
      rw [layerArc, this, Real.arcsin_sin (by norm_num at t1 ⊢; linarith) (by norm_num at t1 ⊢; linarith)]
      ring
    · have := Real.sin_le_one (0.23 / 2 * t)
      rw [← e']
      norm_num at this ⊢
      linarith
  have good : ∀ {rho : ℝ}, 1 / 100 ≤ rho → rho ≤ 8 → 0 < layerArc 0.23 rho ∧ layerArc 0.23 rho < Real.pi / 0.23 ∧
      x (layerArc 0.23 rho) ^ 2 + y (layerArc 0.23 rho) ^ 2 = rho ^ 2 := by
    intro rho r1 r2
    obtain ⟨l1, l2, l3, -⟩ := facts r1 r2
    refine ⟨by linarith, ?_, ?_⟩
    · rw [lt_div_iff₀ o0]
      linarith
    · rw [rad, l3]
      ring
  have cross : ∀ {q : Surface × ℝ}, 1 / 100 ≤ q.2 → q.2 ≤ 8 →
      ((∃ t, CrossesLayer x y w q t) ↔ q.1.insideBounds (V3.re (x (layerArc 0.23 q.2)) (y (layerArc 0.23 q.2)) (w (layerArc 0.23 q.2))) = true) := by
    intro q r1 r2
    obtain ⟨g1, g2, g3⟩ := good r1 r2
    constructor
    · rintro ⟨t, t0, t1, e, b⟩
      rw [← (uniq (by linarith) t0 t1 e).1]
      exact b
    · exact fun b => ⟨_, g1, g2, g3, b⟩
  have lip : ∀ {r r' : ℝ}, 1 / 100 ≤ r → r ≤ 8 → 1 / 100 ≤ r' → r' ≤ 8 → |r - r'| ≤ |layerArc 0.23 r - layerArc 0.23 r'| := by
    intro r r' a1 a2 b1 b2
    obtain ⟨-, -, l3, -⟩ := facts a1 a2
    obtain ⟨-, -, k3, -⟩ := facts b1 b2
    have k := Real.abs_sin_sub_sin_le (0.23 / 2 * layerArc 0.23 r) (0.23 / 2 * layerArc 0.23 r')
    rw [l3, k3, ← mul_sub, ← mul_sub, abs_mul, abs_mul] at k
    exact le_of_mul_le_mul_left k (by norm_num)
  let plan : Surface × ℝ → Planned := fun q => ⟨q.1, if q.2 ≤ 8 then some (layerArc 0.23 q.2, 1 / 100) else none⟩
  have hsurf : (ls.map plan).map Planned.surf = ls.map Prod.fst := by rw [List.map_map]; rfl
  have hfm : (ls.map plan).filterMap (Planned.listed x y w) =
      (ls.filter (fun q => decide (∃ t, CrossesLayer x y w q t))).map (fun q => (q.1, layerArc 0.23 q.2, 1 / 100)) := by
    rw [List.filterMap_map, ← List.filterMap_eq_map, List.filterMap_filter]
    refine List.filterMap_congr fun q hq => ?_
    simp only [Function.comp, Planned.listed, plan, decide_eq_true_eq]
    rcases (hs q hq).radius with ⟨r1, r2⟩ | ⟨r1, r2⟩
    · rw [if_pos r2]
      simp only [cross r1 r2]
    · rw [if_neg (by linarith), if_neg]
      rintro ⟨t, t0, t1, e, -⟩
      exact absurd (uniq (by linarith) t0 t1 e).2 (by linarith)
  have lim : ∀ {r : ℝ}, r ≤ 3 / 0.23 + 1 / 100 → r < (1 - 1 / 2 ^ 50) * (Real.pi / |fl 0.23|) := by
    intro r hr
    have p1 := Real.pi_gt_d2
    rw [abs_of_pos om0]
    have : (13.6 : ℝ) ≤ Real.pi / fl 0.23 := by
      rw [le_div_iff₀ om0]
      norm_num at p1 ⊢
      linarith
    norm_num at this hr ⊢
    linarith
  obtain ⟨T', l, A, g1, -, g2, g3, g4⟩ := C148_list_partial (lm := lm) (at2 := at2) (asn := asn) (atn := atn) (x := x) (y := y) (w := w) h hsort
    (T := Traj.make (Rnd.calcTrack fl)) rfl (om := fl 0.23) (tl := fl 0.01) (ph := fl 1.57) (d := 0) (z := 0) (by rw [eT]; rfl)
    (by
      rw [abs_of_pos om0]
      refine le_trans (one_div_le_one_div_of_le (by positivity) (pow_le_pow_right₀ (by norm_num) (by norm_num : 4 ≤ 500))) ?_
      norm_num
      linarith)
    (by
      rw [abs_of_pos om0]
      refine le_trans ?_ (pow_le_pow_right₀ (a := (2 : ℝ)) (by norm_num) (show 1 ≤ 200 by norm_num))
      norm_num
      linarith)
    (ls.map plan)
    (by
      intro c hc e
      obtain ⟨q, hq, rfl⟩ := List.mem_map.1 hc
      obtain ⟨c0, hsh⟩ := (hs q hq).shape
      rcases (hs q hq).radius with ⟨r1, r2⟩ | ⟨r1, r2⟩
      · simp only [plan, if_pos r2] at e
        cases e
      · exact layer_missed h hl ha2 has r1 r2 hsh (hs q hq).cylinder)
    (by
      intro c hc t e he
      obtain ⟨q, hq, rfl⟩ := List.mem_map.1 hc
      obtain ⟨c0, hsh⟩ := (hs q hq).shape
      rcases (hs q hq).radius with ⟨r1, r2⟩ | ⟨r1, r2⟩
      · simp only [plan, if_pos r2] at he
        obtain ⟨rfl, rfl⟩ := Prod.mk.inj (Option.some.inj he)
        obtain ⟨k1, k2, k3⟩ := good r1 r2
        obtain ⟨l1, l2, -, -⟩ := facts r1 r2
        refine ⟨layer_program h hl ha2 has ht r1 r2 hsh (hs q hq).cylinder, (hs q hq).edge _ k1 k2 k3, by linarith, lim ?_⟩
        norm_num at l2 ⊢
        linarith
      · simp only [plan, if_neg (show ¬ q.2 ≤ 8 by linarith)] at he
        cases he)
    (by
      rw [hfm, List.pairwise_map]
      refine ((hsep.filter _).imp_of_mem ?_)
      intro a b ha hb k
      have rng : ∀ {q : Surface × ℝ}, q ∈ ls.filter (fun q => decide (∃ t, CrossesLayer x y w q t)) → 1 / 100 ≤ q.2 ∧ q.2 ≤ 8 := by
        intro q hq
        obtain ⟨m1, m2⟩ := List.mem_filter.1 hq
        obtain ⟨t, t0, t1, e, -⟩ := of_decide_eq_true m2
        rcases (hs q m1).radius with r | ⟨r1, r2⟩
        · exact r
        · exact absurd (uniq (by linarith) t0 t1 e).2 (by linarith)
      have := lip (rng ha).1 (rng ha).2 (rng hb).1 (rng hb).2
      simp only
      linarith)
  rw [hfm] at g2
  let back : Surface × ℝ × ℝ → Surface × ℝ := fun c => (c.1, 2 / 0.23 * Real.sin (0.23 / 2 * c.2.1))
  have hA : ∀ c ∈ A, ∃ q, c = (q.1, layerArc 0.23 q.2, 1 / 100) ∧ back c = q ∧ 1 / 100 ≤ q.2 ∧ q.2 ≤ 8 ∧ CrossesLayer x y w q (layerArc 0.23 q.2) := by
    intro c hc
    obtain ⟨q, hq, rfl⟩ := List.mem_map.1 (g2.mem_iff.1 hc)
    obtain ⟨m1, m2⟩ := List.mem_filter.1 hq
    obtain ⟨t, ct⟩ := of_decide_eq_true m2
    obtain ⟨t0, t1, e, b⟩ := id ct
    have r : 1 / 100 ≤ q.2 ∧ q.2 ≤ 8 := by
      rcases (hs q m1).radius with r | ⟨r1, r2⟩
      · exact r
      · exact absurd (uniq (by linarith) t0 t1 e).2 (by linarith)
    refine ⟨q, rfl, ?_, r.1, r.2, (uniq (by linarith [r.1]) t0 t1 e).1 ▸ ct⟩
    have := (facts r.1 r.2).2.2.1
    simp only [back, this]
    ext1
    · rfl
    · simp only; ring
  refine ⟨l, A.map back, ?_, ?_, ?_, ?_⟩
  · rw [hsurf] at g1
    simp only [Rnd.intersectionCalculator, hu, g1]
    rfl
  · have k := g2.map back
    rw [List.map_map] at k
    refine k.trans (List.Perm.of_eq ?_)
    conv_rhs => rw [← List.map_id (ls.filter _)]
    refine List.map_congr_left fun q hq => ?_
    obtain ⟨q', e1, e2, -⟩ := hA (q.1, layerArc 0.23 q.2, 1 / 100) (g2.mem_iff.2 (List.mem_map.2 ⟨q, hq, rfl⟩))
    obtain ⟨m1, m2⟩ := List.mem_filter.1 hq
    obtain ⟨t, t0, t1, e, b⟩ := of_decide_eq_true m2
    have r : 1 / 100 ≤ q.2 ∧ q.2 ≤ 8 := by
      rcases (hs q m1).radius with r | ⟨r1, r2⟩
      · exact r
      · exact absurd (uniq (by linarith) t0 t1 e).2 (by linarith)
    have := (facts r.1 r.2).2.2.1
    simp only [Function.comp, back, this, id]
    ext1
    · rfl
    · simp only; ring
  · rw [List.pairwise_map]
    refine g3.imp_of_mem ?_
    intro a b ha hb k
    obtain ⟨q, rfl, e2, r1, r2, -⟩ := hA a ha
    obtain ⟨q', rfl, e2', r1', r2', -⟩ := hA b hb
    rw [e2, e2']
    obtain ⟨-, l2, l3, -⟩ := facts r1' r2'
    obtain ⟨l1, -, l4, -⟩ := facts r1 r2
    simp only at k
    have := Real.sin_lt_sin_of_lt_of_le_pi_div_two (x := 0.23 / 2 * layerArc 0.23 q.2) (y := 0.23 / 2 * layerArc 0.23 q'.2) (by norm_num; linarith)
      (by norm_num at l2 ⊢; linarith) (mul_lt_mul_of_pos_left k (by norm_num))
    rw [l3, l4] at this
    exact lt_of_mul_lt_mul_left this (by norm_num)
  · rw [List.forall₂_map_left_iff]
    refine ((List.forall₂_and_left _ _).2 ⟨hA, g4⟩).imp ?_
    rintro c e ⟨⟨q, rfl, e2, -, -, e3⟩, k1, S, k2, k3⟩
    rw [e2]
    exact ⟨k1, S, _, k2, e3, k3⟩

/-- a cylinder around the z axis without ends -/
def Example.tubeOf (r : ℝ) : Surface :=
  { Example.disk with
    type := fun i => decide (i = 0 ∨ i = 4)
    cyl := some (fin r, V3.re 0 0 0) }

/-- C172, concrete case: cylinders of 10 cm, 5 cm and 3 cm; the program prints the one of 3 cm and then the one of 5 cm. -/
example (h : NearestF 53 1074 fl) (hl : IsLibm lm) (ha2 : IsAtan2 at2) (has : IsAsin asn) {sort : List (Dbl × Surface) → List (Dbl × Surface)}
    (hsort : IsStdSort Traj.sortWithS sort) : ∃ S S' : ℝ, Rnd.intersectionCalculator fl lm at2 asn atn
      ⟨fun _ => none, some [Example.tubeOf 10, Example.tubeOf 5, Example.tubeOf 3]⟩ sort ["f"] =
      .ok (0, [(fin S, Example.tubeOf 3), (fin S', Example.tubeOf 5)]) := by
  obtain ⟨x, y, w, ht⟩ := calcHelix_exists
  have lay : ∀ {r : ℝ}, (1 / 100 ≤ r ∧ r ≤ 8 ∨ 9 ≤ r ∧ r ≤ 10 ^ 6) → Layer x y w (Example.tubeOf r, r) := fun hr =>
    ⟨by simp only [Example.tubeOf]; decide, ⟨0, rfl⟩, hr, fun _ _ _ _ _ _ _ _ _ _ => rfl⟩
  have o0 : (0 : ℝ) < 0.23 := by norm_num
  have rad := layer_radius o0 ht
  have pi3 := Real.pi_gt_three
  have yes : ∀ {r : ℝ}, 1 / 100 ≤ r → r ≤ 8 → ∃ t, CrossesLayer x y w (Example.tubeOf r, r) t := by
    intro r r1 r2
    obtain ⟨l1, l2, l3, -⟩ := layerArc_facts (om := 0.23) (by norm_num) (by norm_num) r1 r2
    refine ⟨layerArc 0.23 r, by linarith, ?_, ?_, rfl⟩
    · rw [lt_div_iff₀ o0]
      linarith
    · rw [rad, l3]
      ring
  have no : ¬ ∃ t, CrossesLayer x y w (Example.tubeOf 10, 10) t := by
    rintro ⟨t, -, -, e, -⟩
    rw [rad] at e
    have := Real.sin_sq_le_one (0.23 / 2 * t)
    generalize Real.sin (0.23 / 2 * t) = s at *
    norm_num [mul_pow, -sq_le_one_iff_abs_le_one] at e this
    nlinarith
  obtain ⟨l, A, e1, e2, e3, e4⟩ := C172_barrel_partial (at2 := at2) (asn := asn) (atn := atn) h hl ha2 has hsort ht
    (dd := ⟨fun _ => none, some [Example.tubeOf 10, Example.tubeOf 5, Example.tubeOf 3]⟩)
    (ls := [(Example.tubeOf 10, 10), (Example.tubeOf 5, 5), (Example.tubeOf 3, 3)]) rfl
    (by
      intro q hq
      simp only [List.mem_cons, List.not_mem_nil, or_false] at hq
      rcases hq with rfl | rfl | rfl
      · exact lay (.inr (by norm_num))
      · exact lay (.inl (by norm_num))
      · exact lay (.inl (by norm_num)))
    (by norm_num [List.pairwise_cons]) "f" []
  rw [List.filter_cons_of_neg (p := fun q => decide (∃ t, CrossesLayer x y w q t)) (by simpa using no),
    List.filter_cons_of_pos (p := fun q => decide (∃ t, CrossesLayer x y w q t)) (decide_eq_true (yes (by norm_num) (by norm_num))),
    List.filter_cons_of_pos (p := fun q => decide (∃ t, CrossesLayer x y w q t)) (decide_eq_true (yes (by norm_num) (by norm_num))), List.filter_nil] at e2
  have hA : A = [(Example.tubeOf 3, 3), (Example.tubeOf 5, 5)] := by
    rcases List.perm_pair.1 e2 with e | e
    · rw [e, List.pairwise_pair] at e3
      norm_num at e3
    · exact e
  subst hA
  rw [List.forall₂_cons_left_iff] at e4
  obtain ⟨⟨s, f⟩, l1, ⟨rfl, S, t, rfl, -⟩, e4, rfl⟩ := e4
  rw [List.forall₂_cons_left_iff] at e4
  obtain ⟨⟨s, f⟩, l1, ⟨rfl, S', t, rfl, -⟩, e4, rfl⟩ := e4
  cases e4
  exact ⟨S, S', e1⟩

end Verif
