import Verif.Lemmas.Helix
import Verif.Lemmas.Move

/-!
# A circle is determined by three of its points

Helper lemmas for C138.
-/

noncomputable section

namespace Verif

open Dbl

/-- the chord between two points of a circle -/
theorem chordX {om : ℝ} (ph d rx s t : ℝ) :
    rX om ph d rx (s + t) - rX om ph d rx s = 2 / om * Real.sin (om * t / 2) * Real.cos (ph - om * s - om * t / 2) := by
  have h := Real.sin_sub_sin (ph - s * om) (ph - (s + t) * om)
  rw [show (ph - s * om - (ph - (s + t) * om)) / 2 = om * t / 2 by ring,
    show (ph - s * om + (ph - (s + t) * om)) / 2 = ph - om * s - om * t / 2 by ring] at h
  unfold rX
  linear_combination (1 / om) * h

theorem chordY {om : ℝ} (ph d ry s t : ℝ) :
    rY om ph d ry (s + t) - rY om ph d ry s = 2 / om * Real.sin (om * t / 2) * Real.sin (ph - om * s - om * t / 2) := by
  have h := Real.cos_sub_cos (ph - s * om) (ph - (s + t) * om)
  rw [show (ph - s * om - (ph - (s + t) * om)) / 2 = om * t / 2 by ring,
    show (ph - s * om + (ph - (s + t) * om)) / 2 = ph - om * s - om * t / 2 by ring] at h
  unfold rY
  linear_combination -(1 / om) * h

/-- angles between -π and π with the same sine and cosine -/
theorem angle_unique {a b : ℝ} (ha : |a| < Real.pi) (hb : |b| < Real.pi) (hc : Real.cos a = Real.cos b)
    (hs : Real.sin a = Real.sin b) : a = b := by
  rw [abs_lt] at ha hb
  have h1 := ratan2_polar one_pos ha.1 ha.2.le
  have h2 := ratan2_polar one_pos hb.1 hb.2.le
  rw [hc, hs] at h1
  exact h1.symm.trans h2

/-- the sign of the chord is that of the path -/
theorem chord_sign {om t : ℝ} (h : om ≠ 0) (ht : 0 < t) (hb : |om| * t < 2 * Real.pi) : 0 < 2 / om * Real.sin (om * t / 2) := by
  rcases lt_or_gt_of_ne h with h1 | h1
  · rw [abs_of_neg h1] at hb
    have h2 : Real.sin (om * t / 2) < 0 :=
      Real.sin_neg_of_neg_of_neg_pi_lt (by nlinarith) (by linarith)
    exact mul_pos_of_neg_of_neg (div_neg_of_pos_of_neg two_pos h1) h2
  · rw [abs_of_pos h1] at hb
    have h2 : 0 < Real.sin (om * t / 2) := Real.sin_pos_of_pos_of_lt_pi (by positivity) (by linarith)
    positivity

theorem polar_unique {A B a b : ℝ} (hA : 0 < A) (hB : 0 < B) (hc : A * Real.cos a = B * Real.cos b)
    (hs : A * Real.sin a = B * Real.sin b) : A = B ∧ Real.cos a = Real.cos b ∧ Real.sin a = Real.sin b := by
  have h1 := Real.sin_sq_add_cos_sq a
  have h2 := Real.sin_sq_add_cos_sq b
  have hAB : A ^ 2 = B ^ 2 := by
    linear_combination (A * Real.sin a + B * Real.sin b) * hs + (A * Real.cos a + B * Real.cos b) * hc - A ^ 2 * h1 + B ^ 2 * h2
  have h3 : A = B := by
    rcases sq_eq_sq_iff_eq_or_eq_neg.mp hAB with h | h
    · exact h
    · linarith
  subst h3
  exact ⟨rfl, mul_left_cancel₀ hA.ne' hc, mul_left_cancel₀ hA.ne' hs⟩

/-- two circles run through in time, given by curvature and direction at the common start, that meet the same two points in the
same order within one turn, are the same -/
theorem arc_unique {om om' ψ ψ' t2 t3 t2' t3' : ℝ} (h : om ≠ 0) (h' : om' ≠ 0) (a1 : 0 < t2) (a2 : t2 < t3)
    (a3 : |om| * t3 < 2 * Real.pi) (b1 : 0 < t2') (b2 : t2' < t3') (b3 : |om'| * t3' < 2 * Real.pi)
    (x2 : 2 / om * Real.sin (om * t2 / 2) * Real.cos (ψ - om * t2 / 2) =
      2 / om' * Real.sin (om' * t2' / 2) * Real.cos (ψ' - om' * t2' / 2))
    (y2 : 2 / om * Real.sin (om * t2 / 2) * Real.sin (ψ - om * t2 / 2) =
      2 / om' * Real.sin (om' * t2' / 2) * Real.sin (ψ' - om' * t2' / 2))
    (x3 : 2 / om * Real.sin (om * t3 / 2) * Real.cos (ψ - om * t3 / 2) =
      2 / om' * Real.sin (om' * t3' / 2) * Real.cos (ψ' - om' * t3' / 2))
    (y3 : 2 / om * Real.sin (om * t3 / 2) * Real.sin (ψ - om * t3 / 2) =
      2 / om' * Real.sin (om' * t3' / 2) * Real.sin (ψ' - om' * t3' / 2)) :
    om = om' ∧ t2 = t2' ∧ t3 = t3' ∧ Real.cos ψ = Real.cos ψ' ∧ Real.sin ψ = Real.sin ψ' := by
  have ho := abs_pos.mpr h
  have ho' := abs_pos.mpr h'
  have c2 : |om| * t2 < 2 * Real.pi := by nlinarith
  have c2' : |om'| * t2' < 2 * Real.pi := by nlinarith
  obtain ⟨e2, u2, v2⟩ := polar_unique (chord_sign h a1 c2) (chord_sign h' b1 c2') x2 y2
  obtain ⟨e3, u3, v3⟩ := polar_unique (chord_sign h (a1.trans a2) a3) (chord_sign h' (b1.trans b2) b3) x3 y3
  have hβ : om * (t3 - t2) / 2 = om' * (t3' - t2') / 2 := by
    apply angle_unique
    · rw [abs_div, abs_mul, abs_of_pos (sub_pos.mpr a2), abs_of_pos (two_pos (α := ℝ))]
      nlinarith
    · rw [abs_div, abs_mul, abs_of_pos (sub_pos.mpr b2), abs_of_pos (two_pos (α := ℝ))]
      nlinarith
    · rw [show om * (t3 - t2) / 2 = (ψ - om * t2 / 2) - (ψ - om * t3 / 2) by ring,
        show om' * (t3' - t2') / 2 = (ψ' - om' * t2' / 2) - (ψ' - om' * t3' / 2) by ring, Real.cos_sub (ψ - om * t2 / 2), Real.cos_sub (ψ' - om' * t2' / 2), u2, v2, u3, v3]
    · rw [show om * (t3 - t2) / 2 = (ψ - om * t2 / 2) - (ψ - om * t3 / 2) by ring,
        show om' * (t3' - t2') / 2 = (ψ' - om' * t2' / 2) - (ψ' - om' * t3' / 2) by ring, Real.sin_sub (ψ - om * t2 / 2), Real.sin_sub (ψ' - om' * t2' / 2), u2, v2, u3, v3]
  have hsign : 0 < om * om' := by
    have h1 : om * (t3 - t2) = om' * (t3' - t2') := by linarith
    have h2 : 0 < om ^ 2 * (t3 - t2) := mul_pos (by positivity) (sub_pos.mpr a2)
    have h3 : om * om' * (t3' - t2') = om ^ 2 * (t3 - t2) := by linear_combination -om * h1
    have h4 := sub_pos.mpr b2
    by_contra hc
    have := mul_nonpos_of_nonpos_of_nonneg (not_lt.mp hc) h4.le
    linarith
  have hsβ : Real.sin (om * (t3 - t2) / 2) ≠ 0 := by
    have := chord_sign h (sub_pos.mpr a2) (by nlinarith)
    intro h0
    rw [h0, mul_zero] at this
    exact lt_irrefl _ this
  have k2 : om' * Real.sin (om * t2 / 2) = om * Real.sin (om' * t2' / 2) := by
    field_simp at e2; linarith
  have k3 : om' * Real.sin (om * t3 / 2) = om * Real.sin (om' * t3' / 2) := by
    field_simp at e3; linarith
  have s3 : Real.sin (om * t3 / 2) = Real.sin (om * t2 / 2) * Real.cos (om * (t3 - t2) / 2) +
      Real.cos (om * t2 / 2) * Real.sin (om * (t3 - t2) / 2) := by
    rw [← Real.sin_add]; congr 1; ring
  have s3' : Real.sin (om' * t3' / 2) = Real.sin (om' * t2' / 2) * Real.cos (om * (t3 - t2) / 2) +
      Real.cos (om' * t2' / 2) * Real.sin (om * (t3 - t2) / 2) := by
    rw [hβ, ← Real.sin_add]; congr 1; ring
  rw [s3, s3'] at k3
  have k4 : om' * Real.cos (om * t2 / 2) = om * Real.cos (om' * t2' / 2) := by
    refine mul_right_cancel₀ hsβ ?_
    linear_combination k3 - Real.cos (om * (t3 - t2) / 2) * k2
  have hsq : om ^ 2 = om' ^ 2 := by
    have q1 := Real.sin_sq_add_cos_sq (om * t2 / 2)
    have q2 := Real.sin_sq_add_cos_sq (om' * t2' / 2)
    linear_combination -(om' * Real.sin (om * t2 / 2) + om * Real.sin (om' * t2' / 2)) * k2 -
      (om' * Real.cos (om * t2 / 2) + om * Real.cos (om' * t2' / 2)) * k4 + om' ^ 2 * q1 - om ^ 2 * q2
  have hom : om = om' := by
    rcases sq_eq_sq_iff_eq_or_eq_neg.mp hsq with h1 | h1
    · exact h1
    · have h2 := mul_self_nonneg om'
      rw [h1] at hsign
      linarith
  subst hom
  have hd : t3 - t2 = t3' - t2' := by
    have : om * (t3 - t2) = om * (t3' - t2') := by linarith
    exact mul_left_cancel₀ h this
  have ht : om * t2 / 2 = om * t2' / 2 := by
    apply angle_unique
    · rw [abs_div, abs_mul, abs_of_pos a1, abs_of_pos (two_pos (α := ℝ))]; linarith
    · rw [abs_div, abs_mul, abs_of_pos b1, abs_of_pos (two_pos (α := ℝ))]; linarith
    · exact mul_left_cancel₀ h k4
    · exact mul_left_cancel₀ h k2
  have ht2 : t2 = t2' := by
    have : om * t2 = om * t2' := by linarith
    exact mul_left_cancel₀ h this
  subst ht2
  refine ⟨rfl, rfl, by linarith, ?_, ?_⟩
  · rw [show ψ = (ψ - om * t2 / 2) + om * t2 / 2 by ring, show ψ' = (ψ' - om * t2 / 2) + om * t2 / 2 by ring, Real.cos_add, Real.cos_add, u2, v2]
  · rw [show ψ = (ψ - om * t2 / 2) + om * t2 / 2 by ring, show ψ' = (ψ' - om * t2 / 2) + om * t2 / 2 by ring, Real.sin_add, Real.sin_add, u2, v2]

end Verif
