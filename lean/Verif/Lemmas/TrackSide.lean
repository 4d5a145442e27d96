import Verif.Lemmas.RoundedCylinder
import Verif.Lemmas.StartHelix
import Verif.Lemmas.Helix

/-!
# Distance of a point from a track in the transverse plane
-/

noncomputable section

namespace Verif

open Rnd

section
variable {om tl ph x0 y0 z0 X Y ε : ℝ} {x y w : ℝ → ℝ}

theorem isTrack_straight : Spec.IsTrack 0 tl ph x0 y0 z0 (fun s => x0 + s * Real.cos ph) (fun s => y0 + s * Real.sin ph)
    (fun s => z0 + s * tl) where
  start_x := by simp
  start_y := by simp
  start_z := by simp
  vel_x s := by simpa using ((hasDerivAt_id s).mul_const (Real.cos ph)).const_add x0
  vel_y s := by simpa using ((hasDerivAt_id s).mul_const (Real.sin ph)).const_add y0
  vel_z s := by simpa using ((hasDerivAt_id s).mul_const tl).const_add z0

/-- a point where `side` is small is next to a point of the track -/
theorem near_track (ht : Spec.IsTrack om tl ph x0 y0 z0 x y w) (h : |side om 1 (Real.sin ph) (Real.cos ph) (X - x0) (Y - y0)| ≤ ε) :
    ∃ t, √((X - x t) ^ 2 + (Y - y t) ^ 2) ≤ ε := by
  have ε0 : 0 ≤ ε := (abs_nonneg _).trans h
  have sc := Real.sin_sq_add_cos_sq ph
  by_cases ho : om = 0
  · subst ho
    obtain ⟨u1, u2, -⟩ := ht.unique isTrack_straight
    refine ⟨(X - x0) * Real.cos ph + (Y - y0) * Real.sin ph, ?_⟩
    rw [Real.sqrt_le_left ε0, u1, u2]
    have e : (X - (x0 + ((X - x0) * Real.cos ph + (Y - y0) * Real.sin ph) * Real.cos ph)) ^ 2 +
        (Y - (y0 + ((X - x0) * Real.cos ph + (Y - y0) * Real.sin ph) * Real.sin ph)) ^ 2 =
        ((X - x0) * Real.sin ph - (Y - y0) * Real.cos ph) ^ 2 := by
      have c2 : Real.cos ph ^ 2 = 1 - Real.sin ph ^ 2 := by linarith
      obtain ⟨a, ha⟩ : ∃ a, a = X - x0 := ⟨_, rfl⟩
      obtain ⟨b, hb⟩ : ∃ b, b = Y - y0 := ⟨_, rfl⟩
      have e1 : X - (x0 + ((X - x0) * Real.cos ph + (Y - y0) * Real.sin ph) * Real.cos ph) =
          Real.sin ph * (a * Real.sin ph - b * Real.cos ph) := by
        rw [← ha, ← hb]
        linear_combination -ha - a * c2
      have e2 : Y - (y0 + ((X - x0) * Real.cos ph + (Y - y0) * Real.sin ph) * Real.sin ph) =
          -Real.cos ph * (a * Real.sin ph - b * Real.cos ph) := by
        rw [← ha, ← hb]
        linear_combination -hb - b * c2
      rw [e1, e2, ← ha, ← hb]
      linear_combination (a * Real.sin ph - b * Real.cos ph) ^ 2 * sc
    rw [e, ← sq_abs]
    refine pow_le_pow_left₀ (abs_nonneg _) ?_ 2
    have k : side 0 1 (Real.sin ph) (Real.cos ph) (X - x0) (Y - y0) = -2 * ((X - x0) * Real.sin ph - (Y - y0) * Real.cos ph) := by
      unfold side
      ring
    rw [k, abs_mul, abs_neg, abs_two] at h
    have := abs_nonneg ((X - x0) * Real.sin ph - (Y - y0) * Real.cos ph)
    linarith
  · have ht' : Spec.IsTrack om tl ph (x0 - 0 * Real.sin ph) (y0 + 0 * Real.cos ph) (z0 + 0) x y w := by
      simpa using ht
    obtain ⟨u1, u2, -⟩ := ht'.unique (isTrack_r ho)
    obtain ⟨β, hβ1, hβ2⟩ := exists_polar (om * (Y - rCy om ph 0 y0)) (-(om * (X - rCx om ph 0 x0)))
    have k0 := Real.sqrt_nonneg ((om * (Y - rCy om ph 0 y0)) ^ 2 + (-(om * (X - rCx om ph 0 x0))) ^ 2)
    have k2 := Real.mul_self_sqrt (show 0 ≤ (om * (Y - rCy om ph 0 y0)) ^ 2 + (-(om * (X - rCx om ph 0 x0))) ^ 2 by positivity)
    generalize √((om * (Y - rCy om ph 0 y0)) ^ 2 + (-(om * (X - rCx om ph 0 x0))) ^ 2) = k at *
    refine ⟨(ph - β) / om, ?_⟩
    have a1 := rX_center (om := om) (ph := ph) (d := 0) (rx := x0) (s := (ph - β) / om)
    have a2 := rY_center (om := om) (ph := ph) (d := 0) (ry := y0) (s := (ph - β) / om)
    rw [show ph - (ph - β) / om * om = β by field_simp; ring] at a1 a2
    have d1 : X - x ((ph - β) / om) = -((k - 1) / om) * Real.sin β := by
      rw [u1]
      have : X - rCx om ph 0 x0 = -(k / om) * Real.sin β := by
        field_simp
        linarith
      linear_combination this - a1
    have d2 : Y - y ((ph - β) / om) = (k - 1) / om * Real.cos β := by
      rw [u2]
      have : Y - rCy om ph 0 y0 = k / om * Real.cos β := by
        field_simp
        linarith
      linear_combination this - a2
    have e : (X - x ((ph - β) / om)) ^ 2 + (Y - y ((ph - β) / om)) ^ 2 = ((k - 1) / om) ^ 2 := by
      rw [d1, d2]
      linear_combination ((k - 1) / om) ^ 2 * Real.sin_sq_add_cos_sq β
    rw [e, Real.sqrt_sq_eq_abs]
    refine le_trans ?_ h
    have e2 : side om 1 (Real.sin ph) (Real.cos ph) (X - x0) (Y - y0) = (k - 1) / om * (k + 1) := by
      have : k * k = om * side om 1 (Real.sin ph) (Real.cos ph) (X - x0) (Y - y0) + 1 := by
        rw [k2]
        unfold side rCx rCy
        field_simp
        linear_combination sc
      field_simp
      linarith
    rw [e2, abs_mul, abs_of_pos (by linarith : 0 < k + 1)]
    exact le_mul_of_one_le_right (abs_nonneg _) (by linarith)

/-- `side` is at least the distance from the track -/
theorem far_track (ht : Spec.IsTrack om tl ph x0 y0 z0 x y w) (h : ∀ t, ε ≤ √((X - x t) ^ 2 + (Y - y t) ^ 2)) :
    ε ≤ |side om 1 (Real.sin ph) (Real.cos ph) (X - x0) (Y - y0)| := by
  obtain ⟨t, ht⟩ := near_track ht le_rfl
  exact (h t).trans ht

/-- `side` for a point at a given distance from the centre of the track -/
theorem side_center (ho : om ≠ 0) {r : ℝ} (hr : r ^ 2 = (X - (x0 + Real.sin ph / om)) ^ 2 + (Y - (y0 - Real.cos ph / om)) ^ 2) :
    side om 1 (Real.sin ph) (Real.cos ph) (X - x0) (Y - y0) = om * (r ^ 2 - (1 / om) ^ 2) := by
  rw [hr]
  unfold side
  field_simp
  linear_combination -Real.sin_sq_add_cos_sq ph

/-- `side` is zero on the track -/
theorem side_track (ht : Spec.IsTrack om tl ph x0 y0 z0 x y w) (t : ℝ) :
    side om 1 (Real.sin ph) (Real.cos ph) (x t - x0) (y t - y0) = 0 := by
  by_cases ho : om = 0
  · subst ho
    obtain ⟨u1, u2, -⟩ := ht.unique isTrack_straight
    rw [u1, u2]
    unfold side
    ring
  · have ht' : Spec.IsTrack om tl ph (x0 - 0 * Real.sin ph) (y0 + 0 * Real.cos ph) (z0 + 0) x y w := by
      simpa using ht
    obtain ⟨u1, u2, -⟩ := ht'.unique (isTrack_r ho)
    rw [side_center ho (r := 1 / om), sub_self, mul_zero]
    have a1 := rX_center (om := om) (ph := ph) (d := 0) (rx := x0) (s := t)
    have a2 := rY_center (om := om) (ph := ph) (d := 0) (ry := y0) (s := t)
    rw [← u1] at a1
    rw [← u2] at a2
    rw [show x0 + Real.sin ph / om = rCx om ph 0 x0 by unfold rCx; ring, show y0 - Real.cos ph / om = rCy om ph 0 y0 by unfold rCy; ring, a1, a2]
    linear_combination -(1 / om) ^ 2 * Real.sin_sq_add_cos_sq (ph - t * om)

end

end Verif
