import Mathlib.Analysis.SpecialFunctions.Trigonometric.Deriv
import Mathlib.Analysis.Calculus.MeanValue

/-!
# Specification of a helix in a homogeneous field along z

A track with curvature `om`, azimuth `ph` at the starting point and slope `tl` is *the* curve that
starts at a given point and whose velocity with respect to transverse arc length `s` is
`(cos (ph - om s), sin (ph - om s), tl)`.
-/

namespace Verif.Spec

/-- `x,y,z` (functions of the transverse arc length) are the track starting at `(x0,y0,z0)` -/
structure IsTrack (om tl ph x0 y0 z0 : ℝ) (x y z : ℝ → ℝ) : Prop where
  start_x : x 0 = x0
  start_y : y 0 = y0
  start_z : z 0 = z0
  vel_x : ∀ s, HasDerivAt x (Real.cos (ph - om * s)) s
  vel_y : ∀ s, HasDerivAt y (Real.sin (ph - om * s)) s
  vel_z : ∀ s, HasDerivAt z tl s

private theorem eq_of_deriv {f g : ℝ → ℝ} {v : ℝ → ℝ} (h0 : f 0 = g 0)
    (hf : ∀ s, HasDerivAt f (v s) s) (hg : ∀ s, HasDerivAt g (v s) s) : f = g := by
  have hd : ∀ s, HasDerivAt (fun s => f s - g s) 0 s := fun s => by
    have h := (hf s).sub (hg s)
    rw [sub_self] at h
    exact h
  have hc : ∀ a b, (fun s => f s - g s) a = (fun s => f s - g s) b :=
    is_const_of_deriv_eq_zero (fun s => (hd s).differentiableAt) (fun s => (hd s).deriv)
  funext s
  have := hc s 0
  simp only [h0, sub_self] at this
  linarith

/-- The specification determines the curve. -/
theorem IsTrack.unique {om tl ph x0 y0 z0 : ℝ} {x y z x' y' z' : ℝ → ℝ}
    (h : IsTrack om tl ph x0 y0 z0 x y z) (h' : IsTrack om tl ph x0 y0 z0 x' y' z') :
    x = x' ∧ y = y' ∧ z = z' :=
  ⟨eq_of_deriv (by rw [h.start_x, h'.start_x]) h.vel_x h'.vel_x,
   eq_of_deriv (by rw [h.start_y, h'.start_y]) h.vel_y h'.vel_y,
   eq_of_deriv (by rw [h.start_z, h'.start_z]) h.vel_z h'.vel_z⟩

end Verif.Spec
