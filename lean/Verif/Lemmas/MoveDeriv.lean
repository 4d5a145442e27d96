import Verif.Lemmas.Move
import Mathlib.Analysis.SpecialFunctions.Complex.LogDeriv
import Mathlib.Analysis.Calculus.Deriv.Inv
import Mathlib.Analysis.SpecialFunctions.Sqrt
import Mathlib.Analysis.Calculus.Deriv.Prod
import Mathlib.Analysis.Complex.RealDeriv

/-! Helper lemmas: the parameters computed by `moveHelixTo` as differentiable functions of the old
ones. -/

noncomputable section

namespace Verif

open Dbl Filter Topology

/-- `atan2` along a differentiable curve away from the cut -/
theorem ratan2_deriv {X Y : ℝ → ℝ} {X' Y' t : ℝ} (hX : HasDerivAt X X' t) (hY : HasDerivAt Y Y' t)
    (hne : ratan2 (Y t) (X t) ≠ Real.pi) (h0 : ¬ (X t = 0 ∧ Y t = 0)) :
    ∃ a, HasDerivAt (fun t => ratan2 (Y t) (X t)) a t := by
  have hG : HasDerivAt (fun t : ℝ => (X t : ℂ) + (Y t : ℂ) * Complex.I) ((X' : ℂ) + (Y' : ℂ) * Complex.I) t :=
    hX.ofReal_comp.add (hY.ofReal_comp.mul_const Complex.I)
  have he : ∀ t, ((X t : ℂ) + (Y t : ℂ) * Complex.I) = ⟨X t, Y t⟩ := by
    intro t; apply Complex.ext <;> simp
  have hs : ((X t : ℂ) + (Y t : ℂ) * Complex.I) ∈ Complex.slitPlane := by
    rw [Complex.mem_slitPlane_iff_arg, he]
    refine ⟨hne, ?_⟩
    intro hz
    exact h0 ⟨congrArg Complex.re hz, congrArg Complex.im hz⟩
  have hl := hG.clog_real hs
  refine ⟨((((X' : ℂ) + (Y' : ℂ) * Complex.I) / ((X t : ℂ) + (Y t : ℂ) * Complex.I))).im, ?_⟩
  have h2 : HasDerivAt (fun t : ℝ => (Complex.log ((X t : ℂ) + (Y t : ℂ) * Complex.I)).im) _ t :=
    (Complex.imCLM.hasFDerivAt.comp_hasDerivAt t hl)
  have h3 : (fun t : ℝ => (Complex.log ((X t : ℂ) + (Y t : ℂ) * Complex.I)).im) =
      fun t => ratan2 (Y t) (X t) := by
    funext u
    rw [Complex.log_im, he]; rfl
  rw [h3] at h2
  exact h2

section

variable {om tl ph d z fn dn fd zn : ℝ → ℝ} {om' tl' ph' d' z' : ℝ} {t₀ : ℝ} {rx ry rz vx vy vz : ℝ}

/-- implicit differentiation of the relation between old and new parameters -/
theorem move_deriv
    (hom : HasDerivAt om om' t₀) (htl : HasDerivAt tl tl' t₀) (hph : HasDerivAt ph ph' t₀)
    (hd : HasDerivAt d d' t₀) (hz : HasDerivAt z z' t₀)
    (h0 : om t₀ ≠ 0)
    (hrel : ∀ᶠ t in 𝓝 t₀, -Real.pi < fn t ∧ fn t ≤ Real.pi ∧ -Real.pi < fd t ∧ fd t ≤ Real.pi ∧
      om t * dn t < 1 ∧
      rCx (om t) (fn t) (dn t) vx = rCx (om t) (ph t) (d t) rx ∧
      rCy (om t) (fn t) (dn t) vy = rCy (om t) (ph t) (d t) ry ∧
      (∃ k : ℤ, fd t = fn t - ph t + k * (2 * Real.pi)) ∧
      zn t = rz - vz + z t - 1 / om t * tl t * fd t)
    (hfn : fn t₀ ≠ Real.pi) (hfd : fd t₀ ≠ Real.pi) :
    ∃ fn' dn' : ℝ, HasDerivAt fn fn' t₀ ∧ HasDerivAt dn dn' t₀ ∧
      HasDerivAt zn (z' - (-om' / om t₀ ^ 2 * tl t₀ * fd t₀ + 1 / om t₀ * tl' * fd t₀ +
        1 / om t₀ * tl t₀ * (fn' - ph'))) t₀ ∧
      (1 / om t₀ - dn t₀) * fn' = (om' / om t₀ ^ 2 + d') * Real.sin (fn t₀ - ph t₀) +
        (1 / om t₀ - d t₀) * Real.cos (fn t₀ - ph t₀) * ph' ∧
      -(om' / om t₀ ^ 2) - dn' = -(om' / om t₀ ^ 2 + d') * Real.cos (fn t₀ - ph t₀) +
        (1 / om t₀ - d t₀) * Real.sin (fn t₀ - ph t₀) * ph' := by
  have hpi := Real.pi_pos
  have hinv : HasDerivAt (fun t => 1 / om t) (-om' / om t₀ ^ 2) t₀ := by
    have := hom.inv h0
    have he : (fun t => 1 / om t) = om⁻¹ := by funext t; simp
    rw [he]; exact this
  have hA : HasDerivAt (fun t => 1 / om t - d t) (-om' / om t₀ ^ 2 - d') t₀ := hinv.sub hd
  have hCx : HasDerivAt (fun t => rCx (om t) (ph t) (d t) rx)
      ((-om' / om t₀ ^ 2 - d') * Real.sin (ph t₀) + (1 / om t₀ - d t₀) * (Real.cos (ph t₀) * ph')) t₀ :=
    (hA.mul hph.sin).const_add rx
  have hCy : HasDerivAt (fun t => rCy (om t) (ph t) (d t) ry)
      (-((-om' / om t₀ ^ 2 - d') * Real.cos (ph t₀) + (1 / om t₀ - d t₀) * (-Real.sin (ph t₀) * ph'))) t₀ :=
    (hA.mul hph.cos).const_sub ry
  -- the sign of omega is locally constant
  have hsg : ∀ᶠ t in 𝓝 t₀, om t ≠ 0 ∧ sg (om t) = sg (om t₀) := by
    rcases lt_or_gt_of_ne h0 with hn | hp
    · filter_upwards [hom.continuousAt.eventually_lt_const hn] with t ht
      exact ⟨ht.ne, by rw [sg_neg ht, sg_neg hn]⟩
    · filter_upwards [hom.continuousAt.eventually_const_lt hp] with t ht
      exact ⟨ht.ne', by rw [sg_pos ht, sg_pos hp]⟩
  set σ := sg (om t₀) with hσ
  have hσ2 : σ * σ = 1 := sg_sq h0
  -- pointwise consequences
  have key : ∀ t, om t ≠ 0 → sg (om t) = σ → (-Real.pi < fn t ∧ fn t ≤ Real.pi ∧ -Real.pi < fd t ∧ fd t ≤ Real.pi ∧
      om t * dn t < 1 ∧
      rCx (om t) (fn t) (dn t) vx = rCx (om t) (ph t) (d t) rx ∧
      rCy (om t) (fn t) (dn t) vy = rCy (om t) (ph t) (d t) ry ∧
      (∃ k : ℤ, fd t = fn t - ph t + k * (2 * Real.pi)) ∧
      zn t = rz - vz + z t - 1 / om t * tl t * fd t) →
      0 < σ * (1 / om t - dn t) ∧
      σ * (1 / om t - dn t) * Real.sin (fn t) = σ * (rCx (om t) (ph t) (d t) rx - vx) ∧
      σ * (1 / om t - dn t) * Real.cos (fn t) = -σ * (rCy (om t) (ph t) (d t) ry - vy) ∧
      fn t = ratan2 (σ * (rCx (om t) (ph t) (d t) rx - vx)) (-σ * (rCy (om t) (ph t) (d t) ry - vy)) ∧
      dn t = 1 / om t - σ * Real.sqrt ((rCx (om t) (ph t) (d t) rx - vx) ^ 2 + (rCy (om t) (ph t) (d t) ry - vy) ^ 2) := by
    rintro t hne hs ⟨a1, a2, -, -, a5, a6, a7, -, -⟩
    have hpos : 0 < σ * (1 / om t - dn t) := by
      have h1 : sg (om t) * (1 / om t - dn t) = |om t| * (1 - om t * dn t) / om t ^ 2 := by
        have : |om t| ≠ 0 := abs_ne_zero.mpr hne
        rw [sg]; field_simp; rw [sq_abs]
      rw [← hs, h1]
      have : 0 < om t ^ 2 := by positivity
      apply div_pos _ this
      apply mul_pos (abs_pos.mpr hne); linarith
    have h2 : σ * (1 / om t - dn t) * Real.sin (fn t) = σ * (rCx (om t) (ph t) (d t) rx - vx) := by
      rw [← a6, rCx]; ring
    have h3 : σ * (1 / om t - dn t) * Real.cos (fn t) = -σ * (rCy (om t) (ph t) (d t) ry - vy) := by
      rw [← a7, rCy]; ring
    refine ⟨hpos, h2, h3, ?_, ?_⟩
    · have := ratan2_polar hpos a1 a2
      rw [h2, h3] at this; exact this.symm
    · have h4 : (rCx (om t) (ph t) (d t) rx - vx) ^ 2 + (rCy (om t) (ph t) (d t) ry - vy) ^ 2 =
          (σ * (1 / om t - dn t)) ^ 2 := by
        have := Real.sin_sq_add_cos_sq (fn t)
        linear_combination (-(rCx (om t) (ph t) (d t) rx - vx) ^ 2 - (rCy (om t) (ph t) (d t) ry - vy) ^ 2) * hσ2 -
          (σ * (1 / om t - dn t) * Real.sin (fn t) + σ * (rCx (om t) (ph t) (d t) rx - vx)) * h2 -
          (σ * (1 / om t - dn t) * Real.cos (fn t) + -σ * (rCy (om t) (ph t) (d t) ry - vy)) * h3 +
          (σ * (1 / om t - dn t)) ^ 2 * this
      rw [h4, Real.sqrt_sq hpos.le]
      linear_combination (1 / om t - dn t) * hσ2
  have hev := hsg.and hrel
  have ht0 := hev.self_of_nhds
  obtain ⟨k1, k2, k3, k4, k5⟩ := key t₀ ht0.1.1 ht0.1.2 ht0.2
  obtain ⟨⟨-, -⟩, r1, r2, r3, r4, r5, r6, r7, ⟨k0, hk0⟩, r9⟩ := ht0
  -- fn is differentiable
  have hfn_ev : fn =ᶠ[𝓝 t₀] fun t => ratan2 (σ * (rCx (om t) (ph t) (d t) rx - vx)) (-σ * (rCy (om t) (ph t) (d t) ry - vy)) := by
    filter_upwards [hev] with t ht
    exact (key t ht.1.1 ht.1.2 ht.2).2.2.2.1
  have hne0 : ¬ (-σ * (rCy (om t₀) (ph t₀) (d t₀) ry - vy) = 0 ∧ σ * (rCx (om t₀) (ph t₀) (d t₀) rx - vx) = 0) := by
    rintro ⟨h1, h2⟩
    rw [← k2] at h2; rw [← k3] at h1
    have h1' := (mul_eq_zero.mp h1).resolve_left k1.ne'
    have h2' := (mul_eq_zero.mp h2).resolve_left k1.ne'
    have := Real.sin_sq_add_cos_sq (fn t₀)
    rw [h1', h2'] at this; norm_num at this
  obtain ⟨fn', hfn'⟩ := ratan2_deriv ((hCy.sub_const vy).const_mul (-σ)) ((hCx.sub_const vx).const_mul σ)
    (by rw [← k4]; exact hfn) hne0
  have hfnD : HasDerivAt fn fn' t₀ := hfn'.congr_of_eventuallyEq hfn_ev
  -- dn is differentiable
  have hdn_ev : dn =ᶠ[𝓝 t₀] fun t => 1 / om t - σ * Real.sqrt ((rCx (om t) (ph t) (d t) rx - vx) ^ 2 + (rCy (om t) (ph t) (d t) ry - vy) ^ 2) := by
    filter_upwards [hev] with t ht
    exact (key t ht.1.1 ht.1.2 ht.2).2.2.2.2
  have hsum : (rCx (om t₀) (ph t₀) (d t₀) rx - vx) ^ 2 + (rCy (om t₀) (ph t₀) (d t₀) ry - vy) ^ 2 ≠ 0 := by
    intro hc
    rw [hc, Real.sqrt_zero, mul_zero, sub_zero] at k5
    rw [k5, sub_self, mul_zero] at k1
    exact lt_irrefl _ k1
  have hdnE := hinv.sub ((((((hCx.sub_const vx).pow 2)).add (((hCy.sub_const vy).pow 2))).sqrt hsum).const_mul σ)
  obtain ⟨dn', hdn'⟩ : ∃ dn', HasDerivAt dn dn' t₀ := ⟨_, hdnE.congr_of_eventuallyEq hdn_ev⟩
  -- the implicit equations
  have hA' : HasDerivAt (fun t => 1 / om t - dn t) (-om' / om t₀ ^ 2 - dn') t₀ := hinv.sub hdn'
  have e1 : (-om' / om t₀ ^ 2 - dn') * Real.sin (fn t₀) + (1 / om t₀ - dn t₀) * (Real.cos (fn t₀) * fn') =
      (-om' / om t₀ ^ 2 - d') * Real.sin (ph t₀) + (1 / om t₀ - d t₀) * (Real.cos (ph t₀) * ph') := by
    have hL : HasDerivAt (fun t => vx + (1 / om t - dn t) * Real.sin (fn t)) _ t₀ := (hA'.mul hfnD.sin).const_add vx
    refine hL.unique (hCx.congr_of_eventuallyEq ?_)
    filter_upwards [hrel] with t ht
    exact ht.2.2.2.2.2.1
  have e2 : -((-om' / om t₀ ^ 2 - dn') * Real.cos (fn t₀) + (1 / om t₀ - dn t₀) * (-Real.sin (fn t₀) * fn')) =
      -((-om' / om t₀ ^ 2 - d') * Real.cos (ph t₀) + (1 / om t₀ - d t₀) * (-Real.sin (ph t₀) * ph')) := by
    have hL : HasDerivAt (fun t => vy - (1 / om t - dn t) * Real.cos (fn t)) _ t₀ := (hA'.mul hfnD.cos).const_sub vy
    refine hL.unique (hCy.congr_of_eventuallyEq ?_)
    filter_upwards [hrel] with t ht
    exact ht.2.2.2.2.2.2.1
  -- fd is differentiable
  have hfd_ev : fd =ᶠ[𝓝 t₀] fun t => fn t - ph t + k0 * (2 * Real.pi) := by
    have hcont : ContinuousAt (fun t => fn t - ph t + k0 * (2 * Real.pi)) t₀ :=
      ((hfnD.continuousAt.sub hph.continuousAt)).add continuousAt_const
    have hlt : fd t₀ < Real.pi := lt_of_le_of_ne r4 hfd
    have l1 := hcont.eventually_lt_const (u := Real.pi) (by show fn t₀ - ph t₀ + k0 * (2 * Real.pi) < _; rw [← hk0]; exact hlt)
    have l2 := hcont.eventually_const_lt (u := -Real.pi) (by show _ < fn t₀ - ph t₀ + k0 * (2 * Real.pi); rw [← hk0]; exact r3)
    filter_upwards [l1, l2, hrel] with t g1 g2 g3
    obtain ⟨-, -, g4, g5, -, -, -, ⟨k, hk⟩, -⟩ := g3
    have hkk : k = k0 := by
      have h1 : ((k - k0 : ℤ) : ℝ) < 1 := by
        by_contra hc; push Not at hc; push_cast at hc; nlinarith
      have h2 : (-1 : ℝ) < ((k - k0 : ℤ) : ℝ) := by
        by_contra hc; push Not at hc; push_cast at hc; nlinarith
      have h3 : k - k0 < (1 : ℤ) := by exact_mod_cast h1
      have h4 : (-1 : ℤ) < k - k0 := by exact_mod_cast h2
      omega
    rw [hk, hkk]
  have hfdD : HasDerivAt fd (fn' - ph') t₀ :=
    ((hfnD.sub hph).add_const _).congr_of_eventuallyEq hfd_ev
  have hznD : HasDerivAt (fun t => rz - vz + z t - 1 / om t * tl t * fd t) _ t₀ :=
    (hz.const_add (rz - vz)).sub ((hinv.mul htl).mul hfdD)
  have hzn_ev : zn =ᶠ[𝓝 t₀] fun t => rz - vz + z t - 1 / om t * tl t * fd t := by
    filter_upwards [hrel] with t ht
    exact ht.2.2.2.2.2.2.2.2
  refine ⟨fn', dn', hfnD, hdn', ?_, ?_, ?_⟩
  · have := hznD.congr_of_eventuallyEq hzn_ev
    refine this.congr_deriv ?_
    simp only [Pi.mul_apply]
    ring
  · rw [Real.sin_sub, Real.cos_sub]
    have := Real.sin_sq_add_cos_sq (fn t₀)
    linear_combination Real.cos (fn t₀) * e1 + Real.sin (fn t₀) * e2 - (1 / om t₀ - dn t₀) * fn' * this
  · rw [Real.sin_sub, Real.cos_sub]
    have := Real.sin_sq_add_cos_sq (fn t₀)
    linear_combination Real.sin (fn t₀) * e1 - Real.cos (fn t₀) * e2 - (-om' / om t₀ ^ 2 - dn') * this

end

end Verif
