import Verif.Props.EnergyLoss
import Verif.Props.GblExample
import Verif.Props.TrackMaterial
import Verif.Props.Propagation
import Mathlib.Analysis.SpecialFunctions.Sqrt
import Mathlib.Analysis.Calculus.Deriv.Inv

/-!
# C89: the energy loss in the Jacobian

The first entry of the Jacobian is to describe how a change of q/p before the material changes q/p after it, for a given energy loss.
-/

open Classical

noncomputable section

namespace Verif

open Dbl Traj Spec

/-! ## specification -/

/-- 1/p after the loss of the energy `D`, for a particle of mass `m` with 1/p = `k` before -/
def invMomentumAfter (m D k : ℝ) : ℝ := 1 / Real.sqrt ((energyOf (1 / k) m - D) ^ 2 - m ^ 2)

/-- its derivative with respect to `k`, at the momentum `p` -/
def invMomentumSlope (m p D : ℝ) : ℝ :=
  p ^ 3 * (energyOf p m - D) / (Real.sqrt ((energyOf p m - D) ^ 2 - m ^ 2) ^ 3 * energyOf p m)

/-- velocity -/
def betaOf (p m : ℝ) : ℝ := p / energyOf p m

theorem energyOf_pos {p : ℝ} (hp : 0 < p) (m : ℝ) : 0 < energyOf p m := Real.sqrt_pos.2 (by positivity)

theorem energyOf_sq (p m : ℝ) : energyOf p m ^ 2 = p ^ 2 + m ^ 2 := Real.sq_sqrt (by positivity)

/-- C89: `invMomentumSlope` is the derivative of 1/p after the loss with respect to 1/p before, as long as the particle is not stopped. -/
theorem C89_derivative {m p D : ℝ} (hp : 0 < p) (hD : |m| < energyOf p m - D) :
    HasDerivAt (invMomentumAfter m D) (invMomentumSlope m p D) (1 / p) := by
  have hE := energyOf_pos hp m
  have hq : 0 < (energyOf p m - D) ^ 2 - m ^ 2 := by
    have := abs_nonneg m
    nlinarith [sq_abs m]
  have hs := Real.sqrt_pos.2 hq
  have hk : (1 / p : ℝ) ≠ 0 := (one_div_pos.2 hp).ne'
  have h1 : HasDerivAt (fun k : ℝ => 1 / k) (-p ^ 2) (1 / p) := by
    have := hasDerivAt_inv hk
    simp only [one_div, inv_pow, inv_inv] at this ⊢
    exact this
  have h2 : HasDerivAt (fun k : ℝ => (1 / k) ^ 2 + m ^ 2) (-2 * p ^ 3) (1 / p) := by
    have := (h1.fun_pow 2).add_const (m ^ 2)
    refine this.congr_deriv ?_
    rw [one_div_one_div]; push_cast; ring
  have hv : (1 / (1 / p)) ^ 2 + m ^ 2 ≠ 0 := by rw [one_div_one_div]; positivity
  have h3 : HasDerivAt (fun k : ℝ => energyOf (1 / k) m) (-p ^ 3 / energyOf p m) (1 / p) := by
    have := h2.sqrt hv
    rw [one_div_one_div] at this
    refine this.congr_deriv ?_
    unfold energyOf
    field_simp
  have h4 : HasDerivAt (fun k : ℝ => (energyOf (1 / k) m - D) ^ 2 - m ^ 2) (2 * (energyOf p m - D) * (-p ^ 3 / energyOf p m)) (1 / p) := by
    have := ((h3.sub_const D).fun_pow 2).sub_const (m ^ 2)
    refine this.congr_deriv ?_
    rw [one_div_one_div]; push_cast; ring
  have h5 := h4.sqrt (by rw [one_div_one_div]; exact hq.ne')
  rw [one_div_one_div] at h5
  have h6 := h5.fun_inv (by rw [one_div_one_div]; exact hs.ne')
  rw [one_div_one_div] at h6
  have e : (invMomentumAfter m D) = fun k => (Real.sqrt ((energyOf (1 / k) m - D) ^ 2 - m ^ 2))⁻¹ := by
    funext k
    rw [invMomentumAfter, one_div]
  rw [e]
  refine h6.congr_deriv ?_
  unfold invMomentumSlope
  generalize Real.sqrt ((energyOf p m - D) ^ 2 - m ^ 2) = s at *
  field_simp

theorem invMomentumSlope_zero {m p : ℝ} (hp : 0 < p) : invMomentumSlope m p 0 = 1 := by
  have hE := energyOf_pos hp m
  unfold invMomentumSlope
  rw [sub_zero, energyOf_sq, add_sub_cancel_right, Real.sqrt_sq hp.le]
  field_simp

/-- C89: the change of this derivative with the energy loss -/
theorem C89_first_order {m p : ℝ} (hp : 0 < p) :
    HasDerivAt (invMomentumSlope m p) ((3 / betaOf p m ^ 2 - 1) / energyOf p m) 0 := by
  have hE := energyOf_pos hp m
  have hsq := energyOf_sq p m
  have h1 : HasDerivAt (fun D : ℝ => energyOf p m - D) (-1) 0 := by
    simpa using (hasDerivAt_id (0 : ℝ)).const_sub (energyOf p m)
  have h2 : HasDerivAt (fun D : ℝ => (energyOf p m - D) ^ 2 - m ^ 2) (-2 * energyOf p m) 0 := by
    have := (h1.fun_pow 2).sub_const (m ^ 2)
    refine this.congr_deriv ?_
    push_cast; ring
  have h0 : (energyOf p m - 0) ^ 2 - m ^ 2 = p ^ 2 := by rw [sub_zero, hsq]; ring
  have h3 := h2.sqrt (by rw [h0]; positivity)
  rw [h0, Real.sqrt_sq hp.le] at h3
  have h4 := (h3.fun_pow 3).mul_const (energyOf p m)
  have h5 := (h1.const_mul (p ^ 3)).fun_div h4 (by rw [h0, Real.sqrt_sq hp.le]; positivity)
  rw [h0, Real.sqrt_sq hp.le, sub_zero] at h5
  refine h5.congr_deriv ?_
  unfold betaOf
  push_cast
  field_simp
  ring

/-! ## the code -/

/-- C89: the energy loss entry for an element with material whose surface is crossed by the track -/
theorem C89_entry {env : Env} {e : Element} {surf : Surface} {hit : Hit} {om tl ph d z rx ry rz x y zz bx by' B m D : ℝ}
    (hs : e.scatterer = true) (hsurf : e.surface = some surf) (hhp : e.tp.hp = hpR om tl ph d z) (hrp : e.tp.rp = V3.re rx ry rz)
    (hhit : intersectWithSurface surf e.tp.hp e.tp.rp 0 V3.zero 0 true = .ok hit) (hf : hit.found = true)
    (hx : hit.xx = V3.re x y zz) (hB : env.globalField hit.xx = V3.re bx by' B) (ho : om ≠ 0) (hB0 : B ≠ 0)
    {el : ELoss} (hel : computeEnergyLossTrack env.globalField surf e.tp none none (fin m) = .ok el) (hD : el.deltaE = fin D) :
    energyLossEntry env (fin m) e = .ok (fin (2 * D / (betaOf (momentumOf om tl B) m ^ 2 * energyOf (momentumOf om tl B) m))) := by
  have hp := momentumOf_pos (tl := tl) ho hB0
  have hE := energyOf_pos hp m
  have hel' := hel
  unfold computeEnergyLossTrack at hel
  rw [hhit, Out.ok_bind, if_pos hf, hhp, hrp, hx] at hel
  have hphi := phiXY_re (om := om) (tl := tl) (ph := ph) (d := d) (z := z) (rx := rx) (ry := ry) (rz := rz) x y
  rw [hx] at hB
  simp only [V3.re] at hel hphi hB
  simp only [hphi, hB, calculateOmega_hpR, calculateTanLambda_hpR, one_eq, fin_div _ ho, abs_fin, convertBr2P_cm, fin_mul, cos_fin,
    sin_fin, Out.pure_eq] at hel
  injection hel with hel
  generalize ratan2 _ _ = f at hel
  set c := |1 / om| * B * (0.299792458 * (1 / 100)) with hc
  have hr : V3.r ⟨fin (c * Real.cos f), fin (c * Real.sin f), fin (c * tl)⟩ = fin (momentumOf om tl B) := by
    have e : c * Real.cos f * (c * Real.cos f) + c * Real.sin f * (c * Real.sin f) + c * tl * (c * tl) = c ^ 2 * (1 + tl ^ 2) := by
      have := Real.sin_sq_add_cos_sq f
      linear_combination c ^ 2 * this
    simp only [V3.r, fin_mul, fin_add]
    rw [e, sqrt_fin (by positivity), Real.sqrt_mul (sq_nonneg _), Real.sqrt_sq_eq_abs]
    unfold momentumOf
    congr 2
    simp only [hc, abs_mul, abs_abs, abs_div, abs_one]
    rw [abs_of_pos (show (0 : ℝ) < 0.299792458 by norm_num), abs_of_pos (show (0 : ℝ) < 100 by norm_num)]
    ring
  have hen : Dbl.sqrt (fin (momentumOf om tl B) * fin (momentumOf om tl B) + fin m * fin m) = fin (energyOf (momentumOf om tl B) m) := by
    rw [fin_mul, fin_mul, fin_add, sqrt_fin (add_nonneg (mul_self_nonneg _) (mul_self_nonneg _))]
    unfold energyOf
    rw [sq, sq]
  have h1 : el.energy = some (fin (energyOf (momentumOf om tl B) m)) := by
    rw [← hel]
    simp only [computeEnergyLoss, hr, hen]
  have h2 : el.beta = some (fin (betaOf (momentumOf om tl B) m)) := by
    rw [← hel]
    simp only [computeEnergyLoss, hr, hen, fin_div _ hE.ne', betaOf]
  have hb : betaOf (momentumOf om tl B) m ≠ 0 := div_ne_zero hp.ne' hE.ne'
  unfold energyLossEntry
  rw [if_pos hs, hsurf]
  simp only [hel', Out.ok_bind, h1, h2, hD, ofNat_eq, fin_mul]
  rw [fin_div _ (mul_ne_zero (mul_ne_zero hb hb) hE.ne'), sq]

/-- C89 is false: for a particle with mass the entry 1 + 2 D / (β² E) does not agree with the derivative in first order of the loss. -/
theorem C89_false {m p : ℝ} (hp : 0 < p) (hm : m ≠ 0) :
    ¬ HasDerivAt (invMomentumSlope m p) (2 / (betaOf p m ^ 2 * energyOf p m)) 0 := by
  intro h
  have hE := energyOf_pos hp m
  have hsq := energyOf_sq p m
  have := h.unique (C89_first_order hp)
  unfold betaOf at this
  field_simp at this
  have hm2 : 0 < m ^ 2 := by positivity
  nlinarith

/-- C89 (partial): for a massless particle it does.  Missing for C89: particles with mass (`C89_false`). -/
theorem C89_massless_partial {p : ℝ} (hp : 0 < p) :
    HasDerivAt (invMomentumSlope 0 p) (2 / (betaOf p 0 ^ 2 * energyOf p 0)) 0 := by
  have hE : energyOf p 0 = p := by
    unfold energyOf
    rw [show p ^ 2 + (0 : ℝ) ^ 2 = p ^ 2 by ring, Real.sqrt_sq hp.le]
  have := C89_first_order (m := 0) hp
  rw [betaOf, hE, div_self hp.ne'] at *
  refine this.congr_deriv ?_
  norm_num

/-- C89: this entry is used as 1 + entry in the first place of the Jacobian. -/
theorem C89_jacobian {w qop loss : ℝ} {T0 T b : R3} (hb : b ≠ 0) (hqop : qop ≠ 0) (h0 : cosDip T0 ≠ 0) (h1 : cosDip T ≠ 0) :
    analyticalJacobian M5.zero (fin w) (fin qop) (V3.of T0) (V3.of T) (V3.of b) (fin loss) 0 0 = fin (1 + loss) := by
  rw [analyticalJacobian_motion hb hqop h0 h1]
  rfl

/-! ### compared with the change of the curvature made by the code itself -/

/-- the curvature after the loss according to the code (`lossHp_re`), in units in which the curvature is 1/p -/
def curvatureAfter (m D k : ℝ) : ℝ := k / (1 - D / energyOf (1 / k) m)

/-- C89: its derivative, with δ = D/E -/
theorem C89_reference {m p D : ℝ} (hp : 0 < p) (hD : D ≠ energyOf p m) :
    HasDerivAt (curvatureAfter m D) (1 / (1 - D / energyOf p m) +
      D / energyOf p m * betaOf p m ^ 2 / (1 - D / energyOf p m) ^ 2) (1 / p) := by
  have hE := energyOf_pos hp m
  have hk : (1 / p : ℝ) ≠ 0 := (one_div_pos.2 hp).ne'
  have h1 : HasDerivAt (fun k : ℝ => 1 / k) (-p ^ 2) (1 / p) := by
    have := hasDerivAt_inv hk
    simp only [one_div, inv_pow, inv_inv] at this ⊢
    exact this
  have h2 : HasDerivAt (fun k : ℝ => (1 / k) ^ 2 + m ^ 2) (-2 * p ^ 3) (1 / p) := by
    have := (h1.fun_pow 2).add_const (m ^ 2)
    refine this.congr_deriv ?_
    rw [one_div_one_div]; push_cast; ring
  have hv : (1 / (1 / p)) ^ 2 + m ^ 2 ≠ 0 := by rw [one_div_one_div]; positivity
  have h3 : HasDerivAt (fun k : ℝ => energyOf (1 / k) m) (-p ^ 3 / energyOf p m) (1 / p) := by
    have := h2.sqrt hv
    rw [one_div_one_div] at this
    refine this.congr_deriv ?_
    unfold energyOf
    field_simp
  have hd : 1 - D / energyOf p m ≠ 0 := by
    intro h
    exact hD ((div_eq_one_iff_eq hE.ne').mp (by linarith))
  have hd' : energyOf p m - D ≠ 0 := fun h => hD (by linarith)
  have h4 := ((hasDerivAt_const (1 / p) D).fun_div h3 (by rw [one_div_one_div]; exact hE.ne')).const_sub 1
  have h5 := (hasDerivAt_id (1 / p)).fun_div h4 (by rw [one_div_one_div]; exact hd)
  rw [one_div_one_div] at h5
  refine h5.congr_deriv ?_
  unfold betaOf
  simp only [id]
  generalize energyOf p m = E at *
  field_simp
  ring

/-- C89 is false also compared with the change of curvature made by the code: to first order in the loss that is (1 + β²) D / E. -/
theorem C89_reference_false {m p : ℝ} (hp : 0 < p) (hm : m ≠ 0) :
    HasDerivAt (fun D => 1 / (1 - D / energyOf p m) + D / energyOf p m * betaOf p m ^ 2 / (1 - D / energyOf p m) ^ 2)
      ((1 + betaOf p m ^ 2) / energyOf p m) 0 ∧ 2 / (betaOf p m ^ 2 * energyOf p m) ≠ (1 + betaOf p m ^ 2) / energyOf p m := by
  have hE := energyOf_pos hp m
  have hsq := energyOf_sq p m
  constructor
  · have h1 : HasDerivAt (fun D : ℝ => D / energyOf p m) (1 / energyOf p m) 0 := (hasDerivAt_id (0 : ℝ)).div_const _
    have h2 := h1.const_sub 1
    have h3 := (hasDerivAt_const (0 : ℝ) (1 : ℝ)).fun_div h2 (by simp)
    have h4 := (h1.mul_const (betaOf p m ^ 2)).fun_div (h2.fun_pow 2) (by simp)
    refine (h3.fun_add h4).congr_deriv ?_
    simp
    field_simp
  · intro h
    have hb0 : 0 < betaOf p m ^ 2 := by unfold betaOf; positivity
    have hb1 : betaOf p m ^ 2 < 1 := by
      have hm2 : 0 < m ^ 2 := by positivity
      rw [betaOf, div_pow, div_lt_one (by positivity)]
      linarith
    generalize betaOf p m ^ 2 = b at *
    field_simp at h
    nlinarith

/-! ### elements -/

open Example in
/-- C89, witness: a track that crosses the disk of the example.  The energy lost is proportional to the thickness, the entry is
2 D / (β² E), and the particle has mass, so that `C89_false` applies. -/
theorem C89_code_false (id : ℕ) : ∃ (p c : ℝ), 0 < p ∧ 0 < c ∧ ∀ th : ℝ, ∃ e : Element,
    e.tp = tp ∧ e.surface = some (diskT th) ∧ e.scatterer = true ∧ e.id = id ∧
    (∃ el, computeEnergyLossTrack env.globalField (diskT th) tp none none pionMass = .ok el ∧ el.deltaE = fin (c * th)) ∧
    energyLossEntry env pionMass e =
      .ok (fin (2 * (c * th) / (betaOf p 0.13957018 ^ 2 * energyOf p 0.13957018))) ∧
    ¬ HasDerivAt (invMomentumSlope 0.13957018 p) (2 / (betaOf p 0.13957018 ^ 2 * energyOf p 0.13957018)) 0 := by
  obtain ⟨b, hb0, hb⟩ := bethe_pos
  have hpr : 0 < pt / pp := div_pos pt_pos pp_pos
  have hp : 0 < momentumOf 1 1 3 := momentumOf_pos one_ne_zero (by norm_num)
  refine ⟨momentumOf 1 1 3, b * 2 / (pt / pp), hp, by positivity, fun th => ?_⟩
  obtain ⟨sv, hit, e1, e2, e3, -, -, e6⟩ := C30_disk (om := 1) (tl := 1) (ph := 0) (d := 0) (z := 0) (rx := 0) (ry := 0) (rz := 0)
    one_ne_zero one_ne_zero (diskT th) 0 0 1 rfl 0 V3.zero 0 true
  have hf : hit.found = true := by
    rw [e6]
    exact ⟨Or.inl rfl, fun _ => rfl⟩
  have hx : intersectWithSurface (diskT th) tp.hp tp.rp 0 V3.zero 0 true = .ok hit := by
    unfold intersectWithSurface
    rw [if_neg (by simp [diskT, diskB, SurfaceType.isZCylinder]), if_neg (by simp [diskT, diskB, SurfaceType.isZPlane]),
      if_pos (by simp [diskT, diskB, SurfaceType.isZDisk])]
    exact e1
  rw [pointAt_re one_ne_zero] at e3
  have hel : ∃ el, computeEnergyLossTrack env.globalField (diskT th) tp none none pionMass = .ok el ∧
      el.deltaE = fin (b * 2 / (pt / pp) * th) := by
    have hd : ∀ f uv, (computeEnergyLoss (diskT th) uv (V3.re (pt * Real.cos f) (pt * Real.sin f) (pt * 1)) pionMass).deltaE =
        fin (b * 2 / (pt / pp) * th) := by
      intro f uv
      unfold computeEnergyLoss
      simp only [mom_r, show (diskT th).innerMaterial = mat from rfl, show (diskT th).outerMaterial = mat from rfl, hb,
        show (diskT th).innerThickness = fin th from rfl, show (diskT th).outerThickness = fin 0 from rfl,
        show ∀ x, (diskT th).normal x = V3.re 0 0 1 from fun _ => rfl, mom_cos, fin_div _ hpr.ne', show mat.density = fin 2 from rfl,
        fin_mul, fin_add, zero_div, mul_zero, add_zero]
      congr 1
      ring
    refine ⟨_, ?_, hd (ratan2 (Real.sin 0 - 1 * (rX 1 0 0 0 sv - (0 - 0 * Real.sin 0)))
      (Real.cos 0 + 1 * (rY 1 0 0 0 sv - (0 + 0 * Real.cos 0)))) ((diskT th).globalToLocal hit.xx)⟩
    have hphi := phiXY_re (om := 1) (tl := 1) (ph := 0) (d := 0) (z := 0) (rx := 0) (ry := 0) (rz := 0) (rX 1 0 0 0 sv) (rY 1 0 0 0 sv)
    unfold computeEnergyLossTrack
    rw [hx, Out.ok_bind, if_pos hf]
    have hphi' : calculatePhifromXY hit.xx.x hit.xx.y (hpR 1 1 0 0 0) tp.rp = fin (ratan2 (Real.sin 0 - 1 * (rX 1 0 0 0 sv - (0 - 0 * Real.sin 0)))
      (Real.cos 0 + 1 * (rY 1 0 0 0 sv - (0 + 0 * Real.cos 0)))) := by rw [e3]; exact hphi
    simp only [hphi', show tp.hp = hpR 1 1 0 0 0 from rfl, calculateOmega_hpR, calculateTanLambda_hpR,
      show env.globalField hit.xx = V3.re 0 0 3 from rfl, V3.re, one_eq, fin_div _ (one_ne_zero (α := ℝ)), abs_fin, convertBr2P_cm,
      fin_mul, cos_fin, sin_fin, div_one, abs_one, pt, Out.pure_eq]
  obtain ⟨el, hel, hD⟩ := hel
  refine ⟨⟨0, tp, none, some (diskT th), false, none, [], [], none, none, true, id⟩, rfl, rfl, rfl, rfl, ⟨el, hel, hD⟩, ?_,
    C89_false hp (by norm_num)⟩
  have := C89_entry (env := env) (e := ⟨0, tp, none, some (diskT th), false, none, [], [], none, none, true, id⟩) (surf := diskT th)
    (m := 0.13957018) (B := 3) rfl rfl rfl rfl hx hf e3 rfl one_ne_zero (by norm_num) (el := el)
    (by simpa [pionMass, ofSci_eq] using hel) hD
  simpa [pionMass, ofSci_eq] using this

open Example in
/-- C89 is false for a measurement that is not declared a scatterer: the curvature changes, but the entry is 0. -/
theorem C89_measurement_false (pos : V3) (prec : List Dbl) (id : ℕ) : ∃ (surf : Surface) (e : Element) (om : ℝ),
    (make tp).step env (.measurement pos prec surf id false) =
      ({ (make tp).withStart with elems := (make tp).withStart.elems ++ [e] }, .ok true) ∧
    tp.hp OMEGA = fin 1 ∧ e.tp.hp OMEGA = fin om ∧ om ≠ 1 ∧ energyLossEntry env pionMass e = .ok (fin 0) := by
  obtain ⟨c, fn, hc0, -, hc⟩ := added_at pos prec id false
  have hct : 1 - c * (1 / (2 * c)) = 1 / 2 := by field_simp; norm_num
  obtain ⟨e, he, hp⟩ := hc (1 / (2 * c)) (by rw [hct]; norm_num)
  have h : ((make tp).step env (.measurement pos prec (diskT (1 / (2 * c))) id false)).2 = .ok true := by rw [he]
  have hs : e.scatterer = false := by
    obtain ⟨back, e', -, q2, q3⟩ := measurement_step h
    obtain ⟨hit, tp', w, proj, -, -, -, -, rfl⟩ := measurement_ok q3
    rw [he] at q2
    have := (List.append_cancel_left q2 : [e] = _)
    injection this with this
    rw [this]
  refine ⟨_, e, 1 / (1 - c * (1 / (2 * c))), he, rfl, by rw [hp]; rfl, ?_, ?_⟩
  · rw [hct]; norm_num
  · unfold energyLossEntry
    rw [hs, zero_eq]
    rfl

end Verif
