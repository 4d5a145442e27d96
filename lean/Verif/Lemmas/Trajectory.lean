import Verif.Model.Trajectory
import Verif.Props.SurfaceHits
import Verif.Props.MoveHelix

/-!
# Lemmas on intersections in forward direction and on moving to a point of the track
-/

noncomputable section

namespace Verif

open Dbl Spec

/-- General position of a track with respect to a surface: for cylinders and planes parallel to z the conditions
under which the intersection with them is covered (`CylCase`, `PlaneCase`); a disk needs a finite origin, other
surfaces (cones, unsupported ones) nothing. -/
inductive GenPos (surf : Surface) : V5 → V3 → Prop
  | cylinder {om tl ph d z rx ry rz a b c rho : ℝ} (h : surf.type.isZCylinder = true)
      (C : CylCase surf om tl ph d z rx ry rz a b c rho) : GenPos surf (hpR om tl ph d z) (V3.re rx ry rz)
  | plane {om tl ph d z rx ry rz n0 n1 ox oy oz cx cy r : ℝ} (h1 : surf.type.isZCylinder = false)
      (h2 : surf.type.isZPlane = true) (C : PlaneCase surf om tl ph d z rx ry rz n0 n1 ox oy oz cx cy r) :
      GenPos surf (hpR om tl ph d z) (V3.re rx ry rz)
  | disk {hp : V5} {rp : V3} {ox oy oz : ℝ} (h1 : surf.type.isZCylinder = false) (h2 : surf.type.isZPlane = false)
      (h3 : surf.type.isZDisk = true) (ho : surf.origin = V3.re ox oy oz) : GenPos surf hp rp
  | other {hp : V5} {rp : V3} (h1 : surf.type.isZCylinder = false) (h2 : surf.type.isZPlane = false)
      (h3 : surf.type.isZDisk = false) : GenPos surf hp rp

variable {surf : Surface} {hp : V5} {rp : V3} {s : Dbl} {xx : V3} {mode : ℤ} {cb : Bool} {hit : Hit}
  {om tl ph d z rx ry rz n0 n1 ox oy oz cx cy r : ℝ}

theorem cone_newton (hr : intersectWithZCone surf hp rp s xx mode cb = .ok hit) (hf : hit.found = true) :
    ∃ s' xx', intersectWithSurfaceNewton surf hp rp s' xx' mode cb = .ok hit := by
  unfold intersectWithZCone at hr
  rw [Out.bind_eq_ok] at hr
  obtain ⟨h, -, hr⟩ := hr
  by_cases hh : h.found = true
  · rw [if_pos hh] at hr; exact ⟨_, _, hr⟩
  · rw [if_neg hh] at hr
    injection hr with hr
    rw [← hr] at hf
    simp at hf

/-- a reported intersection with a plane in general position is a track point within half a turn -/
theorem plane_on_track (C : PlaneCase surf om tl ph d z rx ry rz n0 n1 ox oy oz cx cy r) (hm : mode ≠ 0)
    (hr : intersectWithZPlane surf (hpR om tl ph d z) (V3.re rx ry rz) s xx mode cb = .ok hit)
    (hf : hit.found = true) :
    ∃ sv : ℝ, hit.s = fin sv ∧ |om * sv| < Real.pi ∧ (0 < mode → 0 ≤ sv) ∧
      hit.xx = pointAt (fin sv) (hpR om tl ph d z) (V3.re rx ry rz) := by
  rcases lt_or_ge (clDisc cx cy r n0 n1 |ox * n0 + oy * n1|) 0 with h0 | h0
  · rcases lt_or_ge (clDisc cx cy r n0 n1 |ox * n0 + oy * n1|) (-1e-9) with h1 | h1
    · rw [plane_apart C h1] at hr
      injection hr with hr
      rw [← hr] at hf; simp at hf
    · rw [plane_window C h1 h0, cif_neg hm] at hr
      injection hr with hr
      rw [← hr] at hf; simp at hf
  · rcases le_or_gt (clDisc cx cy r n0 n1 |ox * n0 + oy * n1|) 1e-9 with h1 | h1
    · obtain ⟨sv, b, -, e⟩ := plane_touch C h0 h1 s xx mode cb
      rw [e] at hr
      by_cases hc : mode = 0 ∨ 0 < (mode : ℝ) * sv
      · rw [cif_pos hc] at hr
        injection hr with hr
        rw [← hr]
        refine ⟨sv, rfl, b, fun hp => ?_, rfl⟩
        rcases hc with hc | hc
        · omega
        · have hp' : (0 : ℝ) < mode := by exact_mod_cast hp
          exact (pos_of_mul_pos_right hc hp'.le).le
      · rw [cif_neg hc] at hr
        injection hr with hr
        rw [← hr] at hf; simp at hf
    · rcases plane_cross C h1 s xx mode cb with ⟨e, -⟩ | ⟨sv, b, hmt, e, q⟩
      · rw [e] at hr
        injection hr with hr
        rw [← hr] at hf; simp at hf
      · rw [e] at hr
        injection hr with hr
        rw [← hr]
        exact ⟨sv, rfl, b, fun hp => ((q sv b hmt).1 hp).1, rfl⟩

/-- forward search: a reported path length is not negative -/
theorem forward_nonneg (G : GenPos surf hp rp) (hm : 0 < mode)
    (hr : intersectWithSurface surf hp rp s xx mode cb = .ok hit) (hf : hit.found = true) : 0 ≤ hit.s := by
  have lift : ∀ x : Dbl, 0 < x → 0 ≤ x := by
    intro x hx
    cases x with
    | fin x => rw [zero_eq, fin_lt] at hx; rw [zero_eq, fin_le]; exact hx.le
    | inf t => rw [zero_eq, fin_lt_inf] at hx; rw [zero_eq, fin_le_inf]; exact hx
    | nan => exact absurd hx (not_lt_nan _)
  unfold intersectWithSurface at hr
  cases G with
  | cylinder h C =>
    rw [if_pos h] at hr
    obtain ⟨sv, e, h1, -⟩ := C34_cylinder C s xx mode cb hit hr hf
    rw [e, zero_eq, fin_le]; exact h1 hm
  | plane h1 h2 C =>
    rw [if_neg (by simp [h1]), if_pos h2] at hr
    obtain ⟨sv, e, -, h1, -⟩ := plane_on_track C (by omega) hr hf
    rw [e, zero_eq, fin_le]; exact h1 hm
  | disk h1 h2 h3 ho =>
    rw [if_neg (by simp [h1]), if_neg (by simp [h2]), if_pos h3] at hr
    exact lift _ ((C34_disk hp rp s xx mode cb hit hr hf).1 hm)
  | other h1 h2 h3 =>
    rw [if_neg (by simp [h1]), if_neg (by simp [h2]), if_neg (by simp [h3])] at hr
    by_cases hc : surf.isCone = true
    · rw [if_pos hc] at hr
      obtain ⟨s', xx', hr⟩ := cone_newton hr hf
      exact lift _ ((C34_newton hp rp s' xx' mode cb hit hr hf).1 hm)
    · rw [if_neg hc] at hr
      injection hr with hr
      rw [← hr] at hf; simp at hf

/-- a reported intersection with finite path length is the track point at this path length; for cylinders and planes it
is finite and within half a turn -/
theorem hit_on_track (G : GenPos surf (hpR om tl ph d z) (V3.re rx ry rz)) (hom : om ≠ 0) (hm : mode ≠ 0)
    (hr : intersectWithSurface surf (hpR om tl ph d z) (V3.re rx ry rz) s xx mode cb = .ok hit)
    (hf : hit.found = true) :
    ((surf.type.isZCylinder = true ∨ surf.type.isZPlane = true) → ∃ sv : ℝ, hit.s = fin sv ∧ |om * sv| < Real.pi) ∧
    (∀ sv : ℝ, hit.s = fin sv → hit.xx = pointAt (fin sv) (hpR om tl ph d z) (V3.re rx ry rz)) := by
  unfold intersectWithSurface at hr
  generalize hhp : hpR om tl ph d z = hp at *
  generalize hrp : V3.re rx ry rz = rp at *
  cases G with
  | @cylinder om' _ _ _ _ _ _ _ _ _ _ _ h C =>
    rw [if_pos h] at hr
    have e0 : om = om' := (fin_inj om om').mp (congrFun hhp OMEGA)
    obtain ⟨sv, px, py, pz, e, b, e1, e2, -⟩ := C32_sound C s xx mode cb hit hr hf
    refine ⟨fun _ => ⟨sv, e, by rw [e0]; exact b⟩, fun sv' h' => ?_⟩
    rw [e, fin_inj] at h'
    rw [← h', e1, e2]
  | @plane om' _ _ _ _ _ _ _ _ _ _ _ _ _ _ _ h1 h2 C =>
    rw [if_neg (by simp [h1]), if_pos h2] at hr
    obtain ⟨sv, e, b, -, e1⟩ := plane_on_track C hm hr hf
    have e0 : om = om' := (fin_inj om om').mp (congrFun hhp OMEGA)
    refine ⟨fun _ => ⟨sv, e, by rw [e0]; exact b⟩, fun sv' h' => ?_⟩
    rw [e, fin_inj] at h'
    rw [← h', e1]
  | @disk _ _ ox oy oz h1 h2 h3 ho =>
    refine ⟨fun h => by simp [h1, h2] at h, ?_⟩
    rw [if_neg (by simp [h1]), if_neg (by simp [h2]), if_pos h3] at hr
    subst hhp hrp
    intro sv h'
    by_cases ht : tl = 0
    · exfalso
      subst ht
      unfold intersectWithZDisk at hr
      have e : calculateZ0 (hpR om 0 ph d z) = fin z := rfl
      simp only [ho, V3.re, e, calculateTanLambda_hpR, fin_add, fin_sub] at hr
      have hs : hit.s = fin (oz - (rz + z)) / fin 0 := by
        revert hr
        refine cif_cases (P := fun x : Out Hit => x = .ok hit → hit.s = fin (oz - (rz + z)) / fin 0)
          (fun _ hr => ?_) (fun _ hr => ?_) <;> (injection hr with hr; rw [← hr])
      rw [h'] at hs
      by_cases h0 : oz - (rz + z) = 0
      · rw [h0, fin_zero_div_zero] at hs; cases hs
      · rw [fin_div_zero h0] at hs; cases hs
    · obtain ⟨sv', hit', e, e1, e2, -⟩ := C30_disk (ph := ph) (d := d) (z := z) (rx := rx) (ry := ry) (rz := rz)
        hom ht surf ox oy oz ho s xx mode cb
      rw [hr] at e
      injection e with e
      subst e
      rw [h', fin_inj] at e1
      rw [e2, e1]
  | other h1 h2 h3 =>
    refine ⟨fun h => by simp [h1, h2] at h, ?_⟩
    rw [if_neg (by simp [h1]), if_neg (by simp [h2]), if_neg (by simp [h3])] at hr
    by_cases hc : surf.isCone = true
    · rw [if_pos hc] at hr
      obtain ⟨s', xx', hr⟩ := cone_newton hr hf
      obtain ⟨hit', e, h, -⟩ := C37_accurate surf hp rp s' xx' mode cb
      rw [hr] at e
      injection e with e
      subst e
      intro sv h'
      rw [h, h']
    · rw [if_neg hc] at hr
      injection hr with hr
      rw [← hr] at hf; simp at hf

/-- moving a helix to its own point less than half a turn away -/
theorem move_to_track (cov : M5) {sv : ℝ} (h : om ≠ 0) (hs : |om * sv| < Real.pi) :
    ∃ (fn : ℝ) (k : ℤ), fn = ph - om * sv + k * (2 * Real.pi) ∧ -Real.pi < fn ∧ fn ≤ Real.pi ∧
      moveHelixTo ⟨cov, hpR om tl ph d z, V3.re rx ry rz⟩
          (pointAt (fin sv) (hpR om tl ph d z) (V3.re rx ry rz)) false =
        .ok (⟨cov, hpR om tl fn 0 0, pointAt (fin sv) (hpR om tl ph d z) (V3.re rx ry rz)⟩,
          fin (-(om * sv))) := by
  rw [pointAt_re h]
  obtain ⟨fn, dn, fd, k, e1, b1, b2, b3, b4, hcx, hcy, hR, hv⟩ :=
    move_re cov tl ph d z rx ry rz (rX om ph d rx sv) (rY om ph d ry sv) (rZ tl z rz sv) h
  have hx := rX_center (om := om) (ph := ph) (d := d) (rx := rx) (s := sv)
  have hy := rY_center (om := om) (ph := ph) (d := d) (ry := ry) (s := sv)
  have hq : (rCx om ph d rx - rX om ph d rx sv) ^ 2 + (rCy om ph d ry - rY om ph d ry sv) ^ 2 = (1 / om) ^ 2 := by
    have := Real.sin_sq_add_cos_sq (ph - sv * om)
    rw [show rCx om ph d rx - rX om ph d rx sv = 1 / om * Real.sin (ph - sv * om) by linarith,
      show rCy om ph d ry - rY om ph d ry sv = -(1 / om * Real.cos (ph - sv * om)) by linarith]
    linear_combination (1 / om) ^ 2 * this
  rw [hq, Real.sqrt_sq_eq_abs] at hR
  have hdn : dn = 0 := by
    have h1 : sg om * |1 / om| = 1 / om := by
      rw [abs_div, abs_one, ← mul_sg h]
      have := sg_sq h
      have h2 : sg om ≠ 0 := by intro h0; rw [h0] at this; norm_num at this
      field_simp
    linarith
  subst hdn
  have hinv : 1 / om ≠ 0 := by simpa using h
  have hsin : Real.sin fn = Real.sin (ph - sv * om) := by
    apply mul_left_cancel₀ hinv
    have : rCx om fn 0 (rX om ph d rx sv) = rX om ph d rx sv + (1 / om) * Real.sin fn := by rw [rCx, sub_zero]
    linarith
  have hcos : Real.cos fn = Real.cos (ph - sv * om) := by
    apply mul_left_cancel₀ hinv
    have : rCy om fn 0 (rY om ph d ry sv) = rY om ph d ry sv - (1 / om) * Real.cos fn := by rw [rCy, sub_zero]
    linarith
  have hc1 : Real.cos (fn - (ph - sv * om)) = 1 := by
    rw [Real.cos_sub, hsin, hcos]
    have := Real.sin_sq_add_cos_sq (ph - sv * om)
    nlinarith
  obtain ⟨n, hn⟩ := (Real.cos_eq_one_iff _).1 hc1
  have hpi := Real.pi_pos
  rw [abs_lt] at hs
  have hnk : ((n + k : ℤ) : ℝ) * (2 * Real.pi) = fd + om * sv := by push_cast; rw [e1]; linarith
  have h0 : (n + k : ℤ) = 0 := by
    have l1 : -(1 : ℝ) < ((n + k : ℤ) : ℝ) := by
      by_contra hc
      push Not at hc
      have := mul_le_mul_of_nonneg_right hc (by linarith : (0 : ℝ) ≤ 2 * Real.pi)
      linarith
    have l2 : ((n + k : ℤ) : ℝ) < 1 := by
      by_contra hc
      push Not at hc
      have := mul_le_mul_of_nonneg_right hc (by linarith : (0 : ℝ) ≤ 2 * Real.pi)
      linarith
    have l3 : (-1 : ℤ) < n + k := by exact_mod_cast l1
    have l4 : n + k < (1 : ℤ) := by exact_mod_cast l2
    omega
  have hfd : fd = -(om * sv) := by
    rw [h0] at hnk; simp at hnk; linarith
  refine ⟨fn, n, by linarith, b3, b4, ?_⟩
  have hm := moveHelixTo_of_vals false hv
  have hz : rz - rZ tl z rz sv + z - 1 / om * tl * fd = 0 := by
    rw [hfd, rZ]; field_simp; ring
  rw [hz] at hm
  rw [hm, hfd]
  rfl

/-! ### the elements that are added -/

section

open Traj

variable {env : Env} {mass : Dbl} {back e : Element} {position : V3} {precision : List Dbl} {surface : Surface} {id : ℕ}
  {isScatterer : Bool}

theorem make_ok {arc : Dbl} {tp : TP} {measDir : List V3} {prec res : List Dbl} {f : V3 × V3} {sc hm : Bool}
    (h : Element.make arc tp surface measDir prec res f id sc hm = .ok e) :
    ∃ proj, calculateLocalToMeasurementProjectionMatrix f.1 f.2 measDir = .ok proj ∧
      e = ⟨arc, tp, none, some surface, hm, some measDir, if prec.length = 1 then prec ++ [0] else prec, res, some f,
        some proj, sc, id⟩ := by
  unfold Element.make at h
  rw [Out.bind_eq_ok] at h
  obtain ⟨proj, h1, h2⟩ := h
  injection h2 with h2
  exact ⟨proj, h1, h2.symm⟩

/-- the helix parameters after the energy loss -/
def lossHp (surface : Surface) (uv : V2) (mom : V3) (mass : Dbl) (hp : V5) : V5 :=
  hp.set OMEGA (hp OMEGA / (1 - (computeEnergyLoss surface uv mom mass).deltaE /
    Dbl.sqrt (mom.r * mom.r + mass * mass)))

theorem measurement_ok (h : measurementElement env mass back position precision surface id isScatterer = .ok (some e)) :
    ∃ (hit : Hit) (tp : TP) (w : Dbl) (proj : Fin 4 → Dbl),
      intersectWithSurface surface back.tp.hp back.tp.rp 0 V3.zero 1 false = .ok hit ∧ hit.found = true ∧
      moveHelixTo back.tp hit.xx false = .ok (tp, w) ∧
      (let mom := momentumAtPCA env.globalField tp.hp tp.rp
       let hp' := lossHp surface (surface.globalToLocal position) mom mass tp.hp
       let f := calculateLocalCurvilinearSystem 0 hp'
       let p := measurementPrecision precision isScatterer (computeQMS surface (surface.globalToLocal hit.xx) mom mass)
       calculateLocalToMeasurementProjectionMatrix f.1 f.2 [surface.u position, surface.v position] = .ok proj ∧
       e = ⟨hit.s + back.arc, ⟨tp.cov, hp', tp.rp⟩, none, some surface, true,
          some [surface.u position, surface.v position], if p.length = 1 then p ++ [0] else p,
          [(surface.globalToLocal position).u - (surface.globalToLocal hit.xx).u,
           (surface.globalToLocal position).v - (surface.globalToLocal hit.xx).v], some f, some proj, isScatterer, id⟩) := by
  unfold measurementElement at h
  simp only [Out.bind_eq_ok] at h
  obtain ⟨hit, h1, h⟩ := h
  by_cases hf : hit.found = true
  · rw [if_pos hf, Out.bind_eq_ok] at h
    obtain ⟨⟨tp, w⟩, h2, h⟩ := h
    simp only [computeEnergyLoss, Out.bind_eq_ok] at h
    obtain ⟨e', h3, h⟩ := h
    injection h with h
    injection h with h
    subst h
    obtain ⟨proj, h4, h5⟩ := make_ok h3
    exact ⟨hit, tp, w, proj, h1, hf, h2, h4, h5⟩
  · rw [if_neg hf] at h
    injection h with h
    cases h

theorem scatterer_ok (h : scattererElement env mass back surface = .ok (some e)) :
    ∃ (hit : Hit) (tp : TP) (w : Dbl) (proj : Fin 4 → Dbl),
      intersectWithSurface surface back.tp.hp back.tp.rp 0 V3.zero 1 true = .ok hit ∧ hit.found = true ∧
      moveHelixTo back.tp hit.xx false = .ok (tp, w) ∧
      (let mom := momentumAtPCA env.globalField tp.hp tp.rp
       let hp' := lossHp surface (surface.globalToLocal hit.xx) mom mass tp.hp
       let f := calculateLocalCurvilinearSystem 0 hp'
       let qms := computeQMS surface (surface.globalToLocal hit.xx) mom mass
       calculateLocalToMeasurementProjectionMatrix f.1 f.2 [surface.u hit.xx, surface.v hit.xx] = .ok proj ∧
       e = ⟨hit.s + back.arc, ⟨tp.cov, hp', tp.rp⟩, none, some surface, false,
          some [surface.u hit.xx, surface.v hit.xx], [qms * qms, 0, 0], [0, 0], some f, some proj, true, 0⟩) := by
  unfold scattererElement at h
  simp only [Out.bind_eq_ok] at h
  obtain ⟨hit, h1, h⟩ := h
  by_cases hf : hit.found = true
  · rw [if_pos hf, Out.bind_eq_ok] at h
    obtain ⟨⟨tp, w⟩, h2, h⟩ := h
    simp only [computeEnergyLoss, Out.bind_eq_ok] at h
    obtain ⟨e', h3, h⟩ := h
    injection h with h
    injection h with h
    subst h
    obtain ⟨proj, h4, h5⟩ := make_ok h3
    exact ⟨hit, tp, w, proj, h1, hf, h2, h4, h5⟩
  · rw [if_neg hf] at h
    injection h with h
    cases h

end

end Verif
