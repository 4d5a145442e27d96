import Verif.Props.Trajectory
import Verif.Props.Material

/-!
# A concrete trajectory that meets the hypotheses of C47 and C48
-/

open Classical

noncomputable section

namespace Verif

open Dbl Traj

namespace Example

/-- some solid material -/
def mat : Material := ⟨fin 14, fin 28, fin 2, fin 9⟩

/-- an infinitely thin disk at z = 1 with the given boundary -/
def diskB (ib : V3 → Bool) : Surface where
  type := fun i => decide (i = 1 ∨ i = 5)
  isCone := false
  id := 0
  insideBounds := ib
  u := fun _ => V3.re 1 0 0
  v := fun _ => V3.re 0 1 0
  normal := fun _ => V3.re 0 0 1
  globalToLocal := fun p => ⟨p.x, p.y⟩
  localToGlobal := fun q => ⟨q.u, q.v, fin 1⟩
  origin := V3.re 0 0 1
  innerMaterial := mat
  outerMaterial := mat
  innerThickness := fin 0
  outerThickness := fin 0
  distance := fun p => p.z - 1
  cyl := none

/-- an infinitely thin disk at z = 1 -/
def disk : Surface := diskB fun _ => true

/-- homogeneous field and the given propagation -/
def envJ (g : M5 → Dbl → Dbl → V3 → V3 → V3 → Dbl → M5) : Env := ⟨fun _ => V3.re 0 0 3, fun _ => V3.re 0 0 3, g⟩

/-- homogeneous field -/
def env : Env := envJ fun m _ _ _ _ _ _ => m

/-- a track through the given point of the plane z = 0 -/
def tpAt (rx ry : ℝ) : TP := ⟨M5.zero, hpR 1 1 0 0 0, V3.re rx ry 0⟩

/-- a track through the origin -/
def tp : TP := tpAt 0 0

variable {rx ry : ℝ} {ib : V3 → Bool} {g : M5 → Dbl → Dbl → V3 → V3 → V3 → Dbl → M5}

theorem disk_hit (rx ry : ℝ) (mode : ℤ) (hm : 0 < mode) (cb : Bool)
    (hb : cb = true → ib (pointAt (fin 1) (hpR 1 1 0 0 0) (V3.re rx ry 0)) = true) :
    ∃ hit, intersectWithSurface (diskB ib) (hpR 1 1 0 0 0) (V3.re rx ry 0) 0 V3.zero mode cb = .ok hit ∧
    hit.found = true ∧ hit.s = fin 1 ∧ hit.xx = pointAt (fin 1) (hpR 1 1 0 0 0) (V3.re rx ry 0) := by
  obtain ⟨sv, hit, e1, e2, e3, -, e5, e6⟩ := C30_disk (om := 1) (tl := 1) (ph := 0) (d := 0) (z := 0) (rx := rx) (ry := ry) (rz := 0)
    one_ne_zero one_ne_zero (diskB ib) 0 0 1 rfl 0 V3.zero mode cb
  have hsv : sv = 1 := by
    have := (e5 1).1 (by rw [pointAt_re one_ne_zero]; simp [rZ, V3.re])
    exact this.symm
  subst hsv
  refine ⟨hit, ?_, ?_, e2, e3⟩
  · unfold intersectWithSurface
    rw [if_neg (by simp [diskB, SurfaceType.isZCylinder]), if_neg (by simp [diskB, SurfaceType.isZPlane]),
      if_pos (by simp [diskB, SurfaceType.isZDisk])]
    exact e1
  · rw [e6]
    have : (0 : ℝ) < mode := by exact_mod_cast hm
    exact ⟨Or.inr (by linarith), fun h => by rw [e3]; exact hb h⟩

/-- no energy loss in a surface without thickness -/
theorem loss_zero (fn : ℝ) (xx : V3) (uv : V2) :
    lossHp (diskB ib) uv (momentumAtPCA (envJ g).globalField (hpR 1 1 fn 0 0) xx) pionMass (hpR 1 1 fn 0 0) = hpR 1 1 fn 0 0 := by
  set p : ℝ := 1 * 3 * (0.299792458 * (1 / 100)) with hp
  have hpp : 0 < p := by rw [hp]; norm_num
  have hmom : momentumAtPCA (envJ g).globalField (hpR 1 1 fn 0 0) xx = V3.re (p * Real.cos fn) (p * Real.sin fn) (p * 1) := by
    unfold momentumAtPCA
    simp only [calculatePhi0_hpR, calculateOmega_hpR, calculateTanLambda_hpR, envJ, V3.re, one_eq, fin_div _ one_ne_zero,
      abs_fin, convertBr2P_cm, fin_mul, cos_fin, sin_fin, div_one, abs_one, hp]
  have hq : p * Real.cos fn * (p * Real.cos fn) + p * Real.sin fn * (p * Real.sin fn) + p * 1 * (p * 1) = 2 * p ^ 2 := by
    have := Real.sin_sq_add_cos_sq fn
    linear_combination p ^ 2 * this
  set r : ℝ := Real.sqrt (2 * p ^ 2) with hr
  have hrp : 0 < r := Real.sqrt_pos.mpr (by positivity)
  have hR : (V3.re (p * Real.cos fn) (p * Real.sin fn) (p * 1)).r = fin r := by
    simp only [V3.r, V3.re, fin_mul, fin_add, hq]
    rw [sqrt_fin (by positivity)]
  obtain ⟨b, hb⟩ : ∃ b : ℝ, computeBetheBloch mat (fin r) pionMass = fin b := by
    have := betheBloch_re (Z := 14) (A := 28) (rho := 2) (rad := 9) (m := 0.13957018) (p := r) (by norm_num) (by norm_num)
      (by norm_num) (by norm_num) hrp
    exact ⟨_, this⟩
  have hc : Dbl.abs ((V3.re (p * Real.cos fn) (p * Real.sin fn) (p * 1)).unit.dot (V3.re 0 0 1)) = fin (p / r) := by
    simp only [V3.unit, hR, V3.dot]
    simp only [V3.re, fin_div _ hrp.ne', fin_mul, fin_add, abs_fin]
    rw [mul_zero, mul_zero, zero_add, zero_add, mul_one, mul_one, abs_of_pos (div_pos hpp hrp)]
  have hpr : p / r ≠ 0 := (div_pos hpp hrp).ne'
  have hE : 0 < r * r + 0.13957018 * 0.13957018 := by positivity
  have hE' : Real.sqrt (r * r + 0.13957018 * 0.13957018) ≠ 0 := (Real.sqrt_pos.mpr hE).ne'
  unfold lossHp
  rw [hmom]
  have hd : (computeEnergyLoss (diskB ib) uv (V3.re (p * Real.cos fn) (p * Real.sin fn) (p * 1)) pionMass).deltaE = fin 0 := by
    unfold computeEnergyLoss
    simp only [hR, show (diskB ib).innerMaterial = mat from rfl, show (diskB ib).outerMaterial = mat from rfl, hb,
      show (diskB ib).innerThickness = fin 0 from rfl, show (diskB ib).outerThickness = fin 0 from rfl,
      show ∀ x, (diskB ib).normal x = V3.re 0 0 1 from fun _ => rfl, hc, fin_div _ hpr, show mat.density = fin 2 from rfl,
      fin_mul, fin_add]
    simp
  rw [hd, hR]
  funext i
  by_cases hi : i = OMEGA
  · subst hi
    simp only [V5.set, if_true, pionMass, ofSci_eq, fin_mul, fin_add]
    rw [sqrt_fin hE.le, fin_div _ hE', zero_div, one_eq, fin_sub, sub_zero]
    show fin 1 / fin 1 = fin 1
    rw [fin_div _ one_ne_zero, div_one]
  · simp only [V5.set, hi, if_false]

theorem proj_ok (fn : ℝ) (om : ℝ := 1) : ∃ proj, calculateLocalToMeasurementProjectionMatrix
    (calculateLocalCurvilinearSystem 0 (hpR om 1 fn 0 0)).1 (calculateLocalCurvilinearSystem 0 (hpR om 1 fn 0 0)).2
    [V3.re 1 0 0, V3.re 0 1 0] = .ok proj := by
  have hl : Real.sin (Real.arctan 1) ≠ 0 := by
    rw [Real.arctan_one]
    exact (Real.sin_pos_of_pos_of_lt_pi (by linarith [Real.pi_pos]) (by linarith [Real.pi_pos])).ne'
  unfold calculateLocalToMeasurementProjectionMatrix
  simp only [Out.ok_bind]
  rw [cif_pos]
  · exact ⟨_, rfl⟩
  · simp only [calculateLocalCurvilinearSystem, V3.dot, V3.re, calculatePhi0_hpR, calculateCurvature_hpR, calculateLambda_hpR,
      zero_eq, fin_mul, fin_sub, fin_add, fin_neg, sin_fin, cos_fin, fin_eqv]
    intro h
    apply hl
    have := Real.sin_sq_add_cos_sq fn
    rw [mul_zero, sub_zero] at h
    linear_combination h - Real.sin (Real.arctan 1) * this

theorem hist : HistGenPos env (make tp) [.scatterer disk] :=
  ⟨trivial, fun surf back hs _ => by
    injection hs with hs
    subst hs
    exact GenPos.disk (by simp [disk, diskB, SurfaceType.isZCylinder]) (by simp [disk, diskB, SurfaceType.isZPlane])
      (by simp [disk, diskB, SurfaceType.isZDisk]) rfl⟩

theorem start_zero : calculateSfromXY 0 0 tp.hp tp.rp = fin 0 :=
  C47_start_zero 1 1 0 0 0 0 (by norm_num) (by linarith [Real.pi_pos]) Real.pi_pos.le

/-- the last call of a history adds the disk -/
inductive AddsDisk (ib : V3 → Bool) : AddOp → Bool → Prop
  | scatterer (h : ∀ x, ib x = true) : AddsDisk ib (.scatterer (diskB ib)) true
  | measurement (pos : V3) (prec : List Dbl) (id : ℕ) (sc : Bool) : AddsDisk ib (.measurement pos prec (diskB ib) id sc) sc

/-- adding the disk succeeds -/
theorem added_gen {s0 : ℝ} (h0 : calculateSfromXY 0 0 (tpAt rx ry).hp (tpAt rx ry).rp = fin s0) {op : AddOp} {sc : Bool}
    (hop : AddsDisk ib op sc) :
    ((make (tpAt rx ry)).step (envJ g) op).2 = .ok true ∧
    ∃ (e : Element) (fn : ℝ), ((make (tpAt rx ry)).step (envJ g) op).1 =
        ⟨tpAt rx ry, [Element.start (fin s0) (tpAt rx ry) 0, e], [], pionMass⟩ ∧ e.arc = fin (1 + s0) ∧
      e.tp.hp = hpR 1 1 fn 0 0 ∧ e.tp.rp = pointAt (fin 1) (hpR 1 1 0 0 0) (V3.re rx ry 0) ∧ e.surface = some (diskB ib) ∧
      e.scatterer = sc := by
  obtain ⟨fn, k, -, -, -, h5⟩ := move_to_track (om := 1) (tl := 1) (ph := 0) (d := 0) (z := 0) (rx := rx) (ry := ry) (rz := 0)
    (sv := 1) M5.zero one_ne_zero (by rw [mul_one, abs_one]; linarith [Real.pi_gt_three])
  obtain ⟨proj, h6⟩ := proj_ok fn
  have hw : (make (tpAt rx ry)).withStart = ⟨tpAt rx ry, [Element.start (fin s0) (tpAt rx ry) 0], [], pionMass⟩ := by
    unfold withStart
    rw [if_pos (show (make (tpAt rx ry)).elems = [] from rfl)]
    simp only [addElement, make, List.nil_append]
    rw [show calculateSfromXY V3.zero.x V3.zero.y (tpAt rx ry).hp (tpAt rx ry).rp = fin s0 from h0]
  cases hop with
  | scatterer hib =>
    obtain ⟨hit, h1, h2, h3, h4⟩ := disk_hit (ib := ib) rx ry 1 one_pos true (fun _ => hib _)
    rw [← h4] at h5
    have hs : ∃ e, scattererElement (envJ g) pionMass (Element.start (fin s0) (tpAt rx ry) 0) (diskB ib) = .ok (some e) ∧
        e.arc = fin (1 + s0) ∧ e.tp.hp = hpR 1 1 fn 0 0 ∧ e.tp.rp = hit.xx ∧ e.surface = some (diskB ib) ∧
        e.scatterer = true := by
      have hl := loss_zero (ib := ib) (g := g) fn hit.xx ((diskB ib).globalToLocal hit.xx)
      unfold lossHp at hl
      unfold scattererElement
      simp only [Element.start]
      have h1' : intersectWithSurface (diskB ib) (tpAt rx ry).hp (tpAt rx ry).rp 0 V3.zero 1 true = .ok hit := h1
      have h5' : moveHelixTo (tpAt rx ry) hit.xx false = _ := h5
      rw [h1', Out.ok_bind, if_pos h2, h5', Out.ok_bind]
      simp only [computeEnergyLoss] at hl ⊢
      rw [hl]
      simp only [Element.make]
      have h6' : calculateLocalToMeasurementProjectionMatrix (calculateLocalCurvilinearSystem 0 (hpR 1 1 fn 0 0)).1
        (calculateLocalCurvilinearSystem 0 (hpR 1 1 fn 0 0)).2 [(diskB ib).u hit.xx, (diskB ib).v hit.xx] = .ok proj := h6
      rw [h6', Out.ok_bind]
      refine ⟨_, rfl, ?_, rfl, rfl, rfl, rfl⟩
      rw [h3, fin_add]
    obtain ⟨e, q1, q2, q3, q4, q5, q6⟩ := hs
    have hst : (make (tpAt rx ry)).step (envJ g) (.scatterer (diskB ib)) =
        ({ (make (tpAt rx ry)).withStart with elems := (make (tpAt rx ry)).withStart.elems ++ [e] }, .ok true) := by
      simp only [step, addScatterer, hw, List.getLast?_singleton, q1, append]
    rw [hst]
    exact ⟨rfl, e, fn, by simp [hw], q2, q3, by rw [q4, h4], q5, q6⟩
  | measurement pos prec id sc =>
    obtain ⟨hit, h1, h2, h3, h4⟩ := disk_hit (ib := ib) rx ry 1 one_pos false (fun h => by cases h)
    rw [← h4] at h5
    have hs : ∃ e, measurementElement (envJ g) pionMass (Element.start (fin s0) (tpAt rx ry) 0) pos prec (diskB ib) id sc =
        .ok (some e) ∧ e.arc = fin (1 + s0) ∧ e.tp.hp = hpR 1 1 fn 0 0 ∧ e.tp.rp = hit.xx ∧ e.surface = some (diskB ib) ∧
        e.scatterer = sc := by
      have hl := loss_zero (ib := ib) (g := g) fn hit.xx ((diskB ib).globalToLocal pos)
      unfold lossHp at hl
      unfold measurementElement
      simp only [Element.start]
      have h1' : intersectWithSurface (diskB ib) (tpAt rx ry).hp (tpAt rx ry).rp 0 V3.zero 1 false = .ok hit := h1
      have h5' : moveHelixTo (tpAt rx ry) hit.xx false = _ := h5
      rw [h1', Out.ok_bind, if_pos h2, h5', Out.ok_bind]
      simp only [computeEnergyLoss] at hl ⊢
      rw [hl]
      simp only [Element.make]
      have h6' : calculateLocalToMeasurementProjectionMatrix (calculateLocalCurvilinearSystem 0 (hpR 1 1 fn 0 0)).1
        (calculateLocalCurvilinearSystem 0 (hpR 1 1 fn 0 0)).2 [(diskB ib).u pos, (diskB ib).v pos] = .ok proj := h6
      rw [h6', Out.ok_bind]
      refine ⟨_, rfl, ?_, rfl, rfl, rfl, rfl⟩
      rw [h3, fin_add]
    obtain ⟨e, q1, q2, q3, q4, q5, q6⟩ := hs
    have hst : (make (tpAt rx ry)).step (envJ g) (.measurement pos prec (diskB ib) id sc) =
        ({ (make (tpAt rx ry)).withStart with elems := (make (tpAt rx ry)).withStart.elems ++ [e] }, .ok true) := by
      simp only [step, addMeasurement, hw, List.getLast?_singleton, q1, append]
    rw [hst]
    exact ⟨rfl, e, fn, by simp [hw], q2, q3, by rw [q4, h4], q5, q6⟩

/-- adding the disk succeeds; the new element is at arc length 1, its curvature is that of the track -/
theorem added : ((make tp).step env (.scatterer disk)).2 = .ok true ∧
    ∃ e, ((make tp).step env (.scatterer disk)).1.elems = [Element.start (fin 0) tp 0, e] ∧ e.arc = fin 1 ∧
      e.tp.hp OMEGA = fin 1 := by
  obtain ⟨h1, e, fn, h2, h3, h4, -⟩ := added_gen (g := fun m _ _ _ _ _ _ => m) start_zero (AddsDisk.scatterer (ib := fun _ => true) fun _ => rfl)
  refine ⟨h1, e, ?_, by rw [h3, add_zero], by rw [h4]; rfl⟩
  exact congrArg Traj.elems h2

end Example

end Verif
