import Verif.Props.Vacuum
import Verif.Props.SurfaceDispatch
import Verif.Props.MoveHelix

/-!
# C86: tracks with an undefined curvature
-/

open Classical

noncomputable section

namespace Verif

open Dbl Traj

variable {hp : V5} {rp : V3}

/-! ## Functions of the helix -/

theorem undef_S (h : hp OMEGA = nan) (x y : Dbl) : calculateSfromXY x y hp rp = nan := by
  simp [calculateSfromXY, calculateCurvature, h]

theorem undef_pointAt (h : hp OMEGA = nan) (s : Dbl) : (pointAt s hp rp).x = nan ∧ (pointAt s hp rp).y = nan := by
  simp [pointAt, calculateOmega, h]

theorem undef_X (h : hp OMEGA = nan) (s : Dbl) : calculateXfromS s hp rp = nan := by
  simp [calculateXfromS, calculateCurvature, h]

theorem undef_candidates (h : hp OMEGA = nan) (rho : Dbl) (c : V3) :
    cylinderCandidates rho c hp rp = some ((nan, nan), (nan, nan)) := by
  simp [cylinderCandidates, calculateOmega, h]

theorem undef_cylinderSelect {mode : ℤ} (hm : 0 ≤ mode) : cylinderSelect mode nan nan = some false := by
  simp [cylinderSelect, show -1 < mode by omega]

theorem undef_planeSelect {mode : ℤ} (hm : 0 ≤ mode) : planeSelect mode nan nan = some false := by
  simp [planeSelect, show -1 < mode by omega]

theorem undef_line (h : hp OMEGA = nan) (r : Dbl) (line : Line) :
    intersectCircleStraightLine ⟨calculateXCenter hp rp, calculateYCenter hp rp, r⟩ line = [(nan, nan), (nan, nan)] := by
  simp [intersectCircleStraightLine, calculateXCenter, calculateYCenter, calculateOmega, h, Line.move, Line.d2]

/-! ## C86 -/

/-- C86 is false: without check of the boundary every cylinder along z is reported as hit by a track with an undefined
curvature, for every position and radius of the cylinder and every other parameter. -/
theorem C86_cylinder_false (h : hp OMEGA = nan) {surf : Surface} {rho : Dbl} {c : V3} (hc : surf.cyl = some (rho, c))
    (hz : surf.type.isZCylinder = true) (s : Dbl) (xx : V3) {mode : ℤ} (hm : 0 ≤ mode) :
    intersectWithSurface surf hp rp s xx mode false = .ok ⟨true, nan, ⟨nan, nan, nan⟩⟩ := by
  unfold intersectWithSurface
  rw [if_pos hz]
  unfold intersectWithZCylinder
  have hpz : surf.type.isParallelToZ = true := by
    simp only [SurfaceType.isZCylinder, Bool.and_eq_true] at hz
    exact hz.2
  simp [hc, hpz, undef_candidates h, undef_S h, undef_cylinderSelect hm, calculateZfromS, boundsOk]

/-- C86 is false: likewise for every plane along z that is accepted at all. -/
theorem C86_plane_false (h : hp OMEGA = nan) {surf : Surface} {line : Line}
    (hl : Line.make (surf.normal V3.zero).x (surf.normal V3.zero).y (Dbl.abs (surf.origin.dot (surf.normal V3.zero))) = .ok line)
    (hc : surf.type.isZCylinder = false) (hz : surf.type.isZPlane = true) (s : Dbl) (xx : V3) {mode : ℤ} (hm : 0 ≤ mode) :
    intersectWithSurface surf hp rp s xx mode false = .ok ⟨true, nan, ⟨nan, nan, nan⟩⟩ := by
  unfold intersectWithSurface
  rw [if_neg (by simp [hc]), if_pos hz]
  unfold intersectWithZPlane
  have hr : calculateRadius hp = nan := by simp [calculateRadius, calculateCurvature, h]
  simp [hl, Circle.make, hr, undef_line h, undef_S h, undef_planeSelect hm, calculateZfromS, boundsOk]

/-- C86: a point reported as hit has an undefined x coordinate, for every surface and every way of calling. -/
theorem C86_point (h : hp OMEGA = nan) {surf : Surface} {s : Dbl} {xx : V3} {mode : ℤ} {cb : Bool} {hit : Hit}
    (hr : intersectWithSurface surf hp rp s xx mode cb = .ok hit) (hf : hit.found = true) : hit.xx.x = nan := by
  have hcyl : ∀ {cb hit}, intersectWithZCylinder surf hp rp s xx mode cb = .ok hit → hit.found = true → hit.xx.x = nan := by
    intro cb hit hr hf
    unfold intersectWithZCylinder at hr
    split at hr
    · cases hr
    · split at hr
      · rw [undef_candidates h] at hr
        simp only at hr
        split at hr <;> injection hr with hr <;> subst hr
        · cases hf
        · rfl
        · rfl
      · cases hr
  unfold intersectWithSurface at hr
  split at hr
  · exact hcyl hr hf
  split at hr
  · unfold intersectWithZPlane at hr
    obtain ⟨line, -, hr⟩ := Out.bind_eq_ok.mp hr
    obtain ⟨circ, hc, hr⟩ := Out.bind_eq_ok.mp hr
    have hcirc : circ = ⟨calculateXCenter hp rp, calculateYCenter hp rp, calculateRadius hp⟩ := by
      unfold Circle.make at hc
      by_cases hn : calculateRadius hp < 0
      · rw [cif_pos hn] at hc; cases hc
      · rw [cif_neg hn] at hc; injection hc with hc; exact hc.symm
    rw [hcirc, undef_line h] at hr
    simp only at hr
    split at hr <;> injection hr with hr <;> subst hr
    · cases hf
    · rfl
    · rfl
  split at hr
  · unfold intersectWithZDisk at hr
    simp only at hr
    by_cases hm : modeOk mode ((surf.origin.z - (rp.z + calculateZ0 hp)) / calculateTanLambda hp)
    · rw [cif_pos hm] at hr
      injection hr with hr
      subst hr
      exact undef_X h _
    · rw [cif_neg hm] at hr
      injection hr with hr
      subst hr
      exact undef_X h _
  split at hr
  · unfold intersectWithZCone at hr
    obtain ⟨h0, -, hr⟩ := Out.bind_eq_ok.mp hr
    split at hr
    · obtain ⟨hit', e1, e2, -⟩ := C37_accurate surf hp rp h0.s h0.xx mode cb
      rw [e1] at hr
      injection hr with hr
      subst hr
      rw [e2]
      exact (undef_pointAt h _).1
    · injection hr with hr
      subst hr
      cases hf
  · injection hr with hr
    subst hr
    cases hf

/-- C86 (partial): with a check of the boundary no surface is reported as hit, provided that the boundary does not contain
points with an undefined coordinate.  Missing for C86: calls without the check. -/
theorem C86_bounds_partial (h : hp OMEGA = nan) {surf : Surface} (hb : ∀ x : V3, x.x = nan → surf.insideBounds x = false)
    {s : Dbl} {xx : V3} {mode : ℤ} {hit : Hit} (hr : intersectWithSurface surf hp rp s xx mode true = .ok hit) :
    hit.found = false := by
  by_contra hf
  have hf : hit.found = true := by simpa using hf
  have := C35_inside surf hp rp s xx mode hit hr hf
  rw [hb _ (C86_point h hr hf)] at this
  cases this

/-- C86 (partial): no scatterer is added to a track with an undefined curvature. -/
theorem C86_scatterer_partial {env : Env} {m : Dbl} {back : Element} (h : back.tp.hp OMEGA = nan) {surf : Surface}
    (hb : ∀ x : V3, x.x = nan → surf.insideBounds x = false) (e : Element) :
    scattererElement env m back surf ≠ .ok (some e) := by
  intro hs
  unfold scattererElement at hs
  obtain ⟨hit, h1, h2⟩ := Out.bind_eq_ok.mp hs
  rw [if_neg (by simp [C86_bounds_partial h hb h1])] at h2
  injection h2 with h2
  cases h2

/-- a move keeps curvature and slope and takes the given reference point, for all inputs -/
theorem move_const {tp tp' : TP} {ref : V3} {upd : Bool} {w : Dbl} (h : moveHelixTo tp ref upd = .ok (tp', w)) :
    tp'.hp OMEGA = tp.hp OMEGA ∧ tp'.hp TANL = tp.hp TANL ∧ tp'.rp = ref := by
  unfold moveHelixTo at h
  obtain ⟨v, hv, h⟩ := Out.bind_eq_ok.mp h
  have hc : v.cpa = tp.hp OMEGA ∧ v.tnl = tp.hp TANL := by
    unfold moveVals at hv
    simp only [Out.bind_eq_ok] at hv
    obtain ⟨_, -, _, -, _, -, _, -, _, -, _, -, _, -, _, -, hv⟩ := hv
    injection hv with hv
    subst hv
    exact ⟨rfl, rfl⟩
  injection h with h
  injection h with h1 h2
  subst h1
  cases upd
  · exact ⟨hc.1, hc.2, rfl⟩
  · exact ⟨hc.1, hc.2, rfl⟩

theorem undef_proj (h : hp OMEGA = nan) (s : Dbl) (m m' : V3) : ∃ proj, calculateLocalToMeasurementProjectionMatrix
    (calculateLocalCurvilinearSystem s hp).1 (calculateLocalCurvilinearSystem s hp).2 [m, m'] = .ok proj := by
  unfold calculateLocalToMeasurementProjectionMatrix
  simp only [Out.ok_bind]
  rw [cif_pos]
  · exact ⟨_, rfl⟩
  · simp [calculateLocalCurvilinearSystem, calculateCurvature, h, V3.dot]

/-- C86 is false: a measurement on a cylinder is always accepted for a track with an undefined curvature; the new element has
an undefined path length. -/
theorem C86_measurement_false {env : Env} {m : Dbl} {back : Element} (h : back.tp.hp OMEGA = nan) (hph : IsFin (back.tp.hp PHI0))
    {surf : Surface} {rho : Dbl} {c : V3} (hc : surf.cyl = some (rho, c)) (hz : surf.type.isZCylinder = true)
    (pos : V3) (prec : List Dbl) (id : ℕ) (sc : Bool) :
    ∃ e, measurementElement env m back pos prec surf id sc = .ok (some e) ∧ e.arc = nan ∧ e.tp.hp OMEGA = nan := by
  obtain ⟨⟨tp, w⟩, hmv⟩ := C16_terminates_partial back.tp ⟨nan, nan, nan⟩ false hph
  have hom := (move_const hmv).1
  rw [h] at hom
  unfold measurementElement
  simp only [C86_cylinder_false h hc hz 0 V3.zero zero_le_one, Out.ok_bind, if_true, hmv, computeEnergyLoss, Element.make]
  obtain ⟨proj, hpj⟩ := undef_proj (hp := tp.hp.set OMEGA (tp.hp OMEGA / (1 -
    (computeEnergyLoss surf (surf.globalToLocal pos) (momentumAtPCA env.globalField tp.hp tp.rp) m).deltaE /
      Dbl.sqrt ((momentumAtPCA env.globalField tp.hp tp.rp).r * (momentumAtPCA env.globalField tp.hp tp.rp).r + m * m))))
    (by simp [V5.set, hom]) 0 (surf.u pos) (surf.v pos)
  simp only [computeEnergyLoss] at hpj
  rw [hpj]
  refine ⟨_, rfl, ?_, ?_⟩
  · simp
  · simp [V5.set, hom]

/-- C86: a trajectory with an element at an undefined path length besides two elements at different path lengths cannot be
prepared for the fit: sorting it is undefined behaviour, whatever the algorithm is. -/
theorem C86_sort {env : Env} (sort : List Element → List Element) {t : Traj} {a b c : Element} (ha : a ∈ t.elems) (hb : b ∈ t.elems)
    (hc : c ∈ t.elems) (hlt : a.arc < b.arc) (hn : c.arc = nan) : ∃ w, prepareForFitting env sort t = .ub w := by
  have : ¬ StrictWeakOn compareElements t.elems := by
    intro h
    exact (h.incomp a ha c hc b hb (by simp [compareElements, hn]) (by simp [compareElements, hn])
      (by simp [compareElements, hn]) (by simp [compareElements, hn])).1 hlt
  unfold prepareForFitting stdSort
  rw [if_neg this]
  exact ⟨_, rfl⟩

namespace Example

/-- a cylinder of radius 2 around the z axis -/
def tube : Surface := { disk with type := fun i => decide (i = 0 ∨ i = 4), cyl := some (fin 2, V3.re 0 0 0) }

/-- the calls: an electron crosses a disk of vacuum, then a point is measured on a cylinder -/
def vacuumCalls : List AddOp := [.measurement (V3.re 2 0 0) [fin 1] tube 7 false, .scatterer vacDisk, .setMass (fin 0.000511)]

theorem vacuum_scatterer : ∃ e : Element, (after env (make tp) [.scatterer vacDisk, .setMass (fin 0.000511)]) =
    ⟨tp, [Element.start (fin 0) tp 0, e], [], fin 0.000511⟩ ∧ e.arc = fin 1 ∧ e.tp.hp OMEGA = nan ∧ IsFin (e.tp.hp PHI0) := by
  obtain ⟨fn, k, -, -, -, h5⟩ := move_to_track (om := 1) (tl := 1) (ph := 0) (d := 0) (z := 0) (rx := 0) (ry := 0) (rz := 0)
    (sv := 1) M5.zero one_ne_zero (by rw [mul_one, abs_one]; linarith [Real.pi_gt_three])
  obtain ⟨hit, h1, h2, h3, h4⟩ := disk_hit (ib := fun _ => true) 0 0 1 one_pos true (fun _ => rfl)
  rw [← h4] at h5
  have h1' : intersectWithSurface vacDisk tp.hp tp.rp 0 V3.zero 1 true = .ok hit := h1
  have h5' : moveHelixTo tp hit.xx false = _ := h5
  set p : ℝ := 1 * 3 * (0.299792458 * (1 / 100)) with hp
  have hmom : momentumAtPCA env.globalField (hpR 1 1 fn 0 0) hit.xx = V3.re (p * Real.cos fn) (p * Real.sin fn) (p * 1) := by
    unfold momentumAtPCA
    simp only [calculatePhi0_hpR, calculateOmega_hpR, calculateTanLambda_hpR, env, envJ, V3.re, one_eq, fin_div _ one_ne_zero,
      abs_fin, convertBr2P_cm, fin_mul, cos_fin, sin_fin, div_one, abs_one, hp]
  have hfast : (0.000511 : ℝ) ^ 2 ≤ (p * Real.cos fn) ^ 2 + (p * Real.sin fn) ^ 2 + (p * 1) ^ 2 := by
    have e := Real.sin_sq_add_cos_sq fn
    have : (p * Real.cos fn) ^ 2 + (p * Real.sin fn) ^ 2 + (p * 1) ^ 2 = 2 * p ^ 2 := by linear_combination p ^ 2 * e
    rw [this, hp]
    norm_num
  have hl := C85_fast (s := vacDisk) (uv := vacDisk.globalToLocal hit.xx) (m := 0.000511) (Z := 1) (A := 1) (rad := 1)
    (by norm_num) one_pos one_pos rfl hfast
  obtain ⟨proj, h6⟩ := undef_proj (hp := (hpR 1 1 fn 0 0).set OMEGA nan) (by simp [V5.set]) 0 (vacDisk.u hit.xx) (vacDisk.v hit.xx)
  have hs : ∃ e, scattererElement env (fin 0.000511) (Element.start (fin 0) tp 0) vacDisk = .ok (some e) ∧ e.arc = fin 1 ∧
      e.tp.hp OMEGA = nan ∧ IsFin (e.tp.hp PHI0) := by
    unfold scattererElement
    simp only [Element.start]
    rw [h1', Out.ok_bind, if_pos h2, h5', Out.ok_bind]
    simp only [hmom]
    simp only [computeEnergyLoss] at hl ⊢
    simp only [hl, nan_div, sub_nan, div_nan, Element.make, h6, Out.ok_bind]
    refine ⟨_, rfl, ?_, ?_, ?_⟩
    · rw [h3, fin_add, add_zero]
    · simp [V5.set]
    · exact ⟨fn, rfl⟩
  obtain ⟨e, q1, q2, q3, q4⟩ := hs
  refine ⟨e, ?_, q2, q3, q4⟩
  have hw : (⟨tp, [], [], fin 0.000511⟩ : Traj).withStart = ⟨tp, [Element.start (fin 0) tp 0], [], fin 0.000511⟩ := by
    unfold withStart
    rw [if_pos rfl]
    simp only [addElement, List.nil_append]
    rw [show calculateSfromXY V3.zero.x V3.zero.y tp.hp tp.rp = fin 0 from start_zero]
  simp only [after, step, addScatterer, make, hw, List.getLast?_singleton, q1, append, List.cons_append, List.nil_append]

end Example

/-- C86 is false: the calls of the example lead to a trajectory whose preparation is undefined behaviour. -/
theorem C86_false (sort : List Element → List Element) :
    ∃ w, prepareForFitting Example.env sort (after Example.env (make Example.tp) Example.vacuumCalls) = .ub w := by
  obtain ⟨e, h1, h2, h3, h4⟩ := Example.vacuum_scatterer
  obtain ⟨e', g1, g2, -⟩ := C86_measurement_false (env := Example.env) (m := fin 0.000511) (back := e) (surf := Example.tube)
    (rho := fin 2) (c := V3.re 0 0 0) h3 h4 rfl (by simp [Example.tube, SurfaceType.isZCylinder]) (V3.re 2 0 0) [fin 1] 7 false
  have : (after Example.env (make Example.tp) Example.vacuumCalls).elems = [Element.start (fin 0) Example.tp 0, e, e'] := by
    show ((after Example.env (make Example.tp) [.scatterer Example.vacDisk, .setMass (fin 0.000511)]).step Example.env
      (.measurement (V3.re 2 0 0) [fin 1] Example.tube 7 false)).1.elems = _
    rw [h1]
    simp [step, addMeasurement, withStart, g1, append]
  exact C86_sort sort (a := Element.start (fin 0) Example.tp 0) (b := e) (c := e') (by simp [this]) (by simp [this]) (by simp [this])
    (by rw [h2]; simp [Element.start]) g2

/-- non-trivial case for `C86_bounds_partial`: a boundary that compares the coordinates -/
example : ∀ x : V3, x.x = nan → (Example.diskB fun x => decide (x.x < fin 5)).insideBounds x = false := by
  intro x hx
  simp [Example.diskB, hx]

end Verif
