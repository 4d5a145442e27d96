import Verif.Model.SurfaceIntersection
import Verif.Lemmas.Helix
import Verif.Lemmas.Loop

/-!
# C30, C31, C35, C37, C38: disks, bounds, Newton iteration, dispatch
-/

noncomputable section

namespace Verif

open Dbl

variable {om tl ph d z rx ry rz : ℝ}

/-! ## C30 -/

theorem modeOk_fin (mode : ℤ) (s : ℝ) : modeOk mode (fin s) ↔ (mode = 0 ∨ 0 < (mode : ℝ) * s) := by
  simp only [modeOk, fin_mul, zero_eq, fin_lt]
  exact or_comm

theorem boundsOk_iff (surf : Surface) (cb : Bool) (xx : V3) :
    boundsOk surf cb xx = true ↔ (cb = true → surf.insideBounds xx = true) := by
  cases cb <;> simp [boundsOk]

/-- C30: the disk intersection returns the only arc length `sv` at which the track has the z position of
the disk and the track point there; success means: required direction and (if requested) inside bounds. -/
theorem C30_disk (h : om ≠ 0) (ht : tl ≠ 0) (surf : Surface) (ox oy oz : ℝ) (ho : surf.origin = V3.re ox oy oz)
    (s : Dbl) (xx : V3) (mode : ℤ) (cb : Bool) :
    ∃ (sv : ℝ) (hit : Hit),
      intersectWithZDisk surf (hpR om tl ph d z) (V3.re rx ry rz) s xx mode cb = .ok hit ∧
      hit.s = fin sv ∧ hit.xx = pointAt (fin sv) (hpR om tl ph d z) (V3.re rx ry rz) ∧ hit.xx.z = fin oz ∧
      (∀ s', (pointAt (fin s') (hpR om tl ph d z) (V3.re rx ry rz)).z = fin oz ↔ s' = sv) ∧
      (hit.found = true ↔ (mode = 0 ∨ 0 < (mode : ℝ) * sv) ∧ (cb = true → surf.insideBounds hit.xx = true)) := by
  have hz : rZ tl z rz ((oz - (rz + z)) / tl) = oz := by unfold rZ; field_simp; ring
  refine ⟨(oz - (rz + z)) / tl, ⟨if (mode = 0 ∨ 0 < (mode : ℝ) * ((oz - (rz + z)) / tl)) then
      boundsOk surf cb (pointAt (fin ((oz - (rz + z)) / tl)) (hpR om tl ph d z) (V3.re rx ry rz)) else false,
      fin ((oz - (rz + z)) / tl), pointAt (fin ((oz - (rz + z)) / tl)) (hpR om tl ph d z) (V3.re rx ry rz)⟩, ?_, rfl, rfl, ?_, ?_, ?_⟩
  · have e : calculateZ0 (hpR om tl ph d z) = fin z := rfl
    simp only [intersectWithZDisk, ho, V3.re, e, calculateTanLambda_hpR, fin_add, fin_sub, fin_div _ ht]
    have hx := calculateXfromS_re (tl := tl) (z := z) (ph := ph) (d := d) (rx := rx) (ry := ry) (rz := rz)
      (s := (oz - (rz + z)) / tl) h
    have hy := calculateYfromS_re (tl := tl) (z := z) (ph := ph) (d := d) (rx := rx) (ry := ry) (rz := rz)
      (s := (oz - (rz + z)) / tl) h
    have hp := pointAt_re (tl := tl) (z := z) (ph := ph) (d := d) (rx := rx) (ry := ry) (rz := rz)
      (s := (oz - (rz + z)) / tl) h
    rw [hz] at hp
    simp only [V3.re] at hx hy hp
    simp only [hx, hy, hp, modeOk_fin]
    refine cif_cases (P := fun x => x = _) (fun h1 => ?_) (fun h1 => ?_)
    · simp only [h1, if_true]
    · simp only [h1, if_false]
  · show (pointAt _ _ _).z = _
    rw [pointAt_re h, hz]; rfl
  · intro s'
    rw [pointAt_re h]
    show fin (rZ tl z rz s') = fin oz ↔ _
    rw [fin_inj, rZ, eq_div_iff ht]
    constructor <;> intro h1 <;> linarith
  · by_cases h1 : (mode = 0 ∨ 0 < (mode : ℝ) * ((oz - (rz + z)) / tl))
    · simp only [h1, if_true, true_and, boundsOk_iff]
    · simp only [h1, if_false, false_and, Bool.false_eq_true]

/-- hypotheses are satisfiable -/
example : (1 : ℝ) ≠ 0 ∧ (0.5 : ℝ) ≠ 0 := by norm_num

/-! ## C31 -/

theorem disk_parallel (h : om ≠ 0) (surf : Surface) (ox oy oz : ℝ) (ho : surf.origin = V3.re ox oy oz)
    (hz : oz ≠ rz + z) (s : Dbl) (xx : V3) (mode : ℤ) (cb : Bool) :
    intersectWithZDisk surf (hpR om 0 ph d z) (V3.re rx ry rz) s xx mode cb =
      (ifc modeOk mode (inf (sgn (oz - (rz + z)))) then
        .ok ⟨boundsOk surf cb ⟨nan, nan, fin oz⟩, inf (sgn (oz - (rz + z))), ⟨nan, nan, fin oz⟩⟩
       else .ok ⟨false, inf (sgn (oz - (rz + z))), ⟨nan, nan, fin oz⟩⟩) := by
  have e : calculateZ0 (hpR om 0 ph d z) = fin z := rfl
  have hne : oz - (rz + z) ≠ 0 := sub_ne_zero.mpr hz
  simp only [intersectWithZDisk, ho, V3.re, e, calculateTanLambda_hpR, fin_add, fin_sub, fin_div_zero hne]
  simp [calculateXfromS, calculateYfromS, fin_mul_inf, h, calculateX0, calculateY0]

/-- C31 (partial): a track parallel to a disk at different z is reported as not intersecting if bounds are
checked and the bounds reject points with undefined coordinates, or if the disk is on the wrong side.
Missing for C31: without bounds check the failure is not noticed (`C31_false`). -/
theorem C31_partial (h : om ≠ 0) (surf : Surface) (ox oy oz : ℝ) (ho : surf.origin = V3.re ox oy oz)
    (hz : oz ≠ rz + z) (s : Dbl) (xx : V3) (mode : ℤ) (cb : Bool)
    (hb : (cb = true ∧ ∀ p : V3, ¬ IsFin p.x → surf.insideBounds p = false) ∨
      (mode : ℝ) * (oz - (rz + z)) < 0) :
    ∃ hit, intersectWithZDisk surf (hpR om 0 ph d z) (V3.re rx ry rz) s xx mode cb = .ok hit ∧ hit.found = false := by
  rw [disk_parallel h surf ox oy oz ho hz]
  rcases hb with ⟨rfl, hb⟩ | hm
  · refine cif_cases (P := fun x : Out Hit => ∃ hit : Hit, x = Out.ok hit ∧ hit.found = false) (fun _ => ⟨_, rfl, ?_⟩) (fun _ => ⟨_, rfl, rfl⟩)
    simp only [boundsOk, if_true]
    exact hb _ (by simp)
  · refine ⟨_, cif_neg ?_, rfl⟩
    have hm0 : (mode : ℝ) ≠ 0 := by intro h0; rw [h0] at hm; simp at hm
    rintro (h1 | h1)
    · rw [fin_mul_inf, if_neg hm0, zero_eq] at h1
      have h2 : (sgn (mode : ℝ) ^^ sgn (oz - (rz + z))) = false := h1
      rcases lt_or_gt_of_ne hm0 with hneg | hpos
      · have : 0 < oz - (rz + z) := by nlinarith
        simp [sgn, hneg, not_lt.mpr this.le] at h2
      · have : oz - (rz + z) < 0 := by nlinarith
        simp [sgn, not_lt.mpr hpos.le, this] at h2
    · exact hm0 (by rw [h1]; simp)

/-- C31 as stated is false: for every track with tan(lambda) = 0 and every disk at a different z success
is reported (mode 0, no bounds check), with infinite path length and an undefined point. -/
theorem C31_false (h : om ≠ 0) (surf : Surface) (ox oy oz : ℝ) (ho : surf.origin = V3.re ox oy oz)
    (hz : oz ≠ rz + z) (s : Dbl) (xx : V3) :
    ∃ b, intersectWithZDisk surf (hpR om 0 ph d z) (V3.re rx ry rz) s xx 0 false =
      .ok ⟨true, inf b, ⟨nan, nan, fin oz⟩⟩ := by
  rw [disk_parallel h surf ox oy oz ho hz]
  exact ⟨_, cif_pos (Or.inr rfl)⟩

/-! ## C35 -/

/-- what bounds checking is meant to do: keep everything, but report success only inside -/
def filterBounds (surf : Surface) (r : Out Hit) : Out Hit :=
  match r with
  | .ok h => .ok ⟨h.found && surf.insideBounds h.xx, h.s, h.xx⟩
  | e => e

theorem filterBounds_ok (surf : Surface) (h : Hit) :
    filterBounds surf (.ok h) = .ok ⟨h.found && surf.insideBounds h.xx, h.s, h.xx⟩ := rfl

theorem filterBounds_modeOk (surf : Surface) (mode : ℤ) (s : Dbl) (xx : V3) :
    (ifc modeOk mode s then Out.ok (⟨boundsOk surf true xx, s, xx⟩ : Hit) else .ok ⟨false, s, xx⟩) =
      filterBounds surf (ifc modeOk mode s then .ok ⟨boundsOk surf false xx, s, xx⟩ else .ok ⟨false, s, xx⟩) := by
  by_cases h : modeOk mode s
  · simp [cif_pos h, filterBounds_ok, boundsOk]
  · simp [cif_neg h, filterBounds_ok]

/-- C35, cylinder -/
theorem C35_cylinder (surf : Surface) (hp : V5) (rp : V3) (s : Dbl) (xx : V3) (mode : ℤ) :
    intersectWithZCylinder surf hp rp s xx mode true =
      filterBounds surf (intersectWithZCylinder surf hp rp s xx mode false) := by
  unfold intersectWithZCylinder
  split
  · rfl
  · split
    · split
      · simp [filterBounds_ok]
      · dsimp only
        split <;> simp [filterBounds_ok, boundsOk]
    · rfl

/-- C35, plane -/
theorem C35_plane (surf : Surface) (hp : V5) (rp : V3) (s : Dbl) (xx : V3) (mode : ℤ) :
    intersectWithZPlane surf hp rp s xx mode true =
      filterBounds surf (intersectWithZPlane surf hp rp s xx mode false) := by
  unfold intersectWithZPlane
  dsimp only
  generalize Line.make _ _ _ = L
  generalize Circle.make _ _ _ = C
  cases L with
  | ok line =>
    cases C with
    | ok circ =>
      simp only [Out.ok_bind]
      split
      · simp [filterBounds_ok]
      · exact filterBounds_modeOk _ _ _ _
      · split <;> simp [filterBounds_ok, boundsOk]
    | throw _ => rfl
    | ub _ => rfl
    | diverge => rfl
  | throw _ => rfl
  | ub _ => rfl
  | diverge => rfl

/-- C35, disk -/
theorem C35_disk (surf : Surface) (hp : V5) (rp : V3) (s : Dbl) (xx : V3) (mode : ℤ) :
    intersectWithZDisk surf hp rp s xx mode true =
      filterBounds surf (intersectWithZDisk surf hp rp s xx mode false) :=
  filterBounds_modeOk _ _ _ _

/-- C35, Newton iteration -/
theorem C35_newton (surf : Surface) (hp : V5) (rp : V3) (s : Dbl) (xx : V3) (mode : ℤ) :
    intersectWithSurfaceNewton surf hp rp s xx mode true =
      filterBounds surf (intersectWithSurfaceNewton surf hp rp s xx mode false) := by
  unfold intersectWithSurfaceNewton
  cases newtonLoop surf hp rp s with
  | ok st =>
    simp only [Out.ok_bind]
    split
    · exact filterBounds_modeOk _ _ _ _
    · simp [filterBounds_ok]
  | throw _ => rfl
  | ub _ => rfl
  | diverge => rfl

/-- C35, cone -/
theorem C35_cone (surf : Surface) (hp : V5) (rp : V3) (s : Dbl) (xx : V3) (mode : ℤ) :
    intersectWithZCone surf hp rp s xx mode true =
      filterBounds surf (intersectWithZCone surf hp rp s xx mode false) := by
  unfold intersectWithZCone
  cases intersectWithZCylinder surf hp rp s xx mode false with
  | ok h =>
    simp only [Out.ok_bind]
    split
    · exact C35_newton _ _ _ _ _ _
    · simp [filterBounds_ok]
  | throw _ => rfl
  | ub _ => rfl
  | diverge => rfl

/-- C35, any surface -/
theorem C35_surface (surf : Surface) (hp : V5) (rp : V3) (s : Dbl) (xx : V3) (mode : ℤ) :
    intersectWithSurface surf hp rp s xx mode true =
      filterBounds surf (intersectWithSurface surf hp rp s xx mode false) := by
  unfold intersectWithSurface
  split
  · exact C35_cylinder _ _ _ _ _ _
  split
  · exact C35_plane _ _ _ _ _ _
  split
  · exact C35_disk _ _ _ _ _ _
  split
  · exact C35_cone _ _ _ _ _ _
  · simp [filterBounds_ok]

/-- C35: success with bounds check implies inside bounds -/
theorem C35_inside (surf : Surface) (hp : V5) (rp : V3) (s : Dbl) (xx : V3) (mode : ℤ) (hit : Hit)
    (h : intersectWithSurface surf hp rp s xx mode true = .ok hit) (hf : hit.found = true) :
    surf.insideBounds hit.xx = true := by
  rw [C35_surface] at h
  cases hr : intersectWithSurface surf hp rp s xx mode false with
  | ok h' =>
    rw [hr, filterBounds_ok] at h
    injection h with h
    rw [← h] at hf ⊢
    simp only [Bool.and_eq_true] at hf
    exact hf.2
  | throw _ => rw [hr] at h; cases h
  | ub _ => rw [hr] at h; cases h
  | diverge => rw [hr] at h; cases h

/-! ## C37 -/

/-- loop invariant of the Newton iteration -/
structure NewtonInv (surf : Surface) (hp : V5) (rp : V3) (st : NewtonState) : Prop where
  cur : st.xx = pointAt st.s hp rp
  prev : st.prevXX = pointAt st.prevS hp rp
  small : st.done = some true → Dbl.abs (surf.distance st.xx) < (1e-3 : Dbl) * unit_mm
  evals : st.evals = st.count
  count : st.count ≤ 101

theorem newtonInv_step (surf : Surface) (hp : V5) (rp : V3) (st : NewtonState) (h : NewtonInv surf hp rp st)
    (hd : st.done = none) :
    NewtonInv surf hp rp (newtonStep surf hp rp st) ∧
      ((newtonStep surf hp rp st).done ≠ none ∨ (newtonStep surf hp rp st).count = st.count + 1) := by
  unfold newtonStep
  by_cases hc : st.count > 100
  · rw [if_pos hc]
    exact ⟨⟨h.prev, h.prev, by simp, h.evals, h.count⟩, Or.inl (by simp)⟩
  · rw [if_neg hc]
    dsimp only
    refine cif_cases (P := fun x : NewtonState => NewtonInv surf hp rp x ∧ (x.done ≠ none ∨ x.count = st.count + 1))
      (fun h1 => ?_) (fun h1 => ?_)
    · exact ⟨⟨h.cur, h.prev, fun _ => h1, by simp [h.evals], by simp; omega⟩, Or.inl (by simp)⟩
    · by_cases h2 : Dbl.abs (surf.distance st.xx) < Dbl.abs st.prevDist
      · simp only [cif_pos h2]
        exact ⟨⟨rfl, h.cur, by simp [hd], by simp [h.evals], by simp; omega⟩, Or.inr (by simp)⟩
      · simp only [cif_neg h2]
        exact ⟨⟨rfl, h.prev, by simp [hd], by simp [h.evals], by simp; omega⟩, Or.inr (by simp)⟩

theorem newtonLoop_ok (surf : Surface) (hp : V5) (rp : V3) (s : Dbl) :
    ∃ st, newtonLoop surf hp rp s = .ok st ∧ NewtonInv surf hp rp st ∧ st.done ≠ none := by
  have key : ∀ n : ℕ, ∀ st : NewtonState, NewtonInv surf hp rp st → 102 ≤ st.count + n →
      ∃ st', whileLoop (fun st => st.done = none) (newtonStep surf hp rp) st = .ok st' ∧
        NewtonInv surf hp rp st' ∧ st'.done ≠ none := by
    intro n
    induction n with
    | zero => intro st h hn; exact absurd h.count (by omega)
    | succ n ih =>
      intro st h hn
      by_cases hd : st.done = none
      · rw [whileLoop_of_cond (a := st) hd]
        obtain ⟨h1, h2⟩ := newtonInv_step surf hp rp st h hd
        rcases h2 with h2 | h2
        · exact ⟨_, whileLoop_of_not h2, h1, h2⟩
        · exact ih _ h1 (by omega)
      · exact ⟨st, whileLoop_of_not hd, h, hd⟩
  exact key 102 _ ⟨rfl, rfl, by simp [newtonInit], rfl, by simp [newtonInit]⟩ (by simp [newtonInit])

/-- C37: the loop ends after at most 101 evaluations of the distance, for every surface. -/
theorem C37_terminates (surf : Surface) (hp : V5) (rp : V3) (s : Dbl) :
    ∃ st, newtonLoop surf hp rp s = .ok st ∧ st.evals ≤ 101 := by
  obtain ⟨st, h, hi, -⟩ := newtonLoop_ok surf hp rp s
  exact ⟨st, h, by rw [hi.evals]; exact hi.count⟩

theorem abs_lt_eps {a : Dbl} (h : Dbl.abs a < (1e-3 : Dbl) * unit_mm) : ∃ δ : ℝ, a = fin δ ∧ |δ| < 1 / 10000 := by
  cases a with
  | fin x =>
    simp only [unit_mm, abs_fin, ofSci_eq, fin_mul, fin_lt] at h
    exact ⟨x, rfl, by norm_num at h ⊢; exact h⟩
  | inf s => simp [unit_mm] at h
  | nan => simp at h

/-- C37: the call always returns; the reported point is the track point at the reported path length, and on
success the distance to the surface there is less than 1e-3 mm = 1e-4 cm, and the direction is as required. -/
theorem C37_accurate (surf : Surface) (hp : V5) (rp : V3) (s : Dbl) (xx : V3) (mode : ℤ) (cb : Bool) :
    ∃ hit, intersectWithSurfaceNewton surf hp rp s xx mode cb = .ok hit ∧ hit.xx = pointAt hit.s hp rp ∧
      (hit.found = true → (∃ δ : ℝ, surf.distance hit.xx = fin δ ∧ |δ| < 1 / 10000) ∧
        (mode = 0 ∨ 0 < fin (mode : ℝ) * hit.s) ∧ (cb = true → surf.insideBounds hit.xx = true)) := by
  obtain ⟨st, h, hi, hd⟩ := newtonLoop_ok surf hp rp s
  unfold intersectWithSurfaceNewton
  rw [h]
  simp only [Out.ok_bind]
  by_cases h1 : st.done = some true
  · rw [if_pos h1]
    refine cif_cases (P := fun x : Out Hit => ∃ hit : Hit, x = Out.ok hit ∧ hit.xx = pointAt hit.s hp rp ∧
      (hit.found = true → (∃ δ : ℝ, surf.distance hit.xx = fin δ ∧ |δ| < 1 / 10000) ∧
        (mode = 0 ∨ 0 < fin (mode : ℝ) * hit.s) ∧ (cb = true → surf.insideBounds hit.xx = true))) (fun h2 => ?_) (fun h2 => ?_)
    · exact ⟨_, rfl, hi.cur, fun h3 => ⟨abs_lt_eps (hi.small h1), h2.symm, (boundsOk_iff _ _ _).1 h3⟩⟩
    · exact ⟨_, rfl, hi.cur, fun h3 => by simp at h3⟩
  · rw [if_neg h1]
    exact ⟨_, rfl, hi.cur, fun h3 => by simp at h3⟩

/-- C37 for the cone intersection, which starts from the intersection with the middle cylinder -/
theorem C37_cone (surf : Surface) (hp : V5) (rp : V3) (s : Dbl) (xx : V3) (mode : ℤ) (cb : Bool) (hit : Hit)
    (h : intersectWithZCone surf hp rp s xx mode cb = .ok hit) (hf : hit.found = true) :
    hit.xx = pointAt hit.s hp rp ∧ (∃ δ : ℝ, surf.distance hit.xx = fin δ ∧ |δ| < 1 / 10000) ∧
      (mode = 0 ∨ 0 < fin (mode : ℝ) * hit.s) ∧ (cb = true → surf.insideBounds hit.xx = true) := by
  unfold intersectWithZCone at h
  obtain ⟨h0, -, h1⟩ := Out.bind_eq_ok.mp h
  split at h1
  · obtain ⟨hit', e, h2, h3⟩ := C37_accurate surf hp rp h0.s h0.xx mode cb
    rw [e] at h1
    injection h1 with h1
    subst h1
    exact ⟨h2, h3 hf⟩
  · injection h1 with h1
    rw [← h1] at hf
    simp at hf

/-- C37: the iteration can succeed: for a surface whose distance vanishes everywhere the first point is
accepted, for every helix. -/
example (surf : Surface) (hd : ∀ p, surf.distance p = fin 0) (hp : V5) (rp : V3) (s : Dbl) (xx : V3) :
    intersectWithSurfaceNewton surf hp rp s xx 0 false = .ok ⟨true, s, pointAt s hp rp⟩ := by
  have hlt : Dbl.abs (fin 0) < (1e-3 : Dbl) * unit_mm := by simp [unit_mm]; norm_num
  have hstep : newtonStep surf hp rp (newtonInit hp rp s) =
      { newtonInit hp rp s with count := 1, evals := 1, done := some true } := by
    unfold newtonStep
    rw [if_neg (by simp [newtonInit])]
    simp only [hd, cif_pos hlt]
    rfl
  unfold intersectWithSurfaceNewton newtonLoop
  rw [whileLoop_of_cond (by rfl), hstep, whileLoop_of_not (by simp)]
  simp [newtonInit, modeOk, boundsOk]

/-! ## C38 -/

/-- C38: types that are neither z-cylinder, z-plane, z-disk nor cone give a failure that leaves the
out-parameters unchanged. -/
theorem C38_unsupported (surf : Surface) (hp : V5) (rp : V3) (s : Dbl) (xx : V3) (mode : ℤ) (cb : Bool)
    (h1 : ¬ (surf.type 0 = true ∧ surf.type 4 = true)) (h2 : ¬ (surf.type 1 = true ∧ surf.type 4 = true))
    (h3 : ¬ (surf.type 1 = true ∧ surf.type 5 = true)) (h4 : surf.isCone = false) :
    intersectWithSurface surf hp rp s xx mode cb = .ok ⟨false, s, xx⟩ := by
  unfold intersectWithSurface SurfaceType.isZCylinder SurfaceType.isZPlane SurfaceType.isZDisk
  simp only [Bool.and_eq_true, h1, h2, h3, h4, if_false, Bool.false_eq_true]

/-- C38: supported types are delegated (cylinder before plane before disk before cone). -/
theorem C38_delegates (surf : Surface) (hp : V5) (rp : V3) (s : Dbl) (xx : V3) (mode : ℤ) (cb : Bool) :
    (surf.type 0 = true ∧ surf.type 4 = true →
      intersectWithSurface surf hp rp s xx mode cb = intersectWithZCylinder surf hp rp s xx mode cb) ∧
    (surf.type 0 = false ∧ surf.type 1 = true ∧ surf.type 4 = true →
      intersectWithSurface surf hp rp s xx mode cb = intersectWithZPlane surf hp rp s xx mode cb) ∧
    (surf.type 4 = false ∧ surf.type 1 = true ∧ surf.type 5 = true →
      intersectWithSurface surf hp rp s xx mode cb = intersectWithZDisk surf hp rp s xx mode cb) ∧
    (surf.type 0 = false ∧ surf.type 1 = false ∧ surf.isCone = true →
      intersectWithSurface surf hp rp s xx mode cb = intersectWithZCone surf hp rp s xx mode cb) := by
  unfold intersectWithSurface SurfaceType.isZCylinder SurfaceType.isZPlane SurfaceType.isZDisk
  refine ⟨?_, ?_, ?_, ?_⟩
  · rintro ⟨h1, h2⟩; simp [h1, h2]
  · rintro ⟨h1, h2, h3⟩; simp [h1, h2, h3]
  · rintro ⟨h1, h2, h3⟩; simp [h1, h2, h3]
  · rintro ⟨h1, h2, h3⟩; simp [h1, h2, h3]

end Verif
