import Verif.Lemmas.SurfaceHits
import Verif.Props.Intersections
import Verif.Props.SurfaceDispatch

/-!
# C32, C33, C34, C36: intersections with cylinders and planes parallel to z
-/

noncomputable section

namespace Verif

open Dbl Spec

variable {om tl ph d z rx ry rz : ℝ} {surf : Surface} {a b c rho : ℝ}

/-- the track point at path length `s` satisfies a condition on its transverse coordinates -/
def Meets (P : ℝ → ℝ → Prop) (om tl ph d z rx ry rz s : ℝ) : Prop :=
  ∃ px py pz : ℝ, pointAt (fin s) (hpR om tl ph d z) (V3.re rx ry rz) = V3.re px py pz ∧ P px py

theorem meets_iff {P : ℝ → ℝ → Prop} (h : om ≠ 0) (s : ℝ) :
    Meets P om tl ph d z rx ry rz s ↔ P (rX om ph d rx s) (rY om ph d ry s) := by
  unfold Meets
  rw [pointAt_re h]
  constructor
  · rintro ⟨px, py, pz, h1, h2⟩
    simp only [V3.re, V3.mk.injEq, fin_inj] at h1
    rw [h1.1, h1.2.1]
    exact h2
  · intro h1
    exact ⟨_, _, _, rfl, h1⟩

/-- a z-cylinder surface of radius `rho` around the axis (a,b), and a track in general position: finite,
curved, azimuth in the usual range, not coaxial with the cylinder, and the point opposite to the starting
point (half a turn away) not on the cylinder -/
structure CylCase (surf : Surface) (om tl ph d z rx ry rz a b c rho : ℝ) : Prop where
  curved : om ≠ 0
  azimuth : |ph| ≤ 2 * Real.pi
  radius : 0 < rho
  cyl : surf.cyl = some (fin rho, V3.re a b c)
  parallel : surf.type.isParallelToZ = true
  notCoaxial : ¬ (calculateXCenter (hpR om tl ph d z) (V3.re rx ry rz) = fin a ∧
    calculateYCenter (hpR om tl ph d z) (V3.re rx ry rz) = fin b)
  notOpposite : ¬ Meets (OnCircle a b rho) om tl ph d z rx ry rz (Real.pi / om)

theorem cylinder_main (C : CylCase surf om tl ph d z rx ry rz a b c rho) (s : Dbl) (xx : V3) (mode : ℤ) (cb : Bool) :
    (intersectWithZCylinder surf (hpR om tl ph d z) (V3.re rx ry rz) s xx mode cb = .ok ⟨false, s, xx⟩ ∧
      ∀ s', |om * s'| < Real.pi → Meets (OnCircle a b rho) om tl ph d z rx ry rz s' → ¬ Wanted mode s') ∨
    (∃ sv, |om * sv| < Real.pi ∧ Meets (OnCircle a b rho) om tl ph d z rx ry rz sv ∧
      intersectWithZCylinder surf (hpR om tl ph d z) (V3.re rx ry rz) s xx mode cb =
        .ok ⟨boundsOk surf cb (pointAt (fin sv) (hpR om tl ph d z) (V3.re rx ry rz)), fin sv,
          pointAt (fin sv) (hpR om tl ph d z) (V3.re rx ry rz)⟩ ∧
      ∀ s', |om * s'| < Real.pi → Meets (OnCircle a b rho) om tl ph d z rx ry rz s' → SelOk 1e-4 mode sv s') := by
  obtain ⟨h, hph, hr, hcyl, hpar, hD, hopp⟩ := C
  rw [calculateXCenter_re h, calculateYCenter_re h, fin_inj, fin_inj] at hD
  simp only [meets_iff h] at hopp ⊢
  unfold intersectWithZCylinder
  simp only [hcyl, hpar, if_true]
  rcases cyl_candidates (tl := tl) (z := z) (rz := rz) (c := c) h hph hr hD hopp with ⟨h1, h2⟩ | ⟨s0, s1, b0, b1, hc, hall⟩
  · left
    rw [h1]
    exact ⟨rfl, fun s' _ hs' => absurd hs' (h2 s')⟩
  · rw [hc]
    have e0 := calculateSfromXY_track (tl := tl) (d := d) (z := z) (rx := rx) (ry := ry) (rz := rz) h hph b0
    have e1 := calculateSfromXY_track (tl := tl) (d := d) (z := z) (rx := rx) (ry := ry) (rz := rz) h hph b1
    simp only [e0, e1, calculateZfromS_re]
    rcases cylinderSelect_spec mode s0 s1 with ⟨hs, hm⟩ | ⟨hs, hm⟩ | ⟨hs, hm⟩
    · left
      rw [hs]
      refine ⟨rfl, ?_⟩
      intro s' hs' hon hw
      rcases (hall s' hs').1 hon with rfl | rfl
      · rcases hm with ⟨m, q, -⟩ | ⟨m, q, -⟩
        · have := hw.1 m; linarith
        · have := hw.2 m; linarith
      · rcases hm with ⟨m, -, q⟩ | ⟨m, -, q⟩
        · have := hw.1 m; linarith
        · have := hw.2 m; linarith
    · right
      refine ⟨s0, b0, (hall s0 b0).2 (Or.inl rfl), ?_, ?_⟩
      · rw [hs, pointAt_re h]; rfl
      · intro s' hs' hon
        rcases (hall s' hs').1 hon with rfl | rfl
        · exact hm.self
        · exact hm
    · right
      refine ⟨s1, b1, (hall s1 b1).2 (Or.inr rfl), ?_, ?_⟩
      · rw [hs, pointAt_re h]; rfl
      · intro s' hs' hon
        rcases (hall s' hs').1 hon with rfl | rfl
        · exact hm
        · exact hm.self

/-! ## C32 -/

/-- C32, soundness: a reported intersection is on the cylinder, it is the track point at the reported path
length, and that is within half a turn. -/
theorem C32_sound (C : CylCase surf om tl ph d z rx ry rz a b c rho) (s : Dbl) (xx : V3) (mode : ℤ) (cb : Bool)
    (hit : Hit) (hr : intersectWithZCylinder surf (hpR om tl ph d z) (V3.re rx ry rz) s xx mode cb = .ok hit)
    (hf : hit.found = true) :
    ∃ sv px py pz : ℝ, hit.s = fin sv ∧ |om * sv| < Real.pi ∧ hit.xx = V3.re px py pz ∧
      pointAt (fin sv) (hpR om tl ph d z) (V3.re rx ry rz) = V3.re px py pz ∧ OnCircle a b rho px py := by
  rcases cylinder_main C s xx mode cb with ⟨h1, -⟩ | ⟨sv, h1, ⟨px, py, pz, h2, h3⟩, h4, -⟩
  · rw [h1] at hr
    injection hr with hr
    rw [← hr] at hf
    simp at hf
  · rw [h4, h2] at hr
    injection hr with hr
    rw [← hr]
    exact ⟨sv, px, py, pz, rfl, h1, rfl, h2, h3⟩

/-- C32, completeness: the call always returns; if it reports failure although no bounds are requested, no
track point within half a turn in the requested direction is on the cylinder. -/
theorem C32_complete (C : CylCase surf om tl ph d z rx ry rz a b c rho) (s : Dbl) (xx : V3) (mode : ℤ) :
    ∃ hit, intersectWithZCylinder surf (hpR om tl ph d z) (V3.re rx ry rz) s xx mode false = .ok hit ∧
      (hit.found = false → hit.s = s ∧ hit.xx = xx ∧
        ∀ s', |om * s'| < Real.pi → Meets (OnCircle a b rho) om tl ph d z rx ry rz s' → ¬ Wanted mode s') := by
  rcases cylinder_main C s xx mode false with ⟨h1, h2⟩ | ⟨sv, -, -, h4, -⟩
  · exact ⟨_, h1, fun _ => ⟨rfl, rfl, h2⟩⟩
  · exact ⟨_, h4, fun hf => by simp [boundsOk] at hf⟩

/-- C32: surfaces that are not cylinders parallel to z are rejected with an exception. -/
theorem C32_rejects (hp : V5) (rp : V3) (s : Dbl) (xx : V3) (mode : ℤ) (cb : Bool)
    (h : surf.cyl = none ∨ surf.type.isParallelToZ = false) :
    ∃ msg, intersectWithZCylinder surf hp rp s xx mode cb = .throw msg := by
  unfold intersectWithZCylinder
  cases hc : surf.cyl with
  | none => exact ⟨_, rfl⟩
  | some p =>
    rcases h with h | h
    · rw [hc] at h; cases h
    · obtain ⟨rho, cylc⟩ := p
      simp only [h]
      exact ⟨_, rfl⟩

/-- The hypotheses are satisfiable: unit circle track through the origin along x, cylinder of radius 1 around
the origin. -/
theorem cylCase_example (surf : Surface) (h1 : surf.cyl = some (fin 1, V3.re 0 0 0))
    (h2 : surf.type.isParallelToZ = true) : CylCase surf 1 1 0 0 0 0 0 0 0 0 0 1 where
  curved := one_ne_zero
  azimuth := by rw [abs_zero]; have := Real.pi_pos; linarith
  radius := one_pos
  cyl := h1
  parallel := h2
  notCoaxial := by
    rw [calculateXCenter_re one_ne_zero, calculateYCenter_re one_ne_zero]
    simp [rCx, rCy]
  notOpposite := by
    rw [meets_iff one_ne_zero]
    simp only [OnCircle, rX, rY]
    simp
    norm_num

/-! ## C34, cylinder -/

/-- C34, cylinder: among all track points within half a turn on the cylinder the reported one is the first in
the requested direction; for mode 0 it is the closest one, up to the tolerance 1e-4 in favour of positive
path length. -/
theorem C34_cylinder (C : CylCase surf om tl ph d z rx ry rz a b c rho) (s : Dbl) (xx : V3) (mode : ℤ) (cb : Bool)
    (hit : Hit) (hr : intersectWithZCylinder surf (hpR om tl ph d z) (V3.re rx ry rz) s xx mode cb = .ok hit)
    (hf : hit.found = true) :
    ∃ sv : ℝ, hit.s = fin sv ∧ (0 < mode → 0 ≤ sv) ∧ (mode < 0 → sv < 0) ∧
      ∀ s', |om * s'| < Real.pi → Meets (OnCircle a b rho) om tl ph d z rx ry rz s' →
        (0 < mode → 0 ≤ s' → sv ≤ s') ∧ (mode < 0 → s' < 0 → s' ≤ sv) ∧
        (mode = 0 → (|sv| ≤ |s'| ∧ (sv < 0 → 0 ≤ s' → |sv| + 1e-4 ≤ |s'|)) ∨
          (0 ≤ sv ∧ s' < 0 ∧ |sv| ≤ |s'| + 1e-4)) := by
  rcases cylinder_main C s xx mode cb with ⟨h1, -⟩ | ⟨sv, h1, h2, h4, h5⟩
  · rw [h1] at hr
    injection hr with hr
    rw [← hr] at hf
    simp at hf
  · rw [h4] at hr
    injection hr with hr
    rw [← hr]
    refine ⟨sv, rfl, fun hm => ((h5 sv h1 h2).1 hm).1, fun hm => ((h5 sv h1 h2).2.1 hm).1, ?_⟩
    intro s' hs' hon
    have := h5 s' hs' hon
    exact ⟨fun hm => (this.1 hm).2, fun hm => (this.2.1 hm).2, this.2.2⟩

/-! ## plane -/

variable {n0 n1 ox oy oz cx cy r : ℝ}

/-- a plane parallel to z with unit normal (n0,n1,0) through (ox,oy,oz), and a track (centre (cx,cy), radius
r) in general position: finite, curved, azimuth in the usual range, and the point opposite to the starting
point not on the line that the code intersects -/
structure PlaneCase (surf : Surface) (om tl ph d z rx ry rz n0 n1 ox oy oz cx cy r : ℝ) : Prop where
  curved : om ≠ 0
  azimuth : |ph| ≤ 2 * Real.pi
  normal : surf.normal V3.zero = V3.re n0 n1 0
  origin : surf.origin = V3.re ox oy oz
  unit : n0 ^ 2 + n1 ^ 2 = 1
  cxEq : calculateXCenter (hpR om tl ph d z) (V3.re rx ry rz) = fin cx
  cyEq : calculateYCenter (hpR om tl ph d z) (V3.re rx ry rz) = fin cy
  rEq : calculateRadius (hpR om tl ph d z) = fin r
  notOpposite : ¬ Meets (OnLine n0 n1 |ox * n0 + oy * n1|) om tl ph d z rx ry rz (Real.pi / om)

theorem not_tiny_of_unit (h : n0 ^ 2 + n1 ^ 2 = 1) :
    ¬ (Dbl.abs (fin n0) < (1e-12 : Dbl) ∧ Dbl.abs (fin n1) < (1e-12 : Dbl)) := by
  rintro ⟨h0, h1⟩
  simp only [abs_fin, ofSci_eq, fin_lt] at h0 h1
  have a0 : n0 ^ 2 ≤ 1 / 4 := by
    rw [← sq_abs]
    have : |n0| ≤ 1 / 2 := by norm_num at h0 ⊢; linarith
    nlinarith [abs_nonneg n0]
  have a1 : n1 ^ 2 ≤ 1 / 4 := by
    rw [← sq_abs]
    have : |n1| ≤ 1 / 2 := by norm_num at h1 ⊢; linarith
    nlinarith [abs_nonneg n1]
  linarith

/-- the plane intersection in terms of circle and line -/
theorem plane_unfold (C : PlaneCase surf om tl ph d z rx ry rz n0 n1 ox oy oz cx cy r) (s : Dbl) (xx : V3) (mode : ℤ)
    (cb : Bool) : intersectWithZPlane surf (hpR om tl ph d z) (V3.re rx ry rz) s xx mode cb =
      (match intersectCircleStraightLine ⟨fin cx, fin cy, fin r⟩ ⟨fin n0, fin n1, fin |ox * n0 + oy * n1|⟩ with
      | [] => .ok ⟨false, s, xx⟩
      | [(X, Y)] =>
        let s := calculateSfromXY X Y (hpR om tl ph d z) (V3.re rx ry rz)
        let Z := calculateZfromS s (hpR om tl ph d z) (V3.re rx ry rz)
        let xx : V3 := ⟨X, Y, Z⟩
        ifc modeOk mode s then .ok ⟨boundsOk surf cb xx, s, xx⟩ else .ok ⟨false, s, xx⟩
      | (X0, Y0) :: (X1, Y1) :: _ =>
        let s0 := calculateSfromXY X0 Y0 (hpR om tl ph d z) (V3.re rx ry rz)
        let Z0 := calculateZfromS s0 (hpR om tl ph d z) (V3.re rx ry rz)
        let s1 := calculateSfromXY X1 Y1 (hpR om tl ph d z) (V3.re rx ry rz)
        let Z1 := calculateZfromS s1 (hpR om tl ph d z) (V3.re rx ry rz)
        match planeSelect mode s0 s1 with
        | none => .ok ⟨false, s, xx⟩
        | some true => .ok ⟨boundsOk surf cb ⟨X0, Y0, Z0⟩, s0, ⟨X0, Y0, Z0⟩⟩
        | some false => .ok ⟨boundsOk surf cb ⟨X1, Y1, Z1⟩, s1, ⟨X1, Y1, Z1⟩⟩) := by
  have hd : Dbl.abs ((V3.re ox oy oz).dot (V3.re n0 n1 0)) = fin |ox * n0 + oy * n1| := by
    simp [V3.dot, V3.re]
  have hL : Line.make (fin n0) (fin n1) (fin |ox * n0 + oy * n1|) =
      .ok ⟨fin n0, fin n1, fin |ox * n0 + oy * n1|⟩ := by
    unfold Line.make
    rw [cif_neg (by simp), cif_neg (not_tiny_of_unit C.unit)]
  have hr0 : 0 ≤ r := by
    have := C.rEq
    rw [calculateRadius_re C.curved, fin_inj] at this
    rw [← this]; exact abs_nonneg _
  have hC : Circle.make (fin cx) (fin cy) (fin r) = .ok ⟨fin cx, fin cy, fin r⟩ := by
    unfold Circle.make
    rw [cif_neg (by simpa using hr0)]
  unfold intersectWithZPlane
  rw [C.normal, C.origin, C.cxEq, C.cyEq, C.rEq, hd]
  simp only [V3.re] at hL ⊢
  rw [hL]
  simp only [Out.ok_bind]
  rw [hC]
  simp only [Out.ok_bind]
  rcases intersectCircleStraightLine ⟨fin cx, fin cy, fin r⟩ ⟨fin n0, fin n1, fin |ox * n0 + oy * n1|⟩ with
    _ | ⟨⟨X0, Y0⟩, _ | ⟨⟨X1, Y1⟩, l⟩⟩ <;> rfl

/-- common points of circle and line belong to path lengths within half a turn -/
theorem plane_point (C : PlaneCase surf om tl ph d z rx ry rz n0 n1 ox oy oz cx cy r) {x y : ℝ}
    (h1 : OnCircle cx cy r x y) (h2 : OnLine n0 n1 |ox * n0 + oy * n1| x y) :
    ∃ sv, |om * sv| < Real.pi ∧ rX om ph d rx sv = x ∧ rY om ph d ry sv = y := by
  have e1 := C.cxEq
  have e2 := C.cyEq
  have e3 := C.rEq
  have e4 := C.notOpposite
  rw [calculateXCenter_re C.curved, fin_inj] at e1
  rw [calculateYCenter_re C.curved, fin_inj] at e2
  rw [calculateRadius_re C.curved, fin_inj] at e3
  rw [meets_iff C.curved] at e4
  subst e1 e2 e3
  unfold OnCircle at h1
  rw [sq_abs] at h1
  refine circle_point C.curved C.azimuth h1 ?_
  rintro ⟨q1, q2⟩
  apply e4
  rw [← q1, ← q2]
  exact h2

theorem plane_on_circle (C : PlaneCase surf om tl ph d z rx ry rz n0 n1 ox oy oz cx cy r) (sv : ℝ) :
    OnCircle cx cy r (rX om ph d rx sv) (rY om ph d ry sv) := by
  have e1 := C.cxEq
  have e2 := C.cyEq
  have e3 := C.rEq
  rw [calculateXCenter_re C.curved, fin_inj] at e1
  rw [calculateYCenter_re C.curved, fin_inj] at e2
  rw [calculateRadius_re C.curved, fin_inj] at e3
  subst e1 e2 e3
  unfold OnCircle
  rw [sq_abs]
  exact on_circle sv

/-- circle and line cross clearly -/
theorem plane_cross (C : PlaneCase surf om tl ph d z rx ry rz n0 n1 ox oy oz cx cy r)
    (hdisc : 1e-9 < clDisc cx cy r n0 n1 |ox * n0 + oy * n1|) (s : Dbl) (xx : V3) (mode : ℤ) (cb : Bool) :
    (intersectWithZPlane surf (hpR om tl ph d z) (V3.re rx ry rz) s xx mode cb = .ok ⟨false, s, xx⟩ ∧
      ∀ s', |om * s'| < Real.pi → Meets (OnLine n0 n1 |ox * n0 + oy * n1|) om tl ph d z rx ry rz s' → ¬ Wanted mode s') ∨
    (∃ sv, |om * sv| < Real.pi ∧ Meets (OnLine n0 n1 |ox * n0 + oy * n1|) om tl ph d z rx ry rz sv ∧
      intersectWithZPlane surf (hpR om tl ph d z) (V3.re rx ry rz) s xx mode cb =
        .ok ⟨boundsOk surf cb (pointAt (fin sv) (hpR om tl ph d z) (V3.re rx ry rz)), fin sv,
          pointAt (fin sv) (hpR om tl ph d z) (V3.re rx ry rz)⟩ ∧
      ∀ s', |om * s'| < Real.pi → Meets (OnLine n0 n1 |ox * n0 + oy * n1|) om tl ph d z rx ry rz s' → SelOk 0 mode sv s') := by
  have h := C.curved
  simp only [meets_iff h]
  rw [plane_unfold C]
  obtain ⟨x0, y0, x1, y1, he, -, hall⟩ := cl_cross (by rw [C.unit]; norm_num) hdisc
  have p0 := (hall x0 y0).2 (Or.inl rfl)
  have p1 := (hall x1 y1).2 (Or.inr rfl)
  obtain ⟨s0, b0, X0, Y0⟩ := plane_point C p0.1 p0.2
  obtain ⟨s1, b1, X1, Y1⟩ := plane_point C p1.1 p1.2
  subst X0 Y0 X1 Y1
  rw [he]
  have e0 := calculateSfromXY_track (tl := tl) (d := d) (z := z) (rx := rx) (ry := ry) (rz := rz) h C.azimuth b0
  have e1 := calculateSfromXY_track (tl := tl) (d := d) (z := z) (rx := rx) (ry := ry) (rz := rz) h C.azimuth b1
  simp only [e0, e1, calculateZfromS_re]
  have hset : ∀ s', |om * s'| < Real.pi → OnLine n0 n1 |ox * n0 + oy * n1| (rX om ph d rx s') (rY om ph d ry s') →
      s' = s0 ∨ s' = s1 := by
    intro s' hs' hon
    rcases (hall _ _).1 ⟨plane_on_circle C s', hon⟩ with q | q
    · rw [Prod.mk.injEq] at q
      exact Or.inl (path_unique h C.azimuth hs' b0 q.1 q.2)
    · rw [Prod.mk.injEq] at q
      exact Or.inr (path_unique h C.azimuth hs' b1 q.1 q.2)
  rcases planeSelect_spec mode s0 s1 with ⟨hs, hm⟩ | ⟨hs, hm⟩ | ⟨hs, hm⟩
  · left
    rw [hs]
    refine ⟨rfl, ?_⟩
    intro s' hs' hon hw
    rcases hset s' hs' hon with rfl | rfl
    · rcases hm with ⟨m, q, -⟩ | ⟨m, q, -⟩
      · have := hw.1 m; linarith
      · have := hw.2 m; linarith
    · rcases hm with ⟨m, -, q⟩ | ⟨m, -, q⟩
      · have := hw.1 m; linarith
      · have := hw.2 m; linarith
  · right
    refine ⟨s0, b0, p0.2, ?_, ?_⟩
    · rw [hs, pointAt_re h]; rfl
    · intro s' hs' hon
      rcases hset s' hs' hon with rfl | rfl
      · exact hm.self
      · exact hm
  · right
    refine ⟨s1, b1, p1.2, ?_, ?_⟩
    · rw [hs, pointAt_re h]; rfl
    · intro s' hs' hon
      rcases hset s' hs' hon with rfl | rfl
      · exact hm
      · exact hm.self

/-- circle and line touch (within the tolerance): one solution -/
theorem plane_touch (C : PlaneCase surf om tl ph d z rx ry rz n0 n1 ox oy oz cx cy r)
    (h0 : 0 ≤ clDisc cx cy r n0 n1 |ox * n0 + oy * n1|) (h1 : clDisc cx cy r n0 n1 |ox * n0 + oy * n1| ≤ 1e-9)
    (s : Dbl) (xx : V3) (mode : ℤ) (cb : Bool) :
    ∃ sv, |om * sv| < Real.pi ∧ Meets (OnLine n0 n1 |ox * n0 + oy * n1|) om tl ph d z rx ry rz sv ∧
      intersectWithZPlane surf (hpR om tl ph d z) (V3.re rx ry rz) s xx mode cb =
        (ifc (mode = 0 ∨ 0 < (mode : ℝ) * sv) then
          .ok ⟨boundsOk surf cb (pointAt (fin sv) (hpR om tl ph d z) (V3.re rx ry rz)), fin sv,
            pointAt (fin sv) (hpR om tl ph d z) (V3.re rx ry rz)⟩
         else .ok ⟨false, fin sv, pointAt (fin sv) (hpR om tl ph d z) (V3.re rx ry rz)⟩) := by
  have h := C.curved
  have hN : 0 < n0 ^ 2 + n1 ^ 2 := by rw [C.unit]; norm_num
  rw [plane_unfold C]
  have hs := cl_sound (S := Real.sqrt (clDisc cx cy r n0 n1 |ox * n0 + oy * n1|)) hN (Real.sq_sqrt h0)
  rw [cl_nonneg hN h0]
  simp only [cif_pos h1]
  obtain ⟨s0, b0, X0, Y0⟩ := plane_point C hs.1 hs.2
  refine ⟨s0, b0, ?_, ?_⟩
  · rw [meets_iff h, X0, Y0]; exact hs.2
  · rw [← X0, ← Y0]
    have e0 := calculateSfromXY_track (tl := tl) (d := d) (z := z) (rx := rx) (ry := ry) (rz := rz) h C.azimuth b0
    simp only [e0, calculateZfromS_re, modeOk_fin, pointAt_re h]
    rfl

/-- circle and line are apart: failure, out-parameters unchanged -/
theorem plane_apart (C : PlaneCase surf om tl ph d z rx ry rz n0 n1 ox oy oz cx cy r)
    (h0 : clDisc cx cy r n0 n1 |ox * n0 + oy * n1| < -1e-9) (s : Dbl) (xx : V3) (mode : ℤ) (cb : Bool) :
    intersectWithZPlane surf (hpR om tl ph d z) (V3.re rx ry rz) s xx mode cb = .ok ⟨false, s, xx⟩ := by
  rw [plane_unfold C, cl_neg h0]

theorem calculateSfromXY_nan (x : Dbl) (hp : V5) (rp : V3) : calculateSfromXY nan x hp rp = nan := by
  simp [calculateSfromXY]

/-- circle and line miss each other by a tiny distance: an undefined point -/
theorem plane_window (C : PlaneCase surf om tl ph d z rx ry rz n0 n1 ox oy oz cx cy r)
    (h0 : -1e-9 ≤ clDisc cx cy r n0 n1 |ox * n0 + oy * n1|) (h1 : clDisc cx cy r n0 n1 |ox * n0 + oy * n1| < 0)
    (s : Dbl) (xx : V3) (mode : ℤ) (cb : Bool) :
    intersectWithZPlane surf (hpR om tl ph d z) (V3.re rx ry rz) s xx mode cb =
      (ifc mode = 0 then .ok ⟨boundsOk surf cb ⟨nan, nan, nan⟩, nan, ⟨nan, nan, nan⟩⟩
       else .ok ⟨false, nan, ⟨nan, nan, nan⟩⟩) := by
  have hr0 : 0 ≤ r := by
    have := C.rEq
    rw [calculateRadius_re C.curved, fin_inj] at this
    rw [← this]; exact abs_nonneg _
  have hC : Circle.make (fin cx) (fin cy) (fin r) = .ok ⟨fin cx, fin cy, fin r⟩ := by
    unfold Circle.make
    rw [cif_neg (by simpa using hr0)]
  have hL : Line.make (fin n0) (fin n1) (fin |ox * n0 + oy * n1|) =
      .ok ⟨fin n0, fin n1, fin |ox * n0 + oy * n1|⟩ := by
    unfold Line.make
    rw [cif_neg (by simp), cif_neg (not_tiny_of_unit C.unit)]
  rw [plane_unfold C, (C26_window hC hL h0 h1).1]
  simp only [calculateSfromXY_nan, calculateZfromS, modeOk, mul_nan, not_lt_nan, false_or, nan_mul, add_nan]

/-! ## C33 -/

/-- C33 (partial): if the origin of the plane is on the side of its normal (`origin·normal ≥ 0`) and circle and
plane do not miss each other by less than the tolerance, then a reported intersection is a point of the plane, it is
the track point at the reported path length, and that is within half a turn.
Missing for C33: `origin·normal < 0` (`C33_false`), near misses (`C33_window_false`). -/
theorem C33_sound_partial (C : PlaneCase surf om tl ph d z rx ry rz n0 n1 ox oy oz cx cy r)
    (hside : 0 ≤ ox * n0 + oy * n1)
    (hw : ¬ (-1e-9 ≤ clDisc cx cy r n0 n1 (ox * n0 + oy * n1) ∧ clDisc cx cy r n0 n1 (ox * n0 + oy * n1) < 0))
    (s : Dbl) (xx : V3) (mode : ℤ) (cb : Bool)
    (hit : Hit) (hr : intersectWithZPlane surf (hpR om tl ph d z) (V3.re rx ry rz) s xx mode cb = .ok hit)
    (hf : hit.found = true) :
    ∃ sv px py pz : ℝ, hit.s = fin sv ∧ |om * sv| < Real.pi ∧ hit.xx = V3.re px py pz ∧
      pointAt (fin sv) (hpR om tl ph d z) (V3.re rx ry rz) = V3.re px py pz ∧
      n0 * (px - ox) + n1 * (py - oy) + 0 * (pz - oz) = 0 := by
  have habs : |ox * n0 + oy * n1| = ox * n0 + oy * n1 := abs_of_nonneg hside
  have fin_case : ∀ sv, |om * sv| < Real.pi → Meets (OnLine n0 n1 |ox * n0 + oy * n1|) om tl ph d z rx ry rz sv →
      hit.s = fin sv → hit.xx = pointAt (fin sv) (hpR om tl ph d z) (V3.re rx ry rz) →
      ∃ sv px py pz : ℝ, hit.s = fin sv ∧ |om * sv| < Real.pi ∧ hit.xx = V3.re px py pz ∧
        pointAt (fin sv) (hpR om tl ph d z) (V3.re rx ry rz) = V3.re px py pz ∧
        n0 * (px - ox) + n1 * (py - oy) + 0 * (pz - oz) = 0 := by
    rintro sv h1 ⟨px, py, pz, h2, h3⟩ h4 h5
    refine ⟨sv, px, py, pz, h4, h1, by rw [h5, h2], h2, ?_⟩
    unfold OnLine at h3
    rw [habs] at h3
    linarith
  rw [← habs] at hw
  rcases lt_or_ge (clDisc cx cy r n0 n1 |ox * n0 + oy * n1|) 0 with h0 | h0
  · have : clDisc cx cy r n0 n1 |ox * n0 + oy * n1| < -1e-9 := by
      by_contra hc
      exact hw ⟨not_lt.mp hc, h0⟩
    rw [plane_apart C this] at hr
    injection hr with hr
    rw [← hr] at hf
    simp at hf
  rcases le_or_gt (clDisc cx cy r n0 n1 |ox * n0 + oy * n1|) 1e-9 with h1 | h1
  · obtain ⟨sv, q1, q2, q3⟩ := plane_touch C h0 h1 s xx mode cb
    rw [q3] at hr
    by_cases hm : mode = 0 ∨ 0 < (mode : ℝ) * sv
    · rw [cif_pos hm] at hr
      injection hr with hr
      exact fin_case sv q1 q2 (by rw [← hr]) (by rw [← hr])
    · rw [cif_neg hm] at hr
      injection hr with hr
      rw [← hr] at hf
      simp at hf
  · rcases plane_cross C h1 s xx mode cb with ⟨q, -⟩ | ⟨sv, q1, q2, q3, -⟩
    · rw [q] at hr
      injection hr with hr
      rw [← hr] at hf
      simp at hf
    · rw [q3] at hr
      injection hr with hr
      exact fin_case sv q1 q2 (by rw [← hr]) (by rw [← hr])

/-- C33 (partial), completeness: if the two cross clearly or are clearly apart and failure is reported although no bounds are
requested, no track point within half a turn in the requested direction is in the plane. -/
theorem C33_complete_partial (C : PlaneCase surf om tl ph d z rx ry rz n0 n1 ox oy oz cx cy r)
    (hside : 0 ≤ ox * n0 + oy * n1)
    (hw : 1e-9 < |clDisc cx cy r n0 n1 (ox * n0 + oy * n1)|)
    (s : Dbl) (xx : V3) (mode : ℤ) :
    ∃ hit, intersectWithZPlane surf (hpR om tl ph d z) (V3.re rx ry rz) s xx mode false = .ok hit ∧
      (hit.found = false → hit.s = s ∧ hit.xx = xx ∧ ∀ s', |om * s'| < Real.pi →
        Meets (fun px py => n0 * (px - ox) + n1 * (py - oy) = 0) om tl ph d z rx ry rz s' → ¬ Wanted mode s') := by
  have habs : |ox * n0 + oy * n1| = ox * n0 + oy * n1 := abs_of_nonneg hside
  have hon : ∀ s', Meets (fun px py => n0 * (px - ox) + n1 * (py - oy) = 0) om tl ph d z rx ry rz s' →
      Meets (OnLine n0 n1 |ox * n0 + oy * n1|) om tl ph d z rx ry rz s' := by
    rintro s' ⟨px, py, pz, e, h⟩
    refine ⟨px, py, pz, e, ?_⟩
    unfold OnLine
    rw [habs]
    linarith
  rw [← habs] at hw
  rcases lt_abs.mp hw with h1 | h1
  · rcases plane_cross C h1 s xx mode false with ⟨q1, q2⟩ | ⟨sv, -, -, q, -⟩
    · exact ⟨_, q1, fun _ => ⟨rfl, rfl, fun s' hs' h => q2 s' hs' (hon s' h)⟩⟩
    · exact ⟨_, q, fun hf => by simp [boundsOk] at hf⟩
  · have h2 : clDisc cx cy r n0 n1 |ox * n0 + oy * n1| < -1e-9 := by linarith
    refine ⟨_, plane_apart C h2 s xx mode false, fun _ => ⟨rfl, rfl, fun s' hs' h => ?_⟩⟩
    exfalso
    have h3 := hon s' h
    rw [meets_iff C.curved] at h3
    have h4 := (cl_complete (by rw [C.unit]; norm_num) (plane_on_circle C s') h3).1
    have h5 := sq_nonneg (n1 * (rX om ph d rx s' - cx) - n0 * (rY om ph d ry s' - cy))
    rw [h4] at h5
    norm_num at h2
    linarith

/-- a concrete family of cases: the circle of radius 1 that starts at the origin along x and turns clockwise (centre
(0,-1)), and the planes x = o with normal (1,0,0) -/
theorem planeCase_example (o : ℝ) (ho : o ≠ 0) (surf : Surface) (h1 : surf.normal V3.zero = V3.re 1 0 0)
    (h2 : surf.origin = V3.re o 0 0) : PlaneCase surf 1 1 0 0 0 0 0 0 1 0 o 0 0 0 (-1) 1 where
  curved := one_ne_zero
  azimuth := by rw [abs_zero]; have := Real.pi_pos; linarith
  normal := h1
  origin := h2
  unit := by norm_num
  cxEq := by rw [calculateXCenter_re one_ne_zero]; simp [rCx]
  cyEq := by rw [calculateYCenter_re one_ne_zero]; simp [rCy]
  rEq := by rw [calculateRadius_re one_ne_zero]; simp
  notOpposite := by
    rw [meets_iff one_ne_zero]
    simp only [OnLine, rX, rY]
    simp
    exact fun hc => ho (abs_eq_zero.mp hc.symm)

/-- the transverse point of the example track -/
theorem example_point (s : ℝ) : rX 1 0 0 0 s = Real.sin s ∧ rY 1 0 0 0 s = Real.cos s - 1 := by
  constructor
  · simp [rX]
  · simp [rY]

/-- C33 as stated is false: for the plane x = -1/2 with normal (1,0,0) a point with x = +1/2 is reported. -/
theorem C33_false (surf : Surface) (h1 : surf.normal V3.zero = V3.re 1 0 0)
    (h2 : surf.origin = V3.re (-1 / 2) 0 0) (s : Dbl) (xx : V3) :
    ∃ sv py pz : ℝ, intersectWithZPlane surf (hpR 1 1 0 0 0) (V3.re 0 0 0) s xx 0 false =
      .ok ⟨true, fin sv, V3.re (1 / 2) py pz⟩ := by
  have C := planeCase_example (-1 / 2) (by norm_num) surf h1 h2
  have habs : |(-1 / 2 : ℝ) * 1 + 0 * 0| = 1 / 2 := by norm_num [abs_of_neg]
  have hd : (1e-9 : ℝ) < clDisc 0 (-1) 1 1 0 |(-1 / 2 : ℝ) * 1 + 0 * 0| := by
    rw [habs]; norm_num [clDisc]
  rcases plane_cross C hd s xx 0 false with ⟨-, q⟩ | ⟨sv, q1, ⟨px, py, pz, q2, q3⟩, q4, -⟩
  · exfalso
    refine q (Real.pi / 6) ?_ ?_ ⟨fun h => absurd h (lt_irrefl _), fun h => absurd h (lt_irrefl _)⟩
    · have := Real.pi_pos
      rw [one_mul, abs_of_pos (by positivity)]; linarith
    · rw [meets_iff one_ne_zero, (example_point _).1, Real.sin_pi_div_six, habs]
      norm_num [OnLine]
  · refine ⟨sv, py, pz, ?_⟩
    rw [q4, q2]
    unfold OnLine at q3
    rw [habs] at q3
    have : px = 1 / 2 := by linarith
    rw [this]
    rfl

/-- C33: in the window of near misses (distance of the plane from the circle of about 5e-10 for radius 1) success is
reported with an undefined point and path length (mode 0, no bounds check). -/
theorem C33_window_false (surf : Surface) (h1 : surf.normal V3.zero = V3.re 1 0 0)
    (h2 : surf.origin = V3.re (1 + 4e-10) 0 0) (s : Dbl) (xx : V3) :
    intersectWithZPlane surf (hpR 1 1 0 0 0) (V3.re 0 0 0) s xx 0 false =
      .ok ⟨true, nan, ⟨nan, nan, nan⟩⟩ := by
  have C := planeCase_example (1 + 4e-10) (by norm_num) surf h1 h2
  have habs : |(1 + 4e-10 : ℝ) * 1 + 0 * 0| = 1 + 4e-10 := by rw [abs_of_pos] <;> norm_num
  rw [plane_window C (by rw [habs]; norm_num [clDisc]) (by rw [habs]; norm_num [clDisc])]
  exact cif_pos rfl

/-! ## C34, plane, disk and Newton iteration -/

/-- C34, plane (crossing clearly): among all track points within half a turn on the line the reported one is the first
in the requested direction, for mode 0 the closest one. -/
theorem C34_plane (C : PlaneCase surf om tl ph d z rx ry rz n0 n1 ox oy oz cx cy r)
    (hside : 0 ≤ ox * n0 + oy * n1)
    (hdisc : 1e-9 < clDisc cx cy r n0 n1 (ox * n0 + oy * n1)) (s : Dbl) (xx : V3) (mode : ℤ) (cb : Bool)
    (hit : Hit) (hr : intersectWithZPlane surf (hpR om tl ph d z) (V3.re rx ry rz) s xx mode cb = .ok hit)
    (hf : hit.found = true) :
    ∃ sv : ℝ, hit.s = fin sv ∧ (0 < mode → 0 ≤ sv) ∧ (mode < 0 → sv < 0) ∧
      ∀ s', |om * s'| < Real.pi → Meets (OnLine n0 n1 (ox * n0 + oy * n1)) om tl ph d z rx ry rz s' →
        (0 < mode → 0 ≤ s' → sv ≤ s') ∧ (mode < 0 → s' < 0 → s' ≤ sv) ∧ (mode = 0 → |sv| ≤ |s'|) := by
  have habs : |ox * n0 + oy * n1| = ox * n0 + oy * n1 := abs_of_nonneg hside
  rw [← habs] at hdisc ⊢
  rcases plane_cross C hdisc s xx mode cb with ⟨h1, -⟩ | ⟨sv, h1, h2, h4, h5⟩
  · rw [h1] at hr
    injection hr with hr
    rw [← hr] at hf
    simp at hf
  · rw [h4] at hr
    injection hr with hr
    rw [← hr]
    refine ⟨sv, rfl, fun hm => ((h5 sv h1 h2).1 hm).1, fun hm => ((h5 sv h1 h2).2.1 hm).1, ?_⟩
    intro s' hs' hon
    have := h5 s' hs' hon
    refine ⟨fun hm => (this.1 hm).2, fun hm => (this.2.1 hm).2, fun hm => ?_⟩
    rcases this.2.2 hm with ⟨q, -⟩ | ⟨-, -, q⟩
    · exact q
    · linarith

/-- C34, plane: the sign requirement holds for a reported intersection whatever the distance, except that in the window
of near misses the path length is undefined. -/
theorem C34_plane_sign (C : PlaneCase surf om tl ph d z rx ry rz n0 n1 ox oy oz cx cy r)
    (s : Dbl) (xx : V3) (mode : ℤ) (cb : Bool)
    (hit : Hit) (hr : intersectWithZPlane surf (hpR om tl ph d z) (V3.re rx ry rz) s xx mode cb = .ok hit)
    (hf : hit.found = true) :
    (0 < mode → ¬ (hit.s < 0)) ∧ (mode < 0 → ¬ (0 < hit.s)) := by
  rcases lt_or_ge (clDisc cx cy r n0 n1 |ox * n0 + oy * n1|) 0 with h0 | h0
  · rcases lt_or_ge (clDisc cx cy r n0 n1 |ox * n0 + oy * n1|) (-1e-9) with h1 | h1
    · rw [plane_apart C h1] at hr
      injection hr with hr
      rw [← hr] at hf
      simp at hf
    · rw [plane_window C h1 h0] at hr
      by_cases hm : mode = 0
      · exact ⟨fun h => by omega, fun h => by omega⟩
      · rw [cif_neg hm] at hr
        injection hr with hr
        rw [← hr] at hf
        simp at hf
  rcases le_or_gt (clDisc cx cy r n0 n1 |ox * n0 + oy * n1|) 1e-9 with h1 | h1
  · obtain ⟨sv, q1, q2, q3⟩ := plane_touch C h0 h1 s xx mode cb
    rw [q3] at hr
    by_cases hm : mode = 0 ∨ 0 < (mode : ℝ) * sv
    · rw [cif_pos hm] at hr
      injection hr with hr
      rw [← hr]
      simp only [zero_eq, fin_lt, not_lt]
      rcases hm with hm | hm
      · exact ⟨fun h => by omega, fun h => by omega⟩
      · refine ⟨fun h => ?_, fun h => ?_⟩
        · have hm' : (0 : ℝ) < mode := by exact_mod_cast h
          exact (pos_of_mul_pos_right hm hm'.le).le
        · have hm' : (mode : ℝ) < 0 := by exact_mod_cast h
          by_contra hc
          push Not at hc
          have := mul_neg_of_neg_of_pos hm' hc
          linarith
    · rw [cif_neg hm] at hr
      injection hr with hr
      rw [← hr] at hf
      simp at hf
  · rcases plane_cross C h1 s xx mode cb with ⟨q, -⟩ | ⟨sv, q1, q2, q3, q4⟩
    · rw [q] at hr
      injection hr with hr
      rw [← hr] at hf
      simp at hf
    · rw [q3] at hr
      injection hr with hr
      rw [← hr]
      simp only [zero_eq, fin_lt, not_lt]
      exact ⟨fun h => ((q4 sv q1 q2).1 h).1, fun h => ((q4 sv q1 q2).2.1 h).1.le⟩

theorem cylinderSelect_back {mode : ℤ} (hm : mode < 0) {s0 s1 : Dbl} :
    (cylinderSelect mode s0 s1 = some true → s0 < 0) ∧ (cylinderSelect mode s0 s1 = some false → s1 < 0) := by
  have m1 : mode < 1 := by omega
  have m2 : ¬ mode > -1 := by omega
  unfold cylinderSelect
  simp only [hm, m1, m2, if_true, if_false]
  by_cases a : s0 < 0 ∧ s1 < 0
  · rw [cif_pos a]; exact ⟨fun _ => a.1, fun _ => a.2⟩
  rw [cif_neg a]
  by_cases b : s0 < 0 ∧ 0 ≤ s1
  · rw [cif_pos b]; exact ⟨fun _ => b.1, by simp⟩
  rw [cif_neg b]
  by_cases c : 0 ≤ s0 ∧ s1 < 0
  · rw [cif_pos c]
    have m3 : ¬ mode > 0 := by omega
    simp only [m3, if_false]
    exact ⟨by simp, fun _ => c.2⟩
  · rw [cif_neg c]; simp

theorem planeSelect_back {mode : ℤ} (hm : mode < 0) {s0 s1 : Dbl} :
    (planeSelect mode s0 s1 = some true → s0 < 0) ∧ (planeSelect mode s0 s1 = some false → s1 < 0) := by
  have m1 : mode < 1 := by omega
  have m2 : ¬ mode > -1 := by omega
  unfold planeSelect
  simp only [hm, m1, m2, if_true, if_false]
  by_cases a : s0 < 0 ∧ s1 < 0
  · rw [cif_pos a]; exact ⟨fun _ => a.1, fun _ => a.2⟩
  rw [cif_neg a]
  by_cases b : s0 < 0 ∧ 0 ≤ s1
  · rw [cif_pos b]; exact ⟨fun _ => b.1, by simp⟩
  rw [cif_neg b]
  by_cases c : 0 ≤ s0 ∧ s1 < 0
  · rw [cif_pos c]
    have m3 : ¬ mode > 0 := by omega
    simp only [m3, if_false]
    exact ⟨by simp, fun _ => c.2⟩
  · rw [cif_neg c]; simp

/-- C34, cylinder, backward search: for all inputs (no general position, non-finite numbers included) -/
theorem C34_cylinder_backward (hp : V5) (rp : V3) (s : Dbl) (xx : V3) (mode : ℤ) (hm : mode < 0) (cb : Bool) (hit : Hit)
    (hr : intersectWithZCylinder surf hp rp s xx mode cb = .ok hit) (hf : hit.found = true) : hit.s < 0 := by
  unfold intersectWithZCylinder at hr
  cases hc : surf.cyl with
  | none => rw [hc] at hr; cases hr
  | some p =>
    obtain ⟨rho, cylc⟩ := p
    rw [hc] at hr
    simp only at hr
    by_cases hpar : surf.type.isParallelToZ = true
    · rw [if_pos hpar] at hr
      generalize cylinderCandidates rho cylc hp rp = cand at hr
      rcases cand with _ | ⟨⟨X0, Y0⟩, ⟨X1, Y1⟩⟩
      · injection hr with hr; rw [← hr] at hf; simp at hf
      · simp only at hr
        have hsel := cylinderSelect_back hm (s0 := calculateSfromXY X0 Y0 hp rp) (s1 := calculateSfromXY X1 Y1 hp rp)
        rcases hs : cylinderSelect mode (calculateSfromXY X0 Y0 hp rp) (calculateSfromXY X1 Y1 hp rp) with _ | _ | _
        · rw [hs] at hr; injection hr with hr; rw [← hr] at hf; simp at hf
        · rw [hs] at hr; injection hr with hr; rw [← hr]; exact hsel.2 hs
        · rw [hs] at hr; injection hr with hr; rw [← hr]; exact hsel.1 hs
    · rw [if_neg hpar] at hr; cases hr

theorem mode_sign {mode : ℤ} {s : Dbl} (h : mode = 0 ∨ 0 < fin (mode : ℝ) * s) :
    (0 < mode → 0 < s) ∧ (mode < 0 → s < 0) := by
  rcases h with h | h
  · exact ⟨fun h' => by omega, fun h' => by omega⟩
  · cases s with
    | fin x =>
      rw [fin_mul, zero_eq, fin_lt] at h
      rw [zero_eq, fin_lt, fin_lt]
      refine ⟨fun h' => ?_, fun h' => ?_⟩
      · have hm' : (0 : ℝ) < mode := by exact_mod_cast h'
        exact pos_of_mul_pos_right h hm'.le
      · have hm' : (mode : ℝ) < 0 := by exact_mod_cast h'
        by_contra hc
        push Not at hc
        have := mul_nonpos_of_nonpos_of_nonneg hm'.le hc
        linarith
    | inf t =>
      have hm0 : (mode : ℝ) ≠ 0 := by
        intro hc; rw [fin_mul_inf, if_pos hc] at h; exact absurd h (not_lt_nan _)
      rw [fin_mul_inf, if_neg hm0, zero_eq, fin_lt_inf] at h
      rw [zero_eq, fin_lt_inf, inf_lt_fin]
      refine ⟨fun h' => ?_, fun h' => ?_⟩
      · have hm' : (0 : ℝ) < mode := by exact_mod_cast h'
        simpa [sgn, not_lt.mpr hm'.le] using h
      · have hm' : (mode : ℝ) < 0 := by exact_mod_cast h'
        simpa [sgn, hm'] using h
    | nan => rw [mul_nan] at h; exact absurd h (not_lt_nan _)

/-- C34, plane, backward search: for all inputs (no general position, non-finite numbers included) -/
theorem C34_plane_backward (hp : V5) (rp : V3) (s : Dbl) (xx : V3) (mode : ℤ) (hm : mode < 0) (cb : Bool) (hit : Hit)
    (hr : intersectWithZPlane surf hp rp s xx mode cb = .ok hit) (hf : hit.found = true) : hit.s < 0 := by
  unfold intersectWithZPlane at hr
  dsimp only at hr
  generalize Line.make _ _ _ = L at hr
  cases L with
  | ok L =>
    simp only [Out.ok_bind] at hr
    generalize Circle.make _ _ _ = C at hr
    cases C with
    | ok C =>
      simp only [Out.ok_bind] at hr
      generalize intersectCircleStraightLine C L = sol at hr
      rcases sol with _ | ⟨⟨X0, Y0⟩, _ | ⟨⟨X1, Y1⟩, l⟩⟩
      · injection hr with hr; rw [← hr] at hf; simp at hf
      · simp only at hr
        by_cases h : modeOk mode (calculateSfromXY X0 Y0 hp rp)
        · rw [cif_pos h] at hr; injection hr with hr; rw [← hr]
          exact (mode_sign h.symm).2 hm
        · rw [cif_neg h] at hr; injection hr with hr; rw [← hr] at hf; simp at hf
      · simp only at hr
        have hsel := planeSelect_back hm (s0 := calculateSfromXY X0 Y0 hp rp) (s1 := calculateSfromXY X1 Y1 hp rp)
        rcases hs : planeSelect mode (calculateSfromXY X0 Y0 hp rp) (calculateSfromXY X1 Y1 hp rp) with _ | _ | _
        · rw [hs] at hr; injection hr with hr; rw [← hr] at hf; simp at hf
        · rw [hs] at hr; injection hr with hr; rw [← hr]; exact hsel.2 hs
        · rw [hs] at hr; injection hr with hr; rw [← hr]; exact hsel.1 hs
    | throw m => cases hr
    | ub m => cases hr
    | diverge => cases hr
  | throw m => cases hr
  | ub m => cases hr
  | diverge => cases hr

/-- C34, disk: for all inputs -/
theorem C34_disk (hp : V5) (rp : V3) (s : Dbl) (xx : V3) (mode : ℤ) (cb : Bool) (hit : Hit)
    (hr : intersectWithZDisk surf hp rp s xx mode cb = .ok hit) (hf : hit.found = true) :
    (0 < mode → 0 < hit.s) ∧ (mode < 0 → hit.s < 0) := by
  unfold intersectWithZDisk at hr
  simp only at hr
  generalize (surf.origin.z - (rp.z + calculateZ0 hp)) / calculateTanLambda hp = sv at hr
  by_cases hm : modeOk mode sv
  · rw [cif_pos hm] at hr
    injection hr with hr
    rw [← hr]
    exact mode_sign hm.symm
  · rw [cif_neg hm] at hr
    injection hr with hr
    rw [← hr] at hf
    simp at hf

/-- C34, Newton iteration: for all inputs -/
theorem C34_newton (hp : V5) (rp : V3) (s : Dbl) (xx : V3) (mode : ℤ) (cb : Bool) (hit : Hit)
    (hr : intersectWithSurfaceNewton surf hp rp s xx mode cb = .ok hit) (hf : hit.found = true) :
    (0 < mode → 0 < hit.s) ∧ (mode < 0 → hit.s < 0) := by
  obtain ⟨hit', e, -, h⟩ := C37_accurate surf hp rp s xx mode cb
  rw [e] at hr
  injection hr with hr
  subst hr
  exact mode_sign (h hf).2.1

/-! ## C36 -/

/-- C36 (partial), cylinder: if the bounds contain all track points on the cylinder within half a turn and there is one
in the requested direction, success is reported.  Missing for C36: bounds that contain only the farther one. -/
theorem C36_cylinder_partial (C : CylCase surf om tl ph d z rx ry rz a b c rho) (s : Dbl) (xx : V3) (mode : ℤ) (s' : ℝ)
    (h1 : |om * s'| < Real.pi) (h2 : Meets (OnCircle a b rho) om tl ph d z rx ry rz s') (h3 : Wanted mode s')
    (hb : ∀ t, |om * t| < Real.pi → Meets (OnCircle a b rho) om tl ph d z rx ry rz t →
      surf.insideBounds (pointAt (fin t) (hpR om tl ph d z) (V3.re rx ry rz)) = true) :
    ∃ hit, intersectWithZCylinder surf (hpR om tl ph d z) (V3.re rx ry rz) s xx mode true = .ok hit ∧
      hit.found = true := by
  rcases cylinder_main C s xx mode true with ⟨-, q⟩ | ⟨sv, q1, q2, q3, -⟩
  · exact absurd h3 (q s' h1 h2)
  · exact ⟨_, q3, by simp only [boundsOk, if_true]; exact hb sv q1 q2⟩

/-- C36 (partial), plane: as for the cylinder. -/
theorem C36_plane_partial (C : PlaneCase surf om tl ph d z rx ry rz n0 n1 ox oy oz cx cy r)
    (hside : 0 ≤ ox * n0 + oy * n1)
    (hdisc : 1e-9 < clDisc cx cy r n0 n1 (ox * n0 + oy * n1)) (s : Dbl) (xx : V3) (mode : ℤ) (s' : ℝ)
    (h1 : |om * s'| < Real.pi) (h2 : Meets (OnLine n0 n1 (ox * n0 + oy * n1)) om tl ph d z rx ry rz s') (h3 : Wanted mode s')
    (hb : ∀ t, |om * t| < Real.pi → Meets (OnLine n0 n1 (ox * n0 + oy * n1)) om tl ph d z rx ry rz t →
      surf.insideBounds (pointAt (fin t) (hpR om tl ph d z) (V3.re rx ry rz)) = true) :
    ∃ hit, intersectWithZPlane surf (hpR om tl ph d z) (V3.re rx ry rz) s xx mode true = .ok hit ∧
      hit.found = true := by
  have habs : |ox * n0 + oy * n1| = ox * n0 + oy * n1 := abs_of_nonneg hside
  rw [← habs] at hdisc h2 hb
  rcases plane_cross C hdisc s xx mode true with ⟨-, q⟩ | ⟨sv, q1, q2, q3, -⟩
  · exact absurd h3 (q s' h1 h2)
  · exact ⟨_, q3, by simp only [boundsOk, if_true]; exact hb sv q1 q2⟩

/-- C36 as stated is false: the track crosses the plane x = 1/2 at s = π/6 and s = 5π/6 (both forward); if only the
second crossing is inside the bounds, no intersection is reported. -/
theorem C36_false (surf : Surface) (h1 : surf.normal V3.zero = V3.re 1 0 0) (h2 : surf.origin = V3.re (1 / 2) 0 0)
    (hb : ∀ px py pz : ℝ, surf.insideBounds (V3.re px py pz) = true ↔ py < -1) (s : Dbl) (xx : V3) :
    (Meets (OnLine 1 0 (1 / 2)) 1 1 0 0 0 0 0 0 (5 * Real.pi / 6) ∧
      surf.insideBounds (pointAt (fin (5 * Real.pi / 6)) (hpR 1 1 0 0 0) (V3.re 0 0 0)) = true) ∧
    ∃ hit, intersectWithZPlane surf (hpR 1 1 0 0 0) (V3.re 0 0 0) s xx 1 true = .ok hit ∧ hit.found = false := by
  have hpi := Real.pi_pos
  have e6 : 5 * Real.pi / 6 = Real.pi - Real.pi / 6 := by ring
  have h3 : 0 < Real.sqrt 3 := Real.sqrt_pos.mpr (by norm_num)
  have C := planeCase_example (1 / 2) (by norm_num) surf h1 h2
  have habs : |(1 / 2 : ℝ) * 1 + 0 * 0| = 1 / 2 := by norm_num [abs_of_pos]
  have hd : (1e-9 : ℝ) < clDisc 0 (-1) 1 1 0 |(1 / 2 : ℝ) * 1 + 0 * 0| := by
    rw [habs]; norm_num [clDisc]
  refine ⟨⟨?_, ?_⟩, ?_⟩
  · rw [meets_iff one_ne_zero, (example_point _).1, e6, Real.sin_pi_sub, Real.sin_pi_div_six]
    norm_num [OnLine]
  · rw [pointAt_re one_ne_zero, hb, (example_point _).2, e6, Real.cos_pi_sub, Real.cos_pi_div_six]
    linarith
  · have m6 : Meets (OnLine 1 0 |(1 / 2 : ℝ) * 1 + 0 * 0|) 1 1 0 0 0 0 0 0 (Real.pi / 6) := by
      rw [meets_iff one_ne_zero, (example_point _).1, Real.sin_pi_div_six, habs]
      norm_num [OnLine]
    have l6 : |1 * (Real.pi / 6)| < Real.pi := by
      rw [one_mul, abs_of_pos (by positivity)]; linarith
    rcases plane_cross C hd s xx 1 true with ⟨-, q⟩ | ⟨sv, q1, q2, q3, q4⟩
    · exact absurd ⟨fun _ => by positivity, fun h => absurd h (by norm_num)⟩ (q _ l6 m6)
    · refine ⟨_, q3, ?_⟩
      -- the reported solution is before π/6, hence in the upper half
      have hle := ((q4 _ l6 m6).1 (by norm_num)).2 (by positivity)
      have hge := ((q4 _ l6 m6).1 (by norm_num)).1
      have hcos : 0 < Real.cos sv := Real.cos_pos_of_mem_Ioo ⟨by linarith, by linarith⟩
      simp only [boundsOk, if_true, pointAt_re one_ne_zero]
      rw [← Bool.not_eq_true, hb, (example_point _).2]
      linarith

end Verif
