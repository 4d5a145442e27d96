import Verif.Model.MaterialScan
import Verif.Props.Crossings

/-!
# C113 - C116: material along a direction in the examples `check_materials` and `material_ntuples`
-/

open Classical

noncomputable section

namespace Verif

open Dbl Traj Spec MatScan

namespace Spec

/-- path through a layer of thickness `t` at an angle to its normal with the cosine `c`, in units of its radiation length `X` -/
def layerX0 (t X c : ℝ) : ℝ := t / |c| / X

end Spec

/-! ## C113 -/

theorem scan_ok {dir : V3} {tp : TP} : ∀ {l : List (Dbl × Surface)} {total : Dbl} {rows : List Row}, scan dir tp total l = .ok rows →
    rows.map (fun r => (r.s, r.surf)) = l ∧
    (∀ r ∈ rows, r.xX0 = xX0 dir r.surf r.xx ∧
      ∃ h, intersectWithSurface r.surf tp.hp tp.rp 0 V3.zero 0 true = .ok h ∧ r.xx = h.xx) ∧
    ∀ k r, rows[k]? = some r → r.total = ((rows.take (k + 1)).map Row.xX0).foldl (· + ·) total := by
  intro l
  induction l with
  | nil =>
    intro total rows h
    simp only [scan] at h
    injection h with h
    subst h
    simp
  | cons a l ih =>
    obtain ⟨s, surf⟩ := a
    intro total rows h
    simp only [scan] at h
    obtain ⟨hit, e1, h⟩ := Out.bind_eq_ok.mp h
    obtain ⟨rest, e2, h⟩ := Out.bind_eq_ok.mp h
    rw [Out.pure_eq] at h
    injection h with h
    subst h
    obtain ⟨i1, i2, i3⟩ := ih e2
    refine ⟨by simp [i1], ?_, ?_⟩
    · intro r hr
      rcases List.mem_cons.mp hr with rfl | hr
      · exact ⟨rfl, hit, e1, rfl⟩
      · exact i2 r hr
    · intro k r hk
      cases k with
      | zero =>
        simp only [List.getElem?_cons_zero, Option.some.injEq] at hk
        subst hk
        simp
      | succ k =>
        rw [List.getElem?_cons_succ] at hk
        rw [i3 k r hk]
        simp

theorem run_ok {sort : List (Dbl × Surface) → List (Dbl × Surface)} {surfaces : List Surface} {omega theta phi : Dbl}
    {rows : List Row} (h : run sort surfaces omega theta phi = .ok rows) :
    ∃ t' l, (Traj.make (track omega theta phi)).getIntersections sort surfaces = (t', .ok l) ∧
      scan (direction theta phi) (track omega theta phi) 0 l = .ok rows := by
  unfold run at h
  simp only at h
  obtain ⟨l, e1, h⟩ := Out.bind_eq_ok.mp h
  exact ⟨((Traj.make (track omega theta phi)).getIntersections sort surfaces).1, l, Prod.ext rfl e1, h⟩

/-- C113: there is one row per surface crossed by the track, in the order of the path lengths. -/
theorem C113_rows {sort : List (Dbl × Surface) → List (Dbl × Surface)} (hsort : IsStdSort sortWithS sort) {surfaces : List Surface}
    {omega theta phi : Dbl} {rows : List Row} (h : run sort surfaces omega theta phi = .ok rows) :
    rows.Pairwise (fun a b => a.s ≤ b.s) ∧
    (rows.map (fun r => (r.s, r.surf))).Perm (surfaces.flatMap (crossing (track omega theta phi))) ∧
    ∀ x, x ∈ rows.map (fun r => (r.s, r.surf)) ↔
      ∃ surf ∈ surfaces, ∃ s, CrossedAt (track omega theta phi) surf s ∧ x = (fin s, surf) := by
  obtain ⟨t', l, e1, e2⟩ := run_ok h
  obtain ⟨i1, -, -⟩ := scan_ok e2
  obtain ⟨-, p, q, m⟩ := C51_crossings_partial hsort rfl e1
  rw [i1]
  refine ⟨?_, p, m⟩
  rw [← i1, List.pairwise_map] at q
  exact q

/-- C113: the value of a row is the path through both layers in units of their radiation lengths, unless the surface has no
thickness. -/
theorem C113_value_partial {θ φ ti Xi to' Xo n1 n2 n3 : ℝ} {surf : Surface} {xx : V3}
    (h1 : surf.innerThickness = fin ti) (h2 : surf.outerThickness = fin to') (h3 : surf.innerMaterial.radLength = fin Xi)
    (h4 : surf.outerMaterial.radLength = fin Xo) (hn : surf.normal xx = V3.re n1 n2 n3) (hXi : Xi ≠ 0) (hXo : Xo ≠ 0)
    (ht : ti + to' ≠ 0)
    (hc : Real.sin θ * Real.cos φ * n1 + Real.sin θ * Real.sin φ * n2 + Real.cos θ * n3 ≠ 0) :
    xX0 (direction (fin θ) (fin φ)) surf xx =
      fin (layerX0 ti Xi (Real.sin θ * Real.cos φ * n1 + Real.sin θ * Real.sin φ * n2 + Real.cos θ * n3) +
        layerX0 to' Xo (Real.sin θ * Real.cos φ * n1 + Real.sin θ * Real.sin φ * n2 + Real.cos θ * n3)) := by
  set c := Real.sin θ * Real.cos φ * n1 + Real.sin θ * Real.sin φ * n2 + Real.cos θ * n3 with hcd
  have hd : direction (fin θ) (fin φ) = V3.re (Real.sin θ * Real.cos φ) (Real.sin θ * Real.sin φ) (Real.cos θ) := by
    simp [direction, V3.spherical, V3.re, one_eq]
  have hu : (direction (fin θ) (fin φ)).unit = V3.re (Real.sin θ * Real.cos φ) (Real.sin θ * Real.sin φ) (Real.cos θ) := by
    have hr : (direction (fin θ) (fin φ)).r = fin 1 := by
      rw [hd]
      have : Real.sin θ * Real.cos φ * (Real.sin θ * Real.cos φ) + Real.sin θ * Real.sin φ * (Real.sin θ * Real.sin φ) +
          Real.cos θ * Real.cos θ = 1 := by
        linear_combination Real.sin_sq_add_cos_sq θ + Real.sin θ ^ 2 * Real.sin_sq_add_cos_sq φ
      simp only [V3.r, V3.re, fin_mul, fin_add, this]
      rw [sqrt_fin zero_le_one, Real.sqrt_one]
    simp only [V3.unit, hr]
    rw [hd]
    simp only [V3.re, fin_div _ one_ne_zero, div_one]
  have hc' : |c| ≠ 0 := abs_ne_zero.mpr hc
  have hdot : Dbl.abs ((direction (fin θ) (fin φ)).unit.dot (surf.normal xx)) = fin |c| := by
    rw [hu, hn]
    simp only [V3.dot, V3.re, fin_mul, fin_add, abs_fin, hcd]
  unfold xX0
  simp only [hdot, h1, h2, h3, h4]
  rw [fin_add, fin_div _ hc', fin_div _ hXi, fin_div _ hXo, fin_add, fin_div _ ht, fin_mul, fin_inj]
  unfold layerX0
  field_simp

/-- sum of finite values -/
theorem foldl_fin : ∀ (xs : List ℝ) (t : ℝ), (xs.map fin).foldl (· + ·) (fin t) = fin (t + xs.sum) := by
  intro xs
  induction xs with
  | nil => intro t; simp
  | cons x xs ih =>
    intro t
    rw [List.map_cons, List.foldl_cons, fin_add, ih, List.sum_cons, add_assoc]

/-- C113: the total of a row is the sum of the values up to it. -/
theorem C113_total {sort : List (Dbl × Surface) → List (Dbl × Surface)} {surfaces : List Surface} {omega theta phi : Dbl}
    {rows : List Row} (h : run sort surfaces omega theta phi = .ok rows) (k : ℕ) (r : Row) (hk : rows[k]? = some r) (xs : List ℝ)
    (hx : (rows.take (k + 1)).map Row.xX0 = xs.map fin) :
    r.total = fin xs.sum ∧ r.xX0 = xX0 (direction theta phi) r.surf r.xx := by
  obtain ⟨t', l, -, e2⟩ := run_ok h
  obtain ⟨-, i2, i3⟩ := scan_ok e2
  refine ⟨?_, (i2 r (List.mem_of_getElem? hk)).1⟩
  rw [i3 k r hk, hx, zero_eq, foldl_fin, zero_add]

theorem nan_foldl : ∀ xs : List Dbl, xs.foldl (· + ·) nan = nan := by
  intro xs
  induction xs with
  | nil => rfl
  | cons x xs ih => rw [List.foldl_cons, show nan + x = nan by cases x <;> rfl, ih]

theorem foldl_nan : ∀ (xs : List Dbl) (t : Dbl), nan ∈ xs → xs.foldl (· + ·) t = nan := by
  intro xs
  induction xs with
  | nil => intro t h; simp at h
  | cons x xs ih =>
    intro t h
    rw [List.foldl_cons]
    rcases List.mem_cons.mp h with rfl | h
    · rw [show t + nan = nan by cases t <;> rfl, nan_foldl]
    · exact ih _ h

/-- a surface without thickness -/
theorem xX0_thin (dir : V3) {surf : Surface} (xx : V3) (h1 : surf.innerThickness = fin 0) (h2 : surf.outerThickness = fin 0) :
    xX0 dir surf xx = nan := by
  unfold xX0
  simp only [h1, h2, fin_add, add_zero]
  have hz : ∀ X : Dbl, fin 0 / X = fin 0 ∨ fin 0 / X = nan := by
    intro X
    cases X with
    | fin x =>
      by_cases hx : x = 0
      · subst hx; exact Or.inr (by simp)
      · exact Or.inl (by rw [fin_div _ hx, zero_div])
    | inf b => exact Or.inl rfl
    | nan => exact Or.inr rfl
  have hn : (fin 0 / surf.innerMaterial.radLength + fin 0 / surf.outerMaterial.radLength) / fin 0 = nan := by
    have e1 : ∀ a : Dbl, nan + a = nan := fun a => by cases a <;> rfl
    have e2 : ∀ a : Dbl, a + nan = nan := fun a => by cases a <;> rfl
    rcases hz surf.innerMaterial.radLength with h | h <;> rcases hz surf.outerMaterial.radLength with h' | h' <;> rw [h, h'] <;>
      simp only [e1, e2, fin_add, add_zero] <;> simp
  rw [hn]
  generalize fin 0 / _ = q
  cases q <;> rfl

/-- C113 is false as stated: the value of a surface without thickness is 0/0, and the total is undefined from there on, whatever
follows. -/
theorem C113_thin_false {sort : List (Dbl × Surface) → List (Dbl × Surface)} {surfaces : List Surface} {omega theta phi : Dbl}
    {rows : List Row} (h : run sort surfaces omega theta phi = .ok rows) (i k : ℕ) (hik : i ≤ k) (r r' : Row)
    (hi : rows[i]? = some r) (hk : rows[k]? = some r') (h1 : r.surf.innerThickness = fin 0) (h2 : r.surf.outerThickness = fin 0) :
    r'.total = nan := by
  obtain ⟨t', l, -, e2⟩ := run_ok h
  obtain ⟨-, i2, i3⟩ := scan_ok e2
  rw [i3 k r' hk]
  refine foldl_nan _ _ (List.mem_map.mpr ⟨r, ?_, ?_⟩)
  · refine List.mem_of_getElem? (i := i) ?_
    rw [List.getElem?_take, if_pos (by omega), hi]
  · rw [(i2 r (List.mem_of_getElem? hi)).1, xX0_thin _ _ h1 h2]

/-! ### an example -/

namespace Example

/-- a disk at z = 1 of the given thicknesses -/
def slab (ti to' : ℝ) : Surface := { disk with innerThickness := fin ti, outerThickness := fin to' }

theorem tan_quarter : Dbl.tan ((0.5 : Dbl) * Dbl.pi - fin (Real.pi / 4)) = fin 1 := by
  have e : (0.5 : Dbl) * Dbl.pi - fin (Real.pi / 4) = fin (Real.pi / 4) := by
    simp only [ofSci_eq, pi_eq, fin_mul, fin_sub, fin_inj]
    norm_num
    ring
  rw [e, tan_fin (by rw [Real.cos_pi_div_four]; positivity), Real.tan_pi_div_four]

theorem track_quarter {om : ℝ} : track (fin om) (fin (Real.pi / 4)) (fin 0) = ⟨M5.zero, hpR om 1 0 0 0, V3.re 0 0 0⟩ := by
  simp only [track, TP.ofHelix, tan_quarter, zero_eq, V3.zero]
  rfl

theorem slab_hit {om : ℝ} (h : om ≠ 0) (ti to' : ℝ) (mode : ℤ) (hm : 0 ≤ mode) :
    intersectWithSurface (slab ti to') (hpR om 1 0 0 0) (V3.re 0 0 0) 0 V3.zero mode true =
      .ok ⟨true, fin 1, pointAt (fin 1) (hpR om 1 0 0 0) (V3.re 0 0 0)⟩ := by
  obtain ⟨sv, hit, e1, e2, e3, -, e5, e6⟩ := C30_disk (om := om) (tl := 1) (ph := 0) (d := 0) (z := 0) (rx := 0) (ry := 0) (rz := 0)
    h one_ne_zero (slab ti to') 0 0 1 rfl 0 V3.zero mode true
  have hsv : sv = 1 := by
    have := (e5 1).1 (by rw [pointAt_re h]; simp [rZ, V3.re])
    exact this.symm
  subst hsv
  have hf : hit.found = true := by
    rw [e6]
    refine ⟨?_, fun _ => rfl⟩
    rcases hm.eq_or_lt with h0 | h0
    · exact Or.inl h0.symm
    · refine Or.inr ?_
      have : (0 : ℝ) < mode := by exact_mod_cast h0
      linarith
  unfold intersectWithSurface
  rw [if_neg (by simp [slab, disk, diskB, SurfaceType.isZCylinder]), if_neg (by simp [slab, disk, diskB, SurfaceType.isZPlane]),
    if_pos (by simp [slab, disk, diskB, SurfaceType.isZDisk]), e1]
  obtain ⟨f, s, x⟩ := hit
  simp only at hf e2 e3
  rw [hf, e2, e3]

/-- one disk along the direction (1,0,1) -/
theorem slab_run {om : ℝ} (h : 0 < om) (h1 : om < Real.pi) {sort : List (Dbl × Surface) → List (Dbl × Surface)}
    (hsort : IsStdSort sortWithS sort) (ti to' : ℝ) :
    run sort [slab ti to'] (fin om) (fin (Real.pi / 4)) (fin 0) = .ok [⟨fin 1, slab ti to',
      pointAt (fin 1) (hpR om 1 0 0 0) (V3.re 0 0 0),
      xX0 (direction (fin (Real.pi / 4)) (fin 0)) (slab ti to') (pointAt (fin 1) (hpR om 1 0 0 0) (V3.re 0 0 0)),
      0 + xX0 (direction (fin (Real.pi / 4)) (fin 0)) (slab ti to') (pointAt (fin 1) (hpR om 1 0 0 0) (V3.re 0 0 0))⟩] := by
  have hd : ∀ surf ∈ [slab ti to'], ∃ hit,
      intersectWithSurface surf (make (track (fin om) (fin (Real.pi / 4)) (fin 0))).ref.hp
        (make (track (fin om) (fin (Real.pi / 4)) (fin 0))).ref.rp 0 V3.zero 1 true = .ok hit := by
    intro surf hs
    rw [List.mem_singleton] at hs
    subst hs
    rw [track_quarter]
    exact ⟨_, slab_hit h.ne' ti to' 1 zero_le_one⟩
  obtain ⟨t', l, e⟩ := C51_defined (sort := sort) (by simp [make]) hd
  obtain ⟨-, p, -, -⟩ := C51_crossings_partial hsort rfl e
  have hc : crossing (make (track (fin om) (fin (Real.pi / 4)) (fin 0))).ref (slab ti to') = [(fin 1, slab ti to')] := by
    refine crossing_pos ?_
    rw [track_quarter]
    refine ⟨_, slab_hit h.ne' ti to' 1 zero_le_one, rfl, rfl, zero_le_one, |1 / om|, calculateRadius_re h.ne', ?_⟩
    rw [abs_abs, abs_of_pos (by positivity), mul_one_div, lt_div_iff₀ h]
    linarith
  rw [List.flatMap_cons, hc, List.flatMap_nil, List.append_nil, List.perm_singleton] at p
  subst p
  unfold run
  simp only [e, Out.ok_bind]
  rw [track_quarter]
  simp only [scan, slab_hit h.ne' ti to' 0 le_rfl, Out.ok_bind, Out.pure_eq]

end Example

/-- C113, concrete case: for a disk of thickness 1 + 2 of a material with radiation length 9, crossed at 45 degrees, the total is
(1/9 + 2/9)·√2. -/
example {sort : List (Dbl × Surface) → List (Dbl × Surface)} (hsort : IsStdSort sortWithS sort) :
    ∃ r, run sort [Example.slab 1 2] (1e-6 : Dbl) (fin (Real.pi / 4)) (fin 0) = .ok [r] ∧ r.total = fin (Real.sqrt 2 / 3) := by
  rw [ofSci_eq]
  refine ⟨_, Example.slab_run (by norm_num) (by have := Real.pi_gt_three; norm_num; linarith) hsort 1 2, ?_⟩
  have h2 : (0 : ℝ) < Real.sqrt 2 := Real.sqrt_pos.mpr (by norm_num)
  have hc : Real.sin (Real.pi / 4) * Real.cos 0 * 0 + Real.sin (Real.pi / 4) * Real.sin 0 * 0 + Real.cos (Real.pi / 4) * 1 ≠ 0 := by
    rw [Real.cos_pi_div_four]; simp
  simp only
  rw [C113_value_partial (ti := 1) (to' := 2) (Xi := 9) (Xo := 9) (n1 := 0) (n2 := 0) (n3 := 1) rfl rfl rfl rfl rfl (by norm_num)
    (by norm_num) (by norm_num) hc, zero_eq, fin_add, fin_inj, Real.cos_pi_div_four]
  unfold layerX0
  simp only [mul_zero, zero_add, mul_one]
  rw [abs_of_pos (by positivity)]
  have : Real.sqrt 2 * Real.sqrt 2 = 2 := Real.mul_self_sqrt (by norm_num)
  field_simp
  nlinarith

/-- C113, concrete case of the failure: a disk without thickness. -/
theorem C113_false : ∃ (sort : List (Dbl × Surface) → List (Dbl × Surface)) (r : Row), IsStdSort sortWithS sort ∧
    run sort [Example.slab 0 0] (1e-6 : Dbl) (fin (Real.pi / 4)) (fin 0) = .ok [r] ∧ r.s = fin 1 ∧ r.total = nan := by
  obtain ⟨sort, hsort⟩ := exists_isStdSort sortWithS
  rw [ofSci_eq]
  have e := Example.slab_run (om := 1e-6) (by norm_num) (by have := Real.pi_gt_three; norm_num; linarith) hsort 0 0
  exact ⟨sort, _, hsort, e, rfl, C113_thin_false e 0 0 le_rfl _ _ rfl rfl rfl rfl⟩

/-! ## C114 -/

/-- the track in terms of real numbers -/
theorem track_re {om θ φ : ℝ} (h : Real.sin θ ≠ 0) :
    track (fin om) (fin θ) (fin φ) = ⟨M5.zero, hpR om (Real.tan (Real.pi / 2 - θ)) φ 0 0, V3.re 0 0 0⟩ := by
  have e : (0.5 : Dbl) * Dbl.pi - fin θ = fin (Real.pi / 2 - θ) := by
    simp only [ofSci_eq, pi_eq, fin_mul, fin_sub, fin_inj]
    norm_num
    ring
  have hc : Real.cos (Real.pi / 2 - θ) ≠ 0 := by rwa [Real.cos_pi_div_two_sub]
  simp only [track, TP.ofHelix, e, tan_fin hc, zero_eq, V3.zero]
  rfl

/-- a row of the output -/
theorem row_ok {sort : List (Dbl × Surface) → List (Dbl × Surface)} (hsort : IsStdSort sortWithS sort) {surfaces : List Surface}
    {omega theta phi : Dbl} {rows : List Row} (h : run sort surfaces omega theta phi = .ok rows) {r : Row} (hr : r ∈ rows) :
    ∃ s, r.s = fin s ∧ CrossedAt (track omega theta phi) r.surf s ∧
      ∃ hit, intersectWithSurface r.surf (track omega theta phi).hp (track omega theta phi).rp 0 V3.zero 0 true = .ok hit ∧
        r.xx = hit.xx := by
  obtain ⟨-, -, m⟩ := C113_rows hsort h
  obtain ⟨surf, -, s, hc, e⟩ := (m (r.s, r.surf)).1 (List.mem_map.mpr ⟨r, hr, rfl⟩)
  obtain ⟨e1, e2⟩ := Prod.mk.inj e
  obtain ⟨t', l, -, e3⟩ := run_ok h
  obtain ⟨-, i2, -⟩ := scan_ok e3
  exact ⟨s, e1, e2 ▸ hc, (i2 r hr).2⟩

variable {sort : List (Dbl × Surface) → List (Dbl × Surface)} {surfaces : List Surface} {om θ φ : ℝ} {rows : List Row} {r : Row}

/-- the track point at path length `s` -/
abbrev scanPoint (om θ φ : ℝ) (s : Dbl) : V3 :=
  pointAt s (track (fin om) (fin θ) (fin φ)).hp (track (fin om) (fin θ) (fin φ)).rp

/-- C114, disks: the normal is taken at the crossing. -/
theorem C114_disk_partial (hsort : IsStdSort sortWithS sort) (hom : om ≠ 0) (hθ : Real.sin θ ≠ 0) (hθ' : Real.cos θ ≠ 0)
    (h : run sort surfaces (fin om) (fin θ) (fin φ) = .ok rows) (hr : r ∈ rows) (hc : r.surf.type.isZCylinder = false)
    (hp : r.surf.type.isZPlane = false) (hz : r.surf.type.isZDisk = true) (ox oy oz : ℝ) (ho : r.surf.origin = V3.re ox oy oz) :
    r.xx = scanPoint om θ φ r.s := by
  obtain ⟨s, e1, hcr, hit, e2, e3⟩ := row_ok hsort h hr
  have ht : Real.tan (Real.pi / 2 - θ) ≠ 0 := by
    rw [Real.tan_eq_sin_div_cos, Real.sin_pi_div_two_sub, Real.cos_pi_div_two_sub]
    exact div_ne_zero hθ' hθ
  unfold scanPoint
  rw [track_re hθ] at hcr e2 ⊢
  obtain ⟨-, -, q, -⟩ := (C51_disk hom ht hc hp hz ox oy oz ho s).1 hcr
  obtain ⟨sv, hit', f1, f2, f3, -, f5, -⟩ := C30_disk (ph := φ) (d := 0) (z := 0) (rx := 0) (ry := 0) (rz := 0) hom ht r.surf
    ox oy oz ho 0 V3.zero 0 true
  simp only at e2
  unfold intersectWithSurface at e2
  rw [if_neg (by simp [hc]), if_neg (by simp [hp]), if_pos hz, f1] at e2
  injection e2 with e2
  subst e2
  rw [e3, f3, e1, (f5 s).1 q]

/-- C114, cylinders: the normal is taken at the crossing unless the track extended backward from the origin crosses the cylinder
at a point that is closer by at least 1e-4. -/
theorem C114_cylinder_partial (hsort : IsStdSort sortWithS sort) (hθ : Real.sin θ ≠ 0)
    (h : run sort surfaces (fin om) (fin θ) (fin φ) = .ok rows) (hr : r ∈ rows) (hz : r.surf.type.isZCylinder = true)
    {a b c rho : ℝ} (C : CylCase r.surf om (Real.tan (Real.pi / 2 - θ)) φ 0 0 0 0 0 a b c rho)
    (hb : ∀ s s', r.s = fin s → s' < 0 → |om * s'| < Real.pi →
      Meets (OnCircle a b rho) om (Real.tan (Real.pi / 2 - θ)) φ 0 0 0 0 0 s' → s < |s'| + 1e-4) :
    r.xx = scanPoint om θ φ r.s := by
  obtain ⟨s, e1, hcr, hit, e2, e3⟩ := row_ok hsort h hr
  unfold scanPoint
  rw [track_re hθ] at hcr e2 ⊢
  obtain ⟨q0, q1, q2, q3, -⟩ := (C51_cylinder C hz s).1 hcr
  simp only at e2
  unfold intersectWithSurface at e2
  rw [if_pos hz] at e2
  rcases cylinder_main C 0 V3.zero 0 true with ⟨f1, f2⟩ | ⟨sv, f1, f2, f3, f4⟩
  · exact absurd ⟨fun hc => absurd hc (by norm_num), fun hc => absurd hc (by norm_num)⟩ (f2 s q1 q2)
  · rw [f3] at e2
    injection e2 with e2
    subst e2
    have hsv : sv = s := by
      rcases (f4 s q1 q2).2.2 rfl with ⟨g1, g2⟩ | ⟨-, g, -⟩
      · rcases lt_or_ge sv 0 with hn | hn
        · have := g2 hn q0
          have := hb s sv e1 hn f1 f2
          rw [abs_of_nonneg q0] at *
          linarith
        · rw [abs_of_nonneg hn, abs_of_nonneg q0] at g1
          exact le_antisymm g1 (q3 sv hn f1 f2)
      · linarith
    rw [e3, e1, hsv]

/-- C114, cylinders: if there is such a point, the normal is taken at a point behind the origin. -/
theorem C114_backward (hsort : IsStdSort sortWithS sort) (hθ : Real.sin θ ≠ 0)
    (h : run sort surfaces (fin om) (fin θ) (fin φ) = .ok rows) (hr : r ∈ rows) (hz : r.surf.type.isZCylinder = true)
    {a b c rho : ℝ} (C : CylCase r.surf om (Real.tan (Real.pi / 2 - θ)) φ 0 0 0 0 0 a b c rho) (s s' : ℝ) (hs : r.s = fin s)
    (hh : |om * s'| < Real.pi) (hm : Meets (OnCircle a b rho) om (Real.tan (Real.pi / 2 - θ)) φ 0 0 0 0 0 s')
    (hb : |s'| + 1e-4 < s) :
    ∃ sv < 0, |om * sv| < Real.pi ∧ Meets (OnCircle a b rho) om (Real.tan (Real.pi / 2 - θ)) φ 0 0 0 0 0 sv ∧
      r.xx = scanPoint om θ φ (fin sv) := by
  obtain ⟨s1, e1, hcr, hit, e2, e3⟩ := row_ok hsort h hr
  rw [hs, fin_inj] at e1
  subst e1
  unfold scanPoint
  rw [track_re hθ] at hcr e2 ⊢
  obtain ⟨q0, q1, q2, q3, -⟩ := (C51_cylinder C hz s).1 hcr
  simp only at e2
  unfold intersectWithSurface at e2
  rw [if_pos hz] at e2
  rcases cylinder_main C 0 V3.zero 0 true with ⟨f1, f2⟩ | ⟨sv, f1, f2, f3, f4⟩
  · exact absurd ⟨fun hc => absurd hc (by norm_num), fun hc => absurd hc (by norm_num)⟩ (f2 s q1 q2)
  · rw [f3] at e2
    injection e2 with e2
    subst e2
    refine ⟨sv, ?_, f1, f2, e3⟩
    by_contra hn
    rw [not_lt] at hn
    have hle := q3 sv hn f1 f2
    have hp : (0 : ℝ) < 1e-4 := by norm_num
    rcases (f4 s' hh hm).2.2 rfl with ⟨g1, -⟩ | ⟨-, -, g⟩
    · rw [abs_of_nonneg hn] at g1; linarith
    · rw [abs_of_nonneg hn] at g; linarith

/-- C114, cylinders around the z axis: the normal is always taken at the crossing. -/
theorem C114_central (hsort : IsStdSort sortWithS sort) (hθ : Real.sin θ ≠ 0)
    (h : run sort surfaces (fin om) (fin θ) (fin φ) = .ok rows) (hr : r ∈ rows) (hz : r.surf.type.isZCylinder = true)
    {c rho : ℝ} (C : CylCase r.surf om (Real.tan (Real.pi / 2 - θ)) φ 0 0 0 0 0 0 0 c rho) :
    r.xx = scanPoint om θ φ r.s := by
  refine C114_cylinder_partial hsort hθ h hr hz C ?_
  intro s s' hs hs' hh hm
  obtain ⟨s1, e1, hcr, -⟩ := row_ok hsort h hr
  rw [hs, fin_inj] at e1
  subst e1
  rw [track_re hθ] at hcr
  obtain ⟨q0, q1, q2, q3, -⟩ := (C51_cylinder C hz s).1 hcr
  have hom := C.curved
  have key : ∀ t, Meets (OnCircle 0 0 rho) om (Real.tan (Real.pi / 2 - θ)) φ 0 0 0 0 0 t →
      2 - 2 * Real.cos (om * t) = (om * rho) ^ 2 := by
    intro t ht
    rw [meets_iff hom] at ht
    simp only [OnCircle, rX, rY, zero_mul, sub_zero, add_zero, zero_add, zero_sub] at ht
    have e : t * om = om * t := mul_comm _ _
    rw [e] at ht
    have h2 := Real.sin_sq_add_cos_sq (om * t)
    have h3 := Real.sin_sq_add_cos_sq φ
    rw [mul_pow, ← ht, Real.sin_sub, Real.cos_sub]
    field_simp
    nlinarith
  have hcos : Real.cos |om * s| = Real.cos |om * s'| := by
    rw [Real.cos_abs, Real.cos_abs]
    have := key s q2
    have := key s' hm
    linarith
  have habs := Real.injOn_cos ⟨abs_nonneg _, q1.le⟩ ⟨abs_nonneg _, hh.le⟩ hcos
  rw [abs_mul, abs_mul, abs_of_nonneg q0] at habs
  have := mul_left_cancel₀ (abs_ne_zero.mpr hom) habs
  rw [← this]
  norm_num

/-- C114, planes: the normal is taken at the crossing unless the track extended backward from the origin crosses the plane at a
point that is closer (and within half a turn). -/
theorem C114_plane_partial (hsort : IsStdSort sortWithS sort) (hθ : Real.sin θ ≠ 0)
    (h : run sort surfaces (fin om) (fin θ) (fin φ) = .ok rows) (hr : r ∈ rows) (hc : r.surf.type.isZCylinder = false)
    (hz : r.surf.type.isZPlane = true) {n0 n1 ox oy oz cx cy R : ℝ}
    (C : PlaneCase r.surf om (Real.tan (Real.pi / 2 - θ)) φ 0 0 0 0 0 n0 n1 ox oy oz cx cy R) (hside : 0 ≤ ox * n0 + oy * n1)
    (hdisc : 1e-9 < clDisc cx cy R n0 n1 (ox * n0 + oy * n1))
    (hb : ∀ s s', r.s = fin s → s' < 0 → |om * s'| < Real.pi →
      Meets (OnLine n0 n1 (ox * n0 + oy * n1)) om (Real.tan (Real.pi / 2 - θ)) φ 0 0 0 0 0 s' → s < |s'|) :
    r.xx = scanPoint om θ φ r.s := by
  obtain ⟨s, e1, hcr, hit, e2, e3⟩ := row_ok hsort h hr
  unfold scanPoint
  rw [track_re hθ] at hcr e2 ⊢
  obtain ⟨q0, q1, q2, q3, -⟩ := (C51_plane C hc hz hside hdisc s).1 hcr
  simp only at e2
  unfold intersectWithSurface at e2
  rw [if_neg (by simp [hc]), if_pos hz] at e2
  have habs : |ox * n0 + oy * n1| = ox * n0 + oy * n1 := abs_of_nonneg hside
  have hmain := plane_cross C (by rwa [habs]) 0 V3.zero 0 true
  rw [habs] at hmain
  rcases hmain with ⟨f1, f2⟩ | ⟨sv, f1, f2, f3, f4⟩
  · exact absurd ⟨fun hc => absurd hc (by norm_num), fun hc => absurd hc (by norm_num)⟩ (f2 s q1 q2)
  · rw [f3] at e2
    injection e2 with e2
    subst e2
    have hsv : sv = s := by
      rcases (f4 s q1 q2).2.2 rfl with ⟨g1, -⟩ | ⟨-, g, -⟩
      · rw [abs_of_nonneg q0] at g1
        rcases lt_or_ge sv 0 with hn | hn
        · have := hb s sv e1 hn f1 f2
          linarith
        · rw [abs_of_nonneg hn] at g1
          exact le_antisymm g1 (q3 sv hn f1 f2)
      · linarith
    rw [e3, e1, hsv]

namespace Example

/-- track point of a track along x, relative to the middle of the points at -5 and 15 -/
theorem mid_dist {om : ℝ} (h : om ≠ 0) (tl t : ℝ) :
    Meets (OnCircle (Real.sin (5 * om) * Real.cos (10 * om) / om) ((Real.cos (5 * om) * Real.cos (10 * om) - 1) / om)
      (Real.sin (10 * om) / om)) om tl 0 0 0 0 0 0 t ↔
      Real.cos (10 * om) * (Real.cos (10 * om) - Real.cos (om * t - 5 * om)) = 0 := by
  rw [meets_iff h]
  simp only [OnCircle, rX, rY, zero_mul, mul_zero, sub_zero, add_zero, zero_add, zero_sub, Real.sin_zero, Real.cos_zero,
    Real.sin_neg, Real.cos_neg]
  have e : t * om = om * t := mul_comm _ _
  rw [e, Real.cos_sub]
  have h1 := Real.sin_sq_add_cos_sq (om * t)
  have h2 := Real.sin_sq_add_cos_sq (5 * om)
  have h3 := Real.sin_sq_add_cos_sq (10 * om)
  generalize Real.sin (om * t) = a at *
  generalize Real.cos (om * t) = b at *
  generalize Real.sin (5 * om) = p at *
  generalize Real.cos (5 * om) = q at *
  generalize Real.sin (10 * om) = u at *
  generalize Real.cos (10 * om) = v at *
  constructor
  · intro hh
    field_simp at hh
    have : (a - p * v) ^ 2 + (b - q * v) ^ 2 = u ^ 2 := by
      rw [← hh]; ring
    linear_combination (1 / 2 : ℝ) * (this - h1 + h3 - v ^ 2 * h2)
  · intro hh
    field_simp
    linear_combination (2 : ℝ) * hh + h1 - h3 + v ^ 2 * h2

/-- a cylinder around the axis (a,b) -/
def tubeAt (a b rho : ℝ) : Surface :=
  { disk with type := fun i => decide (i = 0 ∨ i = 4), cyl := some (fin rho, V3.re a b 0) }

/-- the cylinder through the points at -5 and 15 of a track along x -/
def tubeMid (om : ℝ) : Surface :=
  tubeAt (Real.sin (5 * om) * Real.cos (10 * om) / om) ((Real.cos (5 * om) * Real.cos (10 * om) - 1) / om) (Real.sin (10 * om) / om)

theorem tubeMid_case {om : ℝ} (h : 0 < om) (h1 : om < 1 / 100) (tl : ℝ) :
    CylCase (tubeMid om) om tl 0 0 0 0 0 0 (Real.sin (5 * om) * Real.cos (10 * om) / om)
      ((Real.cos (5 * om) * Real.cos (10 * om) - 1) / om) 0 (Real.sin (10 * om) / om) := by
  have hpi := Real.pi_gt_three
  have s5 : 0 < Real.sin (5 * om) := Real.sin_pos_of_pos_of_lt_pi (by positivity) (by linarith)
  have s10 : 0 < Real.sin (10 * om) := Real.sin_pos_of_pos_of_lt_pi (by positivity) (by linarith)
  have c10 : 0 < Real.cos (10 * om) := Real.cos_pos_of_mem_Ioo ⟨by linarith, by linarith⟩
  have c5 : 0 < Real.cos (5 * om) := Real.cos_pos_of_mem_Ioo ⟨by linarith, by linarith⟩
  refine ⟨h.ne', by rw [abs_zero]; linarith, by positivity, rfl, rfl, ?_, ?_⟩
  · rintro ⟨e, -⟩
    rw [calculateXCenter_re h.ne', fin_inj] at e
    simp only [rCx, Real.sin_zero, mul_zero, add_zero] at e
    have : 0 < Real.sin (5 * om) * Real.cos (10 * om) / om := by positivity
    linarith
  · rw [mid_dist h.ne', show om * (Real.pi / om) = Real.pi by field_simp, Real.cos_pi_sub]
    have : 0 < Real.cos (10 * om) * (Real.cos (10 * om) - -Real.cos (5 * om)) := by
      apply mul_pos c10; linarith
    exact this.ne'

/-- the crossings of that track with that cylinder -/
theorem tubeMid_crossings {om : ℝ} (h : 0 < om) (h1 : om < 1 / 100) (tl t : ℝ) (ht : |om * t| < Real.pi) :
    Meets (OnCircle (Real.sin (5 * om) * Real.cos (10 * om) / om) ((Real.cos (5 * om) * Real.cos (10 * om) - 1) / om)
      (Real.sin (10 * om) / om)) om tl 0 0 0 0 0 0 t ↔ t = -5 ∨ t = 15 := by
  have hpi := Real.pi_gt_three
  have c10 : 0 < Real.cos (10 * om) := Real.cos_pos_of_mem_Ioo ⟨by linarith, by linarith⟩
  rw [mid_dist h.ne']
  constructor
  · intro e
    have e' : Real.cos (10 * om) = Real.cos (om * t - 5 * om) := by
      rcases mul_eq_zero.mp e with e | e
      · exact absurd e c10.ne'
      · linarith
    obtain ⟨k, hk⟩ := Real.cos_eq_cos_iff.mp e'
    rw [abs_lt] at ht
    have hk0 : k = 0 := by
      have hlt : (k : ℝ) < 1 := by rcases hk with hk | hk <;> nlinarith
      have hgt : (-1 : ℝ) < k := by rcases hk with hk | hk <;> nlinarith
      have a : k < 1 := by exact_mod_cast hlt
      have b : -1 < k := by exact_mod_cast hgt
      omega
    subst hk0
    simp only [Int.cast_zero, mul_zero, zero_mul, zero_add] at hk
    rcases hk with hk | hk
    · right
      have : om * (t - 15) = 0 := by linarith
      rcases mul_eq_zero.mp this with q | q
      · exact absurd q h.ne'
      · linarith
    · left
      have : om * (t + 5) = 0 := by linarith
      rcases mul_eq_zero.mp this with q | q
      · exact absurd q h.ne'
      · linarith
  · rintro (rfl | rfl)
    · rw [show om * -5 - 5 * om = -(10 * om) by ring, Real.cos_neg, sub_self, mul_zero]
    · rw [show om * 15 - 5 * om = 10 * om by ring, sub_self, mul_zero]

end Example

/-- C114 is false as stated: a track that starts inside of a cylinder and leaves it at path length 15, but backwards at -5. -/
theorem C114_false : ∃ (sort : List (Dbl × Surface) → List (Dbl × Surface)) (surf : Surface) (r : Row), IsStdSort sortWithS sort ∧
    run sort [surf] (1e-6 : Dbl) (fin (Real.pi / 4)) (fin 0) = .ok [r] ∧ r.s = fin 15 ∧
    (∃ sv < 0, r.xx = scanPoint 1e-6 (Real.pi / 4) 0 (fin sv)) ∧ r.xx ≠ scanPoint 1e-6 (Real.pi / 4) 0 r.s := by
  obtain ⟨sort, hsort⟩ := exists_isStdSort sortWithS
  rw [ofSci_eq]
  generalize hom : (1e-6 : ℝ) = om
  have h0 : 0 < om := by rw [← hom]; norm_num
  have h1 : om < 1 / 100 := by rw [← hom]; norm_num
  have hpi := Real.pi_gt_three
  have hθ : Real.sin (Real.pi / 4) ≠ 0 := by rw [Real.sin_pi_div_four]; positivity
  have ht : Real.tan (Real.pi / 2 - Real.pi / 4) = 1 := by
    rw [show Real.pi / 2 - Real.pi / 4 = Real.pi / 4 by ring, Real.tan_pi_div_four]
  have C := Example.tubeMid_case h0 h1 (Real.tan (Real.pi / 2 - Real.pi / 4))
  have hz : (Example.tubeMid om).type.isZCylinder = true := by simp [Example.tubeMid, Example.tubeAt, SurfaceType.isZCylinder]
  have b15 : |om * 15| < Real.pi := by rw [abs_of_pos (by positivity)]; linarith
  have b5 : |om * (-5)| < Real.pi := by rw [abs_mul, abs_of_pos h0]; norm_num; linarith
  have hcr : CrossedAt (track (fin om) (fin (Real.pi / 4)) (fin 0)) (Example.tubeMid om) 15 := by
    rw [track_re hθ, C51_cylinder C hz]
    refine ⟨by norm_num, b15, (Example.tubeMid_crossings h0 h1 _ _ b15).2 (Or.inr rfl), ?_, rfl⟩
    intro s' q0 q1 q2
    rcases (Example.tubeMid_crossings h0 h1 _ _ q1).1 q2 with rfl | rfl
    · norm_num at q0
    · rfl
  have hok : ∀ mode, ∃ hit, intersectWithSurface (Example.tubeMid om) (track (fin om) (fin (Real.pi / 4)) (fin 0)).hp
      (track (fin om) (fin (Real.pi / 4)) (fin 0)).rp 0 V3.zero mode true = .ok hit := by
    intro mode
    rw [track_re hθ]
    unfold intersectWithSurface
    rw [if_pos hz]
    rcases cylinder_main C 0 V3.zero mode true with ⟨e, -⟩ | ⟨sv, -, -, e, -⟩
    · exact ⟨_, e⟩
    · exact ⟨_, e⟩
  obtain ⟨t', l, e⟩ := C51_defined (sort := sort) (t := make (track (fin om) (fin (Real.pi / 4)) (fin 0)))
    (surfaces := [Example.tubeMid om]) (by simp [make])
    (fun surf hs => by rw [List.mem_singleton] at hs; subst hs; exact hok 1)
  obtain ⟨-, p, -, -⟩ := C51_crossings_partial hsort rfl e
  rw [List.flatMap_cons, show crossing (make (track (fin om) (fin (Real.pi / 4)) (fin 0))).ref (Example.tubeMid om) = _ from
    crossing_pos hcr, List.flatMap_nil, List.append_nil, List.perm_singleton] at p
  subst p
  obtain ⟨hit, e0⟩ := hok 0
  have hrun : ∃ r, run sort [Example.tubeMid om] (fin om) (fin (Real.pi / 4)) (fin 0) = .ok [r] ∧ r.s = fin 15 ∧
      r.surf = Example.tubeMid om := by
    unfold run
    simp only [e, Out.ok_bind, scan, e0, Out.pure_eq]
    exact ⟨_, rfl, rfl, rfl⟩
  obtain ⟨r, hr, hs, hsurf⟩ := hrun
  obtain ⟨sv, g1, g2, -, g4⟩ := C114_backward hsort hθ hr (List.mem_singleton.mpr rfl) (by rw [hsurf]; exact hz)
    (by rw [hsurf]; exact C) 15 (-5) hs b5 ((Example.tubeMid_crossings h0 h1 _ _ b5).2 (Or.inl rfl)) (by norm_num)
  refine ⟨sort, _, r, hsort, hr, hs, ⟨sv, g1, g4⟩, ?_⟩
  rw [g4, hs]
  unfold scanPoint
  rw [track_re hθ, pointAt_re h0.ne', pointAt_re h0.ne', ht]
  intro hc
  simp only [V3.re, V3.mk.injEq, fin_inj, rZ] at hc
  linarith [hc.2.2]

end Verif
