import Verif.Model.Geometry
import Verif.Model.Lcio
import Verif.Lemmas.Sort
import Mathlib.Tactic.NormNum

/-!
# Geometry and field: C60, C61, C67
-/

open Classical

noncomputable section

namespace Verif

/-! ## C67 -/

/-- C67: the field is the same at all positions, along z with the strength given to the constructor, and all access
functions agree. -/
theorem C67_uniform (b : Dbl) (p q : V3) :
    let f : ConstantSolenoidBField := ⟨b⟩
    f.BField p = ⟨0, 0, b⟩ ∧ f.BField p = f.BField q ∧ f.BField3 p.x p.y p.z = f.BField p ∧
    f.Bx p = (f.BField p).x ∧ f.By p = (f.BField p).y ∧ f.Bz p = (f.BField p).z ∧ f.Bz p = b :=
  ⟨rfl, rfl, rfl, rfl, rfl, rfl, rfl⟩

example : (ConstantSolenoidBField.mk (.fin 3.5)).BField (V3.re 1 2 3) = V3.re 0 0 3.5 := by
  simp [ConstantSolenoidBField.BField, V3.re]

/-! ## C60 -/

open GeomState

/-- C60 is false: `instance()` followed by `instance(initString)` gives two different geometries. -/
theorem C60_two_geometries_false :
    run GeomState.init [.default true, .withInit true] = [.ok 0, .ok 1] := rfl

/-- C60 is false, as the negation of the property: not every call after a successful one returns the same object. -/
theorem C60_false : ¬ ∀ (cs : List Call) (a b : ℕ), .ok a ∈ run GeomState.init cs → .ok b ∈ run GeomState.init cs →
    a = b := by
  intro h
  have := h [.default true, .withInit true] 0 1 (by simp [C60_two_geometries_false]) (by simp [C60_two_geometries_false])
  omega

theorem run_fixed (g n : ℕ) (cs : List Call) : run ⟨some g, false, n⟩ cs = cs.map fun _ => .ok g := by
  induction cs with
  | nil => rfl
  | cons c cs ih => cases c <;> simp [run, step, instanceInit, instanceDefault, ih]

theorem run_default (g n : ℕ) (b : Bool) (cs : List Call) (h : ∀ c ∈ cs, ∃ l, c = .default l) :
    run ⟨some g, b, n⟩ cs = cs.map fun _ => .ok g := by
  induction cs with
  | nil => rfl
  | cons c cs ih =>
    obtain ⟨l, rfl⟩ := h c (by simp)
    simp [run, step, instanceDefault, ih fun c hc => h c (by simp [hc])]

theorem run_append (s : GeomState) (pre cs : List Call) :
    ∃ s', run s (pre ++ cs) = run s pre ++ run s' cs ∧
      (s.first = true → (∀ r ∈ run s pre, ∀ a, r ≠ .ok a) → s.geom = none → s' = s) := by
  induction pre generalizing s with
  | nil => exact ⟨s, rfl, fun _ _ _ => rfl⟩
  | cons c pre ih =>
    obtain ⟨s', h, h'⟩ := ih (s.step c).1
    refine ⟨s', by simp [run, h], ?_⟩
    intro hf hr hg
    have hr1 : ∀ a, (s.step c).2 ≠ .ok a := hr _ (by simp [run])
    have e : (s.step c).1 = s := by
      obtain ⟨g, f, n⟩ := s
      simp only at hf hg
      subst hf hg
      cases c with
      | withInit l => cases l <;> simp_all [step, instanceInit]
      | default l => cases l <;> simp_all [step, instanceDefault]
    rw [e] at h'
    exact h' hf (fun r hr' => hr r (by simp [run, e, hr'])) hg

/-- C60 (partial): if the first successful call is `instance(initString)`, all later calls of both kinds return the same
geometry.  Missing: a history that starts with `instance()` and later calls `instance(initString)`, where it is false. -/
theorem C60_init_first_partial (pre cs : List Call) (hpre : ∀ r ∈ run GeomState.init pre, ∀ a, r ≠ .ok a) :
    run GeomState.init (pre ++ .withInit true :: cs) =
      run GeomState.init pre ++ .ok 0 :: cs.map fun _ => .ok 0 := by
  obtain ⟨s', h, h'⟩ := run_append GeomState.init pre (.withInit true :: cs)
  rw [h, h' rfl hpre rfl]
  simp [run, step, instanceInit, GeomState.init, run_fixed]

/-- C60 (partial): if `instance(initString)` is never called, all calls after the first successful one return the same
geometry.  Missing: as above. -/
theorem C60_default_only_partial (pre cs : List Call) (hpre : ∀ r ∈ run GeomState.init pre, ∀ a, r ≠ .ok a)
    (hcs : ∀ c ∈ cs, ∃ l, c = .default l) :
    run GeomState.init (pre ++ .default true :: cs) =
      run GeomState.init pre ++ .ok 0 :: cs.map fun _ => .ok 0 := by
  obtain ⟨s', h, h'⟩ := run_append GeomState.init pre (.default true :: cs)
  rw [h, h' rfl hpre rfl]
  simp [run, step, instanceDefault, GeomState.init, run_default _ _ _ cs hcs]

/-- C60: no history reaches a null reference. -/
theorem C60_no_ub (cs : List Call) : ∀ r ∈ run GeomState.init cs, ∀ w, r ≠ .ub w := by
  have inv : ∀ (cs : List Call) (s : GeomState), (s.first = false → s.geom ≠ none) →
      ∀ r ∈ run s cs, ∀ w, r ≠ .ub w := by
    intro cs
    induction cs with
    | nil => intro s _ r hr; simp [run] at hr
    | cons c cs ih =>
      intro s hs r hr w
      simp only [run, List.mem_cons] at hr
      have key : (∀ w, (s.step c).2 ≠ .ub w) ∧ ((s.step c).1.first = false → (s.step c).1.geom ≠ none) := by
        obtain ⟨g, f, n⟩ := s
        cases c with
        | withInit l => cases f <;> cases l <;> cases g <;> simp_all [step, instanceInit]
        | default l => cases f <;> cases l <;> cases g <;> simp_all [step, instanceDefault]
      rcases hr with rfl | hr
      · exact key.1 w
      · exact ih _ key.2 r hr w
  exact inv cs _ (by simp [GeomState.init])

/-- what a history of calls leaves behind: `geom` and `first` agree, and at most one geometry has been created before `first` is cleared -/
structure GeomOk (s : GeomState) : Prop where
  before : s.first = true → s.created = if s.geom = none then 0 else 1
  after : s.first = false → s.geom ≠ none ∧ 1 ≤ s.created ∧ s.created ≤ 2
  known : ∀ g, s.geom = some g → g < s.created

theorem step_ok {s : GeomState} (h : GeomOk s) (c : Call) :
    GeomOk (s.step c).1 ∧ s.created ≤ (s.step c).1.created ∧ ∀ g, (s.step c).2 = .ok g → g < (s.step c).1.created := by
  obtain ⟨h1, h2, h3⟩ := h
  obtain ⟨g, f, n⟩ := s
  simp only at h1 h2 h3
  have e1 : ∀ i, g = some i → i < n := h3
  cases c with
  | withInit l =>
    cases f <;> cases l <;> rcases g with _ | g <;> simp_all [step, instanceInit]
    all_goals constructor <;> simp_all
  | default l =>
    cases f <;> cases l <;> rcases g with _ | g <;> simp_all [step, instanceDefault]
    all_goals constructor <;> simp_all

/-- C60: every reference that is returned is to a geometry that has been constructed, and no history constructs more than two. -/
theorem C60_constructed (cs : List Call) :
    (cs.foldl (fun s c => (s.step c).1) GeomState.init).created ≤ 2 ∧
    ∀ g, .ok g ∈ run GeomState.init cs → g < (cs.foldl (fun s c => (s.step c).1) GeomState.init).created := by
  have inv : ∀ (cs : List Call) (s : GeomState), GeomOk s → s.created ≤ (cs.foldl (fun s c => (s.step c).1) s).created ∧
      (cs.foldl (fun s c => (s.step c).1) s).created ≤ 2 ∧ ∀ g, .ok g ∈ run s cs → g < (cs.foldl (fun s c => (s.step c).1) s).created := by
    intro cs
    induction cs with
    | nil =>
      intro s hs
      refine ⟨le_rfl, ?_, by simp [run]⟩
      cases hf : s.first with
      | true =>
        have := hs.before hf
        split at this <;> simp_all
      | false => exact (hs.after hf).2.2
    | cons c cs ih =>
      intro s hs
      obtain ⟨k1, k2, k3⟩ := step_ok hs c
      obtain ⟨j1, j2, j3⟩ := ih _ k1
      refine ⟨k2.trans j1, j2, fun g hg => ?_⟩
      simp only [run, List.mem_cons] at hg
      rcases hg with hg | hg
      · exact lt_of_lt_of_le (k3 g hg.symm) j1
      · exact j3 g hg
  exact (inv cs _ ⟨by simp [GeomState.init], by simp [GeomState.init], by simp [GeomState.init]⟩).2

example : run GeomState.init [.withInit false, .withInit true, .default true, .withInit true] =
    [.throw "fromCompact", .ok 0, .ok 0, .ok 0] := rfl

/-! ## C61 -/

/-- The radius of a surface: of a cylinder its radius, of a plane or of any other surface the distance of the origin from
the z axis, of a disk half the larger extent, of a cone the larger radius. -/
inductive HasRadius : GeoSurface → ℝ → Prop where
  | cylinder (g r c) (h : g.surf.type.isZCylinder = true) (hr : g.surf.cyl = some (.fin r, c)) : HasRadius g r
  | plane (g x y z) (h0 : g.surf.type.isZCylinder = false) (h : g.surf.type.isZPlane = true)
      (ho : g.surf.origin = V3.re x y z) : HasRadius g (Real.sqrt (x * x + y * y))
  | disk (g a b) (h0 : g.surf.type.isZCylinder = false) (h1 : g.surf.type.isZPlane = false)
      (h : g.surf.type.isZDisk = true) (hu : g.lengthU = .fin a) (hv : g.lengthV = .fin b) :
      HasRadius g (max a b / 2)
  | cone (g a b) (h0 : g.surf.type.isZCylinder = false) (h1 : g.surf.type.isZPlane = false)
      (h2 : g.surf.type.isZDisk = false) (h : g.surf.isCone = true) (hr : g.cone = some (.fin a, .fin b)) :
      HasRadius g (max a b)
  | other (g x y z) (h0 : g.surf.type.isZCylinder = false) (h1 : g.surf.type.isZPlane = false)
      (h2 : g.surf.type.isZDisk = false) (h : g.surf.isCone = false)
      (ho : g.surf.origin = V3.re x y z) : HasRadius g (Real.sqrt (x * x + y * y))

theorem sortingPolicy_radius (fl : ℝ → ℝ) {g : GeoSurface} {r : ℝ} (h : HasRadius g r) :
    getSortingPolicy (narrow fl) g = .ok (.fin (fl r)) := by
  cases h with
  | cylinder r c h hr => simp [getSortingPolicy, h, hr, narrow]
  | plane x y z h0 h ho =>
    simp [getSortingPolicy, h0, h, ho, V3.rho, V3.trans, V3.re,
      Dbl.sqrt_fin (add_nonneg (mul_self_nonneg x) (mul_self_nonneg y)), narrow]
  | disk a b h0 h1 h hu hv => simp [getSortingPolicy, h0, h1, h, hu, hv, narrow]
  | cone a b h0 h1 h2 h hr => simp [getSortingPolicy, h0, h1, h2, h, hr, narrow]
  | other x y z h0 h1 h2 h ho =>
    simp [getSortingPolicy, h0, h1, h2, h, ho, V3.rho, V3.trans, V3.re,
      Dbl.sqrt_fin (add_nonneg (mul_self_nonneg x) (mul_self_nonneg y)), narrow]

/-- C61: for any detector whose surfaces have a finite radius, any narrowing to float and any sorting algorithm, the
list of surfaces consists of exactly the surfaces of the detector (each as often as there), in the order of the radius
rounded to float. -/
theorem C61_sorted_complete (fl : ℝ → ℝ) (sort : List GeoSurface → List GeoSurface) (sL : List GeoSurface)
    (hs : IsStdSort (sortSurfaces (narrow fl)) sort) (r : GeoSurface → ℝ) (hr : ∀ g ∈ sL, HasRadius g (r g)) :
    ∃ l, buildSurfaceList (narrow fl) sort sL = .ok l ∧ l.Perm sL ∧
      l.Pairwise (fun a b => fl (r a) ≤ fl (r b)) := by
  have hlt : ∀ a ∈ sL, ∀ b ∈ sL, sortSurfaces (narrow fl) a b ↔ fl (r a) < fl (r b) := by
    intro a ha b hb
    simp only [sortSurfaces, sortingPolicy_radius fl (hr a ha), sortingPolicy_radius fl (hr b hb), Dbl.fin_lt]
  have hsw : StrictWeakOn (sortSurfaces (narrow fl)) sL := strictWeakOn_key _ (fun g => fl (r g)) _ hlt
  refine ⟨sort sL, ?_, hs.perm _ hsw, ?_⟩
  · unfold buildSurfaceList stdSort
    rw [if_neg, if_pos hsw]
    rintro ⟨-, g, hg, hx⟩
    exact hx _ (sortingPolicy_radius fl (hr g hg))
  · refine ((hs.sorted _ hsw).imp_of_mem ?_)
    intro a b ha hb hab
    have ha' := (hs.perm _ hsw).mem_iff.mp ha
    have hb' := (hs.perm _ hsw).mem_iff.mp hb
    rw [hlt b hb' a ha'] at hab
    exact not_lt.mp hab

/-- C61: each surface appears once if the detector lists it once. -/
theorem C61_nodup (fl : Dbl → Dbl) (sort : List GeoSurface → List GeoSurface) (sL l : List GeoSurface)
    (hs : IsStdSort (sortSurfaces fl) sort) (h : buildSurfaceList fl sort sL = .ok l) (hn : sL.Nodup) :
    l.Nodup ∧ ∀ g, g ∈ l ↔ g ∈ sL := by
  unfold buildSurfaceList at h
  split at h
  · cases h
  · have hp := (stdSort_ok hs h).1
    exact ⟨hp.nodup_iff.mpr hn, fun g => hp.mem_iff⟩

/-- C61 (error branch): a surface flagged as z cylinder (or cone) that does not implement the interface leads to the
use of a null pointer as soon as there is a second surface. -/
theorem C61_bad_cast (fl : Dbl → Dbl) (sort : List GeoSurface → List GeoSurface) (sL : List GeoSurface) (g : GeoSurface)
    (hg : g ∈ sL) (h2 : 2 ≤ sL.length) (ht : g.surf.type.isZCylinder = true) (hc : g.surf.cyl = none) :
    ∃ w, buildSurfaceList fl sort sL = .ub w := by
  refine ⟨_, if_pos ⟨h2, g, hg, fun x => ?_⟩⟩
  simp [getSortingPolicy, ht, hc]

/-- a surface for the examples: a z cylinder of radius `r` -/
def exampleCylinder (r : ℝ) : GeoSurface where
  surf := { type := fun i => i = 0 ∨ i = 4, isCone := false, id := 0, insideBounds := fun _ => true, u := id, v := id,
            normal := id, globalToLocal := fun _ => ⟨0, 0⟩, localToGlobal := fun _ => V3.zero, origin := V3.zero,
            innerMaterial := ⟨0, 0, 0, 0⟩, outerMaterial := ⟨0, 0, 0, 0⟩, innerThickness := 0, outerThickness := 0,
            distance := fun _ => 0, cyl := some (.fin r, V3.zero) }
  lengthU := 0
  lengthV := 0
  cone := none

/-- C61 is not vacuous: there are detectors with several surfaces of finite radius and sorting algorithms. -/
example : ∃ (sort : List GeoSurface → List GeoSurface) (l : List GeoSurface),
    buildSurfaceList (narrow id) sort [exampleCylinder 3, exampleCylinder 1, exampleCylinder 2] = .ok l ∧
    l.Perm [exampleCylinder 3, exampleCylinder 1, exampleCylinder 2] := by
  obtain ⟨sort, hs⟩ := exists_isStdSort (sortSurfaces (narrow id))
  have hr : ∀ g ∈ [exampleCylinder 3, exampleCylinder 1, exampleCylinder 2],
      HasRadius g (match g.surf.cyl with | some (.fin r, _) => r | _ => 0) := by
    simp only [List.mem_cons, List.not_mem_nil, or_false, forall_eq_or_imp, forall_eq]
    refine ⟨?_, ?_, ?_⟩ <;>
      exact .cylinder _ _ _ (by simp [exampleCylinder, SurfaceType.isZCylinder]) rfl
  obtain ⟨l, h, hp, -⟩ := C61_sorted_complete id sort _ hs _ hr
  exact ⟨sort, l, h, hp⟩

end Verif
