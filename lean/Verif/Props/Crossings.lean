import Verif.Props.TrajectoryExample
import Verif.Lemmas.Sort

/-!
# C51: `getIntersectionsWithSurfaces`
-/

open Classical

noncomputable section

namespace Verif

open Dbl Traj

/-- The surface is crossed at path length `s` in the forward half turn, inside its bounds. -/
def CrossedAt (ref : TP) (surf : Surface) (s : ℝ) : Prop :=
  ∃ hit : Hit, intersectWithSurface surf ref.hp ref.rp 0 V3.zero 1 true = .ok hit ∧ hit.found = true ∧ hit.s = fin s ∧
    0 ≤ s ∧ ∃ r : ℝ, calculateRadius ref.hp = fin r ∧ s < Real.pi * |r|

theorem crossedAt_unique {ref : TP} {surf : Surface} {s s' : ℝ} (h : CrossedAt ref surf s) (h' : CrossedAt ref surf s') :
    s = s' := by
  obtain ⟨hit, h1, -, h2, -⟩ := h
  obtain ⟨hit', h1', -, h2', -⟩ := h'
  rw [h1] at h1'
  injection h1' with e
  rw [← e, h2, fin_inj] at h2'
  exact h2'

/-- the crossing of a surface as list with at most one entry -/
def crossing (ref : TP) (surf : Surface) : List (Dbl × Surface) :=
  if h : ∃ s, CrossedAt ref surf s then [(fin h.choose, surf)] else []

theorem crossing_pos {ref : TP} {surf : Surface} {s : ℝ} (h : CrossedAt ref surf s) : crossing ref surf = [(fin s, surf)] := by
  have hex : ∃ s, CrossedAt ref surf s := ⟨s, h⟩
  unfold crossing
  rw [dif_pos hex, crossedAt_unique hex.choose_spec h]

theorem crossing_neg {ref : TP} {surf : Surface} (h : ∀ s, ¬ CrossedAt ref surf s) : crossing ref surf = [] := by
  unfold crossing
  rw [dif_neg (by rintro ⟨s, hs⟩; exact h s hs)]

/-- the radius is never infinite -/
theorem radius_cases (hp : V5) : (∃ r : ℝ, calculateRadius hp = fin r) ∨ calculateRadius hp = nan := by
  unfold calculateRadius
  simp only
  generalize calculateCurvature hp = x
  cases x with
  | fin x =>
    by_cases hx : x = 0
    · subst hx; left; exact ⟨0, by rw [cif_neg (by simp), zero_eq]⟩
    · left; exact ⟨_, by rw [cif_pos (by simpa using hx), one_eq, fin_div _ hx, abs_fin]⟩
  | inf s => left; exact ⟨|0|, by rw [cif_pos (by simp), one_eq]; rfl⟩
  | nan => right; rw [cif_pos (by simp)]; rfl

/-- the condition in the loop -/
theorem keep_iff {ref : TP} {surf : Surface} {h : Hit}
    (hr : intersectWithSurface surf ref.hp ref.rp 0 V3.zero 1 true = .ok h) :
    (h.found = true ∧ 0 ≤ h.s ∧ h.s < Dbl.pi * Dbl.abs (calculateRadius ref.hp)) ↔
      ∃ s : ℝ, h.s = fin s ∧ CrossedAt ref surf s := by
  constructor
  · rintro ⟨h1, h2, h3⟩
    rcases radius_cases ref.hp with ⟨r, hR⟩ | hR
    · rw [hR, abs_fin, pi_eq, fin_mul] at h3
      cases hs : h.s with
      | fin s =>
        rw [hs, zero_eq, fin_le] at h2
        rw [hs, fin_lt] at h3
        exact ⟨s, rfl, h, hr, h1, hs, h2, r, hR, h3⟩
      | inf b => rw [hs, zero_eq, fin_le_inf] at h2; rw [hs, inf_lt_fin] at h3; rw [h2] at h3; cases h3
      | nan => rw [hs] at h2; exact absurd h2 (not_le_nan _)
    · rw [hR] at h3
      exact absurd h3 (by rw [show Dbl.abs nan = nan from rfl, mul_nan]; exact not_lt_nan _)
  · rintro ⟨s, e, h', e1, e2, e3, e4, r, e5, e6⟩
    rw [hr] at e1
    injection e1 with e1
    subst e1
    refine ⟨e2, ?_, ?_⟩
    · rw [e, zero_eq, fin_le]; exact e4
    · rw [e, e5, abs_fin, pi_eq, fin_mul, fin_lt]; exact e6

theorem loop_ok (ref : TP) (l : List (Dbl × Surface)) (surfaces : List Surface) (l' : List (Dbl × Surface))
    (h : intersectionLoop ref (Dbl.pi * Dbl.abs (calculateRadius ref.hp)) l surfaces = (l', .ok ())) :
    l' = l ++ surfaces.flatMap (crossing ref) := by
  induction surfaces generalizing l with
  | nil => injection h with h1 h2; simp [h1]
  | cons surf rest ih =>
    unfold intersectionLoop at h
    cases hi : intersectWithSurface surf ref.hp ref.rp 0 V3.zero 1 true with
    | ok hit =>
      rw [hi] at h
      simp only at h
      by_cases hk : ∃ s : ℝ, hit.s = fin s ∧ CrossedAt ref surf s
      · rw [cif_pos ((keep_iff hi).2 hk)] at h
        obtain ⟨s, e1, e2⟩ := hk
        rw [ih _ h, List.flatMap_cons, crossing_pos e2, e1]
        simp
      · rw [cif_neg (fun hc => hk ((keep_iff hi).1 hc))] at h
        have hn : ∀ s, ¬ CrossedAt ref surf s := by
          intro s hs
          have hs' := hs
          obtain ⟨hit', e1, -, e2, -⟩ := hs'
          rw [hi] at e1
          injection e1 with e1
          exact hk ⟨s, by rw [e1]; exact e2, hs⟩
        rw [ih _ h, List.flatMap_cons, crossing_neg hn]
        simp
    | throw w => rw [hi] at h; injection h with _ h; cases h
    | ub w => rw [hi] at h; injection h with _ h; cases h
    | diverge => rw [hi] at h; injection h with _ h; cases h

theorem loop_total (ref : TP) (maxS : Dbl) (l : List (Dbl × Surface)) (surfaces : List Surface)
    (h : ∀ surf ∈ surfaces, ∃ hit, intersectWithSurface surf ref.hp ref.rp 0 V3.zero 1 true = .ok hit) :
    ∃ l', intersectionLoop ref maxS l surfaces = (l', .ok ()) := by
  induction surfaces generalizing l with
  | nil => exact ⟨l, rfl⟩
  | cons surf rest ih =>
    obtain ⟨hit, hi⟩ := h surf (by simp)
    unfold intersectionLoop
    rw [hi]
    simp only
    by_cases hk : hit.found = true ∧ 0 ≤ hit.s ∧ hit.s < maxS
    · rw [cif_pos hk]; exact ih _ (fun s hs => h s (by simp [hs]))
    · rw [cif_neg hk]; exact ih _ (fun s hs => h s (by simp [hs]))

theorem crossing_fin {ref : TP} {surf : Surface} {x : Dbl × Surface} (h : x ∈ crossing ref surf) :
    ∃ s, CrossedAt ref surf s ∧ x = (fin s, surf) := by
  by_cases hx : ∃ s, CrossedAt ref surf s
  · obtain ⟨s, hs⟩ := hx
    rw [crossing_pos hs, List.mem_singleton] at h
    exact ⟨s, hs, h⟩
  · rw [crossing_neg (fun s hs => hx ⟨s, hs⟩)] at h
    simp at h

/-- what a call that returns normally does -/
theorem getIntersections_ok {sort : List (Dbl × Surface) → List (Dbl × Surface)} (hsort : IsStdSort sortWithS sort)
    {t t' : Traj} {surfaces : List Surface} {l : List (Dbl × Surface)}
    (h : t.getIntersections sort surfaces = (t', .ok l)) :
    t' = { t with inters := l } ∧ l.Perm (t.inters ++ surfaces.flatMap (crossing t.ref)) ∧
      l.Pairwise (fun a b => ¬ b.1 < a.1) := by
  unfold getIntersections at h
  simp only at h
  cases hl : intersectionLoop t.ref (Dbl.pi * Dbl.abs (calculateRadius t.ref.hp)) t.inters surfaces with
  | mk l0 o =>
    rw [hl] at h
    cases o with
    | ok u =>
      cases u
      simp only at h
      cases hs : stdSort sort sortWithS l0 with
      | ok l1 =>
        rw [hs] at h
        simp only [Prod.mk.injEq, Out.ok.injEq] at h
        obtain ⟨h1, rfl⟩ := h
        obtain ⟨p1, p2⟩ := stdSort_ok hsort hs
        rw [loop_ok _ _ _ _ hl] at p1
        exact ⟨h1.symm, p1, p2⟩
      | throw w => rw [hs] at h; injection h with _ h; cases h
      | ub w => rw [hs] at h; injection h with _ h; cases h
      | diverge => rw [hs] at h; injection h with _ h; cases h
    | throw w => injection h with _ h; cases h
    | ub w => injection h with _ h; cases h
    | diverge => injection h with _ h; cases h

/-- C51 (partial): the first call (nothing collected before) returns exactly the crossed surfaces, each as often as it is
given, with the path length of the crossing, in order of path length.  It changes nothing but the list.
Missing for C51: independence of earlier calls (`C51_false`). -/
theorem C51_crossings_partial {sort : List (Dbl × Surface) → List (Dbl × Surface)} (hsort : IsStdSort sortWithS sort)
    {t t' : Traj} {surfaces : List Surface} {l : List (Dbl × Surface)} (ht : t.inters = [])
    (h : t.getIntersections sort surfaces = (t', .ok l)) :
    t' = { t with inters := l } ∧ l.Perm (surfaces.flatMap (crossing t.ref)) ∧ l.Pairwise (fun a b => a.1 ≤ b.1) ∧
      ∀ x, x ∈ l ↔ ∃ surf ∈ surfaces, ∃ s, CrossedAt t.ref surf s ∧ x = (fin s, surf) := by
  obtain ⟨h1, h2, h3⟩ := getIntersections_ok hsort h
  rw [ht, List.nil_append] at h2
  have hmem : ∀ x, x ∈ l ↔ ∃ surf ∈ surfaces, ∃ s, CrossedAt t.ref surf s ∧ x = (fin s, surf) := by
    intro x
    rw [h2.mem_iff, List.mem_flatMap]
    constructor
    · rintro ⟨surf, hs, hx⟩; exact ⟨surf, hs, crossing_fin hx⟩
    · rintro ⟨surf, hs, s, hx, rfl⟩; exact ⟨surf, hs, by rw [crossing_pos hx]; simp⟩
  refine ⟨h1, h2, ?_, hmem⟩
  refine h3.imp_of_mem ?_
  intro a b ha hb hab
  obtain ⟨_, _, s, _, rfl⟩ := (hmem a).1 ha
  obtain ⟨_, _, s', _, rfl⟩ := (hmem b).1 hb
  simp only [fin_lt, not_lt, fin_le] at hab ⊢
  exact hab

/-- C51: the call returns normally if the intersection functions do; in particular the comparison of the sort is always
a valid one. -/
theorem C51_defined {sort : List (Dbl × Surface) → List (Dbl × Surface)} {t : Traj} {surfaces : List Surface}
    (ht : ∀ x ∈ t.inters, ∃ s : ℝ, x.1 = fin s)
    (h : ∀ surf ∈ surfaces, ∃ hit, intersectWithSurface surf t.ref.hp t.ref.rp 0 V3.zero 1 true = .ok hit) :
    ∃ t' l, t.getIntersections sort surfaces = (t', .ok l) := by
  obtain ⟨l0, hl⟩ := loop_total t.ref (Dbl.pi * Dbl.abs (calculateRadius t.ref.hp)) t.inters surfaces h
  have hl0 := loop_ok _ _ _ _ hl
  have hfin : ∀ x ∈ l0, ∃ s : ℝ, x.1 = fin s := by
    intro x hx
    rw [hl0, List.mem_append, List.mem_flatMap] at hx
    rcases hx with hx | ⟨surf, -, hx⟩
    · exact ht x hx
    · obtain ⟨s, -, rfl⟩ := crossing_fin hx; exact ⟨s, rfl⟩
  have hsw : StrictWeakOn sortWithS l0 := by
    refine strictWeakOn_key sortWithS (fun x => finVal x.1) l0 ?_
    intro a ha b hb
    obtain ⟨x, hx⟩ := hfin a ha
    obtain ⟨y, hy⟩ := hfin b hb
    simp only [sortWithS, hx, hy, fin_lt, finVal]
  have hst : stdSort sort sortWithS l0 = .ok (sort l0) := by unfold stdSort; rw [if_pos hsw]
  refine ⟨{ t with inters := sort l0 }, sort l0, ?_⟩
  unfold getIntersections
  simp only [hl, hst]

/-- C51: a straight reference track (zero curvature) crosses nothing. -/
theorem C51_straight {sort : List (Dbl × Surface) → List (Dbl × Surface)} (hsort : IsStdSort sortWithS sort)
    {t t' : Traj} {surfaces : List Surface} {l : List (Dbl × Surface)} (ht : t.inters = [])
    (hom : calculateRadius t.ref.hp = fin 0) (h : t.getIntersections sort surfaces = (t', .ok l)) : l = [] := by
  obtain ⟨-, -, -, h4⟩ := C51_crossings_partial hsort ht h
  rw [List.eq_nil_iff_forall_not_mem]
  intro x hx
  obtain ⟨surf, -, s, ⟨hit, -, -, -, h0, r, hr, hs⟩, -⟩ := (h4 x).1 hx
  rw [hom, fin_inj] at hr
  rw [← hr, abs_zero, mul_zero] at hs
  linarith

/-- C51 is false as stated: a second call with the same surfaces returns everything twice. -/
theorem C51_repeat {sort : List (Dbl × Surface) → List (Dbl × Surface)} (hsort : IsStdSort sortWithS sort)
    {t t1 t2 : Traj} {surfaces : List Surface} {l1 l2 : List (Dbl × Surface)} (ht : t.inters = [])
    (h1 : t.getIntersections sort surfaces = (t1, .ok l1)) (h2 : t1.getIntersections sort surfaces = (t2, .ok l2)) :
    l2.Perm (l1 ++ l1) := by
  obtain ⟨e1, p1, -⟩ := getIntersections_ok hsort h1
  obtain ⟨e2, p2, -⟩ := getIntersections_ok hsort h2
  rw [ht, List.nil_append] at p1
  have i1 : t1.inters = l1 := by rw [e1]
  have r1 : t1.ref = t.ref := by rw [e1]
  rw [i1, r1] at p2
  exact p2.trans (List.Perm.append_left l1 p1.symm)

/-- C51 is false as stated, concrete case: one disk, crossed once, is reported once by the first call and twice by the second. -/
theorem C51_false : ∃ (sort : List (Dbl × Surface) → List (Dbl × Surface)) (t t1 t2 : Traj) (l1 l2 : List (Dbl × Surface)),
    IsStdSort sortWithS sort ∧ t.inters = [] ∧ t.getIntersections sort [Example.disk] = (t1, .ok l1) ∧ l1.length = 1 ∧
    t1.getIntersections sort [Example.disk] = (t2, .ok l2) ∧ l2.length = 2 := by
  obtain ⟨sort, hsort⟩ := exists_isStdSort sortWithS
  have hd : ∀ surf ∈ [Example.disk], ∃ hit, intersectWithSurface surf Example.tp.hp Example.tp.rp 0 V3.zero 1 true = .ok hit := by
    intro surf hs
    rw [List.mem_singleton] at hs
    subst hs
    obtain ⟨hit, h1, -⟩ := Example.disk_hit (ib := fun _ => true) 0 0 1 one_pos true (fun _ => rfl)
    exact ⟨hit, h1⟩
  obtain ⟨t1, l1, h1⟩ := C51_defined (sort := sort) (t := make Example.tp) (surfaces := [Example.disk]) (by simp [make]) hd
  obtain ⟨e1, p1, -, m1⟩ := C51_crossings_partial hsort rfl h1
  have hfin : ∀ x ∈ t1.inters, ∃ s : ℝ, x.1 = fin s := by
    intro x hx
    rw [e1] at hx
    obtain ⟨_, _, s, _, rfl⟩ := (m1 x).1 hx
    exact ⟨s, rfl⟩
  have hd1 : ∀ surf ∈ [Example.disk], ∃ hit, intersectWithSurface surf t1.ref.hp t1.ref.rp 0 V3.zero 1 true = .ok hit := by
    rw [e1]; exact hd
  obtain ⟨t2, l2, h2⟩ := C51_defined (sort := sort) hfin hd1
  have hc : crossing Example.tp Example.disk = [(fin 1, Example.disk)] := by
    obtain ⟨hit, q1, q2, q3, -⟩ := Example.disk_hit (ib := fun _ => true) 0 0 1 one_pos true (fun _ => rfl)
    refine crossing_pos ⟨hit, q1, q2, q3, zero_le_one, |1 / 1|, calculateRadius_re one_ne_zero, ?_⟩
    have := Real.pi_gt_three
    norm_num
    linarith
  have hl1 : l1.length = 1 := by
    rw [p1.length_eq]
    simp [make, hc]
  have hl2 := (C51_repeat hsort rfl h1 h2).length_eq
  exact ⟨sort, make Example.tp, t1, t2, l1, l2, hsort, rfl, h1, hl1, h2, by rw [hl2, List.length_append, hl1]⟩

/-! ### what `CrossedAt` means geometrically -/

section

open Spec

variable {surf : Surface} {cov : M5} {om tl ph d z rx ry rz : ℝ}

theorem within_iff {om s : ℝ} (h : om ≠ 0) (h0 : 0 ≤ s) : (∃ r : ℝ, calculateRadius (hpR om tl ph d z) = fin r ∧ s < Real.pi * |r|) ↔
    |om * s| < Real.pi := by
  rw [calculateRadius_re h]
  have ha := abs_pos.mpr h
  have e : (s < Real.pi * |(|1 / om|)|) ↔ |om * s| < Real.pi := by
    rw [abs_abs, abs_div, abs_one, abs_mul, abs_of_nonneg h0, mul_one_div, lt_div_iff₀ ha, mul_comm]
  constructor
  · rintro ⟨r, h1, h2⟩
    rw [fin_inj] at h1
    subst h1
    exact e.1 h2
  · intro h1
    exact ⟨_, rfl, e.2 h1⟩

/-- C51, cylinders: crossed at `s` means that `s` is the first path length in the forward half turn with a track point on
the cylinder, and that this point is inside the bounds. -/
theorem C51_cylinder {a b c rho : ℝ} (C : CylCase surf om tl ph d z rx ry rz a b c rho) (hz : surf.type.isZCylinder = true)
    (s : ℝ) : CrossedAt ⟨cov, hpR om tl ph d z, V3.re rx ry rz⟩ surf s ↔
      0 ≤ s ∧ |om * s| < Real.pi ∧ Meets (OnCircle a b rho) om tl ph d z rx ry rz s ∧
      (∀ s', 0 ≤ s' → |om * s'| < Real.pi → Meets (OnCircle a b rho) om tl ph d z rx ry rz s' → s ≤ s') ∧
      surf.insideBounds (pointAt (fin s) (hpR om tl ph d z) (V3.re rx ry rz)) = true := by
  have hI : intersectWithSurface surf (hpR om tl ph d z) (V3.re rx ry rz) 0 V3.zero 1 true =
      intersectWithZCylinder surf (hpR om tl ph d z) (V3.re rx ry rz) 0 V3.zero 1 true := by
    unfold intersectWithSurface; rw [if_pos hz]
  unfold CrossedAt
  simp only
  rw [hI]
  rcases cylinder_main C 0 V3.zero 1 true with ⟨h1, h2⟩ | ⟨sv, h1, h2, h3, h4⟩
  · constructor
    · rintro ⟨hit, e1, e2, -⟩
      rw [h1] at e1
      injection e1 with e1
      rw [← e1] at e2
      simp at e2
    · rintro ⟨q1, q2, q3, -⟩
      exact absurd ⟨fun _ => q1, fun hc => absurd hc (by norm_num)⟩ (h2 s q2 q3)
  · constructor
    · rintro ⟨hit, e1, e2, e3, e4, e5⟩
      rw [h3] at e1
      injection e1 with e1
      subst e1
      rw [fin_inj] at e3
      subst e3
      exact ⟨e4, h1, h2, fun s' p1 p2 p3 => ((h4 s' p2 p3).1 one_pos).2 p1, (boundsOk_iff _ _ _).1 e2 rfl⟩
    · rintro ⟨q1, q2, q3, q4, q5⟩
      have e0 := (h4 s q2 q3).1 one_pos
      have hsv : sv = s := le_antisymm (e0.2 q1) (q4 sv e0.1 h1 h2)
      subst hsv
      exact ⟨_, h3, (boundsOk_iff surf true _).2 (fun _ => q5), rfl, q1, (within_iff C.curved q1).2 q2⟩

/-- C51, planes parallel to z (origin on the side of the normal, clear crossing): as for cylinders. -/
theorem C51_plane {n0 n1 ox oy oz cx cy r : ℝ} (C : PlaneCase surf om tl ph d z rx ry rz n0 n1 ox oy oz cx cy r)
    (hc : surf.type.isZCylinder = false) (hz : surf.type.isZPlane = true) (hside : 0 ≤ ox * n0 + oy * n1)
    (hdisc : 1e-9 < clDisc cx cy r n0 n1 (ox * n0 + oy * n1))
    (s : ℝ) : CrossedAt ⟨cov, hpR om tl ph d z, V3.re rx ry rz⟩ surf s ↔
      0 ≤ s ∧ |om * s| < Real.pi ∧ Meets (OnLine n0 n1 (ox * n0 + oy * n1)) om tl ph d z rx ry rz s ∧
      (∀ s', 0 ≤ s' → |om * s'| < Real.pi → Meets (OnLine n0 n1 (ox * n0 + oy * n1)) om tl ph d z rx ry rz s' → s ≤ s') ∧
      surf.insideBounds (pointAt (fin s) (hpR om tl ph d z) (V3.re rx ry rz)) = true := by
  have habs : |ox * n0 + oy * n1| = ox * n0 + oy * n1 := abs_of_nonneg hside
  rw [← habs] at hdisc
  have hI : intersectWithSurface surf (hpR om tl ph d z) (V3.re rx ry rz) 0 V3.zero 1 true =
      intersectWithZPlane surf (hpR om tl ph d z) (V3.re rx ry rz) 0 V3.zero 1 true := by
    unfold intersectWithSurface; rw [if_neg (by simp [hc]), if_pos hz]
  unfold CrossedAt
  simp only
  rw [hI]
  have hmain := plane_cross C hdisc 0 V3.zero 1 true
  rw [habs] at hmain
  rcases hmain with ⟨h1, h2⟩ | ⟨sv, h1, h2, h3, h4⟩
  · constructor
    · rintro ⟨hit, e1, e2, -⟩
      rw [h1] at e1
      injection e1 with e1
      rw [← e1] at e2
      simp at e2
    · rintro ⟨q1, q2, q3, -⟩
      exact absurd ⟨fun _ => q1, fun hc => absurd hc (by norm_num)⟩ (h2 s q2 q3)
  · constructor
    · rintro ⟨hit, e1, e2, e3, e4, e5⟩
      rw [h3] at e1
      injection e1 with e1
      subst e1
      rw [fin_inj] at e3
      subst e3
      exact ⟨e4, h1, h2, fun s' p1 p2 p3 => ((h4 s' p2 p3).1 one_pos).2 p1, (boundsOk_iff _ _ _).1 e2 rfl⟩
    · rintro ⟨q1, q2, q3, q4, q5⟩
      have e0 := (h4 s q2 q3).1 one_pos
      have hsv : sv = s := le_antisymm (e0.2 q1) (q4 sv e0.1 h1 h2)
      subst hsv
      exact ⟨_, h3, (boundsOk_iff surf true _).2 (fun _ => q5), rfl, q1, (within_iff C.curved q1).2 q2⟩

/-- C51, disks: crossed at `s` means that the track has the z position of the disk at the positive path length `s` (there is
only one such path length), within half a turn and inside the bounds. -/
theorem C51_disk (h : om ≠ 0) (ht : tl ≠ 0) (hc : surf.type.isZCylinder = false) (hp : surf.type.isZPlane = false)
    (hz : surf.type.isZDisk = true) (ox oy oz : ℝ) (ho : surf.origin = V3.re ox oy oz) (s : ℝ) :
    CrossedAt ⟨cov, hpR om tl ph d z, V3.re rx ry rz⟩ surf s ↔
      0 < s ∧ |om * s| < Real.pi ∧ (pointAt (fin s) (hpR om tl ph d z) (V3.re rx ry rz)).z = fin oz ∧
      surf.insideBounds (pointAt (fin s) (hpR om tl ph d z) (V3.re rx ry rz)) = true := by
  have hI : intersectWithSurface surf (hpR om tl ph d z) (V3.re rx ry rz) 0 V3.zero 1 true =
      intersectWithZDisk surf (hpR om tl ph d z) (V3.re rx ry rz) 0 V3.zero 1 true := by
    unfold intersectWithSurface; rw [if_neg (by simp [hc]), if_neg (by simp [hp]), if_pos hz]
  obtain ⟨sv, hit, e1, e2, e3, e4, e5, e6⟩ := C30_disk (ph := ph) (d := d) (z := z) (rx := rx) (ry := ry) (rz := rz) h ht surf
    ox oy oz ho 0 V3.zero 1 true
  unfold CrossedAt
  simp only
  rw [hI, e1]
  have hone : ((1 : ℤ) = 0 ∨ 0 < (((1 : ℤ) : ℝ)) * sv) ↔ 0 < sv := by simp
  rw [hone] at e6
  constructor
  · rintro ⟨hit', q1, q2, q3, q4, q5⟩
    injection q1 with q1
    subst q1
    rw [e2, fin_inj] at q3
    subst q3
    have := e6.1 q2
    rw [← e3]
    exact ⟨this.1, (within_iff h q4).1 q5, e4, this.2 rfl⟩
  · rintro ⟨q1, q2, q3, q4⟩
    have hs := (e5 s).1 q3
    subst hs
    exact ⟨hit, rfl, e6.2 ⟨q1, fun _ => by rw [e3]; exact q4⟩, e2, q1.le, (within_iff h q1.le).2 q2⟩

end

/-- C51, exceptions: if the intersection with some surface fails with an exception, the exception is passed on and the
crossings of the surfaces before it stay in the list, unsorted. -/
theorem C51_exception {sort : List (Dbl × Surface) → List (Dbl × Surface)} (t : Traj) (before rest : List Surface)
    (surf : Surface) (w : String)
    (h : ∀ s ∈ before, ∃ hit, intersectWithSurface s t.ref.hp t.ref.rp 0 V3.zero 1 true = .ok hit)
    (hs : intersectWithSurface surf t.ref.hp t.ref.rp 0 V3.zero 1 true = .throw w) :
    t.getIntersections sort (before ++ surf :: rest) =
      ({ t with inters := t.inters ++ before.flatMap (crossing t.ref) }, .throw w) := by
  have key : ∀ l, intersectionLoop t.ref (Dbl.pi * Dbl.abs (calculateRadius t.ref.hp)) l (before ++ surf :: rest) =
      (l ++ before.flatMap (crossing t.ref), .throw w) := by
    induction before with
    | nil => intro l; simp only [List.nil_append, intersectionLoop, hs, List.flatMap_nil, List.append_nil]
    | cons b before ih =>
      intro l
      obtain ⟨hit, hi⟩ := h b (by simp)
      have ih' := ih (fun s hs => h s (by simp [hs]))
      have h1 := loop_total t.ref (Dbl.pi * Dbl.abs (calculateRadius t.ref.hp)) l [b] (fun s hs => h s (by simp_all))
      obtain ⟨l', h1⟩ := h1
      have h2 := loop_ok _ _ _ _ h1
      simp only [List.flatMap_cons, List.flatMap_nil, List.append_nil] at h2
      rw [List.cons_append, intersectionLoop, hi]
      rw [intersectionLoop, hi] at h1
      simp only [intersectionLoop] at h1 ⊢
      rw [List.flatMap_cons, ← List.append_assoc, ← h2]
      by_cases hk : hit.found = true ∧ 0 ≤ hit.s ∧ hit.s < Dbl.pi * Dbl.abs (calculateRadius t.ref.hp)
      · rw [cif_pos hk] at h1 ⊢
        injection h1 with h1
        rw [ih', h1]
      · rw [cif_neg hk] at h1 ⊢
        injection h1 with h1
        rw [ih', h1]
  unfold getIntersections
  simp only [key]

end Verif
