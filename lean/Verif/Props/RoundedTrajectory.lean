import Verif.Model.RoundedTrajectory
import Verif.Props.RoundedCylinder
import Verif.Props.RoundedNewton
import Verif.Props.RoundedPath
import Verif.Props.RoundedPlane
import Verif.Props.TrajectoryExample
import Verif.Lemmas.RoundedMove
import Verif.Lemmas.RoundedTrajectory
import Verif.Lemmas.Sort

/-!
# C148: the list of crossed surfaces in double precision
-/

open Classical

noncomputable section

namespace Verif

open Dbl Rnd Spec Rounded

variable {fl : ℝ → ℝ} {lm : Libm} {at2 : ℝ → ℝ → ℝ} {asn atn : ℝ → ℝ}

/-- a surface of the detector, and path length and tolerance of the crossing with the track, if there is one -/
structure Planned where
  surf : Surface
  crossing : Option (ℝ × ℝ)

/-- the code computes a crossing of the track `x`, `y`, `w` with the surface at path length `t`, and all errors are at most `e` -/
def ComputedAt (fl : ℝ → ℝ) (lm : Libm) (at2 : ℝ → ℝ → ℝ) (asn atn : ℝ → ℝ) (hp : V5) (rp : V3) (x y w : ℝ → ℝ) (surf : Surface) (t e : ℝ) : Prop :=
  ∃ S X Y Z, Rnd.intersectWithSurface fl lm at2 asn atn surf hp rp 0 V3.zero 1 true =
      .ok ⟨surf.insideBounds (V3.re X Y Z), fin S, V3.re X Y Z⟩ ∧
    |S - t| ≤ e ∧ |X - x t| ≤ e ∧ |Y - y t| ≤ e ∧ |Z - w t| ≤ e

/-- the code reports no crossing -/
def ComputedMiss (fl : ℝ → ℝ) (lm : Libm) (at2 : ℝ → ℝ → ℝ) (asn atn : ℝ → ℝ) (hp : V5) (rp : V3) (surf : Surface) : Prop :=
  ∃ hit, Rnd.intersectWithSurface fl lm at2 asn atn surf hp rp 0 V3.zero 1 true = .ok hit ∧ hit.found = false

/-- the crossing is not at the edge of the surface: points at a distance of at most `e` in each coordinate are inside the bounds if the
crossing is -/
def ClearBounds (surf : Surface) (x y w : ℝ → ℝ) (t e : ℝ) : Prop :=
  ∀ X Y Z, |X - x t| ≤ e → |Y - y t| ≤ e → |Z - w t| ≤ e → surf.insideBounds (V3.re X Y Z) = surf.insideBounds (V3.re (x t) (y t) (w t))

/-- the crossing that should be in the list -/
def Planned.listed (x y w : ℝ → ℝ) (c : Planned) : Option (Surface × ℝ × ℝ) :=
  match c.crossing with
  | none => none
  | some (t, e) => if c.surf.insideBounds (V3.re (x t) (y t) (w t)) = true then some (c.surf, t, e) else none

/-- an entry of the list that is right within the tolerance -/
def EntryFor (c : Surface × ℝ × ℝ) (e : Dbl × Surface) : Prop := e.2 = c.1 ∧ ∃ S, e.1 = fin S ∧ |S - c.2.1| ≤ c.2.2

/-- the limit for the path length is half a turn -/
theorem maxArc_value (h : NearestF 53 1074 fl) {om tl ph d z : ℝ} (o1 : 1 / 2 ^ 500 ≤ |om|) (o2 : |om| ≤ 2 ^ 200) :
    ∃ m, Rnd.maxArc fl (hpR om tl ph d z) = fin m ∧ |m - Real.pi / (|om|)| ≤ 1 / 2 ^ 50 * (Real.pi / |om|) := by
  have o0 : 0 < |om| := lt_of_lt_of_le (by positivity) o1
  have hom : om ≠ 0 := abs_pos.1 o0
  have i0 : |1 / om| = 1 / |om| := by rw [abs_div, abs_one]
  have i1 : |1 / om| ≤ 2 ^ 500 := by
    rw [i0, div_le_iff₀ o0]
    rw [div_le_iff₀ (by positivity), mul_comm] at o1
    exact o1
  have i2 := size_fl h i1
  obtain ⟨pd, p2, p3, p4⟩ := mPi_bounds
  have m0 : |mPi| ≤ 2 ^ 2 := by rw [abs_of_pos (by linarith)]; norm_num; linarith
  have i3 := size_mul m0 (show |(|fl (1 / om)|)| ≤ _ by rw [_root_.abs_abs]; exact i2)
  refine ⟨fl (mPi * |fl (1 / om)|), ?_, ?_⟩
  · rw [Rnd.maxArc, Rnd.calculateRadius, calculateCurvature_hpR, cif_pos (by rw [zero_eq, fin_eqv]; exact hom), divD, one_eq, fin_div _ hom, rnd_double h (size_mono i1 (by norm_num)), abs_fin, abs_fin,
      _root_.abs_abs, mulD, fin_mul, rnd_double h (size_mono i3 (by norm_num))]
  · have e1 := err_double h (1 / om)
    have e2 := err_double h (mPi * |fl (1 / om)|)
    have tiny : (1 : ℝ) / 2 ^ 1075 ≤ 1 / 2 ^ 60 * (1 / |om|) := by
      have : 1 / 2 ^ 200 ≤ 1 / |om| := one_div_le_one_div_of_le o0 o2
      calc (1 : ℝ) / 2 ^ 1075 ≤ 1 / 2 ^ 260 := one_div_le_one_div_of_le (by positivity) (pow_le_pow_right₀ (by norm_num) (by norm_num))
        _ = 1 / 2 ^ 60 * (1 / 2 ^ 200) := by rw [one_div_mul_one_div, ← pow_add]
        _ ≤ _ := mul_le_mul_of_nonneg_left this (by positivity)
    have r0 : 0 < 1 / |om| := by positivity
    have e3 : |(|fl (1 / om)|) - 1 / (|om|)| ≤ 1 / 2 ^ 53 * (1 / |om|) + 1 / 2 ^ 1075 := by
      rw [← i0]
      exact (abs_abs_sub_abs_le_abs_sub _ _).trans e1
    have q0 := abs_nonneg (fl (1 / om))
    have e4 : |mPi * (|fl (1 / om)|)| = mPi * |fl (1 / om)| := abs_of_nonneg (mul_nonneg (by linarith) q0)
    rw [e4] at e2
    rw [show Real.pi / |om| = Real.pi * (1 / |om|) by ring]
    obtain ⟨r, hr⟩ : ∃ r, r = 1 / |om| := ⟨_, rfl⟩
    rw [← hr] at tiny e3 r0 ⊢
    generalize |fl (1 / om)| = q at *
    generalize fl (mPi * q) = m at *
    have pp := Real.pi_gt_three
    have pp' := Real.pi_lt_d2
    have c1 : |q - r| ≤ 1 / 2 ^ 52 * r := by
      refine e3.trans ?_
      generalize (1 : ℝ) / 2 ^ 1075 = η at *
      norm_num at *
      linarith
    have c2 : |mPi * q - Real.pi * r| ≤ 3 / 2 ^ 52 * r + 3 / 2 ^ 52 * r := by
      rw [show mPi * q - Real.pi * r = mPi * (q - r) + (mPi - Real.pi) * r by ring]
      refine (abs_add_le _ _).trans ?_
      rw [abs_mul, abs_mul, abs_of_pos (show 0 < mPi by linarith), abs_of_pos r0]
      have k1 : mPi * |q - r| ≤ 3.15 * (1 / 2 ^ 52 * r) := mul_le_mul p4.le c1 (abs_nonneg _) (by norm_num)
      have k2 : |mPi - Real.pi| * r ≤ 2 * (1 / 2 ^ 53) * r := mul_le_mul_of_nonneg_right pd r0.le
      norm_num at *
      linarith
    have c3 : mPi * q ≤ 4 * r := by
      have := (abs_le.1 c2).2
      have k := mul_le_mul_of_nonneg_right pp'.le r0.le
      norm_num at *
      linarith
    have c4 : |m - Real.pi * r| ≤ 12 / 2 ^ 52 * r := by
      refine (near_trans e2 c2).trans ?_
      generalize (1 : ℝ) / 2 ^ 1075 = η at *
      norm_num at *
      linarith
    refine c4.trans ?_
    have k := mul_le_mul_of_nonneg_right pp.le r0.le
    norm_num at *
    linarith

/-- pairs of related lists keep their order -/
theorem sorted_related {l : List (Dbl × Surface)} {A : List (Surface × ℝ × ℝ)} (hA : List.Forall₂ EntryFor A l)
    (hs : l.Pairwise (fun a b => ¬ b.1 < a.1)) (hsep : A.Pairwise (fun a b => a.2.2 + b.2.2 < |a.2.1 - b.2.1|)) :
    A.Pairwise (fun a b => a.2.1 < b.2.1) := by
  induction hA with
  | nil => exact List.Pairwise.nil
  | @cons c e A l hce hA ih =>
    rw [List.pairwise_cons] at hs hsep ⊢
    refine ⟨fun c' hc' => ?_, ih hs.2 hsep.2⟩
    obtain ⟨e', he', h'⟩ : ∃ e' ∈ l, EntryFor c' e' := by
      clear ih hs hsep
      induction hA with
      | nil => cases hc'
      | cons h1 h2 ih =>
        rcases List.mem_cons.1 hc' with rfl | q
        · exact ⟨_, by simp, h1⟩
        · obtain ⟨e', he', h'⟩ := ih q
          exact ⟨e', by simp [he'], h'⟩
    have k1 := hs.1 e' he'
    have k2 := hsep.1 c' hc'
    obtain ⟨-, S, hS, hS'⟩ := hce
    obtain ⟨-, S', hT, hT'⟩ := h'
    rw [hS, hT, fin_lt, not_lt] at k1
    rw [abs_le] at hS' hT'
    by_contra hc
    push Not at hc
    rw [abs_of_nonneg (by linarith)] at k2
    linarith [hS'.1, hT'.2]

/-- the loop collects the crossings that are inside the bounds -/
theorem loop_related (ref : TP) {x y w : ℝ → ℝ} {m : ℝ} (cs : List Planned)
    (hm : ∀ c ∈ cs, c.crossing = none → ComputedMiss fl lm at2 asn atn ref.hp ref.rp c.surf)
    (hc : ∀ c ∈ cs, ∀ t e, c.crossing = some (t, e) → ComputedAt fl lm at2 asn atn ref.hp ref.rp x y w c.surf t e ∧
      ClearBounds c.surf x y w t e ∧ e ≤ t ∧ t + e < m) (l : List (Dbl × Surface)) :
    ∃ l', Rnd.intersectionLoop fl lm at2 asn atn ref (fin m) l (cs.map Planned.surf) = (l ++ l', .ok ()) ∧
      List.Forall₂ EntryFor (cs.filterMap (Planned.listed x y w)) l' := by
  induction cs generalizing l with
  | nil => exact ⟨[], by simp [Rnd.intersectionLoop], by simp⟩
  | cons c cs ih =>
    have ih' := ih (fun c' h' => hm c' (by simp [h'])) (fun c' h' => hc c' (by simp [h']))
    rw [List.map_cons, Rnd.intersectionLoop]
    cases hcr : c.crossing with
    | none =>
      obtain ⟨hit, e1, e2⟩ := hm c (by simp) hcr
      obtain ⟨l', i1, i2⟩ := ih' l
      refine ⟨l', ?_, ?_⟩
      · rw [e1]
        simp only
        rw [cif_neg (by rw [e2]; simp), i1]
      · rw [List.filterMap_cons_none (by rw [Planned.listed, hcr])]
        exact i2
    | some p =>
      obtain ⟨t, e⟩ := p
      obtain ⟨⟨S, X, Y, Z, e1, e2, e3, e4, e5⟩, hb, h0, h1⟩ := hc c (by simp) t e hcr
      have hb' := hb X Y Z e3 e4 e5
      rw [hb'] at e1
      rw [e1]
      simp only
      have hS := abs_le.1 e2
      by_cases hin : c.surf.insideBounds (V3.re (x t) (y t) (w t)) = true
      · rw [cif_pos ⟨hin, by rw [zero_eq, fin_le]; linarith, by rw [fin_lt]; linarith⟩]
        obtain ⟨l', i1, i2⟩ := ih' (l ++ [(fin S, c.surf)])
        refine ⟨(fin S, c.surf) :: l', by rw [i1]; simp, ?_⟩
        rw [List.filterMap_cons_some (b := (c.surf, t, e)) (by rw [Planned.listed, hcr]; simp only [if_pos hin])]
        exact List.Forall₂.cons ⟨rfl, S, rfl, e2⟩ i2
      · rw [cif_neg (fun q => hin q.1)]
        obtain ⟨l', i1, i2⟩ := ih' l
        refine ⟨l', i1, ?_⟩
        rw [List.filterMap_cons_none (by rw [Planned.listed, hcr]; simp only [if_neg hin])]
        exact i2

/-- C148 (partial): if for each surface the crossing with the track is computed within a tolerance (or there is none), the crossings are not at the
edges of the surfaces, they are in the first half turn, and their path lengths differ by more than the tolerances, then the list returned by the
first call consists of the surfaces crossed inside their bounds, in the order in which the track crosses them, with path lengths that are
right within the tolerance.  Missing for C148: tracks for which the crossings are not computed this way (`C148_straight`, `C148_false`). -/
theorem C148_list_partial (h : NearestF 53 1074 fl) {sort : List (Dbl × Surface) → List (Dbl × Surface)} (hsort : IsStdSort Traj.sortWithS sort)
    {T : Traj} (hT : T.inters = []) {om tl ph d z : ℝ} (hp : T.ref.hp = hpR om tl ph d z) (o1 : 1 / 2 ^ 500 ≤ |om|) (o2 : |om| ≤ 2 ^ 200)
    {x y w : ℝ → ℝ} (cs : List Planned)
    (hm : ∀ c ∈ cs, c.crossing = none → ComputedMiss fl lm at2 asn atn T.ref.hp T.ref.rp c.surf)
    (hc : ∀ c ∈ cs, ∀ t e, c.crossing = some (t, e) → ComputedAt fl lm at2 asn atn T.ref.hp T.ref.rp x y w c.surf t e ∧
      ClearBounds c.surf x y w t e ∧ e ≤ t ∧ t + e < (1 - 1 / 2 ^ 50) * (Real.pi / |om|))
    (hsep : (cs.filterMap (Planned.listed x y w)).Pairwise (fun a b => a.2.2 + b.2.2 < |a.2.1 - b.2.1|)) :
    ∃ T' l A, Rnd.getIntersections fl lm at2 asn atn sort T (cs.map Planned.surf) = (T', .ok l) ∧ T' = { T with inters := l } ∧
      A.Perm (cs.filterMap (Planned.listed x y w)) ∧ A.Pairwise (fun a b => a.2.1 < b.2.1) ∧ List.Forall₂ EntryFor A l := by
  obtain ⟨m, em, hm'⟩ := maxArc_value (tl := tl) (ph := ph) (d := d) (z := z) h o1 o2
  have hm1 := (abs_le.1 hm').1
  obtain ⟨l0, i1, i2⟩ := loop_related (m := m) T.ref cs hm (fun c h1 t e h2 => by
    obtain ⟨q1, q2, q3, q4⟩ := hc c h1 t e h2
    exact ⟨q1, q2, q3, by linarith⟩) []
  rw [List.nil_append] at i1
  have hfin : ∀ a ∈ l0, ∃ S : ℝ, a.1 = fin S := by
    clear i1
    generalize cs.filterMap (Planned.listed x y w) = A at i2
    induction i2 with
    | nil => intro a ha; cases ha
    | cons h1 h2 ih =>
      intro a ha
      rcases List.mem_cons.1 ha with rfl | q
      · exact ⟨_, h1.2.choose_spec.1⟩
      · exact ih a q
  have hsw : StrictWeakOn Traj.sortWithS l0 := by
    refine strictWeakOn_key Traj.sortWithS (fun x => finVal x.1) l0 ?_
    intro a ha b hb
    obtain ⟨x, hx⟩ := hfin a ha
    obtain ⟨y, hy⟩ := hfin b hb
    simp only [Traj.sortWithS, hx, hy, fin_lt, finVal]
  have hst : stdSort sort Traj.sortWithS l0 = .ok (sort l0) := by unfold stdSort; rw [if_pos hsw]
  obtain ⟨p1, p2⟩ := stdSort_ok hsort hst
  have : Relation.Comp (List.Forall₂ EntryFor) List.Perm (cs.filterMap (Planned.listed x y w)) (sort l0) := ⟨l0, i2, p1.symm⟩
  rw [List.forall₂_comp_perm_eq_perm_comp_forall₂] at this
  obtain ⟨A, a1, a2⟩ := this
  refine ⟨{ T with inters := sort l0 }, sort l0, A, ?_, rfl, a1.symm, ?_, a2⟩
  · rw [Rnd.getIntersections, hp, em, hT, i1]
    simp only [hst]
  · refine sorted_related a2 p2 ?_
    refine (a1.pairwise_iff ?_).1 hsep
    intro a b hab
    rw [abs_sub_comm, add_comm]
    exact hab

/-- error of the path length of the crossing with a disk at the coordinate `oz`; `zs` is the coordinate where the track starts -/
def diskArcError (tl zs oz : ℝ) : ℝ := (1 / 2 ^ 53 * (3 * |oz| + 4 * |zs|) + 1 / 2 ^ 500) / |tl|

/-- tolerance for the crossing with a disk -/
def diskTolerance (om tl ph d rx ry zs oz t : ℝ) : ℝ :=
  diskArcError tl zs oz + (1 / 2 ^ 53 * (3 * (|rx| + |ry|) + 10 * |d| + 2 * t * (30 + |ph| + 6 * |om * t|)) + 1 / 2 ^ 500)

/-- C148, disks: the crossing of a track with a disk ahead of it is computed within the tolerance. -/
theorem C148_disk (h : NearestF 53 1074 fl) (hl : IsLibm lm) {om tl ph d z rx ry rz oz ox oy : ℝ} (hr : HelixRange om tl ph d z rx ry rz oz)
    (htl : 1 / 2 ^ 90 ≤ |tl|) {surf : Surface} (hs : surf.origin = V3.re ox oy oz) (h1 : surf.type.isZCylinder = false)
    (h2 : surf.type.isZPlane = false) (h3 : surf.type.isZDisk = true)
    {x y w : ℝ → ℝ} (ht : Spec.IsTrack om tl ph (rx - d * Real.sin ph) (ry + d * Real.cos ph) (rz + z) x y w) {t : ℝ} (hw : w t = oz)
    (he : diskArcError tl (rz + z) oz < t) :
    ComputedAt fl lm at2 asn atn (hpR om tl ph d z) (V3.re rx ry rz) x y w surf t (diskTolerance om tl ph d rx ry (rz + z) oz t) := by
  obtain ⟨s, X, Y, e1, e2, e3, e4, e5, e6⟩ := C133_disk h hl hr htl hs 1 true ht
  have t0 : 0 < |tl| := lt_of_lt_of_le (by positivity) htl
  have hom : om ≠ 0 := abs_pos.1 (lt_of_lt_of_le (by positivity) hr.om_pos)
  have hw' : w s - oz = (s - t) * tl := by
    obtain ⟨-, -, u3⟩ := ht.unique (isTrack_r (rx := rx) (ry := ry) (d := d) hom)
    rw [← hw, u3, rZ, rZ]
    ring
  have a0 : 0 ≤ diskArcError tl (rz + z) oz := by unfold diskArcError; positivity
  have hst : |s - t| ≤ diskArcError tl (rz + z) oz := by
    rw [diskArcError, le_div_iff₀ t0, ← abs_mul, ← hw']
    exact e3
  have hS := abs_le.1 hst
  have s0 : 0 < s := by linarith
  have s2 : s ≤ 2 * t := by linarith
  have t1 : 0 < t := lt_of_le_of_lt a0 he
  have hsx : |x s - x t| ≤ |s - t| := (track_lip ht s t).1
  have hsy : |y s - y t| ≤ |s - t| := (track_lip ht s t).2
  have hbig : |s| * (30 + |ph| + 3 * |om * s|) ≤ 2 * t * (30 + |ph| + 6 * |om * t|) := by
    rw [abs_of_pos s0]
    refine mul_le_mul s2 ?_ (by positivity) (by linarith)
    rw [abs_mul, abs_mul, abs_of_pos s0, abs_of_pos t1]
    have := mul_le_mul_of_nonneg_left s2 (abs_nonneg om)
    linarith
  have v0 : (0 : ℝ) < 1 / 2 ^ 53 := by positivity
  have n0 : (0 : ℝ) < 1 / 2 ^ 500 := by positivity
  have tol : ∀ {r : ℝ}, |r| ≤ |rx| + |ry| → 1 / 2 ^ 53 * (3 * |r| + 10 * |d| + |s| * (30 + |ph| + 3 * |om * s|)) + 1 / 2 ^ 500 +
      diskArcError tl (rz + z) oz ≤ diskTolerance om tl ph d rx ry (rz + z) oz t := by
    intro r hr
    rw [diskTolerance, add_comm (diskArcError _ _ _)]
    refine add_le_add (add_le_add (mul_le_mul_of_nonneg_left ?_ v0.le) le_rfl) le_rfl
    linarith
  refine ⟨s, X, Y, oz, ?_, ?_, ?_, ?_, ?_⟩
  · obtain ⟨-, -, D, -⟩ := C144_dispatch fl lm at2 asn atn surf (hpR om tl ph d z) (V3.re rx ry rz) 0 V3.zero 1 true
    rw [D h1 h2 h3]
    generalize Rnd.intersectWithZDisk fl lm surf (hpR om tl ph d z) (V3.re rx ry rz) 1 true = hit at *
    obtain ⟨f, hs', hx⟩ := hit
    simp only at e1 e2 e6
    rw [e1, e2]
    congr 2
    rw [Bool.eq_iff_iff, e6]
    simp [s0]
  · refine hst.trans ?_
    rw [diskTolerance]
    have : 0 ≤ 1 / 2 ^ 53 * (3 * (|rx| + |ry|) + 10 * |d| + 2 * t * (30 + |ph| + 6 * |om * t|)) + 1 / 2 ^ 500 := by positivity
    linarith
  · exact (near_trans e4 (hsx.trans hst)).trans (tol (le_add_of_nonneg_right (abs_nonneg _)))
  · exact (near_trans e5 (hsy.trans hst)).trans (tol (le_add_of_nonneg_left (abs_nonneg _)))
  · rw [hw, sub_self, abs_zero]
    exact le_trans (by positivity) (tol (r := rx) (le_add_of_nonneg_right (abs_nonneg _)))

/-- distance of the computed points from the crossings with a cylinder (C141) -/
def cylPointError (M om ph d rx ry a b rho : ℝ) : ℝ :=
  1 / 2 ^ 20 * √(M * rho * ((1 + |om| * M) /
    √((Real.sin ph - om * (a - (rx - d * Real.sin ph))) ^ 2 + (Real.cos ph + om * (b - (ry + d * Real.cos ph))) ^ 2)))

/-- error of the path length of a point at the distance `δ` from the track (C136) -/
def arcError (om δ d rx ry t : ℝ) : ℝ :=
  if |om * t| ≤ 7 / 5 then 30 * δ + 1 / 2 ^ 53 * (200 * |t| + 90 * |d| + 40 * |rx| + 40 * |ry|) + 1 / 2 ^ 500
  else 600 * δ + 1 / 2 ^ 53 * (3100 * |t| + 2100 * |d| + 900 * |rx| + 900 * |ry|) + 1 / 2 ^ 500

/-- tolerance for the crossing with a cylinder or a plane -/
def arcTolerance (om δ tl d z rx ry rz t : ℝ) : ℝ :=
  (1 + |tl|) * arcError om δ d rx ry t + (1 / 2 ^ 53 * (3 * |rz| + 3 * |z| + 6 * |t * tl|) + 1 / 2 ^ 500)

/-- the range of path lengths for which C136 gives a bound: the track has turned by more than 2^-40, but less than almost half a turn -/
structure ArcRange (om d rx ry δ t : ℝ) : Prop where
  turn : 1 / 2 ^ 40 ≤ |om * t|
  turn' : |om * t| ≤ 3
  size : |t| ≤ 2 ^ 199
  far : |rx| + |ry| + |d| ≤ 2 ^ 38 * |t|
  near : δ ≤ |t| / 2000

theorem parallel_of_zCylinder {t : SurfaceType} (h : t.isZCylinder = true) : t.isParallelToZ = true := by
  rw [SurfaceType.isZCylinder, Bool.and_eq_true] at h
  exact h.2

/-- the error of the path length is less than half of the path length -/
theorem arcError_small {om d rx ry δ t : ℝ} (ho : |om| ≤ 2 ^ 200) (hr : ArcRange om d rx ry δ t) : arcError om δ d rx ry t ≤ |t| / 2 := by
  have h1 := hr.turn
  rw [abs_mul] at h1
  have h2 : 1 / 2 ^ 40 ≤ 2 ^ 200 * |t| := h1.trans (mul_le_mul_of_nonneg_right ho (abs_nonneg t))
  have h3 : (1 : ℝ) / 2 ^ 500 ≤ |t| / 1000 := by
    rw [div_le_iff₀ (by positivity)] at h2
    rw [div_le_div_iff₀ (by positivity) (by positivity), one_mul]
    have e : (2 : ℝ) ^ 500 = 2 ^ 200 * 2 ^ 40 * 2 ^ 260 := by rw [← pow_add, ← pow_add]
    have e' : (1000 : ℝ) ≤ 2 ^ 260 := le_trans (by norm_num) (pow_le_pow_right₀ (a := (2 : ℝ)) (by norm_num) (show 10 ≤ 260 by norm_num))
    rw [e]
    calc (1000 : ℝ) ≤ 1 * 2 ^ 260 := by rw [one_mul]; exact e'
      _ ≤ 2 ^ 200 * |t| * 2 ^ 40 * 2 ^ 260 := mul_le_mul_of_nonneg_right h2 (by positivity)
      _ = _ := by ring
  have h4 := hr.far
  have h5 := hr.near
  have h6 := abs_nonneg rx
  have h7 := abs_nonneg ry
  have h8 := abs_nonneg d
  have h9 := abs_nonneg t
  unfold arcError
  generalize (1 : ℝ) / 2 ^ 500 = η at *
  clear h1 h2 hr
  split_ifs <;> norm_num at h4 ⊢ <;> linarith

/-- C136 in this notation -/
theorem arc_error (h : NearestF 53 1074 fl) (hl : IsLibm lm) (ha : IsAtan2 at2) {om tl ph d z rx ry rz δ t X Y : ℝ}
    (hR : HelixRange om tl ph d z rx ry rz 0) {x y w : ℝ → ℝ}
    (ht : Spec.IsTrack om tl ph (rx - d * Real.sin ph) (ry + d * Real.cos ph) (rz + z) x y w) (hph : |ph| ≤ Real.pi) (r : ArcRange om d rx ry δ t)
    (hX : |X - x t| ≤ δ) (hY : |Y - y t| ≤ δ) :
    ∃ S, Rnd.calculateSfromXY fl lm at2 (fin X) (fin Y) (hpR om tl ph d z) (V3.re rx ry rz) = fin S ∧ |S - t| ≤ arcError om δ d rx ry t := by
  have hRt : HelixRange om tl ph d z rx ry rz t :=
    ⟨hR.om_pos, hR.om, hR.tl, hR.ph, hR.d, hR.z, hR.rx, hR.ry, hR.rz, size_mono r.size (by norm_num)⟩
  have far := r.far
  have near := r.near
  have t0 := abs_nonneg t
  obtain ⟨S, s1, s2, s3⟩ := path_error h hl ha hRt ht hph r.turn r.turn' hX hY (by linarith) (by norm_num at far ⊢; linarith)
  refine ⟨S, s1, ?_⟩
  rw [arcError]
  split_ifs with c
  · exact s2 c
  · exact s3 (by linarith)

/-- the coordinate z at a computed path length -/
theorem arc_z (h : NearestF 53 1074 fl) (hl : IsLibm lm) {om tl ph d z rx ry rz E S t : ℝ} (hR : HelixRange om tl ph d z rx ry rz 0) {x y w : ℝ → ℝ}
    (ht : Spec.IsTrack om tl ph (rx - d * Real.sin ph) (ry + d * Real.cos ph) (rz + z) x y w) (size : |t| ≤ 2 ^ 199) (hS : |S - t| ≤ E)
    (hE : E ≤ |t| / 2) :
    ∃ Z, Rnd.calculateZfromS fl (fin S) (hpR om tl ph d z) (V3.re rx ry rz) = fin Z ∧
      |Z - w t| ≤ |tl| * E + (1 / 2 ^ 53 * (3 * |rz| + 3 * |z| + 6 * |t * tl|) + 1 / 2 ^ 500) := by
  have hom : om ≠ 0 := abs_pos.1 (lt_of_lt_of_le (by positivity) hR.om_pos)
  have S2 : |S| ≤ 2 * |t| := by
    have := abs_near (hS.trans hE)
    have := abs_nonneg t
    linarith
  have hRS : HelixRange om tl ph d z rx ry rz S := by
    refine ⟨hR.om_pos, hR.om, hR.tl, hR.ph, hR.d, hR.z, hR.rx, hR.ry, hR.rz, S2.trans ?_⟩
    rw [pow_succ (2 : ℝ) 199, mul_comm]
    exact mul_le_mul_of_nonneg_right size (by norm_num)
  obtain ⟨-, -, Z, -, -, c1, -, -, c2⟩ := C131_points h hl hRS ht
  have hw : w S - w t = (S - t) * tl := by
    obtain ⟨-, -, u3⟩ := ht.unique (isTrack_r (rx := rx) (ry := ry) (d := d) hom)
    rw [u3, rZ, rZ]
    ring
  have c4 : |w S - w t| ≤ |tl| * E := by
    rw [hw, abs_mul, mul_comm]
    exact mul_le_mul_of_nonneg_left hS (abs_nonneg tl)
  refine ⟨Z, c1, (near_trans c2 c4).trans ?_⟩
  have : 1 / 2 ^ 53 * (3 * |rz| + 3 * |z| + 3 * |S * tl|) ≤ 1 / 2 ^ 53 * (3 * |rz| + 3 * |z| + 6 * |t * tl|) := by
    refine mul_le_mul_of_nonneg_left ?_ (by positivity)
    have := mul_le_mul_of_nonneg_right S2 (abs_nonneg tl)
    rw [abs_mul, abs_mul]
    linarith
  generalize (1 : ℝ) / 2 ^ 500 = η at *
  linarith

/-- the tolerance contains all errors -/
theorem arcTolerance_le {om δ tl d z rx ry rz t : ℝ} (h0 : 0 ≤ δ) : 0 ≤ arcError om δ d rx ry t ∧ δ ≤ arcError om δ d rx ry t ∧
    arcError om δ d rx ry t ≤ arcTolerance om δ tl d z rx ry rz t ∧
    |tl| * arcError om δ d rx ry t + (1 / 2 ^ 53 * (3 * |rz| + 3 * |z| + 6 * |t * tl|) + 1 / 2 ^ 500) ≤ arcTolerance om δ tl d z rx ry rz t := by
  have T1 : δ ≤ arcError om δ d rx ry t := by
    have k1 : 0 ≤ 1 / 2 ^ 53 * (200 * |t| + 90 * |d| + 40 * |rx| + 40 * |ry|) + 1 / 2 ^ 500 := by positivity
    have k2 : 0 ≤ 1 / 2 ^ 53 * (3100 * |t| + 2100 * |d| + 900 * |rx| + 900 * |ry|) + 1 / 2 ^ 500 := by positivity
    rw [arcError]
    split_ifs <;> linarith
  have E0 : 0 ≤ arcError om δ d rx ry t := h0.trans T1
  refine ⟨E0, T1, ?_, ?_⟩
  · rw [arcTolerance]
    have : 0 ≤ 1 / 2 ^ 53 * (3 * |rz| + 3 * |z| + 6 * |t * tl|) + 1 / 2 ^ 500 := by positivity
    have := mul_nonneg (abs_nonneg tl) E0
    linarith
  · rw [arcTolerance]
    linarith

/-- the first of two crossings: the other one is behind, or ahead but further away than the errors -/
def First (e1 e0 t1 t0 : ℝ) : Prop := 0 < t1 ∧ (t0 < 0 ∨ t1 + e1 + e0 < t0)

/-- with the computed path lengths it is the first one, too -/
theorem First.computed {e1 e0 t1 t0 S S' : ℝ} (hf : First e1 e0 t1 t0) (h1 : |S - t1| ≤ e1) (h0 : |S' - t0| ≤ e0) (k1 : e1 ≤ |t1| / 2)
    (k0 : e0 ≤ |t0| / 2) : 0 < S ∧ (S' < 0 ∨ S < S') := by
  obtain ⟨p, q⟩ := hf
  have a1 := abs_le.1 h1
  have a0 := abs_le.1 h0
  rw [abs_of_pos p] at k1
  refine ⟨by linarith, ?_⟩
  rcases q with q | q
  · rw [abs_of_neg q] at k0
    exact .inl (by linarith)
  · exact .inr (by linarith)

/-- choice of the first of two points on a cylinder -/
theorem cylinder_first {S S' : ℝ} (h : 0 < S ∧ (S' < 0 ∨ S < S')) :
    Rnd.cylinderSelect fl 1 (fin S) (fin S') = some true ∧ Rnd.cylinderSelect fl 1 (fin S') (fin S) = some false := by
  obtain ⟨S0, q⟩ := h
  have hz : ∀ {r : ℝ}, (fin r < (0 : Dbl)) = (r < 0) := fun {r} => by rw [zero_eq, fin_lt]
  have hz' : ∀ {r : ℝ}, ((0 : Dbl) ≤ fin r) = (0 ≤ r) := fun {r} => by rw [zero_eq, fin_le]
  unfold Rnd.cylinderSelect
  simp only [hz, hz', fin_lt]
  rcases q with q | q
  · rw [cif_neg (show ¬ (S < 0 ∧ S' < 0) from fun k => by linarith [k.1]), cif_neg (show ¬ (S < 0 ∧ 0 ≤ S') from fun k => by linarith [k.1]),
      cif_pos (show 0 ≤ S ∧ S' < 0 from ⟨S0.le, q⟩), cif_neg (show ¬ (S' < 0 ∧ S < 0) from fun k => by linarith [k.2]),
      cif_pos (show S' < 0 ∧ 0 ≤ S from ⟨q, S0.le⟩)]
    exact ⟨rfl, rfl⟩
  · rw [cif_neg (show ¬ (S < 0 ∧ S' < 0) from fun k => by linarith [k.1]), cif_neg (show ¬ (S < 0 ∧ 0 ≤ S') from fun k => by linarith [k.1]),
      cif_neg (show ¬ (0 ≤ S ∧ S' < 0) from fun k => by linarith [k.2]), cif_neg (show ¬ (S' < 0 ∧ S < 0) from fun k => by linarith [k.2]),
      cif_neg (show ¬ (S' < 0 ∧ 0 ≤ S) from fun k => by linarith [k.1]), cif_neg (show ¬ (0 ≤ S' ∧ S < 0) from fun k => by linarith [k.2]),
      cif_pos (show S < S' from q), cif_neg (show ¬ S' < S from by linarith)]
    exact ⟨rfl, rfl⟩

/-- choice of the first of two points on a plane -/
theorem plane_first {S S' : ℝ} (h : 0 < S ∧ (S' < 0 ∨ S < S')) :
    planeSelect 1 (fin S) (fin S') = some true ∧ planeSelect 1 (fin S') (fin S) = some false := by
  obtain ⟨S0, q⟩ := h
  have hz : ∀ {r : ℝ}, (fin r < (0 : Dbl)) = (r < 0) := fun {r} => by rw [zero_eq, fin_lt]
  have hz' : ∀ {r : ℝ}, ((0 : Dbl) ≤ fin r) = (0 ≤ r) := fun {r} => by rw [zero_eq, fin_le]
  unfold planeSelect
  simp only [hz, hz', fin_lt]
  rcases q with q | q
  · rw [cif_neg (show ¬ (S < 0 ∧ S' < 0) from fun k => by linarith [k.1]), cif_neg (show ¬ (S < 0 ∧ 0 ≤ S') from fun k => by linarith [k.1]),
      cif_pos (show 0 ≤ S ∧ S' < 0 from ⟨S0.le, q⟩), cif_neg (show ¬ (S' < 0 ∧ S < 0) from fun k => by linarith [k.2]),
      cif_pos (show S' < 0 ∧ 0 ≤ S from ⟨q, S0.le⟩)]
    exact ⟨rfl, rfl⟩
  · rw [cif_neg (show ¬ (S < 0 ∧ S' < 0) from fun k => by linarith [k.1]), cif_neg (show ¬ (S < 0 ∧ 0 ≤ S') from fun k => by linarith [k.1]),
      cif_neg (show ¬ (0 ≤ S ∧ S' < 0) from fun k => by linarith [k.2]), cif_neg (show ¬ (S' < 0 ∧ S < 0) from fun k => by linarith [k.2]),
      cif_neg (show ¬ (S' < 0 ∧ 0 ≤ S) from fun k => by linarith [k.1]), cif_neg (show ¬ (0 ≤ S' ∧ S < 0) from fun k => by linarith [k.2]),
      cif_pos (show S < S' from q), cif_neg (show ¬ S' < S from by linarith)]
    exact ⟨rfl, rfl⟩

/-- C148, cylinders (partial): if the track crosses a cylinder at `t1` and at `t0`, and the crossing at `t1` is the first one ahead (both less than
almost half a turn away), this crossing is computed within the tolerance.  Missing: tracks that turn too little for C136 (`C148_false`). -/
theorem C148_cylinder_partial (h : NearestF 53 1074 fl) (hl : IsLibm lm) (ha2 : IsAtan2 at2) (has : IsAsin asn) {M om tl ph d z rx ry rz a b c rho : ℝ}
    (hr : CylRange M om ph d rx ry a b rho) (hR : HelixRange om tl ph d z rx ry rz 0) (hph : |ph| ≤ Real.pi)
    {surf : Surface} (hs : surf.cyl = some (fin rho, V3.re a b c)) (h1 : surf.type.isZCylinder = true)
    {x y w : ℝ → ℝ} (ht : Spec.IsTrack om tl ph (rx - d * Real.sin ph) (ry + d * Real.cos ph) (rz + z) x y w) {t0 t1 t2 t3 δ : ℝ}
    (hin : √((x t2 - a) ^ 2 + (y t2 - b) ^ 2) + 1 / 2 ^ 44 * (M * (1 + |om| * M)) ≤ rho)
    (hout : rho + 1 / 2 ^ 44 * (M * (1 + |om| * M)) ≤ √((x t3 - a) ^ 2 + (y t3 - b) ^ 2))
    (on0 : (x t0 - a) ^ 2 + (y t0 - b) ^ 2 = rho ^ 2) (on1 : (x t1 - a) ^ 2 + (y t1 - b) ^ 2 = rho ^ 2)
    (hδ : δ = cylPointError M om ph d rx ry a b rho) (r0 : ArcRange om d rx ry δ t0) (r1 : ArcRange om d rx ry δ t1)
    (hf : First (arcError om δ d rx ry t1) (arcError om δ d rx ry t0) t1 t0) :
    ComputedAt fl lm at2 asn atn (hpR om tl ph d z) (V3.re rx ry rz) x y w surf t1 (arcTolerance om δ tl d z rx ry rz t1) := by
  have h2 := parallel_of_zCylinder h1
  have hom : om ≠ 0 := abs_pos.1 (lt_of_lt_of_le (by positivity) hR.om_pos)
  have ρ0 : 0 ≤ rho := le_trans (mul_nonneg (by positivity) (le_trans (by positivity) hr.M1)) hr.hrho
  -- the two candidates
  obtain ⟨φ1, φ2, q1, q2, i1, i2, i3, i4, i5, i6⟩ := inside_outside hom ρ0 ht hin hout
  obtain ⟨hit, f1, f2⟩ := C141_found (tl := tl) (z := z) (rz := rz) h hl ha2 has hr hs h2 0 V3.zero hom i1 i2 i3 i4 i5 i6
  obtain ⟨X0, Y0, X1, Y1, hc⟩ : ∃ X0 Y0 X1 Y1, Rnd.cylinderCandidates fl lm at2 asn (fin rho) (V3.re a b c) (hpR om tl ph d z) (V3.re rx ry rz) =
      some ((X0, Y0), (X1, Y1)) := by
    cases hc : Rnd.cylinderCandidates fl lm at2 asn (fin rho) (V3.re a b c) (hpR om tl ph d z) (V3.re rx ry rz) with
    | none =>
      rw [Rnd.intersectWithZCylinder, hs] at f1
      simp only [h2, if_true, hc] at f1
      injection f1 with f1
      rw [← f1] at f2
      cases f2
    | some P => exact ⟨_, _, _, _, rfl⟩
  clear f1 f2 i1 i2 i3 i4 i5 i6 q1 q2 φ1 φ2 hit hin hout
  -- the point and the path length for a crossing
  have key : ∀ {t}, (x t - a) ^ 2 + (y t - b) ^ 2 = rho ^ 2 → ArcRange om d rx ry δ t → ∃ X Y S, ((fin X, fin Y) = (X0, Y0) ∨ (fin X, fin Y) = (X1, Y1)) ∧
      |X - x t| ≤ δ ∧ |Y - y t| ≤ δ ∧ Rnd.calculateSfromXY fl lm at2 (fin X) (fin Y) (hpR om tl ph d z) (V3.re rx ry rz) = fin S ∧
      |S - t| ≤ arcError om δ d rx ry t := by
    intro t on r
    obtain ⟨X, Y, p1, p2⟩ := C141_all h hl ha2 has hr hc ht on rfl
    have p2' : √((X - x t) ^ 2 + (Y - y t) ^ 2) ≤ δ := by rw [hδ]; exact p2
    have p3 : |X - x t| ≤ δ := (Real.abs_le_sqrt (le_add_of_nonneg_right (sq_nonneg _))).trans p2'
    have p4 : |Y - y t| ≤ δ := (Real.abs_le_sqrt (le_add_of_nonneg_left (sq_nonneg _))).trans p2'
    obtain ⟨S, s1, s2⟩ := arc_error h hl ha2 hR ht hph r p3 p4
    exact ⟨X, Y, S, p1, p3, p4, s1, s2⟩
  obtain ⟨X', Y', S', a1, -, -, a4, a5⟩ := key on0 r0
  obtain ⟨X, Y, S, b1, b2, b3, b4, b5⟩ := key on1 r1
  have b6 := arcError_small hR.om r1
  have first := hf.computed b5 a5 b6 (arcError_small hR.om r0)
  obtain ⟨sel, sel'⟩ := cylinder_first (fl := fl) first
  have ne : S ≠ S' := by
    rintro rfl
    rcases first.2 with q | q <;> linarith [first.1]
  obtain ⟨Z, c1, c2⟩ := arc_z h hl hR ht r1.size b5 b6
  obtain ⟨-, T1, T2, T3⟩ := arcTolerance_le (om := om) (tl := tl) (d := d) (z := z) (rx := rx) (ry := ry) (rz := rz) (t := t1) ((abs_nonneg _).trans b2)
  refine ⟨S, X, Y, Z, ?_, b5.trans T2, b2.trans (T1.trans T2), b3.trans (T1.trans T2), c2.trans T3⟩
  obtain ⟨D, -⟩ := C144_dispatch fl lm at2 asn atn surf (hpR om tl ph d z) (V3.re rx ry rz) 0 V3.zero 1 true
  rw [D h1, Rnd.intersectWithZCylinder, hs]
  simp only [h2, if_true, hc]
  rcases b1 with b1 | b1 <;> rcases a1 with a1 | a1 <;> obtain ⟨rfl, rfl⟩ := Prod.mk.inj b1 <;> obtain ⟨u, v⟩ := Prod.mk.inj a1
  · rw [u, v, b4] at a4
    injection a4 with a4
    exact absurd a4 ne
  · subst u v
    rw [a4, b4, sel, c1]
    rfl
  · subst u v
    rw [a4, b4, sel', c1]
    rfl
  · rw [u, v, b4] at a4
    injection a4 with a4
    exact absurd a4 ne

/-- distance of the computed points from the crossings with a plane (C143); `v` is the velocity along the normal -/
def planePointError (om L v : ℝ) : ℝ := 1 / 2 ^ 42 * (|om| * L ^ 2 / |v|)

/-- C148, planes parallel to z (partial): if the track crosses the plane at `t1` to one side and at `t0` to the other side, and the crossing at `t1` is
the first one ahead (both less than almost half a turn away), this crossing is computed within the tolerance.  Missing: tracks that turn too little for
C136, and planes with a normal to the side of the origin (C33_false). -/
theorem C148_plane_partial (h : NearestF 53 1074 fl) (hl : IsLibm lm) (ha2 : IsAtan2 at2) {M L om tl ph d z rx ry rz n0 n1 ox oy oz : ℝ}
    (hr : PlaneRange M d rx ry n0 n1 ox oy) (o1 : 1 / 2 ^ 90 ≤ |om|) (o2 : |om| ≤ 2 ^ 90) (eL : L = M + 1 / |om|)
    (hR : HelixRange om tl ph d z rx ry rz 0) (hph : |ph| ≤ Real.pi)
    {surf : Surface} (hn : surf.normal V3.zero = V3.re n0 n1 0) (ho : surf.origin = V3.re ox oy oz) (h1 : surf.type.isZCylinder = false)
    (h2 : surf.type.isZPlane = true)
    {x y w : ℝ → ℝ} (ht : Spec.IsTrack om tl ph (rx - d * Real.sin ph) (ry + d * Real.cos ph) (rz + z) x y w) {t0 t1 v0 v1 δ : ℝ}
    (on0 : n0 * (x t0 - ox) + n1 * (y t0 - oy) = 0) (on1 : n0 * (x t1 - ox) + n1 * (y t1 - oy) = 0)
    (hv0 : HasDerivAt (fun t => n0 * (x t - ox) + n1 * (y t - oy)) v0 t0) (hv1 : HasDerivAt (fun t => n0 * (x t - ox) + n1 * (y t - oy)) v1 t1)
    (hv : v0 * v1 < 0) (hc : 2 / 10 ^ 9 + 1 / 2 ^ 42 * L ^ 2 ≤ (v1 / om) ^ 2)
    (hδ : δ = planePointError om L v1) (r0 : ArcRange om d rx ry δ t0) (r1 : ArcRange om d rx ry δ t1)
    (hf : First (arcError om δ d rx ry t1) (arcError om δ d rx ry t0) t1 t0) :
    ComputedAt fl lm at2 asn atn (hpR om tl ph d z) (V3.re rx ry rz) x y w surf t1 (arcTolerance om δ tl d z rx ry rz t1) := by
  have om0 : om ≠ 0 := abs_pos.1 (lt_of_lt_of_le (by positivity) o1)
  obtain ⟨X1, Y1, X2, Y2, near, call⟩ := C143_all (at2 := at2) h hl hr o1 o2 eL hn ho ht on1 hv1 hc
  rw [planePointError] at hδ
  rw [← hδ] at near
  obtain ⟨p1, p2, -⟩ := near t1 v1 on1 hv1
  obtain ⟨q1, q2, -⟩ := near t0 v0 on0 hv0
  have b6 := arcError_small hR.om r1
  have a6 := arcError_small hR.om r0
  obtain ⟨D0, D, -⟩ := C144_dispatch fl lm at2 asn atn surf (hpR om tl ph d z) (V3.re rx ry rz) 0 V3.zero 1 true
  have hsign : (om * v1 < 0 ∧ 0 < om * v0) ∨ (0 < om * v1 ∧ om * v0 < 0) := by
    have n : (om * v0) * (om * v1) < 0 := by
      have : 0 < om ^ 2 := by positivity
      nlinarith
    rcases mul_neg_iff.1 n with ⟨k1, k2⟩ | ⟨k1, k2⟩
    · exact .inl ⟨k2, k1⟩
    · exact .inr ⟨k2, k1⟩
  have bo : ∀ p, boundsOk surf true p = surf.insideBounds p := fun p => by rw [boundsOk, if_pos rfl]
  rcases hsign with ⟨k1, k2⟩ | ⟨k1, k2⟩
  · obtain ⟨S, s1, s2⟩ := arc_error h hl ha2 hR ht hph r1 (p1 k1).1 (p1 k1).2
    obtain ⟨S', s1', s2'⟩ := arc_error h hl ha2 hR ht hph r0 (q2 k2).1 (q2 k2).2
    obtain ⟨Z, c1, c2⟩ := arc_z h hl hR ht r1.size s2 b6
    obtain ⟨-, T1, T2, T3⟩ := arcTolerance_le (om := om) (tl := tl) (d := d) (z := z) (rx := rx) (ry := ry) (rz := rz) (t := t1)
      ((abs_nonneg _).trans (p1 k1).1)
    obtain ⟨sel, -⟩ := plane_first (hf.computed s2 s2' b6 a6)
    refine ⟨S, X1, Y1, Z, ?_, s2.trans T2, (p1 k1).1.trans (T1.trans T2), (p1 k1).2.trans (T1.trans T2), c2.trans T3⟩
    rw [D h1 h2]
    rcases call _ _ _ _ s1.symm s1'.symm c1.symm rfl 0 V3.zero 1 true with ⟨e, -⟩ | ⟨-, e⟩ | ⟨e, -⟩
    · rw [sel] at e; cases e
    · rw [e, bo]; rfl
    · rw [sel] at e; cases e
  · obtain ⟨S, s1, s2⟩ := arc_error h hl ha2 hR ht hph r1 (p2 k1).1 (p2 k1).2
    obtain ⟨S', s1', s2'⟩ := arc_error h hl ha2 hR ht hph r0 (q1 k2).1 (q1 k2).2
    obtain ⟨Z, c1, c2⟩ := arc_z h hl hR ht r1.size s2 b6
    obtain ⟨-, T1, T2, T3⟩ := arcTolerance_le (om := om) (tl := tl) (d := d) (z := z) (rx := rx) (ry := ry) (rz := rz) (t := t1)
      ((abs_nonneg _).trans (p2 k1).1)
    obtain ⟨-, sel⟩ := plane_first (hf.computed s2 s2' b6 a6)
    refine ⟨S, X2, Y2, Z, ?_, s2.trans T2, (p2 k1).1.trans (T1.trans T2), (p2 k1).2.trans (T1.trans T2), c2.trans T3⟩
    rw [D h1 h2]
    rcases call _ _ _ _ s1'.symm s1.symm rfl c1.symm 0 V3.zero 1 true with ⟨e, -⟩ | ⟨e, -⟩ | ⟨-, e⟩
    · rw [sel] at e; cases e
    · rw [sel] at e; cases e
    · rw [e, bo]; rfl

/-- C148, planes that the track does not reach: no crossing is reported. -/
theorem C148_plane_missed (h : NearestF 53 1074 fl) (hl : IsLibm lm) {M L om tl ph d z rx ry rz n0 n1 ox oy oz : ℝ}
    (hr : PlaneRange M d rx ry n0 n1 ox oy) (o1 : 1 / 2 ^ 90 ≤ |om|) (o2 : |om| ≤ 2 ^ 90) (eL : L = M + 1 / |om|)
    {surf : Surface} (hn : surf.normal V3.zero = V3.re n0 n1 0) (ho : surf.origin = V3.re ox oy oz) (h1 : surf.type.isZCylinder = false)
    (h2 : surf.type.isZPlane = true)
    {x y w : ℝ → ℝ} (ht : Spec.IsTrack om tl ph (rx - d * Real.sin ph) (ry + d * Real.cos ph) (rz + z) x y w) {ε : ℝ}
    (hε : 2 / 10 ^ 9 + 1 / 2 ^ 42 * L ^ 2 ≤ ε / |om|) (hfar : ∀ t, ε ≤ |n0 * (x t - ox) + n1 * (y t - oy)|) :
    ComputedMiss fl lm at2 asn atn (hpR om tl ph d z) (V3.re rx ry rz) surf := by
  obtain ⟨-, D, -⟩ := C144_dispatch fl lm at2 asn atn surf (hpR om tl ph d z) (V3.re rx ry rz) 0 V3.zero 1 true
  exact ⟨_, (D h1 h2).trans (C143_none h hl hr o1 o2 eL hn ho 0 V3.zero 1 true ht hε hfar), rfl⟩

/-- C148, cylinders that the track does not reach: no crossing is reported. -/
theorem C148_missed (h : NearestF 53 1074 fl) (hl : IsLibm lm) (ha2 : IsAtan2 at2) (has : IsAsin asn) {M om tl ph d z rx ry rz a b c rho : ℝ}
    (hr : CylRange M om ph d rx ry a b rho)
    {surf : Surface} (hs : surf.cyl = some (fin rho, V3.re a b c)) (h1 : surf.type.isZCylinder = true)
    {x y w : ℝ → ℝ} (ht : Spec.IsTrack om tl ph (rx - d * Real.sin ph) (ry + d * Real.cos ph) (rz + z) x y w)
    (hfar : ∀ φ t, 1 / 2 ^ 44 * (M * (1 + |om| * M)) ≤ √((a + rho * Real.cos φ - x t) ^ 2 + (b + rho * Real.sin φ - y t) ^ 2)) :
    ComputedMiss fl lm at2 asn atn (hpR om tl ph d z) (V3.re rx ry rz) surf := by
  obtain ⟨D, -⟩ := C144_dispatch fl lm at2 asn atn surf (hpR om tl ph d z) (V3.re rx ry rz) 0 V3.zero 1 true
  exact ⟨_, (D h1).trans (C141_none h hl ha2 has hr hs (parallel_of_zCylinder h1) 0 V3.zero 1 true ht hfar), rfl⟩

/-- C148 for straight tracks: the limit for the path length is 0 and the list is empty, whatever the surfaces. -/
theorem C148_straight {sort : List (Dbl × Surface) → List (Dbl × Surface)} (hsort : IsStdSort Traj.sortWithS sort)
    (h : NearestF 53 1074 fl) {T : Traj} (hT : T.inters = []) {tl ph d z : ℝ} (hp : T.ref.hp = hpR 0 tl ph d z) (surfaces : List Surface)
    (hok : ∀ surf ∈ surfaces, ∃ hit, Rnd.intersectWithSurface fl lm at2 asn atn surf T.ref.hp T.ref.rp 0 V3.zero 1 true = .ok hit) :
    (Rnd.getIntersections fl lm at2 asn atn sort T surfaces).2 = .ok [] := by
  have em : Rnd.maxArc fl (hpR 0 tl ph d z) = fin 0 := by
    rw [Rnd.maxArc, Rnd.calculateRadius, calculateCurvature_hpR, cif_neg (by rw [zero_eq, fin_eqv]; simp), zero_eq, abs_fin, _root_.abs_zero, mulD,
      fin_mul, mul_zero, rnd_double h (by rw [_root_.abs_zero]; positivity), h.fix repF_zero]
  have hl : ∀ l, Rnd.intersectionLoop fl lm at2 asn atn T.ref (fin 0) l surfaces = (l, .ok ()) := by
    induction surfaces with
    | nil => intro l; rfl
    | cons surf rest ih =>
      intro l
      obtain ⟨hit, e⟩ := hok surf (by simp)
      rw [Rnd.intersectionLoop, e]
      simp only
      rw [cif_neg, ih (fun s hs => hok s (by simp [hs]))]
      rintro ⟨-, q1, q2⟩
      obtain ⟨f, s, xx⟩ := hit
      cases s with
      | fin r =>
        simp only [zero_eq, fin_le, fin_lt] at q1 q2
        linarith
      | inf n => cases n <;> simp [zero_eq] at q1 q2
      | nan => simp at q2
  have hst : stdSort sort Traj.sortWithS [] = .ok [] := by
    have hsw : StrictWeakOn Traj.sortWithS [] := strictWeakOn_key Traj.sortWithS (fun x => finVal x.1) [] (by simp)
    have e : stdSort sort Traj.sortWithS [] = .ok (sort []) := by unfold stdSort; rw [if_pos hsw]
    rw [e, (stdSort_ok hsort e).1.eq_nil]
  rw [Rnd.getIntersections, hp, em, hT, hl []]
  simp only [hst]

/-- distance of a track from its start at the origin -/
theorem track_chord {om tl ph z0 : ℝ} (ho : om ≠ 0) {x y w : ℝ → ℝ} (ht : Spec.IsTrack om tl ph 0 0 z0 x y w) (t : ℝ) :
    x t ^ 2 + y t ^ 2 = 2 * (1 / om) ^ 2 * (1 - Real.cos (t * om)) := by
  have tk := isTrack_r (om := om) (tl := tl) (ph := ph) (d := 0) (z := 0) (rx := 0) (ry := 0) (rz := z0) ho
  rw [zero_mul, zero_mul, sub_zero, add_zero, add_zero] at tk
  obtain ⟨e1, e2, -⟩ := ht.unique tk
  rw [e1, e2, rX, rY, Real.sin_sub, Real.cos_sub]
  have k1 := Real.sin_sq_add_cos_sq ph
  have k2 := Real.sin_sq_add_cos_sq (t * om)
  generalize Real.sin ph = s at *
  generalize Real.cos ph = c at *
  generalize Real.sin (t * om) = s' at *
  generalize Real.cos (t * om) = c' at *
  generalize 1 / om = R
  have e : s' ^ 2 = 1 - c' ^ 2 := by linarith
  have e' : s ^ 2 = 1 - c ^ 2 := by linarith
  linear_combination (R ^ 2 * ((1 - c') ^ 2 + s' ^ 2)) * k1 + R ^ 2 * k2

/-- C148 for stiff tracks: with correctly rounded library functions, for a track of radius 2^80 from the origin with azimuth 3/2 and a cylinder of
radius 30 around the origin, the list contains the cylinder at path length 0.  The track crosses the cylinder, but at a path length of at
least 30. -/
theorem C148_false (h : NearestF 53 1074 fl) (hc : CorrectLib fl lm at2) (has : IsAsin asn)
    {sort : List (Dbl × Surface) → List (Dbl × Surface)} (hsort : IsStdSort Traj.sortWithS sort) {T : Traj} (hT : T.inters = [])
    (hp : T.ref.hp = hpR (1 / 2 ^ 80) 0 (3 / 2) 0 0) (hq : T.ref.rp = V3.re 0 0 0) {surf : Surface} {c : ℝ} (hs : surf.cyl = some (fin 30, V3.re 0 0 c))
    (h1 : surf.type.isZCylinder = true) (hb : ∀ p, surf.insideBounds p = true) :
    (Rnd.getIntersections fl lm at2 asn atn sort T [surf]).2 = .ok [(0, surf)] ∧
    ∀ {x y w : ℝ → ℝ}, Spec.IsTrack (1 / 2 ^ 80) 0 (3 / 2) 0 0 0 x y w →
      (∃ t, 0 < t ∧ t < Real.pi * 2 ^ 80 ∧ x t ^ 2 + y t ^ 2 = 30 ^ 2) ∧ ∀ t, x t ^ 2 + y t ^ 2 = 30 ^ 2 → 30 ≤ |t| := by
  obtain ⟨hl, ha2⟩ := correctLib_libm h hc
  have h2 := parallel_of_zCylinder h1
  have o0 : (0 : ℝ) < 1 / 2 ^ 80 := by positivity
  have oa : |(1 : ℝ) / 2 ^ 80| = 1 / 2 ^ 80 := abs_of_pos o0
  constructor
  · have hr : CylRange 30 (1 / 2 ^ 80) (3 / 2) 0 0 0 0 0 30 := by
      refine ⟨?_, ?_, ?_, ?_, ?_, ?_, ?_, ?_, ?_, ?_, ?_⟩
      · norm_num
      · norm_num
      · rw [oa]; norm_num
      · norm_num
      · norm_num
      · norm_num
      · norm_num
      · norm_num
      · norm_num
      · norm_num
      · rw [oa]
        simp only [zero_mul, sub_zero, add_zero, mul_zero]
        rw [Real.sin_sq_add_cos_sq, Real.sqrt_one]
        norm_num
    have hph : RepF 53 1074 (3 / 2) := ⟨3, 1073, by norm_num, by
      rw [show (2 : ℝ) ^ 1074 = 2 ^ 1073 * 2 by rw [← pow_succ]]
      generalize (2 : ℝ) ^ 1073 = M
      push_cast
      ring⟩
    have tk : Spec.IsTrack (1 / 2 ^ 80) 0 (3 / 2) (0 - 0 * Real.sin (3 / 2)) (0 + 0 * Real.cos (3 / 2)) (0 + 0) _ _ _ := isTrack_r o0.ne'
    -- a crossing is reported at path length 0
    have stuck : ∀ {mode : ℤ} {cb : Bool} {hit : Hit}, Rnd.intersectWithZCylinder fl lm at2 asn surf (hpR (1 / 2 ^ 80) 0 (3 / 2) 0 0) (V3.re 0 0 0) 0 V3.zero mode cb = .ok hit →
        hit.found = true → hit.s = 0 := by
      intro mode cb hit e f
      obtain ⟨X, Y, t, -, -, k1, -, k2, -⟩ := C141_points h hl ha2 has hr hs e f tk
      rw [sub_zero, sub_zero] at k1
      have k3 : √(X ^ 2 + Y ^ 2) ≤ 31 := by
        have := (abs_le.1 k1).2
        norm_num at this ⊢
        linarith
      have kx : |X| ≤ 31 := (Real.abs_le_sqrt (le_add_of_nonneg_right (sq_nonneg _))).trans k3
      have ky : |Y| ≤ 31 := (Real.abs_le_sqrt (le_add_of_nonneg_left (sq_nonneg _))).trans k3
      have e4 : ∀ {a : ℝ}, |a| ≤ 2 ^ 5 → |a| ≤ 2 ^ 200 := fun h => size_mono h (by norm_num)
      rw [k2]
      refine C136_stuck h hc hph (by rw [abs_of_pos (by norm_num)]; norm_num) (by rw [abs_of_pos (by norm_num)]; norm_num) (e4 (by rw [oa]; norm_num)) (e4 (by norm_num))
        (e4 (by norm_num)) (e4 (by norm_num)) (e4 (by linarith)) (e4 (by linarith)) ?_
      rw [oa, _root_.abs_zero]
      have : (1 : ℝ) / 2 ^ 80 * 62 ≤ 1 / 2 ^ 66 := by norm_num
      refine le_trans (mul_le_mul_of_nonneg_left ?_ (by positivity)) this
      linarith
    obtain ⟨hit0, f1, f2⟩ := C141_found (tl := 0) (z := 0) (rz := 0) (φ1 := 3 / 2 - Real.pi / 2) (φ2 := 3 / 2 + Real.pi / 2) (r1 := 2 ^ 80 - 30)
      (r2 := 2 ^ 80 + 30) h hl ha2 has hr hs h2 0 V3.zero o0.ne' (by norm_num) (by norm_num)
      (by
        rw [Real.cos_sub_pi_div_two, Real.sin_sub_pi_div_two]
        have := Real.sin_sq_add_cos_sq (3 / 2)
        generalize Real.sin (3 / 2) = s at *
        generalize Real.cos (3 / 2) = c at *
        rw [show c = c from rfl]
        ring_nf
        have e : s ^ 2 = 1 - c ^ 2 := by linarith
        rw [e]
        ring)
      (by
        rw [Real.cos_add_pi_div_two, Real.sin_add_pi_div_two]
        have := Real.sin_sq_add_cos_sq (3 / 2)
        generalize Real.sin (3 / 2) = s at *
        generalize Real.cos (3 / 2) = c at *
        ring_nf
        have e : s ^ 2 = 1 - c ^ 2 := by linarith
        rw [e]
        ring)
      (by rw [oa]; norm_num) (by rw [oa]; norm_num)
    have found : ∃ xx, Rnd.intersectWithZCylinder fl lm at2 asn surf (hpR (1 / 2 ^ 80) 0 (3 / 2) 0 0) (V3.re 0 0 0) 0 V3.zero 1 true = .ok ⟨true, 0, xx⟩ := by
      cases hcand : Rnd.cylinderCandidates fl lm at2 asn (fin 30) (V3.re 0 0 c) (hpR (1 / 2 ^ 80) 0 (3 / 2) 0 0) (V3.re 0 0 0) with
      | none =>
        rw [Rnd.intersectWithZCylinder, hs] at f1
        simp only [h2, if_true, hcand] at f1
        injection f1 with f1
        rw [← f1] at f2
        cases f2
      | some P =>
        obtain ⟨⟨X0, Y0⟩, X1, Y1⟩ := P
        have st0 := stuck f1 f2
        have st1 := @stuck 1 true
        rw [Rnd.intersectWithZCylinder, hs] at f1 st1 ⊢
        simp only [h2, if_true, hcand] at f1 st1 ⊢
        generalize Rnd.calculateSfromXY fl lm at2 X0 Y0 (hpR (1 / 2 ^ 80) 0 (3 / 2) 0 0) (V3.re 0 0 0) = s0 at *
        generalize Rnd.calculateSfromXY fl lm at2 X1 Y1 (hpR (1 / 2 ^ 80) 0 (3 / 2) 0 0) (V3.re 0 0 0) = s1 at *
        cases hsel : Rnd.cylinderSelect fl 1 s0 s1 with
        | none =>
          have both : s0 < 0 ∧ s1 < 0 := by
            unfold Rnd.cylinderSelect at hsel
            by_contra hcon
            rw [cif_neg hcon] at hsel
            simp only [cif_eq] at hsel
            split_ifs at hsel <;> simp_all
          cases hs0 : Rnd.cylinderSelect fl 0 s0 s1 with
          | none => exact absurd hs0 (select_zero _ _)
          | some b =>
            rw [hs0] at f1
            have nn : ¬ (0 : Dbl) < 0 := by rw [zero_eq, fin_lt]; simp
            cases b
            · injection f1 with f1
              rw [← f1] at st0
              simp only at st0
              exact absurd (st0 ▸ both.2) nn
            · injection f1 with f1
              rw [← f1] at st0
              simp only at st0
              exact absurd (st0 ▸ both.1) nn
        | some b =>
          rw [hsel] at st1
          have hb' : ∀ p, boundsOk surf true p = true := fun p => by rw [boundsOk, if_pos rfl, hb]
          cases b
          · have := st1 rfl (hb' _)
            simp only [hb'] at this ⊢
            exact ⟨_, by rw [this]⟩
          · have := st1 rfl (hb' _)
            simp only [hb'] at this ⊢
            exact ⟨_, by rw [this]⟩
    obtain ⟨xx, found⟩ := found
    obtain ⟨D, -⟩ := C144_dispatch fl lm at2 asn atn surf (hpR (1 / 2 ^ 80) 0 (3 / 2) 0 0) (V3.re 0 0 0) 0 V3.zero 1 true
    obtain ⟨m, em, hm⟩ := maxArc_value (om := 1 / 2 ^ 80) (tl := 0) (ph := 3 / 2) (d := 0) (z := 0) h (by
      rw [oa]; exact one_div_le_one_div_of_le (by positivity) (pow_le_pow_right₀ (by norm_num) (by norm_num))) (by
      rw [oa]; exact le_trans (by norm_num : (1 : ℝ) / 2 ^ 80 ≤ 1) (one_le_pow₀ (by norm_num)))
    have m0 : 0 < m := by
      have := (abs_le.1 hm).1
      have q : 0 < Real.pi / |(1 : ℝ) / 2 ^ 80| := by rw [oa]; positivity
      generalize Real.pi / |(1 : ℝ) / 2 ^ 80| = r at *
      norm_num at this
      linarith
    have loop : Rnd.intersectionLoop fl lm at2 asn atn T.ref (fin m) [] [surf] = ([(0, surf)], .ok ()) := by
      rw [Rnd.intersectionLoop, hp, hq, D h1, found]
      simp only
      rw [cif_pos ⟨trivial, by rw [zero_eq, fin_le], by rw [zero_eq, fin_lt]; exact m0⟩]
      rfl
    have hst : stdSort sort Traj.sortWithS [(0, surf)] = .ok [(0, surf)] := by
      have hsw : StrictWeakOn Traj.sortWithS [((0 : Dbl), surf)] := by
        refine strictWeakOn_key Traj.sortWithS (fun x => finVal x.1) _ ?_
        intro a ha b hb
        rw [List.mem_singleton] at ha hb
        subst ha hb
        simp only [Traj.sortWithS, zero_eq, fin_lt, finVal, lt_self_iff_false]
      have e : stdSort sort Traj.sortWithS [((0 : Dbl), surf)] = .ok (sort [(0, surf)]) := by unfold stdSort; rw [if_pos hsw]
      rw [e, List.perm_singleton.1 (stdSort_ok hsort e).1]
    rw [Rnd.getIntersections, hp, em, hT, loop]
    simp only [hst]
  · intro x y w ht
    have hd : ∀ t, x t ^ 2 + y t ^ 2 = 2 * (2 ^ 80) ^ 2 * (1 - Real.cos (t * (1 / 2 ^ 80))) := fun t => by
      rw [track_chord o0.ne' ht t, one_div_one_div]
    refine ⟨⟨2 ^ 80 * Real.arccos (1 - 900 / (2 * (2 ^ 80) ^ 2)), ?_, ?_, ?_⟩, fun t e => ?_⟩
    · have := Real.arccos_pos.2 (show (1 : ℝ) - 900 / (2 * (2 ^ 80) ^ 2) < 1 by norm_num)
      positivity
    · rw [mul_comm]
      refine mul_lt_mul_of_pos_right (lt_of_le_of_ne (Real.arccos_le_pi _) ?_) (by positivity)
      rw [Ne, Real.arccos_eq_pi]
      norm_num
    · rw [hd, show (2 : ℝ) ^ 80 * Real.arccos (1 - 900 / (2 * (2 ^ 80) ^ 2)) * (1 / 2 ^ 80) = Real.arccos (1 - 900 / (2 * (2 ^ 80) ^ 2)) by
        generalize Real.arccos (1 - 900 / (2 * (2 ^ 80) ^ 2)) = u; ring, Real.cos_arccos (by norm_num) (by norm_num)]
      norm_num
    · rw [hd] at e
      have k := Real.one_sub_sq_div_two_le_cos (x := t * (1 / 2 ^ 80))
      have : (30 : ℝ) ^ 2 ≤ t ^ 2 := by
        rw [← e]
        calc 2 * (2 ^ 80) ^ 2 * (1 - Real.cos (t * (1 / 2 ^ 80))) ≤ 2 * (2 ^ 80) ^ 2 * ((t * (1 / 2 ^ 80)) ^ 2 / 2) :=
              mul_le_mul_of_nonneg_left (by linarith) (by positivity)
          _ = t ^ 2 := by ring
      have := sq_le_sq.1 this
      rwa [abs_of_pos (by norm_num : (0 : ℝ) < 30)] at this

theorem ComputedAt.mono {hp : V5} {rp : V3} {x y w : ℝ → ℝ} {surf : Surface} {t e e' : ℝ}
    (h : ComputedAt fl lm at2 asn atn hp rp x y w surf t e) (he : e ≤ e') : ComputedAt fl lm at2 asn atn hp rp x y w surf t e' := by
  obtain ⟨S, X, Y, Z, h1, h2, h3, h4, h5⟩ := h
  exact ⟨S, X, Y, Z, h1, h2.trans he, h3.trans he, h4.trans he, h5.trans he⟩

/-- a cylinder of radius 30 around the z axis -/
def Example.tube30 : Surface :=
  { Example.disk with
    type := fun i => decide (i = 0 ∨ i = 4)
    cyl := some (fin 30, V3.re 0 0 0) }

/-- C148, concrete case: a track of radius 100 from the origin with slope 1, a cylinder of radius 30 around the z axis and a disk at z = 1.  The
list has the disk at path length 1 and the cylinder at path length 100 arccos(0.955) ≈ 30.1. -/
example (h : NearestF 53 1074 fl) (hl : IsLibm lm) (ha2 : IsAtan2 at2) (has : IsAsin asn) {sort : List (Dbl × Surface) → List (Dbl × Surface)}
    (hsort : IsStdSort Traj.sortWithS sort) : ∃ S S',
    (Rnd.getIntersections fl lm at2 asn atn sort (Traj.make ⟨M5.zero, hpR (1 / 100) 1 0 0 0, V3.re 0 0 0⟩) [Example.tube30, Example.disk]).2 =
      .ok [(fin S, Example.disk), (fin S', Example.tube30)] ∧ |S - 1| ≤ 1 / 1000 ∧ |S' - 100 * Real.arccos (191 / 200)| ≤ 1 / 200 := by
  have om0 : ((1 : ℝ) / 100) ≠ 0 := by norm_num
  have oa : |(1 : ℝ) / 100| = 1 / 100 := abs_of_pos (by norm_num)
  have tk := isTrack_r (om := 1 / 100) (tl := 1) (ph := 0) (d := 0) (z := 0) (rx := 0) (ry := 0) (rz := 0) om0
  have tk' := tk
  rw [zero_mul, zero_mul, sub_zero, add_zero] at tk'
  obtain ⟨u, hu⟩ : ∃ u, u = Real.arccos (191 / 200) := ⟨_, rfl⟩
  have cu : Real.cos u = 191 / 200 := by rw [hu, Real.cos_arccos (by norm_num) (by norm_num)]
  have u0 : 0 < u := by rw [hu]; exact Real.arccos_pos.2 (by norm_num)
  have u3 : 3 / 10 ≤ u := by
    have k := Real.one_sub_sq_div_two_le_cos (x := u)
    rw [cu] at k
    by_contra hc
    push Not at hc
    nlinarith
  have u1 : u ≤ 1 := by
    by_contra hc
    push Not at hc
    have k := Real.cos_lt_cos_of_nonneg_of_le_pi (by norm_num) (hu ▸ Real.arccos_le_pi _) hc
    linarith [Real.cos_one_le]
  have chord := track_chord om0 tk'
  have one : √((Real.sin 0 - 1 / 100 * (0 - (0 - 0 * Real.sin 0))) ^ 2 + (Real.cos 0 + 1 / 100 * (0 - (0 + 0 * Real.cos 0))) ^ 2) = 1 := by
    rw [Real.sin_zero, Real.cos_zero]
    norm_num
  have eδ : cylPointError 30 (1 / 100) 0 0 0 0 0 0 30 ≤ 1 / 2 ^ 20 * 35 := by
    rw [cylPointError, one, oa]
    refine mul_le_mul_of_nonneg_left ?_ (by positivity)
    rw [Real.sqrt_le_left (by norm_num)]
    norm_num
  have e4 : ∀ {a : ℝ}, |a| ≤ 2 ^ 7 → |a| ≤ 2 ^ 200 := fun h => size_mono h (by norm_num)
  have oP : 1 / 2 ^ 500 ≤ |(1 : ℝ) / 100| := by
    rw [oa]
    refine one_div_le_one_div_of_le (by norm_num) ?_
    calc (100 : ℝ) ≤ 2 ^ 7 := by norm_num
      _ ≤ 2 ^ 500 := pow_le_pow_right₀ (by norm_num) (by norm_num)
  have hR : ∀ {s : ℝ}, |s| ≤ 2 ^ 7 → HelixRange (1 / 100) 1 0 0 0 0 0 0 s := fun hs =>
    ⟨oP, e4 (by rw [oa]; norm_num), e4 (by norm_num), e4 (by norm_num), e4 (by norm_num), e4 (by norm_num), e4 (by norm_num), e4 (by norm_num),
      e4 (by norm_num), e4 hs⟩
  have hr : CylRange 30 (1 / 100) 0 0 0 0 0 0 30 := by
    refine ⟨?_, ?_, ?_, ?_, ?_, ?_, ?_, ?_, ?_, ?_, ?_⟩
    · norm_num
    · norm_num
    · rw [oa]; norm_num
    · norm_num
    · norm_num
    · norm_num
    · norm_num
    · norm_num
    · norm_num
    · norm_num
    · rw [oa, one]; norm_num
  have ar : ∀ t : ℝ, |t| = 100 * u → ArcRange (1 / 100) 0 0 0 (cylPointError 30 (1 / 100) 0 0 0 0 0 0 30) t := by
    intro t e
    refine ⟨?_, ?_, ?_, ?_, ?_⟩
    · rw [abs_mul, oa, e]; norm_num; linarith
    · rw [abs_mul, oa, e]; linarith
    · refine le_trans ?_ (pow_le_pow_right₀ (a := (2 : ℝ)) (by norm_num) (show 7 ≤ 199 by norm_num))
      rw [e]; norm_num; linarith
    · rw [e, _root_.abs_zero]; norm_num; linarith
    · rw [e]
      refine eδ.trans ?_
      norm_num
      linarith
  have cu' : ∀ {t : ℝ}, Real.cos t = 191 / 200 → 2 * (1 / (1 / 100 : ℝ)) ^ 2 * (1 - Real.cos t) = 30 ^ 2 := fun {t} e => by rw [e]; norm_num
  have c1 := C148_cylinder_partial (atn := atn) (surf := Example.tube30) (tl := 1) (z := 0) (rz := 0) (c := 0) (t0 := -(100 * u)) (t1 := 100 * u)
    (t2 := 0) (t3 := 100 * (Real.pi / 2)) h hl ha2 has hr (hR (by norm_num)) (by rw [_root_.abs_zero]; exact Real.pi_pos.le) rfl (by decide) tk
    (by rw [sub_zero, sub_zero, chord, zero_mul, Real.cos_zero, oa]; norm_num)
    (by
      rw [sub_zero, sub_zero, chord, show 100 * (Real.pi / 2) * (1 / 100) = Real.pi / 2 by ring, Real.cos_pi_div_two, oa]
      refine Real.le_sqrt_of_sq_le ?_
      norm_num)
    (by
      rw [sub_zero, sub_zero, chord, show -(100 * u) * (1 / 100) = -u by ring]
      exact cu' (by rw [Real.cos_neg, cu]))
    (by
      rw [sub_zero, sub_zero, chord, show 100 * u * (1 / 100) = u by ring]
      exact cu' cu)
    rfl (ar _ (by rw [abs_neg, abs_of_pos (by linarith)])) (ar _ (abs_of_pos (by linarith))) ⟨by linarith, .inl (by linarith)⟩
  have c2 := c1.mono (e' := 1 / 200) (by
    rw [arcTolerance, arcError, if_pos (by rw [abs_mul, oa, abs_of_pos (by linarith)]; linarith), abs_of_pos (by linarith : 0 < 100 * u), mul_one, abs_of_pos (by linarith : 0 < 100 * u), abs_one, _root_.abs_zero]
    generalize cylPointError 30 (1 / 100) 0 0 0 0 0 0 30 = δ at *
    have : (1 : ℝ) / 2 ^ 500 ≤ 1 / 2 ^ 20 := one_div_le_one_div_of_le (by positivity) (pow_le_pow_right₀ (by norm_num) (by norm_num))
    generalize (1 : ℝ) / 2 ^ 500 = η at *
    clear * - eδ this u1
    norm_num at *
    linarith)
  have d1 := C148_disk (at2 := at2) (asn := asn) (atn := atn) (surf := Example.disk) (t := 1) (ox := 0) (oy := 0) h hl (hR (s := 1) (by norm_num)) (by norm_num) rfl
    (by decide) (by decide) (by decide) tk (by rw [rZ]; norm_num) (by
      rw [diskArcError, abs_one, add_zero, _root_.abs_zero]
      have : (1 : ℝ) / 2 ^ 500 ≤ 1 / 2 ^ 20 := one_div_le_one_div_of_le (by positivity) (pow_le_pow_right₀ (by norm_num) (by norm_num))
      generalize (1 : ℝ) / 2 ^ 500 = η at *
      norm_num at *
      linarith)
  have d2 := d1.mono (e' := 1 / 1000) (by
    rw [diskTolerance, diskArcError, abs_one, add_zero, _root_.abs_zero, mul_one (1 / 100 : ℝ), oa]
    have : (1 : ℝ) / 2 ^ 500 ≤ 1 / 2 ^ 20 := one_div_le_one_div_of_le (by positivity) (pow_le_pow_right₀ (by norm_num) (by norm_num))
    generalize (1 : ℝ) / 2 ^ 500 = η at *
    norm_num at *
    linarith)
  have pi3 := Real.pi_gt_three
  have lim : ∀ {r : ℝ}, r < 101 → r < (1 - 1 / 2 ^ 50) * (Real.pi / |(1 : ℝ) / 100|) := by
    intro r hr
    rw [oa]
    norm_num
    linarith
  obtain ⟨T', l, A, g1, -, g2, g3, g4⟩ := C148_list_partial (lm := lm) (at2 := at2) (asn := asn) (atn := atn) (x := rX (1 / 100) 0 0 0) (y := rY (1 / 100) 0 0 0)
    (w := rZ 1 0 0) h hsort (T := Traj.make ⟨M5.zero, hpR (1 / 100) 1 0 0 0, V3.re 0 0 0⟩) rfl rfl oP (e4 (by rw [oa]; norm_num))
    [⟨Example.tube30, some (100 * u, 1 / 200)⟩, ⟨Example.disk, some (1, 1 / 1000)⟩]
    (by
      intro c hc
      rcases List.mem_cons.1 hc with rfl | hc
      · intro q; cases q
      · rw [List.mem_singleton] at hc
        subst hc
        intro q; cases q)
    (by
      intro c hc t e
      rcases List.mem_cons.1 hc with rfl | hc
      · intro q
        obtain ⟨rfl, rfl⟩ := Prod.mk.inj (Option.some.inj q)
        exact ⟨c2, fun _ _ _ _ _ _ => rfl, by linarith, lim (by linarith)⟩
      · rw [List.mem_singleton] at hc
        subst hc
        intro q
        obtain ⟨rfl, rfl⟩ := Prod.mk.inj (Option.some.inj q)
        exact ⟨d2, fun _ _ _ _ _ _ => rfl, by norm_num, lim (by norm_num)⟩)
    (by
      simp only [List.filterMap_cons, List.filterMap_nil, Planned.listed, Example.tube30, Example.disk, Example.diskB, if_true]
      rw [List.pairwise_pair]
      simp only
      rw [abs_of_pos (by linarith)]
      linarith)
  have hA : [(⟨Example.tube30, some (100 * u, 1 / 200)⟩ : Planned), ⟨Example.disk, some (1, 1 / 1000)⟩].filterMap
      (Planned.listed (rX (1 / 100) 0 0 0) (rY (1 / 100) 0 0 0) (rZ 1 0 0)) = [(Example.tube30, 100 * u, 1 / 200), (Example.disk, 1, 1 / 1000)] := rfl
  rw [hA] at g2
  have hA' : A = [(Example.disk, 1, 1 / 1000), (Example.tube30, 100 * u, 1 / 200)] := by
    rcases List.perm_pair.1 g2 with e | e
    · rw [e, List.pairwise_pair] at g3
      simp only at g3
      linarith
    · exact e
  subst hA'
  rw [List.forall₂_cons_left_iff] at g4
  obtain ⟨⟨s, f⟩, l1, ⟨rfl, S, rfl, k1⟩, g4, rfl⟩ := g4
  rw [List.forall₂_cons_left_iff] at g4
  obtain ⟨⟨s, f⟩, l1, ⟨rfl, S', rfl, k2⟩, g4, rfl⟩ := g4
  cases g4
  refine ⟨S, S', ?_, k1, hu ▸ k2⟩
  have : [(⟨Example.tube30, some (100 * u, 1 / 200)⟩ : Planned), ⟨Example.disk, some (1, 1 / 1000)⟩].map Planned.surf = [Example.tube30, Example.disk] := rfl
  rw [this] at g1
  rw [g1]

/-- the plane x = 30 -/
def Example.plane30 : Surface :=
  { Example.disk with
    type := fun i => decide (i = 1 ∨ i = 4)
    normal := fun _ => V3.re 1 0 0
    origin := V3.re 30 0 0 }

/-- C148_plane_partial, concrete case: a track of radius 100 from the origin crosses the plane x = 30 at 100 arcsin(0.3) ≈ 30.5 and at 283.7; the first
crossing is computed within 10^-6. -/
example (h : NearestF 53 1074 fl) (hl : IsLibm lm) (ha2 : IsAtan2 at2) :
    ComputedAt fl lm at2 asn atn (hpR (1 / 100) 1 0 0 0) (V3.re 0 0 0) (rX (1 / 100) 0 0 0) (rY (1 / 100) 0 0 0) (rZ 1 0 0) Example.plane30
      (100 * Real.arcsin (3 / 10)) (1 / 10 ^ 6) := by
  have om0 : ((1 : ℝ) / 100) ≠ 0 := by norm_num
  have oa : |(1 : ℝ) / 100| = 1 / 100 := abs_of_pos (by norm_num)
  have tk := isTrack_r (om := 1 / 100) (tl := 1) (ph := 0) (d := 0) (z := 0) (rx := 0) (ry := 0) (rz := 0) om0
  obtain ⟨u, hu⟩ : ∃ u, u = Real.arcsin (3 / 10) := ⟨_, rfl⟩
  rw [← hu]
  have su : Real.sin u = 3 / 10 := by rw [hu, Real.sin_arcsin (by norm_num) (by norm_num)]
  have u2 : u ≤ Real.pi / 2 := hu ▸ Real.arcsin_le_pi_div_two _
  have u0 : 0 < u := by rw [hu]; exact Real.arcsin_pos.2 (by norm_num)
  have u3 : 3 / 10 ≤ u := by rw [← su]; exact Real.sin_le u0.le
  have p2 := Real.pi_lt_d2
  have p1 := Real.pi_gt_d2
  have u4 : u ≤ 1 / 2 := by
    have := Real.mul_le_sin u0.le u2
    rw [su, div_mul_eq_mul_div, div_le_iff₀ Real.pi_pos] at this
    linarith
  have cu : Real.cos u ^ 2 = 91 / 100 := by
    have := Real.sin_sq_add_cos_sq u
    rw [su] at this
    linarith
  have cp : 0 < Real.cos u := Real.cos_pos_of_mem_Ioo ⟨by linarith, by linarith⟩
  have c9 : 9 / 10 ≤ Real.cos u := by nlinarith
  have hx : ∀ t, rX (1 / 100) 0 0 0 t = 100 * Real.sin (t / 100) := fun t => by
    rw [rX, show (0 : ℝ) - t * (1 / 100) = -(t / 100) by ring, Real.sin_neg, Real.sin_zero]
    ring
  have hd : ∀ t, HasDerivAt (fun t => 1 * (rX (1 / 100) 0 0 0 t - 30) + 0 * (rY (1 / 100) 0 0 0 t - 0)) (Real.cos (t / 100)) t := by
    intro t
    have k1 := tk.vel_x t
    have k2 := tk.vel_y t
    have k := ((k1.sub_const 30).const_mul 1).add ((k2.sub_const 0).const_mul 0)
    have e : 1 * Real.cos (0 - 1 / 100 * t) + 0 * Real.sin (0 - 1 / 100 * t) = Real.cos (t / 100) := by
      rw [one_mul, zero_mul, add_zero, ← Real.cos_neg]
      congr 1
      ring
    rw [e] at k
    exact k
  have eL : (130 : ℝ) = 30 + 1 / |(1 : ℝ) / 100| := by rw [oa]; norm_num
  have e4 : ∀ {a : ℝ}, |a| ≤ 2 ^ 9 → |a| ≤ 2 ^ 200 := fun h => size_mono h (by norm_num)
  have hR : HelixRange (1 / 100) 1 0 0 0 0 0 0 0 := by
    refine ⟨?_, e4 (by rw [oa]; norm_num), e4 (by norm_num), e4 (by norm_num), e4 (by norm_num), e4 (by norm_num), e4 (by norm_num), e4 (by norm_num),
      e4 (by norm_num), e4 (by norm_num)⟩
    rw [oa]
    refine one_div_le_one_div_of_le (by norm_num) ?_
    calc (100 : ℝ) ≤ 2 ^ 7 := by norm_num
      _ ≤ 2 ^ 500 := pow_le_pow_right₀ (by norm_num) (by norm_num)
  obtain ⟨δ, hδ⟩ : ∃ δ, δ = planePointError (1 / 100) 130 (Real.cos u) := ⟨_, rfl⟩
  have eδ : δ ≤ 1 / 2 ^ 42 * 200 := by
    rw [hδ, planePointError, oa, abs_of_pos cp]
    refine mul_le_mul_of_nonneg_left ?_ (by positivity)
    rw [div_le_iff₀ cp]
    linarith
  have ar : ∀ {t : ℝ}, 30 ≤ t → t ≤ 300 → ArcRange (1 / 100) 0 0 0 δ t := by
    intro t k1 k2
    have e : |t| = t := abs_of_pos (by linarith)
    refine ⟨?_, ?_, ?_, ?_, ?_⟩
    · rw [abs_mul, oa, e]; norm_num; linarith
    · rw [abs_mul, oa, e]; linarith
    · refine le_trans ?_ (pow_le_pow_right₀ (a := (2 : ℝ)) (by norm_num) (show 9 ≤ 199 by norm_num))
      rw [e]; norm_num; linarith
    · rw [e, _root_.abs_zero]; norm_num; linarith
    · rw [e]
      refine eδ.trans ?_
      norm_num
      linarith
  have tiny : (1 : ℝ) / 2 ^ 500 ≤ 1 / 2 ^ 40 := one_div_le_one_div_of_le (by positivity) (pow_le_pow_right₀ (by norm_num) (by norm_num))
  have small : ∀ {t : ℝ}, 30 ≤ t → t ≤ 300 → arcError (1 / 100) δ 0 0 0 t ≤ 1 / 10 ^ 6 / 4 := by
    intro t k1 k2
    rw [arcError, abs_of_pos (show 0 < t by linarith), _root_.abs_zero]
    generalize (1 : ℝ) / 2 ^ 500 = η at *
    clear * - eδ k1 k2 tiny
    split_ifs <;> norm_num at * <;> linarith
  have e1 : (100 * u) / 100 = u := by ring
  have e0 : (100 * (Real.pi - u)) / 100 = Real.pi - u := by ring
  have s1 := small (t := 100 * u) (by linarith) (by linarith)
  have s0 := small (t := 100 * (Real.pi - u)) (by linarith) (by linarith)
  have d1 := hd (100 * u)
  have d0 := hd (100 * (Real.pi - u))
  rw [e1] at d1
  rw [e0, Real.cos_pi_sub] at d0
  refine (C148_plane_partial (M := 30) (n0 := 1) (n1 := 0) (ox := 30) (oy := 0) (oz := 0) (t0 := 100 * (Real.pi - u)) h hl ha2
    ⟨by norm_num, by norm_num, by norm_num, by norm_num, by norm_num, by norm_num, by norm_num, by norm_num, by norm_num, by norm_num⟩
    (by rw [oa]; norm_num) (by rw [oa]; norm_num) eL hR (by rw [_root_.abs_zero]; exact Real.pi_pos.le) rfl rfl (by decide) (by decide) tk
    ?_ ?_ d0 d1 ?_ ?_ hδ (ar (by linarith) (by linarith)) (ar (by linarith) (by linarith)) ⟨by linarith, .inr ?_⟩).mono ?_
  · rw [hx, e0, Real.sin_pi_sub, su]; norm_num
  · rw [hx, e1, su]; norm_num
  · nlinarith
  · rw [div_pow, cu]; norm_num
  · norm_num at s1 s0
    linarith
  · rw [arcTolerance, abs_one, _root_.abs_zero, mul_one, abs_of_pos (by linarith)]
    generalize (1 : ℝ) / 2 ^ 500 = η at *
    generalize arcError (1 / 100) δ 0 0 0 (100 * u) = e at *
    clear * - s1 tiny u4
    norm_num at *
    linarith

end Verif
