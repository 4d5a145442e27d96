import Verif.Props.RoundedBarrel

/-!
# C172: the program intersection_calculator in double precision, detectors of disks and cylinders
-/

open Classical

noncomputable section

namespace Verif

open Dbl Rnd Spec SmallPrograms

variable {fl : ℝ → ℝ} {lm : Libm} {at2 : ℝ → ℝ → ℝ} {asn atn : ℝ → ℝ}

/-- the track crosses the disk or the cylinder around the z axis, within its bounds, at path length `t` in the first half turn -/
def CrossesPart (x y w : ℝ → ℝ) (surf : Surface) (t : ℝ) : Prop :=
  surf.type.isZCylinder = false ∧ CrossesDisk x y w surf t ∨
    ∃ rho c, surf.type.isZCylinder = true ∧ surf.cyl = some (fin rho, V3.re 0 0 c) ∧ CrossesLayer x y w (surf, rho) t

/-- an entry of the list for a crossing: the path length is right up to 0.1 mm, and for disks up to 5 units of 2^-53 -/
def PartEntry (x y w : ℝ → ℝ) (e : Dbl × Surface) : Prop :=
  ∃ S t, e.1 = fin S ∧ CrossesPart x y w e.2 t ∧ |S - t| ≤ 1 / 100 ∧ (e.2.type.isZCylinder = false → |S - t| ≤ 5 / 2 ^ 53 * t)

namespace Rnd

/-- the loop, one surface after the other -/
theorem loop_cons {ref : TP} {m : Dbl} {l l' : List (Dbl × Surface)} {surf : Surface} (rest : List Surface)
    (h : Rnd.intersectionLoop fl lm at2 asn atn ref m l [surf] = (l', .ok ())) :
    Rnd.intersectionLoop fl lm at2 asn atn ref m l (surf :: rest) = Rnd.intersectionLoop fl lm at2 asn atn ref m l' rest := by
  rw [Rnd.intersectionLoop] at h ⊢
  cases e : Rnd.intersectWithSurface fl lm at2 asn atn surf ref.hp ref.rp 0 V3.zero 1 true with
  | ok hit =>
    rw [e] at h
    simp only [Rnd.intersectionLoop] at h
    dsimp only
    by_cases c : hit.found = true ∧ 0 ≤ hit.s ∧ hit.s < m
    · rw [cif_pos c] at h ⊢
      rw [(Prod.mk.inj h).1]
    · rw [cif_neg c] at h ⊢
      rw [(Prod.mk.inj h).1]
  | _ =>
    rw [e] at h
    cases (Prod.mk.inj h).2

/-- one cylinder -/
theorem layer_step (h : NearestF 53 1074 fl) (hl : IsLibm lm) (ha2 : IsAtan2 at2) (has : IsAsin asn) {x y w : ℝ → ℝ} (ht : CalcHelix x y w) {m : ℝ}
    (hm : |m - Real.pi / 0.23| ≤ 2 / 10 ^ 14) {surf : Surface} {rho : ℝ} (hs : Layer x y w (surf, rho)) (l : List (Dbl × Surface)) :
    ∃ l', Rnd.intersectionLoop fl lm at2 asn atn (Rnd.calcTrack fl) (fin m) l [surf] = (l ++ l', .ok ()) ∧
      l'.map Prod.snd = [surf].filter (fun surf => decide (∃ t, CrossesPart x y w surf t)) ∧ ∀ e ∈ l', PartEntry x y w e := by
  have o0 : (0 : ℝ) < 0.23 := by norm_num
  have rad := layer_radius o0 ht
  have p1 := Real.pi_gt_d2
  obtain ⟨c, hsh⟩ := hs.shape
  have hcyl := hs.cylinder
  simp only at hsh hcyl
  -- the crossing is unique
  have uniq : ∀ {t : ℝ}, 0 < rho → 0 < t → t < Real.pi / 0.23 → x t ^ 2 + y t ^ 2 = rho ^ 2 → t = layerArc 0.23 rho ∧ rho < 9 := by
    intro t r0 t0 t1 e
    rw [lt_div_iff₀ o0] at t1
    have s0 : 0 < Real.sin (0.23 / 2 * t) := Real.sin_pos_of_pos_of_lt_pi (by norm_num; linarith) (by norm_num at t1 ⊢; linarith)
    rw [rad] at e
    have e' : 2 / 0.23 * Real.sin (0.23 / 2 * t) = rho := (sq_eq_sq₀ (by positivity) r0.le).1 e
    constructor
    · have : 0.23 / 2 * rho = Real.sin (0.23 / 2 * t) := by rw [← e']; ring
      rw [layerArc, this, Real.arcsin_sin (by norm_num at t1 ⊢; linarith) (by norm_num at t1 ⊢; linarith)]
      ring
    · have := Real.sin_le_one (0.23 / 2 * t)
      rw [← e']
      norm_num at this ⊢
      linarith
  have part : ∀ t, CrossesPart x y w surf t ↔ CrossesLayer x y w (surf, rho) t := by
    intro t
    constructor
    · rintro (⟨q, -⟩ | ⟨rho', c', -, q, k⟩)
      · rw [hcyl] at q
        cases q
      · rw [hsh] at q
        have := congrArg Prod.fst (Option.some.inj q)
        simp only [fin_inj] at this
        rwa [this]
    · exact fun k => .inr ⟨rho, c, hcyl, hsh, k⟩
  have hm' := abs_le.1 hm
  rcases hs.radius with ⟨r1, r2⟩ | ⟨r1, r2⟩
  · simp only at r1 r2
    obtain ⟨l1, l2, l3, -⟩ := layerArc_facts (om := 0.23) (by norm_num) (by norm_num) r1 r2
    have g1 : 0 < layerArc 0.23 rho := by linarith
    have g2 : layerArc 0.23 rho < Real.pi / 0.23 := by
      rw [lt_div_iff₀ o0]
      linarith
    have g3 : x (layerArc 0.23 rho) ^ 2 + y (layerArc 0.23 rho) ^ 2 = rho ^ 2 := by
      rw [rad, l3]
      ring
    have lim : layerArc 0.23 rho + 1 / 100 < m := by
      norm_num at l2 hm' p1 ⊢
      linarith
    obtain ⟨l', i1, i2⟩ := loop_related (fl := fl) (lm := lm) (at2 := at2) (asn := asn) (atn := atn) (x := x) (y := y) (w := w) (Rnd.calcTrack fl) (m := m)
      [⟨surf, some (layerArc 0.23 rho, 1 / 100)⟩]
      (by
        intro c hc e
        rw [List.mem_singleton.1 hc] at e
        cases e)
      (by
        intro c hc t e he
        rw [List.mem_singleton.1 hc] at he ⊢
        obtain ⟨rfl, rfl⟩ := Prod.mk.inj (Option.some.inj he)
        exact ⟨layer_program h hl ha2 has ht r1 r2 hsh hcyl, hs.edge _ g1 g2 g3, by linarith, lim⟩) l
    refine ⟨l', i1, ?_⟩
    by_cases hin : surf.insideBounds (V3.re (x (layerArc 0.23 rho)) (y (layerArc 0.23 rho)) (w (layerArc 0.23 rho))) = true
    · have hx : CrossesPart x y w surf (layerArc 0.23 rho) := (part _).2 ⟨g1, g2, g3, hin⟩
      rw [List.filterMap_cons_some (b := (surf, layerArc 0.23 rho, 1 / 100)) (by simp only [Planned.listed, if_pos hin]), List.filterMap_nil,
        List.forall₂_cons_left_iff] at i2
      obtain ⟨⟨s, f⟩, l2, ⟨rfl, S, rfl, k⟩, i2, rfl⟩ := i2
      cases i2
      rw [List.filter_cons_of_pos (p := fun surf => decide (∃ t, CrossesPart x y w surf t)) (decide_eq_true ⟨_, hx⟩)]
      refine ⟨rfl, ?_⟩
      intro e he
      rw [List.mem_singleton.1 he]
      exact ⟨S, _, rfl, hx, k, fun q => by rw [hcyl] at q; cases q⟩
    · rw [List.filterMap_cons_none (by simp only [Planned.listed, if_neg hin]), List.filterMap_nil] at i2
      cases i2
      rw [List.filter_cons_of_neg (p := fun surf => decide (∃ t, CrossesPart x y w surf t))]
      · simp
      · simp only [decide_eq_true_eq, not_exists]
        intro t q
        obtain ⟨t0, t1, e, b⟩ := (part t).1 q
        rw [(uniq (by linarith) t0 t1 e).1] at b
        exact hin b
  · simp only at r1 r2
    obtain ⟨l', i1, i2⟩ := loop_related (fl := fl) (lm := lm) (at2 := at2) (asn := asn) (atn := atn) (x := x) (y := y) (w := w) (Rnd.calcTrack fl) (m := m)
      [⟨surf, none⟩]
      (by
        intro c hc e
        rw [List.mem_singleton.1 hc]
        exact layer_missed h hl ha2 has r1 r2 hsh hcyl)
      (by
        intro c hc t e he
        rw [List.mem_singleton.1 hc] at he
        cases he) l
    refine ⟨l', i1, ?_⟩
    rw [List.filterMap_cons_none (by simp only [Planned.listed]), List.filterMap_nil] at i2
    cases i2
    rw [List.filter_cons_of_neg (p := fun surf => decide (∃ t, CrossesPart x y w surf t))]
    · simp
    · simp only [decide_eq_true_eq, not_exists]
      intro t q
      obtain ⟨t0, t1, e, b⟩ := (part t).1 q
      exact absurd (uniq (by linarith) t0 t1 e).2 (by linarith)

/-- one disk -/
theorem disk_step (h : NearestF 53 1074 fl) (hl : IsLibm lm) {x y w : ℝ → ℝ} (ht : CalcHelix x y w) {m : ℝ} (hm : |m - Real.pi / 0.23| ≤ 2 / 10 ^ 14)
    {surf : Surface} {t : ℝ} (hs : ClearDisk x y w surf t) (l : List (Dbl × Surface)) :
    ∃ l', Rnd.intersectionLoop fl lm at2 asn atn (Rnd.calcTrack fl) (fin m) l [surf] = (l ++ l', .ok ()) ∧
      l'.map Prod.snd = [surf].filter (fun surf => decide (∃ t, CrossesPart x y w surf t)) ∧ ∀ e ∈ l', PartEntry x y w e := by
  have part : ∀ t, CrossesPart x y w surf t ↔ CrossesDisk x y w surf t := by
    intro t
    constructor
    · rintro (⟨-, k⟩ | ⟨rho', c', q, -⟩)
      · exact k
      · rw [hs.noCylinder] at q
        cases q
    · exact fun k => .inl ⟨hs.noCylinder, k⟩
  obtain ⟨l', i1, i2, i3⟩ := calc_loop (at2 := at2) (asn := asn) (atn := atn) h hl ht hm [surf] (fun s hs' => ⟨t, by rw [List.mem_singleton.1 hs']; exact hs⟩) l
  refine ⟨l', i1, ?_, ?_⟩
  · rw [i2]
    refine List.filter_congr fun s hs' => ?_
    rw [List.mem_singleton.1 hs']
    simp only [part]
  · intro e he
    have hes : e.2 = surf := by
      have := List.mem_map_of_mem (f := Prod.snd) he
      rw [i2] at this
      exact List.mem_singleton.1 (List.mem_filter.1 this).1
    obtain ⟨S, t, k1, k2, k3⟩ := i3 e he
    rw [hes] at k2
    refine ⟨S, t, k1, by rw [hes]; exact (part t).2 k2, k3.trans ?_, fun _ => k3⟩
    have p2 := Real.pi_lt_d2
    have t1 := k2.2.1
    norm_num at t1 p2 ⊢
    linarith

end Rnd

/-- C172 (partial): for a geometry of disks and of cylinders around the z axis, in any order, the program prints exactly those that the track with the
decimal numbers of the source crosses within their bounds in the first half turn, each as often as it is in the geometry, in the order of the path
lengths; these are right up to 0.1 mm, and for disks up to 5 units of 2^-53.  Missing for C172: that this is the geometry in the file
(`C172_false`), and that the path lengths of cylinders are right up to rounding (the cosine law loses half of the digits, see C141). -/
theorem C172_detector_partial (h : NearestF 53 1074 fl) (hl : IsLibm lm) (ha2 : IsAtan2 at2) (has : IsAsin asn)
    {sort : List (Dbl × Surface) → List (Dbl × Surface)} (hsort : IsStdSort Traj.sortWithS sort) {x y w : ℝ → ℝ} (ht : CalcHelix x y w)
    {dd : Dd4hep} {surfaces : List Surface} (hu : dd.unloaded = some surfaces)
    (hs : ∀ surf ∈ surfaces, (∃ t, ClearDisk x y w surf t) ∨ ∃ rho, Layer x y w (surf, rho)) (f : String) (more : List String) :
    ∃ l, Rnd.intersectionCalculator fl lm at2 asn atn dd sort (f :: more) = .ok (0, l) ∧
      (l.map Prod.snd).Perm (surfaces.filter (fun surf => decide (∃ t, CrossesPart x y w surf t))) ∧ l.Pairwise (fun a b => ¬ b.1 < a.1) ∧
      ∀ e ∈ l, PartEntry x y w e := by
  obtain ⟨eT, bo, -, -⟩ := lit_bounds h
  have bo' := abs_le.1 bo
  norm_num at bo'
  have om0 : 0 < fl 0.23 := by linarith
  obtain ⟨m, em, hm⟩ := maxArc_value (om := fl 0.23) (tl := fl 0.01) (ph := fl 1.57) (d := 0) (z := 0) h (by
    rw [abs_of_pos om0]
    refine le_trans (one_div_le_one_div_of_le (by positivity) (pow_le_pow_right₀ (by norm_num) (by norm_num : 4 ≤ 500))) ?_
    norm_num
    linarith) (by
    rw [abs_of_pos om0]
    refine le_trans ?_ (pow_le_pow_right₀ (a := (2 : ℝ)) (by norm_num) (show 1 ≤ 200 by norm_num))
    norm_num
    linarith)
  have hm' : |m - Real.pi / 0.23| ≤ 2 / 10 ^ 14 := by
    have p1 := Real.pi_gt_d2
    have p2 := Real.pi_lt_d2
    rw [abs_of_pos om0] at hm
    have k1 : Real.pi / fl 0.23 ≤ 14 := by
      rw [div_le_iff₀ om0]
      linarith
    have k2 : |Real.pi / fl 0.23 - Real.pi / 0.23| ≤ 3 / 10 ^ 15 := by
      have e : Real.pi / fl 0.23 - Real.pi / 0.23 = Real.pi / fl 0.23 * (0.23 - fl 0.23) / 0.23 := by
        field_simp
      rw [e, abs_div, abs_mul, abs_of_pos (by positivity : 0 < Real.pi / fl 0.23), abs_sub_comm, abs_of_pos (by norm_num : (0 : ℝ) < 0.23), div_le_iff₀ (by norm_num)]
      have := mul_le_mul k1 bo (abs_nonneg _) (by norm_num)
      norm_num at this ⊢
      linarith
    have k := abs_add_le (m - Real.pi / fl 0.23) (Real.pi / fl 0.23 - Real.pi / 0.23)
    rw [sub_add_sub_cancel] at k
    norm_num at hm k1 k2 k ⊢
    linarith
  have loop : ∀ (surfaces : List Surface), (∀ surf ∈ surfaces, (∃ t, ClearDisk x y w surf t) ∨ ∃ rho, Layer x y w (surf, rho)) → ∀ l,
      ∃ l', Rnd.intersectionLoop fl lm at2 asn atn (Rnd.calcTrack fl) (fin m) l surfaces = (l ++ l', .ok ()) ∧
        l'.map Prod.snd = surfaces.filter (fun surf => decide (∃ t, CrossesPart x y w surf t)) ∧ ∀ e ∈ l', PartEntry x y w e := by
    intro surfaces
    induction surfaces with
    | nil => exact fun _ l => ⟨[], by simp [Rnd.intersectionLoop], by simp, by simp⟩
    | cons surf rest ih =>
      intro hs l
      obtain ⟨l1, i1, i2, i3⟩ : ∃ l', Rnd.intersectionLoop fl lm at2 asn atn (Rnd.calcTrack fl) (fin m) l [surf] = (l ++ l', .ok ()) ∧
          l'.map Prod.snd = [surf].filter (fun surf => decide (∃ t, CrossesPart x y w surf t)) ∧ ∀ e ∈ l', PartEntry x y w e := by
        rcases hs surf (by simp) with ⟨t, k⟩ | ⟨rho, k⟩
        · exact Rnd.disk_step h hl ht hm' k l
        · exact Rnd.layer_step h hl ha2 has ht hm' k l
      obtain ⟨l2, j1, j2, j3⟩ := ih (fun s hs' => hs s (by simp [hs'])) (l ++ l1)
      refine ⟨l1 ++ l2, ?_, ?_, ?_⟩
      · rw [Rnd.loop_cons rest i1, j1, List.append_assoc]
      · rw [List.map_append, i2, j2, ← List.filter_append, List.singleton_append]
      · intro e he
        rcases List.mem_append.1 he with he | he
        · exact i3 e he
        · exact j3 e he
  obtain ⟨l0, i1, i2, i3⟩ := loop surfaces hs []
  rw [List.nil_append] at i1
  have hsw : StrictWeakOn Traj.sortWithS l0 := by
    refine strictWeakOn_key Traj.sortWithS (fun x => finVal x.1) l0 ?_
    intro a ha b hb
    obtain ⟨x, -, hx, -⟩ := i3 a ha
    obtain ⟨y, -, hy, -⟩ := i3 b hb
    simp only [Traj.sortWithS, hx, hy, fin_lt, finVal]
  have hst : stdSort sort Traj.sortWithS l0 = .ok (sort l0) := by unfold stdSort; rw [if_pos hsw]
  obtain ⟨p1, p2⟩ := stdSort_ok hsort hst
  refine ⟨sort l0, ?_, ?_, p2, fun e he => i3 e (p1.mem_iff.1 he)⟩
  · have em' : Rnd.maxArc fl (Rnd.calcTrack fl).hp = fin m := by rw [eT]; exact em
    have r : (Traj.make (Rnd.calcTrack fl)).ref = Rnd.calcTrack fl := rfl
    have r' : (Traj.make (Rnd.calcTrack fl)).inters = [] := rfl
    simp only [Rnd.intersectionCalculator, hu, Rnd.getIntersections, r, r', em', i1, hst]
    rfl
  · rw [← i2]
    exact p1.map _

/-- C172, concrete case: the disk at z = 0.01 cm and the cylinders of 10 cm and 3 cm, in another order; the program prints the disk (after 1 cm) and then
the cylinder of 3 cm. -/
example (h : NearestF 53 1074 fl) (hl : IsLibm lm) (ha2 : IsAtan2 at2) (has : IsAsin asn) {sort : List (Dbl × Surface) → List (Dbl × Surface)}
    (hsort : IsStdSort Traj.sortWithS sort) : ∃ S S' : ℝ, S ≤ S' ∧ Rnd.intersectionCalculator fl lm at2 asn atn
      ⟨fun _ => none, some [Example.tubeOf 10, Example.tubeOf 3, calcDisk]⟩ sort ["f"] = .ok (0, [(fin S, calcDisk), (fin S', Example.tubeOf 3)]) := by
  obtain ⟨x, y, w, ht⟩ := calcHelix_exists
  have lay : ∀ {r : ℝ}, (1 / 100 ≤ r ∧ r ≤ 8 ∨ 9 ≤ r ∧ r ≤ 10 ^ 6) → Layer x y w (Example.tubeOf r, r) := fun hr =>
    ⟨by simp only [Example.tubeOf]; decide, ⟨0, rfl⟩, hr, fun _ _ _ _ _ _ _ _ _ _ => rfl⟩
  have tube : ∀ r, (Example.tubeOf r).type.isZCylinder = true := fun r => by simp only [Example.tubeOf]; decide
  have o0 : (0 : ℝ) < 0.23 := by norm_num
  have rad := layer_radius o0 ht
  obtain ⟨d1, d2⟩ := clear_example ht
  have nd : calcDisk.type.isZCylinder = false := d1.noCylinder
  have yd : ∃ t, CrossesPart x y w calcDisk t := ⟨1, .inl ⟨nd, d2⟩⟩
  have disk1 : ∀ t, CrossesPart x y w calcDisk t → t = 1 := by
    rintro t (⟨-, k⟩ | ⟨rho, c, k, -⟩)
    · obtain ⟨ox, oy, k1⟩ := k.2.2.1
      obtain ⟨ox', oy', k2⟩ := d1.origin
      rw [k1] at k2
      have k3 := congrArg V3.z k2
      simp only [V3.re, fin_inj] at k3
      rw [calc_w ht, calc_w ht] at k3
      linarith
    · rw [nd] at k
      cases k
  have tubes : ∀ {r t : ℝ}, CrossesPart x y w (Example.tubeOf r) t → CrossesLayer x y w (Example.tubeOf r, r) t := by
    rintro r t (⟨k, -⟩ | ⟨rho, c, -, k, q⟩)
    · rw [tube] at k
      cases k
    · have := congrArg Prod.fst (Option.some.inj k)
      simp only [fin_inj] at this
      rwa [this]
  have y3 : ∃ t, CrossesPart x y w (Example.tubeOf 3) t := by
    obtain ⟨l1, l2, l3, -⟩ := layerArc_facts (om := 0.23) (rho := 3) (by norm_num) (by norm_num) (by norm_num) (by norm_num)
    refine ⟨layerArc 0.23 3, .inr ⟨3, 0, tube 3, rfl, by linarith, ?_, ?_, rfl⟩⟩
    · rw [lt_div_iff₀ o0]
      linarith [Real.pi_gt_three, Real.pi_gt_d2]
    · rw [rad, l3]
      ring
  have far3 : ∀ t, CrossesPart x y w (Example.tubeOf 3) t → 3 ≤ t := by
    intro t q
    obtain ⟨t0, -, e, -⟩ := tubes q
    rw [rad] at e
    have s := Real.abs_sin_lt_abs (x := 0.23 / 2 * t) (by positivity)
    rw [abs_of_pos (show 0 < 0.23 / 2 * t by positivity)] at s
    simp only at e
    have e' : |2 / 0.23 * Real.sin (0.23 / 2 * t)| = 3 := by
      rw [← abs_of_pos (show (0 : ℝ) < 3 by norm_num)]
      exact (sq_eq_sq_iff_abs_eq_abs _ _).1 e
    rw [abs_mul, abs_of_pos (show (0 : ℝ) < 2 / 0.23 by norm_num)] at e'
    generalize |Real.sin (0.23 / 2 * t)| = v at *
    norm_num at e' s
    linarith
  have no : ¬ ∃ t, CrossesPart x y w (Example.tubeOf 10) t := by
    rintro ⟨t, q⟩
    obtain ⟨-, -, e, -⟩ := tubes q
    rw [rad] at e
    have := Real.sin_sq_le_one (0.23 / 2 * t)
    generalize Real.sin (0.23 / 2 * t) = s at *
    norm_num [mul_pow, -sq_le_one_iff_abs_le_one] at e this
    nlinarith
  obtain ⟨l, e1, e2, e3, e4⟩ := C172_detector_partial (at2 := at2) (asn := asn) (atn := atn) h hl ha2 has hsort ht
    (dd := ⟨fun _ => none, some [Example.tubeOf 10, Example.tubeOf 3, calcDisk]⟩) rfl
    (by
      intro q hq
      simp only [List.mem_cons, List.not_mem_nil, or_false] at hq
      rcases hq with rfl | rfl | rfl
      · exact .inr ⟨10, lay (.inr (by norm_num))⟩
      · exact .inr ⟨3, lay (.inl (by norm_num))⟩
      · exact .inl ⟨1, d1⟩) "f" []
  rw [List.filter_cons_of_neg (p := fun q => decide (∃ t, CrossesPart x y w q t)) (by simpa using no),
    List.filter_cons_of_pos (p := fun q => decide (∃ t, CrossesPart x y w q t)) (decide_eq_true y3),
    List.filter_cons_of_pos (p := fun q => decide (∃ t, CrossesPart x y w q t)) (decide_eq_true yd), List.filter_nil] at e2
  obtain ⟨⟨s1, f1⟩, ⟨s2, f2⟩, rfl⟩ := List.length_eq_two.1 (by simpa using e2.length_eq)
  obtain ⟨S1, t1, a1, b1, c1, -⟩ := e4 (s1, f1) (by simp)
  obtain ⟨S2, t2, a2, b2, c2, -⟩ := e4 (s2, f2) (by simp)
  simp only at a1 a2 b1 b2
  subst a1 a2
  simp only [List.pairwise_pair, fin_lt, not_lt] at e3
  simp only [List.map_cons, List.map_nil] at e2
  rcases List.perm_pair.1 e2 with e | e
  · obtain ⟨rfl, q⟩ := List.cons.inj e
    obtain rfl := (List.cons.inj q).1
    have k1 := far3 t1 b1
    have k2 := disk1 t2 b2
    subst k2
    have := abs_le.1 c1
    have := abs_le.1 c2
    norm_num at *
    linarith
  · obtain ⟨rfl, q⟩ := List.cons.inj e
    obtain rfl := (List.cons.inj q).1
    exact ⟨S1, S2, e3, e1⟩

end Verif
