import Verif.Props.Refit
import Verif.Props.Residuals
import Verif.Props.GblExample

/-!
# A track that is refitted: a case for C98 and C99
-/

open Classical

noncomputable section

namespace Verif

open Dbl Traj Refit

namespace Example

/-- the hit on the disk -/
def diskHit : TrkHit := ⟨5, 0, V3.re 8 (-5) 10, some (fin 1, fin 2), []⟩

/-- four hits of a track with radius 1 cm; the second one is on the disk -/
def fourHits : List TrackHit :=
  [⟨⟨4, 1, V3.re 0 0 0, some (fin 1, fin 1), []⟩, false, []⟩,
   ⟨diskHit, false, []⟩,
   ⟨⟨6, 2, V3.re 10 (-10) (5 * Real.pi), some (fin 1, fin 1), []⟩, false, []⟩,
   ⟨⟨7, 3, V3.re 0 (-20) (10 * Real.pi), some (fin 1, fin 1), []⟩, false, []⟩]

/-- the start helix of these hits -/
def fourSeed : TP := ⟨seedCov M5.zero, hpR 1 1 0 0 0, V3.zero⟩

theorem eq_zero_of_cos {x : ℝ} (h : Real.cos x = 1) (h1 : -(2 * Real.pi) < x) (h2 : x < 2 * Real.pi) : x = 0 :=
  (Real.cos_eq_one_iff_of_lt_of_lt h1 h2).1 h

theorem seed_four : seed fourHits = .ok fourSeed := by
  have hpi := Real.pi_pos
  obtain ⟨om, tl, ph, d, z, hom, b1, b2, hd, hs, s1, s2, s3, z2, z3, a0, a1, a2, a3, p1, p2, p3, hz⟩ :=
    C98_seed_partial (hits := fourHits) rfl rfl rfl (x1 := 0) (y1 := 0) (z1 := 0) (x2 := 10) (y2 := -10) (z2 := 5 * Real.pi)
      (x3 := 0) (y3 := -20) (z3 := 10 * Real.pi) rfl rfl rfl (by norm_num) (by norm_num)
  have hz0 : V3.zero = V3.re 0 0 0 := by simp only [V3.zero, V3.re, zero_eq]
  have hinj : ∀ {a b c a' b' c' : ℝ}, V3.re a b c = V3.re a' b' c' → a = a' ∧ b = b' ∧ c = c' := by
    intro a b c a' b' c' h; simpa [V3.re] using h
  rw [hz0, pointAt_re hom] at p1 p2 p3
  obtain ⟨x1, y1, w1⟩ := hinj p1
  obtain ⟨x2, y2, w2⟩ := hinj p2
  obtain ⟨x3, y3, w3⟩ := hinj p3
  have c1 := on_circle (om := om) (ph := ph) (d := d) (rx := 0) (ry := 0) s1
  have c2 := on_circle (om := om) (ph := ph) (d := d) (rx := 0) (ry := 0) s2
  have c3 := on_circle (om := om) (ph := ph) (d := d) (rx := 0) (ry := 0) s3
  have g1 := rX_center (om := om) (ph := ph) (d := d) (rx := 0) (s := s1)
  have g2 := rX_center (om := om) (ph := ph) (d := d) (rx := 0) (s := s2)
  have k1 := rY_center (om := om) (ph := ph) (d := d) (ry := 0) (s := s1)
  have k3 := rY_center (om := om) (ph := ph) (d := d) (ry := 0) (s := s3)
  rw [x1, y1] at c1
  rw [x2, y2] at c2
  rw [x3, y3] at c3
  rw [x1] at g1
  rw [x2] at g2
  rw [y1] at k1
  rw [y3] at k3
  have hcy : rCy om ph d 0 = -1 := by linarith
  have hcx : rCx om ph d 0 = 0 := by rw [hcy] at c1 c2; linarith
  rw [hcx] at g1 g2
  rw [hcy] at k1 k3
  have hr : (1 / om) ^ 2 = 1 := by rw [hcx, hcy] at c1; linarith
  rw [rCx] at hcx
  rw [rCy] at hcy
  have hom2 : om = 1 ∨ om = -1 := by
    have : om ^ 2 = 1 := by
      field_simp at hr
      linarith
    rcases mul_eq_zero.mp (show (om - 1) * (om + 1) = 0 by linear_combination this) with h | h
    · left; linarith
    · right; linarith
  rw [rZ] at w1 w2 w3
  have hsc := Real.sin_sq_add_cos_sq ph
  rcases hom2 with rfl | rfl
  · simp only [abs_one, div_one, mul_one, one_mul] at *
    have hd0 : d = 0 := by
      have e1 : (1 - d) * Real.sin ph = 0 := by linarith
      have e2 : (1 - d) * Real.cos ph = 1 := by linarith
      have h1 : (1 - d) ^ 2 = 1 := by
        linear_combination (-(1 - d) ^ 2) * hsc + (1 - d) * Real.sin ph * e1 + ((1 - d) * Real.cos ph + 1) * e2
      rcases mul_eq_zero.mp (show d * (d - 2) = 0 by linear_combination h1) with h | h
      · exact h
      · linarith
    subst hd0
    have hph : ph = 0 := eq_zero_of_cos (by linarith) (by linarith) (by linarith)
    subst hph
    rw [abs_le] at a0
    have hs1 : s1 = 0 := eq_zero_of_cos (by rw [zero_sub, Real.cos_neg] at k1; linarith) (by linarith) (by linarith)
    subst hs1
    have hs3 : s3 - Real.pi = 0 := eq_zero_of_cos (by
      rw [zero_sub, Real.cos_neg] at k3; rw [Real.cos_sub_pi]; linarith) (by linarith) (by linarith)
    have hs2 : s2 - Real.pi / 2 = 0 := eq_zero_of_cos (by
      rw [zero_sub, Real.sin_neg] at g2; rw [Real.cos_sub_pi_div_two]; linarith) (by linarith) (by linarith)
    have hs3' : s3 = Real.pi := by linarith
    have hs2' : s2 = Real.pi / 2 := by linarith
    rw [hs2'] at w2
    rw [hs3'] at w3
    have htl : tl = 1 := by
      have : (tl - 1) * (Real.pi / 2) = 0 := by linarith
      rcases mul_eq_zero.mp this with h | h <;> linarith
    have hzz : z = 0 := by linarith
    rw [hs, htl, hzz]
    rfl
  · exfalso
    have e1 : (1 : ℝ) / -1 = -1 := by norm_num
    simp only [abs_neg, abs_one, div_one, mul_one, one_mul, e1, mul_neg, sub_neg_eq_add, neg_mul] at *
    have hd0 : d = 0 := by
      have e1 : (1 + d) * Real.sin ph = 0 := by linarith
      have e2 : (1 + d) * Real.cos ph = -1 := by linarith
      have h1 : (1 + d) ^ 2 = 1 := by
        linear_combination (-(1 + d) ^ 2) * hsc + (1 + d) * Real.sin ph * e1 + ((1 + d) * Real.cos ph - 1) * e2
      rcases mul_eq_zero.mp (show d * (d + 2) = 0 by linear_combination h1) with h | h
      · exact h
      · linarith
    subst hd0
    have hph : ph - Real.pi = 0 := eq_zero_of_cos (by rw [Real.cos_sub_pi]; linarith) (by linarith) (by linarith)
    have hph' : ph = Real.pi := by linarith
    subst hph'
    rw [abs_le] at a0
    have hadd : ∀ s, Real.cos (Real.pi + s) = -Real.cos s := fun s => by rw [add_comm, Real.cos_add_pi]
    have hs1 : s1 = 0 := eq_zero_of_cos (by rw [hadd] at k1; linarith) (by linarith) (by linarith)
    subst hs1
    have hs3 : s3 - Real.pi = 0 := eq_zero_of_cos (by rw [hadd] at k3; rw [Real.cos_sub_pi]; linarith) (by linarith) (by linarith)
    have : 0 < Real.sin s2 := Real.sin_pos_of_pos_of_lt_pi (by linarith) (by linarith)
    rw [show Real.pi + s2 = s2 + Real.pi by ring, Real.sin_add_pi] at g2
    linarith

theorem four_zero : V3.zero = V3.re 0 0 0 := by simp only [V3.zero, V3.re, zero_eq]

theorem four_start : (make fourSeed).withStart = ⟨fourSeed, [Element.start (fin 0) fourSeed 0], [], pionMass⟩ := by
  unfold withStart
  rw [if_pos (show (make fourSeed).elems = [] from rfl)]
  simp only [addElement, make, List.nil_append]
  have := C47_start_zero 1 1 0 0 0 0 (by norm_num) (by linarith [Real.pi_pos]) Real.pi_pos.le
  rw [← four_zero] at this
  rw [show calculateSfromXY V3.zero.x V3.zero.y fourSeed.hp fourSeed.rp = fin 0 from this]

theorem four_hit (cb : Bool) : intersectWithSurface disk (hpR 1 1 0 0 0) (V3.re 0 0 0) 0 V3.zero 1 cb =
    .ok ⟨true, fin 1, pointAt (fin 1) (hpR 1 1 0 0 0) (V3.re 0 0 0)⟩ := by
  obtain ⟨hit, h1, h2, h3, h4⟩ := disk_hit (ib := fun _ => true) 0 0 1 one_pos cb (fun _ => rfl)
  have : hit = ⟨true, fin 1, pointAt (fin 1) (hpR 1 1 0 0 0) (V3.re 0 0 0)⟩ := by
    rw [← h4, ← h3, ← h2]
  rw [← this]
  exact h1

theorem four_crossed : CrossedAt fourSeed disk 1 := by
  have h := four_hit true
  refine ⟨⟨true, fin 1, pointAt (fin 1) (hpR 1 1 0 0 0) (V3.re 0 0 0)⟩, ?_, rfl, rfl, zero_le_one, 1, ?_, ?_⟩
  · show intersectWithSurface disk (hpR 1 1 0 0 0) V3.zero 0 V3.zero 1 true = _
    rw [four_zero]
    rw [four_zero] at h
    exact h
  · simp [calculateRadius, calculateCurvature, fourSeed, hpR, OMEGA]
  · rw [abs_one, mul_one]; linarith [Real.pi_gt_three]

theorem four_crossing (pos : V3) : Crossing env (make fourSeed) (Element.start (fin 0) fourSeed 0) disk (disk.globalToLocal pos) false
    (seedCov M5.zero) 1 1 0 0 0 0 0 0 1 (-1) 0.13957018 0 3 := by
  have hpi := Real.pi_gt_three
  have hp : ∀ x, momentumAtPCA env.globalField (hpR 1 1 (-1) 0 0) x = V3.re (pt * Real.cos (-1)) (pt * Real.sin (-1)) (pt * 1) :=
    mom_eq (-1)
  refine ⟨by rw [four_start]; rfl, by rw [← four_zero]; rfl, one_ne_zero, ?_, four_hit false, ?_, ⟨⟨0, by norm_num⟩, by linarith, by linarith⟩,
    ⟨0, 0, rfl⟩, three_ne_zero, ?_, ?_⟩
  · show pionMass = _
    simp [pionMass]
  · rw [one_mul, abs_one]; linarith
  · rw [hp]
    have hq0 := pt_pos
    have hpp : 0 < (pt * Real.cos (-1)) ^ 2 + (pt * Real.sin (-1)) ^ 2 + (pt * 1) ^ 2 := by positivity
    have hb := betheBloch_re (Z := 14) (A := 28) (rho := 2) (rad := 9) (m := 0.13957018) (p := _) (by norm_num) (by norm_num)
      (by norm_num) (by norm_num) (Real.sqrt_pos.mpr hpp)
    have := C77_sum (s := disk) (uv := disk.globalToLocal pos) (nx := 0) (ny := 0) (nz := 1) rfl rfl rfl rfl rfl hb hb hpp
      (by simp [hq0.ne'])
    rw [this]
    simp
  · have : 0 < energyOf (momentumOf 1 1 3) 0.13957018 := by
      have := momentumOf_pos (tl := 1) one_ne_zero (three_ne_zero (α := ℝ))
      exact Real.sqrt_pos.mpr (by positivity)
    exact this.ne

/-- the program with the disk as only surface -/
def fourSetup (gbl : Fitter) (sortI : List (Dbl × Surface) → List (Dbl × Surface)) (sortE : List Element → List Element) (fl : ℝ → ℝ) :
    Setup := ⟨env, [disk], fun _ => false, gbl, sortI, sortE, fl⟩

theorem four_prepared {sortI : List (Dbl × Surface) → List (Dbl × Surface)} {sortE : List Element → List Element}
    (hI : IsStdSort sortWithS sortI) (hE : IsStdSort compareElements sortE) (prec : List Dbl) (id : ℕ) :
    ∃ t2 t', (make fourSeed).getIntersections sortI [disk] = ({ make fourSeed with inters := [(fin 1, disk)] }, .ok [(fin 1, disk)]) ∧
      ({ make fourSeed with inters := [(fin 1, disk)] } : Traj).step env (.measurement (scaled diskHit.pos) prec disk id true) = (t2, .ok true) ∧
      t2.prepareForFitting env sortE = .ok t' ∧ t'.elems.length = 2 ∧ ∀ e ∈ t'.elems, e.surface ≠ none → 0 < e.arc := by
  obtain ⟨t1, L, hL⟩ := C51_defined (sort := sortI) (t := make fourSeed) (surfaces := [disk]) (by simp [make]) (by
    intro surf hs
    rw [List.mem_singleton] at hs
    subst hs
    obtain ⟨hit, h, -⟩ := four_crossed
    exact ⟨hit, h⟩)
  obtain ⟨e1, e2, -, -⟩ := C51_crossings_partial hI rfl hL
  have hLL : L = [(fin 1, disk)] := by
    rw [List.flatMap_cons, List.flatMap_nil, List.append_nil, show (make fourSeed).ref = fourSeed from rfl, crossing_pos four_crossed] at e2
    exact List.perm_singleton.mp e2
  obtain ⟨e, s1, s2, -, -, s5, -⟩ := C94_measurement (pos := scaled diskHit.pos)
    (prec := prec) (id := id) (sc := true)
    (U := ![1, 0, 0]) (V := ![0, 1, 0]) (four_crossing (scaled diskHit.pos)) rfl rfl (by
      have : 0 < Real.cos (Real.arctan 1) := Real.cos_arctan_pos 1
      have : 0 < Real.sin (Real.arctan 1) := by
        rw [Real.arctan_one]; exact Real.sin_pos_of_pos_of_lt_pi (by linarith [Real.pi_pos]) (by linarith [Real.pi_pos])
      have e : Spec.dot (Spec.cross ![1, 0, 0] ![0, 1, 0]) (dirOf 1 (-1)) = Real.sin (Real.arctan 1) := by
        simp [Spec.dot, Spec.cross, dirOf]
      rw [e]
      exact this.ne')
  subst hLL
  obtain ⟨t', ht'⟩ := C50_defined_partial env hE
    { (⟨fourSeed, [Element.start (fin 0) fourSeed 0, e], [], pionMass⟩ : Traj) with inters := [(fin 1, disk)] } (by simp)
    (by
      intro a ha
      simp only [List.mem_cons, List.not_mem_nil, or_false] at ha
      rcases ha with rfl | rfl
      · exact ⟨0, rfl⟩
      · exact ⟨1 + 0, by rw [s2.arc]; simp [Element.start]⟩)
    (by
      intro a ha hs
      simp only [List.mem_cons, List.not_mem_nil, or_false] at ha
      rcases ha with rfl | rfl
      · cases hs
      · obtain ⟨sv, hit, q1, -, -, -, -, q6⟩ := C30_disk (om := 1 / (1 - 0 / energyOf (momentumOf 1 1 3) 0.13957018)) (tl := 1) (ph := -1)
          (d := 0) (z := 0) (rx := rX 1 0 0 0 1) (ry := rY 1 0 0 0 1) (rz := rZ 1 0 0 1) (by simp) one_ne_zero disk 0 0 1 rfl 0 V3.zero 0 true
        refine ⟨disk, hit, s2.surface, ?_, q6.2 ⟨by simp, fun _ => rfl⟩⟩
        rw [s2.hp, s2.rp, pointAt_re one_ne_zero]
        unfold intersectWithSurface
        rw [if_neg (by simp [disk, diskB, SurfaceType.isZCylinder]), if_neg (by simp [disk, diskB, SurfaceType.isZPlane]),
          if_pos (by simp [disk, diskB, SurfaceType.isZDisk])]
        exact q1)
  obtain ⟨-, -, -, hperm, -⟩ := prepare_ok hE ht'
  refine ⟨_, t', by rw [hL, e1], ?_, ht', by simpa using hperm.length_eq, ?_⟩
  · rw [step_inters, s1, four_start]
    rfl
  · intro a ha hs
    have := hperm.subset (List.mem_map_of_mem ha)
    simp only [List.map_cons, List.map_nil, List.mem_cons, List.not_mem_nil, or_false] at this
    rcases this with h | h
    · have h1 := congrArg Element.surface h
      exact absurd h1 hs
    · have h1 := congrArg Element.arc h
      rw [show a.arc = e.arc from h1, s2.arc]
      simp [Element.start]

theorem trajectory_four {gbl : Fitter} {sortI : List (Dbl × Surface) → List (Dbl × Surface)} {sortE : List Element → List Element}
    {fl : ℝ → ℝ} (hI : IsStdSort sortWithS sortI) (hE : IsStdSort compareElements sortE) :
    ∃ t, trajectory (fourSetup gbl sortI sortE fl) fourSeed fourHits = .ok t ∧ t.elems.length = 2 ∧
      ∀ e ∈ t.elems, e.surface ≠ none → 0 < e.arc := by
  obtain ⟨m, hm, hm0⟩ : ∃ m, fillMap (fun _ => none) (expand fourHits) = .ok m ∧ m 0 = some diskHit := by
    refine ⟨_, rfl, ?_⟩
    simp [toInt, diskHit]
  obtain ⟨t2, t', hL, hstep, ht', h2, h3⟩ := four_prepared hI hE
    [1 / ((fin 1 * unit_mm) * (fin 1 * unit_mm)), 1 / ((fin 2 * unit_mm) * (fin 2 * unit_mm))] 5
  have hcall : callFor (fun _ => false) m disk = .ok (some (.measurement (scaled diskHit.pos)
      [1 / ((fin 1 * unit_mm) * (fin 1 * unit_mm)), 1 / ((fin 2 * unit_mm) * (fin 2 * unit_mm))] disk 5 true)) := by
    unfold callFor
    rw [show toInt disk.id = 0 by rfl, hm0]
    rfl
  have hadd : addAll env (fun _ => false) m { make fourSeed with inters := [(fin 1, disk)] } [(fin 1, disk)] = .ok t2 := by
    rw [addAll, hcall, Out.ok_bind]
    dsimp only
    rw [hstep]
    rfl
  refine ⟨t', ?_, h2, h3⟩
  unfold trajectory fourSetup
  simp only [hm, Out.ok_bind, hL, hadd, ht']

/-- the track with these hits -/
def fourTrack (state : TrackState) : InTrack := ⟨state, fourHits⟩

/-- a case for C98 and C99: the four hits are refitted, with any fit program and any algorithms of `std::sort` -/
example {gbl : Fitter} {sortI : List (Dbl × Surface) → List (Dbl × Surface)} {sortE : List Element → List Element}
    {fl : ℝ → ℝ} (hI : IsStdSort sortWithS sortI) (hE : IsStdSort compareElements sortE) (i : ℕ) (w : World) (state : TrackState)
    {tp0 : TP} (h0 : readLCIO state = .ok tp0) :
    ∃ w' o, refit (fourSetup gbl sortI sortE fl) i w (fourTrack state) = .ok (w', o) ∧ o.hits = [4, 5, 6, 7] := by
  obtain ⟨t, ht, -⟩ := trajectory_four (gbl := gbl) (fl := fl) hI hE
  obtain ⟨ps, r, w', o, -, -, h1, h2, -⟩ := C98_refitted_partial (S := fourSetup gbl sortI sortE fl) hI hE i w
    (trk := fourTrack state) (by simp [fourTrack, fourHits]) h0 seed_four ht
  exact ⟨w', o, h1, h2⟩

/-- and three hits give undefined behaviour -/
example {gbl : Fitter} {sortI : List (Dbl × Surface) → List (Dbl × Surface)} {sortE : List Element → List Element}
    {fl : ℝ → ℝ} (hI : IsStdSort sortWithS sortI) (hE : IsStdSort compareElements sortE) (i : ℕ) (w : World) (state : TrackState)
    {tp0 : TP} (h0 : readLCIO state = .ok tp0) :
    ∃ m, refit (fourSetup gbl sortI sortE fl) i w ⟨state, fourHits.drop 1⟩ = .ub m := by
  refine (C98_three_hits_false (S := fourSetup gbl sortI sortE fl) hI hE i w ⟨state, fourHits.drop 1⟩ rfl ?_).2 ⟨tp0, h0⟩ ?_ ?_
  · intro x hx
    simp only [fourHits, List.drop_succ_cons, List.drop_zero, List.mem_cons, List.not_mem_nil, or_false] at hx
    rcases hx with rfl | rfl | rfl
    · exact ⟨8, -5, 10, rfl⟩
    · exact ⟨10, -10, 5 * Real.pi, rfl⟩
    · exact ⟨0, -20, 10 * Real.pi, rfl⟩
  · simp [fourHits, NoNull]
  · intro surf hs hp rp
    have : surf = disk := by simpa [fourSetup] using hs
    subst this
    unfold intersectWithSurface
    rw [if_neg (by simp [disk, diskB, SurfaceType.isZCylinder]), if_neg (by simp [disk, diskB, SurfaceType.isZPlane]),
      if_pos (by simp [disk, diskB, SurfaceType.isZDisk])]
    unfold intersectWithZDisk cif
    dsimp only
    split_ifs <;> exact ⟨_, rfl⟩

end Example

end Verif
