import Verif.Props.LeastSquaresRefit
import Verif.Props.LeastSquaresExample
import Verif.Props.RefitExample

/-!
# A case for C127 and the program lcio_tracks

The four hits of `RefitExample`, with the hit on the disk where the start helix crosses it and with a thick disk.
-/

open Classical

noncomputable section

namespace Verif

open Dbl Traj World Refit Matrix

namespace Example

/-- the hit on the disk, in mm -/
def exactDiskHit : TrkHit := ⟨5, 0, V3.re (10 * rX 1 0 0 0 1) (10 * rY 1 0 0 0 1) (10 * rZ 1 0 0 1), some (fin 1, fin 2), []⟩

theorem exactDiskHit_pos : scaled exactDiskHit.pos = crossingPoint := by
  rw [crossingPoint, pointAt_re one_ne_zero]
  simp only [scaled, exactDiskHit, V3.re, unit_mm, fin_mul]
  simp
  refine ⟨?_, ?_, ?_⟩ <;> ring

/-- four hits of a track with radius 1 cm; the second one is on the disk -/
def exactHits : List TrackHit :=
  [⟨⟨4, 1, V3.re 0 0 0, some (fin 1, fin 1), []⟩, false, []⟩,
   ⟨exactDiskHit, false, []⟩,
   ⟨⟨6, 2, V3.re 10 (-10) (5 * Real.pi), some (fin 1, fin 1), []⟩, false, []⟩,
   ⟨⟨7, 3, V3.re 0 (-20) (10 * Real.pi), some (fin 1, fin 1), []⟩, false, []⟩]

/-- the second hit of four is not used for the start helix -/
theorem seed_exact : seed exactHits = .ok fourSeed := by
  rw [← seed_four]
  rfl

theorem thick_hit (th : ℝ) (cb : Bool) : intersectWithSurface (diskT th) (hpR 1 1 0 0 0) (V3.re 0 0 0) 0 V3.zero 1 cb =
    .ok ⟨true, fin 1, crossingPoint⟩ := four_hit cb

theorem thick_crossed (th : ℝ) : CrossedAt fourSeed (diskT th) 1 := four_crossed

/-- a thickness of the disk with positive scattering angle, at which the track is not stopped -/
theorem thick_crossing (pos : V3) : ∃ th Δ : ℝ, 9 < th ∧ Crossing unitEnv (make fourSeed) (Element.start (fin 0) fourSeed 0) (diskT th)
    ((diskT th).globalToLocal pos) false (seedCov M5.zero) 1 1 0 0 0 0 0 0 1 (-1) 0.13957018 Δ 3 := by
  have hpi := Real.pi_gt_three
  have hq0 := pt_pos
  have hp : ∀ x, momentumAtPCA unitEnv.globalField (hpR 1 1 (-1) 0 0) x = V3.re (pt * Real.cos (-1)) (pt * Real.sin (-1)) (pt * 1) :=
    mom_eq (-1)
  have hpp : 0 < (pt * Real.cos (-1)) ^ 2 + (pt * Real.sin (-1)) ^ 2 + (pt * 1) ^ 2 := by positivity
  have hb := betheBloch_re (Z := 14) (A := 28) (rho := 2) (rad := 9) (m := 0.13957018) (p := _) (by norm_num) (by norm_num)
    (by norm_num) (by norm_num) (Real.sqrt_pos.mpr hpp)
  have hloss := fun th => C77_sum (s := diskT th) (uv := (diskT th).globalToLocal pos) (nx := 0) (ny := 0) (nz := 1) (ti := th) (tO := 0)
    rfl rfl rfl rfl rfl hb hb hpp (by simp [hq0.ne'])
  obtain ⟨k, hk⟩ : ∃ k : ℝ, ∀ th, (computeEnergyLoss (diskT th) ((diskT th).globalToLocal pos)
      (V3.re (pt * Real.cos (-1)) (pt * Real.sin (-1)) (pt * 1)) (fin 0.13957018)).deltaE = fin (k * th) := by
    have h1 := fun th => (hloss th).trans (by rw [mul_zero, add_zero, mul_div_right_comm])
    exact ⟨_, h1⟩
  have hE : 0 < energyOf (momentumOf 1 1 3) 0.13957018 := by
    have := momentumOf_pos (tl := 1) one_ne_zero (three_ne_zero (α := ℝ))
    exact Real.sqrt_pos.mpr (by positivity)
  obtain ⟨th, ht, hct⟩ : ∃ th : ℝ, 9 < th ∧ k * th ≠ energyOf (momentumOf 1 1 3) 0.13957018 := by
    by_cases h : k * 10 = energyOf (momentumOf 1 1 3) 0.13957018
    · exact ⟨11, by norm_num, fun h' => by linarith⟩
    · exact ⟨10, by norm_num, h⟩
  refine ⟨th, k * th, ht, by rw [four_start]; rfl, by rw [← four_zero]; rfl, one_ne_zero, ?_, thick_hit th false, ?_,
    ⟨⟨0, by norm_num⟩, by linarith, by linarith⟩, ⟨0, 0, rfl⟩, three_ne_zero, ?_, hct⟩
  · show pionMass = _
    simp [pionMass]
  · rw [one_mul, abs_one]; linarith
  · rw [hp]
    exact hk th

/-- the program with this disk as only surface -/
def thickSetup (th : ℝ) (gbl : Fitter) (sortI : List (Dbl × Surface) → List (Dbl × Surface)) (sortE : List Element → List Element)
    (fl : ℝ → ℝ) : Setup := ⟨unitEnv, [diskT th], fun _ => false, gbl, sortI, sortE, fl⟩

/-- precisions of the hit -/
def exactPrec : List Dbl := [1 / ((fin 1 * unit_mm) * (fin 1 * unit_mm)), 1 / ((fin 2 * unit_mm) * (fin 2 * unit_mm))]

theorem exactPrec_eq : exactPrec = [fin 100, fin 25] := by
  unfold exactPrec unit_mm
  rw [fin_mul, fin_mul, fin_mul, fin_mul, one_eq, fin_div _ (by norm_num), fin_div _ (by norm_num)]
  norm_num

theorem thick_prepared {sortI : List (Dbl × Surface) → List (Dbl × Surface)} {sortE : List Element → List Element}
    (hI : IsStdSort sortWithS sortI) (hE : IsStdSort compareElements sortE) :
    ∃ (th : ℝ) (t2 t' : Traj) (rs : List RealPoint), (make fourSeed).getIntersections sortI [diskT th] =
        ({ make fourSeed with inters := [(fin 1, diskT th)] }, .ok [(fin 1, diskT th)]) ∧
      ({ make fourSeed with inters := [(fin 1, diskT th)] } : Traj).step unitEnv
        (.measurement (scaled exactDiskHit.pos) exactPrec (diskT th) 5 true) = (t2, .ok true) ∧
      t2.prepareForFitting unitEnv sortE = .ok t' ∧ (∀ e ∈ t'.elems, e.surface ≠ none → 0 < e.arc) ∧
      (∀ e ∈ t'.elems, e.measurement = true → e.residuals = [fin 0, fin 0]) ∧ gblPoints t'.elems = .ok (rs.map RealPoint.gbl) ∧
      ∃ a b, t'.elems = [a, b] ∧ b.measurement = true ∧ b.scatterer = true := by
  obtain ⟨th, Δ, h9, hC⟩ := thick_crossing (scaled exactDiskHit.pos)
  obtain ⟨t1, L, hL⟩ := C51_defined (sort := sortI) (t := make fourSeed) (surfaces := [diskT th]) (by simp [make]) (by
    intro surf hs
    rw [List.mem_singleton] at hs
    subst hs
    obtain ⟨hit, h, -⟩ := thick_crossed th
    exact ⟨hit, h⟩)
  obtain ⟨e1, e2, -, -⟩ := C51_crossings_partial hI rfl hL
  have hLL : L = [(fin 1, diskT th)] := by
    rw [List.flatMap_cons, List.flatMap_nil, List.append_nil, show (make fourSeed).ref = fourSeed from rfl,
      crossing_pos (thick_crossed th)] at e2
    exact List.perm_singleton.mp e2
  subst hLL
  obtain ⟨e, s1, s2, s3, s4, s5, -⟩ := C94_measurement (prec := exactPrec) (id := 5) (sc := true)
    (U := ![1, 0, 0]) (V := ![0, 1, 0]) hC rfl rfl (by
      have : 0 < Real.sin (Real.arctan 1) := by
        rw [Real.arctan_one]; exact Real.sin_pos_of_pos_of_lt_pi (by linarith [Real.pi_pos]) (by linarith [Real.pi_pos])
      have e : Spec.dot (Spec.cross ![1, 0, 0] ![0, 1, 0]) (dirOf 1 (-1)) = Real.sin (Real.arctan 1) := by
        simp [Spec.dot, Spec.cross, dirOf]
      rw [e]
      exact this.ne')
  set om' := 1 / (1 - Δ / energyOf (momentumOf 1 1 3) 0.13957018) with hom'
  have hom0 : om' ≠ 0 := by
    rw [hom']
    refine one_div_ne_zero ?_
    have := momentumOf_pos (tl := 1) one_ne_zero (three_ne_zero (α := ℝ))
    have hE : 0 < energyOf (momentumOf 1 1 3) 0.13957018 := Real.sqrt_pos.mpr (by positivity)
    intro h
    rw [sub_eq_zero, eq_div_iff hE.ne', one_mul] at h
    exact hC.alive h.symm
  have harc : e.arc = fin 1 := by rw [s2.arc]; simp [Element.start]
  obtain ⟨t', ht'⟩ := C50_defined_partial unitEnv hE
    { (⟨fourSeed, [Element.start (fin 0) fourSeed 0, e], [], pionMass⟩ : Traj) with inters := [(fin 1, diskT th)] } (by simp)
    (by
      intro a ha
      simp only [List.mem_cons, List.not_mem_nil, or_false] at ha
      rcases ha with rfl | rfl
      · exact ⟨0, rfl⟩
      · exact ⟨1, harc⟩)
    (by
      intro a ha hs
      simp only [List.mem_cons, List.not_mem_nil, or_false] at ha
      rcases ha with rfl | rfl
      · cases hs
      · obtain ⟨sv, hit, q1, -, -, -, -, q6⟩ := C30_disk (om := om') (tl := 1) (ph := -1)
          (d := 0) (z := 0) (rx := rX 1 0 0 0 1) (ry := rY 1 0 0 0 1) (rz := rZ 1 0 0 1) hom0 one_ne_zero (diskT th) 0 0 1 rfl 0 V3.zero 0 true
        refine ⟨diskT th, hit, s2.surface, ?_, q6.2 ⟨by simp, fun _ => rfl⟩⟩
        rw [s2.hp, s2.rp, pointAt_re one_ne_zero]
        unfold intersectWithSurface
        rw [if_neg (by simp [diskT, diskB, SurfaceType.isZCylinder]), if_neg (by simp [diskT, diskB, SurfaceType.isZPlane]),
          if_pos (by simp [diskT, diskB, SurfaceType.isZDisk])]
        exact q1)
  obtain ⟨a, b, q1, q2, q3⟩ := prepare_pair hE (a := Element.start (fin 0) fourSeed 0) (b := e) rfl harc (by norm_num) rfl ht'
  have hj := C50_jacobians hE ht'
  have hja : a.jac = some M5.zero := by
    have := hj.2.2 (by rw [q1]; simp)
    simpa [q1] using this
  have hjb : b.jac = some (M5.re (1 : Matrix (Fin 5) (Fin 5) ℝ)) := by
    have := hj.2.1 (by rw [q1]; simp)
    simp only [q1, List.getElem_cons_succ, List.getElem_cons_zero] at this
    obtain ⟨_, _, _, -, -, -, -, hj'⟩ := this
    exact hj'
  -- the element as it was added
  obtain ⟨back, e', m1, m2, m3⟩ := measurement_step (env := unitEnv) (t := make fourSeed) (by rw [s1])
  have hee : e' = e := by
    rw [s1] at m2
    simpa using m2.symm
  subst hee
  have hback : back = Element.start (fin 0) fourSeed 0 := by
    rw [four_start] at m1
    simpa using m1.symm
  subst hback
  obtain ⟨hit, tp', w, proj, r1, r2, r3, r4, r5⟩ := measurement_ok m3
  have hhit : hit = ⟨true, fin 1, crossingPoint⟩ := by
    have h1 := thick_hit th false
    rw [← four_zero] at h1
    have r1' : intersectWithSurface (diskT th) (hpR 1 1 0 0 0) V3.zero 0 V3.zero 1 false = .ok hit := r1
    rw [h1] at r1'
    injection r1' with r1'
    exact r1'.symm
  subst hhit
  have hmove := hC.move
  have r3' : moveHelixTo (Element.start (fin 0) fourSeed 0).tp crossingPoint false = .ok (tp', w) := r3
  have hmove' : moveHelixTo (Element.start (fin 0) fourSeed 0).tp crossingPoint false = _ := hmove
  rw [hmove'] at r3'
  injection r3' with r3'
  injection r3' with r3' _
  subst r3'
  obtain ⟨q, hq, hqe⟩ := qms_thick (-1) th crossingPoint ((diskT th).globalToLocal crossingPoint) h9
  have hp' : e'.tp.hp = hpR om' 1 (-1) 0 0 := s2.hp
  have hprec : e'.precisions = [fin 100, fin 25, fin (q * q), fin 0, fin 0] := by
    rw [r5]
    have : measurementPrecision exactPrec true (computeQMS (diskT th) ((diskT th).globalToLocal crossingPoint)
        (momentumAtPCA unitEnv.globalField (hpR 1 1 (-1) 0 0) crossingPoint) pionMass) = [fin 100, fin 25, fin (q * q), fin 0, fin 0] := by
      have hqe' : computeQMS (diskT th) ((diskT th).globalToLocal crossingPoint)
        (momentumAtPCA unitEnv.globalField (hpR 1 1 (-1) 0 0) crossingPoint) pionMass = fin q := hqe
      rw [hqe', exactPrec_eq]
      simp [measurementPrecision, zero_eq]
    have hlen := congrArg List.length this
    dsimp only
    split_ifs with h
    · have := h.symm.trans hlen
      simp at this
    · exact this
  obtain ⟨P, hP⟩ := projection_finite (-1) om' (proj := proj) (by
    have h4 := r4
    have h5 : e'.tp.hp = lossHp (diskT th) ((diskT th).globalToLocal (scaled exactDiskHit.pos))
      (momentumAtPCA unitEnv.globalField (hpR 1 1 (-1) 0 0) crossingPoint) (make fourSeed).mass (hpR 1 1 (-1) 0 0) := by rw [r5]; rfl
    rw [← hp', h5]
    exact h4)
  have hres : e'.residuals = [fin 0, fin 0] := by
    rw [s3, s2.rp, exactDiskHit_pos]
    obtain ⟨x, y, hxy⟩ : ∃ x y : ℝ, (diskT th).globalToLocal crossingPoint = ⟨fin x, fin y⟩ :=
      ⟨_, _, by simp only [crossingPoint, pointAt_re one_ne_zero]; rfl⟩
    change [((diskT th).globalToLocal crossingPoint).u - ((diskT th).globalToLocal crossingPoint).u,
      ((diskT th).globalToLocal crossingPoint).v - ((diskT th).globalToLocal crossingPoint).v] = _
    rw [hxy]
    simp
  have hmb : b.measurement = true := (congrArg Element.measurement q3 : (noJac b).measurement = (noJac e').measurement).trans s4
  have hsb : b.scatterer = true := (congrArg Element.scatterer q3 : (noJac b).scatterer = (noJac e').scatterer).trans s5
  have hrb : b.residuals = [fin 0, fin 0] := (congrArg Element.residuals q3 : (noJac b).residuals = (noJac e').residuals).trans hres
  have hpb : b.precisions = _ := (congrArg Element.precisions q3 : (noJac b).precisions = (noJac e').precisions).trans hprec
  have hdb : b.measDirs = some [_, _] := (congrArg Element.measDirs q3 : (noJac b).measDirs = (noJac e').measDirs).trans (congrArg Element.measDirs r5 :)
  have hqb : b.proj = some proj := (congrArg Element.proj q3 : (noJac b).proj = (noJac e').proj).trans (congrArg Element.proj r5 :)
  have hab : b.arc = fin 1 := (congrArg Element.arc q3 : (noJac b).arc = (noJac e').arc).trans harc
  have hma : a.measurement = false := (congrArg Element.measurement q2 : (noJac a).measurement = _)
  have hsa : a.scatterer = false := (congrArg Element.scatterer q2 : (noJac a).scatterer = _)
  have hfa : a.surface = none := (congrArg Element.surface q2 : (noJac a).surface = _)
  refine ⟨th, _, t', [⟨0, none, none⟩, ⟨1, some (P, ![0, 0], ![100, 25]), some (![0, 0], !![1 / (q * q), 0; 0, 1 / (q * q)])⟩],
    by rw [hL, e1], ?_, ht', ?_, ?_, ?_, a, b, q1, hmb, hsb⟩
  · rw [step_inters, s1, four_start]
    rfl
  · intro x hx hs
    rw [q1] at hx
    simp only [List.mem_cons, List.not_mem_nil, or_false] at hx
    rcases hx with rfl | rfl
    · exact absurd hfa hs
    · rw [hab, zero_eq]; simp
  · intro x hx hm
    rw [q1] at hx
    simp only [List.mem_cons, List.not_mem_nil, or_false] at hx
    rcases hx with rfl | rfl
    · rw [hma] at hm; cases hm
    · exact hrb
  · rw [q1]
    have ga : gblPoint a = .ok ⟨M5.zero, none, none⟩ := by
      unfold gblPoint
      rw [hja]
      simp only [hma, hsa, Bool.false_eq_true, if_false, Out.pure_eq, Out.ok_bind]
    have gb := gblPoint_eq (l := [fin (q * q), fin 0, fin 0]) (l' := [fin 100, fin 25]) hjb hmb hdb hqb hrb hpb (fun _ => hpb)
    simp only [gblPoints, ga, gb, Out.ok_bind, Out.pure_eq, hsb, hP]
    congr 1
    have hqq : q * q ≠ 0 := (mul_pos hq hq).ne'
    simp only [List.map_cons, List.map_nil, RealPoint.gbl, Option.map_none, Option.map_some, List.cons.injEq, GblPoint.mk.injEq, and_true,
      if_true, Option.some.injEq, Prod.mk.injEq]
    refine ⟨?_, ?_, ⟨?_, ?_, ?_⟩, ?_, ?_⟩
    · funext i j; simp [M5.zero, zero_eq]
    · rfl
    · funext i j; fin_cases i <;> fin_cases j <;> rfl
    · funext i; fin_cases i <;> rfl
    · funext i; fin_cases i <;> rfl
    · funext i; fin_cases i <;> simp [zero_eq]
    · funext i j
      fin_cases i <;> fin_cases j <;> simp [scatteringPrecision, one_eq, fin_div _ hqq]

theorem trajectory_exact {gbl : Fitter} {sortI : List (Dbl × Surface) → List (Dbl × Surface)} {sortE : List Element → List Element}
    {fl : ℝ → ℝ} (hI : IsStdSort sortWithS sortI) (hE : IsStdSort compareElements sortE) :
    ∃ (th : ℝ) (t : Traj) (rs : List RealPoint), trajectory (thickSetup th gbl sortI sortE fl) fourSeed exactHits = .ok t ∧
      (∀ e ∈ t.elems, e.surface ≠ none → 0 < e.arc) ∧
      (∀ e ∈ t.elems, e.measurement = true → e.residuals = [fin 0, fin 0]) ∧ gblPoints t.elems = .ok (rs.map RealPoint.gbl) ∧
      ∃ a b, t.elems = [a, b] ∧ b.measurement = true ∧ b.scatterer = true := by
  obtain ⟨m, hm, hm0⟩ : ∃ m, fillMap (fun _ => none) (expand exactHits) = .ok m ∧ m 0 = some exactDiskHit := by
    refine ⟨_, rfl, ?_⟩
    simp [toInt, exactDiskHit]
  obtain ⟨th, t2, t', rs, hL, hstep, ht', h⟩ := thick_prepared hI hE
  have hcall : callFor (fun _ => false) m (diskT th) = .ok (some (.measurement (scaled exactDiskHit.pos) exactPrec (diskT th) 5 true)) := by
    unfold callFor
    rw [show toInt (diskT th).id = 0 by rfl, hm0]
    rfl
  have hadd : addAll unitEnv (fun _ => false) m { make fourSeed with inters := [(fin 1, diskT th)] } [(fin 1, diskT th)] = .ok t2 := by
    rw [addAll, hcall, Out.ok_bind]
    dsimp only
    rw [hstep]
    rfl
  refine ⟨th, t', rs, ?_, h⟩
  unfold trajectory thickSetup
  simp only [hm, Out.ok_bind, hL, hadd, ht']

/-- a case for `C127_refit`: lcio_tracks writes the start helix -/
example {gbl : Fitter} (hg : IsLeastSquares gbl) {sortI : List (Dbl × Surface) → List (Dbl × Surface)} {sortE : List Element → List Element}
    {fl : ℝ → ℝ} (hI : IsStdSort sortWithS sortI) (hE : IsStdSort compareElements sortE) (state : TrackState)
    {tp0 : TP} (h0 : readLCIO state = .ok tp0) :
    ∃ th o C, Refitted (thickSetup th gbl sortI sortE fl) ⟨state, exactHits⟩ o ∧
      o.states = [{ createLCIO fl ⟨C, hpR 1 1 0 0 0, V3.zero⟩ with ref := V3.zero, location := 1 }] := by
  obtain ⟨th, t, rs, ht, h1, h2, h3, -⟩ := trajectory_exact (gbl := gbl) (fl := fl) hI hE
  obtain ⟨ps, r, w', o, -, -, h4, -⟩ := C98_refitted_partial (S := thickSetup th gbl sortI sortE fl) hI hE 0 (init fun _ => none)
    (trk := ⟨state, exactHits⟩) (by simp [exactHits]) h0 seed_exact ht
  have hr : Refitted (thickSetup th gbl sortI sortE fl) ⟨state, exactHits⟩ o := ⟨_, _, _, h4⟩
  obtain ⟨C, hC⟩ := C127_refit hg hI hE hr (by simp [exactHits]) (om := 1) (d := 0) (ph := 0) (by norm_num) (by linarith [Real.pi_pos])
    Real.pi_pos.le seed_exact ht h1 h2 h3 (bx := 0) (by' := 0) (bz := 3) rfl (Or.inr (Or.inr (by norm_num)))
  exact ⟨th, o, C, hr, hC⟩

end Example

end Verif
