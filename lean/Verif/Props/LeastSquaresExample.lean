import Verif.Props.LeastSquares
import Verif.Props.Acceptance

/-!
# A case for C127 and C128

A track and a disk with a hit where the track crosses it.
-/

open Classical

noncomputable section

namespace Verif

open Dbl Traj World Matrix

namespace Example

/-- propagation with the unit matrix -/
def unitEnv : Env := envJ fun _ _ _ _ _ _ _ => M5.re (1 : Matrix (Fin 5) (Fin 5) ℝ)

/-- the point where the track crosses the disk -/
def crossingPoint : V3 := pointAt (fin 1) (hpR 1 1 0 0 0) (V3.re 0 0 0)

/-- the measurement at this point, with precisions 4 and 9 -/
def exactHit : AddOp := .measurement crossingPoint [fin 4, fin 9] disk 7 false

theorem exactHit_on : HitsOnTrack unitEnv (make tp) [exactHit] := by
  refine ⟨trivial, ?_⟩
  rintro pos prec surf id sc h
  obtain ⟨-, e, fn, h2, -, -, h5, -⟩ := added_gen (g := fun _ _ _ _ _ _ _ => M5.re (1 : Matrix (Fin 5) (Fin 5) ℝ)) start_zero
    (AddsDisk.measurement (ib := fun _ => true) crossingPoint [fin 4, fin 9] 7 false)
  unfold exactHit at h
  injection h with a1 a2 a3 a4 a5
  subst a1 a2 a3 a4 a5
  refine ⟨⟨_, _, by simp only [crossingPoint, pointAt_re one_ne_zero]; rfl⟩, ?_⟩
  intro e' he'
  have hh : ((make tp).step unitEnv exactHit).1 = _ := h2
  change ((make tp).step unitEnv exactHit).1.elems = (make tp).withStart.elems ++ [e'] at he'
  have hl : (make tp).withStart.elems.length = 1 := by rw [withStart_length]; rfl
  obtain ⟨a, ha⟩ := List.length_eq_one_iff.mp hl
  rw [hh, ha] at he'
  simp only [List.cons_append, List.nil_append, List.cons.injEq, and_true] at he'
  rw [← he'.2]
  exact h5

/-- the projection on the disk is finite -/
theorem projection_finite (fn om : ℝ) {proj : Fin 4 → Dbl} (h : calculateLocalToMeasurementProjectionMatrix
    (calculateLocalCurvilinearSystem 0 (hpR om 1 fn 0 0)).1 (calculateLocalCurvilinearSystem 0 (hpR om 1 fn 0 0)).2
    [V3.re 1 0 0, V3.re 0 1 0] = .ok proj) :
    ∃ P : Matrix (Fin 2) (Fin 2) ℝ, proj = ![fin (P 0 0), fin (P 0 1), fin (P 1 0), fin (P 1 1)] := by
  have hF : calculateLocalCurvilinearSystem 0 (hpR om 1 fn 0 0) = (V3.of ![-Real.sin fn, Real.cos fn, 0],
      V3.of ![-Real.cos fn * Real.sin (Real.arctan 1), -Real.sin fn * Real.sin (Real.arctan 1), Real.cos (Real.arctan 1)]) := by
    simp only [calculateLocalCurvilinearSystem, calculatePhi0_hpR, calculateCurvature_hpR, calculateLambda_hpR,
      zero_eq, fin_mul, fin_sub, fin_neg, sin_fin, cos_fin, mul_zero, sub_zero, V3.of, V3.re, cons_val_zero, cons_val_one, cons_val]
  have hU : V3.re 1 0 0 = V3.of ![1, 0, 0] := rfl
  have hV : V3.re 0 1 0 = V3.of ![0, 1, 0] := rfl
  rw [hF, hU, hV] at h
  by_cases hd : (!![dot3 ![1, 0, 0] ![-Real.sin fn, Real.cos fn, 0], dot3 ![1, 0, 0] ![-Real.cos fn * Real.sin (Real.arctan 1),
      -Real.sin fn * Real.sin (Real.arctan 1), Real.cos (Real.arctan 1)];
      dot3 ![0, 1, 0] ![-Real.sin fn, Real.cos fn, 0], dot3 ![0, 1, 0] ![-Real.cos fn * Real.sin (Real.arctan 1),
      -Real.sin fn * Real.sin (Real.arctan 1), Real.cos (Real.arctan 1)]] : Matrix (Fin 2) (Fin 2) ℝ).det = 0
  · obtain ⟨m, hm⟩ := C23_singular _ _ _ _ hd
    rw [hm] at h
    cases h
  · obtain ⟨P, hP, -⟩ := C23_inverse _ _ _ _ hd
    rw [hP] at h
    injection h with h
    exact ⟨P, h.symm⟩

/-- the hypotheses of `C127_unchanged` and `C128_improves` are met -/
theorem exactHit_fit {sort : List Element → List Element} (hsort : IsStdSort compareElements sort) :
    ∃ (t : Traj) (rs : List RealPoint), (after unitEnv (make tp) [exactHit]).prepareForFitting unitEnv sort = .ok t ∧
      gblPoints t.elems = .ok (rs.map RealPoint.gbl) ∧ ∃ a b fn, t.elems = [a, b] ∧ a.tp.hp = hpR 1 1 0 0 0 ∧
        b.tp.hp = hpR 1 1 fn 0 0 ∧ b.tp.rp = crossingPoint ∧ b.measurement = true := by
  obtain ⟨hok, e, fn, h2, h3, h4, h5, h6, h7⟩ := added_gen (g := fun _ _ _ _ _ _ _ => M5.re (1 : Matrix (Fin 5) (Fin 5) ℝ)) start_zero
    (AddsDisk.measurement (ib := fun _ => true) crossingPoint [fin 4, fin 9] 7 false)
  have ht : after unitEnv (make tp) [exactHit] = _ := h2
  have hzero := after_exact exactHit_on (by simp [make])
  obtain ⟨back, e', -, s2, s3⟩ := measurement_step (env := unitEnv) (t := make tp) hok
  have hl : (make tp).withStart.elems.length = 1 := by rw [withStart_length]; rfl
  obtain ⟨st, hst⟩ := List.length_eq_one_iff.mp hl
  have hee : e' = e := by
    have hh : ((make tp).step unitEnv exactHit).1 = _ := h2
    change ((make tp).step unitEnv exactHit).1.elems = _ at s2
    rw [hh, hst] at s2
    simp only [List.cons_append, List.nil_append, List.cons.injEq, and_true] at s2
    exact s2.2.symm
  subst hee
  have hres : e'.measurement = true → e'.residuals = [fin 0, fin 0] := hzero e' (by rw [ht]; simp)
  rw [ht]
  obtain ⟨t', ht'⟩ := C50_defined_partial unitEnv hsort ⟨tpAt 0 0, [Element.start (fin 0) (tpAt 0 0) 0, e'], [], pionMass⟩ (by simp)
    (by
      intro a ha
      simp only [List.mem_cons, List.not_mem_nil, or_false] at ha
      rcases ha with rfl | rfl
      · exact ⟨_, rfl⟩
      · exact ⟨_, h3⟩)
    (by
      intro a ha hs
      simp only [List.mem_cons, List.not_mem_nil, or_false] at ha
      rcases ha with rfl | rfl
      · cases hs
      · rw [h7] at hs; cases hs)
  obtain ⟨a, b, q1, q2, q3⟩ := prepare_pair hsort (a := Element.start (fin 0) (tpAt 0 0) 0) (b := e') rfl h3 (by norm_num) rfl ht'
  have hj := C50_jacobians hsort ht'
  have hja : a.jac = some M5.zero := by
    have := hj.2.2 (by rw [q1]; simp)
    simpa [q1] using this
  have hjb : b.jac = some (M5.re (1 : Matrix (Fin 5) (Fin 5) ℝ)) := by
    have := hj.2.1 (by rw [q1]; simp)
    simp only [q1, List.getElem_cons_succ, List.getElem_cons_zero] at this
    obtain ⟨_, _, _, -, -, -, -, hj'⟩ := this
    exact hj'
  obtain ⟨hit, tp', w, proj, r1, r2, r3, r4, rfl⟩ := measurement_ok s3
  have hmb : b.measurement = true := (congrArg Element.measurement q3 : (noJac b).measurement = _)
  have hsb : b.scatterer = false := (congrArg Element.scatterer q3 : (noJac b).scatterer = _)
  have hrb : b.residuals = [fin 0, fin 0] := (congrArg Element.residuals q3 : (noJac b).residuals = _).trans (hres rfl)
  have hpb : b.precisions = [fin 4, fin 9] := (congrArg Element.precisions q3 : (noJac b).precisions = _)
  have hdb : b.measDirs = some [_, _] := (congrArg Element.measDirs q3 : (noJac b).measDirs = _)
  have hqb : b.proj = some proj := (congrArg Element.proj q3 : (noJac b).proj = _)
  have htb : b.tp.hp = hpR 1 1 fn 0 0 := (congrArg (fun e => e.tp.hp) q3 : (noJac b).tp.hp = _).trans h4
  have hcb : b.tp.rp = crossingPoint := (congrArg (fun e => e.tp.rp) q3 : (noJac b).tp.rp = _).trans h5
  have hta : a.tp.hp = hpR 1 1 0 0 0 := (congrArg (fun e => e.tp.hp) q2 : (noJac a).tp.hp = _)
  have hma : a.measurement = false := (congrArg Element.measurement q2 : (noJac a).measurement = _)
  have hsa : a.scatterer = false := (congrArg Element.scatterer q2 : (noJac a).scatterer = _)
  obtain ⟨P, hP⟩ := projection_finite fn 1 (by
    have h4' := h4
    dsimp only at h4'
    have r4' := r4
    rw [h4'] at r4'
    exact r4')
  refine ⟨t', [⟨0, none, none⟩, ⟨1, some (P, ![0, 0], ![4, 9]), none⟩], ht', ?_, a, b, fn, q1, hta, htb, hcb, hmb⟩
  rw [q1]
  have ga : gblPoint a = .ok ⟨M5.zero, none, none⟩ := by
    unfold gblPoint
    rw [hja]
    simp only [hma, hsa, Bool.false_eq_true, if_false, Out.pure_eq, Out.ok_bind]
  have gb := gblPoint_eq (l := []) (l' := []) (q := 0) (a := 0) (b := 0) hjb hmb hdb hqb hrb hpb (by rw [hsb]; simp)
  simp only [gblPoints, ga, gb, Out.ok_bind, Out.pure_eq, hsb, hP]
  congr 1
  simp only [List.map_cons, List.map_nil, RealPoint.gbl, Option.map_none, Option.map_some, List.cons.injEq, GblPoint.mk.injEq, and_true, Bool.false_eq_true, if_false,
    Option.some.injEq, Prod.mk.injEq]
  refine ⟨?_, ?_, ?_, ?_, ?_⟩
  · funext i j; simp [M5.zero, zero_eq]
  · rfl
  · funext i j; fin_cases i <;> fin_cases j <;> rfl
  · funext i; fin_cases i <;> rfl
  · funext i; fin_cases i <;> rfl

end Example

open Example in
/-- a case for C127 and C128: after the fit the element at the disk has the parameters it had before -/
theorem C127_example {sort : List Element → List Element} (hsort : IsStdSort compareElements sort) :
    ∃ (gbl : Fitter) (t : Traj) (b : Element) (w1 : World) (p : ℕ) (r : FitResults), IsLeastSquares gbl ∧
      (after unitEnv (make tp) [exactHit]).prepareForFitting unitEnv sort = .ok t ∧ t.elems[1]? = some b ∧ b.measurement = true ∧
      ((init fun _ => some (t, unitEnv.field)).fit gbl 0).1.getResults 1 = (w1, .ok p) ∧ w1.heap p = some r ∧
      r.estParams.hp = b.tp.hp ∧ r.estParams.rp = crossingPoint := by
  obtain ⟨gbl, hg⟩ := exists_leastSquares
  obtain ⟨t, rs, h1, h2, a, b, fn, h3, -, h5, h6, h7⟩ := exactHit_fit hsort
  have hb : t.elems[1]? = some b := by rw [h3]; rfl
  obtain ⟨p, hp⟩ := C56_defined gbl (init fun _ => some (t, unitEnv.field)) 0 rfl h2 1 (by rw [h3]; simp)
  obtain ⟨r, r1, r2, r3, -⟩ := C127_unchanged hg hsort (ops := [exactHit]) (by
      intro op hop
      rw [List.mem_singleton] at hop
      subst hop
      intro q hq x hx
      simp only [List.mem_cons, List.not_mem_nil, or_false] at hq
      rcases hq with rfl | rfl <;> rw [fin_inj] at hx <;> rw [← hx] <;> norm_num) exactHit_on h1 h2
    (trajs := fun _ => some (t, unitEnv.field)) (before := []) (between := []) (i := 0) (field := unitEnv.field) rfl
    (by intro o ho; cases ho) (by simp) hb h5 (bx := 0) (by' := 0) (bz := 3) rfl (Or.inr (Or.inr (by norm_num))) (w1 := _) (p := p) (Prod.ext rfl hp)
  exact ⟨gbl, t, b, _, p, r, hg, h1, hb, h7, Prod.ext rfl hp, r1, r2, r3.trans h6⟩

/-! ## Without field -/

/-- without field the Jacobian from curvilinear to perigee parameters is not defined -/
theorem curvilinearToL3_no_field (om tl ph d z : ℝ) :
    curvilinearToL3Jacobian (hpR om tl ph d z) (V3.re 0 0 0) OMEGA 3 = nan := by
  have hu : (V3.re 0 0 0).unit = ⟨nan, nan, nan⟩ := by
    simp [V3.unit, V3.re, V3.r]
  unfold curvilinearToL3Jacobian curvilinearToPerigeeJacobian perigeeToL3Jacobian
  simp [hu, M5.mul, M5.set, V3.cross, V3.dot]

/-- C127 needs a field: where it vanishes, the fitted curvature is not a number, even without any correction. -/
theorem C127_no_field {f : GblFit} {t : Traj} {field : V3 → V3} {label : ℤ} {r : FitResults} (h : ResultOf f t field label r)
    {e : Element} (he : t.elems[label.toNat]? = some e) {om tl ph d z : ℝ} (hhp : e.tp.hp = hpR om tl ph d z)
    (hfield : field e.tp.rp = V3.re 0 0 0) : r.estParams.hp OMEGA = nan := by
  have key : ∀ c : V5, V5.add e.tp.hp (M5.mulVec (curvilinearToL3Jacobian e.tp.hp (field e.tp.rp)) c) OMEGA = nan := by
    intro c
    have := curvilinearToL3_no_field om tl ph d z
    rw [← hhp, ← hfield] at this
    simp [V5.add, M5.mulVec, this]
  obtain ⟨n, e', hn, he', -, J, hJ, p1, p2, -⟩ := h.params
  have hnn : label.toNat = n := by omega
  rw [hnn, he'] at he
  injection he with he
  subst he
  obtain ⟨err, c, C, hres⟩ : ∃ err c C, f.results label = (err, c, C) := ⟨_, _, _, rfl⟩
  by_cases h0 : err = 0
  · subst h0
    rw [p1 c C hres, hJ]; exact key _
  · rw [p2 err c C hres h0, hJ]; exact key _

/-! ## A fit with a unique minimum -/

/-- propagation by one unit in a field: the curvature changes the slope, the slopes change the offsets -/
def unitStep : Matrix (Fin 5) (Fin 5) ℝ := !![1, 0, 0, 0, 0; 1, 1, 0, 0, 0; 0, 0, 1, 0, 0; 0, 1, 0, 1, 0; 0, 0, 1, 0, 1]

/-- three points with measurements of both offsets -/
def threePoints : List RealPoint := List.replicate 3 ⟨unitStep, some (1, 0, 1), none⟩

/-- three hits on the track determine it: a case for the specification of a fit -/
theorem threePoints_fit : IsFit threePoints (fun _ => 0) (fun _ => 0) := by
  have hw : ∀ p ∈ threePoints, Weighted p := by
    intro p hp
    rw [List.eq_of_mem_replicate hp]
    refine ⟨?_, fun b S h => by cases h⟩
    intro P r w h i
    injection h with h
    simp only [Prod.mk.injEq] at h
    rw [← h.2.2]; simp
  have h0 : cost threePoints (fun _ => 0) (fun _ => 0) = 0 := by
    rw [cost_zero fun p hp b S hs => ((hw p hp).scat b S hs).1]
    simp [threePoints, startCost]
  refine ⟨zero_line _, fun y ν h => by rw [h0]; exact cost_nonneg hw y ν, fun y ν h hc k hk => ?_⟩
  have hν : ∀ k < 3, ν k = 0 := fun k hk => h.smooth k ⟨unitStep, some (1, 0, 1), none⟩ (by
    rw [threePoints, List.getElem?_replicate, if_pos hk]) rfl
  have hy : ∀ k < 2, y (k + 1) = unitStep.mulVec (y k) := by
    intro k hk
    have := h.step k ⟨unitStep, some (1, 0, 1), none⟩ (by rw [threePoints, List.getElem?_replicate, if_pos (by omega)])
    rw [this, hν k (by omega), show kick 0 = 0 by funext i; fin_cases i <;> rfl, add_zero]
  rw [h0] at hc
  have hz : ∀ k : Fin 3, y k 3 = 0 ∧ y k 4 = 0 := by
    intro k
    have hk := (Finset.sum_eq_zero_iff_of_nonneg (fun (k : Fin threePoints.length) _ =>
      pointCost_nonneg (hw threePoints[k] (List.getElem_mem _)) (y k) (ν k))).mp hc k (Finset.mem_univ _)
    have he : threePoints[k] = ⟨unitStep, some (1, 0, 1), none⟩ := List.eq_of_mem_replicate (List.getElem_mem _)
    change pointCost threePoints[k] (y k) (ν k) = 0 at hk
    rw [he] at hk
    simp only [pointCost, Fin.sum_univ_two, Pi.one_apply, Pi.zero_apply, Matrix.one_mulVec, cons_val_zero, cons_val_one, one_mul, zero_sub,
      add_zero, even_two.neg_pow] at hk
    constructor <;> nlinarith [sq_nonneg (y k 3), sq_nonneg (y k 4)]
  obtain ⟨a0, b0⟩ := hz 0
  obtain ⟨a1, b1⟩ := hz 1
  obtain ⟨a2, b2⟩ := hz 2
  have e1 := hy 0 (by omega)
  have e2 := hy 1 (by omega)
  have c10 := congrFun e1 0
  have c11 := congrFun e1 1
  have c12 := congrFun e1 2
  have c13 := congrFun e1 3
  have c14 := congrFun e1 4
  have c20 := congrFun e2 0
  have c21 := congrFun e2 1
  have c22 := congrFun e2 2
  have c23 := congrFun e2 3
  have c24 := congrFun e2 4
  simp [unitStep, Matrix.mulVec, dotProduct, Fin.sum_univ_succ] at c10 c11 c12 c13 c14 c20 c21 c22 c23 c24
  simp at a0 b0 a1 b1 a2 b2
  have hk' : k < 3 := hk
  refine ⟨?_, hν k hk'⟩
  funext i
  interval_cases k <;> fin_cases i <;> simp <;> linarith

end Verif
