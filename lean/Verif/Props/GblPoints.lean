import Verif.Model.Gbl
import Verif.Props.Prepare
import Mathlib.LinearAlgebra.Matrix.PosDef
import Mathlib.LinearAlgebra.Matrix.Notation

/-!
# C52, C53, C73: what is handed to the fitter
-/

open Classical

noncomputable section

namespace Verif

open Dbl Traj

/-! ## C52 -/

/-- multiple scattering for the track of the element `back` at the hit on the surface -/
def hitQMS (env : Env) (mass : Dbl) (surf : Surface) (hit : Hit) (tp : TP) : Dbl :=
  computeQMS surf (surf.globalToLocal hit.xx) (momentumAtPCA env.globalField tp.hp tp.rp) mass

/-- the last three entries of a list -/
theorem gblScatterer_last3 (e : Element) (l : List Dbl) (q a b : Dbl) (h : e.precisions = l ++ [q, a, b]) :
    gblScatterer e = .ok (![0, 0], scatteringPrecision q a b) := by
  unfold gblScatterer
  have hl : (l ++ [q, a, b]).length = l.length + 3 := by simp
  simp only [h, hl]
  rw [show l.length + 3 - 3 = l.length by omega, show l.length + 3 - 2 = l.length + 1 by omega,
    show l.length + 3 - 1 = l.length + 2 by omega]
  simp

theorem gblPoint_eq {e : Element} {j : M5} {u v : V3} {proj : Fin 4 → Dbl} {r0 r1 p0 p1 q a b : Dbl} {l l' : List Dbl}
    (h1 : e.jac = some j) (h2 : e.measurement = true) (h3 : e.measDirs = some [u, v]) (h4 : e.proj = some proj)
    (h5 : e.residuals = [r0, r1]) (h6 : e.precisions = p0 :: p1 :: l)
    (h7 : e.scatterer = true → e.precisions = l' ++ [q, a, b]) :
    gblPoint e = .ok ⟨j, some (![![proj 0, proj 1], ![proj 2, proj 3]], ![r0, r1], ![p0, p1]),
      if e.scatterer then some (![0, 0], scatteringPrecision q a b) else none⟩ := by
  have hm : gblMeasurement e = .ok (![![proj 0, proj 1], ![proj 2, proj 3]], ![r0, r1], ![p0, p1]) := by
    unfold gblMeasurement
    rw [h3, h4, h5, h6]
    rfl
  unfold gblPoint
  rw [h1]
  simp only [h2, if_true, hm, Out.ok_bind, Out.pure_eq]
  by_cases hs : e.scatterer = true
  · simp only [hs, if_true, gblScatterer_last3 e l' q a b (h7 hs), Out.ok_bind]
  · simp only [hs, Bool.false_eq_true, if_false]

theorem measurement_step {env : Env} {t : Traj} {pos : V3} {prec : List Dbl} {surf : Surface} {id : ℕ} {sc : Bool}
    (h : (t.step env (.measurement pos prec surf id sc)).2 = .ok true) :
    ∃ back e, t.withStart.elems.getLast? = some back ∧
      (t.step env (.measurement pos prec surf id sc)).1.elems = t.withStart.elems ++ [e] ∧
      measurementElement env t.mass back pos prec surf id sc = .ok (some e) := by
  obtain ⟨back, o, h1, h2, h3⟩ := step_cases env t (.measurement pos prec surf id sc) trivial
  rcases h3 with ⟨p, pr, s, i, c, h4, h5⟩ | ⟨s, h4, -⟩
  · injection h4 with a1 a2 a3 a4 a5
    subst a1 a2 a3 a4 a5
    rw [h2] at h ⊢
    rcases append_cases t.withStart o with ⟨e, q1, q2⟩ | ⟨-, q2⟩
    · refine ⟨back, e, h1, by rw [q2], by rw [← h5, q1]⟩
    · exact absurd h q2
  · cases h4

theorem scatterer_step {env : Env} {t : Traj} {surf : Surface} (h : (t.step env (.scatterer surf)).2 = .ok true) :
    ∃ back e, t.withStart.elems.getLast? = some back ∧
      (t.step env (.scatterer surf)).1.elems = t.withStart.elems ++ [e] ∧
      scattererElement env t.mass back surf = .ok (some e) := by
  obtain ⟨back, o, h1, h2, h3⟩ := step_cases env t (.scatterer surf) trivial
  rcases h3 with ⟨p, pr, s, i, c, h4, -⟩ | ⟨s, h4, h5⟩
  · cases h4
  · injection h4 with a1
    subst a1
    rw [h2] at h ⊢
    rcases append_cases t.withStart o with ⟨e, q1, q2⟩ | ⟨-, q2⟩
    · refine ⟨back, e, h1, by rw [q2], by rw [← h5, q1]⟩
    · exact absurd h q2

/-- what the point made from the new element must contain: the residuals are the differences of the measured and the expected
local coordinates; the precisions are `a` and `b` -/
structure PointOf (env : Env) (mass : Dbl) (surf : Surface) (hit : Hit) (tp : TP) (pos : V3) (sc : Bool) (a b : Dbl)
    (j : M5) (pt : GblPoint) : Prop where
  jac : pt.jac = j
  meas : ∃ P, pt.meas = some (P,
    ![(surf.globalToLocal pos).u - (surf.globalToLocal hit.xx).u, (surf.globalToLocal pos).v - (surf.globalToLocal hit.xx).v],
    ![a, b])
  scat : pt.scat = if sc then
    some (![0, 0], scatteringPrecision (hitQMS env mass surf hit tp * hitQMS env mass surf hit tp) 0 0) else none

/-- C52 (partial): for a two-dimensional measurement the precisions handed to the fitter are those of the user, also for a
measurement on a scatterer; for a one-dimensional measurement without scattering the second one is 0.  The scattering
entries are those of the surface.  Missing: one-dimensional measurement on a scatterer (`C52_false`). -/
theorem C52_measurement_partial {env : Env} {t : Traj} {pos : V3} {prec : List Dbl} {surf : Surface} {id : ℕ} {sc : Bool}
    (h : (t.step env (.measurement pos prec surf id sc)).2 = .ok true) :
    ∃ (back e : Element) (hit : Hit) (tp : TP) (w : Dbl), t.withStart.elems.getLast? = some back ∧
      (t.step env (.measurement pos prec surf id sc)).1.elems = t.withStart.elems ++ [e] ∧
      intersectWithSurface surf back.tp.hp back.tp.rp 0 V3.zero 1 false = .ok hit ∧ hit.found = true ∧
      moveHelixTo back.tp hit.xx false = .ok (tp, w) ∧
      (∀ a b j, prec = [a, b] → ∃ pt, gblPoint { e with jac := some j } = .ok pt ∧
        PointOf env t.mass surf hit tp pos sc a b j pt) ∧
      (∀ a j, prec = [a] → sc = false → ∃ pt, gblPoint { e with jac := some j } = .ok pt ∧
        PointOf env t.mass surf hit tp pos sc a 0 j pt) := by
  obtain ⟨back, e, h1, h2, h3⟩ := measurement_step h
  obtain ⟨hit, tp, w, proj, r1, r2, r3, r4, rfl⟩ := measurement_ok h3
  refine ⟨back, _, hit, tp, w, h1, h2, r1, r2, r3, ?_, ?_⟩
  · rintro a b j rfl
    refine ⟨_, gblPoint_eq (l' := [a, b]) (q := hitQMS env t.mass surf hit tp * hitQMS env t.mass surf hit tp) (a := 0) (b := 0)
      (p0 := a) (p1 := b) (l := if sc then [hitQMS env t.mass surf hit tp * hitQMS env t.mass surf hit tp, 0, 0] else [])
      rfl rfl rfl rfl rfl ?_ ?_, rfl, ⟨_, rfl⟩, rfl⟩
    · cases sc <;> rfl
    · rintro (rfl : sc = true)
      rfl
  · rintro a j rfl rfl
    exact ⟨_, rfl, rfl, ⟨_, rfl⟩, rfl⟩

/-- C52: the point of a scatterer without measurement has the scattering entries of the surface and no measurement. -/
theorem C52_scatterer {env : Env} {t : Traj} {surf : Surface} (h : (t.step env (.scatterer surf)).2 = .ok true) :
    ∃ (back e : Element) (hit : Hit) (tp : TP) (w : Dbl), t.withStart.elems.getLast? = some back ∧
      (t.step env (.scatterer surf)).1.elems = t.withStart.elems ++ [e] ∧
      intersectWithSurface surf back.tp.hp back.tp.rp 0 V3.zero 1 true = .ok hit ∧ hit.found = true ∧
      moveHelixTo back.tp hit.xx false = .ok (tp, w) ∧
      ∀ j, gblPoint { e with jac := some j } = .ok ⟨j, none,
        some (![0, 0], scatteringPrecision (hitQMS env t.mass surf hit tp * hitQMS env t.mass surf hit tp) 0 0)⟩ := by
  obtain ⟨back, e, h1, h2, h3⟩ := scatterer_step h
  obtain ⟨hit, tp, w, proj, r1, r2, r3, r4, rfl⟩ := scatterer_ok h3
  exact ⟨back, _, hit, tp, w, h1, h2, r1, r2, r3, fun j => rfl⟩

/-- C52 is false for a one-dimensional measurement on a scatterer: the second precision is the multiple scattering entry. -/
theorem C52_second_false {env : Env} {t : Traj} {pos : V3} {p : Dbl} {surf : Surface} {id : ℕ}
    (h : (t.step env (.measurement pos [p] surf id true)).2 = .ok true) :
    ∃ (back e : Element) (hit : Hit) (tp : TP) (w : Dbl), t.withStart.elems.getLast? = some back ∧
      (t.step env (.measurement pos [p] surf id true)).1.elems = t.withStart.elems ++ [e] ∧
      intersectWithSurface surf back.tp.hp back.tp.rp 0 V3.zero 1 false = .ok hit ∧
      moveHelixTo back.tp hit.xx false = .ok (tp, w) ∧
      ∀ j, ∃ pt, gblPoint { e with jac := some j } = .ok pt ∧
        PointOf env t.mass surf hit tp pos true p (hitQMS env t.mass surf hit tp * hitQMS env t.mass surf hit tp) j pt := by
  obtain ⟨back, e, h1, h2, h3⟩ := measurement_step h
  obtain ⟨hit, tp, w, proj, r1, r2, r3, r4, rfl⟩ := measurement_ok h3
  exact ⟨back, _, hit, tp, w, h1, h2, r1, r3, fun j => ⟨_, rfl, rfl, ⟨_, rfl⟩, rfl⟩⟩

/-! ## C53 -/

/-- covariance of the two slopes for multiple scattering with variance `q` of the angle in a plane, for direction cosines
`c1`, `c2` of the track with the offset directions -/
def scatteringCov (q c1 c2 : ℝ) : Matrix (Fin 2) (Fin 2) ℝ :=
  (q / (1 - c1 ^ 2 - c2 ^ 2) ^ 2) • !![1 - c2 ^ 2, c1 * c2; c1 * c2, 1 - c1 ^ 2]

/-- C53: the precision matrix of a scatterer is symmetric positive definite and the inverse of the covariance of the slopes. -/
theorem C53_precision {e : Element} {l : List Dbl} {q c1 c2 : ℝ} (hp : e.precisions = l ++ [fin q, fin c1, fin c2]) (hq : 0 < q)
    (hc : c1 ^ 2 + c2 ^ 2 < 1) : ∃ M : Matrix (Fin 2) (Fin 2) ℝ,
      gblScatterer e = .ok (![0, 0], fun i j => fin (M i j)) ∧ M.PosDef ∧ M * scatteringCov q c1 c2 = 1 := by
  have hs : 0 < 1 - c1 ^ 2 - c2 ^ 2 := by linarith
  set k : ℝ := (1 - c1 * c1 - c2 * c2) / q with hk
  have hkp : 0 < k := div_pos (by nlinarith) hq
  refine ⟨!![k * (1 - c1 * c1), -1 * k * c1 * c2; -1 * k * c1 * c2, k * (1 - c2 * c2)], ?_, ?_, ?_⟩
  · rw [gblScatterer_last3 e l _ _ _ hp]
    congr 2
    funext i j
    have h1 : (-1 : Dbl) = fin (-1) := by rw [one_eq, fin_neg]
    fin_cases i <;> fin_cases j <;>
      simp [scatteringPrecision, one_eq, fin_mul, fin_sub, fin_div _ hq.ne', hk]
  · refine Matrix.PosDef.of_dotProduct_mulVec_pos ?_ ?_
    · ext i j
      fin_cases i <;> fin_cases j <;> simp
    · intro x hx
      have hx' : x 0 ≠ 0 ∨ x 1 ≠ 0 := by
        by_contra h
        push Not at h
        apply hx
        funext i
        fin_cases i
        · exact h.1
        · exact h.2
      have e1 : star x ⬝ᵥ (!![k * (1 - c1 * c1), -1 * k * c1 * c2; -1 * k * c1 * c2, k * (1 - c2 * c2)]).mulVec x =
          k * (x 0 ^ 2 + x 1 ^ 2 - (c1 * x 0 + c2 * x 1) ^ 2) := by
        simp [Matrix.mulVec, dotProduct, Fin.sum_univ_two]
        ring
      rw [e1]
      have e2 : (c1 * x 0 + c2 * x 1) ^ 2 ≤ (c1 ^ 2 + c2 ^ 2) * (x 0 ^ 2 + x 1 ^ 2) := by
        nlinarith [sq_nonneg (c1 * x 1 - c2 * x 0)]
      have e3 : 0 < x 0 ^ 2 + x 1 ^ 2 := by
        rcases hx' with h | h
        · have := sq_pos_of_ne_zero h; nlinarith [sq_nonneg (x 1)]
        · have := sq_pos_of_ne_zero h; nlinarith [sq_nonneg (x 0)]
      exact mul_pos hkp (by nlinarith)
  · have hd : (1 - c1 ^ 2 - c2 ^ 2) ≠ 0 := hs.ne'
    have hk' : k = (1 - c1 ^ 2 - c2 ^ 2) / q := by rw [hk]; ring
    rw [hk']
    ext i j
    have hq' := hq.ne'
    fin_cases i <;> fin_cases j <;> simp [scatteringCov, Matrix.mul_apply, Fin.sum_univ_two] <;> field_simp <;> ring

/-- C53: a scatterer added to a trajectory whose multiple scattering is finite and not zero has such a precision matrix:
`1/qms²` on the diagonal. -/
theorem C53_scatterer {q : ℝ} (hq : q ≠ 0) : scatteringPrecision (fin q * fin q) 0 0 =
    ![![fin (1 / q ^ 2), fin 0], ![fin 0, fin (1 / q ^ 2)]] := by
  have hq2 : q * q ≠ 0 := mul_ne_zero hq hq
  unfold scatteringPrecision
  simp only [zero_eq, one_eq, fin_mul, fin_sub, fin_neg, fin_div _ hq2]
  congr 2 <;> simp [pow_two]

/-- C53 needs `qms > 0`: for a surface without thickness the scattering is NaN, for any track. -/
theorem C53_no_thickness (surf : Surface) (uv : V2) (mom : V3) (mass : Dbl) (h1 : surf.innerThickness = fin 0)
    (h2 : surf.outerThickness = fin 0) : computeQMS surf uv mom mass = nan := by
  have e : ∀ x : Dbl, fin 0 / x = fin 0 ∨ fin 0 / x = nan := by
    intro x
    cases x with
    | fin x =>
      by_cases h : x = 0
      · subst h; right; simp
      · left; rw [fin_div _ h, zero_div]
    | inf s => left; cases s <;> rfl
    | nan => right; simp
  unfold computeQMS
  simp only [h1, h2, fin_add, add_zero]
  rcases e surf.innerMaterial.radLength with a | a <;> rcases e surf.outerMaterial.radLength with b | b <;>
    simp [a, b]

/-! ## C73 -/

/-- the element can be converted to a point once it has a Jacobian -/
structure ElemOk (e : Element) : Prop where
  meas : e.measurement = true → ∃ u v proj r0 r1 p0 p1 l, e.measDirs = some [u, v] ∧ e.proj = some proj ∧
    e.residuals = [r0, r1] ∧ e.precisions = p0 :: p1 :: l
  scat : e.scatterer = true → ∃ l q a b, e.precisions = l ++ [q, a, b]

theorem elemOk_noJac {e e' : Element} (h : noJac e' = noJac e) (he : ElemOk e) : ElemOk e' := by
  have h1 : (noJac e').measurement = (noJac e).measurement := by rw [h]
  have h2 : (noJac e').measDirs = (noJac e).measDirs := by rw [h]
  have h3 : (noJac e').proj = (noJac e).proj := by rw [h]
  have h4 : (noJac e').residuals = (noJac e).residuals := by rw [h]
  have h5 : (noJac e').precisions = (noJac e).precisions := by rw [h]
  have h6 : (noJac e').scatterer = (noJac e).scatterer := by rw [h]
  simp only [noJac] at h1 h2 h3 h4 h5 h6
  constructor
  · rw [h1, h2, h3, h4, h5]; exact he.meas
  · rw [h6, h5]; exact he.scat

theorem gblPoint_ok {e : Element} (he : ElemOk e) {j : M5} (hj : e.jac = some j) :
    ∃ p, gblPoint e = .ok p ∧ p.jac = j ∧ (p.meas.isSome = e.measurement) ∧ (p.scat.isSome = e.scatterer) := by
  have hs : e.scatterer = true → ∃ s, gblScatterer e = .ok s := by
    intro h
    obtain ⟨l, q, a, b, hp⟩ := he.scat h
    exact ⟨_, gblScatterer_last3 e l q a b hp⟩
  have hm : e.measurement = true → ∃ s, gblMeasurement e = .ok s := by
    intro h
    obtain ⟨u, v, proj, r0, r1, p0, p1, l, h1, h2, h3, h4⟩ := he.meas h
    unfold gblMeasurement
    rw [h1, h2, h3, h4]
    exact ⟨_, rfl⟩
  unfold gblPoint
  rw [hj]
  by_cases h1 : e.measurement = true <;> by_cases h2 : e.scatterer = true
  · obtain ⟨m, em⟩ := hm h1
    obtain ⟨s, es⟩ := hs h2
    simp only [h1, h2, if_true, em, es, Out.ok_bind, Out.pure_eq]
    exact ⟨_, rfl, rfl, rfl, rfl⟩
  · obtain ⟨m, em⟩ := hm h1
    simp only [h1, h2, if_true, em, Out.ok_bind, Out.pure_eq, Bool.false_eq_true, if_false]
    exact ⟨_, rfl, rfl, rfl, rfl⟩
  · obtain ⟨s, es⟩ := hs h2
    simp only [h1, h2, if_true, es, Out.ok_bind, Out.pure_eq, Bool.false_eq_true, if_false]
    exact ⟨_, rfl, rfl, rfl, rfl⟩
  · simp only [h1, h2, Out.ok_bind, Out.pure_eq, Bool.false_eq_true, if_false]
    exact ⟨_, rfl, rfl, rfl, rfl⟩

theorem gblPoints_ok {l : List Element} (h : ∀ e ∈ l, ElemOk e ∧ e.jac.isSome = true) :
    ∃ ps, gblPoints l = .ok ps ∧ ps.map (fun p => some p.jac) = l.map Element.jac ∧
      ps.map (fun p => p.meas.isSome) = l.map Element.measurement ∧ ps.map (fun p => p.scat.isSome) = l.map Element.scatterer := by
  induction l with
  | nil => exact ⟨[], rfl, rfl, rfl, rfl⟩
  | cons e l ih =>
    obtain ⟨h1, h2⟩ := h e (by simp)
    obtain ⟨j, hj⟩ := Option.isSome_iff_exists.mp h2
    obtain ⟨p, e1, e2, e3, e4⟩ := gblPoint_ok h1 hj
    obtain ⟨ps, f1, f2, f3, f4⟩ := ih (fun e' he => h e' (by simp [he]))
    refine ⟨p :: ps, ?_, ?_, ?_, ?_⟩
    · simp only [gblPoints, e1, f1, Out.ok_bind, Out.pure_eq]
    · simp [e2, f2, hj]
    · simp [e3, f3]
    · simp [e4, f4]

/-- the user gives a precision for every measurement -/
def PrecGiven : AddOp → Prop
  | .measurement _ prec _ _ _ => prec ≠ []
  | _ => True

theorem withStart_elemOk {t : Traj} (h : ∀ e ∈ t.elems, ElemOk e) : ∀ e ∈ t.withStart.elems, ElemOk e := by
  unfold withStart
  by_cases h0 : t.elems = []
  · rw [if_pos h0]
    intro e he
    simp only [addElement, h0, List.nil_append, List.mem_singleton] at he
    subst he
    exact ⟨fun h => (by cases h), fun h => (by cases h)⟩
  · rwa [if_neg h0]

theorem step_elemOk {env : Env} {t : Traj} {op : AddOp} (hp : PrecGiven op) (h : ∀ e ∈ t.elems, ElemOk e) :
    ∀ e ∈ (t.step env op).1.elems, ElemOk e := by
  have hw := withStart_elemOk h
  by_cases ha : Adds op
  · obtain ⟨back, o, h1, h2, h3⟩ := step_cases env t op ha
    rw [h2]
    rcases append_cases t.withStart o with ⟨x, q1, q2⟩ | ⟨q1, -⟩
    · rw [q2]
      intro e he
      simp only [List.mem_append, List.mem_singleton] at he
      rcases he with he | rfl
      · exact hw e he
      · rcases h3 with ⟨p, pr, s, i, sc, h4, h5⟩ | ⟨s, h4, h5⟩
        · rw [q1] at h5
          obtain ⟨hit, tp, w, proj, r1, r2, r3, r4, rfl⟩ := measurement_ok h5.symm
          rw [h4] at hp
          constructor
          · intro _
            have hpad : ∀ l : List Dbl, l ≠ [] → ∃ p0 p1 l', (if l.length = 1 then l ++ [0] else l) = p0 :: p1 :: l' := by
              intro l hl
              match l, hl with
              | [a], _ => exact ⟨a, 0, [], rfl⟩
              | a :: b :: l, _ => exact ⟨a, b, l, by rw [if_neg (by simp)]⟩
            have hne : ∀ q, measurementPrecision pr sc q ≠ [] := by
              intro q
              unfold measurementPrecision
              cases sc
              · exact hp
              · simp
            obtain ⟨p0, p1, l', hl⟩ := hpad _ (hne _)
            exact ⟨_, _, _, _, _, p0, p1, l', rfl, rfl, rfl, hl⟩
          · rintro (rfl : sc = true)
            simp only [measurementPrecision, if_true]
            rw [if_neg (by simp)]
            exact ⟨pr, _, 0, 0, by rw [List.append_assoc, List.append_assoc]; rfl⟩
        · rw [q1] at h5
          obtain ⟨hit, tp, w, proj, r1, r2, r3, r4, rfl⟩ := scatterer_ok h5.symm
          exact ⟨fun h => (by cases h), fun _ => ⟨[], _, _, _, rfl⟩⟩
    · rw [q1]; exact hw
  · cases op with
    | measurement => exact absurd trivial ha
    | scatterer => exact absurd trivial ha
    | setMass m => exact h

theorem after_elemOk {env : Env} {t : Traj} {ops : List AddOp} (hp : ∀ op ∈ ops, PrecGiven op) (h : ∀ e ∈ t.elems, ElemOk e) :
    ∀ e ∈ (after env t ops).elems, ElemOk e := by
  induction ops with
  | nil => exact h
  | cons op ops ih => exact step_elemOk (hp op (by simp)) (ih fun o ho => hp o (by simp [ho]))

/-- C73: for a trajectory built by any history of add calls (with at least one precision per measurement) and prepared for
fitting, `fit` returns; it hands over exactly one point per element, in the order of the arc length, with the Jacobian
of the element, and with a measurement or scatterer exactly if the element has one. -/
theorem C73_points {env : Env} {sort : List Element → List Element} (hsort : IsStdSort compareElements sort) (tp : TP)
    (ops : List AddOp) (hp : ∀ op ∈ ops, PrecGiven op) {t : Traj}
    (h : (after env (make tp) ops).prepareForFitting env sort = .ok t) :
    ∃ ps, gblPoints t.elems = .ok ps ∧ ps.map (fun p => some p.jac) = t.elems.map Element.jac ∧
      ps.map (fun p => p.meas.isSome) = t.elems.map Element.measurement ∧
      ps.map (fun p => p.scat.isSome) = t.elems.map Element.scatterer ∧
      ∀ (gbl : Fitter) (w : World) (i : ℕ) (field : V3 → V3), w.trajs i = some (t, field) →
        (w.fit gbl i).2 = .ok (decide ((gbl ps).ret = 0)) ∧ (w.fit gbl i).1.gi.fitted = some (gbl ps) := by
  obtain ⟨-, -, -, h4, -, h6⟩ := C50_elements hsort h
  have hok : ∀ e ∈ (after env (make tp) ops).elems, ElemOk e := after_elemOk hp (by simp [make])
  obtain ⟨ps, e1, e2, e3, e4⟩ := gblPoints_ok (l := t.elems) (fun e he => by
    refine ⟨?_, h6 e he⟩
    have hm := h4.subset (List.mem_map_of_mem (f := noJac) he)
    obtain ⟨e', he', heq⟩ := List.mem_map.mp hm
    exact elemOk_noJac heq.symm (hok e' he'))
  refine ⟨ps, e1, e2, e3, e4, ?_⟩
  intro gbl w i field hw
  have hw' : w.clear.trajs i = some (t, field) := hw
  unfold World.fit
  simp only [hw', e1]
  exact ⟨trivial, trivial⟩

/-- C73 needs `prepareForFitting`: if an element has no Jacobian, `fit` does not return. -/
theorem C73_unprepared (gbl : Fitter) (w : World) (i : ℕ) {t : Traj} {field : V3 → V3} (hw : w.trajs i = some (t, field))
    (e : Element) (he : e ∈ t.elems) (hj : e.jac = none) : ∀ b, (w.fit gbl i).2 ≠ .ok b := by
  have hp : ∀ ps, gblPoints t.elems ≠ .ok ps := by
    generalize t.elems = l at he
    induction l with
    | nil => cases he
    | cons a l ih =>
      intro ps h
      simp only [gblPoints, Out.bind_eq_ok] at h
      obtain ⟨p, h1, l', h2, -⟩ := h
      rcases List.mem_cons.mp he with rfl | he
      · unfold gblPoint at h1
        rw [hj] at h1
        cases h1
      · exact ih he l' h2
  have hw' : w.clear.trajs i = some (t, field) := hw
  intro b hb
  unfold World.fit at hb
  simp only [hw'] at hb
  cases hg : gblPoints t.elems with
  | ok ps => exact hp ps hg
  | throw m => rw [hg] at hb; cases hb
  | ub m => rw [hg] at hb; cases hb
  | diverge => rw [hg] at hb; cases hb

/-- C73 needs precisions: a measurement without precision values makes `fit` read past the end of an array. -/
theorem C73_no_precision {env : Env} {t : Traj} {pos : V3} {surf : Surface} {id : ℕ}
    (h : (t.step env (.measurement pos [] surf id false)).2 = .ok true) :
    ∃ e, (t.step env (.measurement pos [] surf id false)).1.elems = t.withStart.elems ++ [e] ∧
      ∀ j, ∃ w, gblPoint { e with jac := some j } = .ub w := by
  obtain ⟨back, e, h1, h2, h3⟩ := measurement_step h
  obtain ⟨hit, tp, w, proj, r1, r2, r3, r4, rfl⟩ := measurement_ok h3
  exact ⟨_, h2, fun j => ⟨_, rfl⟩⟩

end Verif
