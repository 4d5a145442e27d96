import Verif.Props.FitGeometry
import Verif.Props.EnergyLoss
import Verif.Props.Symmetry

/-!
# C94: which surfaces are added to a trajectory
-/

open Classical

noncomputable section

namespace Verif

open Dbl Traj Spec Matrix

variable {om tl ph d z rx ry rz sv m Δ bx by' B : ℝ} {cov : M5} {arc : Dbl} {env : Env} {t : Traj} {back : Element} {surf : Surface}

/-- the projection can be computed iff the track crosses the plane of the two directions -/
theorem projection_iff {U V : R3} :
    (dot (cross U V) (dirOf tl ph) ≠ 0 → ∃ P, calculateLocalToMeasurementProjectionMatrix
      (calculateLocalCurvilinearSystem 0 (hpR om tl ph d z)).1 (calculateLocalCurvilinearSystem 0 (hpR om tl ph d z)).2
      [V3.of U, V3.of V] = .ok P) ∧
    (dot (cross U V) (dirOf tl ph) = 0 → ∃ msg, calculateLocalToMeasurementProjectionMatrix
      (calculateLocalCurvilinearSystem 0 (hpR om tl ph d z)).1 (calculateLocalCurvilinearSystem 0 (hpR om tl ph d z)).2
      [V3.of U, V3.of V] = .throw msg) := by
  have hF : calculateLocalCurvilinearSystem 0 (hpR om tl ph d z) = (V3.of ![-Real.sin ph, Real.cos ph, 0],
      V3.of ![-Real.cos ph * Real.sin (Real.arctan tl), -Real.sin ph * Real.sin (Real.arctan tl), Real.cos (Real.arctan tl)]) := by
    simp only [calculateLocalCurvilinearSystem, calculatePhi0_hpR, calculateCurvature_hpR, calculateLambda_hpR,
      zero_eq, fin_mul, fin_sub, fin_neg, sin_fin, cos_fin, mul_zero, sub_zero, V3.of, V3.re, cons_val_zero, cons_val_one, cons_val]
  rw [hF]
  have hdet : (!![dot3 U ![-Real.sin ph, Real.cos ph, 0], dot3 U ![-Real.cos ph * Real.sin (Real.arctan tl),
        -Real.sin ph * Real.sin (Real.arctan tl), Real.cos (Real.arctan tl)];
      dot3 V ![-Real.sin ph, Real.cos ph, 0], dot3 V ![-Real.cos ph * Real.sin (Real.arctan tl),
        -Real.sin ph * Real.sin (Real.arctan tl), Real.cos (Real.arctan tl)]]).det = dot (cross U V) (dirOf tl ph) := by
    have h := Real.sin_sq_add_cos_sq ph
    rw [det_fin_two_of]
    simp only [dot3, dot, cross_0, cross_1, cross_2, dirOf, cons_val_zero, cons_val_one, cons_val]
    linear_combination (U 0 * V 1 - U 1 * V 0) * Real.sin (Real.arctan tl) * h
  constructor
  · intro hn
    obtain ⟨P, hP, -⟩ := C23_inverse U V _ _ (by rw [hdet]; exact hn)
    exact ⟨_, hP⟩
  · intro hn
    exact C23_singular U V _ _ (by rw [hdet]; exact hn)

/-- the situation before adding a surface: the last element is a curved track with finite parameters that hits the surface
within half a turn, in a field with a z component, and does not lose all of its energy (`uv` are the coordinates used for the loss) -/
structure Crossing (env : Env) (t : Traj) (back : Element) (surf : Surface) (uv : V2) (cb : Bool) (cov : M5)
    (om tl ph d z rx ry rz sv fn m Δ B : ℝ) : Prop where
  last : t.withStart.elems.getLast? = some back
  track : back.tp = ⟨cov, hpR om tl ph d z, V3.re rx ry rz⟩
  curved : om ≠ 0
  mass : t.mass = fin m
  hit : intersectWithSurface surf (hpR om tl ph d z) (V3.re rx ry rz) 0 V3.zero 1 cb =
    .ok ⟨true, fin sv, pointAt (fin sv) (hpR om tl ph d z) (V3.re rx ry rz)⟩
  within : |om * sv| < Real.pi
  /-- azimuth at the surface -/
  azimuth : (∃ k : ℤ, fn = ph - om * sv + k * (2 * Real.pi)) ∧ -Real.pi < fn ∧ fn ≤ Real.pi
  field : ∃ bx by', env.globalField (pointAt (fin sv) (hpR om tl ph d z) (V3.re rx ry rz)) = V3.re bx by' B
  fieldZ : B ≠ 0
  loss : (computeEnergyLoss surf uv (momentumAtPCA env.globalField (hpR om tl fn 0 0)
    (pointAt (fin sv) (hpR om tl ph d z) (V3.re rx ry rz))) (fin m)).deltaE = fin Δ
  alive : Δ ≠ energyOf (momentumOf om tl B) m

variable {uv : V2} {cb : Bool} {fn : ℝ}

theorem Crossing.move (C : Crossing env t back surf uv cb cov om tl ph d z rx ry rz sv fn m Δ B) :
    moveHelixTo back.tp (pointAt (fin sv) (hpR om tl ph d z) (V3.re rx ry rz)) false =
      .ok (⟨cov, hpR om tl fn 0 0, pointAt (fin sv) (hpR om tl ph d z) (V3.re rx ry rz)⟩, fin (-(om * sv))) := by
  have hpi := Real.pi_pos
  obtain ⟨f, k, e, b1, b2, h⟩ := move_to_track (tl := tl) (ph := ph) (d := d) (z := z) (rx := rx) (ry := ry) (rz := rz) cov C.curved C.within
  obtain ⟨⟨k', e'⟩, b3, b4⟩ := C.azimuth
  have hf : f = fn := by
    refine angle_eq (k - k') ?_ (by rw [abs_lt]; constructor <;> linarith)
    rw [e, e']; push_cast; ring
  rw [C.track, h, hf]

theorem Crossing.lossHp (C : Crossing env t back surf uv cb cov om tl ph d z rx ry rz sv fn m Δ B) :
    Verif.lossHp surf uv (momentumAtPCA env.globalField (hpR om tl fn 0 0)
      (pointAt (fin sv) (hpR om tl ph d z) (V3.re rx ry rz))) (fin m) (hpR om tl fn 0 0) =
      hpR (om / (1 - Δ / energyOf (momentumOf om tl B) m)) tl fn 0 0 := by
  obtain ⟨bx, by', hB⟩ := C.field
  exact lossHp_re C.curved C.fieldZ hB C.loss C.alive

/-- the new element -/
structure NewElement (e back : Element) (surf : Surface) (cov : M5) (om tl ph d z rx ry rz sv fn m Δ B : ℝ) : Prop where
  arc : e.arc = fin sv + back.arc
  hp : e.tp.hp = hpR (om / (1 - Δ / energyOf (momentumOf om tl B) m)) tl fn 0 0
  rp : e.tp.rp = pointAt (fin sv) (hpR om tl ph d z) (V3.re rx ry rz)
  cov : e.tp.cov = cov
  surface : e.surface = some surf

/-- C94: a measurement is accepted if the track crosses the plane of the measurement directions. -/
theorem C94_measurement {pos : V3} {prec : List Dbl} {id : ℕ} {sc : Bool} {U V : R3}
    (C : Crossing env t back surf (surf.globalToLocal pos) false cov om tl ph d z rx ry rz sv fn m Δ B)
    (hU : surf.u pos = V3.of U) (hV : surf.v pos = V3.of V) (hn : dot (cross U V) (dirOf tl fn) ≠ 0) :
    ∃ e, t.step env (.measurement pos prec surf id sc) =
        ({ t.withStart with elems := t.withStart.elems ++ [e] }, .ok true) ∧
      NewElement e back surf cov om tl ph d z rx ry rz sv fn m Δ B ∧
      e.residuals = [(surf.globalToLocal pos).u - (surf.globalToLocal e.tp.rp).u,
        (surf.globalToLocal pos).v - (surf.globalToLocal e.tp.rp).v] ∧ e.measurement = true ∧ e.scatterer = sc ∧ e.id = id := by
  obtain ⟨proj, hP⟩ := (projection_iff (om := om / (1 - Δ / energyOf (momentumOf om tl B) m)) (d := 0) (z := 0)).1 hn
  have hl := C.lossHp
  have hs : ∃ e, measurementElement env (fin m) back pos prec surf id sc = .ok (some e) ∧
      NewElement e back surf cov om tl ph d z rx ry rz sv fn m Δ B ∧
      e.residuals = [(surf.globalToLocal pos).u - (surf.globalToLocal e.tp.rp).u,
        (surf.globalToLocal pos).v - (surf.globalToLocal e.tp.rp).v] ∧ e.measurement = true ∧ e.scatterer = sc ∧ e.id = id := by
    have hh := C.hit
    have hm := C.move
    have h1 : back.tp.hp = hpR om tl ph d z := by rw [C.track]
    have h2 : back.tp.rp = V3.re rx ry rz := by rw [C.track]
    rw [← h1, ← h2] at hh
    unfold measurementElement
    rw [h1, h2] at hh
    simp only [h1, h2, hh, Out.ok_bind, if_true, hm]
    unfold Verif.lossHp at hl
    simp only [computeEnergyLoss] at hl ⊢
    rw [hl, hU, hV]
    simp only [Element.make, hP, Out.ok_bind]
    exact ⟨_, rfl, ⟨rfl, rfl, rfl, rfl, rfl⟩, rfl, rfl, rfl, rfl⟩
  obtain ⟨e, h1, h2⟩ := hs
  refine ⟨e, ?_, h2⟩
  simp only [Traj.step, addMeasurement, C.last, (withStart_rest t).2.2, C.mass, h1, append]

/-- C94: otherwise an exception is thrown, and only the start element may have been added. -/
theorem C94_parallel {pos : V3} {prec : List Dbl} {id : ℕ} {sc : Bool} {U V : R3}
    (C : Crossing env t back surf (surf.globalToLocal pos) false cov om tl ph d z rx ry rz sv fn m Δ B)
    (hU : surf.u pos = V3.of U) (hV : surf.v pos = V3.of V) (hn : dot (cross U V) (dirOf tl fn) = 0) :
    ∃ msg, t.step env (.measurement pos prec surf id sc) = (t.withStart, .throw msg) := by
  obtain ⟨msg, hP⟩ := (projection_iff (om := om / (1 - Δ / energyOf (momentumOf om tl B) m)) (d := 0) (z := 0)).2 hn
  have hl := C.lossHp
  have hs : measurementElement env (fin m) back pos prec surf id sc = .throw msg := by
    have hh := C.hit
    have hm := C.move
    have h1 : back.tp.hp = hpR om tl ph d z := by rw [C.track]
    have h2 : back.tp.rp = V3.re rx ry rz := by rw [C.track]
    unfold measurementElement
    simp only [h1, h2, hh, Out.ok_bind, if_true, hm]
    unfold Verif.lossHp at hl
    simp only [computeEnergyLoss] at hl ⊢
    rw [hl, hU, hV]
    simp only [Element.make, hP]
    rfl
  refine ⟨msg, ?_⟩
  simp only [Traj.step, addMeasurement, C.last, (withStart_rest t).2.2, C.mass, hs, append]

/-- C94: a scatterer, likewise, with the directions at the point where the track crosses the surface. -/
theorem C94_scatterer {U V : R3}
    (C : Crossing env t back surf (surf.globalToLocal (pointAt (fin sv) (hpR om tl ph d z) (V3.re rx ry rz))) true cov om tl ph d z rx ry rz
      sv fn m Δ B)
    (hU : surf.u (pointAt (fin sv) (hpR om tl ph d z) (V3.re rx ry rz)) = V3.of U)
    (hV : surf.v (pointAt (fin sv) (hpR om tl ph d z) (V3.re rx ry rz)) = V3.of V) :
    (dot (cross U V) (dirOf tl fn) ≠ 0 →
      ∃ e, t.step env (.scatterer surf) = ({ t.withStart with elems := t.withStart.elems ++ [e] }, .ok true) ∧
        NewElement e back surf cov om tl ph d z rx ry rz sv fn m Δ B ∧ e.residuals = [0, 0] ∧ e.measurement = false ∧
        e.scatterer = true ∧ e.id = 0) ∧
    (dot (cross U V) (dirOf tl fn) = 0 → ∃ msg, t.step env (.scatterer surf) = (t.withStart, .throw msg)) := by
  have hl := C.lossHp
  have hh := C.hit
  have hm := C.move
  have h1 : back.tp.hp = hpR om tl ph d z := by rw [C.track]
  have h2 : back.tp.rp = V3.re rx ry rz := by rw [C.track]
  unfold Verif.lossHp at hl
  simp only [computeEnergyLoss] at hl
  constructor
  · intro hn
    obtain ⟨proj, hP⟩ := (projection_iff (om := om / (1 - Δ / energyOf (momentumOf om tl B) m)) (d := 0) (z := 0)).1 hn
    have hs : ∃ e, scattererElement env (fin m) back surf = .ok (some e) ∧
        NewElement e back surf cov om tl ph d z rx ry rz sv fn m Δ B ∧ e.residuals = [0, 0] ∧ e.measurement = false ∧
        e.scatterer = true ∧ e.id = 0 := by
      unfold scattererElement
      simp only [h1, h2, hh, Out.ok_bind, if_true, hm]
      simp only [computeEnergyLoss]
      rw [hl, hU, hV]
      simp only [Element.make, hP, Out.ok_bind]
      exact ⟨_, rfl, ⟨rfl, rfl, rfl, rfl, rfl⟩, rfl, rfl, rfl, rfl⟩
    obtain ⟨e, q1, q2⟩ := hs
    refine ⟨e, ?_, q2⟩
    simp only [Traj.step, addScatterer, C.last, (withStart_rest t).2.2, C.mass, q1, append]
  · intro hn
    obtain ⟨msg, hP⟩ := (projection_iff (om := om / (1 - Δ / energyOf (momentumOf om tl B) m)) (d := 0) (z := 0)).2 hn
    have hs : scattererElement env (fin m) back surf = .throw msg := by
      unfold scattererElement
      simp only [h1, h2, hh, Out.ok_bind, if_true, hm]
      simp only [computeEnergyLoss]
      rw [hl, hU, hV]
      simp only [Element.make, hP]
      rfl
    refine ⟨msg, ?_⟩
    simp only [Traj.step, addScatterer, C.last, (withStart_rest t).2.2, C.mass, hs, append]

/-- C94: a surface that is not hit is not added, whatever the values are. -/
theorem C94_missed {hit : Hit} (hl : t.withStart.elems.getLast? = some back) (pos : V3) (prec : List Dbl) (id : ℕ) (sc : Bool) :
    (intersectWithSurface surf back.tp.hp back.tp.rp 0 V3.zero 1 false = .ok hit → hit.found = false →
      t.step env (.measurement pos prec surf id sc) = (t.withStart, .ok false)) ∧
    (intersectWithSurface surf back.tp.hp back.tp.rp 0 V3.zero 1 true = .ok hit → hit.found = false →
      t.step env (.scatterer surf) = (t.withStart, .ok false)) := by
  constructor
  · intro h1 h2
    have : measurementElement env t.withStart.mass back pos prec surf id sc = .ok none := by
      unfold measurementElement
      simp only [h1, Out.ok_bind, h2]
      rfl
    simp only [Traj.step, addMeasurement, hl, this, append]
  · intro h1 h2
    have : scattererElement env t.withStart.mass back surf = .ok none := by
      unfold scattererElement
      simp only [h1, Out.ok_bind, h2]
      rfl
    simp only [Traj.step, addScatterer, hl, this, append]

end Verif
