import Verif.Props.TrajectoryExample

/-!
C72: the position along a trajectory.
-/

namespace Verif

open Traj Dbl

/-- C72 is false for every trajectory without elements: instead of a point of the reference helix, `pointAt` and `tangentAt`
are undefined (`begin()+1` of an empty vector). -/
theorem C72_false (t : Traj) (h : t.elems = []) (s : Dbl) :
    (∃ m, t.pointAt s = .ub m) ∧ (∃ m, t.tangentAt s = .ub m) ∧ t.pointAt s ≠ .ok (Verif.pointAt s t.ref.hp t.ref.rp) := by
  have h0 : t.elementAt s = .ub "begin()+1 of an empty vector" := by unfold elementAt; rw [h]
  have h1 : t.pointAt s = .ub "begin()+1 of an empty vector" := by unfold Traj.pointAt; rw [h0]; rfl
  exact ⟨⟨_, h1⟩, ⟨_, by unfold Traj.tangentAt; rw [h0]; rfl⟩, by rw [h1]; simp⟩

/-- C72 (partial): on a trajectory that consists of the start element only, both functions describe the reference helix, with
the arc length counted from the point closest to the origin.  Missing: trajectories without elements (`C72_false`). -/
theorem C72_start_partial (tp : TP) (s : Dbl) :
    (make tp).withStart.pointAt s = .ok (Verif.pointAt (s - calculateSfromXY 0 0 tp.hp tp.rp) tp.hp tp.rp) ∧
    (make tp).withStart.tangentAt s = .ok (calculateTangent (s - calculateSfromXY 0 0 tp.hp tp.rp) tp.hp) := ⟨rfl, rfl⟩

theorem elementAtLoop_mem (s prevS : Dbl) (e : Element) (l : List Element) : elementAtLoop s prevS e l ∈ e :: l := by
  induction l generalizing prevS e with
  | nil => simp [elementAtLoop]
  | cons x l ih =>
    unfold elementAtLoop
    dsimp only
    by_cases h : prevS ≤ s ∧ s < x.arc
    · rw [cif_pos h]; simp
    · rw [cif_neg h]
      exact List.mem_cons_of_mem _ (ih _ _)

/-- C72: the functions are defined exactly if there is an element, and then use one of the elements. -/
theorem C72_defined (t : Traj) (s : Dbl) :
    t.elems ≠ [] ↔ ∃ e ∈ t.elems, t.pointAt s = .ok (Verif.pointAt (s - e.arc) e.tp.hp e.tp.rp) ∧
      t.tangentAt s = .ok (calculateTangent (s - e.arc) e.tp.hp) := by
  constructor
  · intro h
    cases he : t.elems with
    | nil => exact absurd he h
    | cons e l =>
      refine ⟨elementAtLoop s (-(1e99 : Dbl)) e l, elementAtLoop_mem _ _ _ _, ?_, ?_⟩
      · unfold Traj.pointAt elementAt; rw [he]; rfl
      · unfold Traj.tangentAt elementAt; rw [he]; rfl
  · rintro ⟨e, he, -⟩ h
    rw [h] at he
    cases he

end Verif
