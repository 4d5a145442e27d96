import Verif.Lemmas.Memory
import Verif.Props.TrajectoryExample

/-!
# C79: every object on the heap belongs to one trajectory and is deleted once

A program constructs trajectories, adds measurements and scatterers, prepares them for fitting (any number of times) and
destroys them, in any order; exceptions are caught.
-/

open Classical

noncomputable section

namespace Verif

open Dbl Traj MState

/-- the call is allowed: the trajectory exists, and the computations in the call (C46, C48, C50) are defined -/
def MState.Permitted (env : Env) (sort : List Element → List Element) (s : MState) : Op → Prop
  | .construct _ _ => True
  | .add i op => ∃ t ms, s.objs i = some (t, ms) ∧ ((∃ b, (t.step env op).2 = .ok b) ∨ ∃ w, (t.step env op).2 = .throw w)
  | .prepare i _ => ∃ t ms, s.objs i = some (t, ms) ∧
      ((∃ t', t.prepareForFitting env sort = .ok t') ∨ ∃ w, t.prepareForFitting env sort = .throw w)
  | .destroy i => ∃ x, s.objs i = some x

/-- the call is left by the exception from the inversion of the projection (C44) -/
def MState.FailsIn (env : Env) (s : MState) : Op → Prop
  | .add i op => ∃ t ms, s.objs i = some (t, ms) ∧
      (t.step env op).2 = .throw "Projection matrix can't be inverted, bailing out."
  | _ => False

/-- number of such exceptions in a program -/
def MState.failures (env : Env) (sort : List Element → List Element) (s : MState) : List Op → ℕ
  | [] => 0
  | op :: l => (if s.FailsIn env op then 1 else 0) +
      match s.step env sort op with
      | .ok s' => s'.failures env sort l
      | _ => 0

theorem own_some {s : MState} {i : ℕ} {t : Traj} {ms : List ElemMem} (h : s.objs i = some (t, ms)) : s.own i = del ms := by
  simp [MState.own, h]

theorem own_put_some (s : MState) (i : ℕ) (t : Traj) (ms : List ElemMem) (h : Heap) :
    (s.put i (some (t, ms)) h).own i = del ms := by
  simp [MState.own, MState.put]

/-- one call keeps the invariant -/
theorem step_inv {env : Env} {sort : List Element → List Element} {s : MState} {n : ℕ} (v : MemInv s n) {op : Op}
    (hp : s.Permitted env sort op) :
    ∃ s', s.step env sort op = .ok s' ∧ MemInv s' (n + if s.FailsIn env op then 1 else 0) := by
  cases op with
  | construct i tp =>
    rw [if_neg (show ¬ s.FailsIn env (.construct i tp) from fun h => h), add_zero]
    simp only [MState.step]
    cases hi : s.objs i with
    | some x => exact ⟨s, rfl, v⟩
    | none =>
      have ho : s.own i = del [] := by simp [MState.own, hi, del]
      obtain ⟨F, -, -, f3⟩ := v.lost
      have he : Ext s.heap [] s.heap [] 0 := ext_refl ⟨by simp [del], by simp [del], v.bound⟩
      exact ⟨_, rfl, v.put ho (own_put_some _ _ _ _ _) he⟩
  | add i op =>
    obtain ⟨t, ms, hi, hout⟩ := hp
    have ho := v.owns hi
    simp only [MState.step, hi]
    set st : Heap × List ElemMem := if needsStart t op then ((newStart s.heap).2, ms ++ [(newStart s.heap).1])
      else (s.heap, ms) with hst
    have e1 : Ext s.heap ms st.1 st.2 0 := by
      rw [hst]
      split_ifs
      · exact ext_start ho
      · exact ext_refl ho
    have hF : s.FailsIn env (.add i op) ↔ (t.step env op).2 = .throw projMsg := by
      simp only [MState.FailsIn, hi]
      constructor
      · rintro ⟨_, _, h, h'⟩
        cases h; exact h'
      · intro h; exact ⟨t, ms, rfl, h⟩
    rw [hF]
    cases hs : t.step env op with
    | mk t' o =>
      rw [hs] at hout
      cases o with
      | ok b =>
        rw [if_neg (by simp)]
        cases b with
        | true => exact ⟨_, rfl, v.put (own_some hi) (own_put_some _ _ _ _ _) (e1.trans (ext_element e1.owns) ho)⟩
        | false => exact ⟨_, rfl, v.put (own_some hi) (own_put_some _ _ _ _ _) e1⟩
      | throw w =>
        have hr := reached_iff (env := env) (t := t) (op := op) (w := w) (by rw [hs])
        rw [hs] at hr
        simp only at hr ⊢
        by_cases hw : w = projMsg
        · rw [if_pos (hr.2 hw), if_pos (by rw [hw])]
          obtain ⟨h', f1, f2⟩ := ext_failed e1.owns
          rw [f1, Out.ok_bind]
          refine ⟨_, rfl, ?_⟩
          have := v.put (i := i) (x := some (t', st.2)) (own_some hi) (own_put_some _ _ _ _ _) (e1.trans f2 ho)
          rwa [zero_add] at this
        · rw [if_neg (fun h => hw (hr.1 h)), if_neg (fun h => hw (by injection h))]
          exact ⟨_, rfl, v.put (own_some hi) (own_put_some _ _ _ _ _) e1⟩
      | ub w => rcases hout with ⟨_, h⟩ | ⟨_, h⟩ <;> cases h
      | diverge => rcases hout with ⟨_, h⟩ | ⟨_, h⟩ <;> cases h
  | prepare i got =>
    obtain ⟨t, ms, hi, hout⟩ := hp
    have ho := v.owns hi
    rw [if_neg (show ¬ s.FailsIn env (.prepare i got) from fun h => h), add_zero]
    simp only [MState.step, hi]
    rcases hout with ⟨t', h⟩ | ⟨w, h⟩
    · rw [h]
      obtain ⟨m', h', e1, e2⟩ := ext_jacobians ho (fun _ => true)
      simp only [e1, Out.ok_bind]
      exact ⟨_, rfl, v.put (own_some hi) (own_put_some _ _ _ _ _) e2⟩
    · rw [h]
      obtain ⟨m', h', e1, e2⟩ := ext_jacobians ho got
      simp only [e1, Out.ok_bind]
      exact ⟨_, rfl, v.put (own_some hi) (own_put_some _ _ _ _ _) e2⟩
  | destroy i =>
    obtain ⟨⟨t, ms⟩, hi⟩ := hp
    have ho := v.owns hi
    rw [if_neg (show ¬ s.FailsIn env (.destroy i) from fun h => h), add_zero]
    simp only [MState.step, hi]
    obtain ⟨h', e1, e2⟩ := ext_destroy ho
    have e1' : s.heap.free (ms.flatMap ElemMem.deleted) = .ok h' := e1
    rw [e1', Out.ok_bind]
    exact ⟨_, rfl, v.put (own_some hi) (by simp [MState.own, MState.put, del]) e2⟩

theorem permitted_of_ok {env : Env} {sort : List Element → List Element} {s s' : MState} {op : Op}
    (h : s.step env sort op = .ok s') : s.Permitted env sort op := by
  cases op with
  | construct i tp => trivial
  | add i op =>
    simp only [MState.step] at h
    cases hi : s.objs i with
    | none => rw [hi] at h; cases h
    | some x =>
      obtain ⟨t, ms⟩ := x
      rw [hi] at h
      refine ⟨t, ms, hi, ?_⟩
      simp only at h
      cases hs : t.step env op with
      | mk t' o =>
        rw [hs] at h
        cases o with
        | ok b => exact Or.inl ⟨b, rfl⟩
        | throw w => exact Or.inr ⟨w, rfl⟩
        | ub w => cases h
        | diverge => cases h
  | prepare i got =>
    simp only [MState.step] at h
    cases hi : s.objs i with
    | none => rw [hi] at h; cases h
    | some x =>
      obtain ⟨t, ms⟩ := x
      rw [hi] at h
      refine ⟨t, ms, hi, ?_⟩
      simp only at h
      cases hs : t.prepareForFitting env sort with
      | ok t' => exact Or.inl ⟨t', rfl⟩
      | throw w => exact Or.inr ⟨w, rfl⟩
      | ub w => rw [hs] at h; cases h
      | diverge => rw [hs] at h; cases h
  | destroy i =>
    simp only [MState.step] at h
    cases hi : s.objs i with
    | none => rw [hi] at h; cases h
    | some x => exact ⟨x, hi⟩

theorem run_inv {env : Env} {sort : List Element → List Element} (ops : List Op) : ∀ {s s' : MState} {n : ℕ}, MemInv s n →
    s.run env sort ops = .ok s' → MemInv s' (n + s.failures env sort ops) := by
  induction ops with
  | nil => intro s s' n v h; cases h; exact v
  | cons op l ih =>
    intro s s' n v h
    rw [MState.run] at h
    obtain ⟨s1, h1, h2⟩ := Out.bind_eq_ok.1 h
    obtain ⟨s2, h3, v'⟩ := step_inv v (permitted_of_ok h1)
    rw [h1] at h3
    injection h3 with h3
    subst h3
    have := ih v' h2
    rw [MState.failures, h1]
    simp only
    rw [← add_assoc]
    exact this

theorem init_inv : MemInv MState.init 0 :=
  ⟨fun _ => by simp [MState.own, MState.init], fun i j _ a ha => by simp [MState.own, MState.init] at ha,
    fun a ha => by simp [MState.init] at ha, ∅, rfl, by simp, fun a => by simp [MState.init, MState.own]⟩

/-- C79: in no program an object is deleted that does not exist (any more): every call for an existing trajectory whose
computations are defined is defined. -/
theorem C79_deleted_once (env : Env) (sort : List Element → List Element) (ops : List Op) (s : MState)
    (h : MState.init.run env sort ops = .ok s) (op : Op) (hp : s.Permitted env sort op) :
    ∃ s', s.step env sort op = .ok s' := by
  obtain ⟨s', h', -⟩ := step_inv (run_inv ops init_inv h) hp
  exact ⟨s', h'⟩

/-- C79: at any time the pointers held by the elements of all trajectories point to existing objects, and no two of them to
the same object. -/
theorem C79_owners (env : Env) (sort : List Element → List Element) (ops : List Op) (s : MState)
    (h : MState.init.run env sort ops = .ok s) (i : ℕ) (t : Traj) (ms : List ElemMem) (hi : s.objs i = some (t, ms)) :
    (ms.flatMap ElemMem.deleted).Nodup ∧ (∀ a ∈ ms.flatMap ElemMem.deleted, a ∈ s.heap.live) ∧
    ∀ j t' ms', j ≠ i → s.objs j = some (t', ms') → ∀ a ∈ ms.flatMap ElemMem.deleted, a ∉ ms'.flatMap ElemMem.deleted := by
  have v := run_inv ops init_inv h
  refine ⟨(v.owns hi).nodup, (v.owns hi).live, fun j t' ms' hj hj' a ha hb => ?_⟩
  have h1 : a ∈ s.own i := by rw [own_some hi]; exact ha
  have h2 : a ∈ s.own j := by rw [own_some hj']; exact hb
  exact v.disj i j (Ne.symm hj) a h1 h2

/-- C79: when all trajectories are destroyed, exactly four objects are left for every failed inversion of a projection. -/
theorem C79_leak (env : Env) (sort : List Element → List Element) (ops : List Op) (s : MState)
    (h : MState.init.run env sort ops = .ok s) (hd : ∀ i, s.objs i = none) :
    s.heap.live.card = 4 * MState.init.failures env sort ops := by
  obtain ⟨F, f1, -, f3⟩ := (run_inv ops init_inv h).lost
  have : s.heap.live = F := by
    ext a
    rw [f3]
    simp [MState.own, hd]
  rw [this, f1, zero_add]

/-- C79 (partial): a program in which no inversion of a projection fails leaves nothing on the heap.  Missing: with such a
failure four objects are lost, see `C79_leak` and `C79_false`. -/
theorem C79_no_leak_partial (env : Env) (sort : List Element → List Element) (ops : List Op) (s : MState)
    (h : MState.init.run env sort ops = .ok s) (hd : ∀ i, s.objs i = none)
    (hf : MState.init.failures env sort ops = 0) : s.heap.live = ∅ := by
  have := C79_leak env sort ops s h hd
  rw [hf] at this
  exact Finset.card_eq_zero.1 this

theorem add_objs {env : Env} {sort : List Element → List Element} {s s' : MState} {i : ℕ} {op : AddOp}
    (h : s.step env sort (.add i op) = .ok s') : (∃ x, s'.objs i = some x) ∧ ∀ j, j ≠ i → s'.objs j = s.objs j := by
  have hput : ∀ x h', (∃ y, (s.put i (some x) h').objs i = some y) ∧ ∀ j, j ≠ i → (s.put i (some x) h').objs j = s.objs j :=
    fun x h' => ⟨⟨x, by simp [MState.put]⟩, fun j hj => by simp [MState.put, hj]⟩
  simp only [MState.step] at h
  split at h
  · cases h
  · split at h
    · injection h with h; rw [← h]; exact hput _ _
    · injection h with h; rw [← h]; exact hput _ _
    · split_ifs at h
      all_goals first
        | (obtain ⟨_, _, h⟩ := Out.bind_eq_ok.1 h; injection h with h; rw [← h]; exact hput _ _)
        | (injection h with h; rw [← h]; exact hput _ _)
    · cases h
    · cases h

theorem destroy_objs {env : Env} {sort : List Element → List Element} {s s' : MState} {i : ℕ}
    (h : s.step env sort (.destroy i) = .ok s') : s'.objs i = none ∧ ∀ j, j ≠ i → s'.objs j = s.objs j := by
  simp only [MState.step] at h
  split at h
  · cases h
  · obtain ⟨h', _, h⟩ := Out.bind_eq_ok.1 h
    injection h with h
    rw [← h]
    exact ⟨by simp [MState.put], fun j hj => by simp [MState.put, hj]⟩

namespace Example

/-- a surface whose two measurement directions coincide -/
def badDisk : Surface := { disk with v := disk.u }

theorem bad_thrown : ((make tp).step env (.scatterer badDisk)).2 = .throw projMsg := by
  obtain ⟨fn, k, -, -, -, h5⟩ := move_to_track (om := 1) (tl := 1) (ph := 0) (d := 0) (z := 0) (rx := 0) (ry := 0) (rz := 0)
    (sv := 1) M5.zero one_ne_zero (by rw [mul_one, abs_one]; linarith [Real.pi_gt_three])
  have hw : (make tp).withStart = ⟨tp, [Element.start (fin 0) tp 0], [], pionMass⟩ := by
    unfold withStart
    rw [if_pos (show (make tp).elems = [] from rfl)]
    simp only [addElement, make, List.nil_append]
    rw [show calculateSfromXY V3.zero.x V3.zero.y tp.hp tp.rp = fin 0 from start_zero]
  obtain ⟨hit, h1, h2, h3, h4⟩ := disk_hit (ib := fun _ => true) 0 0 1 one_pos true (fun _ => rfl)
  rw [← h4] at h5
  have hs : scattererElement env pionMass (Element.start (fin 0) tp 0) badDisk = .throw projMsg := by
    have hl := loss_zero (ib := fun _ => true) (g := fun m _ _ _ _ _ _ => m) fn hit.xx ((diskB fun _ => true).globalToLocal hit.xx)
    unfold lossHp at hl
    unfold scattererElement
    simp only [Element.start]
    have h1' : intersectWithSurface badDisk tp.hp tp.rp 0 V3.zero 1 true = .ok hit := h1
    have h5' : moveHelixTo tp hit.xx false = _ := h5
    rw [h1', Out.ok_bind, if_pos h2, h5', Out.ok_bind]
    have hl' : ∀ x, (computeEnergyLoss badDisk (badDisk.globalToLocal hit.xx) x pionMass) =
      computeEnergyLoss disk (disk.globalToLocal hit.xx) x pionMass := fun x => rfl
    simp only [hl']
    simp only [computeEnergyLoss] at hl ⊢
    simp only [disk, env]
    rw [hl]
    simp only [Element.make]
    have h6 : calculateLocalToMeasurementProjectionMatrix (calculateLocalCurvilinearSystem 0 (hpR 1 1 fn 0 0)).1
        (calculateLocalCurvilinearSystem 0 (hpR 1 1 fn 0 0)).2 [badDisk.u hit.xx, badDisk.v hit.xx] = .throw projMsg := by
      unfold calculateLocalToMeasurementProjectionMatrix
      simp only [Out.ok_bind]
      rw [cif_neg]
      simp only [badDisk, disk, diskB, calculateLocalCurvilinearSystem, V3.dot, V3.re, calculatePhi0_hpR, calculateCurvature_hpR,
        calculateLambda_hpR, zero_eq, fin_mul, fin_sub, fin_add, fin_neg, sin_fin, cos_fin, fin_eqv, not_not]
      ring
    rw [h6]
    rfl
  simp only [Traj.step, addScatterer, hw, List.getLast?_singleton, hs, append]

/-- the state after the construction of a trajectory -/
def built : MState := MState.init.put 0 (some (make tp, [])) ⟨∅, 0⟩

/-- construction of a trajectory, one surface, destruction -/
theorem program (sort : List Element → List Element) (surf : Surface)
    (hp : (∃ b, ((make tp).step env (.scatterer surf)).2 = .ok b) ∨ ∃ w, ((make tp).step env (.scatterer surf)).2 = .throw w) :
    ∃ s, MState.init.run env sort [.construct 0 tp, .add 0 (.scatterer surf), .destroy 0] = .ok s ∧ (∀ i, s.objs i = none) ∧
      MState.init.failures env sort [.construct 0 tp, .add 0 (.scatterer surf), .destroy 0] =
        if ((make tp).step env (.scatterer surf)).2 = .throw projMsg then 1 else 0 := by
  have hb : MState.init.step env sort (.construct 0 tp) = .ok built := rfl
  have ho : built.objs 0 = some (make tp, []) := rfl
  have hr1 : MState.init.run env sort [.construct 0 tp] = .ok built := rfl
  obtain ⟨s2, h2⟩ := C79_deleted_once env sort _ built hr1 (.add 0 (.scatterer surf)) ⟨_, _, ho, hp⟩
  have hr2 : MState.init.run env sort [.construct 0 tp, .add 0 (.scatterer surf)] = .ok s2 := by
    simp only [MState.run, hb, Out.ok_bind, h2]
  obtain ⟨⟨x, hx⟩, hx'⟩ := add_objs h2
  obtain ⟨s3, h3⟩ := C79_deleted_once env sort _ s2 hr2 (.destroy 0) ⟨x, hx⟩
  have hr3 : MState.init.run env sort [.construct 0 tp, .add 0 (.scatterer surf), .destroy 0] = .ok s3 := by
    simp only [MState.run, hb, Out.ok_bind, h2, h3]
  obtain ⟨hd, hd'⟩ := destroy_objs h3
  refine ⟨s3, hr3, fun i => ?_, ?_⟩
  · by_cases hi : i = 0
    · rw [hi]; exact hd
    · rw [hd' i hi, hx' i hi]
      simp [built, MState.put, hi, MState.init]
  · have hf : built.FailsIn env (.add 0 (.scatterer surf)) ↔ ((make tp).step env (.scatterer surf)).2 = .throw projMsg := by
      simp only [MState.FailsIn, ho]
      constructor
      · rintro ⟨_, _, h, h'⟩
        cases h; exact h'
      · intro h; exact ⟨_, _, rfl, h⟩
    simp only [MState.failures, hb, h2, h3, hf]
    rw [if_neg (show ¬ MState.init.FailsIn env (.construct 0 tp) from fun h => h),
      if_neg (show ¬ s2.FailsIn env (.destroy 0) from fun h => h)]
    simp

end Example

open Example in
/-- C79 is false in general: a program that constructs a trajectory, adds a surface with coinciding measurement directions and
destroys the trajectory leaves four objects. -/
theorem C79_false (sort : List Element → List Element) : ∃ (env : Env) (tp : TP) (surf : Surface) (s : MState),
    MState.init.run env sort [.construct 0 tp, .add 0 (.scatterer surf), .destroy 0] = .ok s ∧ (∀ i, s.objs i = none) ∧
    s.heap.live.card = 4 := by
  obtain ⟨s, h1, h2, h3⟩ := program sort badDisk (Or.inr ⟨_, bad_thrown⟩)
  refine ⟨env, tp, badDisk, s, h1, h2, ?_⟩
  rw [C79_leak env sort _ s h1 h2, h3, if_pos bad_thrown]

open Example in
/-- C79: a program to which `C79_no_leak_partial` applies; before the destruction seven objects exist. -/
theorem C79_example (sort : List Element → List Element) :
    (∃ s, MState.init.run env sort [.construct 0 tp, .add 0 (.scatterer disk)] = .ok s ∧ s.heap.live.card = 7) ∧
    ∃ s, MState.init.run env sort [.construct 0 tp, .add 0 (.scatterer disk), .destroy 0] = .ok s ∧ s.heap.live = ∅ := by
  constructor
  · have h1 := added.1
    have hs : (make tp).step env (.scatterer disk) = (((make tp).step env (.scatterer disk)).1, .ok true) := by rw [← h1]
    have hst : built.step env sort (.add 0 (.scatterer disk)) = .ok (built.put 0
        (some (((make tp).step env (.scatterer disk)).1, [(newStart ⟨∅, 0⟩).1, (newElement (newStart ⟨∅, 0⟩).2).1]))
        (newElement (newStart ⟨∅, 0⟩).2).2) := by
      simp only [MState.step, show built.objs 0 = some (make tp, []) from rfl, show built.heap = ⟨∅, 0⟩ from rfl]
      rw [if_pos (show needsStart (make tp) (.scatterer disk) from rfl), hs]
      rfl
    refine ⟨built.put 0
        (some (((make tp).step env (.scatterer disk)).1, [(newStart ⟨∅, 0⟩).1, (newElement (newStart ⟨∅, 0⟩).2).1]))
        (newElement (newStart ⟨∅, 0⟩).2).2, ?_, ?_⟩
    · simp only [MState.run, show MState.init.step env sort (.construct 0 tp) = .ok built from rfl, Out.ok_bind, hst]
    · simp [MState.put, newElement, newStart, Heap.allocN, Heap.alloc]
  · obtain ⟨s, h1, h2, h3⟩ := program sort disk (Or.inl ⟨_, added.1⟩)
    refine ⟨s, h1, C79_no_leak_partial env sort _ s h1 h2 ?_⟩
    rw [h3, if_neg]
    rw [added.1]
    simp

end Verif
