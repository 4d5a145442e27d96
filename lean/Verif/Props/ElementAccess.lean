import Verif.Model.ElementAccess
import Verif.Props.Prepare

/-!
# C80: reading and printing the elements of a trajectory
-/

open Classical

noncomputable section

namespace Verif

open Dbl Traj

/-- the trajectories a program can obtain: construction, then calls that add elements and calls of `prepareForFitting` in any
order -/
inductive Reach (env : Env) (sort : List Element → List Element) : Traj → Prop
  | make (tp : TP) : Reach env sort (make tp)
  | step {t : Traj} (op : AddOp) : Reach env sort t → Reach env sort (t.step env op).1
  | prepare {t t' : Traj} : Reach env sort t → t.prepareForFitting env sort = .ok t' → Reach env sort t'

/-- none of the references to surface, directions, frame and projection can be taken -/
def Bare (e : Element) : Prop :=
  e.measurement = false ∧ e.scatterer = false ∧ (∀ s, e.surfaceRef ≠ .ok s) ∧ (∀ n, e.measurementDimension ≠ .ok n) ∧
  (∀ f, e.frameRef ≠ .ok f) ∧ (∀ d, e.measurementDirections ≠ .ok d) ∧ ∀ p, e.projectionRef ≠ .ok p

/-- all of them can be taken, and there are two directions -/
def Complete (e : Element) : Prop :=
  (e.measurement = true ∨ e.scatterer = true) ∧ (∃ s, e.surfaceRef = .ok s) ∧ e.measurementDimension = .ok 2 ∧
  (∃ f, e.frameRef = .ok f) ∧ (∃ d, e.measurementDirections = .ok d ∧ d.length = 2) ∧ ∃ p, e.projectionRef = .ok p

theorem deref_ok {α : Type} {w : String} {o : Option α} {a : α} : deref w o = .ok a ↔ o = some a := by
  cases o <;> simp [deref]

theorem not_bare_complete {e : Element} (h : Complete e) : ¬ Bare e := fun hb => by
  obtain ⟨s, hs⟩ := h.2.1
  exact hb.2.2.1 s hs

theorem start_bare (s : Dbl) (tp : TP) (id : ℕ) : Bare (Element.start s tp id) := by
  refine ⟨rfl, rfl, fun _ h => ?_, fun _ h => ?_, fun _ h => ?_, fun _ h => ?_, fun _ h => ?_⟩ <;> cases h

theorem added_complete {env : Env} {mass : Dbl} {back : Element} {op : AddOp} {o : Out (Option Element)} {e : Element}
    (hop : (∃ position precision surface id isScatterer, op = .measurement position precision surface id isScatterer ∧
        o = measurementElement env mass back position precision surface id isScatterer) ∨
       (∃ surface, op = .scatterer surface ∧ o = scattererElement env mass back surface)) (ho : o = .ok (some e)) :
    Complete e ∧ e.jac = none := by
  rcases hop with ⟨p, prec, s, id, sc, -, h⟩ | ⟨s, -, h⟩
  · rw [ho] at h
    obtain ⟨hit, tp, w, proj, -, -, -, -, he⟩ := measurement_ok h.symm
    subst he
    exact ⟨⟨Or.inl rfl, ⟨_, rfl⟩, rfl, ⟨_, rfl⟩, ⟨_, rfl, rfl⟩, ⟨_, rfl⟩⟩, rfl⟩
  · rw [ho] at h
    obtain ⟨hit, tp, w, proj, -, -, -, -, he⟩ := scatterer_ok h.symm
    subst he
    exact ⟨⟨Or.inr rfl, ⟨_, rfl⟩, rfl, ⟨_, rfl⟩, ⟨_, rfl, rfl⟩, ⟨_, rfl⟩⟩, rfl⟩

theorem bare_noJac (e : Element) : Bare (noJac e) ↔ Bare e := Iff.rfl
theorem complete_noJac (e : Element) : Complete (noJac e) ↔ Complete e := Iff.rfl

/-- C80: in every trajectory a program can obtain, the references to surface, measurement directions, curvilinear system and
projection are defined for all elements but one, and for this one none of them is. -/
theorem C80_references (env : Env) {sort : List Element → List Element} (hsort : IsStdSort compareElements sort) (t : Traj)
    (h : Reach env sort t) : (∀ e ∈ t.elems, Bare e ∨ Complete e) ∧
      t.elems.countP (fun e => decide (Bare e)) = if t.elems = [] then 0 else 1 := by
  induction h with
  | make tp => exact ⟨fun e he => by simp [make] at he, by simp [make]⟩
  | @step t op _ ih =>
    by_cases ha : Adds op
    · obtain ⟨back, o, -, e0, hop⟩ := step_cases env t op ha
      have hw : (∀ e ∈ t.withStart.elems, Bare e ∨ Complete e) ∧ t.withStart.elems.countP (fun e => decide (Bare e)) = 1 := by
        unfold withStart
        by_cases hn : t.elems = []
        · rw [if_pos hn]
          simp only [addElement, hn, List.nil_append]
          refine ⟨fun e he => ?_, by simp [start_bare]⟩
          rw [List.mem_singleton] at he
          rw [he]
          exact Or.inl (start_bare _ _ _)
        · rw [if_neg hn]
          rw [if_neg hn] at ih
          exact ih
      rw [e0, if_neg]
      · rcases append_cases t.withStart o with ⟨x, ho, h⟩ | ⟨h, -⟩
        · rw [h]
          have hx := (added_complete hop ho).1
          refine ⟨fun e he => ?_, ?_⟩
          · rcases List.mem_append.1 he with he | he
            · exact hw.1 e he
            · rw [List.mem_singleton] at he
              rw [he]; exact Or.inr hx
          · simp [List.countP_append, hw.2, not_bare_complete hx]
        · rw [h]; exact hw
      · rcases append_cases t.withStart o with ⟨x, ho, h⟩ | ⟨h, -⟩
        · rw [h]; simp
        · rw [h]; exact withStart_ne t
    · cases op with
      | measurement => exact absurd trivial ha
      | scatterer => exact absurd trivial ha
      | setMass m => exact ih
  | @prepare t t' _ hp ih =>
    obtain ⟨-, -, -, h4, -, -⟩ := C50_elements hsort hp
    have hc : ∀ l : List Element, (l.map noJac).countP (fun e => decide (Bare e)) = l.countP (fun e => decide (Bare e)) := by
      intro l
      rw [List.countP_map]
      rfl
    have hl : t'.elems.length = t.elems.length := by
      have := h4.length_eq
      simpa using this
    refine ⟨fun e he => ?_, ?_⟩
    · have hm : noJac e ∈ t.elems.map noJac := h4.mem_iff.1 (List.mem_map_of_mem he)
      obtain ⟨e', he', hee⟩ := List.mem_map.1 hm
      have := ih.1 e' he'
      rwa [← bare_noJac, ← complete_noJac, hee, bare_noJac, complete_noJac] at this
    · rw [← hc, h4.countP_eq, hc, ih.2]
      have : t'.elems = [] ↔ t.elems = [] := by rw [← List.length_eq_zero_iff, ← List.length_eq_zero_iff, hl]
      simp only [this]

/-- C80: an element can be printed exactly if it has a surface and a Jacobian; what is printed are its values. -/
theorem C80_print (e : Element) (x : Dbl × Bool × Bool × Surface × M5 × M5) : e.print = .ok x ↔
    ∃ s j, e.surface = some s ∧ e.jac = some j ∧ x = (e.arc, e.measurement, e.scatterer, s, j, j) := by
  unfold Element.print Element.surfaceRef Element.jacobianRef
  simp only [Out.bind_eq_ok, deref_ok, Out.pure_eq, Out.ok.injEq]
  constructor
  · rintro ⟨s, h1, j, h2, j', h3, h⟩
    rw [h2] at h3
    injection h3 with h3
    exact ⟨s, j, h1, h2, by rw [← h, h3]⟩
  · rintro ⟨s, j, h1, h2, h⟩
    exact ⟨s, h1, j, h2, j, h2, h.symm⟩

/-- C80 (partial): after `prepareForFitting` every element that has a surface can be printed, that is all but one.  Missing:
the start element (`C80_start_false`) and elements added later (`C80_unprepared_false`). -/
theorem C80_printable_partial (env : Env) {sort : List Element → List Element} (hsort : IsStdSort compareElements sort)
    (t t' : Traj) (h : Reach env sort t) (hp : t.prepareForFitting env sort = .ok t') :
    (∀ e ∈ t'.elems, Complete e → ∃ x, e.print = .ok x) ∧
    t'.elems.countP (fun e => decide (∃ x, e.print = .ok x)) + 1 = t'.elems.length := by
  obtain ⟨-, -, -, -, -, h6⟩ := C50_elements hsort hp
  have hr := C80_references env hsort t' (.prepare h hp)
  have h1 : ∀ e ∈ t'.elems, Complete e → ∃ x, e.print = .ok x := by
    intro e he hc
    obtain ⟨s, hs⟩ := hc.2.1
    obtain ⟨j, hj⟩ := Option.isSome_iff_exists.1 (h6 e he)
    exact ⟨_, (C80_print e _).2 ⟨s, j, deref_ok.1 hs, hj, rfl⟩⟩
  refine ⟨h1, ?_⟩
  have hne : t'.elems ≠ [] := by
    obtain ⟨-, -, -, -, -, f, r, e, -⟩ := prepare_ok hsort hp
    rw [e]; simp
  have h2 := hr.2
  rw [if_neg hne] at h2
  have h3 : t'.elems.countP (fun e => decide (∃ x, e.print = .ok x)) = t'.elems.countP (fun e => !decide (Bare e)) := by
    apply List.countP_congr
    intro e he
    simp only [decide_eq_true_eq, Bool.not_eq_true', decide_eq_false_iff_not]
    constructor
    · rintro ⟨x, hx⟩ hb
      obtain ⟨s, j, hs, -⟩ := (C80_print e x).1 hx
      exact hb.2.2.1 s (deref_ok.2 hs)
    · intro hb
      rcases hr.1 e he with h | h
      · exact absurd h hb
      · exact h1 e he h
  rw [h3, List.length_eq_countP_add_countP (fun e => decide (Bare e)), h2, add_comm]
  congr 1
  apply List.countP_congr
  intro e _
  simp

/-- C80 is false for the start element: whatever has been called, the trajectory has an element whose printing is undefined
behaviour. -/
theorem C80_start_false (env : Env) {sort : List Element → List Element} (hsort : IsStdSort compareElements sort) (t : Traj)
    (h : Reach env sort t) (hne : t.elems ≠ []) : ∃ e ∈ t.elems, ∃ w, e.print = .ub w := by
  have hr := (C80_references env hsort t h).2
  rw [if_neg hne] at hr
  have : 0 < t.elems.countP (fun e => decide (Bare e)) := by omega
  obtain ⟨e, he, hb⟩ := List.countP_pos_iff.1 this
  rw [decide_eq_true_eq] at hb
  refine ⟨e, he, ?_⟩
  have hs : e.surface = none := by
    cases hs : e.surface with
    | none => rfl
    | some s => exact absurd (deref_ok.2 hs) (hb.2.2.1 s)
  unfold Element.print Element.surfaceRef
  rw [hs]
  exact ⟨_, rfl⟩

/-- C80 is false for an element that has been added after the last call of `prepareForFitting`. -/
theorem C80_unprepared_false (env : Env) (t : Traj) (op : AddOp) (ha : Adds op) (hok : (t.step env op).2 = .ok true) :
    ∃ e, (t.step env op).1.elems.getLast? = some e ∧ Complete e ∧ ∃ w, e.print = .ub w := by
  obtain ⟨back, o, -, e0, hop⟩ := step_cases env t op ha
  rw [e0] at hok ⊢
  rcases append_cases t.withStart o with ⟨x, ho, h⟩ | ⟨-, h⟩
  · obtain ⟨h1, h2⟩ := added_complete hop ho
    rw [h]
    refine ⟨x, by simp, h1, ?_⟩
    obtain ⟨s, hs⟩ := h1.2.1
    unfold Element.print Element.jacobianRef
    rw [hs, h2]
    exact ⟨_, rfl⟩
  · exact absurd hok h

open Example in
/-- non-trivial case for C80: a prepared trajectory with a disk; one element can be printed, one cannot -/
theorem C80_example {sort : List Element → List Element} (hsort : IsStdSort compareElements sort) :
    ∃ t', Reach env sort t' ∧ t'.elems.length = 2 ∧ t'.elems.countP (fun e => decide (∃ x, e.print = .ok x)) = 1 := by
  obtain ⟨t', h1, h2, -⟩ := C50_example hsort
  have hr : Reach env sort (after env (make tp) [.scatterer disk]) := .step _ (.make tp)
  have := (C80_printable_partial env hsort _ t' hr h1).2
  exact ⟨t', .prepare hr h1, h2, by omega⟩

end Verif
