import Verif.Model.Trajectory

/-!
# Heap objects of trajectories

Which objects `trajectory` and `trajectoryElement` create with `new` and when they `delete` them
(core/src/trajectory.cc, core/src/trajectoryElement.cc, core/include/trajectoryElement.hh, util/src/utilities.cc).
Addresses are numbers that are never used twice.  Copying and assigning is private in both classes
(trajectoryElement.hh:160-161, trajectory.hh:125-126, 147-148), so there is no operation for it.  Objects on the stack and the memory
inside of `std::vector` are not modelled.
-/

open Classical

noncomputable section

namespace Verif

open Traj

/-- the heap: the addresses of existing objects, and the next address -/
structure Heap where
  live : Finset ℕ
  next : ℕ

namespace Heap

/-- `new` -/
def alloc (h : Heap) : ℕ × Heap := (h.next, ⟨insert h.next h.live, h.next + 1⟩)

/-- `n` times `new`; the addresses are `h.next, ..., h.next + n - 1` -/
def allocN (h : Heap) : ℕ → Heap
  | 0 => h
  | n + 1 => (h.allocN n).alloc.2

/-- `delete`, in the order of the list -/
def free (h : Heap) : List ℕ → Out Heap
  | [] => .ok h
  | a :: l => if a ∈ h.live then free ⟨h.live.erase a, h.next⟩ l else .ub "delete of an object that does not exist"

end Heap

/-- addresses of a `trajectoryElement` and of the objects it points to, trajectoryElement.hh:166-189 -/
structure ElemMem where
  self : ℕ
  trk : ℕ
  meas : Option ℕ
  lcls : Option ℕ
  proj : Option ℕ
  jac : Option ℕ

namespace ElemMem

/-- order in which `delete element` deletes, trajectoryElement.cc:54-73 -/
def deleted (m : ElemMem) : List ℕ :=
  m.lcls.toList ++ m.meas.toList ++ m.jac.toList ++ m.proj.toList ++ [m.trk, m.self]

end ElemMem

/-- the heap and the existing trajectories, each with the addresses of its elements -/
structure MState where
  heap : Heap
  objs : ℕ → Option (Traj × List ElemMem)

namespace MState

/-- nothing exists -/
def init : MState := ⟨⟨∅, 0⟩, fun _ => none⟩

def put (s : MState) (i : ℕ) (x : Option (Traj × List ElemMem)) (h : Heap) : MState :=
  ⟨h, fun j => if j = i then x else s.objs j⟩

/-- `addElement`, trajectory.cc:313-321: the parameters and the element -/
def newStart (h : Heap) : ElemMem × Heap := (⟨h.next + 1, h.next, none, none, none, none⟩, h.allocN 2)

/-- the objects of a measurement or scatterer, trajectory.cc:179, 200, 237, utilities.cc:273, 288: parameters, directions,
curvilinear system, the element, and in its constructor the projection -/
def newElement (h : Heap) : ElemMem × Heap :=
  (⟨h.next + 3, h.next, some (h.next + 1), some (h.next + 2), some (h.next + 4), none⟩, h.allocN 5)

/-- an exception in the constructor of the element: the memory of the element itself is released by the language, the
destructor does not run -/
def failedElement (h : Heap) : Out Heap := (h.allocN 5).free [h.next + 3]

/-- whether the call has reached the creation of objects, trajectory.cc:159-179, 255-269: the surface is hit.  After this
point only the constructor of the element can throw. -/
def reached (t : Traj) : AddOp → Prop
  | .measurement _ _ surf _ _ => ∃ back h, t.elems.getLast? = some back ∧
      intersectWithSurface surf back.tp.hp back.tp.rp 0 V3.zero 1 false = .ok h ∧ h.found = true
  | .scatterer surf => ∃ back h, t.elems.getLast? = some back ∧
      intersectWithSurface surf back.tp.hp back.tp.rp 0 V3.zero 1 true = .ok h ∧ h.found = true
  | .setMass _ => False

/-- whether the call adds a start element first, trajectory.cc:148-151, 244-247 -/
def needsStart (t : Traj) : AddOp → Prop
  | .setMass _ => False
  | _ => t.elems = []

/-- `setJacobian(new ...)` for the elements at the addresses selected by `got`, trajectory.cc:343-389,
trajectoryElement.hh:149-155 -/
def newJacobians (got : ℕ → Bool) (h : Heap) : List ElemMem → Out (List ElemMem × Heap)
  | [] => .ok ([], h)
  | m :: l =>
    if got m.self then do
      let a := h.alloc
      let h' ← a.2.free m.jac.toList
      let r ← newJacobians got h' l
      pure ({ m with jac := some a.1 } :: r.1, r.2)
    else do
      let r ← newJacobians got h l
      pure (m :: r.1, r.2)

/-- what a program can do with trajectories -/
inductive Op where
  /-- construct trajectory `i` -/
  | construct (i : ℕ) (tp : TP)
  /-- `addMeasurement`, `addScatterer`, `setMass` -/
  | add (i : ℕ) (op : AddOp)
  /-- `prepareForFitting`; if it is left by an exception, the elements at the addresses `got` have their new Jacobian
  (any set of elements is allowed: in the code it is a beginning of the sorted list) -/
  | prepare (i : ℕ) (got : ℕ → Bool)
  /-- destructor, trajectory.cc:36-44 -/
  | destroy (i : ℕ)

/-- effect of a call; an exception is caught by the program, the state is the one left behind.  The addresses
of the elements are kept in the order of construction. -/
def step (env : Env) (sort : List Element → List Element) (s : MState) : Op → Out MState
  | .construct i tp =>
    match s.objs i with
    | some _ => .ok s
    | none => .ok (s.put i (some (make tp, [])) s.heap)
  | .add i op =>
    match s.objs i with
    | none => .ub "no such object"
    | some (t, ms) =>
      let st := if needsStart t op then ((newStart s.heap).2, ms ++ [(newStart s.heap).1]) else (s.heap, ms)
      match t.step env op with
      | (t', .ok true) => .ok (s.put i (some (t', st.2 ++ [(newElement st.1).1])) (newElement st.1).2)
      | (t', .ok false) => .ok (s.put i (some (t', st.2)) st.1)
      | (t', .throw _) =>
        if reached t' op then do
          let h ← failedElement st.1
          pure (s.put i (some (t', st.2)) h)
        else .ok (s.put i (some (t', st.2)) st.1)
      | (_, .ub w) => .ub w
      | (_, .diverge) => .diverge
  | .prepare i got =>
    match s.objs i with
    | none => .ub "no such object"
    | some (t, ms) =>
      match t.prepareForFitting env sort with
      | .ok t' => do
        let r ← newJacobians (fun _ => true) s.heap ms
        pure (s.put i (some (t', r.1)) r.2)
      | .throw _ => do
        let r ← newJacobians got s.heap ms
        pure (s.put i (some ({ t with elems := sort t.elems }, r.1)) r.2)
      | .ub w => .ub w
      | .diverge => .diverge
  | .destroy i =>
    match s.objs i with
    | none => .ub "no such object"
    | some (_, ms) => do
      let h ← s.heap.free (ms.flatMap ElemMem.deleted)
      pure (s.put i none h)

/-- the state after a sequence of calls, first call first -/
def run (env : Env) (sort : List Element → List Element) (s : MState) : List Op → Out MState
  | [] => .ok s
  | op :: l => do
    let s' ← s.step env sort op
    s'.run env sort l

end MState

end Verif
