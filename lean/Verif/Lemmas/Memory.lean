import Verif.Model.Memory
import Mathlib.Data.List.Perm.Lattice

/-!
# Ownership of heap objects: invariant
-/

open Classical

noncomputable section

namespace Verif

open Dbl Traj MState

namespace Heap

theorem allocN_next (h : Heap) (n : ℕ) : (h.allocN n).next = h.next + n := by
  induction n with
  | zero => rfl
  | succ n ih => simp only [allocN, alloc, ih]; omega

theorem mem_allocN (h : Heap) (n a : ℕ) : a ∈ (h.allocN n).live ↔ a ∈ h.live ∨ (h.next ≤ a ∧ a < h.next + n) := by
  induction n with
  | zero => simp only [allocN]; constructor
            · exact Or.inl
            · rintro (h | h)
              · exact h
              · omega
  | succ n ih =>
    simp only [allocN, alloc, Finset.mem_insert, ih, allocN_next]
    constructor
    · rintro (h | h | h)
      · right; omega
      · exact Or.inl h
      · right; omega
    · rintro (h' | h')
      · exact Or.inr (Or.inl h')
      · by_cases hc : a = h.next + n
        · exact Or.inl hc
        · right; right; omega

theorem free_ok (l : List ℕ) : ∀ h : Heap, l.Nodup → (∀ a ∈ l, a ∈ h.live) →
    h.free l = .ok ⟨h.live \ l.toFinset, h.next⟩ := by
  induction l with
  | nil => intro h _ _; simp [free]
  | cons a l ih =>
    intro h hn hl
    rw [List.nodup_cons] at hn
    rw [free, if_pos (hl a (by simp)), ih _ hn.2]
    · congr 2
      ext b
      simp only [Finset.mem_sdiff, Finset.mem_erase, List.mem_toFinset, List.mem_cons]
      tauto
    · intro b hb
      exact Finset.mem_erase.2 ⟨fun h => hn.1 (h ▸ hb), hl b (by simp [hb])⟩

end Heap

/-- the addresses a list of elements will delete -/
def del (ms : List ElemMem) : List ℕ := ms.flatMap ElemMem.deleted

/-- the addresses owned by trajectory `i` -/
def MState.own (s : MState) (i : ℕ) : List ℕ :=
  match s.objs i with
  | none => []
  | some (_, ms) => del ms

/-- everything an element owns except the Jacobian -/
def ElemMem.others (m : ElemMem) : List ℕ := m.lcls.toList ++ m.meas.toList ++ m.proj.toList ++ [m.trk, m.self]

theorem deleted_perm (m : ElemMem) : m.deleted.Perm (m.jac.toList ++ m.others) := by
  rw [List.perm_iff_count]
  intro a
  simp only [ElemMem.deleted, ElemMem.others, List.count_append]
  omega

theorem jac_logic {L O J D X N : Prop} (h1 : O → L) (h2 : O → ¬ D) (h3 : O → ¬ J) (h4 : N → ¬ D) (h5 : N → ¬ J) :
    (((N ∨ L) ∧ ¬ J) ∧ ¬ D) ∨ X ↔ (L ∧ ¬ ((J ∨ O) ∨ D)) ∨ ((N ∨ O) ∨ X) := by
  tauto

theorem jacobians_ok (got : ℕ → Bool) (l : List ElemMem) : ∀ h : Heap, (del l).Nodup → (∀ a ∈ del l, a ∈ h.live) →
    (∀ a ∈ h.live, a < h.next) → ∃ l' h', newJacobians got h l = .ok (l', h') ∧ (del l').Nodup ∧ h.next ≤ h'.next ∧
      (∀ a ∈ h'.live, a < h'.next) ∧ (∀ a ∈ del l', a ∈ del l ∨ h.next ≤ a) ∧
      (∀ a, a ∈ h'.live ↔ (a ∈ h.live ∧ a ∉ del l) ∨ a ∈ del l') := by
  induction l with
  | nil =>
    intro h _ _ hb
    exact ⟨[], h, rfl, by simp [del], le_refl _, hb, by simp [del], by simp [del]⟩
  | cons m l ih =>
    intro h hn hl hb
    have hdel : ∀ m : ElemMem, ∀ l, del (m :: l) = m.deleted ++ del l := fun _ _ => rfl
    rw [hdel] at hn hl
    rw [List.nodup_append'] at hn
    obtain ⟨hn1, hn2, hn3⟩ := hn
    by_cases hg : got m.self = true
    · have hj : m.jac.toList.Nodup := by cases m.jac <;> simp
      have hjm : ∀ a ∈ m.jac.toList, a ∈ m.deleted := fun a ha => by simp only [ElemMem.deleted, List.mem_append]; tauto
      have hf := Heap.free_ok m.jac.toList h.alloc.2 hj (fun a ha => by
        simp only [Heap.alloc, Finset.mem_insert]
        exact Or.inr (hl a (List.mem_append.2 (Or.inl (hjm a ha)))))
      obtain ⟨l', h', e1, e2, e3, e4, e5, e6⟩ := ih ⟨h.alloc.2.live \ m.jac.toList.toFinset, h.alloc.2.next⟩ hn2
        (fun a ha => by
          simp only [Heap.alloc, Finset.mem_sdiff, Finset.mem_insert, List.mem_toFinset]
          exact ⟨Or.inr (hl a (List.mem_append.2 (Or.inr ha))), fun hc => hn3 (hjm a hc) ha⟩)
        (fun a ha => by
          simp only [Heap.alloc, Finset.mem_sdiff, Finset.mem_insert, List.mem_toFinset] at ha ⊢
          rcases ha.1 with h1 | h1
          · omega
          · have := hb a h1; omega)
      simp only [Heap.alloc] at e3 e5 e6
      have hmlt : ∀ a ∈ m.deleted, a < h.next := fun a ha => hb a (hl a (List.mem_append.2 (Or.inl ha)))
      have hllt : ∀ a ∈ del l, a < h.next := fun a ha => hb a (hl a (List.mem_append.2 (Or.inr ha)))
      have hp := deleted_perm m
      have hp' := deleted_perm { m with jac := some h.next }
      have ho : ({ m with jac := some h.next } : ElemMem).others = m.others := rfl
      rw [ho] at hp'
      have hpn := hp.nodup_iff.1 hn1
      rw [List.nodup_append'] at hpn
      have hol : ∀ a ∈ m.others, a ∈ m.deleted := fun a ha => hp.mem_iff.2 (List.mem_append.2 (Or.inr ha))
      refine ⟨{ m with jac := some h.next } :: l', h', ?_, ?_, by omega, e4, ?_, ?_⟩
      · rw [newJacobians, if_pos hg]
        simp only
        rw [hf, Out.ok_bind, e1]
        rfl
      · rw [hdel, List.nodup_append']
        refine ⟨?_, e2, fun a ha hb' => ?_⟩
        · rw [hp'.nodup_iff]
          simp only [Option.toList_some, List.singleton_append, List.nodup_cons]
          exact ⟨fun hc => by have := hmlt _ (hol _ hc); omega, hpn.2.1⟩
        · rw [hp'.mem_iff] at ha
          simp only [Option.toList_some, List.singleton_append, List.mem_cons] at ha
          rcases e5 a hb' with h1 | h1
          · rcases ha with ha | ha
            · have := hllt a h1; omega
            · exact hn3 (hol a ha) h1
          · rcases ha with ha | ha
            · omega
            · have := hmlt a (hol a ha); omega
      · intro a ha
        rw [hdel, List.mem_append, hp'.mem_iff] at ha
        rw [hdel, List.mem_append]
        simp only [Option.toList_some, List.singleton_append, List.mem_cons] at ha
        rcases ha with (ha | ha) | ha
        · right; omega
        · exact Or.inl (Or.inl (hol a ha))
        · rcases e5 a ha with h1 | h1
          · exact Or.inl (Or.inr h1)
          · right; omega
      · intro a
        rw [e6, hdel, hdel, List.mem_append, List.mem_append, hp'.mem_iff, hp.mem_iff]
        simp only [Option.toList_some, List.singleton_append, List.mem_cons, Finset.mem_sdiff, Finset.mem_insert,
          List.mem_toFinset, List.mem_append]
        have h1 : a ∈ m.others → a ∈ h.live := fun ha => hl a (List.mem_append.2 (Or.inl (hol a ha)))
        have h2 : a ∈ m.others → a ∉ del l := fun ha hc => hn3 (hol a ha) hc
        have h3 : a ∈ m.others → a ∉ m.jac.toList := fun ha hc => hpn.2.2 hc ha
        have h4 : a = h.next → a ∉ del l := fun ha hc => by have := hllt a hc; omega
        have h5 : a = h.next → a ∉ m.jac.toList := fun ha hc => by have := hmlt a (hjm a hc); omega
        exact jac_logic h1 h2 h3 h4 h5
    · obtain ⟨l', h', e1, e2, e3, e4, e5, e6⟩ := ih h hn2 (fun a ha => hl a (List.mem_append.2 (Or.inr ha))) hb
      have hmlt : ∀ a ∈ m.deleted, a < h.next := fun a ha => hb a (hl a (List.mem_append.2 (Or.inl ha)))
      refine ⟨m :: l', h', ?_, ?_, e3, e4, ?_, ?_⟩
      · rw [newJacobians, if_neg hg, e1]; rfl
      · rw [hdel, List.nodup_append']
        refine ⟨hn1, e2, fun a ha hb' => ?_⟩
        rcases e5 a hb' with h1 | h1
        · exact hn3 ha h1
        · have := hmlt a ha; omega
      · intro a ha
        rw [hdel, List.mem_append] at ha ⊢
        rcases ha with ha | ha
        · exact Or.inl (Or.inl ha)
        · rcases e5 a ha with h1 | h1
          · exact Or.inl (Or.inr h1)
          · exact Or.inr h1
      · intro a
        rw [e6, hdel, hdel, List.mem_append, List.mem_append]
        have h1 : a ∈ m.deleted → a ∈ h.live := fun ha => hl a (List.mem_append.2 (Or.inl ha))
        have h2 : a ∈ m.deleted → a ∉ del l := fun ha hc => hn3 ha hc
        tauto

/-- the elements own different existing objects -/
structure Owns (h : Heap) (ms : List ElemMem) : Prop where
  nodup : (del ms).Nodup
  live : ∀ a ∈ del ms, a ∈ h.live
  bound : ∀ a ∈ h.live, a < h.next

/-- a change of the objects of one trajectory that loses `4 * d` objects and touches no other object -/
structure Ext (h : Heap) (ms : List ElemMem) (h' : Heap) (ms' : List ElemMem) (d : ℕ) : Prop where
  owns : Owns h' ms'
  next : h.next ≤ h'.next
  fresh : ∀ a ∈ del ms', a ∈ del ms ∨ h.next ≤ a
  lost : ∃ F : Finset ℕ, F.card = 4 * d ∧ (∀ a ∈ F, h.next ≤ a ∧ a ∉ del ms') ∧
    ∀ a, a ∈ h'.live ↔ (a ∈ h.live ∧ a ∉ del ms) ∨ a ∈ del ms' ∨ a ∈ F

theorem Ext.trans {h h1 h2 : Heap} {m m1 m2 : List ElemMem} {d e : ℕ} (x : Ext h m h1 m1 d) (y : Ext h1 m1 h2 m2 e)
    (ho : Owns h m) : Ext h m h2 m2 (d + e) := by
  obtain ⟨F, f1, f2, f3⟩ := x.lost
  obtain ⟨G, g1, g2, g3⟩ := y.lost
  have hF : ∀ a ∈ F, a < h1.next := fun a ha => x.owns.bound a ((f3 a).2 (Or.inr (Or.inr ha)))
  refine ⟨y.owns, x.next.trans y.next, fun a ha => ?_, F ∪ G, ?_, fun a ha => ?_, fun a => ?_⟩
  · rcases y.fresh a ha with h | h
    · exact x.fresh a h
    · exact Or.inr (x.next.trans h)
  · rw [Finset.card_union_of_disjoint, f1, g1]
    · ring
    · rw [Finset.disjoint_left]
      intro a ha hb
      have := hF a ha
      have := (g2 a hb).1
      omega
  · rw [Finset.mem_union] at ha
    rcases ha with ha | ha
    · refine ⟨(f2 a ha).1, fun hc => ?_⟩
      rcases y.fresh a hc with h | h
      · exact (f2 a ha).2 h
      · have := hF a ha; omega
    · exact ⟨x.next.trans (g2 a ha).1, (g2 a ha).2⟩
  · rw [g3, f3, Finset.mem_union]
    have h1 : a ∈ F → a ∉ del m1 := fun ha => (f2 a ha).2
    have h2 : a ∈ h.live ∧ a ∉ del m → a ∉ del m1 := fun ha hc => by
      rcases x.fresh a hc with h | h'
      · exact ha.2 h
      · have := ho.bound a ha.1; omega
    generalize (a ∈ h.live ∧ a ∉ del m) = P at *
    tauto

theorem ext_refl {h : Heap} {m : List ElemMem} (ho : Owns h m) : Ext h m h m 0 := by
  refine ⟨ho, le_refl _, fun a ha => Or.inl ha, ∅, rfl, by simp, fun a => ?_⟩
  have := ho.live a
  simp only [Finset.notMem_empty, or_false]
  tauto

theorem del_append (m : List ElemMem) (e : ElemMem) : del (m ++ [e]) = del m ++ e.deleted := by
  simp [del]

/-- `n` new objects, all owned by a new element -/
theorem ext_new {h : Heap} {m : List ElemMem} (ho : Owns h m) (e : ElemMem) (n : ℕ) (hn : e.deleted.Nodup)
    (he : ∀ a, a ∈ e.deleted ↔ h.next ≤ a ∧ a < h.next + n) : Ext h m (h.allocN n) (m ++ [e]) 0 := by
  refine ⟨⟨?_, fun a ha => ?_, fun a ha => ?_⟩, by rw [Heap.allocN_next]; omega, fun a ha => ?_, ∅, rfl, by simp, fun a => ?_⟩
  · rw [del_append, List.nodup_append']
    refine ⟨ho.nodup, hn, fun a ha hb => ?_⟩
    have := ho.bound a (ho.live a ha)
    have := (he a).1 hb
    omega
  · rw [del_append, List.mem_append, he] at ha
    rw [Heap.mem_allocN]
    exact ha.imp (ho.live a) id
  · rw [Heap.mem_allocN] at ha
    rw [Heap.allocN_next]
    rcases ha with ha | ha
    · have := ho.bound a ha; omega
    · omega
  · rw [del_append, List.mem_append, he] at ha
    exact ha.imp id (·.1)
  · rw [Heap.mem_allocN, del_append, List.mem_append, he]
    have := ho.live a
    simp only [Finset.notMem_empty, or_false]
    tauto

theorem ext_start {h : Heap} {m : List ElemMem} (ho : Owns h m) : Ext h m (newStart h).2 (m ++ [(newStart h).1]) 0 := by
  refine ext_new ho _ 2 ?_ fun a => ?_
  · simp [ElemMem.deleted, newStart]
  · simp only [ElemMem.deleted, newStart, Option.toList_none, List.nil_append, List.mem_cons, List.not_mem_nil, or_false]
    omega

theorem ext_element {h : Heap} {m : List ElemMem} (ho : Owns h m) :
    Ext h m (newElement h).2 (m ++ [(newElement h).1]) 0 := by
  refine ext_new ho _ 5 ?_ fun a => ?_
  · simp [ElemMem.deleted, newElement]
  · simp only [ElemMem.deleted, newElement, Option.toList_none, Option.toList_some, List.nil_append, List.append_nil,
      List.cons_append, List.mem_cons, List.not_mem_nil, or_false]
    omega

theorem ext_failed {h : Heap} {m : List ElemMem} (ho : Owns h m) : ∃ h', failedElement h = .ok h' ∧ Ext h m h' m 1 := by
  have hf := Heap.free_ok [h.next + 3] (h.allocN 5) (by simp) (fun a ha => by
    rw [List.mem_singleton] at ha
    rw [Heap.mem_allocN]
    omega)
  refine ⟨_, hf, ⟨ho.nodup, fun a ha => ?_, fun a ha => ?_⟩, by simp [Heap.allocN_next], fun a ha => Or.inl ha,
    {h.next, h.next + 1, h.next + 2, h.next + 4}, by simp, fun a ha => ?_, fun a => ?_⟩
  · simp only [Finset.mem_sdiff, Heap.mem_allocN, List.mem_toFinset, List.mem_singleton]
    have := ho.bound a (ho.live a ha)
    exact ⟨Or.inl (ho.live a ha), by omega⟩
  · simp only [Finset.mem_sdiff, Heap.mem_allocN] at ha
    simp only [Heap.allocN_next]
    rcases ha.1 with h1 | h1
    · have := ho.bound a h1; omega
    · omega
  · simp only [Finset.mem_insert, Finset.mem_singleton] at ha
    refine ⟨by omega, fun hc => ?_⟩
    have := ho.bound a (ho.live a hc)
    omega
  · simp only [Finset.mem_sdiff, Heap.mem_allocN, List.mem_toFinset, List.mem_singleton, Finset.mem_insert,
      Finset.mem_singleton]
    have h1 := ho.live a
    have h2 := ho.bound a
    by_cases hl : a ∈ h.live
    · have := h2 hl
      by_cases hd : a ∈ del m
      · simp only [hl, hd, true_or, or_true, true_and, not_true, and_false, iff_true]; omega
      · simp only [hl, hd, true_or, true_and, and_true, not_false_eq_true, false_or, iff_true]; omega
    · by_cases hd : a ∈ del m
      · exact absurd (h1 hd) hl
      · simp only [hl, hd, false_and, false_or]; omega

theorem ext_jacobians {h : Heap} {m : List ElemMem} (ho : Owns h m) (got : ℕ → Bool) :
    ∃ m' h', newJacobians got h m = .ok (m', h') ∧ Ext h m h' m' 0 := by
  obtain ⟨m', h', e1, e2, e3, e4, e5, e6⟩ := jacobians_ok got m h ho.nodup ho.live ho.bound
  refine ⟨m', h', e1, ⟨e2, fun a ha => (e6 a).2 (Or.inr ha), e4⟩, e3, e5, ∅, rfl, by simp, fun a => ?_⟩
  rw [e6]
  simp

theorem ext_destroy {h : Heap} {m : List ElemMem} (ho : Owns h m) :
    ∃ h', h.free (del m) = .ok h' ∧ Ext h m h' [] 0 := by
  refine ⟨_, Heap.free_ok _ h ho.nodup ho.live, ⟨by simp [del], by simp [del], fun a ha => ?_⟩, le_refl _, by simp [del],
    ∅, rfl, by simp, fun a => ?_⟩
  · exact ho.bound a (Finset.mem_sdiff.1 ha).1
  · simp [del]

/-- what holds in every state of a program in which `n` constructions of elements have failed -/
structure MemInv (s : MState) (n : ℕ) : Prop where
  nodup : ∀ i, (s.own i).Nodup
  disj : ∀ i j, i ≠ j → ∀ a ∈ s.own i, a ∉ s.own j
  bound : ∀ a ∈ s.heap.live, a < s.heap.next
  lost : ∃ F : Finset ℕ, F.card = 4 * n ∧ (∀ a ∈ F, ∀ i, a ∉ s.own i) ∧
    ∀ a, a ∈ s.heap.live ↔ a ∈ F ∨ ∃ i, a ∈ s.own i

theorem MemInv.owns {s : MState} {n i : ℕ} (v : MemInv s n) {t : Traj} {ms : List ElemMem} (h : s.objs i = some (t, ms)) :
    Owns s.heap ms := by
  have he : s.own i = del ms := by simp [MState.own, h]
  obtain ⟨F, -, -, f3⟩ := v.lost
  exact ⟨he ▸ v.nodup i, fun a ha => (f3 a).2 (Or.inr ⟨i, he ▸ ha⟩), v.bound⟩

theorem MemInv.put {s : MState} {n d i : ℕ} (v : MemInv s n) {ms' : List ElemMem} {h' : Heap} {x : Option (Traj × List ElemMem)}
    {ms : List ElemMem} (hi : s.own i = del ms) (hx : (s.put i x h').own i = del ms') (e : Ext s.heap ms h' ms' d) :
    MemInv (s.put i x h') (n + d) := by
  have hj : ∀ j, j ≠ i → (s.put i x h').own j = s.own j := fun j hj => by simp [MState.own, MState.put, hj]
  obtain ⟨F, f1, f2, f3⟩ := v.lost
  obtain ⟨G, g1, g2, g3⟩ := e.lost
  have old : ∀ j, ∀ a ∈ s.own j, a < s.heap.next := fun j a ha => v.bound a ((f3 a).2 (Or.inr ⟨j, ha⟩))
  have oldF : ∀ a ∈ F, a < s.heap.next := fun a ha => v.bound a ((f3 a).2 (Or.inl ha))
  refine ⟨fun j => ?_, fun j k hjk a ha hb => ?_, e.owns.bound, F ∪ G, ?_, fun a ha j hc => ?_, fun a => ?_⟩
  · by_cases h : j = i
    · subst h; rw [hx]; exact e.owns.nodup
    · rw [hj j h]; exact v.nodup j
  · by_cases h1 : j = i
    · subst h1
      rw [hx] at ha
      rw [hj k (Ne.symm hjk)] at hb
      rcases e.fresh a ha with h | h
      · exact v.disj j k hjk a (hi ▸ h) hb
      · have := old k a hb; omega
    · rw [hj j h1] at ha
      by_cases h2 : k = i
      · subst h2
        rw [hx] at hb
        rcases e.fresh a hb with h | h
        · exact v.disj j k hjk a ha (hi ▸ h)
        · have := old j a ha; omega
      · rw [hj k h2] at hb
        exact v.disj j k hjk a ha hb
  · rw [Finset.card_union_of_disjoint, f1, g1]
    · ring
    · rw [Finset.disjoint_left]
      intro a ha hb
      have := oldF a ha
      have := (g2 a hb).1
      omega
  · rw [Finset.mem_union] at ha
    by_cases h : j = i
    · subst h
      rw [hx] at hc
      rcases ha with ha | ha
      · rcases e.fresh a hc with h | h
        · exact f2 a ha j (hi ▸ h)
        · have := oldF a ha; omega
      · exact (g2 a ha).2 hc
    · rw [hj j h] at hc
      rcases ha with ha | ha
      · exact f2 a ha j hc
      · have := old j a hc
        have := (g2 a ha).1
        omega
  · show a ∈ h'.live ↔ _
    rw [g3, f3, Finset.mem_union]
    constructor
    · rintro (⟨h1 | ⟨j, h1⟩, h2⟩ | h1 | h1)
      · exact Or.inl (Or.inl h1)
      · have : j ≠ i := fun h => h2 (by rw [← hi, ← h]; exact h1)
        exact Or.inr ⟨j, by rw [hj j this]; exact h1⟩
      · exact Or.inr ⟨i, by rw [hx]; exact h1⟩
      · exact Or.inl (Or.inr h1)
    · rintro ((h1 | h1) | ⟨j, h1⟩)
      · exact Or.inl ⟨Or.inl h1, by rw [← hi]; exact f2 a h1 i⟩
      · exact Or.inr (Or.inr h1)
      · by_cases h : j = i
        · subst h; rw [hx] at h1; exact Or.inr (Or.inl h1)
        · rw [hj j h] at h1
          exact Or.inl ⟨Or.inr ⟨j, h1⟩, by rw [← hi]; exact v.disj j i h a h1⟩

/-- only exceptions with a message in `S` leave the call -/
def Throws {α : Type*} (S : String → Prop) (o : Out α) : Prop := ∀ w, o = .throw w → S w

theorem Throws.ok {α : Type*} {S : String → Prop} (a : α) : Throws S (.ok a) := fun _ h => by cases h

theorem Throws.bind {α β : Type} {S : String → Prop} {x : Out α} {f : α → Out β} (hx : Throws S x)
    (hf : ∀ a, Throws S (f a)) : Throws S (x >>= f) := fun w h => by
  rcases Out.bind_eq_throw.1 h with h | ⟨a, -, h⟩
  · exact hx w h
  · exact hf a w h

theorem Throws.ite {α : Type*} {S : String → Prop} {p : Prop} [Decidable p] {a b : Out α} (ha : Throws S a) (hb : Throws S b) :
    Throws S (if p then a else b) := by
  split_ifs <;> assumption

theorem Throws.cif {α : Type*} {S : String → Prop} {p : Prop} {a b : Out α} (ha : Throws S a) (hb : Throws S b) :
    Throws S (ifc p then a else b) := by
  by_cases h : p
  · rw [cif_pos h]; exact ha
  · rw [cif_neg h]; exact hb

theorem Throws.throw {α : Type*} {S : String → Prop} {w : String} (h : S w) : Throws S (.throw w : Out α) := fun w' h' => by
  injection h' with h'
  rw [← h']
  exact h

theorem while_throws {α : Type} {S : String → Prop} (cond : α → Prop) (step : α → α) (a : α) :
    Throws S (whileLoop cond step a) := fun w h => by
  unfold whileLoop at h
  split_ifs at h

theorem move_throws {S : String → Prop} (tp : TP) (x : V3) (c : Bool) : Throws S (moveHelixTo tp x c) := by
  unfold moveHelixTo
  refine Throws.bind ?_ fun v => Throws.ok _
  unfold moveVals
  iterate 8 refine Throws.bind (while_throws _ _ _) fun _ => ?_
  exact Throws.ok _

/-- the message of the exception from the inversion of the projection -/
abbrev projMsg : String := "Projection matrix can't be inverted, bailing out."

theorem cylinder_throws (surf : Surface) (hp : V5) (rp : V3) (s : Dbl) (xx : V3) (mode : ℤ) (cb : Bool) :
    Throws (· ≠ projMsg) (intersectWithZCylinder surf hp rp s xx mode cb) := by
  intro w h
  unfold intersectWithZCylinder at h
  split at h
  · injection h with h; rw [← h]; decide
  · split_ifs at h
    · split at h
      · cases h
      · dsimp only at h
        split at h <;> cases h
    · injection h with h; rw [← h]; decide

theorem newton_throws {S : String → Prop} (surf : Surface) (hp : V5) (rp : V3) (s : Dbl) (xx : V3) (mode : ℤ) (cb : Bool) :
    Throws S (intersectWithSurfaceNewton surf hp rp s xx mode cb) := by
  unfold intersectWithSurfaceNewton
  refine Throws.bind ?_ fun st => Throws.ite (Throws.cif (Throws.ok _) (Throws.ok _)) (Throws.ok _)
  unfold newtonLoop
  exact while_throws _ _ _

theorem intersect_throws (surf : Surface) (hp : V5) (rp : V3) (s : Dbl) (xx : V3) (mode : ℤ) (cb : Bool) :
    Throws (· ≠ projMsg) (intersectWithSurface surf hp rp s xx mode cb) := by
  unfold intersectWithSurface
  refine Throws.ite (cylinder_throws _ _ _ _ _ _ _) (Throws.ite ?_ (Throws.ite ?_ (Throws.ite ?_ (Throws.ok _))))
  · unfold intersectWithZPlane
    refine Throws.bind (Throws.cif (Throws.throw (by decide)) (Throws.cif (Throws.throw (by decide)) (Throws.ok _))) fun line =>
      Throws.bind (Throws.cif (Throws.throw (by decide)) (Throws.ok _)) fun circ => ?_
    · split
      · exact Throws.ok _
      · exact Throws.cif (Throws.ok _) (Throws.ok _)
      · dsimp only
        split <;> exact Throws.ok _
  · unfold intersectWithZDisk
    exact Throws.cif (Throws.ok _) (Throws.ok _)
  · unfold intersectWithZCone
    exact Throws.bind (cylinder_throws _ _ _ _ _ _ _) fun h => Throws.ite (newton_throws _ _ _ _ _ _ _) (Throws.ok _)

theorem make_throws (arc : Dbl) (tp : TP) (surface : Surface) (m m' : V3) (pr re : List Dbl) (l : V3 × V3) (id : ℕ) (a b : Bool) :
    Throws (· = projMsg) (Element.make arc tp surface [m, m'] pr re l id a b) := by
  unfold Element.make
  refine Throws.bind ?_ fun _ => Throws.ok _
  unfold calculateLocalToMeasurementProjectionMatrix
  exact Throws.bind (Throws.ok _) fun ⟨_, _, _, _⟩ => Throws.cif (Throws.ok _) (Throws.throw rfl)

theorem measurement_throw {env : Env} {mass : Dbl} {back : Element} {pos : V3} {prec : List Dbl} {surf : Surface} {id : ℕ}
    {sc : Bool} {w : String} (h : measurementElement env mass back pos prec surf id sc = .throw w) :
    (∃ hit, intersectWithSurface surf back.tp.hp back.tp.rp 0 V3.zero 1 false = .ok hit ∧ hit.found = true) ↔
      w = projMsg := by
  unfold measurementElement at h
  rcases Out.bind_eq_throw.1 h with h | ⟨hit, h1, h⟩
  · rw [h]
    exact ⟨fun ⟨_, h', _⟩ => (by cases h'), fun h' => absurd h' (intersect_throws _ _ _ _ _ _ _ _ h)⟩
  · by_cases hf : hit.found = true
    · rw [if_pos hf] at h
      refine ⟨fun _ => ?_, fun _ => ⟨hit, h1, hf⟩⟩
      refine (?_ : Throws (· = projMsg) _) w h
      refine Throws.bind (move_throws _ _ _) fun ⟨tp, _⟩ => ?_
      dsimp only
      split
      · intro w h; cases h
      · exact Throws.bind (make_throws _ _ _ _ _ _ _ _ _ _ _) fun _ => Throws.ok _
    · rw [if_neg hf] at h; cases h

theorem scatterer_throw {env : Env} {mass : Dbl} {back : Element} {surf : Surface} {w : String}
    (h : scattererElement env mass back surf = .throw w) :
    (∃ hit, intersectWithSurface surf back.tp.hp back.tp.rp 0 V3.zero 1 true = .ok hit ∧ hit.found = true) ↔
      w = projMsg := by
  unfold scattererElement at h
  rcases Out.bind_eq_throw.1 h with h | ⟨hit, h1, h⟩
  · rw [h]
    exact ⟨fun ⟨_, h', _⟩ => (by cases h'), fun h' => absurd h' (intersect_throws _ _ _ _ _ _ _ _ h)⟩
  · by_cases hf : hit.found = true
    · rw [if_pos hf] at h
      refine ⟨fun _ => ?_, fun _ => ⟨hit, h1, hf⟩⟩
      refine (?_ : Throws (· = projMsg) _) w h
      refine Throws.bind (move_throws _ _ _) fun ⟨tp, _⟩ => ?_
      dsimp only
      split
      · intro w h; cases h
      · exact Throws.bind (make_throws _ _ _ _ _ _ _ _ _ _ _) fun _ => Throws.ok _
    · rw [if_neg hf] at h; cases h

theorem append_throw {t : Traj} {o : Out (Option Element)} {w : String} (h : (t.append o).2 = .throw w) :
    o = .throw w ∧ (t.append o).1 = t := by
  cases o with
  | ok x => cases x <;> cases h
  | throw v => injection h with h; exact ⟨by rw [h], rfl⟩
  | ub v => cases h
  | diverge => cases h

/-- after the creation of objects has begun, only the inversion of the projection can throw, and before it cannot -/
theorem reached_iff {env : Env} {t : Traj} {op : AddOp} {w : String} (h : (t.step env op).2 = .throw w) :
    reached (t.step env op).1 op ↔ w = projMsg := by
  cases op with
  | measurement p prec s id sc =>
    simp only [Traj.step, addMeasurement] at h ⊢
    cases hb : t.withStart.elems.getLast? with
    | none => rw [hb] at h; cases h
    | some back =>
      rw [hb] at h
      simp only at h ⊢
      obtain ⟨h1, h2⟩ := append_throw h
      rw [h2, ← measurement_throw h1]
      simp only [reached, hb]
      constructor
      · rintro ⟨_, hit, e, e'⟩
        cases e; exact ⟨hit, e'⟩
      · rintro ⟨hit, e'⟩
        exact ⟨back, hit, rfl, e'⟩
  | scatterer s =>
    simp only [Traj.step, addScatterer] at h ⊢
    cases hb : t.withStart.elems.getLast? with
    | none => rw [hb] at h; cases h
    | some back =>
      rw [hb] at h
      simp only at h ⊢
      obtain ⟨h1, h2⟩ := append_throw h
      rw [h2, ← scatterer_throw h1]
      simp only [reached, hb]
      constructor
      · rintro ⟨_, hit, e, e'⟩
        cases e; exact ⟨hit, e'⟩
      · rintro ⟨hit, e'⟩
        exact ⟨back, hit, rfl, e'⟩
  | setMass m => cases h

end Verif
