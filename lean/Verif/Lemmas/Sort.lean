import Verif.Model.Sort
import Mathlib.Tactic.Linarith
import Mathlib.Data.List.Sort

/-!
# Lemmas on `std::sort`
-/

open Classical

noncomputable section

namespace Verif

/-- the value of a finite number -/
def finVal : Dbl → ℝ
  | .fin x => x
  | _ => 0

theorem stdSort_ok {α : Type} {f : List α → List α} {lt : α → α → Prop} {l l' : List α}
    (hf : IsStdSort lt f) (h : stdSort f lt l = .ok l') :
    l'.Perm l ∧ l'.Pairwise (fun a b => ¬ lt b a) := by
  unfold stdSort at h
  split at h
  · next hs => cases h; exact ⟨hf.perm l hs, hf.sorted l hs⟩
  · cases h

/-- comparison by a key that is never nan is a strict weak ordering -/
theorem strictWeakOn_key {α : Type} (lt : α → α → Prop) (key : α → ℝ) (l : List α)
    (h : ∀ a ∈ l, ∀ b ∈ l, lt a b ↔ key a < key b) : StrictWeakOn lt l where
  irrefl a ha := by rw [h a ha a ha]; exact lt_irrefl _
  trans a ha b hb c hc := by
    rw [h a ha b hb, h b hb c hc, h a ha c hc]; exact lt_trans
  incomp a ha b hb c hc := by
    rw [h a ha b hb, h b hb a ha, h b hb c hc, h c hc b hb, h a ha c hc, h c hc a ha]
    intro h1 h2 h3 h4
    constructor <;> linarith

/-- there is such an algorithm -/
theorem exists_isStdSort {α : Type} (lt : α → α → Prop) : ∃ f, IsStdSort lt f := by
  have key : ∀ l : List α, StrictWeakOn lt l →
      ∃ l' : List α, l'.Perm l ∧ l'.Pairwise (fun a b => ¬ lt b a) := by
    intro l hl
    let r : {x // x ∈ l} → {x // x ∈ l} → Prop := fun a b => ¬ lt b.1 a.1
    have ht : Std.Total r := ⟨fun a b => by
      by_contra h
      have h' := not_or.mp h
      have h1 : lt b.1 a.1 := not_not.mp h'.1
      have h2 : lt a.1 b.1 := not_not.mp h'.2
      exact hl.irrefl _ a.2 (hl.trans _ a.2 _ b.2 _ a.2 h2 h1)⟩
    have htr : IsTrans {x // x ∈ l} r := ⟨fun a b c hab hbc hca => by
      by_cases h1 : lt a.1 b.1
      · exact hbc (hl.trans _ c.2 _ a.2 _ b.2 hca h1)
      · by_cases h2 : lt b.1 c.1
        · exact hab (hl.trans _ b.2 _ c.2 _ a.2 h2 hca)
        · exact (hl.incomp _ a.2 _ b.2 _ c.2 h1 hab h2 hbc).2 hca⟩
    refine ⟨(l.attach.insertionSort r).map Subtype.val, ?_, ?_⟩
    · have := (List.perm_insertionSort r l.attach).map Subtype.val
      rwa [List.attach_map_subtype_val] at this
    · exact List.pairwise_map.mpr (List.pairwise_insertionSort r l.attach)
  refine ⟨fun l => if h : StrictWeakOn lt l then (key l h).choose else l, ?_, ?_⟩
  · intro l h
    simp only [dif_pos h]
    exact (key l h).choose_spec.1
  · intro l h
    simp only [dif_pos h]
    exact (key l h).choose_spec.2

end Verif
