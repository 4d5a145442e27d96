import Mathlib.Data.Real.Basic
import Mathlib.Algebra.Order.Group.Abs

/-!
# Specification: which of several solutions is to be reported

`mode > 0`: forward, the first solution with `s >= 0`; `mode < 0`: backward, the first solution with
`s < 0`; `mode = 0`: the solution with the smallest `|s|`, where a solution with `s >= 0` is preferred
if it is longer by less than `tie`.
-/

namespace Verif.Spec

/-- `sv` is acceptable as the reported solution although `s'` is a solution, too -/
def SelOk (tie : ℝ) (mode : ℤ) (sv s' : ℝ) : Prop :=
  (0 < mode → 0 ≤ sv ∧ (0 ≤ s' → sv ≤ s')) ∧ (mode < 0 → sv < 0 ∧ (s' < 0 → s' ≤ sv)) ∧
    (mode = 0 → (|sv| ≤ |s'| ∧ (sv < 0 → 0 ≤ s' → |sv| + tie ≤ |s'|)) ∨
      (0 ≤ sv ∧ s' < 0 ∧ |sv| ≤ |s'| + tie))

/-- `s'` is a solution in the requested direction -/
def Wanted (mode : ℤ) (s' : ℝ) : Prop := (0 < mode → 0 ≤ s') ∧ (mode < 0 → s' < 0)

theorem SelOk.self {tie : ℝ} {mode : ℤ} {sv s' : ℝ} (h : SelOk tie mode sv s') : SelOk tie mode sv sv :=
  ⟨fun hm => ⟨(h.1 hm).1, fun _ => le_refl _⟩, fun hm => ⟨(h.2.1 hm).1, fun _ => le_refl _⟩,
    fun _ => Or.inl ⟨le_refl _, fun a b => absurd b (not_le.mpr a)⟩⟩

end Verif.Spec
