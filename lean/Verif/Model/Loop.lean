import Verif.Out
import Mathlib.Order.Iterate
import Mathlib.Data.Nat.Find

/-!
# Semantics of `while (cond) x = step(x);`

The loop ends after the least number of iterations after which the condition is false; if there is
no such number it does not terminate.
-/

open Classical

noncomputable section

namespace Verif

/-- `while (cond a) a = step(a);` -/
def whileLoop {α : Type*} (cond : α → Prop) (step : α → α) (a : α) : Out α :=
  if h : ∃ n : ℕ, ¬ cond (step^[n] a) then .ok (step^[Nat.find h] a) else .diverge

variable {α : Type*} {cond : α → Prop} {step : α → α} {a : α}

theorem whileLoop_of_not (h : ¬ cond a) : whileLoop cond step a = .ok a := by
  have he : ∃ n : ℕ, ¬ cond (step^[n] a) := ⟨0, h⟩
  have h0 : Nat.find he = 0 := (Nat.find_eq_zero he).mpr h
  unfold whileLoop
  rw [dif_pos he, h0]
  rfl

theorem whileLoop_of_cond (h : cond a) : whileLoop cond step a = whileLoop cond step (step a) := by
  unfold whileLoop
  by_cases he : ∃ n : ℕ, ¬ cond (step^[n] (step a))
  · have he' : ∃ n : ℕ, ¬ cond (step^[n] a) := by
      obtain ⟨n, hn⟩ := he
      exact ⟨n + 1, by simpa [Function.iterate_succ_apply] using hn⟩
    rw [dif_pos he, dif_pos he']
    have : Nat.find he' = Nat.find he + 1 := by
      have h0 : ¬ ¬ cond (step^[0] a) := by simpa using h
      rw [Nat.find_comp_succ he' (by simpa [Function.iterate_succ_apply] using he) h0]
      rfl
    rw [this, Function.iterate_succ_apply]
  · have he' : ¬ ∃ n : ℕ, ¬ cond (step^[n] a) := by
      rintro ⟨n, hn⟩
      cases n with
      | zero => exact hn h
      | succ n => exact he ⟨n, by simpa [Function.iterate_succ_apply] using hn⟩
    rw [dif_neg he, dif_neg he']

/-- a loop whose condition stays true never ends -/
theorem whileLoop_diverge (h : ∀ n, cond (step^[n] a)) : whileLoop cond step a = .diverge := by
  unfold whileLoop
  rw [dif_neg]
  rintro ⟨n, hn⟩
  exact hn (h n)

end Verif
