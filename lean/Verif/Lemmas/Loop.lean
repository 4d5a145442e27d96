import Verif.Model.Loop
import Verif.Dbl
import Mathlib.Algebra.Order.Archimedean.Basic
import Mathlib.Tactic.Linarith
import Mathlib.Tactic.Ring
import Mathlib.Tactic.Push

/-! Helper lemmas: the angle normalisation loops on finite values. -/

noncomputable section

namespace Verif

open Dbl

theorem loopUp (a p x : ℝ) (hp : 0 < p) :
    ∃ n : ℕ, whileLoop (· < fin a) (· + fin p) (fin x) = .ok (fin (x + n * p)) ∧ a ≤ x + n * p ∧
      (n ≠ 0 → x + n * p < a + p) := by
  obtain ⟨N, hN⟩ := exists_nat_ge ((a - x) / p)
  have hN' : a ≤ x + N * p := by
    rw [div_le_iff₀ hp] at hN; linarith
  clear hN
  induction N generalizing x with
  | zero =>
    refine ⟨0, ?_, by simpa using hN', by simp⟩
    rw [whileLoop_of_not]
    · simp
    · simpa using hN'
  | succ N ih =>
    by_cases h : x < a
    · obtain ⟨n, h1, h2, h3⟩ := ih (x + p) (by push_cast at hN'; linarith)
      refine ⟨n + 1, ?_, by push_cast; linarith, fun _ => ?_⟩
      · rw [whileLoop_of_cond (by simpa using h)]
        simp only [fin_add]
        rw [h1]
        congr 2; push_cast; ring
      · by_cases hn : n = 0
        · subst hn; push_cast; linarith
        · have := h3 hn; push_cast; linarith
    · refine ⟨0, ?_, by simpa using h, by simp⟩
      rw [whileLoop_of_not (by simpa using h)]
      simp

theorem loopDown (a p x : ℝ) (hp : 0 < p) :
    ∃ n : ℕ, whileLoop (fin a < ·) (· - fin p) (fin x) = .ok (fin (x - n * p)) ∧ x - n * p ≤ a ∧
      (n ≠ 0 → a - p < x - n * p) := by
  obtain ⟨N, hN⟩ := exists_nat_ge ((x - a) / p)
  have hN' : x - N * p ≤ a := by
    rw [div_le_iff₀ hp] at hN; linarith
  clear hN
  induction N generalizing x with
  | zero =>
    refine ⟨0, ?_, by simpa using hN', by simp⟩
    rw [whileLoop_of_not]
    · simp
    · simpa using hN'
  | succ N ih =>
    by_cases h : a < x
    · obtain ⟨n, h1, h2, h3⟩ := ih (x - p) (by push_cast at hN'; linarith)
      refine ⟨n + 1, ?_, by push_cast; linarith, fun _ => ?_⟩
      · rw [whileLoop_of_cond (by simpa using h)]
        simp only [fin_sub]
        rw [h1]
        congr 2; push_cast; ring
      · by_cases hn : n = 0
        · subst hn; push_cast; linarith
        · have := h3 hn; push_cast; linarith
    · refine ⟨0, ?_, by simpa using h, by simp⟩
      rw [whileLoop_of_not (by simpa using h)]
      simp

/-- the pair of loops `while(x<0) x+=2π; while(x>2π) x-=2π;` brings every finite angle to
[0,2π] and changes it by a multiple of 2π -/
theorem norm02 (x : ℝ) :
    ∃ (y : ℝ) (n : ℤ), (∃ y1 : Dbl, whileLoop (· < fin 0) (· + fin (2 * Real.pi)) (fin x) = .ok y1 ∧
      whileLoop (fin (2 * Real.pi) < ·) (· - fin (2 * Real.pi)) y1 = .ok (fin y)) ∧
      0 ≤ y ∧ y ≤ 2 * Real.pi ∧ y = x + n * (2 * Real.pi) := by
  have hp : 0 < 2 * Real.pi := by linarith [Real.pi_pos]
  obtain ⟨n, h1, h2, h3⟩ := loopUp 0 (2 * Real.pi) x hp
  obtain ⟨m, g1, g2, g3⟩ := loopDown (2 * Real.pi) (2 * Real.pi) (x + n * (2 * Real.pi)) hp
  refine ⟨_, (n : ℤ) - m, ⟨_, h1, g1⟩, ?_, g2, by push_cast; ring⟩
  by_cases hm : m = 0
  · subst hm; simpa using h2
  · have := g3 hm; linarith

/-- the pair of loops `while(x<-π) x+=2π; while(x>π) x-=2π;` -/
theorem normPi (x : ℝ) :
    ∃ (y : ℝ) (n : ℤ), (∃ y1 : Dbl,
      whileLoop (· < fin (-Real.pi)) (· + fin (2 * Real.pi)) (fin x) = .ok y1 ∧
      whileLoop (fin Real.pi < ·) (· - fin (2 * Real.pi)) y1 = .ok (fin y)) ∧
      -Real.pi ≤ y ∧ y ≤ Real.pi ∧ (-Real.pi < x → -Real.pi < y) ∧ y = x + n * (2 * Real.pi) := by
  have hp : 0 < 2 * Real.pi := by linarith [Real.pi_pos]
  obtain ⟨n, h1, h2, h3⟩ := loopUp (-Real.pi) (2 * Real.pi) x hp
  obtain ⟨m, g1, g2, g3⟩ := loopDown Real.pi (2 * Real.pi) (x + n * (2 * Real.pi)) hp
  refine ⟨_, (n : ℤ) - m, ⟨_, h1, g1⟩, ?_, g2, ?_, by push_cast; ring⟩
  · by_cases hm : m = 0
    · subst hm; simpa using h2
    · have := g3 hm; linarith
  · intro hx
    by_cases hm : m = 0
    · subst hm
      have : (0:ℝ) ≤ n * (2 * Real.pi) := by positivity
      simp only [Nat.cast_zero, zero_mul, sub_zero]; linarith
    · have := g3 hm; linarith

end Verif
