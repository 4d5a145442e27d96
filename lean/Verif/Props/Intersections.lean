import Verif.Model.Intersections
import Verif.Spec.Plane
import Mathlib.Tactic.FieldSimp
import Mathlib.Tactic.Linarith
import Mathlib.Tactic.LinearCombination

/-!
# C25-C29: circle and line intersections
-/

noncomputable section

namespace Verif

open Dbl Spec

/-! ## C29 -/

/-- the values on which C++ `r < 0.` is true -/
def IsNeg (a : Dbl) : Prop := a = inf true ∨ ∃ x : ℝ, x < 0 ∧ a = fin x

theorem lt_zero_iff (a : Dbl) : a < 0 ↔ IsNeg a := by
  rw [zero_eq]
  cases a with
  | fin x => simp [IsNeg]
  | inf s => simp [IsNeg]
  | nan => simp [IsNeg]

/-- C29: a circle is rejected exactly for negative radius (in particular NaN is accepted), and
otherwise holds the given numbers. -/
theorem C29_circle (a b r : Dbl) :
    (IsNeg r → ∃ msg, Circle.make a b r = .throw msg) ∧ (¬ IsNeg r → Circle.make a b r = .ok ⟨a, b, r⟩) := by
  rw [← lt_zero_iff]
  exact ⟨fun h => ⟨_, cif_pos h⟩, fun h => cif_neg h⟩

/-- the values on which C++ `fabs(a) < 1e-12` is true -/
def IsTiny (a : Dbl) : Prop := ∃ x : ℝ, |x| < 1 / 10 ^ 12 ∧ a = fin x

theorem tiny_iff (a : Dbl) : Dbl.abs a < (1e-12 : Dbl) ↔ IsTiny a := by
  rw [ofSci_eq]
  cases a with
  | fin x =>
    simp only [abs_fin, fin_lt, IsTiny, fin_inj]
    constructor
    · intro h; exact ⟨x, by norm_num at h ⊢; exact h, rfl⟩
    · rintro ⟨y, hy, rfl⟩; norm_num at hy ⊢; exact hy
  | inf s => simp [IsTiny]
  | nan => simp [IsTiny]

/-- C29: a straight line is rejected exactly for negative distance or a numerically zero normal. -/
theorem C29_line (n0 n1 d : Dbl) :
    (IsNeg d ∨ (IsTiny n0 ∧ IsTiny n1) → ∃ msg, Line.make n0 n1 d = .throw msg) ∧
    (¬ (IsNeg d ∨ (IsTiny n0 ∧ IsTiny n1)) → Line.make n0 n1 d = .ok ⟨n0, n1, d⟩) := by
  rw [← lt_zero_iff, ← tiny_iff, ← tiny_iff]
  unfold Line.make
  constructor
  · intro h
    by_cases h1 : d < 0
    · exact ⟨_, cif_pos h1⟩
    · rw [cif_neg h1]
      exact ⟨_, cif_pos (h.resolve_left h1)⟩
  · intro h
    push Not at h
    rw [cif_neg h.1, cif_neg]
    rintro ⟨h1, h2⟩
    exact absurd h2 (by simpa using h.2 h1)

example : ¬ IsNeg nan ∧ IsNeg (fin (-1)) ∧ IsTiny (fin 0) := by
  simp [IsNeg, IsTiny]

/-! ## helpers: finite circles and lines accepted by the constructors -/

theorem circle_make_re {a b r : ℝ} {C : Circle} (h : Circle.make (fin a) (fin b) (fin r) = .ok C) :
    0 ≤ r ∧ C = ⟨fin a, fin b, fin r⟩ := by
  unfold Circle.make at h
  by_cases hr : r < 0
  · rw [cif_pos (by simpa using hr)] at h; cases h
  · rw [cif_neg (by simpa using hr)] at h
    injection h with h
    exact ⟨not_lt.mp hr, h.symm⟩

theorem line_make_re {n0 n1 d : ℝ} {L : Line} (h : Line.make (fin n0) (fin n1) (fin d) = .ok L) :
    0 ≤ d ∧ 0 < n0 ^ 2 + n1 ^ 2 ∧ L = ⟨fin n0, fin n1, fin d⟩ := by
  unfold Line.make at h
  by_cases hr : d < 0
  · rw [cif_pos (by simpa using hr)] at h; cases h
  rw [cif_neg (by simpa using hr)] at h
  by_cases hn : n0 ^ 2 + n1 ^ 2 = 0
  · have h0 : n0 = 0 := by nlinarith [sq_nonneg n0, sq_nonneg n1]
    have h1 : n1 = 0 := by nlinarith [sq_nonneg n0, sq_nonneg n1]
    rw [cif_pos (by rw [h0, h1]; simp; norm_num)] at h
    cases h
  · refine ⟨not_lt.mp hr, lt_of_le_of_ne (by positivity) (Ne.symm hn), ?_⟩
    by_cases ht : Dbl.abs (fin n0) < (1e-12 : Dbl) ∧ Dbl.abs (fin n1) < (1e-12 : Dbl)
    · rw [cif_pos ht] at h; cases h
    · rw [cif_neg ht] at h
      injection h with h
      exact h.symm

/-- result of the circle-line intersection for a discriminant `≥ 0` -/
theorem cl_nonneg {a b r n0 n1 d : ℝ} (hN : 0 < n0 ^ 2 + n1 ^ 2) (h : 0 ≤ clDisc a b r n0 n1 d) :
    intersectCircleStraightLine ⟨fin a, fin b, fin r⟩ ⟨fin n0, fin n1, fin d⟩ =
      (let D := d - (n0 * a + n1 * b)
       let S := Real.sqrt (clDisc a b r n0 n1 d)
       let N := n0 ^ 2 + n1 ^ 2
       let p1 := (fin (a + (n0 * D + n1 * S) * (1 / N)), fin (b + (n1 * D - n0 * S) * (1 / N)))
       let p2 := (fin (a + (n0 * D - n1 * S) * (1 / N)), fin (b + (n1 * D + n0 * S) * (1 / N)))
       ifc clDisc a b r n0 n1 d ≤ 1e-9 then [p1] else [p1, p2]) := by
  have hN' : n0 * n0 + n1 * n1 = n0 ^ 2 + n1 ^ 2 := by ring
  have hD : r * r * (n0 ^ 2 + n1 ^ 2) - (d - (n0 * a + n1 * b)) * (d - (n0 * a + n1 * b)) =
      clDisc a b r n0 n1 d := by unfold clDisc; ring
  simp only [intersectCircleStraightLine, Line.move, Circle.r2, Line.normalSquare, Line.d2, fin_mul, fin_add,
    fin_sub, hN', hD, zero_eq, fin_lt, sqrt_fin h, not_lt.mpr h, false_and, cif_false, one_eq, fin_div _ hN.ne',
    abs_fin, ofSci_eq, fin_le, abs_of_nonneg h]

/-- result of the circle-line intersection for a discriminant below the tolerance -/
theorem cl_neg {a b r n0 n1 d : ℝ} (h : clDisc a b r n0 n1 d < -1e-9) :
    intersectCircleStraightLine ⟨fin a, fin b, fin r⟩ ⟨fin n0, fin n1, fin d⟩ = [] := by
  have hD : r * r * (n0 * n0 + n1 * n1) - (d - (n0 * a + n1 * b)) * (d - (n0 * a + n1 * b)) =
      clDisc a b r n0 n1 d := by unfold clDisc; ring
  have h0 : clDisc a b r n0 n1 d < 0 := by norm_num at h; linarith
  have h1 : (1e-9 : ℝ) < |clDisc a b r n0 n1 d| := by rw [abs_of_neg h0]; linarith
  simp only [intersectCircleStraightLine, Line.move, Circle.r2, Line.normalSquare, Line.d2, fin_mul, fin_add,
    fin_sub, hD, zero_eq, fin_lt, abs_fin, ofSci_eq, h0, h1, and_self, cif_true]

/-- the two candidate points are on both curves -/
theorem cl_sound {a b r n0 n1 d S : ℝ} (hN : 0 < n0 ^ 2 + n1 ^ 2) (hS : S ^ 2 = clDisc a b r n0 n1 d) :
    let D := d - (n0 * a + n1 * b)
    let N := n0 ^ 2 + n1 ^ 2
    OnCircle a b r (a + (n0 * D + n1 * S) * (1 / N)) (b + (n1 * D - n0 * S) * (1 / N)) ∧
    OnLine n0 n1 d (a + (n0 * D + n1 * S) * (1 / N)) (b + (n1 * D - n0 * S) * (1 / N)) := by
  intro D N
  have hN' : N ≠ 0 := hN.ne'
  constructor
  · unfold OnCircle
    have e : (a + (n0 * D + n1 * S) * (1 / N) - a) ^ 2 + (b + (n1 * D - n0 * S) * (1 / N) - b) ^ 2 =
        (D ^ 2 + S ^ 2) / N := by
      field_simp
      simp only [N]
      ring
    rw [e, hS, div_eq_iff hN']
    simp only [clDisc, N, D]
    ring
  · unfold OnLine
    have e : n0 * (a + (n0 * D + n1 * S) * (1 / N)) + n1 * (b + (n1 * D - n0 * S) * (1 / N)) =
        n0 * a + n1 * b + D * (n0 ^ 2 + n1 ^ 2) / N := by
      field_simp
      ring
    rw [e, mul_div_assoc, div_self hN', mul_one]
    simp only [D]
    ring

/-- a common point determines a square root of the discriminant -/
theorem cl_complete {a b r n0 n1 d x y : ℝ} (hN : 0 < n0 ^ 2 + n1 ^ 2) (hc : OnCircle a b r x y)
    (hl : OnLine n0 n1 d x y) :
    let D := d - (n0 * a + n1 * b)
    let N := n0 ^ 2 + n1 ^ 2
    let S := n1 * (x - a) - n0 * (y - b)
    S ^ 2 = clDisc a b r n0 n1 d ∧ x = a + (n0 * D + n1 * S) * (1 / N) ∧ y = b + (n1 * D - n0 * S) * (1 / N) := by
  intro D N S
  have hN' : N ≠ 0 := hN.ne'
  unfold OnCircle at hc
  unfold OnLine at hl
  have hD : D = n0 * (x - a) + n1 * (y - b) := by simp only [D]; linarith
  refine ⟨?_, ?_, ?_⟩
  · have e : clDisc a b r n0 n1 d = r ^ 2 * (n0 ^ 2 + n1 ^ 2) - D ^ 2 := rfl
    rw [e, hD, ← hc]
    simp only [S]
    ring
  · rw [hD, mul_one_div, ← sub_eq_iff_eq_add', eq_div_iff hN']
    simp only [S, N]
    ring
  · rw [hD, mul_one_div, ← sub_eq_iff_eq_add', eq_div_iff hN']
    simp only [S, N]
    ring

/-- the result of a crossing, as a set of points -/
theorem cl_cross {a b r n0 n1 d : ℝ} (hN : 0 < n0 ^ 2 + n1 ^ 2) (h : 1e-9 < clDisc a b r n0 n1 d) :
    ∃ x1 y1 x2 y2 : ℝ, intersectCircleStraightLine ⟨fin a, fin b, fin r⟩ ⟨fin n0, fin n1, fin d⟩ =
      [(fin x1, fin y1), (fin x2, fin y2)] ∧ (x1, y1) ≠ (x2, y2) ∧
      ∀ x y, (OnCircle a b r x y ∧ OnLine n0 n1 d x y) ↔ ((x, y) = (x1, y1) ∨ (x, y) = (x2, y2)) := by
  have h0 : (0 : ℝ) < clDisc a b r n0 n1 d := lt_trans (by norm_num) h
  rw [cl_nonneg hN h0.le]
  simp only [cif_neg (not_le.mpr h)]
  have hS2 := Real.sq_sqrt h0.le
  have hS := Real.sqrt_pos.mpr h0
  generalize Real.sqrt (clDisc a b r n0 n1 d) = S at *
  refine ⟨_, _, _, _, rfl, ?_, ?_⟩
  · intro he
    rw [Prod.mk.injEq] at he
    have hN1 : (1 / (n0 ^ 2 + n1 ^ 2)) ≠ 0 := one_div_ne_zero hN.ne'
    have e1 : n1 * S = 0 := by
      have := mul_right_cancel₀ hN1 (add_left_cancel he.1)
      linarith
    have e2 : n0 * S = 0 := by
      have := mul_right_cancel₀ hN1 (add_left_cancel he.2)
      linarith
    have z1 := (mul_eq_zero.mp e1).resolve_right hS.ne'
    have z0 := (mul_eq_zero.mp e2).resolve_right hS.ne'
    rw [z0, z1] at hN
    norm_num at hN
  · intro x y
    constructor
    · rintro ⟨hc, hl⟩
      obtain ⟨q1, q2, q3⟩ := cl_complete hN hc hl
      rw [← hS2] at q1
      rcases sq_eq_sq_iff_eq_or_eq_neg.mp q1 with e | e
      · left; rw [Prod.mk.injEq]; rw [e] at q2 q3; exact ⟨q2, q3⟩
      · right; rw [Prod.mk.injEq]; rw [e] at q2 q3
        exact ⟨by rw [q2]; ring, by rw [q3]; ring⟩
    · rintro (he | he)
      · rw [Prod.mk.injEq] at he; rw [he.1, he.2]
        exact cl_sound hN hS2
      · rw [Prod.mk.injEq] at he; rw [he.1, he.2]
        have := cl_sound (a := a) (b := b) (r := r) (d := d) (S := -S) hN (by rw [neg_sq]; exact hS2)
        simp only [mul_neg, ← sub_eq_add_neg, sub_neg_eq_add] at this
        exact this

/-! ## C25 -/

/-- C25: a discriminant above the tolerance gives exactly the two common points. -/
theorem C25_two {a b r n0 n1 d : ℝ} {C : Circle} {L : Line}
    (hC : Circle.make (fin a) (fin b) (fin r) = .ok C) (hL : Line.make (fin n0) (fin n1) (fin d) = .ok L)
    (h : 1e-9 < clDisc a b r n0 n1 d) :
    ∃ x1 y1 x2 y2 : ℝ, intersectCircleStraightLine C L = [(fin x1, fin y1), (fin x2, fin y2)] ∧
      (x1, y1) ≠ (x2, y2) ∧
      ∀ x y, (OnCircle a b r x y ∧ OnLine n0 n1 d x y) ↔ ((x, y) = (x1, y1) ∨ (x, y) = (x2, y2)) := by
  obtain ⟨-, rfl⟩ := circle_make_re hC
  obtain ⟨-, hN, rfl⟩ := line_make_re hL
  exact cl_cross hN h

/-- C25: a discriminant below minus the tolerance gives nothing, and there is no common point. -/
theorem C25_none {a b r n0 n1 d : ℝ} {C : Circle} {L : Line}
    (hC : Circle.make (fin a) (fin b) (fin r) = .ok C) (hL : Line.make (fin n0) (fin n1) (fin d) = .ok L)
    (h : clDisc a b r n0 n1 d < -1e-9) :
    intersectCircleStraightLine C L = [] ∧ ∀ x y, ¬ (OnCircle a b r x y ∧ OnLine n0 n1 d x y) := by
  obtain ⟨-, rfl⟩ := circle_make_re hC
  obtain ⟨-, hN, rfl⟩ := line_make_re hL
  refine ⟨cl_neg h, ?_⟩
  rintro x y ⟨hc, hl⟩
  obtain ⟨q1, -, -⟩ := cl_complete hN hc hl
  have := sq_nonneg (n1 * (x - a) - n0 * (y - b))
  rw [q1] at this
  norm_num at h
  linarith

/-- circle of radius 5 around (1,2) and the line x = 4 -/
example : Circle.make (fin 1) (fin 2) (fin 5) = .ok ⟨fin 1, fin 2, fin 5⟩ ∧
    Line.make (fin 1) (fin 0) (fin 4) = .ok ⟨fin 1, fin 0, fin 4⟩ ∧ 1e-9 < clDisc 1 2 5 1 0 4 := by
  refine ⟨?_, ?_, ?_⟩
  · exact (C29_circle _ _ _).2 (by simp [IsNeg])
  · exact (C29_line _ _ _).2 (by simp [IsNeg, IsTiny]; norm_num)
  · norm_num [clDisc]

/-- circle of radius 1 around (1,2) and the line x = 4 -/
example : clDisc 1 2 1 1 0 4 < -1e-9 := by norm_num [clDisc]

/-! ## C26 -/

/-- C26 (partial): if circle and line meet (discriminant not negative) then every reported point is finite
and on both, and at least one is reported.  Missing for C26: the window of small negative discriminants. -/
theorem C26_sound_partial {a b r n0 n1 d : ℝ} {C : Circle} {L : Line}
    (hC : Circle.make (fin a) (fin b) (fin r) = .ok C) (hL : Line.make (fin n0) (fin n1) (fin d) = .ok L)
    (h : 0 ≤ clDisc a b r n0 n1 d) :
    intersectCircleStraightLine C L ≠ [] ∧ ∀ p ∈ intersectCircleStraightLine C L,
      ∃ x y, p = (fin x, fin y) ∧ OnCircle a b r x y ∧ OnLine n0 n1 d x y := by
  obtain ⟨-, rfl⟩ := circle_make_re hC
  obtain ⟨-, hN, rfl⟩ := line_make_re hL
  by_cases h1 : clDisc a b r n0 n1 d ≤ 1e-9
  · rw [cl_nonneg hN h]
    simp only [cif_pos h1]
    refine ⟨by simp, ?_⟩
    intro p hp
    rw [List.mem_singleton] at hp
    exact ⟨_, _, hp, cl_sound hN (Real.sq_sqrt h)⟩
  · obtain ⟨x1, y1, x2, y2, he, -, hall⟩ := cl_cross (a := a) (b := b) (r := r) hN (not_le.mp h1)
    rw [he]
    refine ⟨by simp, ?_⟩
    intro p hp
    rw [List.mem_cons, List.mem_singleton] at hp
    rcases hp with rfl | rfl
    · exact ⟨x1, y1, rfl, (hall x1 y1).2 (Or.inl rfl)⟩
    · exact ⟨x2, y2, rfl, (hall x2 y2).2 (Or.inr rfl)⟩

/-- C26: in the window of width 1e-9 below tangency one point is reported whose coordinates are both
not-a-number; the curves have no common point. -/
theorem C26_window {a b r n0 n1 d : ℝ} {C : Circle} {L : Line}
    (hC : Circle.make (fin a) (fin b) (fin r) = .ok C) (hL : Line.make (fin n0) (fin n1) (fin d) = .ok L)
    (h : -1e-9 ≤ clDisc a b r n0 n1 d) (h0 : clDisc a b r n0 n1 d < 0) :
    intersectCircleStraightLine C L = [(nan, nan)] ∧ ∀ x y, ¬ (OnCircle a b r x y ∧ OnLine n0 n1 d x y) := by
  obtain ⟨-, rfl⟩ := circle_make_re hC
  obtain ⟨-, hN, rfl⟩ := line_make_re hL
  constructor
  · have hD : r * r * (n0 * n0 + n1 * n1) - (d - (n0 * a + n1 * b)) * (d - (n0 * a + n1 * b)) =
        clDisc a b r n0 n1 d := by unfold clDisc; ring
    have h1 : ¬ ((1e-9 : ℝ) < |clDisc a b r n0 n1 d|) := by rw [abs_of_neg h0]; linarith
    simp only [intersectCircleStraightLine, Line.move, Circle.r2, Line.normalSquare, Line.d2, fin_mul, fin_add,
      fin_sub, hD, zero_eq, fin_lt, fin_le, abs_fin, ofSci_eq, h0, h1, and_false, cif_false, sqrt_neg h0, mul_nan,
      nan_mul, add_nan, sub_nan, not_lt.mp h1, cif_true]
  · rintro x y ⟨hc, hl⟩
    obtain ⟨q1, -, -⟩ := cl_complete hN hc hl
    have := sq_nonneg (n1 * (x - a) - n0 * (y - b))
    rw [q1] at this
    linarith

/-- C26 as stated is false: the unit circle and the line x = 1 + 4e-10 do not meet, but a point (NaN, NaN)
is reported. -/
theorem C26_false : ∃ C L, Circle.make (fin 0) (fin 0) (fin 1) = .ok C ∧
    Line.make (fin 1) (fin 0) (fin (1 + 4e-10)) = .ok L ∧ intersectCircleStraightLine C L = [(nan, nan)] := by
  have hC := (C29_circle (fin 0) (fin 0) (fin 1)).2 (by simp [IsNeg])
  have hL := (C29_line (fin 1) (fin 0) (fin (1 + 4e-10))).2 (by simp [IsNeg, IsTiny]; norm_num)
  exact ⟨_, _, hC, hL, (C26_window hC hL (by norm_num [clDisc]) (by norm_num [clDisc])).1⟩

/-- the unit circle and its tangent x = 1 -/
example : 0 ≤ clDisc 0 0 1 1 0 1 := by norm_num [clDisc]

/-! ## C27 -/

/-- the right hand side of the line through the common points of two circles (specification) -/
def radicalDist (a1 b1 r1 a2 b2 r2 : ℝ) : ℝ := r1 ^ 2 - r2 ^ 2 - a1 ^ 2 + a2 ^ 2 - b1 ^ 2 + b2 ^ 2

/-- common points of two circles are the points of the first on the radical line -/
theorem radical_iff {a1 b1 r1 a2 b2 r2 x y : ℝ} (hc : OnCircle a1 b1 r1 x y) :
    OnCircle a2 b2 r2 x y ↔ OnLine (2 * (a2 - a1)) (2 * (b2 - b1)) (radicalDist a1 b1 r1 a2 b2 r2) x y := by
  unfold OnCircle at *
  unfold OnLine radicalDist
  constructor <;> intro h <;> linarith

theorem cc_re {a1 b1 r1 a2 b2 r2 : ℝ} (hd : 0 ≤ radicalDist a1 b1 r1 a2 b2 r2)
    (hn : 1e-12 ≤ |2 * (a2 - a1)| ∨ 1e-12 ≤ |2 * (b2 - b1)|) :
    intersectCircleCircle ⟨fin a1, fin b1, fin r1⟩ ⟨fin a2, fin b2, fin r2⟩ =
      .ok (intersectCircleStraightLine ⟨fin a1, fin b1, fin r1⟩
        ⟨fin (2 * (a2 - a1)), fin (2 * (b2 - b1)), fin (radicalDist a1 b1 r1 a2 b2 r2)⟩) := by
  have hD : r1 * r1 - r2 * r2 - a1 * a1 + a2 * a2 - b1 * b1 + b2 * b2 = radicalDist a1 b1 r1 a2 b2 r2 := by
    unfold radicalDist; ring
  have hn' : ¬ (|2 * (a2 - a1)| < 1e-12 ∧ |2 * (b2 - b1)| < 1e-12) := by
    rintro ⟨h1, h2⟩
    rcases hn with h | h
    · linarith
    · linarith
  simp only [intersectCircleCircle, ofNat_eq, fin_sub, fin_mul, fin_add, hD, Line.make, zero_eq, fin_lt, not_lt.mpr hd,
    cif_false, abs_fin, ofSci_eq, hn', Out.ok_bind, Out.pure_eq]

/-- C27 (partial): for circles whose centres differ and whose radical line has non-negative distance, no
exception is thrown; above the tolerance the two reported points are exactly the common points, below it
nothing is reported and there are none.  Missing for C27: pairs with negative distance throw
(`C27_throws`, `C27_false`), tangent circles as in C26. -/
theorem C27_sound_complete_partial {a1 b1 r1 a2 b2 r2 : ℝ} {C1 C2 : Circle}
    (h1 : Circle.make (fin a1) (fin b1) (fin r1) = .ok C1) (h2 : Circle.make (fin a2) (fin b2) (fin r2) = .ok C2)
    (hd : 0 ≤ radicalDist a1 b1 r1 a2 b2 r2)
    (hn : 1e-12 ≤ |2 * (a2 - a1)| ∨ 1e-12 ≤ |2 * (b2 - b1)|) :
    let disc := clDisc a1 b1 r1 (2 * (a2 - a1)) (2 * (b2 - b1)) (radicalDist a1 b1 r1 a2 b2 r2)
    (1e-9 < disc → ∃ x1 y1 x2 y2 : ℝ, intersectCircleCircle C1 C2 = .ok [(fin x1, fin y1), (fin x2, fin y2)] ∧
      (x1, y1) ≠ (x2, y2) ∧
      ∀ x y, (OnCircle a1 b1 r1 x y ∧ OnCircle a2 b2 r2 x y) ↔ ((x, y) = (x1, y1) ∨ (x, y) = (x2, y2))) ∧
    (disc < -1e-9 → intersectCircleCircle C1 C2 = .ok [] ∧
      ∀ x y, ¬ (OnCircle a1 b1 r1 x y ∧ OnCircle a2 b2 r2 x y)) := by
  obtain ⟨-, rfl⟩ := circle_make_re h1
  obtain ⟨-, rfl⟩ := circle_make_re h2
  have hN : 0 < (2 * (a2 - a1)) ^ 2 + (2 * (b2 - b1)) ^ 2 := by
    rcases hn with h | h
    · have : (0 : ℝ) < |2 * (a2 - a1)| := lt_of_lt_of_le (by norm_num) h
      have := sq_pos_of_ne_zero (abs_pos.mp this)
      linarith [sq_nonneg (2 * (b2 - b1))]
    · have : (0 : ℝ) < |2 * (b2 - b1)| := lt_of_lt_of_le (by norm_num) h
      have := sq_pos_of_ne_zero (abs_pos.mp this)
      linarith [sq_nonneg (2 * (a2 - a1))]
  have hset : ∀ x y, (OnCircle a1 b1 r1 x y ∧ OnCircle a2 b2 r2 x y) ↔ (OnCircle a1 b1 r1 x y ∧
      OnLine (2 * (a2 - a1)) (2 * (b2 - b1)) (radicalDist a1 b1 r1 a2 b2 r2) x y) := fun x y =>
    and_congr_right fun hc => radical_iff hc
  intro disc
  rw [cc_re hd hn]
  constructor
  · intro h
    obtain ⟨x1, y1, x2, y2, he, hne, hall⟩ := cl_cross hN h
    refine ⟨x1, y1, x2, y2, by rw [he], hne, ?_⟩
    intro x y
    rw [hset, hall]
  · intro h
    refine ⟨by rw [cl_neg h], ?_⟩
    intro x y
    rw [hset]
    rintro ⟨hc, hl⟩
    obtain ⟨q1, -, -⟩ := cl_complete hN hc hl
    have := sq_nonneg (2 * (b2 - b1) * (x - a1) - 2 * (a2 - a1) * (y - b1))
    rw [q1] at this
    norm_num at h
    linarith

/-- C27: exactly when the radical distance is negative the intersection throws, although the circles may
cross. -/
theorem C27_throws {a1 b1 r1 a2 b2 r2 : ℝ} (hd : radicalDist a1 b1 r1 a2 b2 r2 < 0) :
    ∃ msg, intersectCircleCircle ⟨fin a1, fin b1, fin r1⟩ ⟨fin a2, fin b2, fin r2⟩ = .throw msg := by
  have hD : r1 * r1 - r2 * r2 - a1 * a1 + a2 * a2 - b1 * b1 + b2 * b2 = radicalDist a1 b1 r1 a2 b2 r2 := by
    unfold radicalDist; ring
  simp only [intersectCircleCircle, ofNat_eq, fin_sub, fin_mul, fin_add, hD, Line.make, zero_eq, fin_lt, hd,
    cif_true, Out.throw_bind]
  exact ⟨_, rfl⟩

/-- C27 as stated is false: the unit circle around the origin and the circle of radius 3/2 around (1,0)
cross; intersecting them in this order throws, in the other order it gives two points. -/
theorem C27_false :
    (∃ x y, OnCircle 0 0 1 x y ∧ OnCircle 1 0 (3 / 2) x y) ∧
    (∃ msg, intersectCircleCircle ⟨fin 0, fin 0, fin 1⟩ ⟨fin 1, fin 0, fin (3 / 2)⟩ = .throw msg) ∧
    (∃ x1 y1 x2 y2 : ℝ, intersectCircleCircle ⟨fin 1, fin 0, fin (3 / 2)⟩ ⟨fin 0, fin 0, fin 1⟩ =
      .ok [(fin x1, fin y1), (fin x2, fin y2)]) := by
  have hC1 := (C29_circle (fin 0) (fin 0) (fin 1)).2 (by simp [IsNeg])
  have hC2 := (C29_circle (fin 1) (fin 0) (fin (3 / 2))).2 (by simp [IsNeg]; norm_num)
  have h := (C27_sound_complete_partial hC2 hC1 (by norm_num [radicalDist]) (by norm_num)).1
    (by norm_num [clDisc, radicalDist])
  obtain ⟨x1, y1, x2, y2, he, -, hall⟩ := h
  refine ⟨⟨x1, y1, ?_⟩, C27_throws (by norm_num [radicalDist]), x1, y1, x2, y2, he⟩
  exact ((hall x1 y1).2 (Or.inl rfl)).symm

/-! ## C28 -/

/-- C28 (partial): lines whose normals span an oriented area of at least 1e-9 have exactly the reported
point in common; for an exactly vanishing area nothing is reported.  Missing for C28: negative area. -/
theorem C28_unique_partial {n1x n1y d1 n2x n2y d2 : ℝ} :
    let L1 : Line := ⟨fin n1x, fin n1y, fin d1⟩
    let L2 : Line := ⟨fin n2x, fin n2y, fin d2⟩
    (1e-9 ≤ n1x * n2y - n2x * n1y → ∃ px py : ℝ, intersectStraightLineStraightLine L1 L2 = [(fin px, fin py)] ∧
      ∀ x y, (OnLine n1x n1y d1 x y ∧ OnLine n2x n2y d2 x y) ↔ (x = px ∧ y = py)) ∧
    (n1x * n2y - n2x * n1y = 0 → intersectStraightLineStraightLine L1 L2 = []) := by
  intro L1 L2
  constructor
  · intro h
    have h0 : n1x * n2y - n2x * n1y ≠ 0 := by
      have : (0 : ℝ) < n1x * n2y - n2x * n1y := lt_of_lt_of_le (by norm_num) h
      exact this.ne'
    refine ⟨(d1 * n2y - n1y * d2) / (n1x * n2y - n2x * n1y), (d2 * n1x - d1 * n2x) / (n1x * n2y - n2x * n1y), ?_, ?_⟩
    · simp only [intersectStraightLineStraightLine, L1, L2, fin_mul, fin_sub, ofSci_eq, fin_lt, not_lt.mpr h, cif_false,
        fin_div _ h0]
    · intro x y
      rw [eq_div_iff h0, eq_div_iff h0]
      unfold OnLine
      constructor
      · rintro ⟨e1, e2⟩
        rw [← e1, ← e2]
        constructor <;> ring
      · rintro ⟨e1, e2⟩
        constructor
        · have : (n1x * x + n1y * y) * (n1x * n2y - n2x * n1y) = d1 * (n1x * n2y - n2x * n1y) := by
            linear_combination n1x * e1 + n1y * e2
          exact mul_right_cancel₀ h0 this
        · have : (n2x * x + n2y * y) * (n1x * n2y - n2x * n1y) = d2 * (n1x * n2y - n2x * n1y) := by
            linear_combination n2x * e1 + n2y * e2
          exact mul_right_cancel₀ h0 this
  · intro h
    simp only [intersectStraightLineStraightLine, L1, L2, fin_mul, fin_sub, ofSci_eq, fin_lt, h]
    exact cif_pos (by norm_num)

/-- C28 as stated is false: the lines y = 1 and x = 1 (in this order) are reported not to intersect. -/
theorem C28_false : OnLine 0 1 1 1 1 ∧ OnLine 1 0 1 1 1 ∧
    intersectStraightLineStraightLine ⟨fin 0, fin 1, fin 1⟩ ⟨fin 1, fin 0, fin 1⟩ = [] := by
  refine ⟨by norm_num [OnLine], by norm_num [OnLine], ?_⟩
  simp only [intersectStraightLineStraightLine, fin_mul, fin_sub, ofSci_eq, fin_lt]
  exact cif_pos (by norm_num)

example : (1e-9 : ℝ) ≤ 1 * 1 - 0 * 0 := by norm_num

end Verif
