import Verif.Props.RoundedCircles
import Verif.Lemmas.ErrorCalculus

/-!
# Crossings of two straight lines in double precision: C162
-/

open Classical

noncomputable section

namespace Verif

open Dbl Rnd Spec Rounded

variable {fl : ℝ → ℝ}

/-- the sizes of two lines: components of the normal vectors up to `N1` and `N2`, and distances up to `N1 R` and `N2 R` -/
structure LinesRange (N1 N2 R a1 b1 d1 a2 b2 d2 : ℝ) : Prop where
  lo1 : 1 / 2 ^ 100 ≤ N1
  hi1 : N1 ≤ 2 ^ 100
  lo2 : 1 / 2 ^ 100 ≤ N2
  hi2 : N2 ≤ 2 ^ 100
  loR : 1 / 2 ^ 100 ≤ R
  hiR : R ≤ 2 ^ 100
  ha1 : |a1| ≤ N1
  hb1 : |b1| ≤ N1
  hd1 : |d1| ≤ N1 * R
  ha2 : |a2| ≤ N2
  hb2 : |b2| ≤ N2
  hd2 : |d2| ≤ N2 * R

section

variable {N1 N2 R K a1 b1 d1 a2 b2 d2 : ℝ}

/-- a difference of two products of the same size -/
theorem prod_diff (h : NearestF 53 1074 fl) {S T S' T' p q r s : ℝ} {k l k' l' : ℕ} (h1 : 1 / 2 ^ k ≤ S ∧ S ≤ 2 ^ k) (h2 : 1 / 2 ^ l ≤ T ∧ T ≤ 2 ^ l)
    (h3 : 1 / 2 ^ k' ≤ S' ∧ S' ≤ 2 ^ k') (h4 : 1 / 2 ^ l' ≤ T' ∧ T' ≤ 2 ^ l') (hST : S' * T' = S * T) (hkl : k' + l' = k + l)
    (hk : k + l ≤ 900) (hp : |p| ≤ S) (hq : |q| ≤ T) (hr : |r| ≤ S') (hs : |s| ≤ T') :
    Ap (k + l) (S * T) (subD fl (mulD fl (fin p) (fin q)) (mulD fl (fin r) (fin s))) (fin (p * q - r * s)) 2 (41 / 10) := by
  have g1 : Ap k S (fin p) (fin p) 1 0 := Ap.given h1.1 h1.2 (by rwa [one_mul])
  have g2 : Ap l T (fin q) (fin q) 1 0 := Ap.given h2.1 h2.2 (by rwa [one_mul])
  have g3 : Ap k' S' (fin r) (fin r) 1 0 := Ap.given h3.1 h3.2 (by rwa [one_mul])
  have g4 : Ap l' T' (fin s) (fin s) 1 0 := Ap.given h4.1 h4.2 (by rwa [one_mul])
  have m1 := Ap.mul h g1 g2 hk (by norm_num) (by norm_num) (by norm_num)
  have m2 := Ap.mul h g3 g4 (hkl ▸ hk) (by norm_num) (by norm_num) (by norm_num)
  rw [hST, hkl] at m2
  have m := Ap.sub h m1 m2 hk (by norm_num) (by norm_num)
  rw [fin_mul, fin_mul, fin_sub] at m
  exact m.mono (by norm_num) (by norm_num)

/-- the computed oriented area of the normal vectors -/
theorem lines_disc (h : NearestF 53 1074 fl) (hr : LinesRange N1 N2 R a1 b1 d1 a2 b2 d2) :
    Ap 200 (N1 * N2) (subD fl (mulD fl (fin a1) (fin b2)) (mulD fl (fin a2) (fin b1))) (fin (a1 * b2 - a2 * b1)) 2 (41 / 10) := by
  exact prod_diff h ⟨hr.lo1, hr.hi1⟩ ⟨hr.lo2, hr.hi2⟩ ⟨hr.lo2, hr.hi2⟩ ⟨hr.lo1, hr.hi1⟩ (mul_comm _ _) rfl (by norm_num) hr.ha1 hr.hb2 hr.ha2 hr.hb1

/-- C162: lines whose normal vectors span an oriented area of clearly less than 1e-9, for instance a negative one, are reported not to cross. -/
theorem C162_none (h : NearestF 53 1074 fl) (hr : LinesRange N1 N2 R a1 b1 d1 a2 b2 d2)
    (hΔ : a1 * b2 - a2 * b1 + 5 / 2 ^ 53 * (N1 * N2) < 9 / 10 ^ 10) :
    Rnd.intersectStraightLineStraightLine fl ⟨fin a1, fin b1, fin d1⟩ ⟨fin a2, fin b2, fin d2⟩ = [] := by
  have g := lines_disc h hr
  obtain ⟨r, x, e1, e2, e3, e4⟩ := g.val
  have P0 := g.pos
  obtain rfl := (fin_inj _ _).1 e2
  obtain ⟨t1, t2, t3⟩ := tinyD_eq h
  simp only [Rnd.intersectStraightLineStraightLine, e1, t1, fin_lt]
  refine cif_pos ?_
  have k := (abs_le.1 e3).2
  clear * - k hΔ t3 P0
  generalize N1 * N2 = P at *
  norm_num at *
  linarith

/-- C162: parallel lines are reported not to cross, whatever the size of their normal vectors. -/
theorem C162_parallel (h : NearestF 53 1074 fl) (s1 : |a1 * b2| ≤ 2 ^ 1000) (hp : a1 * b2 = a2 * b1) :
    Rnd.intersectStraightLineStraightLine fl ⟨fin a1, fin b1, fin d1⟩ ⟨fin a2, fin b2, fin d2⟩ = [] := by
  obtain ⟨t1, t2, t3⟩ := tinyD_eq h
  simp only [Rnd.intersectStraightLineStraightLine, mulD, subD, fin_mul, ← hp, rnd_double h s1, fin_sub, sub_self, t1]
  rw [rnd_big h 0 0 (by norm_num) (by norm_num) (by norm_num)]
  simp only [fin_lt]
  exact cif_pos (lt_of_lt_of_le (by norm_num) t3)

/-- C162 (partial): lines whose normal vectors span an oriented area of at least 2e-9 that is not less than the product of their sizes
divided by `K ≤ 2^30` have exactly one point in common; one point is reported, and its coordinates are those of the common point within 15 K²
units of the last place of the size of the coordinates.  Missing: a negative area (C162_false), and lines that are almost parallel
(C162_missed). -/
theorem C162_cross_partial (h : NearestF 53 1074 fl) (hr : LinesRange N1 N2 R a1 b1 d1 a2 b2 d2) (hΔ : 2 / 10 ^ 9 ≤ a1 * b2 - a2 * b1)
    (K1 : 1 ≤ K) (K2 : K ≤ 2 ^ 30) (hK : N1 * N2 ≤ K * (a1 * b2 - a2 * b1)) :
    ∃ X Y x y : ℝ, Rnd.intersectStraightLineStraightLine fl ⟨fin a1, fin b1, fin d1⟩ ⟨fin a2, fin b2, fin d2⟩ = [(fin X, fin Y)] ∧
      (∀ p q, (OnLine a1 b1 d1 p q ∧ OnLine a2 b2 d2 p q) ↔ (p = x ∧ q = y)) ∧
      |X - x| ≤ 15 * K ^ 2 * R / 2 ^ 53 ∧ |Y - y| ≤ 15 * K ^ 2 * R / 2 ^ 53 := by
  obtain ⟨Δ, hD⟩ : ∃ t, t = a1 * b2 - a2 * b1 := ⟨_, rfl⟩
  have gd := lines_disc h hr
  rw [← hD] at gd hΔ hK
  have P0 := gd.pos
  have R0 : 0 < R := lt_of_lt_of_le (by positivity) hr.loR
  have Δ0 : 0 < Δ := lt_of_lt_of_le (by norm_num) hΔ
  have lo : 1 / 2 ^ 201 ≤ Δ := le_trans (by norm_num) hΔ
  have hi : Δ ≤ 2 ^ 201 := by
    obtain ⟨_, x, _, e2, _, e4⟩ := gd.val
    obtain rfl := (fin_inj _ _).1 e2
    rw [abs_of_pos Δ0] at e4
    refine e4.trans ?_
    rw [pow_succ, mul_comm]
    exact mul_le_mul_of_nonneg_right gd.hi (by norm_num)
  have r1 := scale_prod hr.lo1 hr.hi1 hr.loR hr.hiR
  have r2 := scale_prod hr.lo2 hr.hi2 hr.loR hr.hiR
  have gx := prod_diff h r1 ⟨hr.lo2, hr.hi2⟩ ⟨hr.lo1, hr.hi1⟩ r2 (by ring) rfl (by norm_num) hr.hd1 hr.hb2 hr.hb1 hr.hd2
  have gy := prod_diff h r2 ⟨hr.lo1, hr.hi1⟩ r1 ⟨hr.lo2, hr.hi2⟩ (by ring) rfl (by norm_num) hr.hd2 hr.ha1 hr.hd1 hr.ha2
  have gs := gd.rescale hK lo hi
  have hf : K * (41 / 10) ≤ 2 ^ 40 := by norm_num at *; linarith
  have he : 1001 / 1000 * (41 / 10 + 2 * (K * (41 / 10))) ≤ 2 ^ 40 := by norm_num at *; linarith
  have qx := Ap.div h gx gs rfl (le_abs_self _) (by norm_num) hf he (by norm_num)
  have qy := Ap.div h gy gs rfl (le_abs_self _) (by norm_num) hf he (by norm_num)
  have he' : 1001 / 1000 * (41 / 10 + 2 * (K * (41 / 10))) + 2 + 1 / 1000 ≤ 15 * K := by linarith
  rw [fin_div _ Δ0.ne'] at qx qy
  obtain ⟨X, x, x1, x2, x3, -⟩ := (qx.mono le_rfl he').val
  obtain ⟨Y, y, y1, y2, y3, -⟩ := (qy.mono le_rfl he').val
  obtain rfl := (fin_inj _ _).1 x2
  obtain rfl := (fin_inj _ _).1 y2
  obtain ⟨D, _, e1, e2, e3, -⟩ := gd.val
  obtain rfl := (fin_inj _ _).1 e2
  obtain ⟨t1, t2, t3⟩ := tinyD_eq h
  have nD : ¬ D < fl (1 / 10 ^ 9) := by
    have k := (abs_le.1 e3).1
    clear * - k hΔ hK K2 t2 Δ0
    have : K * Δ ≤ 2 ^ 30 * Δ := mul_le_mul_of_nonneg_right K2 Δ0.le
    rw [not_lt]
    generalize N1 * N2 = P at *
    norm_num at *
    linarith
  have val : Rnd.intersectStraightLineStraightLine fl ⟨fin a1, fin b1, fin d1⟩ ⟨fin a2, fin b2, fin d2⟩ = [(fin X, fin Y)] := by
    simp only [Rnd.intersectStraightLineStraightLine]
    rw [x1, y1, e1, t1]
    exact cif_neg (by rwa [fin_lt])
  have fin' : ∀ {Z z s : ℝ}, s = N1 * N2 * R → |Z - z| ≤ 15 * K * (s * (1 / Δ) * (1 / 2 ^ 53)) → |Z - z| ≤ 15 * K ^ 2 * R / 2 ^ 53 := by
    intro Z z s hs hz
    refine hz.trans ?_
    have : s * (1 / Δ) ≤ K * R := by
      rw [mul_one_div, div_le_iff₀ Δ0, hs]
      nlinarith
    calc 15 * K * (s * (1 / Δ) * (1 / 2 ^ 53)) ≤ 15 * K * (K * R * (1 / 2 ^ 53)) := by gcongr
      _ = _ := by ring
  refine ⟨X, Y, _, _, val, fun p q => ?_, fin' (by ring) x3, fin' (by ring) y3⟩
  rw [eq_div_iff Δ0.ne', eq_div_iff Δ0.ne', hD, OnLine, OnLine]
  constructor
  · rintro ⟨rfl, rfl⟩
    constructor <;> ring
  · rintro ⟨i1, i2⟩
    rw [hD] at Δ0
    constructor
    · refine mul_right_cancel₀ Δ0.ne' ?_
      linear_combination a1 * i1 + b1 * i2
    · refine mul_right_cancel₀ Δ0.ne' ?_
      linear_combination a2 * i1 + b2 * i2

end

/-- C162 as stated is false: the lines y = 1 and x = 1, in this order, are reported not to cross. -/
theorem C162_false (h : NearestF 53 1074 fl) : OnLine 0 1 1 1 1 ∧ OnLine 1 0 1 1 1 ∧
    Rnd.intersectStraightLineStraightLine fl ⟨fin 0, fin 1, fin 1⟩ ⟨fin 1, fin 0, fin 1⟩ = [] := by
  refine ⟨by norm_num [OnLine], by norm_num [OnLine], ?_⟩
  refine C162_none (N1 := 1) (N2 := 1) (R := 1) h ?_ (by norm_num)
  constructor <;> norm_num

/-- C162: lines whose normal vectors span the area 1 and that therefore cross, without rounding errors in the reported point: in double
precision they are reported not to cross, because the products are rounded to the same number. -/
theorem C162_missed (h : NearestF 53 1074 fl) :
    Rnd.intersectStraightLineStraightLine fl ⟨fin (2 ^ 27 + 1), fin (2 ^ 27), fin 1⟩ ⟨fin (2 ^ 27 + 2), fin (2 ^ 27 + 1), fin 1⟩ = [] ∧
    intersectStraightLineStraightLine ⟨fin (2 ^ 27 + 1), fin (2 ^ 27), fin 1⟩ ⟨fin (2 ^ 27 + 2), fin (2 ^ 27 + 1), fin 1⟩ = [(fin 1, fin (-1))] ∧
    OnLine (2 ^ 27 + 1) (2 ^ 27) 1 1 (-1) ∧ OnLine (2 ^ 27 + 2) (2 ^ 27 + 1) 1 1 (-1) := by
  refine ⟨?_, ?_, by norm_num [OnLine], by norm_num [OnLine]⟩
  · have e1 : rnd fl 1024 (fin ((2 ^ 27 + 1) * (2 ^ 27 + 1))) = fin (2 ^ 54 + 2 ^ 28) :=
      rnd_next h (2 ^ 26 + 1) 28 54 (by norm_num) (by norm_num) (by norm_num) (by norm_num) (by norm_num)
    have e2 : rnd fl 1024 (fin ((2 ^ 27 + 2) * 2 ^ 27)) = fin (2 ^ 54 + 2 ^ 28) :=
      rnd_next h (2 ^ 26 + 1) 28 54 (by norm_num) (by norm_num) (by norm_num) (by norm_num) (by norm_num)
    obtain ⟨t1, t2, t3⟩ := tinyD_eq h
    simp only [Rnd.intersectStraightLineStraightLine, mulD, subD, fin_mul, e1, e2, fin_sub, sub_self, t1]
    rw [rnd_big h 0 0 (by norm_num) (by norm_num) (by norm_num)]
    exact cif_pos (by rw [fin_lt]; exact lt_of_lt_of_le (by norm_num) t3)
  · simp only [intersectStraightLineStraightLine, fin_mul, fin_sub, ofSci_eq, fin_lt]
    rw [cif_neg (by norm_num), fin_div _ (by norm_num), fin_div _ (by norm_num)]
    norm_num

/-- the lines x = 1 and y = 2 in double precision -/
theorem C162_example (h : NearestF 53 1074 fl) :
    ∃ X Y : ℝ, Rnd.intersectStraightLineStraightLine fl ⟨fin 1, fin 0, fin 1⟩ ⟨fin 0, fin 1, fin 2⟩ = [(fin X, fin Y)] ∧
      |X - 1| ≤ 1 / 2 ^ 48 ∧ |Y - 2| ≤ 1 / 2 ^ 48 := by
  have hr : LinesRange 1 1 2 1 0 1 0 1 2 := by constructor <;> norm_num
  obtain ⟨X, Y, x, y, e1, e2, e3, e4⟩ := C162_cross_partial (K := 1) h hr (by norm_num) le_rfl (by norm_num) (by norm_num)
  obtain ⟨rfl, rfl⟩ := (e2 1 2).1 (by norm_num [OnLine])
  exact ⟨X, Y, e1, e3.trans (by norm_num), e4.trans (by norm_num)⟩

end Verif
