import Verif.Model.RoundedUnitTests
import Verif.Lemmas.UnitTestTracks
import Verif.Lemmas.RoundedProduct
import Verif.Lemmas.RoundedCoordinates

/-!
# The checks of the unit tests in double precision
-/

open Classical

noncomputable section

namespace Verif

open Dbl Rnd UT

/-- what is known of the arithmetic, of the C library and of Eigen; `sin(0) = 0` and `atan2(0, x) = 0` for positive `x` are values stated in
the C standard, Annex F.10.1 -/
structure TestLib.Ok (A : TestLib) : Prop where
  fl : NearestF 53 1074 A.fl
  sl : NearestF 24 149 A.sl
  lm : IsLibm A.lm
  at2 : IsAtan2 A.at2
  atn : IsAtan A.atn
  mm : IsProduct A.fl A.mm
  mv : IsMulVec A.fl A.mv
  sin0 : A.lm.sin 0 = 0
  at20 : ∀ x, 0 < x → A.at2 0 x = 0

namespace RUT

variable {A : TestLib} {fl sl : ℝ → ℝ} {a b : Dbl} {x y d e : ℝ}

/-- a number and the bound of its error -/
def N (a : Dbl) (x d : ℝ) : Prop := ∃ r, a = fin r ∧ |r - x| ≤ d

theorem N.mono (h : N a x d) (hd : d ≤ e) : N a x e := by
  obtain ⟨r, h1, h2⟩ := h
  exact ⟨r, h1, h2.trans hd⟩

theorem N.of (r : ℝ) : N (fin r) r 0 := ⟨r, rfl, by simp⟩

theorem N.to (h : N a x d) (hy : |x - y| ≤ e) : N a y (d + e) := by
  obtain ⟨r, h1, h2⟩ := h
  refine ⟨r, h1, ?_⟩
  have := abs_sub_le r x y
  linarith

theorem N.neg (h : N a x d) : N (-a) (-x) d := by
  obtain ⟨r, h1, h2⟩ := h
  refine ⟨-r, by rw [h1]; rfl, ?_⟩
  rwa [show -r - -x = -(r - x) by ring, _root_.abs_neg]

theorem tiny1075 : (1 : ℝ) / 2 ^ 1075 ≤ 1 / 10 ^ 30 := by
  have : (2 : ℝ) ^ 100 ≤ 2 ^ 1075 := pow_le_pow_right₀ (by norm_num) (by norm_num)
  exact (one_div_le_one_div_of_le (by positivity) this).trans (by norm_num)

/-- rounding of a number that is not large -/
theorem N.round (h : NearestF 53 1074 fl) {r : ℝ} (hr : |r - x| ≤ d) (hd : d ≤ 1) (hx : |x| ≤ 200) :
    N (rnd fl 1024 (fin r)) x (d + 3 / 10 ^ 14) := by
  have b : |r| ≤ 201 := by
    have := abs_sub_abs_le_abs_sub r x
    linarith
  refine ⟨fl r, rnd_double h (b.trans ?_), ?_⟩
  · have : (2 : ℝ) ^ 8 ≤ 2 ^ 1000 := pow_le_pow_right₀ (by norm_num) (by norm_num)
    exact le_trans (by norm_num) this
  · have e1 := err_double h r
    have t := tiny1075
    have e2 : (1 : ℝ) / 2 ^ 53 * |r| ≤ 1 / 2 ^ 53 * 201 := mul_le_mul_of_nonneg_left b (by positivity)
    have e3 := abs_sub_le (fl r) r x
    generalize (1 : ℝ) / 2 ^ 1075 = η at *
    norm_num at *
    linarith

theorem N.lit (h : NearestF 53 1074 fl) (hx : |x| ≤ 200) : N (Rnd.lit fl x) x (3 / 10 ^ 14) :=
  (N.round h (r := x) (d := 0) (by simp) (by norm_num) hx).mono (by norm_num)

theorem N.add (h : NearestF 53 1074 fl) (ha : N a x d) (hb : N b y e) (hde : d + e ≤ 1) (hxy : |x + y| ≤ 200) :
    N (addD fl a b) (x + y) (d + e + 3 / 10 ^ 14) := by
  obtain ⟨r, rfl, h1⟩ := ha
  obtain ⟨s, rfl, h2⟩ := hb
  rw [addD, fin_add]
  refine N.round h ?_ hde hxy
  have := abs_add_le (r - x) (s - y)
  rw [show r + s - (x + y) = r - x + (s - y) by ring]
  linarith

theorem N.sub (h : NearestF 53 1074 fl) (ha : N a x d) (hb : N b y e) (hde : d + e ≤ 1) (hxy : |x - y| ≤ 200) :
    N (subD fl a b) (x - y) (d + e + 3 / 10 ^ 14) := by
  obtain ⟨r, rfl, h1⟩ := ha
  obtain ⟨s, rfl, h2⟩ := hb
  rw [subD, fin_sub]
  refine N.round h ?_ hde hxy
  have := abs_sub (r - x) (s - y)
  rw [show r - s - (x - y) = r - x - (s - y) by ring]
  linarith

theorem N.mul (h : NearestF 53 1074 fl) (ha : N a x d) (hb : N b y e) {X Y : ℝ} (hX : |x| ≤ X) (hY : |y| ≤ Y)
    (hde : d * (Y + e) + X * e ≤ 1) (hxy : |x * y| ≤ 200) :
    N (mulD fl a b) (x * y) (d * (Y + e) + X * e + 3 / 10 ^ 14) := by
  obtain ⟨r, rfl, h1⟩ := ha
  obtain ⟨s, rfl, h2⟩ := hb
  rw [mulD, fin_mul]
  refine N.round h ?_ hde hxy
  have bs : |s| ≤ Y + e := by
    have := abs_sub_abs_le_abs_sub s y
    linarith
  have := abs_add_le ((r - x) * s) (x * (s - y))
  rw [show r * s - x * y = (r - x) * s + x * (s - y) by ring]
  refine this.trans ?_
  rw [abs_mul, abs_mul]
  exact add_le_add (mul_le_mul h1 bs (abs_nonneg _) ((abs_nonneg _).trans h1)) (mul_le_mul hX h2 (abs_nonneg _) ((abs_nonneg _).trans hX))

theorem N.div (h : NearestF 53 1074 fl) (ha : N a x d) (hb : N b y e) {q m : ℝ} (hq : x = q * y) (hm : 0 < m) (hy : m + e ≤ |y|)
    (hq2 : |q| ≤ 200) (hde : (d + |q| * e) / m ≤ 1) : N (divD fl a b) q ((d + |q| * e) / m + 3 / 10 ^ 14) := by
  obtain ⟨r, rfl, h1⟩ := ha
  obtain ⟨s, rfl, h2⟩ := hb
  have bs : m ≤ |s| := by
    have := abs_sub_abs_le_abs_sub y s
    rw [abs_sub_comm] at this
    linarith
  have s0 : s ≠ 0 := by
    intro e0
    rw [e0, _root_.abs_zero] at bs
    linarith
  rw [divD, fin_div _ s0]
  refine N.round h ?_ hde hq2
  rw [show r / s - q = ((r - x) - q * (s - y)) / s by rw [hq]; field_simp; ring, abs_div]
  have := abs_sub (r - x) (q * (s - y))
  rw [abs_mul] at this
  have k : |q| * |s - y| ≤ |q| * e := mul_le_mul_of_nonneg_left h2 (abs_nonneg _)
  exact div_le_div₀ (by have := (abs_nonneg (s - y)).trans h2; have := (abs_nonneg (r - x)).trans h1; positivity) (by linarith) hm bs

theorem N.sqrt (h : NearestF 53 1074 fl) (ha : N a x d) {q : ℝ} (hq : 0 < q) (hx : x = q ^ 2) (hd : d ≤ x) (hq2 : q ≤ 200) (hd1 : d / q ≤ 1) :
    N (sqrtD fl a) q (d / q + 3 / 10 ^ 14) := by
  obtain ⟨r, rfl, h1⟩ := ha
  have r0 : 0 ≤ r := by
    have := abs_le.1 h1
    linarith
  rw [sqrtD, sqrt_fin r0]
  refine N.round h ?_ hd1 (by rwa [abs_of_pos hq])
  have s0 := Real.sqrt_nonneg r
  have e1 : (Real.sqrt r - q) * (Real.sqrt r + q) = r - x := by
    rw [hx]; nlinarith [Real.mul_self_sqrt r0]
  rw [le_div_iff₀ hq]
  calc |Real.sqrt r - q| * q ≤ |Real.sqrt r - q| * (Real.sqrt r + q) := mul_le_mul_of_nonneg_left (by linarith) (abs_nonneg _)
    _ = |r - x| := by rw [← e1, abs_mul, abs_of_nonneg (by linarith : 0 ≤ Real.sqrt r + q)]
    _ ≤ d := h1

theorem tiny1074 : (1 : ℝ) / 2 ^ 1074 ≤ 1 / 10 ^ 30 := by
  have : (2 : ℝ) ^ 100 ≤ 2 ^ 1074 := pow_le_pow_right₀ (by norm_num) (by norm_num)
  exact (one_div_le_one_div_of_le (by positivity) this).trans (by norm_num)

theorem N.sin {lm : Libm} (hl : IsLibm lm) (ha : N a x d) : N (sinD lm a) (Real.sin x) (d + 3 / 10 ^ 14) := by
  obtain ⟨r, rfl, h1⟩ := ha
  refine ⟨_, rfl, ?_⟩
  have e1 := hl.sin_err r
  have e2 := Real.abs_sin_sub_sin_le r x
  have e3 := abs_sub_le (lm.sin r) (Real.sin r) (Real.sin x)
  have t := tiny1074
  have e4 : |Real.sin r| / 2 ^ 52 ≤ 1 / 2 ^ 52 := div_le_div_of_nonneg_right (Real.abs_sin_le_one r) (by positivity)
  generalize (1 : ℝ) / 2 ^ 1074 = η at *
  norm_num at *
  linarith

theorem N.cos {lm : Libm} (hl : IsLibm lm) (ha : N a x d) : N (cosD lm a) (Real.cos x) (d + 3 / 10 ^ 14) := by
  obtain ⟨r, rfl, h1⟩ := ha
  refine ⟨_, rfl, ?_⟩
  have e1 := hl.cos_err r
  have e2 := Real.abs_cos_sub_cos_le r x
  have e3 := abs_sub_le (lm.cos r) (Real.cos r) (Real.cos x)
  have t := tiny1074
  have e4 : |Real.cos r| / 2 ^ 52 ≤ 1 / 2 ^ 52 := div_le_div_of_nonneg_right (Real.abs_cos_le_one r) (by positivity)
  generalize (1 : ℝ) / 2 ^ 1074 = η at *
  norm_num at *
  linarith

/-- conversion to `float`, if the number is well inside the cell of a `float` -/
theorem toFloat_cell (h' : NearestF 24 149 sl) (ha : N a x d) (m : ℤ) (k : ℕ) (hk : k ≤ 149) (h1 : 2 ^ 23 < |m|) (h2 : |m| ≤ 2 ^ 24)
    (hx : |x - m / 2 ^ k| + d < 1 / 2 ^ (k + 1)) : toFloat sl a = fin (m / 2 ^ k) := by
  obtain ⟨r, rfl, h3⟩ := ha
  have c : |r - m / 2 ^ k| < 1 / 2 ^ (k + 1) := by
    have := abs_sub_le r x (m / 2 ^ k)
    linarith
  rw [toFloat_ok h' (cell_bound h2 c), float_cell h' hk h1 h2 c]

/-- conversion to `float` of a small number -/
theorem toFloat_small (h' : NearestF 24 149 sl) (ha : N a x d) (hx : |x| + d ≤ 1 / 200) : N (toFloat sl a) x (d + (|x| + d) / 10 ^ 7 + 1 / 10 ^ 30) := by
  obtain ⟨r, rfl, h3⟩ := ha
  have b : |r| ≤ |x| + d := by
    have := abs_sub_abs_le_abs_sub r x
    linarith
  have b' : |r| ≤ 2 ^ 127 := (b.trans hx).trans (by norm_num)
  refine ⟨_, toFloat_ok h' b', ?_⟩
  have e1 := err_float h' r
  have t := tiny150
  have e3 := abs_sub_le (sl r) r x
  have e4 : |r| / 2 ^ 24 ≤ (|x| + d) / 10 ^ 7 := div_le_div₀ ((abs_nonneg _).trans b) b (by norm_num) (by norm_num)
  have t' : (1 : ℝ) / 10 ^ 40 ≤ 1 / 10 ^ 30 := by norm_num
  linarith

/-! ## comparisons -/

/-- all checks succeed -/
def Passed (A : TestLib) (l : List Check) : Prop := ∀ c ∈ l, c.eval A.fl A.sl = true

theorem eval_cell (hA : A.Ok) (m : ℤ) (k : ℕ) (hk : k ≤ 149) (h1 : 2 ^ 23 < |m|) (h2 : |m| ≤ 2 ^ 24) (ha : N a x d) (hb : N b y e)
    (hx : |x - m / 2 ^ k| + d + 1 / 10 ^ 12 < 1 / 2 ^ (k + 1)) (hy : |y - m / 2 ^ k| + e + 1 / 10 ^ 12 < 1 / 2 ^ (k + 1)) :
    Check.eval A.fl A.sl (.fcmp a b) = true := by
  obtain ⟨r, rfl, h3⟩ := ha
  obtain ⟨s, rfl, h4⟩ := hb
  refine stable_cmp hA.fl hA.sl (x := r) (y := s) (stable_cell m k hk h1 h2 ?_ ?_) (by simp) (by simp)
  · have := abs_sub_le r x (m / 2 ^ k)
    linarith
  · have := abs_sub_le s y (m / 2 ^ k)
    linarith

theorem eval_small (hA : A.Ok) (ha : N a x d) (hb : N b y e) (hx : |x| + d ≤ 1 / 200) (hy : |y| + e ≤ 1 / 200) (hxy : |x - y| + d + e ≤ 1 / 10 ^ 10) :
    Check.eval A.fl A.sl (.fcmp a b) = true := by
  obtain ⟨r, rfl, h3⟩ := ha
  obtain ⟨s, rfl, h4⟩ := hb
  refine stable_cmp hA.fl hA.sl (x := r) (y := s) (stable_small ?_ ?_ ?_) (by simp) (by simp)
  · have := abs_sub_abs_le_abs_sub r x
    linarith
  · have := abs_sub_abs_le_abs_sub s y
    linarith
  · have := abs_sub_le r x s
    have := abs_sub_le x y s
    rw [abs_sub_comm y s] at this
    linarith

/-- a number compared with itself -/
theorem eval_self (hA : A.Ok) (ha : N a x d) (hx : |x| + d ≤ 2 ^ 127) : Check.eval A.fl A.sl (.fcmp a a) = true := by
  obtain ⟨r, rfl, h3⟩ := ha
  refine C125_equal hA.fl hA.sl ?_
  have := abs_sub_abs_le_abs_sub r x
  linarith

theorem eval_dec (hA : A.Ok) (hx : |x| ≤ 200) : Check.eval A.fl A.sl (.fcmp (dec A x) (dec A x)) = true :=
  eval_self hA (N.lit hA.fl hx) (by norm_num; linarith)

theorem eval_ndec (hA : A.Ok) (hx : |x| ≤ 200) : Check.eval A.fl A.sl (.fcmp (-dec A x) (-dec A x)) = true :=
  eval_self hA (N.lit hA.fl hx).neg (by rw [_root_.abs_neg]; norm_num; linarith)

theorem eval_zero (hA : A.Ok) : Check.eval A.fl A.sl (.fcmp 0 0) = true := by
  rw [zero_eq]
  exact eval_self hA (N.of 0) (by norm_num)

theorem eval_one (hA : A.Ok) : Check.eval A.fl A.sl (.fcmp 1 1) = true := by
  rw [one_eq]
  exact eval_self hA (N.of 1) (by norm_num)

/-! ## tpsimple, constantbfield, resultTest -/

theorem hp_ok : V5.ofList (hp A) = .ok ![1, dec A 0.02, dec A 1.2, dec A 0.2, dec A 0.3] := by
  have : 5 ≤ (hp A).length := le_rfl
  rw [V5.ofList, dif_pos this]
  congr 1
  funext i
  fin_cases i <;> rfl

theorem hp_self (hA : A.Ok) (i : Fin 5) : Check.eval A.fl A.sl
    (.fcmp ((![1, dec A 0.02, dec A 1.2, dec A 0.2, dec A 0.3] : V5) i) ((![1, dec A 0.02, dec A 1.2, dec A 0.2, dec A 0.3] : V5) i)) = true := by
  fin_cases i
  · exact eval_one hA
  · exact eval_dec hA (by norm_num)
  · exact eval_dec hA (by norm_num)
  · exact eval_dec hA (by norm_num)
  · exact eval_dec hA (by norm_num)

set_option maxRecDepth 10000 in
theorem tpsimple_ok (hA : A.Ok) : ∃ l, tpsimpleChecks A = .ok l ∧ l.length = 175 ∧ Passed A l := by
  rw [tpsimpleChecks, cm_ok, Out.ok_bind, hp_ok, Out.ok_bind]
  refine ⟨_, rfl, rfl, ?_⟩
  have e0 := eval_zero hA
  have e1 := eval_one hA
  intro c hc
  simp only [List.mem_append] at hc
  rcases hc with ((((((hc | hc) | hc) | hc) | hc) | hc) | hc) | hc
  · obtain ⟨i, -, rfl⟩ := List.mem_map.1 hc
    exact e0
  · obtain ⟨i, -, hc⟩ := List.mem_flatMap.1 hc
    simp only [List.mem_cons, List.not_mem_nil, or_false] at hc
    rcases hc with rfl | rfl | rfl <;> exact e0
  · obtain ⟨i, hi, hc⟩ := List.mem_flatMap.1 hc
    simp only [List.mem_cons, List.not_mem_nil, or_false] at hc
    have z := zero_get (List.mem_range.1 hi)
    rcases hc with rfl | rfl | rfl <;> (show Check.eval A.fl A.sl (.fcmp (V3.zero.get i) 0) = true; rw [z]; exact e0)
  · obtain ⟨i, -, hc⟩ := List.mem_flatMap.1 hc
    simp only [List.mem_cons, List.not_mem_nil, or_false] at hc
    rcases hc with rfl | rfl | rfl <;> exact e0
  · obtain ⟨i, -, hc⟩ := List.mem_flatMap.1 hc
    simp only [List.mem_cons, List.not_mem_nil, or_false] at hc
    rcases hc with rfl | rfl <;> exact hp_self hA i
  · obtain ⟨i, hi, hc⟩ := List.mem_flatMap.1 hc
    simp only [List.mem_cons, List.not_mem_nil, or_false] at hc
    have : ∃ r : ℝ, rp.get i = fin r ∧ |r| ≤ 10 := by
      have : i = 0 ∨ i = 1 ∨ i = 2 := by have := List.mem_range.1 hi; omega
      rcases this with rfl | rfl | rfl
      · exact ⟨2, rfl, by norm_num⟩
      · exact ⟨3, rfl, by norm_num⟩
      · exact ⟨5, rfl, by norm_num⟩
    obtain ⟨r, r1, r2⟩ := this
    have key : Check.eval A.fl A.sl (.fcmp (rp.get i) (rp.get i)) = true := by
      rw [r1]
      exact eval_self hA (N.of r) (by norm_num; linarith)
    rcases hc with rfl | rfl <;> exact key
  · obtain ⟨i, -, hc⟩ := List.mem_flatMap.1 hc
    by_cases e : i.1 = i.2
    · rw [if_neg (not_not.2 e)] at hc
      simp only [List.mem_cons, List.not_mem_nil, or_false] at hc
      have : unitM i.1 i.2 = 1 := if_pos e
      rcases hc with rfl | rfl <;> (show Check.eval A.fl A.sl (.fcmp (unitM i.1 i.2) 1) = true; rw [this]; exact e1)
    · rw [if_pos e] at hc
      simp only [List.mem_cons, List.not_mem_nil, or_false] at hc
      have : unitM i.1 i.2 = 0 := if_neg e
      rcases hc with rfl | rfl <;> (show Check.eval A.fl A.sl (.fcmp (unitM i.1 i.2) 0) = true; rw [this]; exact e0)
  · obtain ⟨i, -, rfl⟩ := List.mem_map.1 hc
    exact hp_self hA i

theorem constantbfield_ok (hA : A.Ok) : (constantbfieldChecks A).length = 15 ∧ Passed A (constantbfieldChecks A) := by
  refine ⟨rfl, ?_⟩
  have z := eval_zero hA
  have a := eval_ndec hA (x := 1.2) (by norm_num)
  have b := eval_dec hA (x := 2.3) (by norm_num)
  intro c hc
  simp only [constantbfieldChecks, List.mem_cons, List.not_mem_nil, or_false] at hc
  rcases hc with rfl | rfl | rfl | rfl | rfl | rfl | rfl | rfl | rfl | rfl | rfl | rfl | rfl | rfl | rfl <;>
    first
    | exact z
    | exact a
    | exact b

theorem result_ok (hA : A.Ok) : ∃ l r, resultTestRun A 0 = .ok (l, r) ∧ l.length = 18 ∧ Passed A l := by
  rw [resultTestRun, resultTestStep, cm_ok, Out.ok_bind, hp_ok, Out.ok_bind]
  refine ⟨_, _, rfl, rfl, ?_⟩
  intro c hc
  simp only [List.mem_append, List.mem_cons, List.not_mem_nil, or_false] at hc
  rcases hc with (rfl | rfl | rfl | rfl | rfl | rfl | rfl | rfl | rfl) | (rfl | rfl | rfl | rfl | rfl | rfl | rfl | rfl | rfl)
  · exact rfl
  · exact rfl
  · exact eval_zero hA
  · exact eval_zero hA
  · exact eval_zero hA
  · exact eval_zero hA
  · exact eval_zero hA
  · exact eval_zero hA
  · exact eval_zero hA
  · exact rfl
  · exact rfl
  · have : N (dec A 225.256) 225.256 1 := by
      have e1 := err_double hA.fl 225.256
      have t := tiny1075
      refine ⟨A.fl 225.256, rnd_double hA.fl ?_, ?_⟩
      · have : (2 : ℝ) ^ 8 ≤ 2 ^ 1000 := pow_le_pow_right₀ (by norm_num) (by norm_num)
        exact le_trans (by norm_num) this
      · generalize (1 : ℝ) / 2 ^ 1075 = η at *
        rw [abs_of_pos (by norm_num : (0 : ℝ) < 225.256)] at e1
        norm_num at *
        linarith
    exact eval_self hA this (by norm_num)
  · exact eval_dec hA (by norm_num)
  · exact eval_one hA
  · exact eval_dec hA (by norm_num)
  · exact eval_dec hA (by norm_num)
  · exact eval_dec hA (by norm_num)
  · exact eval_dec hA (by norm_num)

end RUT

end Verif
