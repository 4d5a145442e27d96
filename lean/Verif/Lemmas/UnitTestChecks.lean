import Verif.Model.UnitTestPrograms
import Verif.Lemmas.FloatCells
import Verif.Lemmas.Helix
import Mathlib.Analysis.Real.Pi.Bounds

/-!
# The checks of the unit tests
-/

open Classical

noncomputable section

namespace Verif

open Dbl Rnd UT

variable {fl sl : ℝ → ℝ}

/-- `c'` is the check `c` with numbers that differ by up to 1e-12, for instance by rounding -/
def CheckNear : Check → Check → Prop
  | .holds b, .holds b' => b' = b
  | .fcmp a b, .fcmp a' b' => ∃ x x' y y' : ℝ, a = fin x ∧ a' = fin x' ∧ b = fin y ∧ b' = fin y' ∧ |x' - x| ≤ 1 / 10 ^ 12 ∧
    |y' - y| ≤ 1 / 10 ^ 12
  | _, _ => False

/-- a check that succeeds also with rounding errors -/
def Sure : Check → Prop
  | .holds b => b = true
  | .fcmp a b => ∃ x y : ℝ, a = fin x ∧ b = fin y ∧ Stable x y

theorem sure_near (h : NearestF 53 1074 fl) (h' : NearestF 24 149 sl) {c c' : Check} (hs : Sure c) (hn : CheckNear c c') :
    c'.eval fl sl = true := by
  cases c with
  | holds b =>
    cases c' with
    | holds b' => exact hn.trans hs
    | fcmp a' b' => exact hn.elim
  | fcmp a b =>
    cases c' with
    | holds b' => exact hn.elim
    | fcmp a' b' =>
      obtain ⟨x, y, e1, e2, st⟩ := hs
      obtain ⟨u, u', v, v', f1, f2, f3, f4, n1, n2⟩ := hn
      rw [e1, fin_inj] at f1
      rw [e2, fin_inj] at f3
      subst f1 f3
      rw [f2, f4]
      exact stable_cmp h h' st n1 n2

theorem sure_self {c : Check} (hs : Sure c) : CheckNear c c := by
  cases c with
  | holds b => exact rfl
  | fcmp a b =>
    obtain ⟨x, y, e1, e2, -⟩ := hs
    exact ⟨x, x, y, y, e1, e1, e2, e2, by simp, by simp⟩

theorem sure_list (h : NearestF 53 1074 fl) (h' : NearestF 24 149 sl) : ∀ {l l' : List Check}, (∀ c ∈ l, Sure c) →
    List.Forall₂ CheckNear l l' → l'.map (Check.eval fl sl) = List.replicate l.length true := by
  intro l l' hs hn
  induction hn with
  | nil => rfl
  | cons a b ih =>
    rw [List.map_cons, List.length_cons, List.replicate_succ, sure_near h h' (hs _ (by simp)) a,
      ih fun c hc => hs c (by simp [hc])]

theorem sure_eval (h : NearestF 53 1074 fl) (h' : NearestF 24 149 sl) {l : List Check} (hs : ∀ c ∈ l, Sure c) :
    l.map (Check.eval fl sl) = List.replicate l.length true := by
  refine sure_list h h' hs ?_
  rw [List.forall₂_same]
  exact fun c hc => sure_self (hs c hc)

/-! ## the numbers in the tests -/

macro "num_cell" m:term "," k:term : tactic =>
  `(tactic| (refine stable_cell $m $k (by norm_num) (by norm_num) (by norm_num) ?_ ?_ <;>
    (rw [← lt_sub_iff_add_lt, abs_lt]; constructor <;> norm_num)))

theorem self_one : Stable 1 1 := by num_cell 16777216, 24
theorem self_2 : Stable 2 2 := by num_cell 16777216, 23
theorem self_3 : Stable 3 3 := by num_cell 12582912, 22
theorem self_5 : Stable 5 5 := by num_cell 10485760, 21
theorem self_10 : Stable 10 10 := by num_cell 10485760, 20
theorem self_0_02 : Stable 0.02 0.02 := by num_cell 10737418, 29
theorem self_1_2 : Stable 1.2 1.2 := by num_cell 10066330, 23
theorem self_m1_2 : Stable (-1.2) (-1.2) := by num_cell (-10066330), 23
theorem self_0_2 : Stable 0.2 0.2 := by num_cell 13421773, 26
theorem self_0_3 : Stable 0.3 0.3 := by num_cell 10066330, 25
theorem self_2_3 : Stable 2.3 2.3 := by num_cell 9646899, 22
theorem self_1_1 : Stable 1.1 1.1 := by num_cell 9227469, 23
theorem self_1_3 : Stable 1.3 1.3 := by num_cell 10905190, 23
theorem self_3_1 : Stable 3.1 3.1 := by num_cell 13002342, 22
theorem self_2_7 : Stable 2.7 2.7 := by num_cell 11324621, 22
theorem self_1_414 : Stable 1.414 1.414 := by num_cell 11861492, 23
theorem self_0_5 : Stable 0.5 0.5 := by num_cell 16777216, 25
theorem self_m0_5 : Stable (-0.5) (-0.5) := by num_cell (-16777216), 25
theorem self_225 : Stable 225.256 225.256 := by num_cell 14762377, 16
theorem self_12 : Stable 12.34 12.34 := by num_cell 12939428, 20

theorem sure_zero : Sure (.fcmp 0 0) := ⟨0, 0, zero_eq, zero_eq, stable_zero⟩

theorem sure_one : Sure (.fcmp 1 1) := ⟨1, 1, one_eq, one_eq, self_one⟩

theorem sure_same {a : Dbl} {x : ℝ} (ha : a = fin x) (hx : Stable x x) : Sure (.fcmp a a) := ⟨x, x, ha, ha, hx⟩

/-- the unit matrix -/
def unitM : M5 := fun i j => if i = j then 1 else 0

theorem cm_ok : M5.ofList cm = .ok unitM := by
  have : 25 ≤ cm.length := by decide
  rw [M5.ofList, dif_pos this]
  congr 1
  funext i j
  fin_cases i <;> fin_cases j <;> rfl

theorem hp_ok : V5.ofList hp = .ok ![1, 0.02, 1.2, 0.2, 0.3] := by
  have : 5 ≤ hp.length := by decide
  rw [V5.ofList, dif_pos this]
  congr 1
  funext i
  fin_cases i <;> rfl

theorem hp_self (i : Fin 5) : ∃ x, (![1, 0.02, 1.2, 0.2, 0.3] : V5) i = fin x ∧ Stable x x := by
  fin_cases i
  · exact ⟨1, one_eq, self_one⟩
  · exact ⟨_, rfl, self_0_02⟩
  · exact ⟨_, rfl, self_1_2⟩
  · exact ⟨_, rfl, self_0_2⟩
  · exact ⟨_, rfl, self_0_3⟩

theorem rp_self {i : ℕ} (hi : i < 3) : ∃ x, rp.get i = fin x ∧ Stable x x := by
  have : i = 0 ∨ i = 1 ∨ i = 2 := by omega
  rcases this with rfl | rfl | rfl
  · exact ⟨2, rfl, self_2⟩
  · exact ⟨3, rfl, self_3⟩
  · exact ⟨5, rfl, self_5⟩

theorem zero_get {i : ℕ} (hi : i < 3) : V3.zero.get i = 0 := by
  have : i = 0 ∨ i = 1 ∨ i = 2 := by omega
  rcases this with rfl | rfl | rfl <;> rfl

set_option maxRecDepth 10000 in
theorem tpsimple_sure : ∃ l, tpsimpleChecks = .ok l ∧ l.length = 175 ∧ ∀ c ∈ l, Sure c := by
  rw [tpsimpleChecks, cm_ok, Out.ok_bind, hp_ok, Out.ok_bind]
  refine ⟨_, rfl, by decide, ?_⟩
  intro c hc
  simp only [List.mem_append] at hc
  rcases hc with ((((((hc | hc) | hc) | hc) | hc) | hc) | hc) | hc
  · obtain ⟨i, -, rfl⟩ := List.mem_map.1 hc
    exact sure_zero
  · obtain ⟨i, -, hc⟩ := List.mem_flatMap.1 hc
    simp only [List.mem_cons, List.not_mem_nil, or_false] at hc
    rcases hc with rfl | rfl | rfl <;> exact sure_zero
  · obtain ⟨i, hi, hc⟩ := List.mem_flatMap.1 hc
    simp only [List.mem_cons, List.not_mem_nil, or_false] at hc
    have z := zero_get (List.mem_range.1 hi)
    rcases hc with rfl | rfl | rfl <;> (show Sure (.fcmp (V3.zero.get i) 0); rw [z]; exact sure_zero)
  · obtain ⟨i, -, hc⟩ := List.mem_flatMap.1 hc
    simp only [List.mem_cons, List.not_mem_nil, or_false] at hc
    rcases hc with rfl | rfl | rfl <;> exact sure_zero
  · obtain ⟨i, -, hc⟩ := List.mem_flatMap.1 hc
    simp only [List.mem_cons, List.not_mem_nil, or_false] at hc
    obtain ⟨x, e, st⟩ := hp_self i
    rcases hc with rfl | rfl <;> exact sure_same e st
  · obtain ⟨i, hi, hc⟩ := List.mem_flatMap.1 hc
    simp only [List.mem_cons, List.not_mem_nil, or_false] at hc
    obtain ⟨x, e, st⟩ := rp_self (List.mem_range.1 hi)
    rcases hc with rfl | rfl <;> exact sure_same e st
  · obtain ⟨i, -, hc⟩ := List.mem_flatMap.1 hc
    by_cases e : i.1 = i.2
    · rw [if_neg (not_not.2 e)] at hc
      simp only [List.mem_cons, List.not_mem_nil, or_false] at hc
      have : unitM i.1 i.2 = 1 := if_pos e
      rcases hc with rfl | rfl <;> (show Sure (.fcmp (unitM i.1 i.2) 1); rw [this]; exact sure_one)
    · rw [if_pos e] at hc
      simp only [List.mem_cons, List.not_mem_nil, or_false] at hc
      have : unitM i.1 i.2 = 0 := if_neg e
      rcases hc with rfl | rfl <;> (show Sure (.fcmp (unitM i.1 i.2) 0); rw [this]; exact sure_zero)
  · obtain ⟨i, -, rfl⟩ := List.mem_map.1 hc
    obtain ⟨x, e, st⟩ := hp_self i
    exact sure_same e st

theorem constantbfield_sure : constantbfieldChecks.length = 15 ∧ ∀ c ∈ constantbfieldChecks, Sure c := by
  refine ⟨rfl, ?_⟩
  have a : Sure (.fcmp (-1.2) (-1.2)) := ⟨-1.2, -1.2, rfl, rfl, self_m1_2⟩
  have b : Sure (.fcmp 2.3 2.3) := ⟨2.3, 2.3, rfl, rfl, self_2_3⟩
  intro c hc
  simp only [constantbfieldChecks, List.mem_cons, List.not_mem_nil, or_false] at hc
  rcases hc with rfl | rfl | rfl | rfl | rfl | rfl | rfl | rfl | rfl | rfl | rfl | rfl | rfl | rfl | rfl <;>
    first
    | exact sure_zero
    | exact a
    | exact b

theorem get_first (a : Dbl × Dbl) (l : List (Dbl × Dbl)) : Intersections.get (a :: l) 0 = .ok a := by simp [Intersections.get]

theorem get_second (a b : Dbl × Dbl) (l : List (Dbl × Dbl)) : Intersections.get (a :: b :: l) 1 = .ok b := by simp [Intersections.get]

theorem sqrt_near {q c w : ℝ} (h0 : 0 ≤ c - w) (h1 : (c - w) ^ 2 < q) (h2 : q < (c + w) ^ 2) (h3 : 0 < c + w) : |Real.sqrt q - c| < w := by
  have a := (Real.lt_sqrt h0).2 h1
  have b := (Real.sqrt_lt' h3).2 h2
  rw [abs_lt]
  constructor <;> linarith

theorem stable_sqrt075 : Stable (Real.sqrt 0.75) (Real.sqrt 0.75) := by
  have : |Real.sqrt 0.75 - ((14529495 : ℤ) : ℝ) / 2 ^ 24| < 1 / 2 ^ (24 + 1) - 1 / 10 ^ 12 := by
    refine sqrt_near ?_ ?_ ?_ ?_ <;> norm_num
  rw [lt_sub_iff_add_lt] at this
  exact stable_cell 14529495 24 (by norm_num) (by norm_num) (by norm_num) this this

theorem stable_neg {x y : ℝ} (h : Stable x y) : Stable (-x) (-y) := by
  rcases h with ⟨a, b, c⟩ | ⟨m, k, hk, m1, m2, c1, c2⟩
  · refine stable_small (by rwa [_root_.abs_neg]) (by rwa [_root_.abs_neg]) ?_
    rwa [show -x - -y = -(x - y) by ring, _root_.abs_neg]
  · refine stable_cell (-m) k hk (by rwa [_root_.abs_neg]) (by rwa [_root_.abs_neg]) ?_ ?_
    · rwa [show -x - ((-m : ℤ) : ℝ) / 2 ^ k = -(x - m / 2 ^ k) by push_cast; ring, _root_.abs_neg]
    · rwa [show -y - ((-m : ℤ) : ℝ) / 2 ^ k = -(y - m / 2 ^ k) by push_cast; ring, _root_.abs_neg]

theorem intersection_sure : ∃ l, intersectionChecks = .ok l ∧ l.length = 16 ∧ ∀ c ∈ l, Sure c := by
  have c1 : Circle.make 0 0 1 = .ok ⟨0, 0, 1⟩ := by simp only [Circle.make, zero_eq, one_eq]; rw [cif_neg (by rw [fin_lt]; norm_num)]
  have c2 : Circle.make 1 1 1 = .ok ⟨1, 1, 1⟩ := by simp only [Circle.make, zero_eq, one_eq]; rw [cif_neg (by rw [fin_lt]; norm_num)]
  have l1 : Line.make 0 1 0.5 = .ok ⟨0, 1, 0.5⟩ := by simp [Line.make]; norm_num
  have l2 : Line.make 1 1 0 = .ok ⟨1, 1, 0⟩ := by simp [Line.make]; norm_num
  have cc : intersectCircleCircle ⟨0, 0, 1⟩ ⟨1, 1, 1⟩ = .ok [(fin 1, fin 0), (fin 0, fin 1)] := by
    have e : Line.make (2 * (1 - 0)) (2 * (1 - 0)) (1 * 1 - 1 * 1 - 0 * 0 + 1 * 1 - 0 * 0 + 1 * 1) = .ok ⟨fin 2, fin 2, fin 2⟩ := by
      simp only [Line.make, zero_eq, one_eq, ofNat_eq, ofSci_eq, abs_fin, fin_mul, fin_sub, fin_add]
      rw [cif_neg (by rw [fin_lt]; norm_num), cif_neg (by rw [fin_lt]; norm_num)]
      norm_num
    have s4 : Real.sqrt 4 = 2 := by
      rw [show (4 : ℝ) = 2 ^ 2 by norm_num, Real.sqrt_sq (by norm_num)]
    simp only [intersectCircleCircle]
    rw [e, Out.ok_bind, Out.pure_eq]
    simp only [intersectCircleStraightLine, Line.move, Circle.r2, Line.normalSquare, Line.d2, zero_eq, one_eq, ofSci_eq, fin_mul, fin_sub,
      fin_add, abs_fin]
    norm_num
    rw [s4]
    norm_num
  have cl : intersectCircleStraightLine ⟨0, 0, 1⟩ ⟨0, 1, 0.5⟩ =
      [(fin (Real.sqrt 0.75), fin 0.5), (fin (-Real.sqrt 0.75), fin 0.5)] := by
    simp only [intersectCircleStraightLine, Line.move, Circle.r2, Line.normalSquare, Line.d2, zero_eq, one_eq, ofSci_eq, fin_mul, fin_sub,
      fin_add, abs_fin]
    norm_num
  have ll : intersectStraightLineStraightLine ⟨1, 1, 0⟩ ⟨0, 1, 0.5⟩ = [(fin (-0.5), fin 0.5)] := by
    simp only [intersectStraightLineStraightLine, zero_eq, one_eq, ofSci_eq, fin_mul, fin_sub]
    norm_num
  have t1 : ∃ w, Circle.make 0 0 (-1) = .throw w := by simp [Circle.make]
  have t2 : ∃ w, Line.make 0 (-1) (-1) = .throw w := by simp [Line.make]
  have t3 : ∃ w, Line.make 0 0 12 = .throw w := by
    simp only [Line.make, zero_eq, ofNat_eq, ofSci_eq, abs_fin]
    rw [cif_neg (by rw [fin_lt]; norm_num), cif_pos (by rw [fin_lt]; norm_num)]
    exact ⟨_, rfl⟩
  obtain ⟨w1, t1⟩ := t1
  obtain ⟨w2, t2⟩ := t2
  obtain ⟨w3, t3⟩ := t3
  simp only [intersectionChecks, c1, c2, l1, l2, Out.ok_bind, cc, cl, ll, t1, t2, t3, checkThrow, get_first, get_second, Out.pure_eq]
  refine ⟨_, rfl, rfl, ?_⟩
  intro c hc
  simp only [List.mem_append, List.mem_cons, List.not_mem_nil, or_false] at hc
  have q : Dbl.sqrt 0.75 = fin (Real.sqrt 0.75) := by rw [ofSci_eq, sqrt_fin (by norm_num)]
  have z : Sure (.fcmp (fin 0) 0) := ⟨0, 0, rfl, zero_eq, stable_zero⟩
  have o : Sure (.fcmp (fin 1) 1) := ⟨1, 1, rfl, one_eq, self_one⟩
  have hf : Sure (.fcmp (fin 0.5) 0.5) := ⟨0.5, 0.5, rfl, rfl, self_0_5⟩
  have mh : Sure (.fcmp (fin (-0.5)) (-0.5)) := ⟨-0.5, -0.5, rfl, rfl, self_m0_5⟩
  have sq : Sure (.fcmp (fin (Real.sqrt 0.75)) (Dbl.sqrt 0.75)) := ⟨_, _, rfl, q, stable_sqrt075⟩
  have ms : Sure (.fcmp (fin (-Real.sqrt 0.75)) (-Dbl.sqrt 0.75)) := ⟨_, _, rfl, by rw [q]; rfl, stable_neg stable_sqrt075⟩
  rcases hc with ((((((rfl | rfl | rfl | rfl | rfl) | (rfl | rfl | rfl | rfl | rfl)) | (rfl | rfl | rfl)) | rfl) | rfl) | rfl) <;>
    first
    | exact z
    | exact o
    | exact hf
    | exact mh
    | exact sq
    | exact ms
    | exact rfl

/-- a number of type `float` compared with itself -/
theorem self_float {m : ℤ} {k : ℕ} (hk : k ≤ 36) (h1 : 2 ^ 23 < |m|) (h2 : |m| ≤ 2 ^ 24) : Stable (m / 2 ^ k) (m / 2 ^ k) := by
  have : |(m / 2 ^ k : ℝ) - m / 2 ^ k| + 1 / 10 ^ 12 < 1 / 2 ^ (k + 1) := by
    rw [sub_self, _root_.abs_zero, zero_add]
    have a : (1 : ℝ) / 2 ^ 37 ≤ 1 / 2 ^ (k + 1) :=
      one_div_le_one_div_of_le (by positivity) (pow_le_pow_right₀ (by norm_num) (by omega))
    exact lt_of_lt_of_le (by norm_num) a
  exact stable_cell m k (by omega) h1 h2 this this

theorem sl_01 (h' : NearestF 24 149 sl) : sl 0.1 = ((13421773 : ℤ) : ℝ) / 2 ^ 27 := by
  refine float_cell h' (by norm_num) (by norm_num) (by norm_num) ?_
  rw [abs_lt]; constructor <;> norm_num

theorem sl_02 (h' : NearestF 24 149 sl) : sl 0.2 = ((13421773 : ℤ) : ℝ) / 2 ^ 26 := by
  refine float_cell h' (by norm_num) (by norm_num) (by norm_num) ?_
  rw [abs_lt]; constructor <;> norm_num

theorem sl_03 (h' : NearestF 24 149 sl) : sl 0.3 = ((10066330 : ℤ) : ℝ) / 2 ^ 25 := by
  refine float_cell h' (by norm_num) (by norm_num) (by norm_num) ?_
  rw [abs_lt]; constructor <;> norm_num

theorem trans_fin (x y : ℝ) (z : Dbl) : V3.trans ⟨fin x, fin y, z⟩ = fin (Real.sqrt (x * x + y * y)) := by
  simp only [V3.trans, fin_mul, fin_add]
  rw [sqrt_fin (add_nonneg (mul_self_nonneg x) (mul_self_nonneg y))]

theorem spacevectors_length (v : V3) : (spacevectorsTest sl v).1.length = 21 := rfl

theorem spacevectors_sure (h' : NearestF 24 149 sl) : ∀ c ∈ spacevectorsChecks sl 0, Sure c := by
  have f1 : Stable (sl 0.1) (sl 0.1) := by rw [sl_01 h']; exact self_float (by norm_num) (by norm_num) (by norm_num)
  have f2 : Stable (sl 0.2) (sl 0.2) := by rw [sl_02 h']; exact self_float (by norm_num) (by norm_num) (by norm_num)
  have f3 : Stable (sl 0.3) (sl 0.3) := by rw [sl_03 h']; exact self_float (by norm_num) (by norm_num) (by norm_num)
  have r1 : Stable (Real.sqrt (sl 0.1 * sl 0.1 + sl 0.2 * sl 0.2)) 0.22360679774997896964 := by
    rw [sl_01 h', sl_02 h']
    refine stable_cell 15005998 26 (by norm_num) (by norm_num) (by norm_num) ?_ ?_
    · rw [← lt_sub_iff_add_lt]
      refine sqrt_near ?_ ?_ ?_ ?_ <;> norm_num
    · rw [← lt_sub_iff_add_lt, abs_lt]; constructor <;> norm_num
  have r2 : Stable (Real.sqrt (1.1 * 1.1 + 1.2 * 1.2)) 1.62788205960997063873 := by
    refine stable_cell 13655664 23 (by norm_num) (by norm_num) (by norm_num) ?_ ?_
    · rw [← lt_sub_iff_add_lt]
      refine sqrt_near ?_ ?_ ?_ ?_ <;> norm_num
    · rw [← lt_sub_iff_add_lt, abs_lt]; constructor <;> norm_num
  have r3 : Stable (Real.sqrt (3.1 * 3.1 + 2.7 * 2.7)) (Real.sqrt (3.1 * 3.1 + 2.7 * 2.7)) := by
    have : |Real.sqrt (3.1 * 3.1 + 2.7 * 2.7) - ((8621310 : ℤ) : ℝ) / 2 ^ 21| < 1 / 2 ^ (21 + 1) - 1 / 10 ^ 12 := by
      refine sqrt_near ?_ ?_ ?_ ?_ <;> norm_num
    rw [lt_sub_iff_add_lt] at this
    exact stable_cell 8621310 21 (by norm_num) (by norm_num) (by norm_num) this this
  have g1 : Sure (.fcmp (fin (sl 0.1)) (fin (sl 0.1))) := ⟨_, _, rfl, rfl, f1⟩
  have g2 : Sure (.fcmp (fin (sl 0.2)) (fin (sl 0.2))) := ⟨_, _, rfl, rfl, f2⟩
  have g3 : Sure (.fcmp (fin (sl 0.3)) (fin (sl 0.3))) := ⟨_, _, rfl, rfl, f3⟩
  have d1 : Sure (.fcmp 1.1 1.1) := ⟨_, _, rfl, rfl, self_1_1⟩
  have d2 : Sure (.fcmp 1.2 1.2) := ⟨_, _, rfl, rfl, self_1_2⟩
  have d3 : Sure (.fcmp 1.3 1.3) := ⟨_, _, rfl, rfl, self_1_3⟩
  have a1 : Sure (.fcmp 3.1 3.1) := ⟨_, _, rfl, rfl, self_3_1⟩
  have a2 : Sure (.fcmp 2.7 2.7) := ⟨_, _, rfl, rfl, self_2_7⟩
  have a3 : Sure (.fcmp 1.414 1.414) := ⟨_, _, rfl, rfl, self_1_414⟩
  have k0 : Sure (.fcmp V3.zero.rho 0) := by
    refine ⟨0, 0, ?_, zero_eq, stable_zero⟩
    show V3.trans ⟨0, 0, 0⟩ = _
    rw [zero_eq, trans_fin]
    simp
  have k1 : Sure (.fcmp (spaceF sl).rho 0.22360679774997896964) := ⟨_, _, trans_fin _ _ _, rfl, r1⟩
  have k2 : Sure (.fcmp spaceD.trans 1.62788205960997063873) := ⟨_, _, trans_fin _ _ _, rfl, r2⟩
  have k3 : Sure (.fcmp (V3.rho ⟨spaceA, spaceB, (spaceF sl).z⟩) (Dbl.sqrt (spaceA * spaceA + spaceB * spaceB))) :=
    ⟨_, _, trans_fin _ _ _, trans_fin _ _ (fin 0), r3⟩
  intro c hc
  simp only [spacevectorsChecks, spacevectorsTest, spacevectorsState, List.mem_append, List.mem_cons, List.not_mem_nil, or_false] at hc
  rcases hc with (rfl | rfl | rfl | rfl | rfl | rfl | rfl | rfl | rfl | rfl | rfl | rfl | rfl | rfl | rfl | rfl | rfl | rfl) |
      (rfl | rfl | rfl)
  · exact sure_zero
  · exact sure_zero
  · exact sure_zero
  · exact g1
  · exact g2
  · exact g3
  · exact g1
  · exact g2
  · exact g3
  · exact d1
  · exact d2
  · exact d3
  · exact a1
  · exact a2
  · exact a3
  · exact k0
  · exact k1
  · exact k2
  · exact a1
  · exact a2
  · exact k3

/-- the results of `resultTest` -/
def resultAfter : FitResults := ⟨true, 225.256, 64, 12.34, ⟨unitM, ![1, 0.02, 1.2, 0.2, 0.3], rp⟩⟩

theorem resultStep_eq (fR : FitResults) : ∃ c1 c2 : List Check, resultTestStep fR = .ok (c1 ++ c2, resultAfter) ∧
    c1 = [.holds (fR.valid == false), .holds (fR.ndf == 0), .fcmp fR.chisquare 0, .fcmp fR.lostweight 0,
      .fcmp (fR.estParams.hp 0) 0, .fcmp (fR.estParams.hp 1) 0, .fcmp (fR.estParams.hp 2) 0, .fcmp (fR.estParams.hp 3) 0,
      .fcmp (fR.estParams.hp 4) 0] ∧
    c2.length = 9 ∧ ∀ c ∈ c2, Sure c := by
  rw [resultTestStep, cm_ok, Out.ok_bind, hp_ok, Out.ok_bind]
  refine ⟨_, _, rfl, rfl, rfl, ?_⟩
  intro c hc
  simp only [List.mem_cons, List.not_mem_nil, or_false] at hc
  rcases hc with rfl | rfl | rfl | rfl | rfl | rfl | rfl | rfl | rfl
  · exact rfl
  · exact rfl
  · exact ⟨_, _, rfl, rfl, self_225⟩
  · exact ⟨_, _, rfl, rfl, self_12⟩
  · exact sure_one
  · exact ⟨_, _, rfl, rfl, self_0_02⟩
  · exact ⟨_, _, rfl, rfl, self_1_2⟩
  · exact ⟨_, _, rfl, rfl, self_0_2⟩
  · exact ⟨_, _, rfl, rfl, self_0_3⟩

theorem result_sure : ∃ l r, resultTestRun 0 = .ok (l, r) ∧ l.length = 18 ∧ ∀ c ∈ l, Sure c := by
  obtain ⟨c1, c2, e, e1, n2, s2⟩ := resultStep_eq FitResults.default
  refine ⟨_, _, e, ?_, ?_⟩
  · rw [List.length_append, n2, e1]; rfl
  · intro c hc
    rw [List.mem_append] at hc
    rcases hc with hc | hc
    · rw [e1] at hc
      simp only [List.mem_cons, List.not_mem_nil, or_false] at hc
      rcases hc with rfl | rfl | rfl | rfl | rfl | rfl | rfl | rfl | rfl
      · exact rfl
      · exact rfl
      all_goals exact sure_zero
    · exact s2 c hc

end Verif
