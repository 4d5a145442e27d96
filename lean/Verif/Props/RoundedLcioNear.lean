import Verif.Props.RoundedLcio

/-!
# Accuracy of the conversions of LCIO track states with rounding: C119
-/

open Classical

noncomputable section

namespace Verif

open Dbl Rnd

variable {fl sl : ℝ → ℝ}

/-- `a` is `b`, up to 8 units of 2^-53 if it is finite -/
def Near (a b : Dbl) : Prop := a = b ∨ ∃ x y, a = fin x ∧ b = fin y ∧ |x - y| ≤ 8 / 2 ^ 53 * |y|

/-- zero, not finite, or between 2^-700 and 2^700 -/
def InRange (a : Dbl) : Prop := ∀ x, a = fin x → (x = 0 ∨ 1 / 2 ^ 700 ≤ |x|) ∧ |x| ≤ 2 ^ 700

/-- every `float` is in this range -/
theorem IsFloat.inRange {a : Dbl} (h : IsFloat a) : InRange a := by
  rintro x rfl
  obtain ⟨h1, h2⟩ := float_range h.1 h.2
  exact ⟨h1.imp_right fun h => le_trans (one_div_le_one_div_of_le (by positivity) (pow_le_pow_right₀ (by norm_num) (by norm_num))) h,
    h2.trans (pow_le_pow_right₀ (by norm_num) (by norm_num))⟩

/-- `mm` is 1/10 up to rounding -/
theorem mmD_near (h : NearestF 53 1074 fl) : ∃ e, |e| ≤ 1 / 2 ^ 53 ∧ mmD fl = fin (1 / 10 * (1 + e)) := by
  obtain ⟨d, h1, h2⟩ := rel_double h (t := 1 / 10) (Or.inr (by
    rw [abs_of_pos (by norm_num)]
    refine le_trans ?_ (by norm_num : (1 / 2 ^ 10 : ℝ) ≤ 1 / 10)
    exact one_div_le_one_div_of_le (by positivity) (pow_le_pow_right₀ (by norm_num) (by norm_num))))
  refine ⟨d, h1, ?_⟩
  rw [← h2]
  refine rnd_double h ?_
  rw [abs_of_pos (by norm_num)]
  exact le_trans (by norm_num) (one_le_pow₀ (by norm_num : (1 : ℝ) ≤ 2))

theorem near_fin {x y t : ℝ} (hx : x = y * t) (ht : |t - 1| ≤ 8 / 2 ^ 53) : Near (fin x) (fin y) := by
  refine Or.inr ⟨x, y, rfl, rfl, ?_⟩
  rw [hx, show y * t - y = y * (t - 1) by ring, abs_mul, mul_comm]
  exact mul_le_mul_of_nonneg_right ht (abs_nonneg _)

/-- the bounds as numbers -/
theorem unit_bounds {a : ℝ} (ha : |a| ≤ 1 / 2 ^ 53) : -(1 / 9007199254740992) ≤ a ∧ a ≤ 1 / 9007199254740992 := by
  rw [show (1 : ℝ) / 2 ^ 53 = 1 / 9007199254740992 by norm_num] at ha
  exact abs_le.1 ha

theorem prod4 {a b c d : ℝ} (ha : |a| ≤ 1 / 2 ^ 53) (hb : |b| ≤ 1 / 2 ^ 53) (hc : |c| ≤ 1 / 2 ^ 53) (hd : |d| ≤ 1 / 2 ^ 53) :
    (1 - 1 / 9007199254740992) ^ 4 ≤ (1 + a) * (1 + b) * (1 + c) * (1 + d) ∧
      (1 + a) * (1 + b) * (1 + c) * (1 + d) ≤ (1 + 1 / 9007199254740992) ^ 4 := by
  obtain ⟨a1, a2⟩ := unit_bounds ha
  obtain ⟨b1, b2⟩ := unit_bounds hb
  obtain ⟨c1, c2⟩ := unit_bounds hc
  obtain ⟨d1, d2⟩ := unit_bounds hd
  have a0 : (0 : ℝ) ≤ 1 + a := by linarith
  have b0 : (0 : ℝ) ≤ 1 + b := by linarith
  have c0 : (0 : ℝ) ≤ 1 + c := by linarith
  have d0 : (0 : ℝ) ≤ 1 + d := by linarith
  rw [show ∀ q : ℝ, q ^ 4 = q * q * q * q from fun q => by ring, show ∀ q : ℝ, q ^ 4 = q * q * q * q from fun q => by ring]
  constructor
  · exact mul_le_mul (mul_le_mul (mul_le_mul (by linarith) (by linarith) (by norm_num) a0) (by linarith) (by norm_num)
      (mul_nonneg a0 b0)) (by linarith) (by norm_num) (mul_nonneg (mul_nonneg a0 b0) c0)
  · exact mul_le_mul (mul_le_mul (mul_le_mul (by linarith) (by linarith) b0 (by norm_num)) (by linarith) c0 (by norm_num))
      (by linarith) d0 (by norm_num)

theorem close4 {a b c d : ℝ} (ha : |a| ≤ 1 / 2 ^ 53) (hb : |b| ≤ 1 / 2 ^ 53) (hc : |c| ≤ 1 / 2 ^ 53) (hd : |d| ≤ 1 / 2 ^ 53) :
    |(1 + a) * (1 + b) * (1 + c) * (1 + d) - 1| ≤ 8 / 2 ^ 53 := by
  obtain ⟨h1, h2⟩ := prod4 ha hb hc hd
  generalize (1 + a) * (1 + b) * (1 + c) * (1 + d) = P at *
  norm_num at h1 h2
  rw [abs_le]
  norm_num
  constructor <;> linarith

theorem close_div {a b c d : ℝ} (ha : |a| ≤ 1 / 2 ^ 53) (hb : |b| ≤ 1 / 2 ^ 53) (hc : |c| ≤ 1 / 2 ^ 53) (hd : |d| ≤ 1 / 2 ^ 53) :
    |(1 + a) / ((1 + b) * (1 + c) * (1 + d)) - 1| ≤ 8 / 2 ^ 53 := by
  have z : |(0 : ℝ)| ≤ 1 / 2 ^ 53 := by rw [_root_.abs_zero]; positivity
  obtain ⟨h1, h2⟩ := prod4 hb hc hd z
  rw [add_zero, mul_one] at h1 h2
  obtain ⟨a1, a2⟩ := unit_bounds ha
  generalize (1 + b) * (1 + c) * (1 + d) = P at *
  norm_num at h1 h2
  have P0 : 0 < P := by linarith
  rw [abs_le]
  constructor
  · rw [le_sub_iff_add_le, le_div_iff₀ P0]
    norm_num
    linarith
  · rw [sub_le_iff_le_add, div_le_iff₀ P0]
    norm_num
    linarith

theorem one_add_pos {e : ℝ} (he : |e| ≤ 1 / 2 ^ 53) : 0 < 1 + e := by
  obtain ⟨a1, a2⟩ := unit_bounds he
  linarith

/-- bounds for `mm` -/
theorem mm_bounds {e : ℝ} (he : |e| ≤ 1 / 2 ^ 53) : 1 / 11 ≤ 1 / 10 * (1 + e) ∧ 1 / 10 * (1 + e) ≤ 1 / 8 := by
  obtain ⟨a1, a2⟩ := unit_bounds he
  constructor <;> linarith

theorem near_mul (h : NearestF 53 1074 fl) {a : Dbl} (ha : InRange a) : Near (mulD fl a (mmD fl)) (a * unit_mm) := by
  obtain ⟨e, he, em⟩ := mmD_near h
  obtain ⟨m1, m2⟩ := mm_bounds he
  have m0 : 0 < 1 / 10 * (1 + e) := lt_of_lt_of_le (by norm_num) m1
  rw [em, unit_mm]
  match a, ha with
  | .nan, _ => exact Or.inl rfl
  | .inf s, _ =>
    left
    rw [mulD_inf fl s m0, inf_mul_fin]
    have : ¬(10 : ℝ) < 0 := by norm_num
    simp [sgn, this]
  | .fin x, hx =>
    obtain ⟨f1, f2⟩ := hx x rfl
    obtain ⟨y, d, y1, y2, y3, -⟩ := rnd_scale (n := 700) h (by norm_num) f1 f2 (c := 1 / 10 * (1 + e))
      (le_trans (by norm_num) m1) (le_trans m2 (by norm_num))
    rw [mulD, fin_mul, y1, fin_mul]
    refine near_fin (t := (1 + e) * (1 + d) * (1 + 0) * (1 + 0)) (by rw [y3]; ring) (close4 he y2 ?_ ?_) <;>
    · rw [_root_.abs_zero]; positivity

theorem near_div (h : NearestF 53 1074 fl) {a : Dbl} (ha : InRange a) : Near (divD fl a (mmD fl)) (a / unit_mm) := by
  obtain ⟨e, he, em⟩ := mmD_near h
  obtain ⟨m1, m2⟩ := mm_bounds he
  have m0 : 0 < 1 / 10 * (1 + e) := lt_of_lt_of_le (by norm_num) m1
  rw [em, unit_mm]
  match a, ha with
  | .nan, _ => exact Or.inl rfl
  | .inf s, _ =>
    left
    rw [divD_inf fl s m0, inf_div_fin]
    have : ¬(10 : ℝ) < 0 := by norm_num
    simp [sgn, this]
  | .fin x, hx =>
    obtain ⟨f1, f2⟩ := hx x rfl
    obtain ⟨y, d, y1, y2, y3, -⟩ := rnd_scale (n := 700) h (by norm_num) f1 f2 (c := 1 / (1 / 10 * (1 + e)))
      (le_trans (by norm_num) (one_div_le_one_div_of_le m0 m2)) (le_trans (one_div_le_one_div_of_le (by norm_num) m1) (by norm_num))
    rw [divD, fin_div _ m0.ne', div_eq_mul_one_div, y1, fin_div _ (by norm_num)]
    have e0 := (one_add_pos he).ne'
    refine near_fin (t := (1 + d) / ((1 + e) * (1 + 0) * (1 + 0))) (by rw [y3]; field_simp; ring) (close_div y2 he ?_ ?_) <;>
    · rw [_root_.abs_zero]; positivity

/-- `mm * mm` -/
theorem mm2_near (h : NearestF 53 1074 fl) : ∃ e d, |e| ≤ 1 / 2 ^ 53 ∧ |d| ≤ 1 / 2 ^ 53 ∧
    mulD fl (mmD fl) (mmD fl) = fin (1 / 100 * ((1 + e) * (1 + e) * (1 + d))) ∧
    1 / 128 ≤ 1 / 100 * ((1 + e) * (1 + e) * (1 + d)) ∧ 1 / 100 * ((1 + e) * (1 + e) * (1 + d)) ≤ 1 / 32 := by
  obtain ⟨e, he, em⟩ := mmD_near h
  obtain ⟨m1, m2⟩ := mm_bounds he
  obtain ⟨c, d, c1, c2, c3, c4, c5⟩ := mm2_eq h m1 m2
  have hc : c = 1 / 100 * ((1 + e) * (1 + e) * (1 + d)) := by rw [c5]; ring
  exact ⟨e, d, he, c4, by rw [em, c1, hc], hc ▸ c2, hc ▸ c3⟩

theorem near_mul2 (h : NearestF 53 1074 fl) {a : Dbl} (ha : InRange a) :
    Near (mulD fl (mulD fl a (mmD fl)) (mmD fl)) (a * unit_mm * unit_mm) := by
  obtain ⟨e, he, em⟩ := mmD_near h
  obtain ⟨m1, m2⟩ := mm_bounds he
  have m0 : 0 < 1 / 10 * (1 + e) := lt_of_lt_of_le (by norm_num) m1
  rw [em, unit_mm]
  match a, ha with
  | .nan, _ => exact Or.inl rfl
  | .inf s, _ =>
    left
    have : (inf s : Dbl) * fin (1 / 10) = inf s := by
      rw [inf_mul_fin]
      have : ¬(10 : ℝ) < 0 := by norm_num
      simp [sgn, this]
    rw [mulD_inf fl s m0, mulD_inf fl s m0, this, this]
  | .fin x, hx =>
    obtain ⟨f1, f2⟩ := hx x rfl
    obtain ⟨y, d, y1, y2, y3, y4, y5⟩ := rnd_scale (n := 700) h (by norm_num) f1 f2 (c := 1 / 10 * (1 + e))
      (le_trans (by norm_num) m1) (le_trans m2 (by norm_num))
    obtain ⟨z, d', z1, z2, z3, -⟩ := rnd_scale (n := 700 + 9) h (by norm_num) y4 y5 (c := 1 / 10 * (1 + e))
      (le_trans (by norm_num) m1) (le_trans m2 (by norm_num))
    have e1 : mulD fl (fin x) (fin (1 / 10 * (1 + e))) = fin y := by rw [mulD, fin_mul, y1]
    rw [e1, mulD, fin_mul, z1, fin_mul, fin_mul]
    exact near_fin (t := (1 + e) * (1 + d) * (1 + e) * (1 + d')) (by rw [z3, y3]; ring) (close4 he y2 he z2)

theorem unit_mm2 : unit_mm * unit_mm = fin (1 / 100) := by rw [unit_mm, fin_mul]; norm_num

theorem near_div2 (h : NearestF 53 1074 fl) {a : Dbl} (ha : InRange a) :
    Near (divD fl a (mulD fl (mmD fl) (mmD fl))) (a / (unit_mm * unit_mm)) := by
  obtain ⟨e, d, he, hd, em, m1, m2⟩ := mm2_near h
  have m0 : 0 < 1 / 100 * ((1 + e) * (1 + e) * (1 + d)) := lt_of_lt_of_le (by norm_num) m1
  rw [em, unit_mm2]
  match a, ha with
  | .nan, _ => exact Or.inl rfl
  | .inf s, _ =>
    left
    rw [divD_inf fl s m0, inf_div_fin]
    have : ¬(100 : ℝ) < 0 := by norm_num
    simp [sgn, this]
  | .fin x, hx =>
    obtain ⟨f1, f2⟩ := hx x rfl
    obtain ⟨y, d', y1, y2, y3, -⟩ := rnd_scale (n := 700) h (by norm_num) f1 f2 (c := 1 / (1 / 100 * ((1 + e) * (1 + e) * (1 + d))))
      (le_trans (by norm_num) (one_div_le_one_div_of_le m0 m2)) (le_trans (one_div_le_one_div_of_le (by norm_num) m1) (by norm_num))
    rw [divD, fin_div _ m0.ne', div_eq_mul_one_div, y1, fin_div _ (by norm_num)]
    have e0 := (one_add_pos he).ne'
    have d0 := (one_add_pos hd).ne'
    exact near_fin (t := (1 + d') / ((1 + e) * (1 + e) * (1 + d))) (by rw [y3]; field_simp) (close_div y2 he he hd)

theorem near_mulsq (h : NearestF 53 1074 fl) {a : Dbl} (ha : InRange a) :
    Near (mulD fl a (mulD fl (mmD fl) (mmD fl))) (a * (unit_mm * unit_mm)) := by
  obtain ⟨e, d, he, hd, em, m1, m2⟩ := mm2_near h
  have m0 : 0 < 1 / 100 * ((1 + e) * (1 + e) * (1 + d)) := lt_of_lt_of_le (by norm_num) m1
  rw [em, unit_mm2]
  match a, ha with
  | .nan, _ => exact Or.inl rfl
  | .inf s, _ =>
    left
    rw [mulD_inf fl s m0, inf_mul_fin]
    have : ¬(100 : ℝ) < 0 := by norm_num
    simp [sgn, this]
  | .fin x, hx =>
    obtain ⟨f1, f2⟩ := hx x rfl
    obtain ⟨y, d', y1, y2, y3, -⟩ := rnd_scale (n := 700) h (by norm_num) f1 f2 (c := 1 / 100 * ((1 + e) * (1 + e) * (1 + d)))
      (le_trans (by norm_num) m1) (le_trans m2 (by norm_num))
    rw [mulD, fin_mul, y1, fin_mul]
    exact near_fin (t := (1 + e) * (1 + e) * (1 + d) * (1 + d')) (by rw [y3]; ring) (close4 he he hd y2)

theorem Near.refl (a : Dbl) : Near a a := Or.inl rfl

theorem rnd_read_ok (fl : ℝ → ℝ) (loc : ℤ) (d0 phi om z0 tl : Dbl) (ref : V3)
    (a0 a1 a2 a3 a4 a5 a6 a7 a8 a9 a10 a11 a12 a13 a14 : Dbl) (r : List Dbl) :
    Rnd.readLCIO fl ⟨loc, d0, phi, om, z0, tl,
      a0 :: a1 :: a2 :: a3 :: a4 :: a5 :: a6 :: a7 :: a8 :: a9 :: a10 :: a11 :: a12 :: a13 :: a14 :: r, ref⟩ =
    .ok ⟨![![divD fl a5 (mulD fl (mmD fl) (mmD fl)), divD fl a12 (mmD fl), divD fl a4 (mmD fl), a3, a8],
           ![divD fl a12 (mmD fl), a14, a11, mulD fl a10 (mmD fl), mulD fl a13 (mmD fl)],
           ![divD fl a4 (mmD fl), a11, a2, mulD fl a1 (mmD fl), mulD fl a7 (mmD fl)],
           ![a3, mulD fl a10 (mmD fl), mulD fl a1 (mmD fl), mulD fl (mulD fl a0 (mmD fl)) (mmD fl),
             mulD fl (mulD fl a6 (mmD fl)) (mmD fl)],
           ![a8, mulD fl a13 (mmD fl), mulD fl a7 (mmD fl), mulD fl (mulD fl a6 (mmD fl)) (mmD fl),
             mulD fl (mulD fl a9 (mmD fl)) (mmD fl)]],
         ![divD fl om (mmD fl), tl, phi, mulD fl d0 (mmD fl), mulD fl z0 (mmD fl)],
         ⟨mulD fl ref.x (mmD fl), mulD fl ref.y (mmD fl), mulD fl ref.z (mmD fl)⟩⟩ := by
  simp only [Rnd.readLCIO, vecAt, List.getElem?_cons_zero, List.getElem?_cons_succ, Out.ok_bind, Out.pure_eq,
    TP.setAll, TP.setHp, TP.setRef, TP.setCov, Out.ok.injEq, TP.mk.injEq, and_true]
  constructor
  · funext i j
    fin_cases i <;> fin_cases j <;> rfl
  · funext i
    fin_cases i <;> rfl

theorem exact_read_ok (loc : ℤ) (d0 phi om z0 tl : Dbl) (ref : V3)
    (a0 a1 a2 a3 a4 a5 a6 a7 a8 a9 a10 a11 a12 a13 a14 : Dbl) (r : List Dbl) :
    Verif.readLCIO ⟨loc, d0, phi, om, z0, tl,
      a0 :: a1 :: a2 :: a3 :: a4 :: a5 :: a6 :: a7 :: a8 :: a9 :: a10 :: a11 :: a12 :: a13 :: a14 :: r, ref⟩ =
    .ok ⟨![![a5 / (unit_mm * unit_mm), a12 / unit_mm, a4 / unit_mm, a3, a8],
           ![a12 / unit_mm, a14, a11, a10 * unit_mm, a13 * unit_mm],
           ![a4 / unit_mm, a11, a2, a1 * unit_mm, a7 * unit_mm],
           ![a3, a10 * unit_mm, a1 * unit_mm, a0 * unit_mm * unit_mm, a6 * unit_mm * unit_mm],
           ![a8, a13 * unit_mm, a7 * unit_mm, a6 * unit_mm * unit_mm, a9 * unit_mm * unit_mm]],
         ![om / unit_mm, tl, phi, d0 * unit_mm, z0 * unit_mm],
         ⟨ref.x * unit_mm, ref.y * unit_mm, ref.z * unit_mm⟩⟩ := by
  simp only [Verif.readLCIO, vecAt, List.getElem?_cons_zero, List.getElem?_cons_succ, Out.ok_bind, Out.pure_eq,
    TP.setAll, TP.setHp, TP.setRef, TP.setCov, Out.ok.injEq, TP.mk.injEq, and_true]
  constructor
  · funext i j
    fin_cases i <;> fin_cases j <;> rfl
  · funext i
    fin_cases i <;> rfl

theorem near5 {a0 a1 a2 a3 a4 b0 b1 b2 b3 b4 : Dbl} (h0 : Near a0 b0) (h1 : Near a1 b1) (h2 : Near a2 b2) (h3 : Near a3 b3)
    (h4 : Near a4 b4) : ∀ i, Near ((![a0, a1, a2, a3, a4] : Fin 5 → Dbl) i) ((![b0, b1, b2, b3, b4] : Fin 5 → Dbl) i) := by
  intro i
  fin_cases i
  · exact h0
  · exact h1
  · exact h2
  · exact h3
  · exact h4

/-- C119 (reading): every parameter, every element of the covariance matrix and every coordinate of the reference point is the one of
the exact conversion up to 8 units of 2^-53, and the covariance matrix is exactly symmetric. -/
theorem C119_read (h : NearestF 53 1074 fl) {ts : TrackState} (hs : IsState ts) :
    ∃ tp ex, Rnd.readLCIO fl ts = .ok tp ∧ Verif.readLCIO ts = .ok ex ∧ (∀ i, Near (tp.hp i) (ex.hp i)) ∧
      (∀ i j, Near (tp.cov i j) (ex.cov i j)) ∧ (∀ i j, tp.cov i j = tp.cov j i) ∧
      Near tp.rp.x ex.rp.x ∧ Near tp.rp.y ex.rp.y ∧ Near tp.rp.z ex.rp.z := by
  obtain ⟨loc, d0, phi, om, z0, tl, cov, ref⟩ := ts
  obtain ⟨hp, hc, hl⟩ := hs
  obtain ⟨a0, a1, a2, a3, a4, a5, a6, a7, a8, a9, a10, a11, a12, a13, a14, r, rfl⟩ := list_ge15 (le_of_eq hl.symm)
  simp only [List.mem_cons, forall_eq_or_imp] at hp hc
  obtain ⟨p0, p1, p2, p3, p4, p5, p6, p7, -⟩ := hp
  obtain ⟨h0, h1, h2, h3, h4, h5, h6, h7, h8, h9, h10, h11, h12, h13, h14, -⟩ := hc
  refine ⟨_, _, rnd_read_ok fl _ _ _ _ _ _ _ _ _ _ _ _ _ _ _ _ _ _ _ _ _ _ _, exact_read_ok _ _ _ _ _ _ _ _ _ _ _ _ _ _ _ _ _ _ _ _ _ _ _,
    ?_, ?_, ?_, near_mul h p5.inRange, near_mul h p6.inRange, near_mul h p7.inRange⟩
  · exact near5 (near_div h p2.inRange) (.refl _) (.refl _) (near_mul h p0.inRange) (near_mul h p3.inRange)
  · have n12 := near_div h h12.inRange
    have n4 := near_div h h4.inRange
    have n10 := near_mul h h10.inRange
    have n13 := near_mul h h13.inRange
    have n1 := near_mul h h1.inRange
    have n7 := near_mul h h7.inRange
    have n6 := near_mul2 h h6.inRange
    intro i
    fin_cases i
    · exact near5 (near_div2 h h5.inRange) n12 n4 (.refl _) (.refl _)
    · exact near5 n12 (.refl _) (.refl _) n10 n13
    · exact near5 n4 (.refl _) (.refl _) n1 n7
    · exact near5 (.refl _) n10 n1 (near_mul2 h h0.inRange) n6
    · exact near5 (.refl _) n13 n7 n6 (near_mul2 h h9.inRange)
  · intro i j
    fin_cases i <;> fin_cases j <;> rfl

/-- the numbers of a track state -/
def TrackState.numbers (ts : TrackState) : List Dbl :=
  [ts.d0, ts.phi, ts.omega, ts.z0, ts.tanLambda, ts.ref.x, ts.ref.y, ts.ref.z] ++ ts.cov

theorem narrow_id (a : Dbl) : narrow (fun x => x) a = a := by cases a <;> rfl

/-- C119 (writing): every number written is the `float` for a number that is the one of the exact conversion up to 8 units of 2^-53,
for track parameters between 2^-700 and 2^700, zero, infinite or undefined. -/
theorem C119_write (h : NearestF 53 1074 fl) (sl : ℝ → ℝ) {tp : TP} (hp : ∀ i, InRange (tp.hp i)) (hc : ∀ i j, InRange (tp.cov i j))
    (hr : InRange tp.rp.x ∧ InRange tp.rp.y ∧ InRange tp.rp.z) :
    List.Forall₂ (fun w e => ∃ y, w = toFloat sl y ∧ Near y e) (Rnd.createLCIO fl sl tp).numbers
      (Verif.createLCIO (fun x => x) tp).numbers := by
  simp only [TrackState.numbers, Rnd.createLCIO, Verif.createLCIO, narrow_id, calculateD0, calculatePhi0, calculateOmega, calculateZ0,
    calculateTanLambda, List.cons_append, List.nil_append]
  refine .cons ⟨_, rfl, near_div h (hp _)⟩ (.cons ⟨_, rfl, .refl _⟩ (.cons ⟨_, rfl, near_mul h (hp _)⟩
    (.cons ⟨_, rfl, near_div h (hp _)⟩ (.cons ⟨_, rfl, .refl _⟩ (.cons ⟨_, rfl, near_div h hr.1⟩ (.cons ⟨_, rfl, near_div h hr.2.1⟩
    (.cons ⟨_, rfl, near_div h hr.2.2⟩ ?_)))))))
  refine .cons ⟨_, rfl, near_div2 h (hc _ _)⟩ (.cons ⟨_, rfl, near_div h (hc _ _)⟩ (.cons ⟨_, rfl, .refl _⟩ (.cons ⟨_, rfl, .refl _⟩
    (.cons ⟨_, rfl, near_mul h (hc _ _)⟩ (.cons ⟨_, rfl, near_mulsq h (hc _ _)⟩ (.cons ⟨_, rfl, near_div2 h (hc _ _)⟩
    (.cons ⟨_, rfl, near_div h (hc _ _)⟩ (.cons ⟨_, rfl, .refl _⟩ (.cons ⟨_, rfl, near_div2 h (hc _ _)⟩
    (.cons ⟨_, rfl, near_div h (hc _ _)⟩ (.cons ⟨_, rfl, .refl _⟩ (.cons ⟨_, rfl, near_mul h (hc _ _)⟩
    (.cons ⟨_, rfl, near_div h (hc _ _)⟩ (.cons ⟨_, rfl, .refl _⟩ .nil))))))))))))))

/-- C119_write, concrete case: parameters 1 to 5 and a unit covariance matrix. -/
example : ∃ fl, NearestF 53 1074 fl ∧ (∀ i : Fin 5, InRange (fin ((i : ℕ) + 1))) ∧
    ∀ i j : Fin 5, InRange (if i = j then fin 1 else fin 0) := by
  obtain ⟨fl, h⟩ := exists_nearestF 53 1074
  have key : ∀ n : ℕ, n ≤ 20 → InRange (fin n) := by
    intro n hn
    have := isFloat_dyadic n 0 (by rw [abs_of_nonneg (by omega)]; omega) (by norm_num)
    rw [pow_zero, div_one, Int.cast_natCast] at this
    exact this.inRange
  refine ⟨fl, h, fun i => ?_, fun i j => ?_⟩
  · have := key (i + 1) (by omega)
    rwa [Nat.cast_succ] at this
  · split
    · have := key 1 (by norm_num)
      rwa [Nat.cast_one] at this
    · have := key 0 (by norm_num)
      rwa [Nat.cast_zero] at this

end Verif
