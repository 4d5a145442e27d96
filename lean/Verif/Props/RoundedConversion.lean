import Verif.Lemmas.RoundedConversion
import Verif.Lemmas.Helix
import Verif.Props.RoundedMove

/-!
# C150: the transformation from curvilinear coordinates to track parameters in double precision

The matrix computed in double precision is compared with the matrix of the exact formulas (which C41 compares with the derivatives).  With
T = 1/cos λ the rows (curvature, tan λ, azimuth, d0, z0) are in units of |ω| T, T², T, 1/|ω|, T/|ω| and the columns (q/p, λ, φ, offsets) in units
of |q/p| T, 1, 1, 1/|ω|, 1/|ω|.
-/

open Classical

noncomputable section

namespace Verif

open Dbl Rnd Spec Rounded

variable {fl : ℝ → ℝ} {lm : Libm} {atn tn : ℝ → ℝ} {mm : M5 → M5 → M5} {om tl ph d z : ℝ} {b : R3}

/-- slopes of at most 100, curvatures and fields between 2^-100 and 2^100 -/
structure ConvRange (om tl : ℝ) (b : R3) : Prop where
  tl : |tl| ≤ 100
  o0 : 1 / 2 ^ 100 ≤ |om|
  o1 : |om| ≤ 2 ^ 100
  b0 : 1 / 2 ^ 100 ≤ √(dot b b)
  b1 : √(dot b b) ≤ 2 ^ 100

/-- units of the track parameters -/
def l3Row (om tl : ℝ) : Fin 5 → ℝ := ![|om| * √(1 + tl ^ 2), √(1 + tl ^ 2) ^ 2, √(1 + tl ^ 2), 1 / |om|, √(1 + tl ^ 2) / |om|]

/-- units of the curvilinear coordinates -/
def curvCol (om : ℝ) (b : R3) : Fin 5 → ℝ := ![|om| / (√(dot b b) * kBr), 1, 1, 1 / |om|, 1 / |om|]

theorem entry_near (h : NearestF 53 1074 fl) {k l : ℕ} {S R q : ℝ} {a a' c c' : Dbl} (ha : Ap k S a a' 1 4) (hc : Ap l R c c' 1 (2 ^ 15 - 40)) (hk : k + l ≤ 900)
    (hq : S * R = q) : ∃ r x, mulD fl a c = fin r ∧ a' * c' = fin x ∧ |r - x| ≤ 1 / 2 ^ 38 * q ∧ |x| ≤ q := by
  have p := (Ap.mul h ha hc hk (by norm_num) (by norm_num) (by norm_num)).mono (B' := 1) (e' := 2 ^ 15) (by norm_num) (by norm_num)
  obtain ⟨r, x, h1, h2, h3, h4⟩ := p.val
  subst hq
  refine ⟨r, x, h1, h2, h3.trans (le_of_eq ?_), by rwa [one_mul] at h4⟩
  ring

theorem mul_diag {A B : M5} (ha : ∀ i k, k ≠ i → A i k = fin 0) {j : Fin 5} (hb : ∀ k, ∃ y, B k j = fin y) (i : Fin 5) {x : ℝ} (hx : A i i * B i j = fin x) :
    M5.mul A B i j = fin x := by
  have z : ∀ k, k ≠ i → A i k * B k j = fin 0 := by
    intro k hk
    obtain ⟨y, hy⟩ := hb k
    rw [ha i k hk, hy, fin_mul, zero_mul]
  unfold M5.mul
  fin_cases i
  · rw [z 1 (by decide), z 2 (by decide), z 3 (by decide), z 4 (by decide)]
    simp only [Fin.zero_eta, Fin.isValue] at hx ⊢
    rw [hx]
    simp [fin_add]
  · rw [z 0 (by decide), z 2 (by decide), z 3 (by decide), z 4 (by decide)]
    simp only [Fin.mk_one, Fin.isValue] at hx ⊢
    rw [hx]
    simp [fin_add]
  · rw [z 0 (by decide), z 1 (by decide), z 3 (by decide), z 4 (by decide)]
    simp only [Fin.reduceFinMk, Fin.isValue] at hx ⊢
    rw [hx]
    simp [fin_add]
  · rw [z 0 (by decide), z 1 (by decide), z 2 (by decide), z 4 (by decide)]
    simp only [Fin.reduceFinMk, Fin.isValue] at hx ⊢
    rw [hx]
    simp [fin_add]
  · rw [z 0 (by decide), z 1 (by decide), z 2 (by decide), z 3 (by decide)]
    simp only [Fin.reduceFinMk, Fin.isValue] at hx ⊢
    rw [hx]
    simp [fin_add]

/-- the matrix of `curvilinearToPerigeeJacobian` -/
theorem perigee_ap (h : NearestF 53 1074 fl) (hl : IsLibm lm) (ha : IsAtan atn) (ht : IsTan tn) (hr : ConvRange om tl b) (i j : Fin 5) :
    (Rnd.curvilinearToPerigeeJacobian fl lm atn tn (hpR om tl ph d z) (V3.of b) i j = fin 0 ∧
      Verif.curvilinearToPerigeeJacobian (hpR om tl ph d z) (V3.of b) i j = fin 0) ∨
    ∃ l ≤ 300, Ap l ((![|om| * √(1 + tl ^ 2), 1, √(1 + tl ^ 2), 1 / |om|, √(1 + tl ^ 2) / |om|] : Fin 5 → ℝ) i / curvCol om b j)
      (Rnd.curvilinearToPerigeeJacobian fl lm atn tn (hpR om tl ph d z) (V3.of b) i j)
      (Verif.curvilinearToPerigeeJacobian (hpR om tl ph d z) (V3.of b) i j) 1 (2 ^ 15 - 40) := by
  have k0 := kBr_pos
  have op : 0 < |om| := lt_of_lt_of_le (by positivity) hr.o0
  have bp : 0 < √(dot b b) := lt_of_lt_of_le (by positivity) hr.b0
  have T0 : 0 < √(1 + tl ^ 2) := Real.sqrt_pos.2 (by positivity)
  have TT : √(1 + tl ^ 2) * √(1 + tl ^ 2) = 1 + tl * tl := by
    rw [Real.mul_self_sqrt (by positivity)]
    ring
  have sq : √(dot b b) * √(dot b b) = b 0 * b 0 + b 1 * b 1 + b 2 * b 2 :=
    Real.mul_self_sqrt (add_nonneg (add_nonneg (mul_self_nonneg _) (mul_self_nonneg _)) (mul_self_nonneg _))
  have cT : Real.cos (Real.arctan tl) = 1 / √(1 + tl ^ 2) := Real.cos_arctan tl
  obtain ⟨-, -, b2⟩ := comp_le bp.le sq
  have gb : Ap 100 √(dot b b) (fin (b 2)) (fin (b 2)) 1 0 := Ap.given hr.b0 hr.b1 b2
  have go : Ap 100 |om| (fin om) (fin om) 1 0 := Ap.given hr.o0 hr.o1 (by rw [one_mul])
  have hH := unit_ap h hr.b0 hr.b1
  have gt := tan_ap (fl := fl) ha ht TT T0 hr.tl
  have lv : Dbl.tan (Dbl.atan (fin tl)) = fin tl := by rw [atan_fin, tan_fin (Real.cos_arctan_pos tl).ne', Real.tan_arctan]
  have sl := (Ap.sin hl (atan_ap (fl := fl) ha tl)).mono (B' := 1) (e' := 8) le_rfl (by norm_num)
  have slv : Dbl.sin (Dbl.atan (fin tl)) = fin (Real.sin (Real.arctan tl)) := by rw [atan_fin, sin_fin]
  have T1 : 1 ≤ √(1 + tl ^ 2) := Real.one_le_sqrt.2 (by nlinarith [sq_nonneg tl])
  generalize √(1 + tl ^ 2) = T at *
  obtain ⟨gK, vK⟩ := cosLambda_ap h TT T0 gt lv
  have u0 : Ap 0 1 (fin ph) (fin ph) |ph| 0 := Ap.unit le_rfl
  have gc : Ap 0 1 (fin (lm.cos ph)) (fin (Real.cos ph)) 1 3 := (Ap.cos hl u0).mono le_rfl (by norm_num)
  have gs : Ap 0 1 (fin (lm.sin ph)) (fin (Real.sin ph)) 1 3 := (Ap.sin hl u0).mono le_rfl (by norm_num)
  have hD : Real.sin (Real.arctan tl) ^ 2 + (1 / T) ^ 2 = 1 := by
    rw [← cT]
    exact Real.sin_sq_add_cos_sq _
  obtain ⟨r00, r01, r03, r04, r13, r14, r23, r24, r33, r44⟩ := perigee_core h gc gs (Real.cos_sq_add_sin_sq ph) gt gK vK sl slv hD T0 T1 hH go gb rfl rfl rfl rfl rfl rfl
    rfl rfl rfl rfl rfl rfl rfl rfl rfl rfl rfl rfl rfl rfl rfl rfl rfl rfl
  have one' : Ap 0 1 (-1 : Dbl) (-1) 1 (2 ^ 15 - 40) := one_ap.neg.mono le_rfl (by norm_num)
  have fit : ∀ {l : ℕ} {S q : ℝ} {a a' : Dbl}, Ap l S a a' 1 (2 ^ 15 - 40) → l ≤ 300 → S = q → ∃ l ≤ 300, Ap l q a a' 1 (2 ^ 15 - 40) :=
    fun w w1 w2 => ⟨_, w1, w2 ▸ w⟩
  fin_cases i <;> fin_cases j
  · exact Or.inr (fit r00 (by norm_num) (by simp [curvCol]; field_simp))
  · exact Or.inr (fit r01 (by norm_num) (by simp [curvCol]; field_simp; simp))
  · exact Or.inl ⟨zero_eq, zero_eq⟩
  · exact Or.inr (fit r03 (by norm_num) (by simp [curvCol]; field_simp))
  · exact Or.inr (fit r04 (by norm_num) (by simp [curvCol]; field_simp))
  · exact Or.inl ⟨zero_eq, zero_eq⟩
  · exact Or.inr (fit one' (by norm_num) (by simp [curvCol]))
  · exact Or.inl ⟨zero_eq, zero_eq⟩
  · exact Or.inr (fit r13 (by norm_num) (by simp [curvCol]; field_simp))
  · exact Or.inr (fit r14 (by norm_num) (by simp [curvCol]; field_simp))
  · exact Or.inl ⟨zero_eq, zero_eq⟩
  · exact Or.inl ⟨zero_eq, zero_eq⟩
  · exact Or.inl ⟨zero_eq, zero_eq⟩
  · exact Or.inr (fit r23 (by norm_num) (by simp [curvCol]; field_simp))
  · exact Or.inr (fit r24 (by norm_num) (by simp [curvCol]; field_simp))
  · exact Or.inl ⟨zero_eq, zero_eq⟩
  · exact Or.inl ⟨zero_eq, zero_eq⟩
  · exact Or.inl ⟨zero_eq, zero_eq⟩
  · exact Or.inr (fit r33 (by norm_num) (by simp [curvCol]; field_simp))
  · exact Or.inl ⟨zero_eq, zero_eq⟩
  · exact Or.inl ⟨zero_eq, zero_eq⟩
  · exact Or.inl ⟨zero_eq, zero_eq⟩
  · exact Or.inl ⟨zero_eq, zero_eq⟩
  · exact Or.inl ⟨zero_eq, zero_eq⟩
  · exact Or.inr (fit r44 (by norm_num) (by simp [curvCol]; field_simp))

/-- C150, where it holds: for slopes up to 100, every entry differs from the exact one by at most 2^-38 in the units of its row and column, whatever
the order of the sums in the product of the two matrices.  Missing for C150: steeper tracks, see `C150_false`. -/
theorem C150_partial (h : NearestF 53 1074 fl) (hl : IsLibm lm) (ha : IsAtan atn) (ht : IsTan tn) (hm : IsProduct fl mm) (hr : ConvRange om tl b) (i j : Fin 5) :
    ∃ r x, Rnd.curvilinearToL3Jacobian fl lm atn tn mm (hpR om tl ph d z) (V3.of b) i j = fin r ∧
      Verif.curvilinearToL3Jacobian (hpR om tl ph d z) (V3.of b) i j = fin x ∧
      |r - x| ≤ 1 / 2 ^ 38 * (l3Row om tl i / curvCol om b j) ∧ |x| ≤ l3Row om tl i / curvCol om b j := by
  have op : 0 < |om| := lt_of_lt_of_le (by positivity) hr.o0
  have bp : 0 < √(dot b b) := lt_of_lt_of_le (by positivity) hr.b0
  have k0 := kBr_pos
  have T0 : 0 < √(1 + tl ^ 2) := Real.sqrt_pos.2 (by positivity)
  have P := perigee_ap (ph := ph) (d := d) (z := z) h hl ha ht hr
  have q0 : ∀ i j, 0 ≤ l3Row om tl i / curvCol om b j := by
    intro i j
    refine div_nonneg ?_ ?_
    · fin_cases i <;> (simp [l3Row]; try positivity)
    · fin_cases j <;> (simp [curvCol]; try positivity)
  have fin1 : ∀ i j, ∃ y, Rnd.curvilinearToPerigeeJacobian fl lm atn tn (hpR om tl ph d z) (V3.of b) i j = fin y := by
    intro i j
    rcases P i j with ⟨e, -⟩ | ⟨l, -, w⟩
    · exact ⟨_, e⟩
    · obtain ⟨r, -, e, -⟩ := w.val
      exact ⟨r, e⟩
  have fin2 : ∀ i j, ∃ y, Verif.curvilinearToPerigeeJacobian (hpR om tl ph d z) (V3.of b) i j = fin y := by
    intro i j
    rcases P i j with ⟨-, e⟩ | ⟨l, -, w⟩
    · exact ⟨_, e⟩
    · obtain ⟨-, x, -, e, -⟩ := w.val
      exact ⟨x, e⟩
  -- the diagonal matrix
  have TT : √(1 + tl ^ 2) * √(1 + tl ^ 2) = 1 + tl * tl := by
    rw [Real.mul_self_sqrt (by positivity)]
    ring
  have T1 : 1 ≤ √(1 + tl ^ 2) := Real.one_le_sqrt.2 (by nlinarith [sq_nonneg tl])
  have T2 : √(1 + tl ^ 2) ≤ 2 ^ 7 := by
    refine Real.sqrt_le_iff.2 ⟨by norm_num, ?_⟩
    have := sq_le_sq' (by linarith [(abs_le.1 hr.tl).1]) (abs_le.1 hr.tl).2
    norm_num at this ⊢
    linarith
  have D1 : Ap 14 (√(1 + tl ^ 2) ^ 2) (mulD fl (-1) (addD fl 1 (mulD fl (fin tl) (fin tl)))) (-1 * (1 + fin tl * fin tl)) 1 4 := by
    have lo : 1 / 2 ^ 7 ≤ √(1 + tl ^ 2) := le_trans (by norm_num) T1
    have gt : Ap 7 √(1 + tl ^ 2) (fin tl) (fin tl) 1 0 := Ap.given lo T2 (by
      rw [one_mul]
      exact abs_le_of_sq_le_sq (by rw [Real.sq_sqrt (by positivity)]; linarith) T0.le)
    have a1 := (Ap.mul h gt gt (by norm_num) (by norm_num) (by norm_num) (by norm_num)).mono (B' := 1) (e' := 11 / 10) (by norm_num) (by norm_num)
    have a0 : Ap 14 (√(1 + tl ^ 2) * √(1 + tl ^ 2)) 1 1 1 0 := by
      rw [one_eq]
      exact Ap.given a1.lo a1.hi (by rw [abs_one]; nlinarith)
    have a2 := (Ap.addB h a0 a1 (D := 1) (by
      intro x e
      rw [one_eq, fin_mul, fin_add, ← TT] at e
      injection e with e
      rw [← e, one_mul, abs_of_pos (by positivity)]) (by norm_num) (by norm_num) (by norm_num)).mono (B' := 1) (e' := 5 / 2) le_rfl (by norm_num)
    have a3 := (Ap.mulr h one_ap.neg a2 (by norm_num) (by norm_num) (by norm_num) (by norm_num)).mono (B' := 1) (e' := 4) (by norm_num) (by norm_num)
    rw [← pow_two] at a3
    exact a3
  have one4 : Ap 0 1 (1 : Dbl) 1 1 4 := one_ap.mono le_rfl (by norm_num)
  have mone4 : Ap 0 1 (-1 : Dbl) (-1) 1 4 := one4.neg
  have D : ∃ k ≤ 14, Ap k ((![1, √(1 + tl ^ 2) ^ 2, 1, 1, 1] : Fin 5 → ℝ) i) (Rnd.perigeeToL3Jacobian fl (hpR om tl ph d z) i i)
      (Verif.perigeeToL3Jacobian (hpR om tl ph d z) i i) 1 4 := by
    fin_cases i
    · exact ⟨0, by norm_num, mone4⟩
    · exact ⟨14, by norm_num, D1⟩
    · exact ⟨0, by norm_num, one4⟩
    · exact ⟨0, by norm_num, mone4⟩
    · exact ⟨0, by norm_num, one4⟩
  have o1 : ∀ i k, k ≠ i → Rnd.perigeeToL3Jacobian fl (hpR om tl ph d z) i k = fin 0 := by
    intro i k hk
    fin_cases i <;> fin_cases k <;> first | exact absurd rfl hk | exact zero_eq
  have o2 : ∀ i k, k ≠ i → Verif.perigeeToL3Jacobian (hpR om tl ph d z) i k = fin 0 := by
    intro i k hk
    fin_cases i <;> fin_cases k <;> first | exact absurd rfl hk | exact zero_eq
  obtain ⟨k, hk, D⟩ := D
  rcases P i j with ⟨e1, e2⟩ | ⟨l, hl', w⟩
  · obtain ⟨r, x, f1, f2, -⟩ := D.val
    refine ⟨0, 0, product_diag h hm o1 (fun k => fin1 k j) ?_, mul_diag o2 (fun k => fin2 k j) i ?_, ?_, ?_⟩
    · rw [e1, f1, mulD, fin_mul, mul_zero, rnd_zero h]
    · rw [e2, f2, fin_mul, mul_zero]
    · rw [sub_zero, abs_zero]
      exact mul_nonneg (by norm_num) (q0 i j)
    · rw [abs_zero]
      exact q0 i j
  · have sc : (![1, √(1 + tl ^ 2) ^ 2, 1, 1, 1] : Fin 5 → ℝ) i *
        ((![|om| * √(1 + tl ^ 2), 1, √(1 + tl ^ 2), 1 / |om|, √(1 + tl ^ 2) / |om|] : Fin 5 → ℝ) i / curvCol om b j) = l3Row om tl i / curvCol om b j := by
      rw [← mul_div_assoc]
      congr 1
      fin_cases i <;> simp [l3Row]
    obtain ⟨r, x, g1, g2, g3, g4⟩ := entry_near h D w (by omega) sc
    exact ⟨r, x, product_diag h hm o1 (fun k => fin1 k j) g1, mul_diag o2 (fun k => fin2 k j) i g2, g3, g4⟩

/-- the transformations between perigee parameters and track parameters: relative errors of at most 2^-50 -/
theorem C150_perigee_partial (h : NearestF 53 1074 fl) (ht : |tl| ≤ 2 ^ 100) (i j : Fin 5) :
    (∃ r x, Rnd.perigeeToL3Jacobian fl (hpR om tl ph d z) i j = fin r ∧ Verif.perigeeToL3Jacobian (hpR om tl ph d z) i j = fin x ∧ |r - x| ≤ 1 / 2 ^ 50 * |x|) ∧
    ∃ r x, Rnd.L3ToPerigeeJacobian fl (hpR om tl ph d z) i j = fin r ∧ Verif.L3ToPerigeeJacobian (hpR om tl ph d z) i j = fin x ∧ |r - x| ≤ 1 / 2 ^ 50 * |x| := by
  have T0 : 0 < √(1 + tl ^ 2) := Real.sqrt_pos.2 (by positivity)
  have TT : √(1 + tl ^ 2) * √(1 + tl ^ 2) = 1 + tl * tl := by
    rw [Real.mul_self_sqrt (by positivity)]
    ring
  have T1 : 1 ≤ √(1 + tl ^ 2) := Real.one_le_sqrt.2 (by nlinarith [sq_nonneg tl])
  have T2 : √(1 + tl ^ 2) ≤ 2 ^ 101 := by
    refine Real.sqrt_le_iff.2 ⟨by norm_num, ?_⟩
    have := mul_self_le_mul_self (abs_nonneg tl) ht
    rw [abs_mul_abs_self] at this
    norm_num at this ⊢
    linarith
  have tT : |tl| ≤ √(1 + tl ^ 2) := abs_le_of_sq_le_sq (by rw [Real.sq_sqrt (by positivity)]; linarith) T0.le
  generalize √(1 + tl ^ 2) = T at *
  have lo : 1 / 2 ^ 101 ≤ T := le_trans (by norm_num) T1
  have gt : Ap 101 T (fin tl) (fin tl) 1 0 := Ap.given lo T2 (by rwa [one_mul])
  have a1 := (Ap.mul h gt gt (by norm_num) (by norm_num) (by norm_num) (by norm_num)).mono (B' := 1) (e' := 11 / 10) (by norm_num) (by norm_num)
  have a0 : Ap 202 (T * T) 1 1 1 0 := by
    rw [one_eq]
    exact Ap.given a1.lo a1.hi (by rw [abs_one]; nlinarith)
  have v : 1 + fin tl * fin tl = fin (T * T) := by rw [one_eq, fin_mul, fin_add, ← TT]
  have a2 := (Ap.addB h a0 a1 (D := 1) (by
    intro x e
    rw [v] at e
    injection e with e
    rw [← e, one_mul, abs_of_pos (by positivity)]) (by norm_num) (by norm_num) (by norm_num)).mono (B' := 1) (e' := 5 / 2) le_rfl (by norm_num)
  have a3 := (Ap.mulr h one_ap.neg a2 (by norm_num) (by norm_num) (by norm_num) (by norm_num)).mono (B' := 1) (e' := 8) (by norm_num) (by norm_num)
  have a4 := (Ap.divr h one_ap.neg a2 v (le_abs_self _) (by norm_num) (by norm_num) (by norm_num) (by norm_num)).mono (B' := 1) (e' := 8) (by norm_num) (by norm_num)
  have same : ∀ {a : Dbl} {x : ℝ}, a = fin x → ∃ r x, a = fin r ∧ a = fin x ∧ |r - x| ≤ 1 / 2 ^ 50 * |x| := by
    intro a x e
    refine ⟨x, x, e, e, ?_⟩
    rw [sub_self, abs_zero]
    positivity
  have m1 : (-1 : Dbl) = fin (-1) := by rw [one_eq, fin_neg]
  constructor
  · fin_cases i <;> fin_cases j <;> first
      | exact same zero_eq
      | exact same m1
      | exact same one_eq
      | skip
    obtain ⟨r, x, e1, e2, e3, -⟩ := a3.val
    refine ⟨r, x, e1, e2, e3.trans (le_of_eq ?_)⟩
    rw [v, m1, fin_mul] at e2
    injection e2 with e2
    rw [← e2, abs_mul, abs_neg, abs_one, one_mul, abs_of_pos (by positivity)]
    ring
  · fin_cases i <;> fin_cases j <;> first
      | exact same zero_eq
      | exact same m1
      | exact same one_eq
      | skip
    obtain ⟨r, x, e1, e2, e3, -⟩ := a4.val
    refine ⟨r, x, e1, e2, e3.trans (le_of_eq ?_)⟩
    rw [v, m1, fin_div _ (by positivity)] at e2
    injection e2 with e2
    rw [← e2, abs_div, abs_neg, abs_one, abs_of_pos (show 0 < T * T by positivity)]
    ring

/-- hypotheses of `C150_partial`: a track with slope 3/4 and radius 100 in a field of 3.5 T -/
example : ConvRange (1 / 100) (3 / 4) ![0, 0, 7 / 2] := by
  have c : √(dot ![0, 0, 7 / 2] ![0, 0, 7 / 2]) = 7 / 2 := by
    rw [show dot ![0, 0, 7 / 2] ![0, 0, 7 / 2] = (7 / 2 : ℝ) ^ 2 by simp [dot]; norm_num, Real.sqrt_sq (by norm_num)]
  refine ⟨by norm_num, by norm_num, by norm_num, by rw [c]; norm_num, by rw [c]; norm_num⟩

theorem conv_val (h : NearestF 53 1074 fl) : ∃ c, convD fl = fin c ∧ kBr / 2 ≤ c ∧ c ≤ 2 * kBr := by
  have k0 := kBr_pos
  obtain ⟨r, x, e1, e2, e3, -⟩ := (conv_ap h).val
  rw [convert_eq] at e2
  injection e2 with e2
  subst e2
  have : 301 / 100 * (kBr * (1 / 2 ^ 53)) ≤ kBr / 2 := by
    rw [show 301 / 100 * (kBr * (1 / 2 ^ 53)) = kBr * (301 / 100 * (1 / 2 ^ 53)) by ring, div_eq_mul_inv]
    exact mul_le_mul_of_nonneg_left (by norm_num) k0.le
  obtain ⟨k1, k2⟩ := abs_le.1 (e3.trans this)
  exact ⟨r, e1, by linarith, by linarith⟩

/-- C150 is false in general: for a track with the slope 2^80 the change of the curvature with the charge over momentum is computed too small, by a
factor of more than 1000, by every library with results of type `double` (they stay 2^-54 away from π/2), for all other parameters. -/
theorem C150_false (h : NearestF 53 1074 fl) (ha : IsAtan atn) (hr : ∀ x, RepF 53 1074 (atn x)) (ht : IsTan tn) (hm : IsProduct fl mm) :
    ∃ r x, Rnd.curvilinearToL3Jacobian fl lm atn tn mm (hpR om (2 ^ 80) ph d z) (V3.of ![0, 0, 1]) 0 0 = fin r ∧
      Verif.curvilinearToL3Jacobian (hpR om (2 ^ 80) ph d z) (V3.of ![0, 0, 1]) 0 0 = fin x ∧ 0 < x ∧ |r| < x / 1000 := by
  have k0 := kBr_pos
  obtain ⟨c1, -⟩ := steep_atan ha hr
  have tt : |tn (atn (2 ^ 80))| ≤ 2 ^ 56 := by
    have e := ht (atn (2 ^ 80))
    have tiny : (1 : ℝ) / 2 ^ 1074 ≤ 1 := by
      rw [div_le_one (by positivity)]
      exact one_le_pow₀ (by norm_num)
    generalize (1 : ℝ) / 2 ^ 1074 = q at *
    have c0 : 0 < |Real.cos (atn (2 ^ 80))| := lt_of_lt_of_le (by positivity) c1
    have t1 : |Real.tan (atn (2 ^ 80))| ≤ 2 ^ 55 := by
      rw [Real.tan_eq_sin_div_cos, abs_div, div_le_iff₀ c0]
      have := Real.abs_sin_le_one (atn (2 ^ 80))
      have k := mul_le_mul_of_nonneg_left c1 (show (0 : ℝ) ≤ 2 ^ 55 by positivity)
      rw [show (2 : ℝ) ^ 55 * (1 / 2 ^ 55) = 1 by norm_num] at k
      exact this.trans k
    generalize Real.tan (atn (2 ^ 80)) = y at *
    generalize tn (atn (2 ^ 80)) = w at *
    have k := abs_add_le (w - y) y
    rw [sub_add_cancel] at k
    clear c1 c0
    have : |y| / 2 ^ 52 ≤ 8 := by
      rw [div_le_iff₀ (by positivity)]
      exact t1.trans (by norm_num)
    have : (2 : ℝ) ^ 55 + 9 ≤ 2 ^ 56 := by norm_num
    linarith
  obtain ⟨K, eK, K1, K2⟩ := cosLambda_flat h tt
  obtain ⟨c, ec, c2, c3⟩ := conv_val h
  have K0 : 0 < K := lt_of_lt_of_le (by positivity) K1
  have kb : kBr ≤ 1 := by norm_num [kBr]
  have kl : 1 / 2 ^ 100 ≤ kBr := by norm_num [kBr]
  have w : ∀ {x : ℝ}, |x| ≤ 2 ^ 120 → |x| ≤ 2 ^ 500 := fun k => k.trans (pow_le_pow_right₀ (by norm_num) (by norm_num))
  -- the computed entry
  have n1 : mulD fl (-fin 1) (fin c) = fin (fl (-c)) := by
    rw [mulD, fin_neg, fin_mul, show (-1 : ℝ) * c = -c by ring]
    exact rnd_mid h (w (by rw [abs_neg, abs_of_pos (by linarith)]; norm_num; linarith))
  have b1 : |fl (-c)| ≤ 4 * kBr := by
    have := h.double (-c)
    rw [abs_neg, abs_of_pos (show 0 < c by linarith)] at this
    linarith
  generalize fl (-c) = n at *
  have b2 : |n / K| ≤ 2 ^ 64 * kBr := by
    rw [abs_div, abs_of_pos K0, div_le_iff₀ K0]
    have := mul_le_mul_of_nonneg_left K1 (show 0 ≤ 2 ^ 64 * kBr by positivity)
    refine b1.trans (le_trans (le_of_eq ?_) this)
    ring
  have n2 : divD fl (fin n) (fin K) = fin (fl (n / K)) := by
    rw [divD, fin_div _ K0.ne']
    refine rnd_mid h (w (b2.trans ?_))
    norm_num
    linarith
  have b3 : |fl (n / K)| ≤ 2 ^ 65 * kBr := by
    have := h.double (n / K)
    norm_num at b2 ⊢
    linarith
  generalize fl (n / K) = m at *
  have n3 : mulD fl (-1) (fin m) = fin (fl (-m)) := by
    rw [mulD, one_eq, fin_neg, fin_mul, show (-1 : ℝ) * m = -m by ring]
    refine rnd_mid h (w ?_)
    rw [abs_neg]
    refine b3.trans ?_
    norm_num
    linarith
  have b4 : |fl (-m)| ≤ 2 ^ 66 * kBr := by
    have := h.double (-m)
    rw [abs_neg] at this
    norm_num at b3 ⊢
    linarith
  -- the exact entry
  have T1 : (2 : ℝ) ^ 80 ≤ √(1 + 2 ^ 80 * 2 ^ 80) := Real.le_sqrt_of_sq_le (by norm_num)
  have T0 : 0 < √(1 + (2 : ℝ) ^ 80 * 2 ^ 80) := lt_of_lt_of_le (by positivity) T1
  have o1 : ∀ i k, k ≠ i → Rnd.perigeeToL3Jacobian fl (hpR om (2 ^ 80) ph d z) i k = fin 0 := by
    intro i k hk
    fin_cases i <;> fin_cases k <;> first | exact absurd rfl hk | exact zero_eq
  have o2 : ∀ i k, k ≠ i → Verif.perigeeToL3Jacobian (hpR om (2 ^ 80) ph d z) i k = fin 0 := by
    intro i k hk
    fin_cases i <;> fin_cases k <;> first | exact absurd rfl hk | exact zero_eq
  have p0 : Rnd.curvilinearToPerigeeJacobian fl lm atn tn (hpR om (2 ^ 80) ph d z) (V3.of ![0, 0, 1]) 0 0 = fin m := by
    change divD fl (mulD fl (-fin 1) (convD fl)) (divD fl 1 (sqrtD fl (addD fl 1 (mulD fl (fin (tn (atn (2 ^ 80)))) (fin (tn (atn (2 ^ 80)))))))) = _
    rw [eK, ec, n1, n2]
  have q0 : Verif.curvilinearToPerigeeJacobian (hpR om (2 ^ 80) ph d z) (V3.of ![0, 0, 1]) 0 0 = fin (-(kBr * √(1 + 2 ^ 80 * 2 ^ 80))) := by
    change -fin 1 * convertBr2P_cm / (1 / Dbl.sqrt (1 + Dbl.tan (Dbl.atan (fin (2 ^ 80))) * Dbl.tan (Dbl.atan (fin (2 ^ 80))))) = _
    have lv : Dbl.tan (Dbl.atan (fin (2 ^ 80))) = fin (2 ^ 80) := by rw [atan_fin, tan_fin (Real.cos_arctan_pos _).ne', Real.tan_arctan]
    rw [lv, one_eq, fin_mul, fin_add, sqrt_fin (by positivity), fin_div _ T0.ne', convert_eq, fin_neg, fin_mul, fin_div _ (by positivity)]
    congr 1
    field_simp
  refine ⟨fl (-m), kBr * √(1 + 2 ^ 80 * 2 ^ 80), product_diag h hm o1 ?_ ?_, mul_diag o2 ?_ 0 ?_, by positivity, ?_⟩
  · intro k
    fin_cases k
    · exact ⟨_, p0⟩
    all_goals exact ⟨0, zero_eq⟩
  · rw [p0]
    exact n3
  · intro k
    fin_cases k
    · exact ⟨_, q0⟩
    all_goals exact ⟨0, zero_eq⟩
  · rw [q0]
    change (-1 : Dbl) * _ = _
    rw [one_eq, fin_neg, fin_mul]
    congr 1
    ring
  · refine lt_of_le_of_lt b4 ?_
    have := mul_le_mul_of_nonneg_left T1 k0.le
    norm_num at this ⊢
    linarith

/-- a library with results of type `double` and a product of matrices, as in the hypotheses of C150 -/
theorem exists_library (h : NearestF 53 1074 fl) : ∃ atn tn mm, IsAtan atn ∧ (∀ x, RepF 53 1074 (atn x)) ∧ IsTan tn ∧ IsProduct fl mm := by
  have near : ∀ y : ℝ, |fl y - y| ≤ |y| / 2 ^ 52 + 1 / 2 ^ 1074 := by
    intro y
    refine (h.err (by norm_num) y).trans (add_le_add ?_ ?_)
    · exact div_le_div_of_nonneg_left (abs_nonneg _) (by positivity) (by norm_num)
    · exact one_div_le_one_div_of_le (by positivity) (pow_le_pow_right₀ (by norm_num) (by norm_num))
  refine ⟨fun x => fl (Real.arctan x), fun x => fl (Real.tan x), fun a b i j => addD fl (addD fl (addD fl (addD fl (mulD fl (a i 0) (b 0 j))
    (mulD fl (a i 1) (b 1 j))) (mulD fl (a i 2) (b 2 j))) (mulD fl (a i 3) (b 3 j))) (mulD fl (a i 4) (b 4 j)),
    fun x => near _, fun x => h.rep _, fun x => near _, fun a b i j => ?_⟩
  have := SumOf.add (SumOf.add (SumOf.add (SumOf.add (SumOf.one (fl := fl) (mulD fl (a i 0) (b 0 j))) (SumOf.one (mulD fl (a i 1) (b 1 j))))
    (SumOf.one (mulD fl (a i 2) (b 2 j)))) (SumOf.one (mulD fl (a i 3) (b 3 j)))) (SumOf.one (mulD fl (a i 4) (b 4 j)))
  exact this

end Verif
