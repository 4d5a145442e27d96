import Verif.Props.UnitTests
import Verif.Props.RoundedLcioNear

/-!
# Comparison of numbers in the unit tests, and the test of matrices: C125, C126
-/

open Classical

noncomputable section

namespace Verif

open Dbl Rnd UT

variable {fl sl : ℝ → ℝ}

theorem inf_sub_inf (s t : Bool) : inf s - inf t = if s = !t then inf s else nan := rfl

/-- the tolerance -/
theorem tolerance (h : NearestF 53 1074 fl) : ∃ τ, rnd fl 1024 (fin (1 / 10 ^ 9)) = fin τ ∧ 99 / 10 ^ 11 ≤ τ ∧ τ ≤ 101 / 10 ^ 11 := by
  obtain ⟨d, h1, h2⟩ := rel_double h (t := 1 / 10 ^ 9) (Or.inr (by
    rw [abs_of_pos (by norm_num)]
    refine le_trans ?_ (by norm_num : (1 / 2 ^ 40 : ℝ) ≤ 1 / 10 ^ 9)
    exact one_div_le_one_div_of_le (by positivity) (pow_le_pow_right₀ (by norm_num) (by norm_num))))
  refine ⟨_, rnd_double h ?_, ?_⟩
  · rw [abs_of_pos (by norm_num)]
    exact le_trans (by norm_num) (one_le_pow₀ (by norm_num : (1 : ℝ) ≤ 2))
  · rw [h2]
    obtain ⟨a1, a2⟩ := unit_bounds h1
    constructor
    · have : (1 : ℝ) / 10 ^ 9 * (1 - 1 / 9007199254740992) ≤ 1 / 10 ^ 9 * (1 + d) := mul_le_mul_of_nonneg_left (by linarith) (by norm_num)
      exact le_trans (by norm_num) this
    · have : (1 : ℝ) / 10 ^ 9 * (1 + d) ≤ 1 / 10 ^ 9 * (1 + 1 / 9007199254740992) := mul_le_mul_of_nonneg_left (by linarith) (by norm_num)
      exact le_trans this (by norm_num)

theorem err_float (h : NearestF 24 149 sl) (t : ℝ) : |sl t - t| ≤ |t| / 2 ^ 24 + 1 / 2 ^ 150 := h.err (by norm_num) t

theorem tiny150 : (1 : ℝ) / 2 ^ 150 ≤ 1 / 10 ^ 40 := by norm_num

/-- conversion to `float` below the overflow -/
theorem toFloat_ok (h : NearestF 24 149 sl) {x : ℝ} (hx : |x| ≤ 2 ^ 127) : toFloat sl (fin x) = fin (sl x) := by
  have h1 := err_float h x
  have h2 := tiny150
  have h3 : |sl x| ≤ |sl x - x| + |x| := by
    have := abs_add_le (sl x - x) x
    rwa [sub_add_cancel] at this
  have h4 : |sl x| < 2 ^ 128 := by
    norm_num at h1 h2 hx ⊢
    linarith
  show (if |sl x| < 2 ^ 128 then fin (sl x) else _) = _
  rw [if_pos h4]

/-- C125: a finite number is equal to itself. -/
theorem C125_equal (h : NearestF 53 1074 fl) (h' : NearestF 24 149 sl) {x : ℝ} (hx : |x| ≤ 2 ^ 127) :
    floatCompare fl sl (fin x) (fin x) = true := by
  obtain ⟨τ, t1, t2, t3⟩ := tolerance h
  have z : rnd sl 128 (fin 0) = fin 0 := by
    show (if |sl 0| < 2 ^ 128 then fin (sl 0) else _) = _
    rw [h'.fix repF_zero, if_pos (by rw [_root_.abs_zero]; positivity)]
  rw [floatCompare, toFloat_ok h' hx, subF, fin_sub, sub_self, z, t1, abs_fin, fin_lt, _root_.abs_zero, decide_eq_true_eq]
  exact lt_of_lt_of_le (by norm_num) t2

/-- C125 (soundness): numbers that are accepted differ by at most 1.1e-9 plus the resolution of `float`. -/
theorem C125_close (h : NearestF 53 1074 fl) (h' : NearestF 24 149 sl) {x y : ℝ} (hc : floatCompare fl sl (fin x) (fin y) = true) :
    |x - y| ≤ 11 / 10 ^ 10 + (|x| + |y|) / 2 ^ 24 := by
  obtain ⟨τ, t1, t2, t3⟩ := tolerance h
  rw [floatCompare, t1, decide_eq_true_eq] at hc
  have ex : toFloat sl (fin x) = if |sl x| < 2 ^ 128 then fin (sl x) else inf (decide (x < 0)) := rfl
  have ey : toFloat sl (fin y) = if |sl y| < 2 ^ 128 then fin (sl y) else inf (decide (y < 0)) := rfl
  have no : ∀ s, ¬Dbl.abs (subF sl (toFloat sl (fin x)) (inf s)) < fin τ := by
    intro s
    cases toFloat sl (fin x) with
    | nan => simp [subF, rnd]
    | fin a => simp [subF, rnd]
    | inf b => cases s <;> cases b <;> simp [subF, rnd, inf_sub_inf]
  have no' : ∀ s, ¬Dbl.abs (subF sl (inf s) (toFloat sl (fin y))) < fin τ := by
    intro s
    cases toFloat sl (fin y) with
    | nan => simp [subF, rnd]
    | fin a => simp [subF, rnd]
    | inf b => cases s <;> cases b <;> simp [subF, rnd, inf_sub_inf]
  by_cases hx : |sl x| < 2 ^ 128
  swap
  · rw [if_neg hx] at ex
    rw [ex] at hc
    exact absurd hc (no' _)
  by_cases hy : |sl y| < 2 ^ 128
  swap
  · rw [if_neg hy] at ey
    rw [ey] at hc
    exact absurd hc (no _)
  rw [if_pos hx] at ex
  rw [if_pos hy] at ey
  rw [ex, ey, subF, fin_sub] at hc
  have ed : rnd sl 128 (fin (sl x - sl y)) =
      if |sl (sl x - sl y)| < 2 ^ 128 then fin (sl (sl x - sl y)) else inf (decide (sl x - sl y < 0)) := rfl
  by_cases hd : |sl (sl x - sl y)| < 2 ^ 128
  swap
  · rw [if_neg hd] at ed
    rw [ed] at hc
    simp at hc
  rw [if_pos hd] at ed
  rw [ed, abs_fin, fin_lt] at hc
  have e1 := err_float h' x
  have e2 := err_float h' y
  have e3 := err_float h' (sl x - sl y)
  have e4 := tiny150
  have f1 : |sl x - sl y| ≤ |sl (sl x - sl y) - (sl x - sl y)| + |sl (sl x - sl y)| := by
    have := abs_sub_abs_le_abs_sub (sl x - sl y) (sl (sl x - sl y))
    rw [abs_sub_comm (sl x - sl y) (sl (sl x - sl y))] at this
    linarith
  have f2 : |x - y| ≤ |sl x - x| + |sl y - y| + |sl x - sl y| := by
    have g1 := abs_add_le (-(sl x - x) + (sl y - y)) (sl x - sl y)
    have g2 := abs_add_le (-(sl x - x)) (sl y - y)
    rw [_root_.abs_neg] at g2
    rw [show -(sl x - x) + (sl y - y) + (sl x - sl y) = x - y by ring] at g1
    linarith
  clear ex ey ed no no' hx hy hd
  have k : ∀ t : ℝ, t / 2 ^ 24 = t * (1 / 16777216) := fun t => by norm_num [div_eq_mul_inv]
  rw [k] at e1 e2 e3 ⊢
  generalize (1 : ℝ) / 2 ^ 150 = η at *
  norm_num at e4 t3 ⊢
  linarith

/-- C125, for arguments that are numbers of type `float`: accepted if the difference is at most 0.9e-9, rejected if it is 1.1e-9 or
more.  Missing: other arguments, which are converted before (C125_far_false, C125_near_false). -/
theorem C125_floats_partial (h : NearestF 53 1074 fl) (h' : NearestF 24 149 sl) {x y : ℝ} (hx : RepF 24 149 x) (hy : RepF 24 149 y)
    (hx' : |x| ≤ 2 ^ 126) (hy' : |y| ≤ 2 ^ 126) :
    (|x - y| ≤ 9 / 10 ^ 10 → floatCompare fl sl (fin x) (fin y) = true) ∧
    (11 / 10 ^ 10 ≤ |x - y| → floatCompare fl sl (fin x) (fin y) = false) := by
  obtain ⟨τ, t1, t2, t3⟩ := tolerance h
  have e1 := err_float h' (x - y)
  have e4 := tiny150
  have hxy : |x - y| ≤ |x| + |y| := by
    have := abs_add_le x (-y)
    rwa [_root_.abs_neg, ← sub_eq_add_neg] at this
  have p127 : (2 : ℝ) ^ 127 = 2 ^ 126 + 2 ^ 126 := by rw [pow_succ]; ring
  have b1 : |x - y| ≤ 2 ^ 127 := by rw [p127]; linarith
  have b2 : |x| ≤ 2 ^ 127 := hx'.trans (pow_le_pow_right₀ (by norm_num) (by norm_num))
  have b3 : |y| ≤ 2 ^ 127 := hy'.trans (pow_le_pow_right₀ (by norm_num) (by norm_num))
  have e : floatCompare fl sl (fin x) (fin y) = decide (|sl (x - y)| < τ) := by
    have := toFloat_ok h' b1
    rw [floatCompare, t1, toFloat_ok h' b2, toFloat_ok h' b3, h'.fix hx, h'.fix hy, subF, fin_sub]
    rw [toFloat] at this
    rw [this, abs_fin]
    simp only [fin_lt]
  have f1 : |x - y| ≤ |sl (x - y) - (x - y)| + |sl (x - y)| := by
    have := abs_sub_abs_le_abs_sub (x - y) (sl (x - y))
    rw [abs_sub_comm (x - y) (sl (x - y))] at this
    linarith
  have f2 : |sl (x - y)| ≤ |sl (x - y) - (x - y)| + |x - y| := by
    have := abs_add_le (sl (x - y) - (x - y)) (x - y)
    rwa [sub_add_cancel] at this
  have k : ∀ t : ℝ, t / 2 ^ 24 = t * (1 / 16777216) := fun t => by norm_num [div_eq_mul_inv]
  rw [k] at e1
  clear b1 b2 b3 p127 hx' hy'
  generalize (1 : ℝ) / 2 ^ 150 = η at *
  rw [e]
  norm_num at e4 t2 t3 ⊢
  constructor <;> intro hd
  · linarith
  · linarith

/-- C125 is false as stated: numbers that differ by 1 are accepted, because both become the same `float`. -/
theorem C125_far_false (h : NearestF 53 1074 fl) (h' : NearestF 24 149 sl) :
    floatCompare fl sl (fin (2 ^ 30)) (fin (2 ^ 30 + 1)) = true := by
  have r : RepF 24 149 (2 ^ 30) := ⟨1, 179, by norm_num, by rw [Int.cast_one, one_mul, ← pow_add]⟩
  have e : sl (2 ^ 30 + 1) = 2 ^ 30 := by
    refine h'.back r ?_
    norm_num
  have b1 : |(2 : ℝ) ^ 30| ≤ 2 ^ 127 := by norm_num
  have b2 : |(2 : ℝ) ^ 30 + 1| ≤ 2 ^ 127 := by norm_num
  have c := C125_equal h h' b1
  rw [floatCompare, toFloat_ok h' b1] at c
  rw [floatCompare, toFloat_ok h' b1, toFloat_ok h' b2, e]
  rwa [h'.fix r] at c ⊢

/-- the numbers of type `float` between 1 and 1 + 2^-23 -/
theorem floats_at_one {v : ℝ} (h : RepF 24 149 v) (h1 : 1 ≤ v) (h2 : v ≤ 1 + 1 / 2 ^ 23) : v = 1 ∨ v = 1 + 1 / 2 ^ 23 := by
  obtain ⟨m, e, hm, hv⟩ := h
  have hm' : (m : ℝ) ≤ 2 ^ 24 := by
    have := (abs_le.1 hm).2
    exact_mod_cast this
  have he : 125 ≤ e := by
    by_contra hlt
    have h3 : (2 : ℝ) ^ e ≤ 2 ^ 124 := pow_le_pow_right₀ (by norm_num) (by omega)
    have h4 : (2 : ℝ) ^ 149 ≤ v * 2 ^ 149 := le_mul_of_one_le_left (by positivity) h1
    have h5 : (m : ℝ) * 2 ^ e ≤ 2 ^ 24 * 2 ^ 124 := mul_le_mul hm' h3 (by positivity) (by positivity)
    rw [← hv, ← pow_add] at h5
    have h6 : (2 : ℝ) ^ (24 + 124) < 2 ^ 149 := pow_lt_pow_right₀ (by norm_num) (by norm_num)
    linarith
  obtain ⟨j, rfl⟩ := Nat.exists_eq_add_of_le he
  have hv' : v * 2 ^ 24 = m * 2 ^ j := by
    have : v * 2 ^ 24 * 2 ^ 125 = m * 2 ^ j * 2 ^ 125 := by
      rw [mul_assoc, ← pow_add, hv, pow_add]; ring
    exact mul_right_cancel₀ (by positivity) this
  have hi : v * 2 ^ 24 = ((m * 2 ^ j : ℤ) : ℝ) := by rw [hv']; push_cast; rfl
  have lo : (2 : ℤ) ^ 24 ≤ m * 2 ^ j := by
    have : ((2 ^ 24 : ℤ) : ℝ) ≤ ((m * 2 ^ j : ℤ) : ℝ) := by rw [← hi]; push_cast; linarith
    exact_mod_cast this
  have up : m * 2 ^ j ≤ 2 ^ 24 + 2 := by
    have : ((m * 2 ^ j : ℤ) : ℝ) ≤ ((2 ^ 24 + 2 : ℤ) : ℝ) := by rw [← hi]; push_cast; norm_num at h2 ⊢; linarith
    exact_mod_cast this
  have cases : m * 2 ^ j = 2 ^ 24 ∨ m * 2 ^ j = 2 ^ 24 + 2 := by
    cases j with
    | zero =>
      rw [pow_zero, mul_one] at lo up ⊢
      have := (abs_le.1 hm).2
      omega
    | succ j =>
      rw [pow_succ 2 j, ← mul_assoc] at lo up ⊢
      clear hv hv' hi
      generalize m * 2 ^ j = q at lo up ⊢
      omega
  rcases cases with c | c
  · left
    rw [c] at hi
    norm_num at hi
    linarith
  · right
    rw [c] at hi
    norm_num at hi ⊢
    linarith

/-- C125 is false as stated: numbers that differ by less than 2e-12 are rejected, because they become different numbers of type
`float`. -/
theorem C125_near_false : ∃ x y : ℝ, |x - y| ≤ 2 / 10 ^ 12 ∧ ∀ fl sl, NearestF 53 1074 fl → NearestF 24 149 sl →
    floatCompare fl sl (fin x) (fin y) = false := by
  refine ⟨1 + 1 / 2 ^ 24 - 1 / 2 ^ 40, 1 + 1 / 2 ^ 24 + 1 / 2 ^ 40, ?_, fun fl sl h h' => ?_⟩
  · rw [abs_le]; constructor <;> norm_num
  have r1 : RepF 24 149 1 := ⟨1, 149, by norm_num, by norm_num⟩
  have r2 : RepF 24 149 (1 + 1 / 2 ^ 23) := ⟨2 ^ 23 + 1, 126, by norm_num, by norm_num⟩
  have n1 := h'.near (1 + 1 / 2 ^ 24 - 1 / 2 ^ 40) 1 r1
  have n2 := h'.near (1 + 1 / 2 ^ 24 + 1 / 2 ^ 40) (1 + 1 / 2 ^ 23) r2
  have a1 : |(1 : ℝ) - (1 + 1 / 2 ^ 24 - 1 / 2 ^ 40)| = 1 / 2 ^ 24 - 1 / 2 ^ 40 := by
    rw [abs_of_nonpos (by norm_num)]; norm_num
  have a2 : |(1 : ℝ) + 1 / 2 ^ 23 - (1 + 1 / 2 ^ 24 + 1 / 2 ^ 40)| = 1 / 2 ^ 24 - 1 / 2 ^ 40 := by
    rw [abs_of_nonneg (by norm_num)]; norm_num
  rw [a1, abs_le] at n1
  rw [a2, abs_le] at n2
  have s1 : sl (1 + 1 / 2 ^ 24 - 1 / 2 ^ 40) = 1 := by
    rcases floats_at_one (h'.rep (1 + 1 / 2 ^ 24 - 1 / 2 ^ 40)) (by linarith [n1.1]) (by
      have := n1.2
      norm_num at this ⊢
      linarith) with e | e
    · exact e
    · rw [e] at n1
      have := n1.2
      norm_num at this
  have s2 : sl (1 + 1 / 2 ^ 24 + 1 / 2 ^ 40) = 1 + 1 / 2 ^ 23 := by
    rcases floats_at_one (h'.rep (1 + 1 / 2 ^ 24 + 1 / 2 ^ 40)) (by
      have := n2.1
      norm_num at this ⊢
      linarith) (by
      have := n2.2
      norm_num at this ⊢
      linarith) with e | e
    · rw [e] at n2
      have := n2.1
      norm_num at this
    · exact e
  have b1 : |(1 : ℝ) + 1 / 2 ^ 24 - 1 / 2 ^ 40| ≤ 2 ^ 127 := by rw [abs_of_nonneg (by norm_num)]; norm_num
  have b2 : |(1 : ℝ) + 1 / 2 ^ 24 + 1 / 2 ^ 40| ≤ 2 ^ 127 := by rw [abs_of_nonneg (by norm_num)]; norm_num
  have b3 : |(1 : ℝ)| ≤ 2 ^ 126 := by norm_num
  have b4 : |(1 : ℝ) + 1 / 2 ^ 23| ≤ 2 ^ 126 := by rw [abs_of_nonneg (by norm_num)]; norm_num
  have c := (C125_floats_partial h h' r1 r2 b3 b4).2 (by rw [abs_of_nonpos (by norm_num)]; norm_num)
  rw [floatCompare, toFloat_ok h' (b3.trans (by norm_num)), toFloat_ok h' (b4.trans (by norm_num)), h'.fix r1, h'.fix r2] at c
  rw [floatCompare, toFloat_ok h' b1, toFloat_ok h' b2, s1, s2]
  exact c

/-- C125: infinite and undefined numbers are never equal, not even to themselves. -/
theorem C125_nonfinite (h : NearestF 53 1074 fl) (a b : Dbl) (ha : ∀ x, a ≠ fin x) :
    floatCompare fl sl a b = false ∧ floatCompare fl sl b a = false := by
  obtain ⟨τ, t1, t2, t3⟩ := tolerance h
  have key : ∀ c : Dbl, ¬Dbl.abs (subF sl (toFloat sl a) c) < fin τ ∧ ¬Dbl.abs (subF sl c (toFloat sl a)) < fin τ := by
    intro c
    cases a with
    | fin x => exact absurd rfl (ha x)
    | nan => cases c <;> simp [toFloat, subF, rnd]
    | inf s =>
      cases c with
      | nan => simp [toFloat, subF, rnd]
      | fin a => simp [toFloat, subF, rnd]
      | inf b => cases s <;> cases b <;> simp [toFloat, subF, rnd, inf_sub_inf]
  simp only [floatCompare, t1, decide_eq_false_iff_not]
  exact ⟨(key _).1, (key _).2⟩

/-- C125: what is equal is also roughly equal. -/
theorem C125_rough (h : NearestF 53 1074 fl) (a b : Dbl) (hc : floatCompare fl sl a b = true) : roughFloatCompare fl sl a b = true := by
  obtain ⟨τ, t1, t2, t3⟩ := tolerance h
  have t4 : ∃ τ', rnd fl 1024 (fin (1 / 10 ^ 5)) = fin τ' ∧ 101 / 10 ^ 11 ≤ τ' := by
    obtain ⟨d, h1, h2⟩ := rel_double h (t := 1 / 10 ^ 5) (Or.inr (by
      rw [abs_of_pos (by norm_num)]
      refine le_trans ?_ (by norm_num : (1 / 2 ^ 40 : ℝ) ≤ 1 / 10 ^ 5)
      exact one_div_le_one_div_of_le (by positivity) (pow_le_pow_right₀ (by norm_num) (by norm_num))))
    refine ⟨_, rnd_double h ?_, ?_⟩
    · rw [abs_of_pos (by norm_num)]
      exact le_trans (by norm_num) (one_le_pow₀ (by norm_num : (1 : ℝ) ≤ 2))
    · rw [h2]
      obtain ⟨a1, a2⟩ := unit_bounds h1
      have : (1 : ℝ) / 10 ^ 5 * (1 - 1 / 9007199254740992) ≤ 1 / 10 ^ 5 * (1 + d) := mul_le_mul_of_nonneg_left (by linarith) (by norm_num)
      exact le_trans (by norm_num) this
  obtain ⟨τ', t4, t5⟩ := t4
  rw [floatCompare, t1, decide_eq_true_eq] at hc
  rw [roughFloatCompare, t4, decide_eq_true_eq]
  generalize Dbl.abs (subF sl (toFloat sl a) (toFloat sl b)) = c at hc
  cases c with
  | fin x => rw [fin_lt] at hc ⊢; linarith
  | inf s => simpa using hc
  | nan => simp at hc

/-! ## matrixOps -/

theorem cmp_nat (h : NearestF 53 1074 fl) (h' : NearestF 24 149 sl) {n k : ℕ} (hn : n ≤ 2 ^ 24) (hk : k ≤ 2 ^ 24) :
    floatCompare fl sl (fin n) (fin k) = decide (n = k) := by
  have r : ∀ j : ℕ, j ≤ 2 ^ 24 → RepF 24 149 j := fun j hj => ⟨j, 149, by rw [abs_of_nonneg (by omega)]; exact_mod_cast hj, by push_cast; rfl⟩
  have b : ∀ j : ℕ, j ≤ 2 ^ 24 → |(j : ℝ)| ≤ 2 ^ 126 := by
    intro j hj
    rw [abs_of_nonneg (by positivity)]
    have : (j : ℝ) ≤ 2 ^ 24 := by exact_mod_cast hj
    exact this.trans (by norm_num)
  obtain ⟨c1, c2⟩ := C125_floats_partial h h' (r n hn) (r k hk) (b n hn) (b k hk)
  by_cases e : n = k
  · subst e
    rw [decide_eq_true rfl]
    exact c1 (by rw [sub_self, _root_.abs_zero]; norm_num)
  · rw [decide_eq_false e]
    refine c2 ?_
    have : (1 : ℝ) ≤ |(n : ℝ) - k| := by
      have h1 : (1 : ℤ) ≤ |(n : ℤ) - k| := Int.one_le_abs (by omega)
      have h2 : ((1 : ℤ) : ℝ) ≤ ((|(n : ℤ) - k| : ℤ) : ℝ) := by exact_mod_cast h1
      rw [Int.cast_abs] at h2
      push_cast at h2
      exact h2
    exact le_trans (by norm_num) this

theorem mul_values (i j : Fin 5) : values.mul values i j = fin (productMM i j) := by
  fin_cases i <;> fin_cases j <;> simp [M5.mul, values, productMM] <;> norm_num

theorem mulVec_values (i : Fin 5) : ∃ x, |x| ≤ 2 ^ 127 ∧ values.mulVec vec1 i = fin x ∧ productMV i = fin x := by
  fin_cases i
  · exact ⟨60.5, by norm_num, by simp [M5.mulVec, values, vec1]; norm_num, by simp [productMV]⟩
  · exact ⟨143, by norm_num, by simp [M5.mulVec, values, vec1]; norm_num, by simp [productMV]⟩
  · exact ⟨225.5, by norm_num, by simp [M5.mulVec, values, vec1]; norm_num, by simp [productMV]⟩
  · exact ⟨308, by norm_num, by simp [M5.mulVec, values, vec1]; norm_num, by simp [productMV]⟩
  · exact ⟨390.5, by norm_num, by simp [M5.mulVec, values, vec1]; norm_num, by simp [productMV]⟩

theorem indices_all (i j : Fin 5) : (i, j) ∈ indices := by
  simp [indices]

theorem fold_set (m : M5) (i j : Fin 5) : (indices.foldl (fun m p => m.set p.1 p.2 (values p.1 p.2)) m) i j = values i j := by
  have key : ∀ (l : List (Fin 5 × Fin 5)) (m : M5), ((i, j) ∈ l ∨ m i j = values i j) →
      (l.foldl (fun m p => m.set p.1 p.2 (values p.1 p.2)) m) i j = values i j := by
    intro l
    induction l with
    | nil => intro m h; simpa using h
    | cons p l ih =>
      intro m h
      rw [List.foldl_cons]
      refine ih _ ?_
      by_cases hp : (i, j) = p
      · right
        subst hp
        simp [M5.set]
      · rcases h with h | h
        · left
          simpa [hp] using h
        · right
          rw [← h]
          have : ¬(i = p.1 ∧ j = p.2) := fun e => hp (Prod.ext e.1 e.2)
          simp only [M5.set]
          rw [if_neg this]
  exact key _ _ (Or.inl (indices_all i j))

/-- the checks as conditions on natural numbers; `z` tells whether `_matrix1` is zero at the start -/
def expected (z : Bool) : List Bool :=
  (indices.map fun p => decide ((if z then 0 else 5 * p.1.val + p.2.val + 1) = 0)) ++ (indices.map fun _ => true) ++
    (indices.map fun p => decide (5 * p.1.val + p.2.val + 1 = if p.1 = p.2 then 1 else 0)) ++ (indices.map fun _ => true) ++
    (indices.map fun _ => true) ++ ((List.finRange 5).map fun _ => true) ++
    ((List.finRange 5).flatMap fun _ => [true, true, true, true])

theorem matrixOps_checks (h : NearestF 53 1074 fl) (h' : NearestF 24 149 sl) (z : Bool) {m : M5}
    (hm : ∀ i j, m i j = if z then 0 else values i j) : (matrixOpsTest fl sl m).1 = expected z := by
  have e0 : (0 : Dbl) = fin ((0 : ℕ) : ℝ) := by rw [Nat.cast_zero]; exact zero_eq
  have e1 : (1 : Dbl) = fin ((1 : ℕ) : ℝ) := by rw [Nat.cast_one]; exact one_eq
  have small : ∀ i j : Fin 5, 5 * i.val + j.val + 1 ≤ 2 ^ 24 := fun i j => by omega
  have vv : ∀ i j, floatCompare fl sl (values i j) (values i j) = true := fun i j => by
    rw [values, cmp_nat h h' (small i j) (small i j), decide_eq_true rfl]
  have eq : ∀ {x : ℝ}, |x| ≤ 2 ^ 20 → floatCompare fl sl (fin x) (fin x) = true := fun hx =>
    C125_equal h h' (hx.trans (by norm_num))
  unfold matrixOpsTest expected
  simp only
  congr 1
  congr 1
  congr 1
  congr 1
  congr 1
  congr 1
  · refine List.map_congr_left fun p _ => ?_
    rw [hm]
    cases z
    · simp only [Bool.false_eq_true, if_false]
      rw [e0, values, cmp_nat h h' (small _ _) (by norm_num)]
    · rw [if_pos rfl, if_pos rfl, e0, cmp_nat h h' (by norm_num) (by norm_num)]
  · exact List.map_congr_left fun p _ => vv _ _
  · refine List.map_congr_left fun p _ => ?_
    rw [M5.unit, fold_set]
    split
    · rw [e1, values, cmp_nat h h' (small _ _) (by norm_num)]
    · rw [e0, values, cmp_nat h h' (small _ _) (by norm_num)]
  · exact List.map_congr_left fun p _ => vv _ _
  · refine List.map_congr_left fun p _ => ?_
    have b : productMM p.1 p.2 ≤ 2 ^ 24 := by
      have : ∀ i j, productMM i j ≤ 2000 := by decide
      exact (this _ _).trans (by norm_num)
    rw [mul_values, cmp_nat h h' b b, decide_eq_true rfl]
  · refine List.map_congr_left fun i _ => ?_
    obtain ⟨x, x1, x2, x3⟩ := mulVec_values i
    rw [x2, x3]
    exact C125_equal h h' x1
  · refine List.flatMap_congr fun j _ => ?_
    have a1 : floatCompare fl sl (V5.zero j) 0 = true := by
      have : V5.zero j = fin 0 := zero_eq
      rw [this, zero_eq]
      exact eq (by norm_num)
    have a2 : ∃ x, vec1 j = fin x ∧ |x| ≤ 2 ^ 20 := by
      fin_cases j
      · exact ⟨1.1, rfl, by norm_num⟩
      · exact ⟨2.2, rfl, by norm_num⟩
      · exact ⟨3.3, rfl, by norm_num⟩
      · exact ⟨4.4, rfl, by norm_num⟩
      · exact ⟨5.5, rfl, by norm_num⟩
    have a3 : ∃ x, vvv j = fin x ∧ |x| ≤ 2 ^ 20 := by
      fin_cases j
      · exact ⟨0.1, rfl, by norm_num⟩
      · exact ⟨0.2, rfl, by norm_num⟩
      · exact ⟨0.3, rfl, by norm_num⟩
      · exact ⟨0.4, rfl, by norm_num⟩
      · exact ⟨0.5, rfl, by norm_num⟩
    obtain ⟨x, x1, x2⟩ := a2
    obtain ⟨y, y1, y2⟩ := a3
    rw [a1, x1, y1, eq x2, eq y2]

theorem matrixOps_state (n : ℕ) (i j : Fin 5) : matrixOpsState fl sl (n + 1) i j = values i j := by
  rw [matrixOpsState, matrixOpsTest]
  exact fold_set _ i j

set_option maxRecDepth 10000 in
/-- C126 is false as stated: 24 of the 150 checks fail in the first run (those of the matrix after `Unit()`), 49 in every later one. -/
theorem C126_false (h : NearestF 53 1074 fl) (h' : NearestF 24 149 sl) :
    (((matrixOps fl sl).checks 0).count false = 24 ∧ ((matrixOps fl sl).checks 0).count true = 126) ∧
    ∀ n, (((matrixOps fl sl).checks (n + 1)).count false = 49 ∧ ((matrixOps fl sl).checks (n + 1)).count true = 101) := by
  refine ⟨?_, fun n => ?_⟩
  · have : (matrixOps fl sl).checks 0 = expected true := matrixOps_checks h h' true fun i j => rfl
    rw [this]
    decide
  · have : (matrixOps fl sl).checks (n + 1) = expected false := matrixOps_checks h h' false fun i j => matrixOps_state n i j
    rw [this]
    decide

set_option maxRecDepth 10000 in
/-- C126 (partial): every check except those of `_matrix1` after `Unit()` and, in a later run, those at the start, succeeds: the checks
at the positions from 0 to 24 in the first run, and from 25 to 49 and from 75 to 149 in all runs. -/
theorem C126_partial (h : NearestF 53 1074 fl) (h' : NearestF 24 149 sl) (n i : ℕ)
    (hi : n = 0 ∧ i < 25 ∨ 25 ≤ i ∧ i < 50 ∨ 75 ≤ i ∧ i < 150) : ((matrixOps fl sl).checks n)[i]? = some true := by
  have key : ∀ z, ∀ i < 150, (z = true ∧ i < 25 ∨ 25 ≤ i ∧ i < 50 ∨ 75 ≤ i ∧ i < 150) → (expected z)[i]? = some true := by decide
  cases n with
  | zero =>
    have : (matrixOps fl sl).checks 0 = expected true := matrixOps_checks h h' true fun i j => rfl
    rw [this]
    exact key true i (by omega) (by simpa using hi)
  | succ n =>
    have : (matrixOps fl sl).checks (n + 1) = expected false := matrixOps_checks h h' false fun i j => matrixOps_state n i j
    rw [this]
    refine key false i (by omega) ?_
    rcases hi with ⟨hn, -⟩ | hi
    · omega
    · exact Or.inr hi

/-- C124, with the test of the matrices: 24 checks fail, and the program returns 0. -/
theorem C124_matrixOps_false (h : NearestF 53 1074 fl) (h' : NearestF 24 149 sl) (nd : Bool) :
    UT.main nd [matrixOps fl sl] = .ok (some (24, 126), 0) := by
  obtain ⟨out, h1⟩ := C124_exit_false nd [matrixOps fl sl]
  obtain ⟨r, h2⟩ := C124_printed_partial nd [matrixOps fl sl]
  obtain ⟨⟨c1, c2⟩, -⟩ := C126_false h h'
  have e : nextChecks (matrixOps fl sl) = (matrixOps fl sl).checks 0 := rfl
  rw [h1]
  rw [h1] at h2
  simp only [List.map_cons, List.map_nil, List.sum_cons, List.sum_nil, e, c1, c2] at h2
  simp only [Out.ok.injEq, Prod.mk.injEq] at h2
  rw [h2.1]
  norm_num

/-- The hypotheses of C124, C125 and C126 can be met: there are functions that round to the nearest number. -/
example : ∃ fl sl : ℝ → ℝ, UT.main false [matrixOps fl sl] = .ok (some (24, 126), 0) := by
  obtain ⟨fl, h⟩ := exists_nearestF 53 1074
  obtain ⟨sl, h'⟩ := exists_nearestF 24 149
  exact ⟨fl, sl, C124_matrixOps_false h h' false⟩

end Verif
