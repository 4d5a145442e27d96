import Verif.Props.RoundedPropagation
import Verif.Props.RoundedMaterial

/-!
# C160: the simplified propagator in double precision
-/

open Classical

noncomputable section

namespace Verif

open Dbl Rnd Spec Rounded

variable {fl : ℝ → ℝ} {k l : ℕ} {x y e f : ℝ} {a b : Dbl}

/-- products of numbers with relative errors -/
theorem signed_mul (h : NearestF 53 1074 fl) (ha : Ap k |x| a (fin x) 1 e) (hb : Ap l |y| b (fin y) 1 f) (hk : k + l ≤ 900) (he : e ≤ 100) (hf : f ≤ 100) :
    Ap (k + l) |x * y| (mulD fl a b) (fin (x * y)) 1 (1001 / 1000 * e + f + 1001 / 1000) := by
  have := (Ap.mul h ha hb hk (hf.trans (by norm_num)) (by norm_num; linarith) (by norm_num)).mono (B' := 1) (e' := 1001 / 1000 * e + f + 1001 / 1000)
    (by norm_num) (by linarith)
  rwa [fin_mul, ← abs_mul] at this

/-- the factor `cosLambda` -/
theorem cosLambda_ap (h : NearestF 53 1074 fl) {s t : ℝ} (hs : |s| ≤ 2) (ht : |t| ≤ 2) :
    Ap 20 |1 / √(1 + (s - t) ^ 2)| (divD fl 1 (sqrtD fl (addD fl 1 (mulD fl (subD fl (fin s) (fin t)) (subD fl (fin s) (fin t))))))
      (fin (1 / √(1 + (s - t) ^ 2))) 1 8 := by
  obtain ⟨v, hv⟩ : ∃ v, v = s - t := ⟨_, rfl⟩
  have v4 : |v| ≤ 4 := by
    rw [hv]
    exact (abs_sub _ _).trans (by linarith)
  obtain ⟨S, hS⟩ : ∃ S, S = √(1 + v ^ 2) := ⟨_, rfl⟩
  have SS : S * S = 1 + v ^ 2 := by rw [hS, Real.mul_self_sqrt (by positivity)]
  have S1 : 1 ≤ S := by rw [hS, Real.one_le_sqrt]; nlinarith [sq_nonneg v]
  have S5 : S ≤ 5 := by
    rw [hS]
    refine Real.sqrt_le_left (by norm_num) |>.2 ?_
    nlinarith [sq_abs v, abs_nonneg v]
  have Sv : |v| ≤ S := by
    rw [hS]
    exact Real.abs_le_sqrt (by linarith)
  have lo : ∀ {n : ℕ}, 1 / 2 ^ n ≤ S := fun {n} => le_trans ((div_le_one (by positivity)).2 (one_le_pow₀ (by norm_num))) S1
  have d := Ap.round (B := 1) (e := 0) (t := v) (x := v) (k := 5) h lo (S5.trans (by norm_num)) (by norm_num) (by norm_num) (by norm_num) (by simp) (by rwa [one_mul])
  have q := Ap.mul h d d (by norm_num) (by norm_num) (by norm_num) (by norm_num)
  have one : Ap 10 (S * S) (1 : Dbl) (fin 1) 1 0 := by
    rw [one_eq]
    exact Ap.given (le_trans (by norm_num) (one_le_mul_of_one_le_of_one_le S1 S1)) (by norm_num; nlinarith) (by rw [abs_one]; nlinarith)
  have s1 := Ap.addB (D := 1) h one q (fun z hz => by
    rw [fin_mul, fin_add] at hz
    injection hz with hz
    rw [← hz, one_mul, SS, abs_of_pos (by nlinarith [sq_nonneg v]), sq]) (by norm_num) (by norm_num) (by norm_num)
  have e1 : fin 1 + fin v * fin v = fin (S * S) := by rw [fin_mul, fin_add, SS, sq]
  have r := Ap.sqrt (k := 5) h s1 (by norm_num) (by norm_num) e1 lo (S5.trans (by norm_num))
  rw [e1, sqrt_fin (by positivity), Real.sqrt_mul_self (by linarith)] at r
  have c := Ap.divr h (Ap.unit (x := 1) (B := 1) (by simp)) r rfl (le_abs_self _) (by norm_num) (by norm_num) (by norm_num) (by norm_num)
  rw [fin_div _ (by linarith : S ≠ 0)] at c
  have c' := (c.rescale (l := 20) (c := 1) (T := |1 / S|) (by rw [one_mul, abs_of_pos (by positivity)]) (by
    rw [abs_of_pos (by positivity)]
    exact one_div_le_one_div_of_le (by linarith) (S5.trans (by norm_num))) (by
    rw [abs_of_pos (by positivity)]
    exact le_trans ((div_le_one (by linarith)).2 S1) (by norm_num))).mono (B' := 1) (e' := 8) (by norm_num) (by norm_num)
  rw [← hv, ← hS]
  simpa only [subD, fin_sub, ← hv, one_eq] using c'

/-- a path length or field component: 0 or between 2^-100 and 2^100 in size -/
def Plain (x : ℝ) : Prop := x = 0 ∨ 1 / 2 ^ 100 ≤ |x| ∧ |x| ≤ 2 ^ 100

theorem plain_mul (h : NearestF 53 1074 fl) (hx : x = 0 ∧ a = fin 0 ∨ Ap k |x| a (fin x) 1 e) (hy : y = 0 ∧ b = fin 0 ∨ Ap l |y| b (fin y) 1 f)
    (hk : k + l ≤ 900) (he : e ≤ 100) (hf : f ≤ 100) :
    x * y = 0 ∧ mulD fl a b = fin 0 ∨ Ap (k + l) |x * y| (mulD fl a b) (fin (x * y)) 1 (1001 / 1000 * e + f + 1001 / 1000) := by
  have z : ∀ r : ℝ, mulD fl (fin 0) (fin r) = fin 0 ∧ mulD fl (fin r) (fin 0) = fin 0 := fun r => by
    rw [mulD, mulD, fin_mul, fin_mul, zero_mul, mul_zero, rnd_zero h]
    exact ⟨rfl, rfl⟩
  rcases hx with ⟨rfl, rfl⟩ | hx
  · rcases hy with ⟨rfl, rfl⟩ | hy
    · exact .inl ⟨by ring, (z 0).1⟩
    · obtain ⟨r, -, rfl, -⟩ := hy.val
      exact .inl ⟨by ring, (z r).1⟩
  · rcases hy with ⟨rfl, rfl⟩ | hy
    · obtain ⟨r, -, rfl, -⟩ := hx.val
      exact .inl ⟨by ring, (z r).2⟩
    · exact .inr (signed_mul h hx hy hk he hf)

theorem plain_val (hx : x = 0 ∧ a = fin 0 ∨ Ap k |x| a (fin x) 1 e) (he : e ≤ f) : ∃ r, a = fin r ∧ |r - x| ≤ f / 2 ^ 53 * |x| := by
  rcases hx with ⟨rfl, rfl⟩ | hx
  · exact ⟨0, rfl, by simp⟩
  · obtain ⟨r, x', e1, e2, i, -⟩ := (hx.mono le_rfl he).val
    injection e2 with e2
    subst e2
    exact ⟨r, e1, i.trans (le_of_eq (by ring))⟩

/-- C160: the Jacobian of the simplified propagator in double precision.  Four entries are set, each with a small relative error; all others are those of the
matrix passed in, because `Unit()` does not change it (C01). -/
theorem C160_simplified (h : NearestF 53 1074 fl) {w : ℝ} {T0 T B : R3} (h0 : |T0 2| ≤ 2) (h1 : |T 2| ≤ 2) (hw : Plain w) (hB : Plain (B 2)) (jac : M5) (qop loss : Dbl) :
    let c := 1 / √(1 + (T0 2 - T 2) ^ 2)
    let J := Rnd.simplifiedJacobian fl jac (fin w) qop (V3.of T0) (V3.of T) (V3.of B) loss
    ∃ r s t, J 2 0 = fin r ∧ J 3 0 = fin s ∧ J 3 2 = fin t ∧ J 4 1 = fin w ∧
      (∀ i j, (i, j) ∉ [(2, 0), (3, 0), (3, 2), (4, 1)] → J i j = jac i j) ∧
      |r - -(B 2) * w| ≤ 2 / 2 ^ 53 * |B 2 * w| ∧ |s - -(1 / 2) * (B 2) * w ^ 2 * c| ≤ 14 / 2 ^ 53 * |1 / 2 * B 2 * w ^ 2 * c| ∧
      |t - w * c| ≤ 10 / 2 ^ 53 * |w * c| := by
  intro c J
  have g : ∀ {x : ℝ}, Plain x → x = 0 ∧ fin x = fin 0 ∨ Ap 100 |x| (fin x) (fin x) 1 0 := by
    rintro x (rfl | hx)
    · exact .inl ⟨rfl, rfl⟩
    · exact .inr (Ap.given hx.1 hx.2 (by rw [one_mul]))
  have n : Plain (-(B 2)) := by
    rcases hB with hB | hB
    · exact .inl (by rw [hB, neg_zero])
    · exact .inr (by rwa [abs_neg])
  have C := cosLambda_ap h h0 h1
  have hh : Ap 1 |(-(1 / 2) : ℝ)| (fin (-(1 / 2))) (fin (-(1 / 2))) 1 0 := Ap.given (by norm_num) (by norm_num) (by norm_num)
  obtain ⟨r, r1, r2⟩ := plain_val (f := 2) (plain_mul h (g n) (g hw) (by norm_num) (by norm_num) (by norm_num)) (by norm_num)
  obtain ⟨s, s1, s2⟩ := plain_val (f := 14) (plain_mul h (plain_mul h (plain_mul h (plain_mul h (.inr hh) (g hB) (by norm_num) (by norm_num) (by norm_num)) (g hw)
    (by norm_num) (by norm_num) (by norm_num)) (g hw) (by norm_num) (by norm_num) (by norm_num)) (.inr C) (by norm_num) (by norm_num) (by norm_num)) (by norm_num)
  obtain ⟨t, t1, t2⟩ := plain_val (f := 10) (plain_mul h (g hw) (.inr C) (by norm_num) (by norm_num) (by norm_num)) (by norm_num)
  have hJ : J = (((jac.set 2 0 (fin r)).set 3 0 (fin s)).set 3 2 (fin t)).set 4 1 (fin w) := by
    show Rnd.simplifiedJacobian fl jac (fin w) qop (V3.of T0) (V3.of T) (V3.of B) loss = _
    rw [Rnd.simplifiedJacobian]
    have z1 : (V3.of T0).z = fin (T0 2) := rfl
    have z2 : (V3.of T).z = fin (T 2) := rfl
    have z3 : (V3.of B).z = fin (B 2) := rfl
    simp only [z1, z2, z3, fin_neg, r1, s1, t1, M5.unit]
  clear_value J
  subst hJ
  refine ⟨r, s, t, by simp [M5.set], by simp [M5.set], by simp [M5.set], by simp [M5.set], ?_, ?_, ?_, t2⟩
  · intro i j hij
    simp only [List.mem_cons, Prod.mk.injEq, List.not_mem_nil, or_false, not_or] at hij
    simp only [M5.set]
    rw [if_neg hij.2.2.2, if_neg hij.2.2.1, if_neg hij.2.1, if_neg hij.1]
  · rwa [neg_mul, abs_neg, ← neg_mul] at r2
  · have e1 : -(1 / 2) * B 2 * w ^ 2 * c = -(1 / 2) * B 2 * w * w * c := by ring
    have e2 : |1 / 2 * B 2 * w ^ 2 * c| = |-(1 / 2) * B 2 * w * w * c| := by
      rw [← abs_neg]
      congr 1
      ring
    rw [e1, e2]
    exact s2

/-- C160: the entries of the exact calculation -/
theorem C160_exact (w : ℝ) (T0 T B : R3) (jac : M5) (qop loss : Dbl) :
    let c := 1 / √(1 + (T0 2 - T 2) ^ 2)
    let J := Verif.simplifiedJacobian jac (fin w) qop (V3.of T0) (V3.of T) (V3.of B) loss
    J 2 0 = fin (-(B 2) * w) ∧ J 3 0 = fin (-(1 / 2) * (B 2) * w ^ 2 * c) ∧ J 3 2 = fin (w * c) ∧ J 4 1 = fin w ∧
      ∀ i j, (i, j) ∉ [(2, 0), (3, 0), (3, 2), (4, 1)] → J i j = jac i j := by
  intro c J
  have p0 : 0 < 1 + (T0 2 - T 2) ^ 2 := by positivity
  have hJ : J = (((jac.set 2 0 (fin (-(B 2) * w))).set 3 0 (fin (-(1 / 2) * (B 2) * w ^ 2 * c))).set 3 2 (fin (w * c))).set 4 1 (fin w) := by
    show Verif.simplifiedJacobian jac (fin w) qop (V3.of T0) (V3.of T) (V3.of B) loss = _
    rw [Verif.simplifiedJacobian]
    have z1 : (V3.of T0).z = fin (T0 2) := rfl
    have z2 : (V3.of T).z = fin (T 2) := rfl
    have z3 : (V3.of B).z = fin (B 2) := rfl
    have z4 : (0.5 : Dbl) = fin (1 / 2) := by
      rw [ofSci_eq]
      norm_num
    have z5 : (1 : Dbl) / Dbl.sqrt (1 + (fin (T0 2) - fin (T 2)) * (fin (T0 2) - fin (T 2))) = fin c := by
      rw [fin_sub, fin_mul, one_eq, fin_add, ← sq, sqrt_fin p0.le, fin_div _ (Real.sqrt_pos.2 p0).ne']
    simp only [z1, z2, z3, z4, z5, fin_neg, fin_mul, M5.unit]
    rw [show -(1 / 2) * B 2 * w * w * c = -(1 / 2) * B 2 * w ^ 2 * c by ring]
  clear_value J
  subst hJ
  refine ⟨by simp [M5.set], by simp [M5.set], by simp [M5.set], by simp [M5.set], ?_⟩
  intro i j hij
  simp only [List.mem_cons, Prod.mk.injEq, List.not_mem_nil, or_false, not_or] at hij
  simp only [M5.set]
  rw [if_neg hij.2.2.2, if_neg hij.2.2.1, if_neg hij.2.1, if_neg hij.1]

/-- hypotheses of C160: a step of 10 cm in a field of 3.5 T -/
theorem C160_example : |(![1, 0, 0] : R3) 2| ≤ 2 ∧ |(![0, 3 / 5, 4 / 5] : R3) 2| ≤ 2 ∧ Plain 10 ∧ Plain ((![0, 0, 7 / 2] : R3) 2) := by
  have e : ∀ a b c : ℝ, (![a, b, c] : R3) 2 = c := fun _ _ _ => rfl
  rw [e, e, e]
  refine ⟨by norm_num, ?_, .inr ?_, .inr ?_⟩ <;> norm_num [abs_of_pos]

end Verif
