import Verif.Lemmas.RoundedUnitTests

/-!
# The tests of matrices and vectors in double precision
-/

open Classical

noncomputable section

namespace Verif

open Dbl Rnd UT

namespace RUT

variable {A : TestLib} {fl sl : ℝ → ℝ}

/-- sums of whole numbers are exact, in any order -/
theorem sum_nat (h : NearestF 53 1074 fl) {l : List Dbl} {a : Dbl} (hs : SumOf fl l a) :
    ∀ n : List ℕ, l = n.map (fun k : ℕ => fin (k : ℝ)) → n.sum ≤ 2 ^ 53 → a = fin ((n.sum : ℕ) : ℝ) := by
  induction hs with
  | one a =>
    intro n e _
    match n, e with
    | [k], e =>
      simp only [List.map_cons, List.map_nil, List.cons.injEq, and_true] at e
      rw [e]
      simp
  | @add l m a b _ _ ih1 ih2 =>
    intro n e hn
    obtain ⟨n1, n2, rfl, e1, e2⟩ := List.append_eq_map_iff.1 e
    rw [List.sum_append] at hn ⊢
    rw [ih1 n1 e1.symm (by omega), ih2 n2 e2.symm (by omega), addD, fin_add]
    have r : RepF 53 1074 ((n1.sum + n2.sum : ℕ) : ℝ) :=
      ⟨((n1.sum + n2.sum : ℕ) : ℤ), 1074, by rw [abs_of_nonneg (by positivity)]; exact_mod_cast hn, by rw [Int.cast_natCast]⟩
    have b : |((n1.sum + n2.sum : ℕ) : ℝ)| ≤ 2 ^ 1000 := by
      rw [abs_of_nonneg (by positivity)]
      have k1 : ((n1.sum + n2.sum : ℕ) : ℝ) ≤ 2 ^ 53 := by exact_mod_cast hn
      exact k1.trans (pow_le_pow_right₀ (by norm_num) (by norm_num))
    have := rnd_double h b
    rw [h.fix r] at this
    push_cast at this ⊢
    exact this
  | @perm l m a p _ ih =>
    intro n e hn
    obtain ⟨n', p', e'⟩ : ∃ n' : List ℕ, n'.Perm n ∧ l = n'.map (fun k : ℕ => fin (k : ℝ)) := by
      subst e
      let g : Dbl → ℕ := fun d => match d with
        | fin t => ⌊t⌋₊
        | _ => 0
      have hg : (n.map (fun k : ℕ => fin (k : ℝ))).map g = n := by
        rw [List.map_map]
        have : ∀ k ∈ n, (g ∘ fun k : ℕ => fin (k : ℝ)) k = id k := fun k _ => Nat.floor_natCast k
        rw [List.map_congr_left this, List.map_id]
      have q := p.map g
      rw [hg] at q
      refine ⟨l.map g, q, ?_⟩
      rw [List.map_map]
      have : ∀ d ∈ l, ((fun k : ℕ => fin (k : ℝ)) ∘ g) d = id d := by
        intro d hd
        obtain ⟨t, -, rfl⟩ := List.mem_map.1 (p.mem_iff.1 hd)
        show fin ((⌊(t : ℝ)⌋₊ : ℕ) : ℝ) = _
        rw [Nat.floor_natCast]
        rfl
      rw [List.map_congr_left this, List.map_id]
    rw [ih n' e' (by rw [p'.sum_eq]; exact hn), p'.sum_eq]

/-- the product of whole numbers -/
theorem mul_nat (h : NearestF 53 1074 fl) {n k : ℕ} (hn : n * k ≤ 2 ^ 53) : mulD fl (fin (n : ℝ)) (fin (k : ℝ)) = fin ((n * k : ℕ) : ℝ) := by
  have r : RepF 53 1074 ((n * k : ℕ) : ℝ) :=
    ⟨((n * k : ℕ) : ℤ), 1074, by rw [abs_of_nonneg (by positivity)]; exact_mod_cast hn, by push_cast; rfl⟩
  have b : |((n * k : ℕ) : ℝ)| ≤ 2 ^ 1000 := by
    rw [abs_of_nonneg (by positivity)]
    have k1 : ((n * k : ℕ) : ℝ) ≤ 2 ^ 53 := by exact_mod_cast hn
    exact k1.trans (pow_le_pow_right₀ (by norm_num) (by norm_num))
  rw [mulD, fin_mul, ← Nat.cast_mul, rnd_double h b, h.fix r]

theorem product_values (hA : A.Ok) (i j : Fin 5) : A.mm values values i j = fin (productMM i j : ℝ) := by
  have s := hA.mm values values i j
  have e : ((List.finRange 5).map fun k => mulD A.fl (values i k) (values k j)) =
      ((List.finRange 5).map fun k => (5 * i.val + k.val + 1) * (5 * k.val + j.val + 1)).map (fun k : ℕ => fin (k : ℝ)) := by
    rw [List.map_map]
    refine List.map_congr_left fun k _ => ?_
    show mulD A.fl (fin _) (fin _) = _
    rw [mul_nat hA.fl]
    · rfl
    · have : (5 * i.val + k.val + 1) * (5 * k.val + j.val + 1) ≤ 25 * 25 := Nat.mul_le_mul (by omega) (by omega)
      omega
  have q : ∀ i j : Fin 5, ((List.finRange 5).map fun k : Fin 5 => (5 * i.val + k.val + 1) * (5 * k.val + j.val + 1)).sum = productMM i j := by
    decide
  have k : ∀ i j, productMM i j ≤ 2000 := by decide
  rw [sum_nat hA.fl s _ e (by rw [q]; exact (k i j).trans (by norm_num)), q]

/-- the numbers in `_vec1` -/
def vecR : Fin 5 → ℝ := ![1.1, 2.2, 3.3, 4.4, 5.5]

theorem vec1_near (hA : A.Ok) (k : Fin 5) : ∃ r, vec1 A k = fin r ∧ |r - vecR k| ≤ 3 / 10 ^ 14 := by
  fin_cases k <;> exact N.lit hA.fl (by norm_num)

theorem mulVec_near (hA : A.Ok) (i : Fin 5) : N (A.mv values (vec1 A) i) (∑ k : Fin 5, (5 * i.val + k.val + 1 : ℝ) * vecR k) (1 / 10 ^ 10) := by
  choose r hr hr' using vec1_near hA
  have s := hA.mv values (vec1 A) i
  have e : ((List.finRange 5).map fun k => mulD A.fl (values i k) (vec1 A k)) =
      (List.finRange 5).map fun k => mulD A.fl (fin ((5 * i.val + k.val + 1 : ℕ) : ℝ)) (fin (r k)) := by
    refine List.map_congr_left fun k _ => ?_
    rw [hr]; rfl
  rw [e] at s
  have v : ∀ k, |vecR k| ≤ 5.5 := by
    intro k
    fin_cases k <;> norm_num [vecR]
  have rb : ∀ k, |r k| ≤ 6 := fun k => by
    have := abs_sub_abs_le_abs_sub (r k) (vecR k)
    have h1 := hr' k
    have h2 := v k
    norm_num at *
    linarith
  have c0 : ∀ k : Fin 5, (0 : ℝ) ≤ ((5 * i.val + k.val + 1 : ℕ) : ℝ) := fun k => by positivity
  have c1 : ∀ k : Fin 5, ((5 * i.val + k.val + 1 : ℕ) : ℝ) ≤ 25 := fun k => by
    have : 5 * i.val + k.val + 1 ≤ 25 := by omega
    exact_mod_cast this
  have pb : ∀ k : Fin 5, |((5 * i.val + k.val + 1 : ℕ) : ℝ)| * |r k| ≤ 150 := fun k => by
    rw [abs_of_nonneg (c0 k)]
    have := mul_le_mul (c1 k) (rb k) (abs_nonneg _) (by norm_num)
    linarith
  obtain ⟨t, t1, t2⟩ := entry_sum hA.fl (x := fun k : Fin 5 => ((5 * i.val + k.val + 1 : ℕ) : ℝ)) (y := r)
    (fun k => (pb k).trans (by
      have : (2 : ℝ) ^ 8 ≤ 2 ^ 800 := pow_le_pow_right₀ (by norm_num) (by norm_num)
      exact le_trans (by norm_num) this)) s
  refine ⟨t, t1, ?_⟩
  have u1 : ∑ k : Fin 5, |((5 * i.val + k.val + 1 : ℕ) : ℝ)| * |r k| ≤ 750 := by
    refine (Finset.sum_le_sum fun k _ => pb k).trans ?_
    simp
    norm_num
  have u2 : |∑ k : Fin 5, ((5 * i.val + k.val + 1 : ℕ) : ℝ) * r k - ∑ k : Fin 5, (5 * i.val + k.val + 1 : ℝ) * vecR k| ≤ 5 * (25 * (3 / 10 ^ 14)) := by
    rw [← Finset.sum_sub_distrib]
    refine (Finset.abs_sum_le_sum_abs _ _).trans ?_
    have : ∀ k ∈ Finset.univ (α := Fin 5), |((5 * i.val + k.val + 1 : ℕ) : ℝ) * r k - (5 * i.val + k.val + 1 : ℝ) * vecR k| ≤ 25 * (3 / 10 ^ 14) := by
      intro k _
      have e : ((5 * i.val + k.val + 1 : ℕ) : ℝ) * r k - (5 * i.val + k.val + 1 : ℝ) * vecR k = ((5 * i.val + k.val + 1 : ℕ) : ℝ) * (r k - vecR k) := by
        push_cast; ring
      rw [e, abs_mul, abs_of_nonneg (c0 k)]
      exact mul_le_mul (c1 k) (hr' k) (abs_nonneg _) (by norm_num)
    refine (Finset.sum_le_sum this).trans ?_
    simp
  have tn := tiny1075
  have u3 : 51 / 10 * ((1 : ℝ) / 2 ^ 53) * ∑ k : Fin 5, |((5 * i.val + k.val + 1 : ℕ) : ℝ)| * |r k| ≤ 51 / 10 * (1 / 2 ^ 53) * 750 :=
    mul_le_mul_of_nonneg_left u1 (by positivity)
  have u4 := abs_sub_le t (∑ k : Fin 5, ((5 * i.val + k.val + 1 : ℕ) : ℝ) * r k) (∑ k : Fin 5, (5 * i.val + k.val + 1 : ℝ) * vecR k)
  have u5 := u4.trans (add_le_add (t2.trans (add_le_add_left u3 _)) u2)
  refine u5.trans ?_
  clear u5 u4 u3 u2 u1 t2
  generalize (1 : ℝ) / 2 ^ 1075 = η at *
  norm_num at *
  linarith

theorem productMV_near (i : Fin 5) : ∃ x : ℝ, productMV i = fin x ∧ ∑ k : Fin 5, (5 * i.val + k.val + 1 : ℝ) * vecR k = x ∧ |x| ≤ 1000 := by
  fin_cases i
  · exact ⟨60.5, by simp [productMV], by simp [Fin.sum_univ_five, vecR]; norm_num, by norm_num⟩
  · exact ⟨143, by simp [productMV], by simp [Fin.sum_univ_five, vecR]; norm_num, by norm_num⟩
  · exact ⟨225.5, by simp [productMV], by simp [Fin.sum_univ_five, vecR]; norm_num, by norm_num⟩
  · exact ⟨308, by simp [productMV], by simp [Fin.sum_univ_five, vecR]; norm_num, by norm_num⟩
  · exact ⟨390.5, by simp [productMV], by simp [Fin.sum_univ_five, vecR]; norm_num, by norm_num⟩

theorem productMV_eval (hA : A.Ok) (i : Fin 5) : Check.eval A.fl A.sl (.fcmp (A.mv values (vec1 A) i) (productMV i)) = true := by
  have n := mulVec_near hA i
  obtain ⟨x, x1, x2, -⟩ := productMV_near i
  rw [x2] at n
  rw [x1]
  fin_cases i
  · have e : x = 60.5 := by simpa [productMV] using x1.symm
    subst e
    refine eval_cell hA 15859712 18 (by norm_num) (by norm_num) (by norm_num) n (N.of _) ?_ ?_ <;> norm_num
  · have e : x = 143 := by simpa [productMV] using x1.symm
    subst e
    refine eval_cell hA 9371648 16 (by norm_num) (by norm_num) (by norm_num) n (N.of _) ?_ ?_ <;> norm_num
  · have e : x = 225.5 := by simpa [productMV] using x1.symm
    subst e
    refine eval_cell hA 14778368 16 (by norm_num) (by norm_num) (by norm_num) n (N.of _) ?_ ?_ <;> norm_num
  · have e : x = 308 := by simpa [productMV] using x1.symm
    subst e
    refine eval_cell hA 10092544 15 (by norm_num) (by norm_num) (by norm_num) n (N.of _) ?_ ?_ <;> norm_num
  · have e : x = 390.5 := by simpa [productMV] using x1.symm
    subst e
    refine eval_cell hA 12795904 15 (by norm_num) (by norm_num) (by norm_num) n (N.of _) ?_ ?_ <;> norm_num

theorem matrixOps_checks (hA : A.Ok) (z : Bool) {m : M5} (hm : ∀ i j, m i j = if z then 0 else values i j) :
    ((matrixOpsTest A m).1).map (Check.eval A.fl A.sl) = expected z := by
  have e0 : (0 : Dbl) = fin ((0 : ℕ) : ℝ) := by rw [Nat.cast_zero]; exact zero_eq
  have e1 : (1 : Dbl) = fin ((1 : ℕ) : ℝ) := by rw [Nat.cast_one]; exact one_eq
  have h := hA.fl
  have h' := hA.sl
  have small : ∀ i j : Fin 5, 5 * i.val + j.val + 1 ≤ 2 ^ 24 := fun i j => by omega
  have ev : ∀ a b, Check.eval A.fl A.sl (.fcmp a b) = floatCompare A.fl A.sl a b := fun _ _ => rfl
  have vv : ∀ i j, Check.eval A.fl A.sl (.fcmp (values i j) (values i j)) = true := fun i j => by
    rw [ev, values, cmp_nat h h' (small i j) (small i j), decide_eq_true rfl]
  unfold matrixOpsTest expected
  simp only [List.map_append]
  congr 1
  congr 1
  congr 1
  congr 1
  congr 1
  congr 1
  · rw [List.map_map]
    refine List.map_congr_left fun p _ => ?_
    show Check.eval A.fl A.sl (.fcmp (m p.1 p.2) 0) = _
    rw [hm, ev]
    cases z
    · simp only [Bool.false_eq_true, if_false]
      rw [e0, values, cmp_nat h h' (small _ _) (by norm_num)]
    · rw [if_pos rfl, if_pos rfl, e0, cmp_nat h h' (by norm_num) (by norm_num)]
  · rw [List.map_map]
    exact List.map_congr_left fun p _ => vv _ _
  · rw [List.map_map]
    refine List.map_congr_left fun p _ => ?_
    simp only [Function.comp_apply]
    rw [M5.unit, fold_set]
    split
    · rw [ev, e1, values, cmp_nat h h' (small _ _) (by norm_num)]
    · rw [ev, e0, values, cmp_nat h h' (small _ _) (by norm_num)]
  · rw [List.map_map]
    exact List.map_congr_left fun p _ => vv _ _
  · rw [List.map_map]
    refine List.map_congr_left fun p _ => ?_
    have b : productMM p.1 p.2 ≤ 2 ^ 24 := by
      have : ∀ i j, productMM i j ≤ 2000 := by decide
      exact (this _ _).trans (by norm_num)
    simp only [Function.comp_apply]
    rw [product_values hA, ev, cmp_nat h h' b b, decide_eq_true rfl]
  · rw [List.map_map]
    exact List.map_congr_left fun i _ => productMV_eval hA i
  · rw [List.map_flatMap]
    refine List.flatMap_congr fun j _ => ?_
    have a1 : Check.eval A.fl A.sl (.fcmp (V5.zero j) 0) = true := eval_zero hA
    have a2 : Check.eval A.fl A.sl (.fcmp (vec1 A j) (vec1 A j)) = true := by
      fin_cases j <;> exact eval_dec hA (by norm_num)
    have a3 : Check.eval A.fl A.sl (.fcmp (vvv A j) (vvv A j)) = true := by
      fin_cases j <;> exact eval_dec hA (by norm_num)
    simp only [List.map_cons, List.map_nil, a1, a2, a3]

theorem matrixOps_state (n : ℕ) (i j : Fin 5) : matrixOpsState A (n + 1) i j = values i j := by
  rw [matrixOpsState, matrixOpsTest]
  exact fold_set _ i j

/-! ## spacevectors -/

theorem spaceF_eq (hA : A.Ok) : spaceF A = ⟨fin (((13421773 : ℤ) : ℝ) / 2 ^ 27), fin (((13421773 : ℤ) : ℝ) / 2 ^ 26), fin (((10066330 : ℤ) : ℝ) / 2 ^ 25)⟩ := by
  have e1 := toFloat_cell hA.sl (N.lit hA.fl (x := 0.1) (by norm_num)) 13421773 27 (by norm_num) (by norm_num) (by norm_num) (by norm_num)
  have e2 := toFloat_cell hA.sl (N.lit hA.fl (x := 0.2) (by norm_num)) 13421773 26 (by norm_num) (by norm_num) (by norm_num) (by norm_num)
  have e3 := toFloat_cell hA.sl (N.lit hA.fl (x := 0.3) (by norm_num)) 10066330 25 (by norm_num) (by norm_num) (by norm_num) (by norm_num)
  rw [spaceF]
  simp only [dec]
  rw [e1, e2, e3]

/-- `rho` of a vector whose components are known well -/
theorem trans_near (hA : A.Ok) {v : V3} {x y d q : ℝ} (hx : N v.x x d) (hy : N v.y y d) (d0 : 0 ≤ d) (hd : d ≤ 1 / 10 ^ 13) (bx : |x| ≤ 5) (by' : |y| ≤ 5)
    (hq : q ^ 2 = x * x + y * y) (q0 : 1 / 10 ≤ q) (q1 : q ≤ 8) : N (transV A.fl v) q (1 / 10 ^ 10) := by
  have m1 : ∀ {x : ℝ}, |x| ≤ 5 → |x * x| ≤ 25 := fun h => by
    rw [abs_mul]
    have := mul_le_mul h h (abs_nonneg _) (by norm_num)
    linarith
  have n1 := (N.mul hA.fl hx hx bx bx (by nlinarith) ((m1 bx).trans (by norm_num))).mono (e := 2 / 10 ^ 12) (by norm_num at hd ⊢; nlinarith)
  have n2 := (N.mul hA.fl hy hy by' by' (by nlinarith) ((m1 by').trans (by norm_num))).mono (e := 2 / 10 ^ 12) (by norm_num at hd ⊢; nlinarith)
  have n3 := (N.add hA.fl n1 n2 (by norm_num) ((abs_add_le _ _).trans (by linarith [m1 bx, m1 by']))).mono (e := 5 / 10 ^ 12) (by norm_num)
  have k : (5 : ℝ) / 10 ^ 12 / q ≤ 5 / 10 ^ 12 * 10 := by
    rw [div_le_iff₀ (by linarith)]
    norm_num
    linarith
  have q2 : 1 / 100 ≤ q ^ 2 := by nlinarith
  refine (N.sqrt hA.fl n3 (by linarith) hq.symm ?_ (by linarith) (k.trans (by norm_num))).mono ?_
  · rw [← hq]
    exact le_trans (by norm_num) q2
  · refine (add_le_add_left k _).trans ?_
    norm_num

theorem spacevectors_ok (hA : A.Ok) : Passed A (spacevectorsChecks A 0) := by
  have z := eval_zero hA
  have g : ∀ {m : ℤ} {k : ℕ}, |((m : ℤ) : ℝ) / 2 ^ k| ≤ 1 → Check.eval A.fl A.sl (.fcmp (fin ((m : ℝ) / 2 ^ k)) (fin ((m : ℝ) / 2 ^ k))) = true :=
    fun h => eval_self hA (N.of _) (by norm_num at h ⊢; linarith)
  have g1 := g (m := 13421773) (k := 27) (by norm_num)
  have g2 := g (m := 13421773) (k := 26) (by norm_num)
  have g3 := g (m := 10066330) (k := 25) (by norm_num)
  have d1 := eval_dec hA (x := 1.1) (by norm_num)
  have d2 := eval_dec hA (x := 1.2) (by norm_num)
  have d3 := eval_dec hA (x := 1.3) (by norm_num)
  have a1 := eval_dec hA (x := 3.1) (by norm_num)
  have a2 := eval_dec hA (x := 2.7) (by norm_num)
  have a3 := eval_dec hA (x := 1.414) (by norm_num)
  have k0 : Check.eval A.fl A.sl (.fcmp (rhoV A.fl V3.zero) 0) = true := by
    have r0 : rnd A.fl 1024 (fin 0) = fin 0 := by
      rw [rnd_double hA.fl (by rw [_root_.abs_zero]; positivity), hA.fl.fix repF_zero]
    have : rhoV A.fl V3.zero = 0 := by
      show sqrtD A.fl (addD A.fl (mulD A.fl 0 0) (mulD A.fl 0 0)) = 0
      rw [zero_eq, mulD, fin_mul, mul_zero, r0, addD, fin_add, add_zero, r0, sqrtD, sqrt_fin le_rfl, Real.sqrt_zero, r0]
    rw [this]
    exact z
  have k1 : Check.eval A.fl A.sl (.fcmp (rhoV A.fl (spaceF A)) (dec A 0.22360679774997896964)) = true := by
    have q : Real.sqrt (((13421773 : ℤ) : ℝ) / 2 ^ 27 * (((13421773 : ℤ) : ℝ) / 2 ^ 27) + ((13421773 : ℤ) : ℝ) / 2 ^ 26 * (((13421773 : ℤ) : ℝ) / 2 ^ 26)) ^ 2 = _ :=
      Real.sq_sqrt (by positivity)
    have w : |Real.sqrt (((13421773 : ℤ) : ℝ) / 2 ^ 27 * (((13421773 : ℤ) : ℝ) / 2 ^ 27) + ((13421773 : ℤ) : ℝ) / 2 ^ 26 * (((13421773 : ℤ) : ℝ) / 2 ^ 26)) -
        ((15005998 : ℤ) : ℝ) / 2 ^ 26| < 1 / 2 ^ 27 - 1 / 10 ^ 9 := by
      refine sqrt_near ?_ ?_ ?_ ?_ <;> norm_num
    have w' := abs_lt.1 w
    have n := trans_near hA (v := spaceF A) (x := ((13421773 : ℤ) : ℝ) / 2 ^ 27) (y := ((13421773 : ℤ) : ℝ) / 2 ^ 26) (d := 0)
      (by rw [spaceF_eq hA]; exact N.of _) (by rw [spaceF_eq hA]; exact N.of _) le_rfl (by norm_num) (by norm_num) (by norm_num) q
      (by norm_num at w' ⊢; linarith [w'.1]) (by norm_num at w' ⊢; linarith [w'.2])
    refine eval_cell hA 15005998 26 (by norm_num) (by norm_num) (by norm_num) n (N.lit hA.fl (by norm_num)) ?_ (by norm_num)
    generalize |Real.sqrt (((13421773 : ℤ) : ℝ) / 2 ^ 27 * (((13421773 : ℤ) : ℝ) / 2 ^ 27) + ((13421773 : ℤ) : ℝ) / 2 ^ 26 * (((13421773 : ℤ) : ℝ) / 2 ^ 26)) -
        ((15005998 : ℤ) : ℝ) / 2 ^ 26| = W at *
    norm_num at w ⊢
    linarith
  have k2 : Check.eval A.fl A.sl (.fcmp (transV A.fl (spaceD A)) (dec A 1.62788205960997063873)) = true := by
    have q : Real.sqrt (1.1 * 1.1 + 1.2 * 1.2) ^ 2 = _ := Real.sq_sqrt (by positivity)
    have w : |Real.sqrt (1.1 * 1.1 + 1.2 * 1.2) - ((13655664 : ℤ) : ℝ) / 2 ^ 23| < 1 / 2 ^ 24 - 1 / 10 ^ 9 := by
      refine sqrt_near ?_ ?_ ?_ ?_ <;> norm_num
    have w' := abs_lt.1 w
    have n := trans_near hA (v := spaceD A) (x := 1.1) (y := 1.2) (d := 3 / 10 ^ 14) (N.lit hA.fl (by norm_num)) (N.lit hA.fl (by norm_num))
      (by norm_num) (by norm_num) (by norm_num) (by norm_num) q (by norm_num at w' ⊢; linarith [w'.1]) (by norm_num at w' ⊢; linarith [w'.2])
    refine eval_cell hA 13655664 23 (by norm_num) (by norm_num) (by norm_num) n (N.lit hA.fl (by norm_num)) ?_ (by norm_num)
    generalize |Real.sqrt (1.1 * 1.1 + 1.2 * 1.2) - ((13655664 : ℤ) : ℝ) / 2 ^ 23| = W at *
    norm_num at w ⊢
    linarith
  have k3 : Check.eval A.fl A.sl (.fcmp (rhoV A.fl ⟨dec A 3.1, dec A 2.7, (spaceF A).z⟩)
      (sqrtD A.fl (addD A.fl (mulD A.fl (dec A 3.1) (dec A 3.1)) (mulD A.fl (dec A 2.7) (dec A 2.7))))) = true := by
    have q : Real.sqrt (3.1 * 3.1 + 2.7 * 2.7) ^ 2 = _ := Real.sq_sqrt (by positivity)
    have w : |Real.sqrt (3.1 * 3.1 + 2.7 * 2.7) - 4| < 1 := by
      refine sqrt_near ?_ ?_ ?_ ?_ <;> norm_num
    have w' := abs_lt.1 w
    have n := trans_near hA (v := ⟨dec A 3.1, dec A 2.7, (spaceF A).z⟩) (x := 3.1) (y := 2.7) (d := 3 / 10 ^ 14) (N.lit hA.fl (by norm_num))
      (N.lit hA.fl (by norm_num)) (by norm_num) (by norm_num) (by norm_num) (by norm_num) q (by linarith [w'.1]) (by linarith [w'.2])
    refine eval_self hA n ?_
    rw [abs_of_nonneg (Real.sqrt_nonneg _)]
    have := w'.2
    norm_num at this ⊢
    linarith
  intro c hc
  simp only [spacevectorsChecks, spacevectorsTest, spacevectorsState, List.mem_append, List.mem_cons, List.not_mem_nil, or_false] at hc
  have f := spaceF_eq hA
  rcases hc with (rfl | rfl | rfl | rfl | rfl | rfl | rfl | rfl | rfl | rfl | rfl | rfl | rfl | rfl | rfl | rfl | rfl | rfl) |
      (rfl | rfl | rfl)
  · exact z
  · exact z
  · exact z
  · rw [f]; exact g1
  · rw [f]; exact g2
  · rw [f]; exact g3
  · rw [f]; exact g1
  · rw [f]; exact g2
  · rw [f]; exact g3
  · exact d1
  · exact d2
  · exact d3
  · exact a1
  · exact a2
  · exact a3
  · exact k0
  · exact k1
  · exact k2
  · exact a1
  · exact a2
  · exact k3

end RUT

end Verif
