import Verif.Lemmas.RoundedUnitTests

/-!
# The tests of intersections and tracks in double precision
-/

open Classical

noncomputable section

namespace Verif

open Dbl Rnd UT

namespace RUT

variable {A : TestLib} {fl sl : ℝ → ℝ}

/-- quarters of small whole numbers are exact -/
theorem quarter_exact (h : NearestF 53 1074 fl) (n : ℤ) (hn : |n| ≤ 1000) {x : ℝ} (hx : x = n / 4) : rnd fl 1024 (fin x) = fin x := by
  have r : RepF 53 1074 x := by
    refine ⟨n, 1072, hn.trans (by norm_num), ?_⟩
    rw [hx, show (2 : ℝ) ^ 1074 = 4 * 2 ^ 1072 by rw [show (4 : ℝ) = 2 ^ 2 by norm_num, ← pow_add]]
    ring
  have b : |x| ≤ 2 ^ 1000 := by
    have k : |(n : ℝ)| ≤ 1000 := by exact_mod_cast hn
    have : (2 : ℝ) ^ 10 ≤ 2 ^ 1000 := pow_le_pow_right₀ (by norm_num) (by norm_num)
    rw [hx, abs_div]
    rw [abs_of_pos (by norm_num : (0 : ℝ) < 4)]
    have e : |(n : ℝ)| / 4 ≤ 2 ^ 10 := by norm_num; linarith
    exact e.trans this
  rw [rnd_double h b, h.fix r]

theorem tiny_value (h : NearestF 53 1074 fl) {x : ℝ} (h0 : 0 < x) (h1 : x ≤ 1 / 100) (h2 : 1 / 10 ^ 12 ≤ x) : ∃ t, rnd fl 1024 (fin x) = fin t ∧ 0 < t ∧ t ≤ 1 / 10 := by
  obtain ⟨t, t1, t2⟩ := N.round h (r := x) (x := x) (d := 0) (by simp) (by norm_num) (by rw [abs_of_pos h0]; linarith)
  have := abs_le.1 t2
  norm_num at this h1 h2
  exact ⟨t, t1, by linarith, by linarith⟩

theorem intersection_ok (hA : A.Ok) : ∃ l, intersectionChecks A = .ok l ∧ l.length = 16 ∧ Passed A l := by
  have h := hA.fl
  have q := fun (n : ℤ) (x : ℝ) (hn : |n| ≤ 1000) (hx : x = n / 4) => quarter_exact h n hn hx
  have r0 := q 0 0 (by norm_num) (by norm_num)
  have r1 := q 4 1 (by norm_num) (by norm_num)
  have rm1 := q (-4) (-1) (by norm_num) (by norm_num)
  have r2 := q 8 2 (by norm_num) (by norm_num)
  have r4 := q 16 4 (by norm_num) (by norm_num)
  have r8 := q 32 8 (by norm_num) (by norm_num)
  have rh := q 2 (1 / 2) (by norm_num) (by norm_num)
  have rmh := q (-2) (-1 / 2) (by norm_num) (by norm_num)
  have rmh' := q (-2) (-(1 / 2)) (by norm_num) (by norm_num)
  have rq := q 1 (1 / 4) (by norm_num) (by norm_num)
  have r3 := q 3 (3 / 4) (by norm_num) (by norm_num)
  have c1 : Circle.make 0 0 1 = .ok ⟨0, 0, 1⟩ := by simp only [Circle.make, zero_eq, one_eq]; rw [cif_neg (by rw [fin_lt]; norm_num)]
  have c2 : Circle.make 1 1 1 = .ok ⟨1, 1, 1⟩ := by simp only [Circle.make, zero_eq, one_eq]; rw [cif_neg (by rw [fin_lt]; norm_num)]
  obtain ⟨tn, n1, n2, n3⟩ := tiny_value h (x := 1e-12) (by norm_num) (by norm_num) (by norm_num)
  obtain ⟨tt, t1, t2, t3⟩ := tiny_value h (x := 1e-9) (by norm_num) (by norm_num) (by norm_num)
  have N1 : tinyNormalD A.fl = fin tn := n1
  have T1 : tinyD A.fl = fin tt := t1
  have l1 : makeLine A.fl 0 1 0.5 = .ok ⟨0, 1, 0.5⟩ := by
    simp only [makeLine, N1, zero_eq, one_eq, ofSci_eq, abs_fin]
    rw [cif_neg (by rw [fin_lt]; norm_num), cif_neg (by rw [fin_lt, fin_lt]; norm_num; intro _; linarith)]
  have l2 : makeLine A.fl 1 1 0 = .ok ⟨1, 1, 0⟩ := by
    simp only [makeLine, N1, zero_eq, one_eq, ofSci_eq, abs_fin]
    rw [cif_neg (by rw [fin_lt]; norm_num), cif_neg (by rw [fin_lt]; norm_num; linarith)]
  have l3 : makeLine A.fl (fin 2) (fin 2) (fin 2) = .ok ⟨fin 2, fin 2, fin 2⟩ := by
    simp only [makeLine, N1, zero_eq, one_eq, ofSci_eq, abs_fin]
    rw [cif_neg (by rw [fin_lt]; norm_num), cif_neg (by rw [fin_lt]; norm_num; linarith)]
  have sq4 : Real.sqrt 4 = 2 := by
    rw [show (4 : ℝ) = 2 ^ 2 by norm_num, Real.sqrt_sq (by norm_num)]
  have s4 : sqrtD A.fl (fin 4) = fin 2 := by
    rw [sqrtD, sqrt_fin (by norm_num), sq4, r2]
  have cs : Rnd.intersectCircleStraightLine A.fl ⟨0, 0, 1⟩ ⟨fin 2, fin 2, fin 2⟩ = [(fin 1, fin 0), (fin 0, fin 1)] := by
    have e1 : subD A.fl (fin 2) (addD A.fl (mulD A.fl (fin 2) (fin 0)) (mulD A.fl (fin 2) (fin 0))) = fin 2 := by
      norm_num [mulD, addD, subD, r0, r2]
    have e2 : Rnd.normalSquare A.fl ⟨fin 2, fin 2, fin 2⟩ = fin 8 := by
      norm_num [Rnd.normalSquare, mulD, addD, r4, r8]
    have e3 : subD A.fl (mulD A.fl (mulD A.fl (fin 1) (fin 1)) (fin 8)) (mulD A.fl (fin 2) (fin 2)) = fin 4 := by
      norm_num [mulD, subD, r1, r4, r8]
    have r8' : rnd A.fl 1024 (fin (1 / 8)) = fin (1 / 8) := by
      rw [rnd_double h, h.fix ⟨1, 1071, by norm_num, ?_⟩]
      · rw [show (2 : ℝ) ^ 1074 = 8 * 2 ^ 1071 by rw [show (8 : ℝ) = 2 ^ 3 by norm_num, ← pow_add]]
        push_cast
        ring
      · rw [abs_of_pos (by norm_num)]
        have : (1 : ℝ) ≤ 2 ^ 1000 := one_le_pow₀ (by norm_num)
        exact le_trans (by norm_num) this
    have e4 : divD A.fl (fin 1) (fin 8) = fin (1 / 8) := by
      rw [divD, fin_div _ (by norm_num), r8']
    simp only [Rnd.intersectCircleStraightLine, moveLine, zero_eq, one_eq, e1, e2, e3, T1, abs_fin]
    rw [cif_neg (by rw [fin_lt]; norm_num), cif_neg (by rw [fin_le, abs_of_pos (by norm_num)]; linarith), s4, e4]
    norm_num [mulD, addD, subD, r0, r1, r2, r4, r8]
  have cc : Rnd.intersectCircleCircle A.fl ⟨0, 0, 1⟩ ⟨1, 1, 1⟩ = .ok [(fin 1, fin 0), (fin 0, fin 1)] := by
    have e1 : mulD A.fl 2 (subD A.fl 1 0) = fin 2 := by
      simp only [zero_eq, one_eq, ofNat_eq, mulD, subD, fin_mul, fin_sub, sub_zero, r1, mul_one]
      exact r2
    have e2 : addD A.fl (subD A.fl (addD A.fl (subD A.fl (subD A.fl (mulD A.fl 1 1) (mulD A.fl 1 1)) (mulD A.fl 0 0)) (mulD A.fl 1 1))
        (mulD A.fl 0 0)) (mulD A.fl 1 1) = fin 2 := by
      simp only [zero_eq, one_eq, mulD, subD, addD, fin_mul, fin_sub, fin_add, mul_one, mul_zero, sub_self, sub_zero, zero_add, r0, r1]
      rw [show (1 : ℝ) + 1 = 2 by norm_num, r2]
    simp only [Rnd.intersectCircleCircle]
    rw [e1, e2, l3, Out.ok_bind, cs, Out.pure_eq]
  obtain ⟨w, w1, w2⟩ : N (sqrtD A.fl (fin 0.75)) (Real.sqrt 0.75) (1 / 10 ^ 10) := by
    have w : |Real.sqrt 0.75 - 1| < 1 / 2 := by
      refine sqrt_near ?_ ?_ ?_ ?_ <;> norm_num
    have w' := abs_lt.1 w
    refine (N.sqrt h (N.of 0.75) (by linarith [w'.1]) (Real.sq_sqrt (by norm_num)).symm (by norm_num) (by linarith [w'.2]) (by norm_num)).mono (by norm_num)
  have sw : sqrtD A.fl 0.75 = fin w := by rw [ofSci_eq]; exact w1
  have wrep : RepF 53 1074 w := by
    rw [sqrtD, sqrt_fin (by norm_num)] at w1
    have b : |Real.sqrt 0.75| ≤ 2 ^ 1000 := by
      rw [abs_of_nonneg (Real.sqrt_nonneg _), Real.sqrt_le_left (by positivity)]
      have : (1 : ℝ) ≤ (2 ^ 1000) ^ 2 := one_le_pow₀ (one_le_pow₀ (by norm_num))
      exact le_trans (by norm_num) this
    rw [rnd_double h b, fin_inj] at w1
    exact w1 ▸ h.rep _
  have b2 : |w| ≤ 2 ^ 1000 := by
    have h1 := abs_sub_abs_le_abs_sub w (Real.sqrt 0.75)
    have h2 : |Real.sqrt 0.75| ≤ 1 := by
      rw [abs_of_nonneg (Real.sqrt_nonneg _), Real.sqrt_le_left (by norm_num)]
      norm_num
    have : (2 : ℝ) ≤ 2 ^ 1000 := le_self_pow₀ (by norm_num) (by norm_num)
    refine le_trans ?_ this
    have w3 := w2.trans (by norm_num : (1 : ℝ) / 10 ^ 10 ≤ 1)
    linarith
  have wr : rnd A.fl 1024 (fin w) = fin w := by
    rw [rnd_double h b2, h.fix wrep]
  have wm : rnd A.fl 1024 (fin (-w)) = fin (-w) := by
    rw [rnd_double h (by rwa [_root_.abs_neg]), h.fix (repF_neg wrep)]
  have cl : Rnd.intersectCircleStraightLine A.fl ⟨0, 0, 1⟩ ⟨0, 1, 0.5⟩ = [(fin w, fin (1 / 2)), (fin (-w), fin (1 / 2))] := by
    have hh : (0.5 : Dbl) = fin (1 / 2) := by rw [ofSci_eq]; norm_num
    have e1 : subD A.fl (fin (1 / 2)) (addD A.fl (mulD A.fl (fin 0) (fin 0)) (mulD A.fl (fin 1) (fin 0))) = fin (1 / 2) := by
      simp only [mulD, subD, addD, fin_mul, fin_sub, fin_add, mul_zero, sub_zero, add_zero, r0]
      exact rh
    have e2 : Rnd.normalSquare A.fl ⟨fin 0, fin 1, fin (1 / 2)⟩ = fin 1 := by
      simp only [Rnd.normalSquare, mulD, addD, fin_mul, fin_add, mul_zero, mul_one, zero_add, r0, r1]
    have e3 : subD A.fl (mulD A.fl (mulD A.fl (fin 1) (fin 1)) (fin 1)) (mulD A.fl (fin (1 / 2)) (fin (1 / 2))) = fin (3 / 4) := by
      simp only [mulD, subD, fin_mul, fin_sub, mul_one, r1]
      rw [show (1 : ℝ) / 2 * (1 / 2) = 1 / 4 by norm_num, rq, fin_sub, show (1 : ℝ) - 1 / 4 = 3 / 4 by norm_num, r3]
    have e4 : divD A.fl (fin 1) (fin 1) = fin 1 := by
      rw [divD, fin_div _ (by norm_num), div_one, r1]
    have e5 : sqrtD A.fl (fin (3 / 4)) = fin w := by
      rw [← w1]; norm_num
    simp only [Rnd.intersectCircleStraightLine, moveLine, zero_eq, one_eq, hh, e1, e2, e3, T1, abs_fin]
    rw [cif_neg (by rw [fin_lt]; norm_num), cif_neg (by rw [fin_le, abs_of_pos (by norm_num)]; linarith), e4, e5]
    simp only [mulD, addD, subD, fin_mul, fin_add, fin_sub, zero_mul, one_mul, mul_one, r0, rh, wr, zero_add, sub_zero, zero_sub, add_zero, wm]
  have ll : Rnd.intersectStraightLineStraightLine A.fl ⟨1, 1, 0⟩ ⟨0, 1, 0.5⟩ = [(fin (-(1 / 2)), fin (1 / 2))] := by
    have hh : (0.5 : Dbl) = fin (1 / 2) := by rw [ofSci_eq]; norm_num
    simp only [Rnd.intersectStraightLineStraightLine, zero_eq, one_eq, hh, T1, mulD, subD, fin_mul, fin_sub, mul_one, zero_mul, one_mul, r1, r0, rh, sub_zero, zero_sub, mul_zero, rmh']
    rw [cif_neg (by rw [fin_lt]; linarith), divD, divD, fin_div _ (by norm_num), fin_div _ (by norm_num), div_one, div_one, rh, rmh']
  have t1 : ∃ w, Circle.make 0 0 (-1) = .throw w := by simp [Circle.make]
  have t2 : ∃ w, makeLine A.fl 0 (-1) (-1) = .throw w := by
    simp only [makeLine, zero_eq, one_eq, fin_neg]
    rw [cif_pos (by rw [fin_lt]; norm_num)]
    exact ⟨_, rfl⟩
  have t3 : ∃ w, makeLine A.fl 0 0 12 = .throw w := by
    simp only [makeLine, N1, zero_eq, ofNat_eq, abs_fin]
    rw [cif_neg (by rw [fin_lt]; norm_num), cif_pos (by rw [fin_lt, _root_.abs_zero]; exact ⟨n2, n2⟩)]
    exact ⟨_, rfl⟩
  obtain ⟨x1, t1⟩ := t1
  obtain ⟨x2, t2⟩ := t2
  obtain ⟨x3, t3⟩ := t3
  simp only [intersectionChecks, c1, c2, l1, l2, Out.ok_bind, cc, cl, ll, t1, t2, t3, checkThrow, get_first, get_second, Out.pure_eq]
  refine ⟨_, rfl, rfl, ?_⟩
  intro c hc
  simp only [List.mem_append, List.mem_cons, List.not_mem_nil, or_false] at hc
  have z : Check.eval A.fl A.sl (.fcmp (fin 0) 0) = true := by rw [← zero_eq]; exact eval_zero hA
  have o : Check.eval A.fl A.sl (.fcmp (fin 1) 1) = true := by rw [← one_eq]; exact eval_one hA
  have hf : Check.eval A.fl A.sl (.fcmp (fin (1 / 2)) 0.5) = true := by
    rw [ofSci_eq, show (0.5 : ℝ) = 1 / 2 by norm_num]; exact eval_self hA (N.of _) (by norm_num)
  have mh : Check.eval A.fl A.sl (.fcmp (fin (-(1 / 2))) (-0.5)) = true := by
    rw [ofSci_eq, fin_neg, show (0.5 : ℝ) = 1 / 2 by norm_num]; exact eval_self hA (N.of _) (by norm_num)
  have wb : |Real.sqrt 0.75| ≤ 1 := by
    rw [abs_of_nonneg (Real.sqrt_nonneg _), Real.sqrt_le_left (by norm_num)]
    norm_num
  have sq : Check.eval A.fl A.sl (.fcmp (fin w) (sqrtD A.fl 0.75)) = true := by
    rw [sw]; exact eval_self hA ⟨w, rfl, w2⟩ (by norm_num at wb ⊢; linarith)
  have ms : Check.eval A.fl A.sl (.fcmp (fin (-w)) (-sqrtD A.fl 0.75)) = true := by
    rw [sw, fin_neg]; exact eval_self hA (N.neg ⟨w, rfl, w2⟩) (by rw [_root_.abs_neg]; norm_num at wb ⊢; linarith)
  rcases hc with ((((((rfl | rfl | rfl | rfl | rfl) | (rfl | rfl | rfl | rfl | rfl)) | (rfl | rfl | rfl)) | rfl) | rfl) | rfl) <;>
    first
    | exact z
    | exact o
    | exact hf
    | exact mh
    | exact sq
    | exact ms
    | exact rfl

end RUT

end Verif
