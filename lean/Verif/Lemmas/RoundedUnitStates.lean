import Verif.Lemmas.RoundedUnitTests

/-!
# The tests of track states in double precision
-/

open Classical

noncomputable section

namespace Verif

open Dbl Rnd UT

namespace RUT

variable {A : TestLib} {fl sl : ℝ → ℝ}

theorem tenth_near (h : NearestF 53 1074 fl) : N (rnd fl 1024 (fin (1 / 10))) (1 / 10) (2 / 10 ^ 17) := by
  refine ⟨fl (1 / 10), rnd_double h ?_, ?_⟩
  · have : (1 : ℝ) ≤ 2 ^ 1000 := one_le_pow₀ (by norm_num)
    exact le_trans (by norm_num) this
  · have e1 := err_double h (1 / 10)
    have t := tiny1075
    rw [abs_of_pos (by norm_num : (0 : ℝ) < 1 / 10)] at e1
    generalize (1 : ℝ) / 2 ^ 1075 = η at *
    refine e1.trans ?_
    norm_num at *
    linarith

theorem mm_near (hA : A.Ok) : N (mmD A.fl) (1 / 10) (2 / 10 ^ 17) := tenth_near hA.fl

/-- a small `float` in other units -/
theorem div_mm (hA : A.Ok) {a : Dbl} {x d : ℝ} (ha : N a x d) (hx : |x| ≤ 1 / 100) (hd : d ≤ 1 / 100) (d0 : 0 ≤ d) : N (divD A.fl a (mmD A.fl)) (x * 10) (11 * d + 4 / 10 ^ 14) := by
  have q : |x * 10| ≤ 1 / 10 := by rw [abs_mul, abs_of_pos (by norm_num : (0 : ℝ) < 10)]; linarith
  have k : (d + |x * 10| * (2 / 10 ^ 17)) / (1 / 11) ≤ 11 * d + 1 / 10 ^ 14 := by
    rw [div_le_iff₀ (by norm_num)]
    norm_num
    linarith
  refine (N.div hA.fl ha (mm_near hA) (q := x * 10) (m := 1 / 11) (by ring) (by norm_num) ?_ (by linarith) ?_).mono ?_
  · rw [abs_of_pos (by norm_num)]; norm_num
  · refine k.trans ?_
    norm_num
    linarith
  · refine (add_le_add_left k _).trans ?_
    norm_num
    linarith

theorem mul_mm (hA : A.Ok) {a : Dbl} {x d : ℝ} (ha : N a x d) (hx : |x| ≤ 100) (hd : d ≤ 1) (d0 : 0 ≤ d) : N (mulD A.fl a (mmD A.fl)) (x * (1 / 10)) (d / 9 + 4 / 10 ^ 14) := by
  refine (N.mul hA.fl ha (mm_near hA) (X := 100) (Y := 1 / 10) hx (by norm_num) ?_ ?_).mono ?_
  · norm_num
    linarith
  · rw [abs_mul, abs_of_pos (by norm_num : (0 : ℝ) < 1 / 10)]
    linarith
  · norm_num
    linarith

/-- a decimal as `float` -/
theorem dec_small (hA : A.Ok) {x : ℝ} (hx : |x| ≤ 1 / 500) : N (toFloat A.sl (dec A x)) x (1 / 10 ^ 9) := by
  have : (|x| + 3 / 10 ^ 14) / 10 ^ 7 ≤ 3 / 10 ^ 10 := by
    rw [div_le_iff₀ (by norm_num)]
    norm_num
    linarith
  refine (toFloat_small hA.sl (N.lit hA.fl (by linarith)) ?_).mono ?_
  · norm_num; linarith
  · have := add_le_add_left this ((3 : ℝ) / 10 ^ 14)
    norm_num at this ⊢
    linarith

theorem ndec_small (hA : A.Ok) {x : ℝ} (hx : |x| ≤ 1 / 500) : N (toFloat A.sl (-dec A x)) (-x) (1 / 10 ^ 9) := by
  have : (|-x| + 3 / 10 ^ 14) / 10 ^ 7 ≤ 3 / 10 ^ 10 := by
    rw [div_le_iff₀ (by norm_num), _root_.abs_neg]
    norm_num
    linarith
  refine (toFloat_small hA.sl (N.lit hA.fl (by linarith)).neg ?_).mono ?_
  · rw [_root_.abs_neg]; norm_num; linarith
  · have := add_le_add_left this ((3 : ℝ) / 10 ^ 14)
    rw [_root_.abs_neg] at *
    norm_num at this ⊢
    linarith

theorem float_874 (hA : A.Ok) : toFloat A.sl (dec A 0.874685) = fin (((14674779 : ℤ) : ℝ) / 2 ^ 24) :=
  toFloat_cell hA.sl (N.lit hA.fl (by norm_num)) _ _ (by norm_num) (by norm_num) (by norm_num) (by norm_num)

theorem float_411 (hA : A.Ok) : toFloat A.sl (-dec A 0.411434) = fin (((-13805434 : ℤ) : ℝ) / 2 ^ 25) :=
  toFloat_cell hA.sl (N.lit hA.fl (by norm_num)).neg _ _ (by norm_num) (by norm_num) (by norm_num) (by norm_num)

theorem unit_self (hA : A.Ok) (i j : Fin 5) : Check.eval A.fl A.sl (.fcmp (unitM i j) (unitM i j)) = true := by
  by_cases q : i = j
  · rw [show unitM i j = 1 from if_pos q]
    exact eval_one hA
  · rw [show unitM i j = 0 from if_neg q]
    exact eval_zero hA

theorem initial_ok (hA : A.Ok) : ∃ l, initialTrackChecks A = .ok l ∧ l.length = 32 ∧ Passed A l := by
  set om := toFloat A.sl (-dec A 0.00021121) with hom
  set tl := toFloat A.sl (dec A 0.874685) with htl
  set ph := toFloat A.sl (-dec A 0.411434) with hph
  set d0 := toFloat A.sl (dec A 9.3253e-06) with hd0
  set z0 := toFloat A.sl (-dec A 0.000176128) with hz0
  have e : initialState A = ⟨1, d0, ph, om, z0, tl, [1, 0, 0, 0, 0, 0, 1, 0, 0, 0, 0, 0, 1, 0, 0], V3.zero⟩ := rfl
  have er : ∃ tp, Rnd.readLCIO A.fl (initialState A) = .ok tp ∧
      tp.hp = ![divD A.fl om (mmD A.fl), tl, ph, mulD A.fl d0 (mmD A.fl), mulD A.fl z0 (mmD A.fl)] := by
    rw [e]
    refine ⟨_, rfl, ?_⟩
    funext i
    fin_cases i <;> rfl
  obtain ⟨tp, e1, e2⟩ := er
  have hm : ∀ i j : Fin 5, cm.getD (5 * i.val + j.val) 0 = unitM i j := by
    intro i j
    fin_cases i <;> fin_cases j <;> rfl
  rw [initialTrackChecks]
  simp only
  rw [e1, Out.ok_bind, cm_ok, Out.ok_bind, Out.pure_eq]
  refine ⟨_, rfl, rfl, ?_⟩
  have s1 : Check.eval A.fl A.sl (.fcmp (divD A.fl om (mmD A.fl)) (divD A.fl om (mmD A.fl))) = true :=
    eval_self hA (div_mm hA (ndec_small hA (by norm_num)) (by norm_num) (by norm_num) (by norm_num)) (by norm_num)
  have s2 : Check.eval A.fl A.sl (.fcmp tl tl) = true := by
    rw [htl, float_874 hA]
    exact eval_self hA (N.of _) (by norm_num)
  have s3 : Check.eval A.fl A.sl (.fcmp ph ph) = true := by
    rw [hph, float_411 hA]
    exact eval_self hA (N.of _) (by norm_num)
  have s4 : Check.eval A.fl A.sl (.fcmp (mulD A.fl d0 (mmD A.fl)) (mulD A.fl d0 (mmD A.fl))) = true :=
    eval_self hA (mul_mm hA (dec_small hA (by norm_num)) (by norm_num) (by norm_num) (by norm_num)) (by norm_num)
  have s5 : Check.eval A.fl A.sl (.fcmp (mulD A.fl z0 (mmD A.fl)) (mulD A.fl z0 (mmD A.fl))) = true :=
    eval_self hA (mul_mm hA (ndec_small hA (by norm_num)) (by norm_num) (by norm_num) (by norm_num)) (by norm_num)
  have s6 : Check.eval A.fl A.sl (.fcmp (atanD A.fl A.atn tl) (atanD A.fl A.atn tl)) = true := by
    rw [htl, float_874 hA]
    refine eval_self hA (x := Real.arctan (((14674779 : ℤ) : ℝ) / 2 ^ 24)) (d := 3) ⟨_, rfl, ?_⟩ ?_
    · have k := hA.atn (((14674779 : ℤ) : ℝ) / 2 ^ 24)
      have t := tiny1074
      have b : |Real.arctan (((14674779 : ℤ) : ℝ) / 2 ^ 24)| ≤ 2 := by
        have a := Real.arctan_lt_pi_div_two (((14674779 : ℤ) : ℝ) / 2 ^ 24)
        have b := Real.neg_pi_div_two_lt_arctan (((14674779 : ℤ) : ℝ) / 2 ^ 24)
        have c := Real.pi_lt_four
        rw [abs_le]
        constructor <;> linarith
      have k2 : |Real.arctan (((14674779 : ℤ) : ℝ) / 2 ^ 24)| / 2 ^ 52 ≤ 2 / 2 ^ 52 := div_le_div_of_nonneg_right b (by positivity)
      refine k.trans ((add_le_add k2 t).trans ?_)
      norm_num
    · have a := Real.arctan_lt_pi_div_two (((14674779 : ℤ) : ℝ) / 2 ^ 24)
      have b := Real.neg_pi_div_two_lt_arctan (((14674779 : ℤ) : ℝ) / 2 ^ 24)
      have c := Real.pi_lt_four
      have k : |Real.arctan (((14674779 : ℤ) : ℝ) / 2 ^ 24)| ≤ 2 := by
        rw [abs_le]
        constructor <;> linarith
      have k3 : (2 : ℝ) + 3 ≤ 2 ^ 127 := by norm_num
      linarith
  intro c hc
  simp only [hm, List.mem_append, List.mem_cons, List.not_mem_nil, or_false] at hc
  rcases hc with ((rfl | rfl | rfl | rfl | rfl) | hc) | (rfl | rfl)
  · show Check.eval A.fl A.sl (.fcmp (tp.hp 0) _) = true
    rw [e2]; exact s1
  · show Check.eval A.fl A.sl (.fcmp (tp.hp 1) _) = true
    rw [e2]; exact s2
  · show Check.eval A.fl A.sl (.fcmp (tp.hp 2) _) = true
    rw [e2]; exact s3
  · show Check.eval A.fl A.sl (.fcmp (tp.hp 3) _) = true
    rw [e2]; exact s4
  · show Check.eval A.fl A.sl (.fcmp (tp.hp 4) _) = true
    rw [e2]; exact s5
  · obtain ⟨p, -, rfl⟩ := List.mem_map.1 hc
    exact unit_self hA p.1 p.2
  · show Check.eval A.fl A.sl (.fcmp (tp.hp 0) (tp.hp 0)) = true
    rw [e2]; exact s1
  · show Check.eval A.fl A.sl (.fcmp (atanD A.fl A.atn (tp.hp 1)) (atanD A.fl A.atn (tp.hp 1))) = true
    rw [e2]; exact s6

theorem final_ok (hA : A.Ok) : ∃ l, finalTrackChecks A = .ok l ∧ l.length = 30 ∧ Passed A l := by
  have h := hA.fl
  obtain ⟨mm, em, bm⟩ := mm_near hA
  have bm' := abs_le.1 bm
  norm_num at bm'
  have mm0 : mm ≠ 0 := by
    intro e
    rw [e] at bm'
    linarith
  have r0 : rnd A.fl 1024 (fin 0) = fin 0 := by
    rw [rnd_double h (by rw [_root_.abs_zero]; positivity), h.fix repF_zero]
  have f0 : toFloat A.sl 0 = 0 := by
    rw [zero_eq, toFloat_ok hA.sl (by rw [_root_.abs_zero]; positivity), hA.sl.fix repF_zero]
  have f1 : toFloat A.sl 1 = fin 1 := by
    have := toFloat_cell hA.sl (N.of 1) 16777216 24 (by norm_num) (by norm_num) (by norm_num) (by norm_num)
    rw [one_eq, this]
    norm_num
  have n2 : N (mulD A.fl (mmD A.fl) (mmD A.fl)) (1 / 100) (4 / 10 ^ 14) := by
    have := (N.mul h (mm_near hA) (mm_near hA) (X := 1 / 10) (Y := 1 / 10) (by norm_num) (by norm_num) (by norm_num) (by norm_num)).mono
      (e := 4 / 10 ^ 14) (by norm_num)
    rwa [show (1 : ℝ) / 10 * (1 / 10) = 1 / 100 by norm_num] at this
  obtain ⟨m2, em2, bm2⟩ := id n2
  have bm2' := abs_le.1 bm2
  norm_num at bm2'
  have m20 : m2 ≠ 0 := by
    intro e
    rw [e] at bm2'
    linarith
  have z1 : divD A.fl 0 (mmD A.fl) = 0 := by rw [em, zero_eq, divD, fin_div _ mm0, zero_div, r0]
  have z2 : mulD A.fl 0 (mmD A.fl) = 0 := by rw [em, zero_eq, mulD, fin_mul, zero_mul, r0]
  have z3 : divD A.fl 0 (mulD A.fl (mmD A.fl) (mmD A.fl)) = 0 := by rw [em2, zero_eq, divD, fin_div _ m20, zero_div, r0]
  have n3 : N (divD A.fl 1 (mulD A.fl (mmD A.fl) (mmD A.fl))) 100 (1 / 10 ^ 9) := by
    rw [one_eq]
    refine (N.div h (N.of 1) n2 (q := 100) (m := 1 / 101) (by norm_num) (by norm_num) (by norm_num) (by norm_num) (by norm_num)).mono (by norm_num)
  have t3 : toFloat A.sl (divD A.fl 1 (mulD A.fl (mmD A.fl) (mmD A.fl))) = fin 100 := by
    rw [toFloat_cell hA.sl n3 13107200 17 (by norm_num) (by norm_num) (by norm_num) (by norm_num)]
    norm_num
  have c1 : Check.eval A.fl A.sl (.fcmp 1 (mulD A.fl (mulD A.fl (fin 100) (mmD A.fl)) (mmD A.fl))) = true := by
    have k := mul_mm hA (mul_mm hA (N.of 100) (by norm_num) (by norm_num) le_rfl) (by norm_num) (by norm_num) (by norm_num)
    rw [one_eq]
    refine eval_cell hA 16777216 24 (by norm_num) (by norm_num) (by norm_num) (N.of 1) k ?_ ?_ <;> norm_num
  have t5 : toFloat A.sl (mulD A.fl 1 (mulD A.fl (mmD A.fl) (mmD A.fl))) = fin (((10737418 : ℤ) : ℝ) / 2 ^ 30) := by
    have k := N.mul h (N.of 1) n2 (X := 1) (Y := 1) (by norm_num) (by norm_num) (by norm_num) (by norm_num)
    rw [one_eq]
    exact toFloat_cell hA.sl k _ _ (by norm_num) (by norm_num) (by norm_num) (by norm_num)
  have c2 : Check.eval A.fl A.sl (.fcmp 1 (divD A.fl (fin (((10737418 : ℤ) : ℝ) / 2 ^ 30)) (mulD A.fl (mmD A.fl) (mmD A.fl)))) = true := by
    have k := N.div h (N.of (((10737418 : ℤ) : ℝ) / 2 ^ 30)) n2 (q := ((10737418 : ℤ) : ℝ) / 2 ^ 30 * 100) (m := 1 / 101) (by norm_num) (by norm_num) (by norm_num)
      (by norm_num) (by norm_num)
    rw [one_eq]
    refine eval_cell hA 16777216 24 (by norm_num) (by norm_num) (by norm_num) (N.of 1) k ?_ ?_ <;> norm_num
  have c0 := eval_zero hA
  have c3 : Check.eval A.fl A.sl (.fcmp 1 (fin 1)) = true := by
    rw [← one_eq]; exact eval_one hA
  have a1 : Check.eval A.fl A.sl (.fcmp (-dec A 0.00021121) (divD A.fl (toFloat A.sl (mulD A.fl (-dec A 0.00021121) (mmD A.fl))) (mmD A.fl))) = true := by
    have n := (N.lit h (x := 0.00021121) (by norm_num)).neg
    have k1 := mul_mm hA n (by norm_num) (by norm_num) (by norm_num)
    have k2 := (toFloat_small hA.sl k1 (by norm_num)).mono (e := 3 / 10 ^ 12) (by norm_num)
    have k3 := div_mm hA k2 (by norm_num) (by norm_num) (by norm_num)
    refine eval_small hA n k3 ?_ ?_ ?_ <;> norm_num
  have a2 : Check.eval A.fl A.sl (.fcmp (dec A 0.874685) (toFloat A.sl (dec A 0.874685))) = true := by
    rw [float_874 hA]
    refine eval_cell hA 14674779 24 (by norm_num) (by norm_num) (by norm_num) (N.lit h (by norm_num)) (N.of _) ?_ ?_ <;> norm_num
  have a3 : Check.eval A.fl A.sl (.fcmp (-dec A 0.411434) (toFloat A.sl (-dec A 0.411434))) = true := by
    rw [float_411 hA]
    refine eval_cell hA (-13805434) 25 (by norm_num) (by norm_num) (by norm_num) (N.lit h (by norm_num)).neg (N.of _) ?_ ?_ <;> norm_num
  have a4 : Check.eval A.fl A.sl (.fcmp (dec A 9.3253e-06) (mulD A.fl (toFloat A.sl (divD A.fl (dec A 9.3253e-06) (mmD A.fl))) (mmD A.fl))) = true := by
    have n := N.lit h (x := 9.3253e-06) (by norm_num)
    have k1 := div_mm hA n (by norm_num) (by norm_num) (by norm_num)
    have k2 := (toFloat_small hA.sl k1 (by norm_num)).mono (e := 3 / 10 ^ 11) (by norm_num)
    have k3 := mul_mm hA k2 (by norm_num) (by norm_num) (by norm_num)
    refine eval_small hA n k3 ?_ ?_ ?_ <;> norm_num
  have a5 : Check.eval A.fl A.sl (.fcmp (-dec A 0.000176128) (mulD A.fl (toFloat A.sl (divD A.fl (-dec A 0.000176128) (mmD A.fl))) (mmD A.fl))) = true := by
    have n := (N.lit h (x := 0.000176128) (by norm_num)).neg
    have k1 := div_mm hA n (by norm_num) (by norm_num) (by norm_num)
    have k2 := (toFloat_small hA.sl k1 (by norm_num)).mono (e := 3 / 10 ^ 10) (by norm_num)
    have k3 := mul_mm hA k2 (by norm_num) (by norm_num) (by norm_num)
    refine eval_small hA n k3 ?_ ?_ ?_ <;> norm_num
  have u : ∀ i j : Fin 5, unitM i j = if i = j then 1 else 0 := fun i j => rfl
  rw [finalTrackChecks]
  simp only
  rw [cm_ok, Out.ok_bind, Out.pure_eq]
  refine ⟨_, rfl, rfl, ?_⟩
  intro c hc
  rw [List.mem_append] at hc
  rcases hc with hc | hc
  · simp only [List.mem_cons, List.not_mem_nil, or_false] at hc
    rcases hc with rfl | rfl | rfl | rfl | rfl
    · exact a1
    · exact a2
    · exact a3
    · exact a4
    · exact a5
  · simp only [Rnd.createLCIO, TP.setCov, u, List.getD_cons_succ, List.getD_cons_zero, Fin.isValue, Fin.reduceEq, if_true, if_false, z1, z2, z3,
      t3, t5, f0, f1, List.mem_cons, List.not_mem_nil, or_false] at hc
    rcases hc with rfl | rfl | rfl | rfl | rfl | rfl | rfl | rfl | rfl | rfl | rfl | rfl | rfl | rfl | rfl | rfl | rfl | rfl | rfl | rfl | rfl | rfl | rfl | rfl | rfl <;>
      first
      | exact c0
      | exact c1
      | exact c2
      | exact c3

end RUT

end Verif
