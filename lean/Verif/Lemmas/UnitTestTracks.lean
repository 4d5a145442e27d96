import Verif.Lemmas.UnitTestChecks
import Verif.Props.Lcio

/-!
# The checks of the unit tests that deal with tracks
-/

open Classical

noncomputable section

namespace Verif

open Dbl Rnd UT

variable {fl sl : ℝ → ℝ}

theorem sl_near (h' : NearestF 24 149 sl) {x : ℝ} (hx : |x| ≤ 1 / 200) : |sl x - x| ≤ 4 / 10 ^ 10 ∧ |sl x| ≤ |x| * (1 + 1 / 2 ^ 23) + 1 / 10 ^ 30 := by
  have e := err_float h' x
  have t := tiny150
  have k : |x| / 2 ^ 24 ≤ 1 / 200 / 2 ^ 24 := div_le_div_of_nonneg_right hx (by positivity)
  have g := abs_add_le (sl x - x) x
  rw [sub_add_cancel] at g
  have k2 : |x| / 2 ^ 24 = |x| * (1 / 2 ^ 24) := by ring
  have k3 : |x| * (1 + 1 / 2 ^ 23) = |x| + |x| * (1 / 2 ^ 23) := by ring
  have k4 : |x| * (1 / 2 ^ 24) ≤ |x| * (1 / 2 ^ 23) := mul_le_mul_of_nonneg_left (by norm_num) (abs_nonneg x)
  have t' : (1 : ℝ) / 10 ^ 40 ≤ 1 / 10 ^ 30 := by norm_num
  constructor
  · refine e.trans ((add_le_add k t).trans ?_)
    norm_num
  · rw [k3]
    rw [k2] at e
    linarith

theorem sl_874 (h' : NearestF 24 149 sl) : sl 0.874685 = ((14674779 : ℤ) : ℝ) / 2 ^ 24 := by
  refine float_cell h' (by norm_num) (by norm_num) (by norm_num) ?_
  rw [abs_lt]; constructor <;> norm_num

theorem sl_411 (h' : NearestF 24 149 sl) : sl (-0.411434) = ((-13805434 : ℤ) : ℝ) / 2 ^ 25 := by
  refine float_cell h' (by norm_num) (by norm_num) (by norm_num) ?_
  rw [abs_lt]; constructor <;> norm_num

theorem sl_small (h' : NearestF 24 149 sl) {x : ℝ} (hx : |x| ≤ 1 / 4000) : |sl x| ≤ 1 / 3000 := by
  have := (sl_near h' (hx.trans (by norm_num))).2
  have k : |x| * (1 + 1 / 2 ^ 23) ≤ 1 / 4000 * (1 + 1 / 2 ^ 23) := mul_le_mul_of_nonneg_right hx (by norm_num)
  refine this.trans ((add_le_add_left k _).trans ?_)
  norm_num

/-- small numbers compared with themselves -/
theorem stable_same {x : ℝ} (hx : |x| ≤ 1 / 200) : Stable x x := stable_small hx hx (by rw [sub_self, _root_.abs_zero]; norm_num)

theorem div_tenth (x : ℝ) : fin x / unit_mm = fin (x * 10) := by
  rw [unit_mm_eq, fin_div _ (by norm_num)]
  congr 1
  ring

theorem mul_tenth (x : ℝ) : fin x * unit_mm = fin (x / 10) := by
  rw [unit_mm_eq, fin_mul]
  congr 1
  ring

theorem initial_sure (h' : NearestF 24 149 sl) : ∃ l t, initialTrackChecks sl = .ok (l ++ [.fcmp (fin t) (fin t)]) ∧ l.length = 31 ∧
    (∀ c ∈ l, Sure c) ∧ |t| ≤ 2 ^ 127 := by
  have e := readLCIO_ok 1 (fin (sl 9.3253e-06)) (fin (sl (-0.411434))) (fin (sl (-0.00021121))) (fin (sl (-0.000176128)))
    (fin (sl 0.874685)) V3.zero 1 0 0 0 0 0 1 0 0 0 0 0 1 0 0 []
  have e' : initialState sl = ⟨1, fin (sl 9.3253e-06), fin (sl (-0.411434)), fin (sl (-0.00021121)), fin (sl (-0.000176128)),
    fin (sl 0.874685), [1, 0, 0, 0, 0, 0, 1, 0, 0, 0, 0, 0, 1, 0, 0], V3.zero⟩ := rfl
  have s1 : Sure (.fcmp (fin (sl (-0.00021121)) / unit_mm) (fin (sl (-0.00021121)) / unit_mm)) := by
    refine sure_same (div_tenth _) (stable_same ?_)
    have := sl_small h' (x := -0.00021121) (by rw [abs_of_nonpos (by norm_num)]; norm_num)
    rw [abs_mul]
    norm_num at this ⊢
    linarith
  have s2 : Sure (.fcmp (fin (sl 0.874685)) (fin (sl 0.874685))) := by
    refine sure_same rfl ?_
    rw [sl_874 h']
    exact self_float (by norm_num) (by norm_num) (by norm_num)
  have s3 : Sure (.fcmp (fin (sl (-0.411434))) (fin (sl (-0.411434)))) := by
    refine sure_same rfl ?_
    rw [sl_411 h']
    exact self_float (by norm_num) (by norm_num) (by norm_num)
  have tenth : ∀ {x : ℝ}, |x| ≤ 1 / 4000 → Sure (.fcmp (fin (sl x) * unit_mm) (fin (sl x) * unit_mm)) := fun hx => by
    refine sure_same (mul_tenth _) (stable_same ?_)
    have := sl_small h' hx
    rw [abs_div]
    norm_num at this ⊢
    linarith
  have s4 : Sure (.fcmp (fin (sl 9.3253e-06) * unit_mm) (fin (sl 9.3253e-06) * unit_mm)) :=
    tenth (by rw [abs_of_nonneg (by norm_num)]; norm_num)
  have s5 : Sure (.fcmp (fin (sl (-0.000176128)) * unit_mm) (fin (sl (-0.000176128)) * unit_mm)) :=
    tenth (by rw [abs_of_nonpos (by norm_num)]; norm_num)
  have hm : ∀ i j : Fin 5, cm.getD (5 * i.val + j.val) 0 = unitM i j := by
    intro i j
    fin_cases i <;> fin_cases j <;> rfl
  refine ⟨[.fcmp (fin (sl (-0.00021121)) / unit_mm) (fin (sl (-0.00021121)) / unit_mm), .fcmp (fin (sl 0.874685)) (fin (sl 0.874685)),
      .fcmp (fin (sl (-0.411434))) (fin (sl (-0.411434))), .fcmp (fin (sl 9.3253e-06) * unit_mm) (fin (sl 9.3253e-06) * unit_mm),
      .fcmp (fin (sl (-0.000176128)) * unit_mm) (fin (sl (-0.000176128)) * unit_mm)] ++
      (indices.map fun p => .fcmp (unitM p.1 p.2) (unitM p.1 p.2)) ++
      [.fcmp (fin (sl (-0.00021121)) / unit_mm) (fin (sl (-0.00021121)) / unit_mm)], Real.arctan (sl 0.874685), ?_, ?_⟩
  · rw [initialTrackChecks]
    simp only
    rw [e', e, Out.ok_bind, cm_ok, Out.ok_bind, Out.pure_eq, List.append_assoc _ [_] [_], List.singleton_append]
    simp only [hm]
    rfl
  refine ⟨rfl, ?_, ?_⟩
  · intro c hc
    simp only [List.mem_append, List.mem_cons, List.not_mem_nil, or_false] at hc
    rcases hc with ((rfl | rfl | rfl | rfl | rfl) | hc) | rfl
    · exact s1
    · exact s2
    · exact s3
    · exact s4
    · exact s5
    · obtain ⟨p, -, rfl⟩ := List.mem_map.1 hc
      show Sure (.fcmp (unitM p.1 p.2) (unitM p.1 p.2))
      by_cases q : p.1 = p.2
      · have : unitM p.1 p.2 = 1 := if_pos q
        rw [this]
        exact sure_one
      · have : unitM p.1 p.2 = 0 := if_neg q
        rw [this]
        exact sure_zero
    · exact s1
  · have a := Real.arctan_lt_pi_div_two (sl 0.874685)
    have b := Real.neg_pi_div_two_lt_arctan (sl 0.874685)
    have c := Real.pi_lt_four
    rw [abs_le]
    norm_num
    constructor <;> linarith

/-- numbers that are written in another unit and read back -/
theorem back_small (h' : NearestF 24 149 sl) {x y : ℝ} (hx : |x| ≤ 1 / 1000) {k : ℝ} (hk : 0 < k) (hk' : k ≤ 10)
    (e : x = y * k) : Stable x (sl y * k) := by
  have e1 := err_float h' y
  have d : x - sl y * k = -((sl y - y) * k) := by rw [e]; ring
  have b : |sl y - y| * k * 2 ^ 24 ≤ |x| + 1 / 10 ^ 15 := by
    have g1 : |sl y - y| * 2 ^ 24 ≤ |y| + 1 / 10 ^ 16 := by
      have := mul_le_mul_of_nonneg_right e1 (by positivity : (0 : ℝ) ≤ 2 ^ 24)
      have u : (1 : ℝ) / 2 ^ 150 * 2 ^ 24 ≤ 1 / 10 ^ 16 := by norm_num
      rw [add_mul, div_mul_cancel₀ _ (by positivity)] at this
      linarith
    have g2 := mul_le_mul_of_nonneg_right g1 hk.le
    rw [add_mul] at g2
    have g3 : |y| * k = |x| := by rw [e, abs_mul, abs_of_pos hk]
    have g4 : (1 : ℝ) / 10 ^ 16 * k ≤ 1 / 10 ^ 16 * 10 := mul_le_mul_of_nonneg_left hk' (by norm_num)
    have g5 : (1 : ℝ) / 10 ^ 16 * 10 = 1 / 10 ^ 15 := by norm_num
    calc |sl y - y| * k * 2 ^ 24 = |sl y - y| * 2 ^ 24 * k := by ring
      _ ≤ _ := by rw [g3] at g2; linarith
  have c : |x - sl y * k| ≤ 1 / 10 ^ 10 := by
    rw [d, _root_.abs_neg, abs_mul, abs_of_pos hk]
    have : |sl y - y| * k * 2 ^ 24 ≤ 1 / 10 ^ 10 * 2 ^ 24 := by
      refine b.trans ((add_le_add_left hx _).trans ?_)
      norm_num
    exact le_of_mul_le_mul_right this (by positivity)
  refine stable_small (hx.trans (by norm_num)) ?_ c
  have g := abs_sub_abs_le_abs_sub (sl y * k) x
  rw [abs_sub_comm] at g
  norm_num at *
  linarith

theorem final_sure (h' : NearestF 24 149 sl) : ∃ l, finalTrackChecks sl = .ok l ∧ l.length = 30 ∧ ∀ c ∈ l, Sure c := by
  have s0 : sl 0 = 0 := h'.fix repF_zero
  have s1 : sl 1 = 1 := h'.fix ⟨1, 149, by norm_num, by norm_num⟩
  have s100 : sl 100 = 100 := h'.fix ⟨100, 149, by norm_num, by norm_num⟩
  have s001 : sl (1 / 100) = ((10737418 : ℤ) : ℝ) / 2 ^ 30 := by
    refine float_cell h' (by norm_num) (by norm_num) (by norm_num) ?_
    rw [abs_lt]; constructor <;> norm_num
  have n0 : narrow sl 0 = 0 := by rw [zero_eq]; show fin (sl 0) = _; rw [s0]
  have n1 : narrow sl 1 = fin 1 := by rw [one_eq]; show fin (sl 1) = _; rw [s1]
  have z1 : (0 : Dbl) / unit_mm = 0 := by rw [zero_eq, div_tenth]; norm_num
  have z2 : (0 : Dbl) * unit_mm = 0 := by rw [zero_eq, mul_tenth]; norm_num
  have z3 : (0 : Dbl) / (unit_mm * unit_mm) = 0 := by
    rw [zero_eq, unit_mm_eq, fin_mul, fin_div _ (by norm_num)]; norm_num
  have z4 : narrow sl (1 / (unit_mm * unit_mm)) * unit_mm * unit_mm = fin 1 := by
    rw [one_eq, unit_mm_eq, fin_mul, fin_div _ (by norm_num)]
    have : narrow sl (fin (1 / (1 / 10 * (1 / 10)))) = fin 100 := by
      show fin (sl _) = _
      rw [show (1 : ℝ) / (1 / 10 * (1 / 10)) = 100 by norm_num, s100]
    rw [this, fin_mul, fin_mul]
    norm_num
  have z5 : narrow sl (1 * (unit_mm * unit_mm)) / (unit_mm * unit_mm) = fin (((10737418 : ℤ) : ℝ) / 2 ^ 30 * 100) := by
    rw [one_eq, unit_mm_eq, fin_mul, fin_mul]
    have : narrow sl (fin (1 * (1 / 10 * (1 / 10)))) = fin (((10737418 : ℤ) : ℝ) / 2 ^ 30) := by
      show fin (sl _) = _
      rw [show (1 : ℝ) * (1 / 10 * (1 / 10)) = 1 / 100 by norm_num, s001]
    rw [this, fin_div _ (by norm_num)]
    congr 1
    ring
  have f0 : Sure (.fcmp 0 0) := sure_zero
  have f1 : Sure (.fcmp 1 (fin 1)) := ⟨1, 1, one_eq, rfl, self_one⟩
  have f1' : Sure (.fcmp 1 (fin (((10737418 : ℤ) : ℝ) / 2 ^ 30 * 100))) := by
    refine ⟨1, _, one_eq, rfl, ?_⟩
    num_cell 16777216, 24
  have a1 : Sure (.fcmp (-0.00021121) (narrow sl (-0.00021121 * unit_mm) / unit_mm)) := by
    refine ⟨-0.00021121, sl (-0.00021121 / 10) * 10, rfl, ?_, ?_⟩
    · rw [ofSci_eq, fin_neg, mul_tenth]
      exact div_tenth _
    · refine back_small h' ?_ (by norm_num) (by norm_num) (by ring)
      rw [abs_of_nonpos (by norm_num)]; norm_num
  have a2 : Sure (.fcmp 0.874685 (narrow sl 0.874685)) := by
    refine ⟨0.874685, sl 0.874685, rfl, rfl, ?_⟩
    rw [sl_874 h']
    num_cell 14674779, 24
  have a3 : Sure (.fcmp (-0.411434) (narrow sl (-0.411434))) := by
    refine ⟨-0.411434, sl (-0.411434), rfl, rfl, ?_⟩
    rw [sl_411 h']
    num_cell (-13805434), 25
  have a4 : Sure (.fcmp 9.3253e-06 (narrow sl (9.3253e-06 / unit_mm) * unit_mm)) := by
    refine ⟨9.3253e-06, sl (9.3253e-06 * 10) * (1 / 10), rfl, ?_, ?_⟩
    · rw [ofSci_eq, div_tenth]
      rfl
    · refine back_small h' ?_ (by norm_num) (by norm_num) (by ring)
      rw [abs_of_nonneg (by norm_num)]; norm_num
  have a5 : Sure (.fcmp (-0.000176128) (narrow sl (-0.000176128 / unit_mm) * unit_mm)) := by
    refine ⟨-0.000176128, sl (-0.000176128 * 10) * (1 / 10), rfl, ?_, ?_⟩
    · rw [ofSci_eq, fin_neg, div_tenth]
      rfl
    · refine back_small h' ?_ (by norm_num) (by norm_num) (by ring)
      rw [abs_of_nonpos (by norm_num)]; norm_num
  have u : ∀ i j : Fin 5, unitM i j = if i = j then 1 else 0 := fun i j => rfl
  rw [finalTrackChecks, cm_ok, Out.ok_bind, Out.pure_eq]
  refine ⟨_, rfl, rfl, ?_⟩
  intro c hc
  rw [List.mem_append] at hc
  rcases hc with hc | hc
  · simp only [List.mem_cons, List.not_mem_nil, or_false] at hc
    rcases hc with rfl | rfl | rfl | rfl | rfl
    · exact a1
    · exact a2
    · exact a3
    · exact a4
    · exact a5
  · simp only [createLCIO, TP.setCov, u, List.getD_cons_succ, List.getD_cons_zero, Fin.isValue, Fin.reduceEq, if_true, if_false, z1, z2, z3,
      z4, z5, n0, n1, List.mem_cons, List.not_mem_nil, or_false] at hc
    rcases hc with rfl | rfl | rfl | rfl | rfl | rfl | rfl | rfl | rfl | rfl | rfl | rfl | rfl | rfl | rfl | rfl | rfl | rfl | rfl | rfl | rfl | rfl | rfl | rfl | rfl <;>
      first
      | exact f0
      | exact f1
      | exact f1'

/-! ## helixCalculations -/

theorem sqrt_two_bounds : 1.41421356237309504880 < Real.sqrt 2 ∧ Real.sqrt 2 < 1.41421356237309504881 :=
  ⟨(Real.lt_sqrt (by norm_num)).2 (by norm_num), (Real.sqrt_lt' (by norm_num)).2 (by norm_num)⟩

/-- the angle of a point close to the positive x axis -/
theorem ratan2_small {y x : ℝ} (hx : 0 < x) : |ratan2 y x| ≤ |y| / x := by
  have h1 : |ratan2 y x| < Real.pi / 2 := Complex.abs_arg_lt_pi_div_two_iff.2 (Or.inl hx)
  have h2 : Real.tan (ratan2 y x) = y / x := Complex.tan_arg _
  have h3 : |ratan2 y x| ≤ Real.tan |ratan2 y x| := Real.le_tan (abs_nonneg _) h1
  have h4 : Real.tan |ratan2 y x| = |y| / x := by
    have h5 : Real.tan |ratan2 y x| = |Real.tan (ratan2 y x)| := by
      rcases abs_choice (ratan2 y x) with e | e
      · rw [e, abs_of_nonneg (Real.tan_nonneg_of_nonneg_of_le_pi_div_two (e ▸ abs_nonneg _) (by rw [← e]; exact h1.le))]
      · have p : 0 ≤ -ratan2 y x := e ▸ abs_nonneg _
        have : 0 ≤ Real.tan (-ratan2 y x) := Real.tan_nonneg_of_nonneg_of_le_pi_div_two p (by rw [← e]; exact h1.le)
        rw [e]
        rw [Real.tan_neg] at this ⊢
        rw [abs_of_nonpos (by linarith)]
    rw [h5, h2, abs_div, abs_of_pos hx]
  rwa [h4] at h3

theorem helix_two : V5.ofList hpHelix = .ok (hpR 0.1 1 (Real.pi / 4) 0 0) := by
  have : 5 ≤ hpHelix.length := by decide
  rw [V5.ofList, dif_pos this]
  congr 1
  funext i
  fin_cases i <;> simp [hpHelix, hpR]

/-- the arc length of the point of helixCalculations.cc:59-60, whose coordinates are decimals close to `5 √2` and `10 - 5 √2` -/
theorem sfromxy_quarter : ∃ S, calculateSfromXY 7.07106781186547524401 2.92893218813452475599 (hpR 0.1 1 (Real.pi / 4) 0 0) (V3.re 0 0 0) = .fin S ∧
    |S - 10 * (Real.pi / 4)| ≤ 1 / 10 ^ 10 := by
  obtain ⟨q1, q2⟩ := sqrt_two_bounds
  have p1 := Real.pi_gt_d20
  have p2 := Real.pi_lt_d20
  set a := Real.sqrt 2 / 2 - 0.1 * 7.07106781186547524401 with ha
  set b := Real.sqrt 2 / 2 + 0.1 * 2.92893218813452475599 with hb
  have ha1 : |a| ≤ 1 / 10 ^ 16 := by
    rw [abs_le, ha]; norm_num at q1 q2 ⊢; constructor <;> linarith
  have hb1 : 1 / 2 ≤ b := by rw [hb]; norm_num at q1 q2 ⊢; linarith
  have he : |ratan2 a b| ≤ 1 / 10 ^ 15 := by
    refine (ratan2_small (by linarith)).trans ?_
    rw [div_le_iff₀ (by linarith)]
    refine ha1.trans ?_
    norm_num
    linarith
  set ε := ratan2 a b with hε
  have he' := abs_le.1 he
  norm_num at he'
  have hs : |Real.sin (Real.pi / 4 - ε) - Real.sqrt 2 / 2| ≤ 1 / 10 ^ 15 := by
    rw [← Real.sin_pi_div_four]
    refine (Real.abs_sin_sub_sin_le _ _).trans ?_
    rwa [show Real.pi / 4 - ε - Real.pi / 4 = -ε by ring, abs_neg]
  set σ := Real.sin (Real.pi / 4 - ε) with hσ
  have hs' := abs_le.1 hs
  norm_num at hs' q1 q2 p1 p2
  have hσ0 : 1 / 2 ≤ σ := by linarith
  have hneg : Real.sin (ε - Real.pi / 4) = -σ := by rw [hσ, ← Real.sin_neg]; congr 1; ring
  refine ⟨(7.07106781186547524401 * (Real.sqrt 2 / 2) + 2.92893218813452475599 * (Real.sqrt 2 / 2)) * (ε - Real.pi / 4) / -σ, ?_, ?_⟩
  · have h1 : ¬ (ε - Real.pi / 4 < -Real.pi) := by linarith
    have h2 : ¬ (Real.pi < ε - Real.pi / 4) := by linarith
    have h3 : ¬ (ε - Real.pi / 4 = 0) := by linarith
    have h4 : -σ ≠ 0 := by linarith
    simp [calculateSfromXY, V3.re, Dbl.pi, cif_neg, cif_pos, ← ha, ← hb, ← hε, h1, h2, h3, hneg, fin_div _ h4]
  · have e : (7.07106781186547524401 * (Real.sqrt 2 / 2) + 2.92893218813452475599 * (Real.sqrt 2 / 2)) * (ε - Real.pi / 4) / -σ - 10 * (Real.pi / 4)
        = (-(5 * Real.sqrt 2 * ε) - 10 * (Real.pi / 4) * (σ - Real.sqrt 2 / 2)) / σ := by
      field_simp
      ring
    rw [e, abs_div, abs_of_pos (by linarith : 0 < σ), div_le_iff₀ (by linarith)]
    have k1 : |5 * Real.sqrt 2 * ε| ≤ 10 * (1 / 10 ^ 15) := by
      rw [abs_mul, abs_of_nonneg (by linarith)]
      exact mul_le_mul (by linarith) he (abs_nonneg _) (by norm_num)
    have k2 : |10 * (Real.pi / 4) * (σ - Real.sqrt 2 / 2)| ≤ 10 * (1 / 10 ^ 15) := by
      rw [abs_mul, abs_of_nonneg (by linarith)]
      exact mul_le_mul (by linarith) hs (abs_nonneg _) (by norm_num)
    have k3 := abs_sub (-(5 * Real.sqrt 2 * ε)) (10 * (Real.pi / 4) * (σ - Real.sqrt 2 / 2))
    rw [abs_neg] at k3
    norm_num at k1 k2 k3 ⊢
    linarith

theorem helix_sure : ∃ l, helixChecks = .ok l ∧ l.length = 16 ∧ ∀ c ∈ l, Sure c := by
  obtain ⟨q1, q2⟩ := sqrt_two_bounds
  have p1 := Real.pi_gt_d20
  have p2 := Real.pi_lt_d20
  have hz : TP.default.hp = hpR 0 0 0 0 0 := by
    funext i
    show (0 : Dbl) = _
    fin_cases i <;> simp [hpR]
  have hr : TP.default.rp = V3.re 0 0 0 := by
    show V3.zero = _
    simp [V3.zero, V3.re]
  have x5 : Stable (5 * Real.sqrt 2) 7.07106781186547524401 := by
    refine stable_cell 14829104 21 (by norm_num) (by norm_num) (by norm_num) ?_ ?_ <;>
      (rw [← lt_sub_iff_add_lt, abs_lt]; norm_num at q1 q2 ⊢)
    constructor <;> linarith
  have x6 : Stable (Real.pi / 4) (Real.pi / 4) := by
    refine stable_cell 13176795 24 (by norm_num) (by norm_num) (by norm_num) ?_ ?_ <;>
      (rw [← lt_sub_iff_add_lt, abs_lt]; norm_num at p1 p2 ⊢; constructor <;> linarith)
  have x7 : Stable (10 - 5 * Real.sqrt 2) 2.92893218813452475599 := by
    refine stable_cell 12284832 22 (by norm_num) (by norm_num) (by norm_num) ?_ ?_ <;>
      (rw [← lt_sub_iff_add_lt, abs_lt]; norm_num at q1 q2 ⊢)
    constructor <;> linarith
  have x8 : Stable (1.234567 / 10) (1.234567 / 10) := by
    num_cell 16570078, 27
  have t0 : (0.1 : ℝ) ≠ 0 := by norm_num
  have hr0 : ratan2 0 1 = 0 := by
    have := ratan2_polar one_pos (show -Real.pi < 0 by linarith) (by linarith)
    rwa [one_mul, one_mul, Real.sin_zero, Real.cos_zero] at this
  rw [helixChecks, helix_two, Out.ok_bind, Out.pure_eq]
  refine ⟨_, rfl, rfl, ?_⟩
  simp only [hz, hr, TP.setHp]
  intro c hc
  simp only [List.mem_cons, List.not_mem_nil, or_false] at hc
  rcases hc with rfl | rfl | rfl | rfl | rfl | rfl | rfl | rfl | rfl | rfl | rfl | rfl | rfl | rfl | rfl | rfl
  · refine ⟨0, 0, ?_, zero_eq, stable_zero⟩
    simp [calculateRadius]
  · refine ⟨0, 0, ?_, zero_eq, stable_zero⟩
    simp [calculateXCenter]
  · refine ⟨0, 0, ?_, zero_eq, stable_zero⟩
    simp [calculateYCenter]
  · refine ⟨0, 0, ?_, zero_eq, stable_zero⟩
    simp [calculatePhifromXY, calculateX0, calculateY0, V3.re, hr0]
  · refine ⟨0, 0, ?_, zero_eq, stable_zero⟩
    have h1 : ¬ ((0 : ℝ) < -Real.pi) := by linarith
    have h2 : ¬ (Real.pi < 0) := by linarith
    simp [calculateSfromXY, V3.re, hr0, Dbl.pi, cif_neg, h1, h2]
  · refine ⟨0, 0, ?_, zero_eq, stable_zero⟩
    simp [calculateXfromS, calculateX0, V3.re]
  · refine ⟨0, 0, ?_, zero_eq, stable_zero⟩
    simp [calculateYfromS, calculateY0, V3.re]
  · refine ⟨0, 0, ?_, zero_eq, stable_zero⟩
    simp [calculateZfromS, V3.re]
  · refine ⟨10, 10, ?_, rfl, self_10⟩
    simp [calculateRadius]
    rw [cif_pos t0, fin_div _ t0]
    norm_num
  · refine ⟨5 * Real.sqrt 2, 7.07106781186547524401, ?_, rfl, x5⟩
    simp [calculateXCenter, V3.re]
    rw [cif_neg t0, fin_div _ t0]
    simp
    ring
  · refine ⟨-(5 * Real.sqrt 2), -7.07106781186547524401, ?_, rfl, stable_neg x5⟩
    simp [calculateYCenter, V3.re]
    rw [cif_neg t0, fin_div _ t0]
    simp
    ring
  · refine ⟨Real.pi / 4, Real.pi / 4, ?_, rfl, x6⟩
    simp [calculatePhifromXY, calculateX0, calculateY0, V3.re]
    have := ratan2_polar one_pos (show -Real.pi < Real.pi / 4 by linarith) (by linarith)
    rwa [one_mul, one_mul, Real.sin_pi_div_four, Real.cos_pi_div_four] at this
  · obtain ⟨S, e, hS⟩ := sfromxy_quarter
    refine ⟨S, 10 * (Real.pi / 4), e, ?_, ?_⟩
    · simp
    · have hS' := abs_le.1 hS
      refine stable_cell 16470993 21 (by norm_num) (by norm_num) (by norm_num) ?_ ?_ <;>
        (rw [← lt_sub_iff_add_lt, abs_lt]; norm_num at p1 p2 hS' ⊢; constructor <;> linarith)
  · refine ⟨5 * Real.sqrt 2, 7.07106781186547524401, ?_, rfl, x5⟩
    simp [calculateXfromS, calculateX0, V3.re]
    rw [cif_pos t0, fin_div _ t0]
    have e1 : (0.1 : ℝ) * (10 * (Real.pi / 4)) / 2 = Real.pi / 8 := by ring
    have e2 : Real.pi / 4 - Real.pi / 8 = Real.pi / 8 := by ring
    have e3 := Real.sin_two_mul (Real.pi / 8)
    rw [show 2 * (Real.pi / 8) = Real.pi / 4 by ring, Real.sin_pi_div_four] at e3
    rw [e1, e2]
    generalize Real.sin (Real.pi / 8) = u at *
    generalize Real.cos (Real.pi / 8) = v at *
    simp
    linarith
  · refine ⟨10 - 5 * Real.sqrt 2, 2.92893218813452475599, ?_, rfl, x7⟩
    simp [calculateYfromS, calculateY0, V3.re]
    rw [cif_pos t0, fin_div _ t0]
    have e1 : (0.1 : ℝ) * (10 * (Real.pi / 4)) / 2 = Real.pi / 8 := by ring
    have e2 : Real.pi / 4 - Real.pi / 8 = Real.pi / 8 := by ring
    have e3 := Real.cos_two_mul (Real.pi / 8)
    rw [show 2 * (Real.pi / 8) = Real.pi / 4 by ring, Real.cos_pi_div_four] at e3
    have e4 := Real.sin_sq_add_cos_sq (Real.pi / 8)
    rw [e1, e2]
    generalize Real.sin (Real.pi / 8) = u at *
    generalize Real.cos (Real.pi / 8) = v at *
    simp
    nlinarith
  · refine ⟨1.234567 / 10, 1.234567 / 10, ?_, ?_, x8⟩
    · simp [calculateZfromS, V3.re]
    · simp

end Verif
