import Verif.Model.RoundedRefit
import Verif.Props.RoundedSeed

/-!
# C165: positions and precisions of hits in double precision
-/

open Classical

noncomputable section

namespace Verif

open Dbl Rnd Spec Rounded Refit

namespace Rnd

theorem inverse_of_near {q c w η ε : ℝ} (c0 : 0 < c) (hq : |q - c| ≤ η * c) (hη : η ≤ 1 / 1000) (ε0 : 0 ≤ ε) (hw : |w - 100 / q| ≤ ε * (100 / q)) :
    |w - 100 / c| ≤ 1002 / 1000 * (η + ε) * (100 / c) := by
  have η0 : 0 ≤ η := nonneg_of_mul_nonneg_left ((abs_nonneg _).trans hq) c0
  have q1 : 999 / 1000 * c ≤ q := by
    have := (abs_le.1 hq).1
    have : η * c ≤ 1 / 1000 * c := mul_le_mul_of_nonneg_right hη c0.le
    linarith
  have q0 : 0 < q := lt_of_lt_of_le (by positivity) q1
  have r : 100 / q ≤ 1002 / 1000 * (100 / c) := by
    rw [mul_div_assoc', div_le_div_iff₀ q0 c0]
    linarith
  have d : |100 / q - 100 / c| ≤ η * (100 / q) := by
    rw [show 100 / q - 100 / c = -(q - c) * (100 / (q * c)) by field_simp; ring, abs_mul, abs_neg, abs_of_pos (show 0 < 100 / (q * c) by positivity)]
    refine (mul_le_mul_of_nonneg_right hq (by positivity)).trans (le_of_eq ?_)
    field_simp
  have t := abs_add_le (w - 100 / q) (100 / q - 100 / c)
  rw [sub_add_sub_cancel] at t
  have := mul_le_mul_of_nonneg_left r (show 0 ≤ η + ε by linarith)
  rw [show 1002 / 1000 * (η + ε) * (100 / c) = (η + ε) * (1002 / 1000 * (100 / c)) by ring]
  linarith

/-- the weight for a resolution in mm -/
theorem weight_near {A : Arith} (h : NearestF 53 1074 A.fl) {s : ℝ} (s1 : 1 / 2 ^ 120 ≤ s) (s2 : s ≤ 2 ^ 120) :
    ∃ w, weight A (mulD A.fl (fin s) (lit A.fl 0.1)) = fin w ∧ |w - 100 / s ^ 2| ≤ 7 / 2 ^ 53 * (100 / s ^ 2) := by
  have a := (Rel.given s1 s2).mul h (Rel.lit (k := 4) (x := 0.1) h (by norm_num) (by norm_num) (by norm_num)) (by norm_num) (by norm_num) (by norm_num)
  have b := (Rel.given (k := 0) (x := 1) (by norm_num) (by norm_num)).div h (a.mul h a (by norm_num) (by norm_num) (by norm_num)) (by norm_num) (by norm_num) (by norm_num)
  have s0 : 0 < s := a.pos.trans_le (by norm_num; linarith [lt_of_lt_of_le (show (0 : ℝ) < 1 / 2 ^ 120 by positivity) s1]) |>.trans_le le_rfl
  obtain ⟨w, w1, w2⟩ := b.val
  have e : 1 / (s * 0.1 * (s * 0.1)) = 100 / s ^ 2 := by
    field_simp
    norm_num
  rw [e] at w2
  refine ⟨w, by rw [weight, one_eq]; exact w1, w2.trans ?_⟩
  have : 0 ≤ 100 / s ^ 2 * (1 / 2 ^ 53) := by positivity
  rw [show 7 / 2 ^ 53 * (100 / s ^ 2) = 7 * (100 / s ^ 2 * (1 / 2 ^ 53)) by ring]
  exact mul_le_mul_of_nonneg_right (by norm_num) this

/-- rounding of a positive number to `float` -/
theorem float_near {sl : ℝ → ℝ} (h' : NearestF 24 149 sl) {c : ℝ} (c1 : 1 / 2 ^ 101 ≤ c) (c2 : c ≤ 2 ^ 101) :
    ∃ r, toFloat sl (fin c) = fin r ∧ |r - c| ≤ 1001 / 1000 / 2 ^ 24 * c := by
  have c0 : 0 < c := lt_of_lt_of_le (by positivity) c1
  have e := h'.err (by norm_num) c
  rw [abs_of_pos c0] at e
  have t : (1 : ℝ) / 2 ^ (149 + 1) ≤ 1 / 1000 / 2 ^ 24 * c := by
    refine le_trans ?_ (mul_le_mul_of_nonneg_left c1 (by positivity))
    norm_num
  have e' : |sl c - c| ≤ 1001 / 1000 / 2 ^ 24 * c := e.trans (by rw [div_eq_mul_one_div c]; linarith)
  refine ⟨sl c, ?_, e'⟩
  rw [toFloat, rnd, if_pos]
  have b := abs_add_le (sl c - c) c
  rw [sub_add_cancel, abs_of_pos c0] at b
  have : 1001 / 1000 / 2 ^ 24 * c ≤ c := by
    norm_num
    linarith
  have k : (2 : ℝ) * 2 ^ 101 < 2 ^ 128 := by norm_num
  linarith

theorem sqrtF_near {A : Arith} (h : NearestF 53 1074 A.fl) (h' : NearestF 24 149 A.sl) {c : ℝ} (c1 : 1 / 2 ^ 101 ≤ c) (c2 : c ≤ 2 ^ 101) :
    ∃ s, sqrtF A (fin c) = fin s ∧ 1 / 2 ^ 120 ≤ s ∧ s ≤ 2 ^ 120 ∧ |s ^ 2 - c| ≤ 201 / 100 / 2 ^ 24 * c := by
  obtain ⟨z1, z2⟩ := root_range (k := 101) c1 c2
  have c0 : 0 < c := lt_of_lt_of_le (by positivity) c1
  have r0 : 0 < √c := Real.sqrt_pos.2 c0
  have r2 : √c * √c = c := Real.mul_self_sqrt c0.le
  have main : ∃ s, sqrtF A (fin c) = fin s ∧ |s - √c| ≤ 1001 / 1000 / 2 ^ 24 * √c := by
    rw [sqrtF]
    split_ifs with hs
    · rw [sqrt_fin c0.le]
      exact float_near h' z1 z2
    · obtain ⟨s, s1, s2⟩ := ((Rel.given c1 c2).sqrt h (by norm_num) (by norm_num)).val
      refine ⟨s, s1, s2.trans ?_⟩
      rw [show (0 + 1001 / 1000) * (√c * (1 / 2 ^ 53)) = 1001 / 1000 / 2 ^ 53 * √c by ring]
      exact mul_le_mul_of_nonneg_right (by norm_num) r0.le
  obtain ⟨s, s1, s2⟩ := main
  have b := abs_le.1 s2
  have u : 1001 / 1000 / 2 ^ 24 * √c ≤ 1 / 1000 * √c := mul_le_mul_of_nonneg_right (by norm_num) r0.le
  refine ⟨s, s1, ?_, ?_, ?_⟩
  · have : (1 : ℝ) / 2 ^ 120 ≤ 1 / 2 * (1 / 2 ^ 101) := by norm_num
    linarith [b.1]
  · have : (2 : ℝ) * 2 ^ 101 ≤ 2 ^ 120 := by norm_num
    linarith [b.2]
  · rw [← r2, show s ^ 2 - √c * √c = (s - √c) * (s + √c) by ring, abs_mul]
    have p : |s + √c| ≤ 2001 / 1000 * √c := by
      rw [abs_le]
      constructor <;> linarith [b.1, b.2]
    refine (mul_le_mul s2 p (abs_nonneg _) (by positivity)).trans ?_
    have : 0 ≤ √c * √c := by positivity
    rw [show 1001 / 1000 / 2 ^ 24 * √c * (2001 / 1000 * √c) = 1001 / 1000 / 2 ^ 24 * (2001 / 1000) * (√c * √c) by ring]
    exact mul_le_mul_of_nonneg_right (by norm_num) this

/-- the weight for a variance, which is known up to a relative error η -/
theorem variance_near {A : Arith} (h : NearestF 53 1074 A.fl) (h' : NearestF 24 149 A.sl) {c c' : ℝ} (c1 : 1 / 2 ^ 101 ≤ c') (c2 : c' ≤ 2 ^ 101) (c0 : 0 < c)
    (hc : |c' - c| ≤ 1001 / 1000 / 2 ^ 24 * c) : ∃ w, weight A (mulD A.fl (sqrtF A (fin c')) (lit A.fl 0.1)) = fin w ∧ |w - 100 / c| ≤ 4 / 2 ^ 24 * (100 / c) := by
  obtain ⟨s, s1, s2, s3, s4⟩ := sqrtF_near h h' c1 c2
  obtain ⟨w, w1, w2⟩ := weight_near h s2 s3
  have b : c' ≤ 1001 / 1000 * c := by
    have := (abs_le.1 hc).2
    have : 1001 / 1000 / 2 ^ 24 * c ≤ 1 / 1000 * c := mul_le_mul_of_nonneg_right (by norm_num) c0.le
    linarith
  have q : |s ^ 2 - c| ≤ 31 / 10 / 2 ^ 24 * c := by
    have t := abs_add_le (s ^ 2 - c') (c' - c)
    rw [sub_add_sub_cancel] at t
    have k : 201 / 100 / 2 ^ 24 * c' ≤ 201 / 100 / 2 ^ 24 * (1001 / 1000 * c) := mul_le_mul_of_nonneg_left b (by norm_num)
    have m : 201 / 100 / 2 ^ 24 * (1001 / 1000 * c) + 1001 / 1000 / 2 ^ 24 * c ≤ 31 / 10 / 2 ^ 24 * c := by
      rw [show 201 / 100 / 2 ^ 24 * (1001 / 1000 * c) + 1001 / 1000 / 2 ^ 24 * c = (201 / 100 / 2 ^ 24 * (1001 / 1000) + 1001 / 1000 / 2 ^ 24) * c by ring]
      exact mul_le_mul_of_nonneg_right (by norm_num) c0.le
    linarith
  refine ⟨w, by rw [s1]; exact w1, (inverse_of_near c0 q (by norm_num) (by norm_num) w2).trans ?_⟩
  exact mul_le_mul_of_nonneg_right (by norm_num) (by positivity)

end Rnd

variable {A : Arith}

/-- C165: a hit with errors a and b in mm: the precisions are the inverse squares of the errors in cm, and the position is that of the hit in cm. -/
theorem C165_planar (h : NearestF 53 1074 A.fl) {x : TrkHit} {a b : ℝ} (hp : x.planar = some (fin a, fin b)) (ha : Size a) (hb : Size b) {px py pz : ℝ}
    (hx : x.pos = V3.re px py pz) (h1 : Plain px) (h2 : Plain py) (h3 : Plain pz) (oneD : Bool) :
    ∃ p q qx qy qz : ℝ, Rnd.getHitInfo A x oneD = .ok (V3.re qx qy qz, [fin p, fin q]) ∧
      |p - 1 / (a / 10) ^ 2| ≤ 7 / 2 ^ 53 * (1 / (a / 10) ^ 2) ∧ (oneD = true → q = 0) ∧
      (oneD = false → |q - 1 / (b / 10) ^ 2| ≤ 7 / 2 ^ 53 * (1 / (b / 10) ^ 2)) ∧
      |qx - px / 10| ≤ 3 / 2 ^ 53 * |px / 10| ∧ |qy - py / 10| ≤ 3 / 2 ^ 53 * |py / 10| ∧ |qz - pz / 10| ≤ 3 / 2 ^ 53 * |pz / 10| := by
  have up : (1 : ℝ) / 2 ^ 120 ≤ 1 / 2 ^ 100 := by norm_num
  have up' : (2 : ℝ) ^ 100 ≤ 2 ^ 120 := by norm_num
  have e : ∀ {a : ℝ}, Size a → 1 / (a / 10) ^ 2 = 100 / a ^ 2 := fun {a} ha => by
    have : 0 < a := lt_of_lt_of_le (by positivity) ha.1
    field_simp
    norm_num
  obtain ⟨p, p1, p2⟩ := weight_near h (up.trans ha.1) (ha.2.trans up')
  obtain ⟨q, q1, q2⟩ := weight_near h (up.trans hb.1) (hb.2.trans up')
  obtain ⟨qx, qy, qz, s1, s2, s3, s4⟩ := C161_scaled h h1 h2 h3
  refine ⟨p, if oneD then 0 else q, qx, qy, qz, ?_, by rw [e ha]; exact p2, fun ho => by rw [if_pos ho], fun ho => ?_, s2, s3, s4⟩
  · unfold Rnd.getHitInfo Rnd.resolution
    simp only [hp, Out.ok_bind, Out.pure_eq, p1, q1, hx, s1, zero_eq]
    cases oneD <;> rfl
  · rw [ho, if_neg (by simp), e hb]
    exact q2

/-- C165: a hit with a covariance matrix of type `float`: the precisions are the inverses of the sum of the variances of x and y, and of the variance of
z, up to the rounding of `float`. -/
theorem C165_covariance (h : NearestF 53 1074 A.fl) (h' : NearestF 24 149 A.sl) {x : TrkHit} {c0 c1 c2 c3 c4 c5 : ℝ} {rest : List Dbl} (hp : x.planar = none)
    (hc : x.cov = fin c0 :: fin c1 :: fin c2 :: fin c3 :: fin c4 :: fin c5 :: rest) (hr : Size (c0 + c2)) (h5 : Size c5) (oneD : Bool) :
    ∃ p q : ℝ, Rnd.getHitInfo A x oneD = .ok (Rnd.scaled A.fl x.pos, [fin p, fin q]) ∧
      |p - 1 / ((c0 + c2) / 100)| ≤ 4 / 2 ^ 24 * (1 / ((c0 + c2) / 100)) ∧ (oneD = true → q = 0) ∧
      (oneD = false → |q - 1 / (c5 / 100)| ≤ 4 / 2 ^ 24 * (1 / (c5 / 100))) := by
  have c0' : 0 < c0 + c2 := lt_of_lt_of_le (by positivity) hr.1
  have c5' : 0 < c5 := lt_of_lt_of_le (by positivity) h5.1
  have up : (1 : ℝ) / 2 ^ 101 ≤ 1 / 2 ^ 100 := by norm_num
  have up' : (2 : ℝ) ^ 100 ≤ 2 ^ 101 := by norm_num
  obtain ⟨c', k1, k2⟩ := float_near h' (up.trans hr.1) (hr.2.trans up')
  have b := abs_le.1 k2
  have u : 1001 / 1000 / 2 ^ 24 * (c0 + c2) ≤ 1 / 1000 * (c0 + c2) := mul_le_mul_of_nonneg_right (by norm_num) c0'.le
  obtain ⟨p, p1, p2⟩ := variance_near (c' := c') h h' (by
    have : (1 : ℝ) / 2 ^ 101 = 1 / 2 * (1 / 2 ^ 100) := by norm_num
    have := hr.1
    linarith [b.1]) (by
    have : (2 : ℝ) ^ 101 = 2 * 2 ^ 100 := by norm_num
    have := hr.2
    linarith [b.2]) c0' k2
  obtain ⟨q, q1, q2⟩ := variance_near (c' := c5) h h' (up.trans h5.1) (h5.2.trans up') c5' (by rw [sub_self, abs_zero]; positivity)
  refine ⟨p, if oneD then 0 else q, ?_, by rw [one_div_div]; exact p2, fun ho => by rw [if_pos ho], fun ho => by rw [ho, if_neg (by simp), one_div_div]; exact q2⟩
  unfold Rnd.getHitInfo Rnd.resolution
  rw [hp]
  simp only [hc, List.getElem?_cons_zero, List.getElem?_cons_succ, Out.ok_bind, Out.pure_eq, fin_add, k1, p1, q1, zero_eq]
  cases oneD <;> rfl

/-- C165: the precisions of material_effects are those of lcio_tracks; there is one if the second error is zero. -/
theorem C165_effects {x : TrkHit} {du dv : Dbl} (hr : Rnd.resolution A x = .ok (du, dv)) :
    Rnd.getHitInfo A x false = .ok (Rnd.scaled A.fl x.pos, [Rnd.weight A du, Rnd.weight A dv]) ∧
    (Dbl.eqv dv 0 → Rnd.precision A du dv = [Rnd.weight A du]) ∧ (¬ Dbl.eqv dv 0 → Rnd.precision A du dv = [Rnd.weight A du, Rnd.weight A dv]) := by
  refine ⟨?_, fun hd => by rw [Rnd.precision, cif_pos hd], fun hd => by rw [Rnd.precision, cif_neg hd]⟩
  simp only [Rnd.getHitInfo, hr, Out.ok_bind, Out.pure_eq]
  rfl

/-- C165: an error of zero gives an infinite precision, a covariance matrix with less than six entries is read out of bounds. -/
theorem C165_undefined_false (h : NearestF 53 1074 A.fl) (x : TrkHit) (oneD : Bool) :
    (∀ b, x.planar = some (fin 0, b) → ∃ pos q, Rnd.getHitInfo A x oneD = .ok (pos, [inf false, q])) ∧
    (x.planar = none → x.cov.length < 6 → ∃ m, Rnd.getHitInfo A x oneD = .ub m) := by
  constructor
  · intro b hb
    obtain ⟨r, l1, -⟩ := (Rel.lit (k := 4) (x := 0.1) h (by norm_num) (by norm_num) (by norm_num)).val
    have z : mulD A.fl (fin 0) (lit A.fl 0.1) = fin 0 := by rw [l1, mulD, fin_mul, zero_mul, rnd_zero h]
    have w : weight A (fin 0) = inf false := by
      rw [weight, mulD, fin_mul, mul_zero, rnd_zero h, one_eq, divD, fin_div_zero one_ne_zero]
      simp [sgn, rnd]
    refine ⟨scaled A.fl x.pos, if oneD then 0 else weight A (mulD A.fl b (lit A.fl 0.1)), ?_⟩
    unfold Rnd.getHitInfo Rnd.resolution
    simp only [hb, Out.ok_bind, Out.pure_eq, z, w]
  · intro hp hl
    unfold Rnd.getHitInfo Rnd.resolution
    rw [hp]
    have : x.cov[5]? = none := List.getElem?_eq_none (by omega)
    simp only [this]
    cases x.cov[0]? <;> cases x.cov[2]? <;> exact ⟨_, rfl⟩

/-- C165, concrete case: errors of 0.01 mm and 2 mm on a strip at (10, 0, 5) mm -/
theorem C165_example (h : NearestF 53 1074 A.fl) (x : TrkHit) (hp : x.planar = some (fin (1 / 128), fin 2)) (hx : x.pos = V3.re 10 0 5) :
    ∃ p q qx qy qz : ℝ, Rnd.getHitInfo A x false = .ok (V3.re qx qy qz, [fin p, fin q]) ∧ |p - 1638400| ≤ 1 / 10 ^ 8 ∧ |q - 25| ≤ 1 / 10 ^ 13 ∧
      |qx - 1| ≤ 1 / 10 ^ 15 ∧ qy = 0 ∧ |qz - 1 / 2| ≤ 1 / 10 ^ 15 := by
  obtain ⟨p, q, qx, qy, qz, e, h1, -, h2, h3, h4, h5⟩ := C165_planar h hp (by norm_num [Size]) (by norm_num [Size]) hx
    (.inr ⟨by norm_num, by norm_num⟩) (.inl rfl) (.inr ⟨by norm_num, by norm_num⟩) false
  have h2 := h2 rfl
  refine ⟨p, q, qx, qy, qz, e, ?_, ?_, ?_, ?_, ?_⟩
  · norm_num at h1 ⊢
    linarith
  · norm_num at h2 ⊢
    linarith
  · norm_num at h3 ⊢
    linarith
  · norm_num at h4
    exact h4
  · norm_num at h5 ⊢
    linarith

end Verif
