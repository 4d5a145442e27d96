import Verif.Model.RoundedFit
import Verif.Lemmas.Containers
import Verif.Lemmas.RoundedProduct
import Verif.Props.RoundedConversion
import Verif.Props.RoundedMaterial

/-!
# C156, C157: fit results and weights of scatterers in double precision

The corrections and the covariance matrix found by General Broken Lines are arbitrary numbers.  What `GBLInterface` makes of them in double
precision is compared with the same formulas for real numbers, in the units of C150.
-/

open Classical

noncomputable section

namespace Verif

open Dbl Rnd Spec Rounded

variable {fl : ℝ → ℝ} {lm : Libm} {atn tn : ℝ → ℝ} {mm sim : M5 → M5 → M5} {mv : M5 → V5 → V5} {om tl ph d z : ℝ} {b : R3}

/-! ## C156 -/

/-- slopes of at most 100, curvatures and fields between 2^-70 and 2^70 -/
structure FitRange (om tl : ℝ) (b : R3) : Prop where
  tl : |tl| ≤ 100
  o0 : 1 / 2 ^ 70 ≤ |om|
  o1 : |om| ≤ 2 ^ 70
  b0 : 1 / 2 ^ 70 ≤ √(dot b b)
  b1 : √(dot b b) ≤ 2 ^ 70

/-- change of a track parameter for a change of a coordinate by its unit -/
def fitScale (om tl : ℝ) (b : R3) : Matrix (Fin 5) (Fin 5) ℝ := fun i k => l3Row om tl i / curvCol om b k

theorem FitRange.conv (hr : FitRange om tl b) : ConvRange om tl b := by
  have k : (1 : ℝ) / 2 ^ 100 ≤ 1 / 2 ^ 70 := by norm_num
  have l : (2 : ℝ) ^ 70 ≤ 2 ^ 100 := by norm_num
  exact ⟨hr.tl, k.trans hr.o0, hr.o1.trans l, k.trans hr.b0, hr.b1.trans l⟩

theorem fitScale_size (hr : FitRange om tl b) (i k : Fin 5) : fitScale om tl b i k ≤ 2 ^ 250 := by
  have op : 0 < |om| := lt_of_lt_of_le (by positivity) hr.o0
  have T2 : √(1 + tl ^ 2) ≤ 2 ^ 7 := by
    refine Real.sqrt_le_iff.2 ⟨by norm_num, ?_⟩
    have := sq_le_sq' (by linarith [(abs_le.1 hr.tl).1]) (abs_le.1 hr.tl).2
    norm_num at this ⊢
    linarith
  have T1 : 1 ≤ √(1 + tl ^ 2) := Real.one_le_sqrt.2 (by nlinarith [sq_nonneg tl])
  have io : 1 / |om| ≤ 2 ^ 70 := by
    rw [div_le_iff₀ op]
    have := mul_le_mul_of_nonneg_left hr.o0 (show (0 : ℝ) ≤ 2 ^ 70 by positivity)
    rwa [mul_one_div, div_self (by positivity)] at this
  have io0 : 0 ≤ 1 / |om| := by positivity
  have r1 : l3Row om tl i ≤ 2 ^ 77 := by
    fin_cases i <;> simp only [l3Row, Fin.zero_eta, Fin.mk_one, Fin.reduceFinMk, Matrix.cons_val]
    · rw [show (2 : ℝ) ^ 77 = 2 ^ 70 * 2 ^ 7 by norm_num]
      exact mul_le_mul hr.o1 T2 (by linarith) (by positivity)
    · rw [sq]
      refine (mul_le_mul T2 T2 (by linarith) (by positivity)).trans (by norm_num)
    · exact T2.trans (by norm_num)
    · exact io.trans (by norm_num)
    · rw [div_eq_mul_one_div, show (2 : ℝ) ^ 77 = 2 ^ 7 * 2 ^ 70 by norm_num]
      exact mul_le_mul T2 io io0 (by positivity)
  have kb : kBr ≤ 1 := by norm_num [kBr]
  have k0 := kBr_pos
  have c1 : 1 / curvCol om b k ≤ 2 ^ 140 := by
    fin_cases k <;> simp only [curvCol, Fin.zero_eta, Fin.mk_one, Fin.reduceFinMk, Matrix.cons_val]
    · rw [one_div_div, div_eq_mul_one_div, show (2 : ℝ) ^ 140 = 2 ^ 70 * 2 ^ 70 by norm_num]
      refine mul_le_mul ?_ io io0 (by positivity)
      have := mul_le_mul hr.b1 kb k0.le (show (0 : ℝ) ≤ 2 ^ 70 by positivity)
      linarith
    · norm_num
    · norm_num
    · rw [one_div_one_div]
      exact hr.o1.trans (by norm_num)
    · rw [one_div_one_div]
      exact hr.o1.trans (by norm_num)
  have c0 : 0 ≤ 1 / curvCol om b k := by
    fin_cases k <;> (simp [curvCol]; try positivity)
  rw [fitScale, div_eq_mul_one_div]
  have := mul_le_mul r1 c1 c0 (show (0 : ℝ) ≤ 2 ^ 77 by positivity)
  exact this.trans (by norm_num)

/-- the transformation matrix with finite entries -/
theorem fit_matrix (h : NearestF 53 1074 fl) (hl : IsLibm lm) (ha : IsAtan atn) (ht : IsTan tn) (hm : IsProduct fl mm) (hr : FitRange om tl b) :
    ∃ F' F : Matrix (Fin 5) (Fin 5) ℝ, Rnd.curvilinearToL3Jacobian fl lm atn tn mm (hpR om tl ph d z) (V3.of b) = M5.re F' ∧
      Verif.curvilinearToL3Jacobian (hpR om tl ph d z) (V3.of b) = M5.re F ∧ (∀ i j, |F' i j - F i j| ≤ 1 / 2 ^ 38 * fitScale om tl b i j) ∧
      ∀ i j, |F i j| ≤ fitScale om tl b i j := by
  choose F' F h1 h2 h3 h4 using C150_partial (ph := ph) (d := d) (z := z) h hl ha ht hm hr.conv
  exact ⟨F', F, funext fun i => funext fun j => h1 i j, funext fun i => funext fun j => h2 i j, h3, h4⟩

/-- a product of the matrix with corrections, added to a parameter -/
theorem corrected_near (h : NearestF 53 1074 fl) (hv : IsMulVec fl mv) {F F' S : Matrix (Fin 5) (Fin 5) ℝ} {c : Fin 5 → ℝ}
    (hd : ∀ i j, |F' i j - F i j| ≤ 1 / 2 ^ 38 * S i j) (hF : ∀ i j, |F i j| ≤ S i j) (hS : ∀ i j, S i j ≤ 2 ^ 250) (hc : ∀ k, |c k| ≤ 2 ^ 200)
    {p : ℝ} (hp : |p| ≤ 2 ^ 900) (i : Fin 5) :
    ∃ r, addD fl (fin p) (mv (M5.re F') (V5.re c) i) = fin r ∧
      |r - (p + ∑ k, F i k * c k)| ≤ 1 / 2 ^ 53 * |p + ∑ k, F i k * c k| + 1 / 2 ^ 37 * ∑ k, S i k * |c k| + 1 / 2 ^ 1070 := by
  have v1 : (1 : ℝ) / 2 ^ 53 ≤ 1 / 30000 * (1 / 2 ^ 38) := by norm_num
  have w1 : (1 : ℝ) / 2 ^ 38 ≤ 1 / 1000 := by norm_num
  have v0 : (0 : ℝ) ≤ 1 / 2 ^ 53 := by positivity
  have w0 : (0 : ℝ) ≤ 1 / 2 ^ 38 := by positivity
  have η0 : (0 : ℝ) ≤ 1 / 2 ^ 1075 := by positivity
  have S0 : ∀ k, 0 ≤ S i k := fun k => (abs_nonneg _).trans (hF i k)
  have F1 : ∀ k, |F' i k| ≤ 1001 / 1000 * S i k := fun k => by
    have := abs_near (hd i k)
    have := mul_le_mul_of_nonneg_right w1 (S0 k)
    linarith [hF i k]
  have t1 : ∀ k, |F' i k| * |c k| ≤ 1001 / 1000 * (S i k * |c k|) := fun k => by
    have := mul_le_mul_of_nonneg_right (F1 k) (abs_nonneg (c k))
    linarith
  have t2 : ∀ k, S i k * |c k| ≤ 2 ^ 450 := fun k => by
    rw [show (2 : ℝ) ^ 450 = 2 ^ 250 * 2 ^ 200 by rw [← pow_add]]
    exact mul_le_mul (hS i k) (hc k) (abs_nonneg _) (by positivity)
  obtain ⟨s, e1, e2⟩ := entry_sum h (x := F' i) (y := c) (fun k => by
    have q1 := t1 k
    have q2 := t2 k
    have q3 : (2 : ℝ) * 2 ^ 450 ≤ 2 ^ 800 := by
      rw [show (2 : ℝ) ^ 800 = 2 ^ 350 * 2 ^ 450 by rw [← pow_add]]
      exact mul_le_mul_of_nonneg_right (le_trans (by norm_num) (pow_le_pow_right₀ (by norm_num) (show 1 ≤ 350 by norm_num))) (by positivity)
    have q4 := mul_nonneg (S0 k) (abs_nonneg (c k))
    refine le_trans ?_ q3
    clear q3
    generalize (2 : ℝ) ^ 450 = X at *
    linarith) (hv (M5.re F') (V5.re c) i)
  have e3 : |∑ k, F' i k * c k - ∑ k, F i k * c k| ≤ 1 / 2 ^ 38 * ∑ k, S i k * |c k| := by
    rw [← Finset.sum_sub_distrib, Finset.mul_sum]
    refine (Finset.abs_sum_le_sum_abs _ _).trans (Finset.sum_le_sum fun k _ => ?_)
    rw [← sub_mul, abs_mul]
    have := mul_le_mul_of_nonneg_right (hd i k) (abs_nonneg (c k))
    linarith
  have e4 : ∑ k, |F' i k| * |c k| ≤ 1001 / 1000 * ∑ k, S i k * |c k| := by
    rw [Finset.mul_sum]
    exact Finset.sum_le_sum fun k _ => t1 k
  have e5 : |∑ k, F i k * c k| ≤ ∑ k, S i k * |c k| := by
    refine (Finset.abs_sum_le_sum_abs _ _).trans (Finset.sum_le_sum fun k _ => ?_)
    rw [abs_mul]
    exact mul_le_mul_of_nonneg_right (hF i k) (abs_nonneg _)
  have e6 : ∑ k, S i k * |c k| ≤ 5 * 2 ^ 450 := by
    refine (Finset.sum_le_card_nsmul _ _ (2 ^ 450) fun k _ => t2 k).trans (by simp)
  have V0 : 0 ≤ ∑ k, S i k * |c k| := Finset.sum_nonneg fun k _ => mul_nonneg (S0 k) (abs_nonneg _)
  generalize ∑ k, S i k * |c k| = V at *
  generalize ∑ k, |F' i k| * |c k| = W at *
  generalize ∑ k, F i k * c k = y at *
  have e7 := near_trans e2 e3
  have k1 := mul_le_mul_of_nonneg_left e4 v0
  have k2 := mul_le_mul_of_nonneg_right v1 V0
  have e8 : |s - y| ≤ 1001 / 1000 * (1 / 2 ^ 38) * V + 10 * (1 / 2 ^ 1075) := by
    refine e7.trans ?_
    have := mul_nonneg w0 V0
    generalize (1 : ℝ) / 2 ^ 1075 = η at *
    generalize (1 : ℝ) / 2 ^ 38 = w at *
    generalize (1 : ℝ) / 2 ^ 53 = v at *
    linarith
  have e9 : |(p + s) - (p + y)| ≤ 1001 / 1000 * (1 / 2 ^ 38) * V + 10 * (1 / 2 ^ 1075) := by
    rw [show p + s - (p + y) = s - y by ring]
    exact e8
  have η1 : (1 : ℝ) / 2 ^ 1075 ≤ 1 := by
    rw [div_le_one (by positivity)]
    exact one_le_pow₀ (by norm_num)
  have sz : |p + s| ≤ 2 ^ 1000 := by
    have a1 := abs_near e9
    have a2 := abs_add_le p y
    have a3 : (2 : ℝ) ^ 450 ≤ 2 ^ 900 := pow_le_pow_right₀ (by norm_num) (by norm_num)
    have a4 : (1 : ℝ) ≤ 2 ^ 900 := one_le_pow₀ (by norm_num)
    have a5 : (40 : ℝ) * 2 ^ 900 ≤ 2 ^ 1000 := by
      rw [show (2 : ℝ) ^ 1000 = 2 ^ 100 * 2 ^ 900 by rw [← pow_add]]
      exact mul_le_mul_of_nonneg_right (by norm_num) (by positivity)
    have a6 : 1001 / 1000 * (1 / 2 ^ 38) * V ≤ V := by
      have := mul_le_mul_of_nonneg_right (show 1001 / 1000 * ((1 : ℝ) / 2 ^ 38) ≤ 1 by norm_num) V0
      linarith
    refine le_trans ?_ a5
    clear a5 e2 e9 e8 e7
    generalize 1001 / 1000 * (1 / 2 ^ 38) * V = Q at *
    generalize (1 : ℝ) / 2 ^ 1075 = η at *
    generalize (2 : ℝ) ^ 450 = X at *
    generalize (2 : ℝ) ^ 900 = Y at *
    linarith
  refine ⟨fl (p + s), by rw [e1, addD, fin_add, rnd_double h sz], ?_⟩
  have er := err_double h (p + s)
  have tot := near_trans er e9
  have a1 := mul_le_mul_of_nonneg_left (abs_near e9) v0
  have z1 : (1 : ℝ) / 2 ^ 1070 = 32 * (1 / 2 ^ 1075) := by
    rw [show (1075 : ℕ) = 5 + 1070 from rfl, pow_add]
    field_simp
    norm_num
  have z2 : (1 : ℝ) / 2 ^ 37 = 2 * (1 / 2 ^ 38) := by norm_num
  rw [z1, z2]
  refine tot.trans ?_
  have k3 : 1 / 2 ^ 53 * (1001 / 1000 * (1 / 2 ^ 38) * V + 10 * (1 / 2 ^ 1075)) ≤ 1 / 1000 * (1001 / 1000 * (1 / 2 ^ 38) * V + 10 * (1 / 2 ^ 1075)) :=
    mul_le_mul_of_nonneg_right (by norm_num) (by positivity)
  have k4 := mul_nonneg w0 V0
  rw [mul_add] at a1
  generalize |p + y| = P at *
  generalize |p + s| = P' at *
  clear z1 z2 e2 e9 e8 e7 er tot v1 w1
  generalize (1 : ℝ) / 2 ^ 1075 = η at *
  generalize (1 : ℝ) / 2 ^ 38 = w at *
  generalize (1 : ℝ) / 2 ^ 53 = v at *
  linarith

/-- the formulas of a fit result for real numbers: parameters `p`, corrections `c` with covariance matrix `C` -/
def fittedParameters (F : Matrix (Fin 5) (Fin 5) ℝ) (p c : Fin 5 → ℝ) : Fin 5 → ℝ := fun i => p i + ∑ k, F i k * c k

/-- C156: a result asked for after a fit.  The parameters and the covariance matrix computed in double precision differ from the exact ones by at
most 2^-37 and 2^-34 of the sums of the terms in the units of C150, whatever the order of the sums in the products; all other members are the
same. -/
theorem C156_results (h : NearestF 53 1074 fl) (hl : IsLibm lm) (ha : IsAtan atn) (ht : IsTan tn) (hm : IsProduct fl mm) (hv : IsMulVec fl mv)
    (hs : IsSimilarity fl sim) (hr : FitRange om tl b) (hp : ∀ x ∈ [om, tl, ph, d, z], |x| ≤ 2 ^ 900) {gi : GblState} {f : GblFit} {t : Traj}
    {field : V3 → V3} {n : ℕ} {e : Element} (he : t.elems[n]? = some e) (hh : e.tp.hp = hpR om tl ph d z) (hb : field e.tp.rp = V3.of b)
    {c : Fin 5 → ℝ} {C : Matrix (Fin 5) (Fin 5) ℝ} (hf : f.results n = (0, V5.re c, M5.re C)) (hc : ∀ k, |c k| ≤ 2 ^ 200)
    (hC : ∀ i j, |C i j| ≤ 2 ^ 200) (sym : ∀ i j, C i j = C j i) :
    ∃ (F : Matrix (Fin 5) (Fin 5) ℝ) (p' : Fin 5 → ℝ) (C' : Matrix (Fin 5) (Fin 5) ℝ),
      Verif.curvilinearToL3Jacobian (hpR om tl ph d z) (V3.of b) = M5.re F ∧
      World.fillContent gi f t field n = .ok ⟨true, gi.chi2, (gi.ndf % 2 ^ 32).toNat, gi.lostWeight,
        ⟨M5.re (F * C * F.transpose), V5.re (fittedParameters F ![om, tl, ph, d, z] c), e.tp.rp⟩⟩ ∧
      Rnd.fillContent fl lm atn tn mm mv sim gi f t field n = .ok ⟨true, gi.chi2, (gi.ndf % 2 ^ 32).toNat, gi.lostWeight,
        ⟨M5.re C', V5.re p', e.tp.rp⟩⟩ ∧
      (∀ i, |p' i - fittedParameters F ![om, tl, ph, d, z] c i| ≤
        1 / 2 ^ 53 * |fittedParameters F ![om, tl, ph, d, z] c i| + 1 / 2 ^ 37 * ∑ k, fitScale om tl b i k * |c k| + 1 / 2 ^ 1070) ∧
      ∀ i j, |C' i j - (F * C * F.transpose) i j| ≤
        1 / 2 ^ 34 * ∑ l, ∑ k, fitScale om tl b i k * |C k l| * fitScale om tl b j l + 1 / 2 ^ 800 := by
  obtain ⟨F', F, f1, f2, f3, f4⟩ := fit_matrix (ph := ph) (d := d) (z := z) h hl ha ht hm hr
  have S0 : ∀ i k, 0 ≤ fitScale om tl b i k := fun i k => (abs_nonneg _).trans (f4 i k)
  have par : ∀ i, hpR om tl ph d z i = fin ((![om, tl, ph, d, z] : Fin 5 → ℝ) i) := fun i => by fin_cases i <;> rfl
  have P : ∀ i, ∃ r, addD fl (hpR om tl ph d z i) (mv (M5.re F') (V5.re c) i) = fin r ∧
      |r - fittedParameters F ![om, tl, ph, d, z] c i| ≤
        1 / 2 ^ 53 * |fittedParameters F ![om, tl, ph, d, z] c i| + 1 / 2 ^ 37 * ∑ k, fitScale om tl b i k * |c k| + 1 / 2 ^ 1070 := fun i => by
    rw [par]
    exact corrected_near h hv f3 f4 (fitScale_size hr) hc (hp _ (by fin_cases i <;> simp)) i
  obtain ⟨bc, s1, s2⟩ := hs (M5.re F') (M5.re C)
  have w : ∀ i j, (1001 / 100 * ((1 : ℝ) / 2 ^ 38) + 260 * (1 / 2 ^ 53)) * ∑ l, ∑ k, fitScale om tl b i k * |C k l| * fitScale om tl b j l + 1 / 2 ^ 800 ≤
      1 / 2 ^ 34 * ∑ l, ∑ k, fitScale om tl b i k * |C k l| * fitScale om tl b j l + 1 / 2 ^ 800 := fun i j => by
    refine add_le_add_left (mul_le_mul_of_nonneg_right (by norm_num) ?_) _
    exact Finset.sum_nonneg fun l _ => Finset.sum_nonneg fun k _ => mul_nonneg (mul_nonneg (S0 i k) (abs_nonneg _)) (S0 j l)
  have E := fun {i j : Fin 5} {a : Dbl} => sandwich_entry (i := i) (j := j) (a := a) h (show 0 ≤ (1 : ℝ) / 2 ^ 38 by positivity) (by norm_num)
    (fun i j => (f4 i j).trans (by linarith [S0 i j])) f3 (fitScale_size hr) hC s1
  have Q : ∀ i j, ∃ r, sim (M5.re F') (M5.re C) i j = fin r ∧ |r - (F * C * F.transpose) i j| ≤
      1 / 2 ^ 34 * ∑ l, ∑ k, fitScale om tl b i k * |C k l| * fitScale om tl b j l + 1 / 2 ^ 800 := fun i j => by
    rcases s2 i j with k | k
    · obtain ⟨r, r1, r2⟩ := E k
      exact ⟨r, r1, r2.trans (w i j)⟩
    · obtain ⟨r, r1, r2⟩ := E k
      have t1 : (F * C * F.transpose) j i = (F * C * F.transpose) i j := by
        have : (F * C * F.transpose).transpose = F * C * F.transpose := by
          rw [Matrix.transpose_mul, Matrix.transpose_mul, Matrix.transpose_transpose, show C.transpose = C from Matrix.ext fun i j => sym j i, Matrix.mul_assoc]
        exact congrFun (congrFun this i) j
      have t2 : ∑ l, ∑ k, fitScale om tl b j k * |C k l| * fitScale om tl b i l = ∑ l, ∑ k, fitScale om tl b i k * |C k l| * fitScale om tl b j l := by
        rw [Finset.sum_comm]
        refine Finset.sum_congr rfl fun l _ => Finset.sum_congr rfl fun k _ => ?_
        rw [sym l k]
        ring
      rw [t1] at r2
      refine ⟨r, r1, r2.trans ?_⟩
      rw [t2]
      exact w i j
  choose p' p1 p2 using P
  choose C' q1 q2 using Q
  refine ⟨F, p', C', f2, ?_, ?_, p2, q2⟩
  · simp only [World.fillContent, hf, Int.toNat_natCast, he, hh, hb, f2, ne_eq, not_true_eq_false, if_false, not_lt.2 (Int.natCast_nonneg n)]
    rw [M5.mulVec_re, M5.mul_re, M5.transpose_re, M5.mul_re]
    congr 3
    funext i
    rw [V5.add, par]
    rfl
  · simp only [Rnd.fillContent, hf, Int.toNat_natCast, he, hh, hb, f1, ne_eq, not_true_eq_false, if_false, not_lt.2 (Int.natCast_nonneg n)]
    have a1 : (fun i => addD fl (hpR om tl ph d z i) (mv (M5.re F') (V5.re c) i)) = V5.re p' := funext p1
    have a2 : sim (M5.re F') (M5.re C) = M5.re C' := funext fun i => funext fun j => q1 i j
    rw [a1, a2]

/-- C156: if General Broken Lines reports an error for the label, the result has exactly the parameters of the element, in double precision too. -/
theorem C156_error (h : NearestF 53 1074 fl) (hl : IsLibm lm) (ha : IsAtan atn) (ht : IsTan tn) (hm : IsProduct fl mm) (hv : IsMulVec fl mv)
    (hr : FitRange om tl b) (hp : ∀ x ∈ [om, tl, ph, d, z], RepF 53 1074 x ∧ |x| ≤ 2 ^ 900) {gi : GblState} {f : GblFit} {t : Traj}
    {field : V3 → V3} {n : ℕ} {e : Element} (he : t.elems[n]? = some e) (hh : e.tp.hp = hpR om tl ph d z) (hb : field e.tp.rp = V3.of b)
    (hf : (f.results n).1 ≠ 0) :
    ∃ cov, Rnd.fillContent fl lm atn tn mm mv sim gi f t field n = .ok ⟨true, gi.chi2, (gi.ndf % 2 ^ 32).toNat, gi.lostWeight,
      ⟨cov, hpR om tl ph d z, e.tp.rp⟩⟩ := by
  obtain ⟨F', F, f1, f2, f3, f4⟩ := fit_matrix (ph := ph) (d := d) (z := z) h hl ha ht hm hr
  have par : ∀ i, hpR om tl ph d z i = fin ((![om, tl, ph, d, z] : Fin 5 → ℝ) i) := fun i => by fin_cases i <;> rfl
  refine ⟨sim (M5.re F') (f.results n).2.2, ?_⟩
  simp only [Rnd.fillContent, Int.toNat_natCast, he, hh, hb, f1, ne_eq, hf, not_false_eq_true, if_true, not_lt.2 (Int.natCast_nonneg n), if_false]
  congr 3
  funext i
  have z0 : V5.zero = V5.re fun _ => 0 := funext fun _ => zero_eq
  have key : ∀ {l : List Dbl} {a : Dbl}, SumOf fl l a → (∀ x ∈ l, x = fin 0) → a = fin 0 := by
    intro l a k
    induction k with
    | one a =>
      intro q
      exact q a (by simp)
    | add _ _ i1 i2 =>
      intro q
      rw [i1 fun x hx => q x (List.mem_append_left _ hx), i2 fun x hx => q x (List.mem_append_right _ hx), addD, fin_add, add_zero, rnd_zero h]
    | perm hp _ ih =>
      intro q
      exact ih fun x hx => q x (hp.mem_iff.1 hx)
  have m0 : mv (M5.re F') V5.zero i = fin 0 := key (hv _ _ i) (by
    intro x hx
    obtain ⟨k, -, rfl⟩ := List.mem_map.1 hx
    rw [z0, mulD, show M5.re F' i k = fin (F' i k) from rfl, show V5.re (fun _ => 0) k = fin 0 from rfl, fin_mul, mul_zero, rnd_zero h])
  obtain ⟨r1, r2⟩ := hp ((![om, tl, ph, d, z] : Fin 5 → ℝ) i) (by fin_cases i <;> simp)
  rw [m0, par, addD, fin_add, add_zero, rnd_exact h r1 (r2.trans (pow_le_pow_right₀ (by norm_num) (by norm_num)))]

/-- hypotheses of C156: a track with slope 3/4 and radius 100 in a field of 3.5 T -/
example : FitRange (1 / 100) (3 / 4) ![0, 0, 7 / 2] ∧ ∀ x ∈ [(1 : ℝ) / 128, 3 / 4, 1, 0, 0], RepF 53 1074 x ∧ |x| ≤ 2 ^ 900 := by
  have c : √(dot ![0, 0, 7 / 2] ![0, 0, 7 / 2]) = 7 / 2 := by
    rw [show dot ![0, 0, 7 / 2] ![0, 0, 7 / 2] = (7 / 2 : ℝ) ^ 2 by simp [dot]; norm_num, Real.sqrt_sq (by norm_num)]
  refine ⟨⟨by norm_num, by norm_num, by norm_num, by rw [c]; norm_num, by rw [c]; norm_num⟩, fun x hx => ?_⟩
  have o : (1 : ℝ) ≤ 2 ^ 900 := one_le_pow₀ (by norm_num)
  simp only [List.mem_cons, List.not_mem_nil, or_false] at hx
  rcases hx with rfl | rfl | rfl | rfl | rfl
  · exact ⟨rep_dyadic 1 7 (by norm_num) (by norm_num) (by norm_num), le_trans (by norm_num) o⟩
  · exact ⟨rep_dyadic 3 2 (by norm_num) (by norm_num) (by norm_num), le_trans (by norm_num) o⟩
  · exact ⟨rep_dyadic 1 0 (by norm_num) (by norm_num) (by norm_num), le_trans (by norm_num) o⟩
  · exact ⟨repF_zero, le_trans (by norm_num) o⟩
  · exact ⟨repF_zero, le_trans (by norm_num) o⟩

/-- products as in the hypotheses of C156 exist -/
example (h : NearestF 53 1074 fl) : ∃ mv sim, IsMulVec fl mv ∧ IsSimilarity fl sim := by
  obtain ⟨-, -, mm, -, -, -, hm⟩ := exists_library h
  exact ⟨fun a x i => mm a (fun k _ => x k) i 0, fun b c => mm (mm b c) (M5.transpose b), fun a x i => hm a (fun k _ => x k) i 0,
    fun b c => ⟨mm b c, hm b c, fun i j => .inl (hm (mm b c) (M5.transpose b) i j)⟩⟩

/-! ## C157 -/

/-- the matrix for a number known up to a relative error -/
theorem weight_rel (h : NearestF 53 1074 fl) {a : Dbl} {y ε : ℝ} (ha : Rel 400 a y ε) (hε : ε ≤ 2 ^ 28) :
    ∃ w, Rnd.scatteringPrecision fl (mulD fl a a) 0 0 = ![![fin w, fin 0], ![fin 0, fin w]] ∧
      |w - 1 / y ^ 2| ≤ (21 / 10 * ε + 21 / 10) / 2 ^ 53 * (1 / y ^ 2) := by
  have hε' : ε ≤ 2 ^ 30 := hε.trans (by norm_num)
  have e0 := ha.nonneg
  have q2 := (Rel.mul h ha ha (by norm_num) hε' hε').mono (l := 800) le_rfl (f := 201 / 100 * ε + 1001 / 1000) (by linarith)
  have one : Rel 0 (fin 1) 1 0 := Rel.given (by norm_num) (by norm_num)
  have w1 := Rel.div h one q2 (by norm_num) (by norm_num at hε ⊢; linarith) (by norm_num)
  obtain ⟨r, e1, e2⟩ := w1.val
  have y0 := ha.pos
  rw [← sq] at e2
  have rr : RepF 53 1074 r := by
    obtain ⟨s, es, -⟩ := q2.val
    rw [es] at e1
    by_cases s0 : s = 0
    · rw [s0, divD, fin_div_zero one_ne_zero] at e1
      simp [rnd] at e1
    · rw [divD, fin_div _ s0, rnd] at e1
      split_ifs at e1
      injection e1 with e1
      rw [← e1]
      exact h.rep _
  have r1 : |r| ≤ 2 ^ 1000 := by
    have b1 := abs_near e2
    have b2 := w1.hi
    rw [← sq] at b2
    have b3 : 0 < 1 / y ^ 2 := by positivity
    rw [abs_of_pos b3] at b1
    have b4 : (1001 / 1000 * (0 + (201 / 100 * ε + 1001 / 1000)) + 1001 / 1000) * (1 / y ^ 2 * (1 / 2 ^ 53)) ≤ 1 / y ^ 2 := by
      rw [show (1001 / 1000 * (0 + (201 / 100 * ε + 1001 / 1000)) + 1001 / 1000) * (1 / y ^ 2 * (1 / 2 ^ 53)) =
        (1001 / 1000 * (0 + (201 / 100 * ε + 1001 / 1000)) + 1001 / 1000) * (1 / 2 ^ 53) * (1 / y ^ 2) by ring]
      refine mul_le_of_le_one_left b3.le ?_
      norm_num at hε ⊢
      linarith
    have b5 : (2 : ℝ) * 2 ^ 800 ≤ 2 ^ 1000 := by
      rw [show (2 : ℝ) ^ 1000 = 2 ^ 200 * 2 ^ 800 by rw [← pow_add]]
      exact mul_le_mul_of_nonneg_right (by norm_num) (by positivity)
    rw [show 0 + 800 = 800 from rfl] at b2
    refine le_trans ?_ b5
    clear b5 e2
    generalize (2 : ℝ) ^ 800 = X at *
    linarith
  have z0 : mulD fl (0 : Dbl) 0 = fin 0 := by rw [zero_eq, mulD, fin_mul, mul_zero, rnd_zero h]
  have o1 : subD fl (1 : Dbl) (fin 0) = fin 1 := by
    rw [one_eq, subD, fin_sub, sub_zero, rnd_exact h repF_one (by rw [abs_one]; exact one_le_pow₀ (by norm_num))]
  have o2 : subD fl (fin 1) (fin 0) = fin 1 := by rw [← one_eq]; rw [o1]; rw [one_eq]
  have n1 : mulD fl (-1 : Dbl) (fin r) = fin (-r) := by
    rw [one_eq, fin_neg, mulD, fin_mul, show (-1 : ℝ) * r = -r by ring, rnd_exact h (repF_neg rr) (by rwa [abs_neg])]
  have n2 : ∀ x : ℝ, mulD fl (fin x) 0 = fin 0 := fun x => by rw [zero_eq, mulD, fin_mul, mul_zero, rnd_zero h]
  have n3 : mulD fl (fin r) (fin 1) = fin r := by rw [mulD, fin_mul, mul_one, rnd_exact h rr r1]
  refine ⟨r, ?_, e2.trans ?_⟩
  · simp only [Rnd.scatteringPrecision, z0, o1, o2, e1, n1, n2, n3]
  · rw [show (21 / 10 * ε + 21 / 10) / 2 ^ 53 * (1 / y ^ 2) = (21 / 10 * ε + 21 / 10) * (1 / y ^ 2 * (1 / 2 ^ 53)) by ring]
    exact mul_le_mul_of_nonneg_right (by linarith) (by positivity)

/-- C157, where it holds: the precision matrix of a scatterer in double precision is diagonal, with the inverse of the square of the width on the diagonal up to
the last bits.  Missing for C157: widths whose square underflows, see `C157_false`. -/
theorem C157_weight_partial (h : NearestF 53 1074 fl) {q : ℝ} (h1 : 1 / 2 ^ 400 ≤ q) (h2 : q ≤ 2 ^ 400) {e : Element} {l : List Dbl}
    (he : e.precisions = l ++ [mulD fl (fin q) (fin q), 0, 0]) :
    ∃ w, Rnd.gblScatterer fl e = .ok (![0, 0], ![![fin w, fin 0], ![fin 0, fin w]]) ∧ |w - 1 / q ^ 2| ≤ 1 / 2 ^ 51 * (1 / q ^ 2) := by
  obtain ⟨w, w1, w2⟩ := weight_rel h (Rel.given h1 h2) (by norm_num)
  refine ⟨w, ?_, w2.trans (mul_le_mul_of_nonneg_right (by norm_num) (by positivity))⟩
  have n : (l ++ [mulD fl (fin q) (fin q), 0, 0]).length = l.length + 3 := by simp
  simp only [Rnd.gblScatterer, he, n]
  rw [show l.length + 3 - 3 = l.length by omega, show l.length + 3 - 2 = l.length + 1 by omega, show l.length + 3 - 1 = l.length + 2 by omega,
    List.getElem?_append_right (by omega), List.getElem?_append_right (by omega), List.getElem?_append_right (by omega),
    show l.length - l.length = 0 by omega, show l.length + 1 - l.length = 1 by omega, show l.length + 2 - l.length = 2 by omega]
  simp only [List.getElem?_cons_zero, List.getElem?_cons_succ, w1]
  rw [if_neg (by omega)]

/-- C157: together with Highland's formula in double precision, for tracks that cross between 1e-6 and 1e6 radiation lengths: the weight is the
inverse of the square of the angle up to four parts in a million.  Missing for C157: as before. -/
theorem C157_highland_partial (h : NearestF 53 1074 fl) {lg : LogLib} (hl : IsLogLib lg) {s : Surface} {uv : V2} {px py pz nx ny nz m ti tO Xi Xo : ℝ}
    (hn : s.normal (s.localToGlobal uv) = V3.re nx ny nz) (hti : s.innerThickness = fin ti) (hto : s.outerThickness = fin tO)
    (hXi : s.innerMaterial.radLength = fin Xi) (hXo : s.outerMaterial.radLength = fin Xo)
    (ht1 : SizeOrZero ti) (ht2 : SizeOrZero tO) (ht : 0 < ti + tO) (hx1 : Size Xi) (hx2 : Size Xo) (hm : SizeOrZero m)
    (hP : Size (√(px ^ 2 + py ^ 2 + pz ^ 2))) (hN : nx ^ 2 + ny ^ 2 + nz ^ 2 ≤ (1001 / 1000) ^ 2)
    (hc : 1 / 2 ^ 20 ≤ crossingCos px py pz nx ny nz) (hx : 1 / 10 ^ 6 ≤ (ti / Xi + tO / Xo) / crossingCos px py pz nx ny nz)
    (hx' : (ti / Xi + tO / Xo) / crossingCos px py pz nx ny nz ≤ 10 ^ 6) :
    let y := highland ((ti / Xi + tO / Xo) / crossingCos px py pz nx ny nz) (√(px ^ 2 + py ^ 2 + pz ^ 2)) m
    1 / 2 ^ 399 ≤ y → y ≤ 2 ^ 399 →
    ∃ q w, Rnd.computeQMS fl lg s uv (V3.re px py pz) (fin m) = q ∧
      Rnd.scatteringPrecision fl (mulD fl q q) 0 0 = ![![fin w, fin 0], ![fin 0, fin w]] ∧ |w - 1 / y ^ 2| ≤ 4 / 10 ^ 6 * (1 / y ^ 2) := by
  intro y y1 y2
  obtain ⟨q, q1, q0, q2⟩ := C145_positive h hl hn hti hto hXi hXo ht1 ht2 ht hx1 hx2 hm hP hN hc hx hx'
  change |q - y| ≤ 1 / 10 ^ 6 * y at q2
  have y0 : 0 < y := lt_of_lt_of_le (by positivity) y1
  clear_value y
  have k1 : (1 : ℝ) / 2 ^ 400 ≤ 1 / 2 ^ 399 / 2 := by
    rw [pow_succ, ← div_div]
  have k2 : (2 : ℝ) ^ 400 = 2 * 2 ^ 399 := pow_succ' _ _
  obtain ⟨b1, b2⟩ := abs_le.1 q2
  obtain ⟨w, w1, w2⟩ := weight_rel h (Rel.given (k := 400) (x := q) (by
    generalize (1 : ℝ) / 2 ^ 399 = X at *
    generalize (1 : ℝ) / 2 ^ 400 = Y at *
    linarith) (by
    rw [k2]
    clear k1 k2 y1
    generalize (2 : ℝ) ^ 399 = X at *
    linarith)) (by norm_num)
  refine ⟨fin q, w, q1, w1, ?_⟩
  -- 1 / q² and 1 / y²
  have e : |1 / q ^ 2 - 1 / y ^ 2| ≤ 21 / 10 ^ 7 * (1 / y ^ 2) := by
    obtain ⟨t, ht⟩ : ∃ t, t = q / y := ⟨_, rfl⟩
    have qt : q = t * y := by rw [ht]; field_simp
    have t1 : 1 - 1 / 10 ^ 6 ≤ t := by
      rw [ht, le_div_iff₀ y0]
      linarith
    have t2 : t ≤ 1 + 1 / 10 ^ 6 := by
      rw [ht, div_le_iff₀ y0]
      linarith
    have t0 : 0 < t := by
      norm_num at t1
      linarith
    rw [qt, show 1 / (t * y) ^ 2 - 1 / y ^ 2 = (1 / t ^ 2 - 1) * (1 / y ^ 2) by field_simp, abs_mul, abs_of_pos (show 0 < 1 / y ^ 2 by positivity)]
    refine mul_le_mul_of_nonneg_right ?_ (by positivity)
    rw [abs_le]
    have tt : 0 < t ^ 2 := by positivity
    constructor
    · have : 1 - 21 / 10 ^ 7 ≤ 1 / t ^ 2 := by
        rw [le_div_iff₀ tt]
        norm_num at t1 t2 ⊢
        nlinarith
      linarith
    · have : 1 / t ^ 2 ≤ 1 + 21 / 10 ^ 7 := by
        rw [div_le_iff₀ tt]
        norm_num at t1 t2 ⊢
        nlinarith
      linarith
  have e' := near_trans w2 e
  refine e'.trans ?_
  have i1 := abs_near e
  have i2 : 0 < 1 / y ^ 2 := by positivity
  have i3 : 0 < 1 / q ^ 2 := by positivity
  rw [abs_of_pos i2, abs_of_pos i3] at i1
  generalize 1 / q ^ 2 = u at *
  generalize 1 / y ^ 2 = v at *
  norm_num at i1 ⊢
  linarith

/-- C157 is false for widths near or equal to zero: without material, and for all widths up to 2^-540, whose square underflows, the matrix handed to
General Broken Lines has infinities on the diagonal and NaN elsewhere. -/
theorem C157_false (h : NearestF 53 1074 fl) {q : ℝ} (hq : |q| ≤ 1 / 2 ^ 540) :
    Rnd.scatteringPrecision fl (mulD fl (fin q) (fin q)) 0 0 = ![![inf false, nan], ![nan, inf false]] := by
  have q2 : |q * q| ≤ 1 / 2 ^ 1080 := by
    rw [abs_mul]
    refine (mul_le_mul hq hq (abs_nonneg _) (by positivity)).trans (le_of_eq ?_)
    rw [div_mul_div_comm, ← pow_add, one_mul]
  have f0 : fl (q * q) = 0 := by
    obtain ⟨m, e, -, hm⟩ := h.rep (q * q)
    have k1 := (h.double (q * q)).trans (mul_le_mul_of_nonneg_left q2 (by norm_num))
    have k2 : |fl (q * q) * 2 ^ 1074| < 1 := by
      rw [abs_mul, abs_of_pos (show (0 : ℝ) < 2 ^ 1074 by positivity)]
      refine lt_of_le_of_lt (mul_le_mul_of_nonneg_right k1 (by positivity)) ?_
      rw [show (1080 : ℕ) = 6 + 1074 from rfl, pow_add, mul_one_div, div_mul_eq_mul_div, mul_div_mul_right _ _ (by positivity)]
      norm_num
    rw [hm] at k2
    have k3 : m * 2 ^ e = 0 := by
      rw [← Int.abs_lt_one_iff]
      exact_mod_cast k2
    have k4 : fl (q * q) * 2 ^ 1074 = 0 := by
      rw [hm]
      exact_mod_cast k3
    exact (mul_eq_zero.1 k4).resolve_right (by positivity)
  have z : mulD fl (fin q) (fin q) = fin 0 := by
    rw [mulD, fin_mul, rnd_double h (q2.trans (le_trans (b := 1) (by rw [div_le_one (by positivity)]; exact one_le_pow₀ (by norm_num)) (one_le_pow₀ (by norm_num)))), f0]
  have z0 : mulD fl (0 : Dbl) 0 = fin 0 := by rw [zero_eq, mulD, fin_mul, mul_zero, rnd_zero h]
  have o1 : subD fl (1 : Dbl) (fin 0) = fin 1 := by
    rw [one_eq, subD, fin_sub, sub_zero, rnd_exact h repF_one (by rw [abs_one]; exact one_le_pow₀ (by norm_num))]
  have o2 : subD fl (fin 1) (fin 0) = fin 1 := by rw [← one_eq]; rw [o1]; rw [one_eq]
  have s : divD fl (fin 1) (fin 0) = inf false := by
    rw [divD, fin_div_zero one_ne_zero]
    simp [rnd, sgn]
  have m1 : mulD fl (inf false) (fin 1) = inf false := by simp [mulD, rnd, inf_mul_fin, sgn]
  have m2 : mulD fl (-1) (inf false) = inf true := by simp [mulD, rnd, one_eq, sgn, fin_mul_inf]
  have m3 : mulD fl (inf true) 0 = nan := by simp [mulD, rnd, zero_eq]
  have m4 : mulD fl nan 0 = nan := by simp [mulD, rnd]
  simp only [Rnd.scatteringPrecision, z, z0, o1, o2, s, m1, m2, m3, m4]

end Verif
