import Verif.Model.RoundedMoveCov
import Verif.Lemmas.RoundedProduct
import Verif.Lemmas.ErrorCalculus
import Verif.Props.MoveCov

/-!
# Rounding errors of the matrix of `moveHelixTo`
-/

open Classical

noncomputable section

namespace Verif

open Dbl Spec

namespace Rnd

variable {fl : ℝ → ℝ}

/-- the magnitudes of the entries of the matrix: products of the magnitudes of the factors, with `|1/om| + |d|` for `1/om - d` and
`|tl| + 1` for `tl` -/
def moveScale (om tl d dn : ℝ) : Matrix (Fin 5) (Fin 5) ℝ :=
  let Q := 1 / |om|
  let G := Q + |d|
  let T := |tl| + 1
  let I := 1 / |1 / om - dn|
  !![1, 0, 0, 0, 0;
     0, 1, 0, 0, 0;
     Q * (1 / |om|) * I, 0, G * I, I, 0;
     Q * (1 / |om|), 0, G, 1, 0;
     Q * (1 / |om|) * T * (1 + Q * I), Q, Q * T * (1 + G * I), Q * I * T, 1]

/-- one entry: the computed number `a`, the exact number `x`, the scale `S` -/
def Entry (ε S : ℝ) (a : Dbl) (x : ℝ) : Prop := ∃ y, a = fin y ∧ |y - x| ≤ ε * S ∧ |x| ≤ 5 * S ∧ S ≤ 2 ^ 250

theorem Ap.entry {k : ℕ} {S B e K : ℝ} {a : Dbl} {x : ℝ} (h : Ap k S a (fin x) B e) (hB : B ≤ 5) (he : e ≤ 2 * K + 250) (hk : k ≤ 250) :
    Entry ((2 * K + 250) * (1 / 2 ^ 53)) S a x := by
  obtain ⟨y, z, e1, e2, e3, e4⟩ := h.val
  injection e2 with e2
  subst e2
  have S0 := h.pos
  refine ⟨y, e1, e3.trans ?_, e4.trans (mul_le_mul_of_nonneg_right hB S0.le), h.hi.trans (pow_le_pow_right₀ (by norm_num) hk)⟩
  rw [mul_assoc, mul_comm (1 / 2 ^ 53)]
  exact mul_le_mul_of_nonneg_right he (by positivity)

theorem entry_zero {ε : ℝ} : Entry ε 0 0 0 := ⟨0, by rw [zero_eq], by simp, by simp, by positivity⟩
theorem entry_one {ε : ℝ} (h : 0 ≤ ε) : Entry ε 1 (fin 1) 1 := ⟨1, rfl, by simpa using h, by norm_num, one_le_pow₀ (by norm_num)⟩

/-- sizes for which the error bounds are shown -/
structure CovRange (om tl d dn K : ℝ) : Prop where
  om1 : 1 / 2 ^ 50 ≤ |om|
  om2 : |om| ≤ 2 ^ 50
  tl : |tl| ≤ 2 ^ 50
  d : |d| ≤ 2 ^ 50
  K1 : 1 ≤ K
  K2 : K ≤ 2 ^ 20
  near : |1 / om| ≤ K * |1 / om - dn|
  far : |1 / om - dn| ≤ 2 ^ 70

theorem CovRange.base {om tl d dn K : ℝ} (hr : CovRange om tl d dn K) : om ≠ 0 ∧ |1 / om| = 1 / |om| ∧ 1 / 2 ^ 50 ≤ 1 / |om| ∧ 1 / |om| ≤ 2 ^ 50 ∧
    1 / 2 ^ 70 ≤ |1 / om - dn| ∧ 1 / om - dn ≠ 0 ∧ 1 / |om| ≤ K * |1 / om - dn| := by
  have o0 : om ≠ 0 := abs_pos.1 (lt_of_lt_of_le (by positivity) hr.om1)
  have e : |1 / om| = 1 / |om| := by rw [abs_div, abs_one]
  obtain ⟨s1, s2⟩ := scale_inv hr.om1 hr.om2
  have n := hr.near
  rw [e] at n
  have ρ1 : 1 / 2 ^ 70 ≤ |1 / om - dn| := by
    have k1 : 1 / 2 ^ 50 ≤ 2 ^ 20 * |1 / om - dn| := s1.trans (n.trans (mul_le_mul_of_nonneg_right hr.K2 (abs_nonneg _)))
    have : (1 : ℝ) / 2 ^ 70 = 1 / 2 ^ 20 * (1 / 2 ^ 50) := by norm_num
    rw [this]
    have k2 := mul_le_mul_of_nonneg_left k1 (show (0 : ℝ) ≤ 1 / 2 ^ 20 by positivity)
    rwa [← mul_assoc, one_div_mul_cancel (by positivity), one_mul] at k2
  exact ⟨o0, e, s1, s2, ρ1, abs_pos.1 (lt_of_lt_of_le (by positivity) ρ1), n⟩

section

variable {om tl d dn K f θ : ℝ} {r cs sn : Dbl}

theorem cov_r (h : NearestF 53 1074 fl) (hr : CovRange om tl d dn K) : Ap 50 (1 / |om|) (divD fl 1 (fin om)) (fin (1 / om)) 1 1.01 := by
  obtain ⟨o0, -, s1, s2, -, -, -⟩ := hr.base
  have A1 : Ap 0 1 (1 : Dbl) (1 : Dbl) 1 0 := by
    rw [one_eq]
    exact Ap.unit (B := 1) (by norm_num)
  have A2 : Ap 50 |om| (fin om) (fin om) 1 0 := Ap.given hr.om1 hr.om2 (by rw [one_mul])
  have := Ap.divr h A1 A2 rfl le_rfl (by norm_num) (by norm_num) (by norm_num) (by norm_num)
  rw [one_eq, fin_div _ o0, ← one_eq] at this
  exact this.mono le_rfl (by norm_num)

theorem cov_rdr (h : NearestF 53 1074 fl) (hr : CovRange om tl d dn K) (Ar : Ap 50 (1 / |om|) r (fin (1 / om)) 1 1.01) :
    Ap 51 (1 / |om| + |d|) (addD fl r (fin (-d))) (fin (1 / om - d)) 1 2.1 := by
  obtain ⟨o0, e, s1, s2, -, -, -⟩ := hr.base
  have d0 := abs_nonneg d
  have l1 : 1 / 2 ^ 51 ≤ 1 / |om| + |d| := by
    have : (1 : ℝ) / 2 ^ 51 ≤ 1 / 2 ^ 50 := by norm_num
    linarith
  have l2 : 1 / |om| + |d| ≤ 2 ^ 51 := by
    have := hr.d
    norm_num at *
    linarith
  have A1 := Ar.rescale (c := 1) (T := 1 / |om| + |d|) (l := 51) (by linarith) l1 l2
  have A2 : Ap 51 (1 / |om| + |d|) (fin (-d)) (fin (-d)) 1 0 := Ap.given l1 l2 (by
    rw [abs_neg]
    linarith [s1, show (0 : ℝ) ≤ 1 / 2 ^ 50 by positivity])
  have A3 := A1.addB h A2 (D := 1) (by
    intro x hx
    rw [fin_add] at hx
    injection hx with hx
    rw [← hx, one_mul]
    have := abs_add_le (1 / om) (-d)
    rw [abs_neg, e] at this
    exact this) (by norm_num) (by norm_num) (by norm_num)
  rw [fin_add, ← sub_eq_add_neg] at A3
  exact A3.mono le_rfl (by norm_num)

theorem cov_inv (h : NearestF 53 1074 fl) (hr : CovRange om tl d dn K) (Ar : Ap 50 (1 / |om|) r (fin (1 / om)) 1 1.01) :
    Ap 70 (1 / |1 / om - dn|) (divD fl 1 (addD fl r (fin (-dn)))) (fin (1 / (1 / om - dn))) 1 (1.02 * K + 2.1) := by
  obtain ⟨o0, e, s1, s2, l1, ρ0, n⟩ := hr.base
  have K1 := hr.K1
  have K2 := hr.K2
  norm_num at K2
  have A1 := Ar.rescale (c := K) (T := |1 / om - dn|) (l := 70) n l1 hr.far
  have A2 : Ap 70 |1 / om - dn| (fin (-dn)) (fin (-dn)) (K + 1) 0 := Ap.given l1 hr.far (by
    have := abs_sub (1 / om - dn) (1 / om)
    rw [show 1 / om - dn - 1 / om = -dn by ring, e] at this
    linarith)
  have A3 := A1.addB h A2 (D := 1) (by
    intro x hx
    rw [fin_add] at hx
    injection hx with hx
    rw [← hx, one_mul, ← sub_eq_add_neg]) (by norm_num) (by norm_num; linarith) (by norm_num)
  rw [fin_add, ← sub_eq_add_neg] at A3
  have A4 : Ap 0 1 (1 : Dbl) (1 : Dbl) 1 0 := by
    rw [one_eq]
    exact Ap.unit (B := 1) (by norm_num)
  have A5 := Ap.divr h A4 A3 rfl le_rfl (by norm_num) (by norm_num; linarith) (by norm_num; linarith) (by norm_num)
  rw [one_eq, fin_div _ ρ0, ← one_eq] at A5
  exact A5.mono le_rfl (by linarith)

theorem cov_rc (h : NearestF 53 1074 fl) (hr : CovRange om tl d dn K) (Ar : Ap 50 (1 / |om|) r (fin (1 / om)) 1 1.01) :
    Ap 100 (1 / |om| * (1 / |om|)) (divD fl r (fin om)) (fin (1 / om / om)) 1 2.1 := by
  obtain ⟨o0, e, s1, s2, -, -, -⟩ := hr.base
  have A2 : Ap 50 |om| (fin om) (fin om) 1 0 := Ap.given hr.om1 hr.om2 (by rw [one_mul])
  have := Ap.div h Ar A2 rfl le_rfl (by norm_num) (by norm_num) (by norm_num) (by norm_num)
  rw [fin_div _ o0] at this
  exact this.mono le_rfl (by norm_num)

theorem cov_tl (hr : CovRange om tl d dn K) : Ap 51 (|tl| + 1) (fin tl) (fin tl) 1 0 := by
  have t0 := abs_nonneg tl
  refine Ap.given ?_ ?_ (by linarith)
  · have : (1 : ℝ) / 2 ^ 51 ≤ 1 := by norm_num
    linarith
  · have := hr.tl
    norm_num at *
    linarith

/-- the entries of the matrix -/
theorem moveF_near (h : NearestF 53 1074 fl) (hr : CovRange om tl d dn K) (hf : |f| ≤ 4) (Ac : Ap 0 1 cs (fin (Real.cos θ)) 1 175)
    (As : Ap 0 1 sn (fin (Real.sin θ)) 1 175) (dzp fi : Dbl) :
    ∃ F' : Matrix (Fin 5) (Fin 5) ℝ,
      moveF fl ⟨divD fl 1 (fin om), addD fl (divD fl 1 (fin om)) (fin (-d)), fin om, fin tl, cs, sn, fin f, fin (-dn), dzp, fi⟩ = M5.re F' ∧
      ∀ i j, |F' i j - moveFR om tl 0 d θ dn f i j| ≤ (2 * K + 250) * (1 / 2 ^ 53) * moveScale om tl d dn i j ∧
        |moveFR om tl 0 d θ dn f i j| ≤ 5 * moveScale om tl d dn i j ∧ moveScale om tl d dn i j ≤ 2 ^ 250 := by
  have Ar := cov_r h hr
  have Ad := cov_rdr h hr Ar
  have Ai := cov_inv h hr Ar
  have Aq := cov_rc h hr Ar
  have At := cov_tl hr
  have K1 := hr.K1
  have K2 := hr.K2
  norm_num at K2
  obtain ⟨o0, e, s1, s2, l1, ρ0, n⟩ := hr.base
  have ρp : 0 < |1 / om - dn| := abs_pos.2 ρ0
  have far := hr.far
  have hd := hr.d
  have i0 : 0 < 1 / |1 / om - dn| := by positivity
  have i1 := Ai.hi
  have q0 : 0 < 1 / |om| := by positivity
  have d0 := abs_nonneg d
  have hG : 0 < 1 / |om| + |d| := by positivity
  have G2 := Ad.hi
  have one : Ap 0 1 (1 : Dbl) (1 : Dbl) 1 0 := by
    rw [one_eq]
    exact Ap.unit (B := 1) (by norm_num)
  have Qi : 1 / |om| * (1 / |1 / om - dn|) ≤ K := by
    rw [mul_one_div, div_le_iff₀ ρp]
    exact n
  have key : ∀ i j, Entry ((2 * K + 250) * (1 / 2 ^ 53)) (moveScale om tl d dn i j)
      (moveF fl ⟨divD fl 1 (fin om), addD fl (divD fl 1 (fin om)) (fin (-d)), fin om, fin tl, cs, sn, fin f, fin (-dn), dzp, fi⟩ i j)
      (moveFR om tl 0 d θ dn f i j) := by
    unfold moveF moveFR moveScale
    simp only [sub_zero]
    generalize divD fl 1 (fin om) = r at *
    generalize addD fl r (fin (-d)) = rdr at *
    generalize divD fl 1 (addD fl r (fin (-dn))) = ri at *
    generalize divD fl r (fin om) = rc at *
    clear s1 s2 l1 e n far hd
    generalize 1 / |1 / om - dn| = I at *
    generalize 1 / |om| = Q at *
    generalize |tl| + 1 = T at *
    generalize 1 / (1 / om - dn) = ρ at *
    generalize Real.cos θ = c at *
    generalize Real.sin θ = s at *
    -- the third row
    have B1 := (Aq.mul h Ai (by norm_num) (by linarith) (by linarith) (by norm_num)).mono (B' := 1) (e' := 1.03 * K + 5.3) (by norm_num) (by linarith)
    have E20 := (B1.mull h As (by norm_num) (by norm_num) (by linarith) (by norm_num)).mono (B' := 1) (e' := 1.04 * K + 182) (by norm_num) (by linarith)
    have B2 := (Ad.mul h Ai (by norm_num) (by linarith) (by linarith) (by norm_num)).mono (B' := 1) (e' := 1.03 * K + 5.3) (by norm_num) (by linarith)
    have E22 := (B2.mull h Ac (by norm_num) (by norm_num) (by linarith) (by norm_num)).mono (B' := 1) (e' := 1.04 * K + 182) (by norm_num) (by linarith)
    have E23 := (Ai.neg.mull h As (by norm_num) (by norm_num) (by linarith) (by norm_num)).mono (B' := 1) (e' := 1.04 * K + 182) (by norm_num) (by linarith)
    -- the fourth row
    have B3 := (one.sub h Ac (by norm_num) (by norm_num) (by norm_num)).mono (B' := 2) (e' := 178) (by norm_num) (by norm_num)
    have E30 := (Aq.mull h B3 (by norm_num) (by norm_num) (by norm_num) (by norm_num)).mono (B' := 2) (e' := 185) (by norm_num) (by norm_num)
    have E32 := (Ad.mull h As (by norm_num) (by norm_num) (by norm_num) (by norm_num)).mono (B' := 1) (e' := 180) (by norm_num) (by norm_num)
    -- the fifth row
    have B4 := (Ar.mul h Ai (by norm_num) (by linarith) (by linarith) (by norm_num)).mono (B' := 1) (e' := 1.03 * K + 4.3) (by norm_num) (by linarith)
    have B5 := (B4.mull h As (by norm_num) (by norm_num) (by linarith) (by norm_num)).mono (B' := 1) (e' := 1.04 * K + 181) (by norm_num) (by linarith)
    have w0 : 0 ≤ Q * I := by positivity
    have w1 : 1 / 2 ^ 21 ≤ 1 + Q * I := by
      have : (1 : ℝ) / 2 ^ 21 ≤ 1 := by norm_num
      linarith
    have w2 : 1 + Q * I ≤ 2 ^ 21 := by
      have : (2 : ℝ) ^ 21 = 2097152 := by norm_num
      linarith
    have B6 := B5.rescale (c := 1) (T := 1 + Q * I) (l := 21) (by linarith) w1 w2
    have B7 : Ap 21 (1 + Q * I) (fin f) (fin f) 4 0 := Ap.given w1 w2 (by linarith)
    have B8 := (B7.sub h B6 (by norm_num) (by linarith) (by norm_num)).mono (B' := 5) (e' := 1.04 * K + 187) (by norm_num) (by linarith)
    have B9 := (Aq.mul h At (by norm_num) (by norm_num) (by norm_num) (by norm_num)).mono (B' := 1) (e' := 3.2) (by norm_num) (by norm_num)
    have E40 := (B9.mul h B8 (by norm_num) (by linarith) (by linarith) (by norm_num)).mono (B' := 5) (e' := 1.04 * K + 210) (by norm_num) (by linarith)
    have C1 : Ap 0 1 (fin f) (fin f) 4 0 := Ap.unit hf
    have E41 := (Ar.neg.mull h C1 (by norm_num) (by norm_num) (by norm_num) (by norm_num)).mono (B' := 4) (e' := 9) (by norm_num) (by norm_num)
    have u0 : 0 ≤ (Q + |d|) * I := by positivity
    have u1 : 1 / 2 ^ 122 ≤ 1 + (Q + |d|) * I := by
      have : (1 : ℝ) / 2 ^ 122 ≤ 1 := by norm_num
      linarith
    have u2 : 1 + (Q + |d|) * I ≤ 2 ^ 122 := by
      have k := mul_le_mul G2 i1 i0.le (by positivity)
      norm_num at k ⊢
      linarith
    have C2 := E22.rescale (c := 1) (T := 1 + (Q + |d|) * I) (l := 122) (by linarith) u1 u2
    have C3 : Ap 122 (1 + (Q + |d|) * I) (1 : Dbl) (1 : Dbl) 1 0 := by
      rw [one_eq]
      exact Ap.given u1 u2 (by rw [abs_one]; linarith)
    have C4 := (C3.sub h C2 (by norm_num) (by linarith) (by norm_num)).mono (B' := 2) (e' := 1.04 * K + 185) (by norm_num) (by linarith)
    have C5 := (Ar.mul h At (by norm_num) (by norm_num) (by norm_num) (by norm_num)).mono (B' := 1) (e' := 2.1) (by norm_num) (by norm_num)
    have E42 := (C5.mul h C4 (by norm_num) (by linarith) (by linarith) (by norm_num)).mono (B' := 2) (e' := 1.04 * K + 195) (by norm_num) (by linarith)
    have C6 := (B4.mul h At (by norm_num) (by norm_num) (by linarith) (by norm_num)).mono (B' := 1) (e' := 1.04 * K + 6) (by norm_num) (by linarith)
    have E43 := (C6.mull h As (by norm_num) (by norm_num) (by linarith) (by norm_num)).mono (B' := 1) (e' := 1.05 * K + 185) (by norm_num) (by linarith)
    simp only [one_eq, fin_mul, fin_sub, fin_neg] at E20 E22 E23 E30 E32 E40 E41 E42 E43
    simp only [one_eq]
    have ε0 : 0 ≤ (2 * K + 250) * (1 / 2 ^ 53) := by positivity
    intro i j
    fin_cases i <;> fin_cases j
    · exact entry_one ε0
    · exact entry_zero
    · exact entry_zero
    · exact entry_zero
    · exact entry_zero
    · exact entry_zero
    · exact entry_one ε0
    · exact entry_zero
    · exact entry_zero
    · exact entry_zero
    · exact E20.entry (by norm_num) (by linarith) (by norm_num)
    · exact entry_zero
    · exact E22.entry (by norm_num) (by linarith) (by norm_num)
    · exact E23.entry (by norm_num) (by linarith) (by norm_num)
    · exact entry_zero
    · exact E30.entry (by norm_num) (by linarith) (by norm_num)
    · exact entry_zero
    · exact E32.entry (by norm_num) (by linarith) (by norm_num)
    · exact Ac.entry (by norm_num) (by linarith) (by norm_num)
    · exact entry_zero
    · exact E40.entry (by norm_num) (by linarith) (by norm_num)
    · exact E41.entry (by norm_num) (by linarith) (by norm_num)
    · exact E42.entry (by norm_num) (by linarith) (by norm_num)
    · exact E43.entry (by norm_num) (by linarith) (by norm_num)
    · exact entry_one ε0
  choose F' hF using key
  refine ⟨F', ?_, fun i j => (hF i j).2⟩
  funext i j
  exact (hF i j).1

end

end Rnd

end Verif
