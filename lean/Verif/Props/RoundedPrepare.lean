import Verif.Lemmas.RoundedPrepare
import Verif.Model.RoundedPrepare
import Verif.Props.RoundedCharge
import Verif.Props.RoundedMomentum
import Verif.Props.RoundedNewton

/-!
# C158: the Jacobians of a trajectory in double precision
-/

open Classical

noncomputable section

namespace Verif

open Dbl Rnd Spec Rounded

variable {fl : ℝ → ℝ} {lm : Libm} {at2 : ℝ → ℝ → ℝ} {asn atn : ℝ → ℝ} {lg : LogLib}

/-! ## inputs of the Jacobian -/

theorem dirAt_unit (om tl ph s : ℝ) : dot (dirAt om tl ph s) (dirAt om tl ph s) = 1 := by
  have q : √(1 + tl ^ 2) ^ 2 = 1 + tl ^ 2 := Real.sq_sqrt (by positivity)
  show _ / _ * (_ / _) + _ / _ * (_ / _) + _ / _ * (_ / _) = 1
  rw [← sq, ← sq, ← sq, div_pow, div_pow, div_pow, q, ← add_div, ← add_div, Real.cos_sq_add_sin_sq, div_self (by positivity)]

theorem dirAt_cosDip (om tl ph s : ℝ) : cosDip (dirAt om tl ph s) = 1 / √(1 + tl ^ 2) := by
  have q : √(1 + tl ^ 2) ^ 2 = 1 + tl ^ 2 := Real.sq_sqrt (by positivity)
  have p : 0 < √(1 + tl ^ 2) := Real.sqrt_pos.2 (by positivity)
  show √(_ / _ * (_ / _) + _ / _ * (_ / _)) = _
  rw [← sq, ← sq, div_pow, div_pow, ← add_div, Real.cos_sq_add_sin_sq, Real.sqrt_div zero_le_one, Real.sqrt_one, Real.sqrt_sq p.le]

/-- the cosine of the dip angle -/
theorem cosine_ap (hl : IsLibm lm) (ha : IsAtan atn) {tl : ℝ} (ht : |tl| ≤ 100) :
    Ap 7 (1 / √(1 + tl ^ 2)) (cosD lm (atanD fl atn (fin tl))) (fin (1 / √(1 + tl ^ 2))) 1 808 := by
  have T0 : 0 < √(1 + tl ^ 2) := Real.sqrt_pos.2 (by positivity)
  have T1 : 1 ≤ √(1 + tl ^ 2) := Real.one_le_sqrt.2 (by nlinarith [sq_nonneg tl])
  have T2 : √(1 + tl ^ 2) ≤ 101 := by
    refine Real.sqrt_le_iff.2 ⟨by norm_num, ?_⟩
    have := sq_le_sq' (by linarith [(abs_le.1 ht).1]) (abs_le.1 ht).2
    linarith
  have cT : Real.cos (Real.arctan tl) = 1 / √(1 + tl ^ 2) := Real.cos_arctan tl
  have g1 := (Ap.cos hl (atan_ap (fl := fl) ha tl)).mono (B' := 1) (e' := 8) le_rfl (by norm_num)
  have cv : Dbl.cos (Dbl.atan (fin tl)) = fin (1 / √(1 + tl ^ 2)) := by rw [atan_fin, cos_fin, cT]
  rw [cv] at g1
  generalize √(1 + tl ^ 2) = T at *
  have i1 : 1 / 101 ≤ 1 / T := one_div_le_one_div_of_le T0 T2
  obtain ⟨r, x, e1, e2, e3, -⟩ := g1.val
  injection e2 with e2
  subst e2
  refine ⟨le_trans (by norm_num) i1, ?_, r, _, e1, rfl, e3.trans ?_, by rw [one_mul, abs_of_pos (by positivity)]⟩
  · rw [div_le_iff₀ T0]
    linarith
  · norm_num at i1 ⊢
    linarith

/-- difference of two path lengths -/
theorem diff_val (h : NearestF 53 1074 fl) {s a om : ℝ} (o0 : 1 / 2 ^ 100 ≤ |om|) (hx : |om * (s - a)| ≤ 4) :
    ∃ r, subD fl (fin s) (fin a) = fin r ∧ |r - (s - a)| ≤ 1 / 2 ^ 53 * |s - a| + 1 / 2 ^ 1075 := by
  have b : |s - a| ≤ 4 * 2 ^ 100 := by
    rw [abs_mul] at hx
    have p : (0 : ℝ) < 2 ^ 100 := by positivity
    have k := mul_le_mul_of_nonneg_right o0 (abs_nonneg (s - a))
    rw [one_div, inv_mul_eq_div] at k
    exact (div_le_iff₀ p).1 (k.trans hx)
  refine ⟨fl (s - a), ?_, err_double h _⟩
  rw [subD, fin_sub]
  refine rnd_double h (b.trans ?_)
  rw [show (4 : ℝ) * 2 ^ 100 = 2 ^ 102 by norm_num]
  exact pow_le_pow_right₀ (by norm_num) (by norm_num)

/-- the direction at a path length along an element -/
theorem tangent_dir (h : NearestF 53 1074 fl) (hl : IsLibm lm) (ha : IsAtan atn) {om tl ph d z s a : ℝ} (ht : |tl| ≤ 100) (hp : |ph| ≤ 8)
    (o0 : 1 / 2 ^ 100 ≤ |om|) (o1 : |om| ≤ 2 ^ 100) (hx : |om * (s - a)| ≤ 4) :
    DirNear (Rnd.calculateTangent fl lm atn (subD fl (fin s) (fin a)) (hpR om tl ph d z)) (dirAt om tl ph (s - a)) := by
  obtain ⟨r, e1, e2⟩ := diff_val h o0 hx
  rw [e1]
  have k1 : |om * r - om * (s - a)| ≤ 5 * (1 / 2 ^ 53) := by
    rw [← mul_sub, abs_mul]
    have k2 := mul_le_mul_of_nonneg_left e2 (abs_nonneg om)
    rw [abs_mul] at hx
    have k3 : |om| * (1 / 2 ^ 1075) ≤ 1 / 2 ^ 53 := by
      refine (mul_le_mul_of_nonneg_right o1 (by positivity)).trans ?_
      rw [mul_one_div, div_le_div_iff₀ (by positivity) (by positivity), ← pow_add, one_mul]
      exact pow_le_pow_right₀ (by norm_num) (by norm_num)
    have k4 : 1 / 2 ^ 53 * (|om| * |s - a|) ≤ 1 / 2 ^ 53 * 4 := mul_le_mul_of_nonneg_left hx (by positivity)
    generalize (1 : ℝ) / 2 ^ 1075 = η at *
    generalize (1 : ℝ) / 2 ^ 53 = u at *
    linarith
  have hx' : |om * r| ≤ 5 := by
    have := abs_near k1
    have : (5 : ℝ) * (1 / 2 ^ 53) ≤ 1 := by norm_num
    linarith
  have A := angle_ap h (ph := ph) (om := om) (s := r) (hp.trans (by norm_num)) (hx'.trans (by norm_num))
  have A' : Ap 0 1 (subD fl (fin ph) (mulD fl (fin om) (fin r))) (fin ph - fin om * fin (s - a)) 12 24 := by
    obtain ⟨t, x, i1, i2, i3, -⟩ := A.val
    rw [fin_mul, fin_sub] at i2
    injection i2 with i2
    subst i2
    refine ⟨by norm_num, by norm_num, t, ph - om * (s - a), i1, by rw [fin_mul, fin_sub], ?_, ?_⟩
    · have : |ph - om * r - (ph - om * (s - a))| ≤ 5 * (1 / 2 ^ 53) := by
        rw [show ph - om * r - (ph - om * (s - a)) = -(om * r - om * (s - a)) by ring, abs_neg]
        exact k1
      refine (near_trans i3 this).trans ?_
      have := mul_le_mul_of_nonneg_right (show |ph| + 2 * |om * r| + 2 / 1000 ≤ 19 by linarith) (show (0 : ℝ) ≤ 1 * (1 / 2 ^ 53) by positivity)
      linarith
    · have := abs_sub ph (om * (s - a))
      linarith
  have C := (Ap.cos hl A').mono (B' := 1) (e' := 27) le_rfl (by norm_num)
  have S := (Ap.sin hl A').mono (B' := 1) (e' := 27) le_rfl (by norm_num)
  have Cl := cosine_ap (fl := fl) hl ha ht
  have Sl := Ap.sin hl (atan_ap (fl := fl) ha tl)
  have cd := dirAt_cosDip om tl ph (s - a)
  have M1 := Ap.mulr h C Cl (by norm_num) (by norm_num) (by norm_num) (by norm_num)
  have M2 := Ap.mulr h S Cl (by norm_num) (by norm_num) (by norm_num) (by norm_num)
  have up : ∀ {a a' : Dbl} {B e : ℝ}, Ap 7 (1 / √(1 + tl ^ 2)) a a' B e → Ap 100 (1 / √(1 + tl ^ 2)) a a' B e := fun {a a' B e} H =>
    ⟨le_trans (one_div_le_one_div_of_le (by positivity) (pow_le_pow_right₀ (by norm_num) (by norm_num))) H.lo,
      H.hi.trans (pow_le_pow_right₀ (by norm_num) (by norm_num)), H.val⟩
  refine ⟨?_, ?_, ?_⟩
  · rw [cd]
    have e : fin (dirAt om tl ph (s - a) 0) = Dbl.cos (fin ph - fin om * fin (s - a)) * fin (1 / √(1 + tl ^ 2)) := by
      rw [fin_mul, fin_sub, cos_fin, fin_mul, mul_one_div]
      rfl
    rw [e]
    exact (up M1).mono (by norm_num) (by norm_num)
  · rw [cd]
    have e : fin (dirAt om tl ph (s - a) 1) = Dbl.sin (fin ph - fin om * fin (s - a)) * fin (1 / √(1 + tl ^ 2)) := by
      rw [fin_mul, fin_sub, sin_fin, fin_mul, mul_one_div]
      rfl
    rw [e]
    exact (up M2).mono (by norm_num) (by norm_num)
  · have e : fin (dirAt om tl ph (s - a) 2) = Dbl.sin (Dbl.atan (fin tl)) := by
      show fin (tl / _) = fin (Real.sin (Real.arctan tl))
      rw [Real.sin_arctan]
    rw [e]
    exact Sl.mono (by norm_num) (by norm_num)

theorem dirAt_model (om tl ph d z s : ℝ) : Verif.calculateTangent (fin s) (hpR om tl ph d z) = V3.of (dirAt om tl ph s) := by
  rw [helixDir_model]
  congr 1
  rw [helixDir, dirAt, Real.cos_arctan, Real.sin_arctan, mul_one_div, mul_one_div]

/-! ## one element -/

/-- a step of the loop: path lengths of the previous and of this element, parameters of this element, field there, parameters and path lengths of the
elements in which the trajectory is at the two path lengths -/
structure FitStep where
  (s0 s om tl ph d z : ℝ)
  b : R3
  (om0 tl0 ph0 d0 z0 a0 : ℝ)
  (om1 tl1 ph1 d1 z1 a1 : ℝ)

namespace FitStep

/-- the path in space -/
def w (st : FitStep) : ℝ := (st.s - st.s0) * √(1 + st.tl ^ 2)
/-- charge over momentum -/
def qop (st : FitStep) : ℝ := st.om / (√(1 + st.tl ^ 2) * (st.b 2 * kBr))
/-- the direction at the start -/
def T0 (st : FitStep) : R3 := dirAt st.om0 st.tl0 st.ph0 (st.s0 - st.a0)
/-- the direction at the end -/
def T (st : FitStep) : R3 := dirAt st.om1 st.tl1 st.ph1 (st.s - st.a1)

/-- the numbers are those of element `e` of a trajectory: slopes up to 100, turns up to 4 rad, curvatures, fields and momenta between 2^-100 and 2^100 -/
structure Of (st : FitStep) (env : Env) (t : Traj) (e : Element) : Prop where
  arc : e.arc = fin st.s
  hp : e.tp.hp = hpR st.om st.tl st.ph st.d st.z
  field : env.field e.tp.rp = V3.of st.b
  at0 : ∃ p, t.elementAt (fin st.s0) = .ok p ∧ p.arc = fin st.a0 ∧ p.tp.hp = hpR st.om0 st.tl0 st.ph0 st.d0 st.z0
  at1 : ∃ p, t.elementAt (fin st.s) = .ok p ∧ p.arc = fin st.a1 ∧ p.tp.hp = hpR st.om1 st.tl1 st.ph1 st.d1 st.z1
  tl : |st.tl| ≤ 100 ∧ |st.tl0| ≤ 100 ∧ |st.tl1| ≤ 100
  ph : |st.ph0| ≤ 8 ∧ |st.ph1| ≤ 8
  om0 : 1 / 2 ^ 100 ≤ |st.om| ∧ 1 / 2 ^ 100 ≤ |st.om0| ∧ 1 / 2 ^ 100 ≤ |st.om1|
  om1 : |st.om| ≤ 2 ^ 100 ∧ |st.om0| ≤ 2 ^ 100 ∧ |st.om1| ≤ 2 ^ 100
  turn0 : |st.om0 * (st.s0 - st.a0)| ≤ 4
  turn1 : |st.om1 * (st.s - st.a1)| ≤ 4
  turn : |st.om * (st.s - st.s0)| * √(dot st.b st.b) ≤ 4 * |st.b 2|
  b0 : 1 / 2 ^ 100 ≤ |st.b 2|
  b1 : √(dot st.b st.b) ≤ 2 ^ 100
  q0 : 1 / 2 ^ 100 ≤ |st.qop|
  q1 : |st.qop| ≤ 2 ^ 100
  far : -(2 ^ 200) ≤ st.s0 ∧ -(2 ^ 200) ≤ st.s

/-- the computed Jacobian `J'` and the exact one `J`: the entry of the energy loss, and errors in the units of row and column -/
def Near (fl : ℝ → ℝ) (st : FitStep) (l' l : Dbl) (J' J : M5) : Prop :=
  J' 0 0 = addD fl 1 l' ∧ J 0 0 = 1 + l ∧ (∀ j, j ≠ 0 → J' 0 j = 0 ∧ J 0 j = 0) ∧
  ∀ i j, i ≠ 0 → ∃ r x, J' i j = fin r ∧ J i j = fin x ∧ |r - x| ≤ 1 / 2 ^ 31 * (jacRow st.qop st.T st.b i / jacCol st.qop st.b j) ∧
    |x| ≤ 16 * (jacRow st.qop st.T st.b i / jacCol st.qop st.b j)

end FitStep

/-- the constant -1e99 is far below all path lengths -/
theorem elementAt_rounded (h : NearestF 53 1074 fl) (t : Traj) {s : ℝ} (hs : -(2 ^ 200) ≤ s) : Rnd.elementAt fl t (fin s) = t.elementAt (fin s) := by
  have big : (2 : ℝ) ^ 200 ≤ 1e98 := by norm_num
  have e := abs_le.1 (err_double h 1e99)
  have t0 : (1 : ℝ) / 2 ^ 1075 ≤ 1 := by
    rw [div_le_one (by positivity)]
    exact one_le_pow₀ (by norm_num)
  have lo : (1e98 : ℝ) ≤ fl 1e99 := by
    have a : |(1e99 : ℝ)| = 1e99 := by norm_num
    rw [a] at e
    norm_num at e t0 ⊢
    linarith [e.1]
  have b0 : |(1e99 : ℝ)| ≤ 2 ^ 400 := by
    rw [abs_of_nonneg (by norm_num), show (2 : ℝ) ^ 400 = 2 ^ 200 * 2 ^ 200 by rw [← pow_add]]
    norm_num
  have r : rnd fl 1024 (fin 1e99) = fin (fl 1e99) := rnd_double h (size_mono b0 (by norm_num))
  have k1 : -(rnd fl 1024 (fin 1e99)) ≤ fin s := by
    rw [r, fin_neg, fin_le]
    linarith
  have k2 : -(1e99 : Dbl) ≤ fin s := by
    simp only [ofSci_eq, fin_neg, fin_le]
    norm_num at big ⊢
    linarith
  unfold Rnd.elementAt Traj.elementAt
  cases t.elems with
  | nil => rfl
  | cons e l =>
    cases l with
    | nil => rfl
    | cons a l =>
      simp only [Traj.elementAtLoop]
      by_cases c : fin s < a.arc
      · rw [cif_pos ⟨k1, c⟩, cif_pos ⟨k2, c⟩]
      · rw [cif_neg (fun q => c q.2), cif_neg (fun q => c q.2)]

/-- C158: the Jacobian that `prepareForFitting` stores in an element is, in double precision, the exact one up to 2^-31 in the units of row and
column. -/
theorem C158_jacobian (h : NearestF 53 1074 fl) (hl : IsLibm lm) (ha : IsAtan atn) {env : Env} {t : Traj} {e : Element} {st : FitStep}
    (hst : st.Of env t e) {l' l : Dbl} (hl' : Rnd.energyLossEntry fl lm at2 asn atn lg env t.mass e = .ok l')
    (hl0 : Traj.energyLossEntry env t.mass e = .ok l) :
    ∃ J' J, Rnd.elementJacobian fl lm at2 asn atn lg { env with getJacobian := Rnd.analyticalJacobian fl lm } t (fin st.s0) e = .ok J' ∧
      Traj.elementJacobian { env with getJacobian := Verif.analyticalJacobian } t (fin st.s0) e = .ok J ∧ st.Near fl l' l J' J := by
  obtain ⟨tlb, tlb0, tlb1⟩ := hst.tl
  obtain ⟨ph0, ph1⟩ := hst.ph
  obtain ⟨o0, o00, o01⟩ := hst.om0
  obtain ⟨o1, o10, o11⟩ := hst.om1
  obtain ⟨p, hp, pa, pp⟩ := hst.at0
  obtain ⟨p', hp', pa', pp'⟩ := hst.at1
  have k0 := kBr_pos
  have b2p : 0 < |st.b 2| := lt_of_lt_of_le (by positivity) hst.b0
  have bn : st.b 2 ≠ 0 := abs_pos.1 b2p
  have bl : |st.b 2| ≤ √(dot st.b st.b) := by
    refine Real.abs_le_sqrt ?_
    unfold dot
    nlinarith [sq_nonneg (st.b 0), sq_nonneg (st.b 1)]
  have Bp : 0 < √(dot st.b st.b) := lt_of_lt_of_le b2p bl
  have Tp : 0 < √(1 + st.tl ^ 2) := Real.sqrt_pos.2 (by positivity)
  have omp : 0 < |st.om| := lt_of_lt_of_le (by positivity) o0
  have Q : |turnRate st.b * st.qop| = √(dot st.b st.b) * |st.om| / (√(1 + st.tl ^ 2) * |st.b 2|) := by
    rw [turnRate, FitStep.qop, abs_mul, neg_mul, abs_neg, abs_div, abs_mul, abs_mul, abs_mul, abs_of_pos Bp, abs_of_pos k0, abs_of_pos Tp]
    field_simp
  have Qp : 0 < |turnRate st.b * st.qop| := by rw [Q]; positivity
  have wq : |turnRate st.b * st.qop * st.w| ≤ 4 := by
    rw [abs_mul, Q, FitStep.w, abs_mul, abs_of_pos Tp]
    have := hst.turn
    rw [abs_mul] at this
    rw [div_mul_eq_mul_div, div_le_iff₀ (by positivity)]
    nlinarith
  have cd : ∀ {om tl ph s : ℝ}, |tl| ≤ 100 → 1 / 2 ^ 100 ≤ cosDip (dirAt om tl ph s) := by
    intro om tl ph s htl
    rw [dirAt_cosDip]
    refine le_trans ?_ (cosine_ap (fl := id) (lm := lm) (atn := atn) hl ha htl).lo
    exact one_div_le_one_div_of_le (by positivity) (pow_le_pow_right₀ (by norm_num) (by norm_num))
  have hr : JacRange st.w st.qop 0 st.T0 st.T st.b :=
    ⟨by rw [FitStep.T0, dirAt_unit]; norm_num, by rw [FitStep.T, dirAt_unit]; norm_num, cd tlb0, cd tlb1, hst.b0.trans bl, hst.b1, hst.q0, hst.q1, wq,
      by simp⟩
  have dT0 := tangent_dir (lm := lm) (atn := atn) (d := st.d0) (z := st.z0) h hl ha tlb0 ph0 o00 o10 hst.turn0
  have dT := tangent_dir (lm := lm) (atn := atn) (d := st.d1) (z := st.z1) h hl ha tlb1 ph1 o01 o11 hst.turn1
  -- charge over momentum
  obtain ⟨q, q1, q2⟩ := C151_partial (ph := st.ph) (d := st.d) (z := st.z) (bz := st.b 2) h hl ha tlb o0 o1 hst.b0 (bl.trans hst.b1)
  have hQ : Ap 100 |st.qop| (Rnd.calculateQoverP fl lm atn (hpR st.om st.tl st.ph st.d st.z) (fin (st.b 2))) (fin st.qop) 1 1024 := by
    refine ⟨hst.q0, hst.q1, q, st.qop, q1, rfl, q2.trans (le_of_eq ?_), by rw [one_mul]⟩
    rw [FitStep.qop]
    ring
  have xq : Verif.calculateQoverP (hpR st.om st.tl st.ph st.d st.z) (fin (st.b 2)) = fin st.qop := by
    rw [Verif.calculateQoverP, cif_pos (show ¬ Dbl.eqv (fin (st.b 2)) 0 by rw [zero_eq, fin_eqv]; exact bn)]
    show Dbl.cos (Dbl.atan (fin st.tl)) * fin st.om / (fin (st.b 2) * convertBr2P_cm) = _
    rw [atan_fin, cos_fin, Real.cos_arctan, convert_eq, fin_mul, fin_mul, fin_div _ (by positivity), FitStep.qop]
    congr 1
    field_simp
  -- the path
  have hturn : |st.om * (st.s - st.s0)| ≤ 4 := by
    have := hst.turn
    have k := mul_le_mul_of_nonneg_left bl (abs_nonneg (st.om * (st.s - st.s0)))
    exact le_of_mul_le_mul_right (k.trans this) b2p
  obtain ⟨r, d1, d2⟩ := diff_val h o0 hturn
  obtain ⟨lo, hi⟩ : 1 / 2 ^ 209 ≤ |turnRate st.b * st.qop| ∧ |turnRate st.b * st.qop| ≤ 2 ^ 209 := by
    have e : |turnRate st.b * st.qop| = √(dot st.b st.b) * kBr * |st.qop| := by
      rw [abs_mul, turnRate, neg_mul, abs_neg, abs_of_pos (show 0 < √(dot st.b st.b) * kBr by positivity)]
    have k1 := scale_prod (hst.b0.trans bl) hst.b1 (conv_ap h).lo (conv_ap h).hi
    have k2 := scale_prod k1.1 k1.2 hst.q0 hst.q1
    rw [e]
    exact k2
  obtain ⟨i1, i2⟩ := scale_inv lo hi
  have hw : Ap 209 (1 / |turnRate st.b * st.qop|)
      (divD fl (subD fl (fin st.s) (fin st.s0)) (cosD lm (atanD fl atn (fin st.tl)))) (fin st.w) 4 4000 := by
    obtain ⟨D, hD⟩ : ∃ D, D = |st.b 2| / (√(dot st.b st.b) * |st.om|) := ⟨_, rfl⟩
    have D0 : 0 < D := by rw [hD]; positivity
    have D1 : 1 / 2 ^ 300 ≤ D := by
      rw [hD, div_le_div_iff₀ (by positivity) (by positivity), one_mul]
      have k1 := mul_le_mul hst.b1 o1 omp.le (by positivity)
      have k2 := mul_le_mul_of_nonneg_right hst.b0 (show (0 : ℝ) ≤ 2 ^ 300 by positivity)
      rw [one_div_mul_eq_div, show (2 : ℝ) ^ 300 / 2 ^ 100 = 2 ^ 100 * 2 ^ 100 by
        rw [div_eq_iff (by positivity), ← pow_add, ← pow_add]] at k2
      exact k1.trans k2
    have D2 : D ≤ 2 ^ 300 := by
      have k1 : D ≤ 1 / |st.om| := by
        rw [hD, div_le_div_iff₀ (by positivity) omp, one_mul]
        exact mul_le_mul_of_nonneg_right bl omp.le
      have k2 : 1 / |st.om| ≤ 2 ^ 100 := (scale_inv o0 o1).2
      exact (k1.trans k2).trans (pow_le_pow_right₀ (by norm_num) (by norm_num))
    have dl : |st.s - st.s0| ≤ 4 * D := by
      have := hst.turn
      rw [abs_mul] at this
      rw [hD, ← mul_div_assoc, le_div_iff₀ (by positivity)]
      linarith
    have g1 : Ap 300 D (fin r) (fin (st.s - st.s0)) 4 5 := by
      refine ⟨D1, D2, r, _, rfl, rfl, d2.trans ?_, dl⟩
      have k1 : (1 : ℝ) / 2 ^ 1075 ≤ D * (1 / 2 ^ 53) := by
        refine le_trans ?_ (mul_le_mul_of_nonneg_right D1 (by positivity))
        rw [one_div_mul_one_div, ← pow_add]
        exact one_div_le_one_div_of_le (by positivity) (pow_le_pow_right₀ (by norm_num) (by norm_num))
      have k2 := mul_le_mul_of_nonneg_left dl (show (0 : ℝ) ≤ 1 / 2 ^ 53 by positivity)
      clear D1 D2 i1 i2 lo hi d2 o0 o00 o01 o1 o10 o11 cd
      generalize (1 : ℝ) / 2 ^ 1075 = η at *
      generalize (1 : ℝ) / 2 ^ 53 = u at *
      linarith
    have g2 := Ap.div h g1 (cosine_ap (fl := fl) hl ha tlb) rfl (le_abs_self _) (by norm_num) (by norm_num) (by norm_num) (by norm_num)
    have sc : D * (1 / (1 / √(1 + st.tl ^ 2))) = 1 / |turnRate st.b * st.qop| := by
      rw [Q, hD]
      field_simp
    have g3 := (g2.rescale (l := 209) (c := 1) (by rw [sc, one_mul]) i1 i2).mono (B' := 4) (e' := 4000) (by norm_num) (by norm_num)
    rw [fin_div _ (by positivity)] at g3
    rw [d1]
    have ew : (st.s - st.s0) / (1 / √(1 + st.tl ^ 2)) = st.w := by
      rw [FitStep.w]
      field_simp
    rw [ew] at g3
    exact g3
  have xw : (fin st.s - fin st.s0) / Dbl.cos (Verif.calculateLambda (hpR st.om st.tl st.ph st.d st.z)) = fin st.w := by
    show (fin st.s - fin st.s0) / Dbl.cos (Dbl.atan (fin st.tl)) = _
    rw [atan_fin, cos_fin, Real.cos_arctan, fin_sub, fin_div _ (by positivity), FitStep.w]
    congr 1
    field_simp
  have xT0 : Verif.calculateTangent (fin st.s0 - fin st.a0) (hpR st.om0 st.tl0 st.ph0 st.d0 st.z0) = V3.of st.T0 := by
    rw [fin_sub]
    exact dirAt_model _ _ _ _ _ _
  have xT : Verif.calculateTangent (fin st.s - fin st.a1) (hpR st.om1 st.tl1 st.ph1 st.d1 st.z1) = V3.of st.T := by
    rw [fin_sub]
    exact dirAt_model _ _ _ _ _ _
  obtain ⟨c1, c2, c3⟩ := jac_wide h hl hr hw hQ dT0 dT M5.zero l l'
  refine ⟨_, _, ?_, ?_, ⟨(c1 0).trans rfl, (c2 0).trans rfl, fun j hj => ⟨?_, ?_⟩, c3⟩⟩
  · have e1 : Rnd.energyLossEntry fl lm at2 asn atn lg { env with getJacobian := Rnd.analyticalJacobian fl lm } t.mass e = .ok l' := hl'
    rw [Rnd.elementJacobian, e1, Rnd.tangentAt, hst.arc, elementAt_rounded h t hst.far.1, hp, Rnd.tangentAt, elementAt_rounded h t hst.far.2, hp']
    simp only [Out.ok_bind]
    rw [pa, pp, pa', pp', hst.hp, hst.field]
    rfl
  · have e1 : Traj.energyLossEntry { env with getJacobian := Verif.analyticalJacobian } t.mass e = .ok l := hl0
    rw [Traj.elementJacobian, e1, Traj.tangentAt, hst.arc, hp, Traj.tangentAt, hp']
    simp only [Out.ok_bind]
    rw [pa, pp, pa', pp', hst.hp, hst.field, xT0, xT, xw]
    show Out.ok (Verif.analyticalJacobian M5.zero _ (Verif.calculateQoverP _ (fin (st.b 2))) _ _ _ _) = _
    rw [xq]
  · rw [c1, if_neg hj]
    rfl
  · rw [c2, if_neg hj]
    rfl

/-! ## the loop -/

/-- steps for the elements of a list, with the computed and the exact entry of the energy loss; the path length of an element is the start of the
next step -/
inductive FitSteps (fl : ℝ → ℝ) (lm : Libm) (at2 : ℝ → ℝ → ℝ) (asn atn : ℝ → ℝ) (lg : LogLib) (env : Env) (t : Traj) :
    ℝ → List Element → List (FitStep × Dbl × Dbl) → Prop
  | nil (s0 : ℝ) : FitSteps fl lm at2 asn atn lg env t s0 [] []
  | cons {st : FitStep} {e : Element} {l' l : Dbl} {es : List Element} {sts : List (FitStep × Dbl × Dbl)} :
    st.Of env t e → Rnd.energyLossEntry fl lm at2 asn atn lg env t.mass e = .ok l' → Traj.energyLossEntry env t.mass e = .ok l →
    FitSteps fl lm at2 asn atn lg env t st.s es sts → FitSteps fl lm at2 asn atn lg env t st.s0 (e :: es) ((st, l', l) :: sts)

theorem prepareLoop_near (h : NearestF 53 1074 fl) (hl : IsLibm lm) (ha : IsAtan atn) {env : Env} {t : Traj} {s0 : ℝ} {es : List Element}
    {sts : List (FitStep × Dbl × Dbl)} (hs : FitSteps fl lm at2 asn atn lg env t s0 es sts) :
    ∃ Js : List (M5 × M5), List.Forall₂ (fun p J => p.1.Near fl p.2.1 p.2.2 J.1 J.2) sts Js ∧ Js.length = es.length ∧
      Rnd.prepareLoop fl lm at2 asn atn lg { env with getJacobian := Rnd.analyticalJacobian fl lm } t (fin s0) es =
        .ok (List.zipWith (fun e J => { e with jac := some J.1 }) es Js) ∧
      Traj.prepareLoop { env with getJacobian := Verif.analyticalJacobian } t (fin s0) es =
        .ok (List.zipWith (fun e J => { e with jac := some J.2 }) es Js) := by
  induction hs with
  | nil s0 => exact ⟨[], .nil, rfl, rfl, rfl⟩
  | @cons st e l' l es sts h1 h2 h3 _ ih =>
    obtain ⟨Js, i1, i2, i3, i4⟩ := ih
    obtain ⟨J', J, j1, j2, j3⟩ := C158_jacobian h hl ha h1 h2 h3
    refine ⟨(J', J) :: Js, .cons j3 i1, by rw [List.length_cons, List.length_cons, i2], ?_, ?_⟩
    · rw [← h1.arc] at i3
      rw [Rnd.prepareLoop, j1, i3]
      rfl
    · rw [← h1.arc] at i4
      rw [Traj.prepareLoop, j2, i4]
      rfl

/-- C158: `prepareForFitting` in double precision: the same order of the elements as with exact arithmetic, in the first one the matrix of zeros that `Unit()` leaves
(C01), and in all others Jacobians that are the exact ones up to 2^-31 in the units of row and column. -/
theorem C158_prepare (h : NearestF 53 1074 fl) (hl : IsLibm lm) (ha : IsAtan atn) {env : Env} {sort : List Element → List Element} {t : Traj}
    {e0 : Element} {es : List Element} (hsort : stdSort sort Traj.compareElements t.elems = .ok (e0 :: es)) {sts : List (FitStep × Dbl × Dbl)}
    (hs : FitSteps fl lm at2 asn atn lg env { t with elems := e0 :: es } 0 es sts) :
    ∃ Js : List (M5 × M5), List.Forall₂ (fun p J => p.1.Near fl p.2.1 p.2.2 J.1 J.2) sts Js ∧ Js.length = es.length ∧
      Rnd.prepareForFitting fl lm at2 asn atn lg { env with getJacobian := Rnd.analyticalJacobian fl lm } sort t =
        .ok { t with elems := { e0 with jac := some (M5.zero) } :: List.zipWith (fun e J => { e with jac := some J.1 }) es Js } ∧
      Traj.prepareForFitting { env with getJacobian := Verif.analyticalJacobian } sort t =
        .ok { t with elems := { e0 with jac := some (M5.zero) } :: List.zipWith (fun e J => { e with jac := some J.2 }) es Js } := by
  obtain ⟨Js, i1, i2, i3, i4⟩ := prepareLoop_near h hl ha hs
  refine ⟨Js, i1, i2, ?_, ?_⟩
  · rw [Rnd.prepareForFitting, hsort]
    simp only [Out.ok_bind]
    rw [zero_eq, i3]
    rfl
  · rw [Traj.prepareForFitting, hsort]
    simp only [Out.ok_bind]
    rw [zero_eq, i4]
    rfl

/-- C158: the entry of the energy loss is 1 for elements without material. -/
theorem C158_no_material (h : NearestF 53 1074 fl) {env : Env} {mass : Dbl} {e : Element} (he : e.scatterer = false) :
    Rnd.energyLossEntry fl lm at2 asn atn lg env mass e = .ok 0 ∧ Traj.energyLossEntry env mass e = .ok 0 ∧ addD fl 1 0 = 1 := by
  refine ⟨by rw [Rnd.energyLossEntry, he]; rfl, by rw [Traj.energyLossEntry, he]; rfl, ?_⟩
  rw [addD, one_eq, zero_eq, fin_add, add_zero, rnd_small h (by simp), h.fix repF_one]

/-! ## energy loss -/

theorem loss_quot (h : NearestF 53 1074 fl) {E v E0 v0 D : ℝ} (e1 : |E - E0| ≤ 100 / 2 ^ 53 * E0) (e2 : |v - v0| ≤ 200 / 2 ^ 53 * v0)
    (r1 : 1 / 2 ^ 110 ≤ E0) (r2 : E0 ≤ 2 ^ 110) (r3 : 1 / 2 ^ 200 ≤ v0) (r4 : v0 ≤ 2 ^ 200) (d1 : 1 / 2 ^ 100 ≤ |D|) (d2 : |D| ≤ 2 ^ 100) :
    ∃ l, divD fl (mulD fl 2 (fin D)) (mulD fl (mulD fl (fin v) (fin v)) (fin E)) = fin l ∧
      |l - 2 * D / (v0 ^ 2 * E0)| ≤ 1 / 2 ^ 43 * |2 * D / (v0 ^ 2 * E0)| := by
  have E0p : 0 < E0 := lt_of_lt_of_le (by positivity) r1
  have v0p : 0 < v0 := lt_of_lt_of_le (by positivity) r3
  have Dp : 0 < |D| := lt_of_lt_of_le (by positivity) d1
  have gE : Ap 110 E0 (fin E) (fin E0) 1 100 := ⟨r1, r2, E, E0, rfl, rfl, e1.trans (le_of_eq (by ring)), by rw [one_mul, abs_of_pos E0p]⟩
  have gv : Ap 200 v0 (fin v) (fin v0) 1 200 := ⟨r3, r4, v, v0, rfl, rfl, e2.trans (le_of_eq (by ring)), by rw [one_mul, abs_of_pos v0p]⟩
  have gD : Ap 100 |D| (fin D) (fin D) 1 0 := Ap.given d1 d2 (by rw [one_mul])
  have g2 : Ap 2 2 (2 : Dbl) (fin 2) 1 0 := Ap.given (by norm_num) (by norm_num) (by norm_num)
  have n := (Ap.mul h g2 gD (by norm_num) (by norm_num) (by norm_num) (by norm_num)).mono (B' := 1) (e' := 2) (by norm_num) (by norm_num)
  have vv := (Ap.mul h gv gv (by norm_num) (by norm_num) (by norm_num) (by norm_num)).mono (B' := 1) (e' := 402) (by norm_num) (by norm_num)
  have m := (Ap.mul h vv gE (by norm_num) (by norm_num) (by norm_num) (by norm_num)).mono (B' := 1) (e' := 504) (by norm_num) (by norm_num)
  have q := (Ap.div h n m (by rw [fin_mul, fin_mul]) (le_abs_self _) (by norm_num) (by norm_num) (by norm_num) (by norm_num)).mono (B' := 1) (e' := 1024)
    (by norm_num) (by norm_num)
  obtain ⟨l, x, i1, i2, i3, -⟩ := q.val
  rw [fin_mul, fin_mul, fin_mul, fin_div _ (by positivity)] at i2
  injection i2 with i2
  refine ⟨l, i1, ?_⟩
  have ex : 2 * D / (v0 ^ 2 * E0) = x := by rw [← i2, sq]
  rw [ex]
  refine i3.trans (le_of_eq ?_)
  rw [← i2, abs_div, abs_mul, abs_of_pos (show (0 : ℝ) < 2 by norm_num), abs_of_pos (show 0 < v0 * v0 * E0 by positivity)]
  ring

/-- C158: for an element with material the entry is `1 + 2 ΔE / (β² E)` with the computed energy loss `ΔE`, for a momentum near that of the track at the
surface, and with the energy and the velocity of the particle up to rounding errors. -/
theorem C158_loss (h : NearestF 53 1074 fl) (hl : IsLibm lm) (ha : IsAtan2 at2) {om tl ph d z rx ry rz s ε X Y Z b : ℝ}
    (hr : HelixRange om tl ph d z rx ry rz 0) {x y w : ℝ → ℝ}
    (ht : Spec.IsTrack om tl ph (rx - d * Real.sin ph) (ry + d * Real.cos ph) (rz + z) x y w)
    (hX : |X - x s| ≤ ε) (hY : |Y - y s| ≤ ε) (hε : |om| * (2 * ε + 1 / 2 ^ 53 * (7 * |d| + 3 * (|rx| + |ry|))) ≤ 1 / 60)
    {env : Env} (hB : (env.globalField (V3.re X Y Z)).z = fin b) (hb : Size |b|) {vx vy vz : ℝ} (hvx : HasDerivAt x vx s) (hvy : HasDerivAt y vy s)
    (hvz : HasDerivAt w vz s) {surf : Surface} {s' : Dbl} {e : Element} (hsc : e.scatterer = true) (hsu : e.surface = some surf)
    (htp : e.tp.hp = hpR om tl ph d z) (htr : e.tp.rp = V3.re rx ry rz)
    (hi : Rnd.intersectWithSurface fl lm at2 asn atn surf e.tp.hp e.tp.rp 0 V3.zero 0 true = .ok ⟨true, s', V3.re X Y Z⟩)
    {m : ℝ} (hm : SizeOrZero m) :
    let pt := |1 / om| * b * kBr
    let p := √((pt * vx) ^ 2 + (pt * vy) ^ 2 + (pt * vz) ^ 2)
    1 / 2 ^ 90 ≤ p → p ≤ 2 ^ 90 →
    ∃ px py pz, |px - pt * vx| + |py - pt * vy| + |pz - pt * vz| ≤ 4 * azimuthError om d rx ry ε * p ∧
      ∀ D, (Rnd.computeEnergyLoss fl lg surf (surf.globalToLocal (V3.re X Y Z)) (V3.re px py pz) (fin m)).deltaE = fin D → Size |D| →
        ∃ l, Rnd.energyLossEntry fl lm at2 asn atn lg env (fin m) e = .ok (fin l) ∧
          |l - 2 * D / (betaSq p m * √(p ^ 2 + m ^ 2))| ≤ 1 / 2 ^ 43 * |2 * D / (betaSq p m * √(p ^ 2 + m ^ 2))| := by
  intro pt p p1 p2
  obtain ⟨px, py, pz, E, v, i1, i2, i3, i4⟩ := C147_loss (lg := lg) (asn := asn) (atn := atn) (energy := none) (beta := none) h hl ha hr ht hX hY hε hB hb hvx hvy
    hvz htp htr hi hm p1 p2
  refine ⟨px, py, pz, i1, fun D hD sD => ?_⟩
  have i3 : |E - √(p ^ 2 + m ^ 2)| ≤ 100 / 2 ^ 53 * √(p ^ 2 + m ^ 2) := i3
  have i4 : |v - √(betaSq p m)| ≤ 200 / 2 ^ 53 * √(betaSq p m) := i4
  clear_value p
  have p0 : 0 < p := lt_of_lt_of_le (by positivity) p1
  have m0 : 0 ≤ m := by
    rcases hm with rfl | ⟨k, -⟩
    · exact le_rfl
    · exact le_trans (by positivity) k
  have m1 : m ≤ 2 ^ 100 := by
    rcases hm with rfl | ⟨-, k⟩
    · positivity
    · exact k
  have E0 : p ≤ √(p ^ 2 + m ^ 2) := Real.le_sqrt_of_sq_le (by linarith [sq_nonneg m])
  have E1 : √(p ^ 2 + m ^ 2) ≤ 2 ^ 101 := by
    refine (Real.sqrt_le_iff.2 ⟨by positivity, ?_⟩ : _ ≤ p + m).trans ?_
    · nlinarith
    · have : (2 : ℝ) ^ 90 ≤ 2 ^ 100 := pow_le_pow_right₀ (by norm_num) (by norm_num)
      rw [pow_succ]
      linarith
  have Ep : 0 < √(p ^ 2 + m ^ 2) := lt_of_lt_of_le p0 E0
  have bv : √(betaSq p m) = p / √(p ^ 2 + m ^ 2) := by rw [betaSq, Real.sqrt_div (sq_nonneg p), Real.sqrt_sq p0.le]
  have bs : √(betaSq p m) ^ 2 = betaSq p m := Real.sq_sqrt (by rw [betaSq]; positivity)
  obtain ⟨l, j1, j2⟩ := loss_quot h i3 i4 (p1.trans E0 |> le_trans (one_div_le_one_div_of_le (by positivity) (pow_le_pow_right₀ (by norm_num) (by norm_num))))
    (E1.trans (pow_le_pow_right₀ (by norm_num) (by norm_num))) (by
      rw [bv, le_div_iff₀ Ep]
      refine le_trans (mul_le_mul_of_nonneg_left E1 (by positivity)) (le_trans ?_ p1)
      rw [one_div_mul_eq_div, div_le_div_iff₀ (by positivity) (by positivity), ← pow_add, one_mul]
      exact pow_le_pow_right₀ (by norm_num) (by norm_num)) (by
      rw [bv]
      refine ((div_le_one Ep).2 E0).trans (one_le_pow₀ (by norm_num))) sD.1 sD.2
  rw [bs] at j2
  refine ⟨l, ?_, j2⟩
  rw [Rnd.energyLossEntry, hsc, hsu]
  simp only [if_true]
  rw [i2]
  simp only [Out.ok_bind]
  rw [hD, j1]

/-! ## an example -/

/-- hypotheses of C158: a start and an element without material 50 cm further on, in a field of 3.5 T -/
theorem C158_example (h : NearestF 53 1074 fl) {env : Env} (hf : ∀ v, env.field v = V3.of ![0, 0, 7 / 2]) {e : Element} (he : e.scatterer = false) (t : Traj) :
    ∃ e0 e1 sts, FitSteps fl lm at2 asn atn lg env { t with elems := [e0, e1] } 0 [e1] sts ∧ sts.length = 1 := by
  obtain ⟨e0, h0⟩ : ∃ e0 : Element, e0 = { e with arc := fin 0, tp := ⟨M5.zero, hpR (1 / 100) 1 0 0 0, V3.zero⟩ } := ⟨_, rfl⟩
  obtain ⟨e1, h1⟩ : ∃ e1 : Element, e1 = { e with arc := fin 50, tp := ⟨M5.zero, hpR (1 / 100) 1 (-1 / 2) 0 0, V3.zero⟩ } := ⟨_, rfl⟩
  have c : √(dot ![0, 0, 7 / 2] ![0, 0, 7 / 2]) = 7 / 2 := by
    rw [show dot ![0, 0, 7 / 2] ![0, 0, 7 / 2] = (7 / 2 : ℝ) ^ 2 by simp [dot]; norm_num, Real.sqrt_sq (by norm_num)]
  obtain ⟨st, hst⟩ : ∃ st : FitStep, st = ⟨0, 50, 1 / 100, 1, -1 / 2, 0, 0, ![0, 0, 7 / 2], 1 / 100, 1, 0, 0, 0, 0, 1 / 100, 1, -1 / 2, 0, 0, 50⟩ := ⟨_, rfl⟩
  have q : 1 / 10 ≤ |st.qop| ∧ |st.qop| ≤ 1 := by
    have r1 : (1 : ℝ) ≤ √(1 + 1 ^ 2) := Real.one_le_sqrt.2 (by norm_num)
    have r2 : √(1 + 1 ^ 2 : ℝ) ≤ 3 / 2 := Real.sqrt_le_iff.2 ⟨by norm_num, by norm_num⟩
    have e : st.qop = 1 / 100 / (√(1 + 1 ^ 2) * (7 / 2 * kBr)) := by rw [hst, FitStep.qop]; rfl
    have k : kBr = 0.00299792458 := by rw [kBr]; norm_num
    rw [e, k]
    generalize √(1 + 1 ^ 2 : ℝ) = R at r1 r2
    have R0 : 0 < R := by linarith
    rw [abs_of_pos (by positivity), le_div_iff₀ (by positivity), div_le_iff₀ (by positivity)]
    constructor <;> norm_num <;> linarith
  have big : ∀ {x : ℝ} {n : ℕ}, x ≤ 1 → x ≤ 2 ^ n := fun hx => hx.trans (one_le_pow₀ (by norm_num))
  have low : ∀ {x : ℝ}, 1 / 100 ≤ x → 1 / 2 ^ 100 ≤ x := fun hx => le_trans (by norm_num) hx
  have of : st.Of env { t with elems := [e0, e1] } e1 := by
    have a0 : Traj.elementAt { t with elems := [e0, e1] } (fin st.s0) = .ok e0 := by
      rw [hst]
      show Out.ok (Traj.elementAtLoop (fin 0) _ e0 [e1]) = _
      rw [Traj.elementAtLoop, h1]
      simp only
      rw [cif_pos]
      refine ⟨?_, by rw [fin_lt]; norm_num⟩
      show -(1e99 : Dbl) ≤ fin 0
      rw [show (1e99 : Dbl) = fin 1e99 from rfl, fin_neg, fin_le]
      norm_num
    have a1 : Traj.elementAt { t with elems := [e0, e1] } (fin st.s) = .ok e1 := by
      rw [hst]
      show Out.ok (Traj.elementAtLoop (fin 50) _ e0 [e1]) = _
      rw [Traj.elementAtLoop]
      rw [cif_neg]
      · rfl
      · rw [h1]
        rintro ⟨-, k⟩
        rw [fin_lt] at k
        exact lt_irrefl _ k
    refine ⟨?_, ?_, ?_, ⟨e0, a0, ?_, ?_⟩, ⟨e1, a1, ?_, ?_⟩, ?_, ?_, ?_, ?_, ?_, ?_, ?_, ?_, ?_, low (le_trans (by norm_num) q.1), big q.2, by rw [hst]; norm_num⟩
    · rw [h1, hst]
    · rw [h1, hst]
    · rw [hf, hst]
    · rw [h0, hst]
    · rw [h0, hst]
    · rw [h1, hst]
    · rw [h1, hst]
    · rw [hst]
      norm_num
    · rw [hst]
      norm_num [abs_le]
    · rw [hst]
      refine ⟨low ?_, low ?_, low ?_⟩ <;> norm_num
    · rw [hst]
      refine ⟨big ?_, big ?_, big ?_⟩ <;> norm_num [abs_le]
    · rw [hst]
      norm_num
    · rw [hst]
      norm_num
    · rw [hst]
      simp only [c]
      show |1 / 100 * (50 - 0)| * (7 / 2) ≤ 4 * |(7 / 2 : ℝ)|
      norm_num
    · rw [hst]
      refine low (show (1 / 100 : ℝ) ≤ |7 / 2| from ?_)
      norm_num
    · rw [hst]
      simp only [c]
      exact le_trans (by norm_num) (pow_le_pow_right₀ (by norm_num) (show 2 ≤ 100 by norm_num))
  have n0 := C158_no_material (lm := lm) (at2 := at2) (asn := asn) (atn := atn) (lg := lg) h (env := env) (mass := t.mass)
    (show e1.scatterer = false by rw [h1]; exact he)
  have s0 : (0 : ℝ) = st.s0 := by rw [hst]
  rw [s0]
  exact ⟨e0, e1, _, .cons of n0.1 n0.2.1 (.nil _), rfl⟩

end Verif
