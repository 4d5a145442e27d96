import Verif.Lemmas.RoundedLoss

/-!
# C145, C146: multiple scattering and energy loss in double precision
-/

open Classical

noncomputable section

namespace Verif

open Dbl Rnd Spec

variable {fl : ℝ → ℝ} {lg : LogLib}

/-! ## C145: multiple scattering -/

/-- zero, or a number of at least `2^-100` and at most `2^100` -/
def SizeOrZero (x : ℝ) : Prop := x = 0 ∨ 1 / 2 ^ 100 ≤ x ∧ x ≤ 2 ^ 100

/-- a number of at least `2^-100` and at most `2^100` -/
def Size (x : ℝ) : Prop := 1 / 2 ^ 100 ≤ x ∧ x ≤ 2 ^ 100

/-- rounding errors of the cosine of the angle between momentum and normal -/
theorem cos_rel (h : NearestF 53 1074 fl) {px py pz nx ny nz : ℝ} (hP : Size (√(px ^ 2 + py ^ 2 + pz ^ 2)))
    (hN : nx ^ 2 + ny ^ 2 + nz ^ 2 ≤ (1001 / 1000) ^ 2) (hc : 1 / 2 ^ 20 ≤ crossingCos px py pz nx ny nz) :
    Rel 20 (Dbl.abs (dotV fl (unitV fl (V3.re px py pz)) (V3.re nx ny nz))) (crossingCos px py pz nx ny nz) (27 / crossingCos px py pz nx ny nz) := by
  obtain ⟨v, hv⟩ : ∃ v : R3, v = ![px, py, pz] := ⟨_, rfl⟩
  have e1 : V3.of v = V3.re px py pz := by rw [hv]; rfl
  have e2 : dot v v = px ^ 2 + py ^ 2 + pz ^ 2 := by
    rw [hv]
    simp [dot]
    ring
  have u := unit_ap (v := v) h (by rw [e2]; exact hP.1) (by rw [e2]; exact hP.2)
  rw [e1] at u
  have P0 : 0 < √(px ^ 2 + py ^ 2 + pz ^ 2) := lt_of_lt_of_le (by positivity) hP.1
  have nv : ApV 0 1 (V3.re nx ny nz) (V3.re nx ny nz) (1001 / 1000) 0 := by
    have b : ∀ t, t ^ 2 ≤ nx ^ 2 + ny ^ 2 + nz ^ 2 → Ap 0 1 (fin t) (fin t) (1001 / 1000) 0 := fun t ht =>
      Ap.unit (abs_le_of_sq_le_sq (by nlinarith) (by norm_num))
    refine ⟨b nx (by nlinarith [sq_nonneg ny, sq_nonneg nz]), b ny (by nlinarith [sq_nonneg nx, sq_nonneg nz]), b nz (by nlinarith [sq_nonneg nx, sq_nonneg ny]), ?_⟩
    intro x y z i
    simp only [V3.re, V3.mk.injEq, fin.injEq] at i
    obtain ⟨rfl, rfl, rfl⟩ := i
    rw [mul_one]
    exact hN
  have d := ApV.dot h u nv (by norm_num) (by norm_num) (by norm_num) (by norm_num) (by norm_num) (by norm_num)
  have e3 : (V3.re px py pz).unit.dot (V3.re nx ny nz) = fin ((px * nx + py * ny + pz * nz) / √(px ^ 2 + py ^ 2 + pz ^ 2)) := by
    unfold V3.unit
    rw [momentum_r]
    simp only [V3.re, fin_div _ P0.ne', V3.dot, fin_mul, fin_add]
    congr 1
    field_simp
  rw [e3] at d
  have hi : crossingCos px py pz nx ny nz ≤ 2 ^ 20 := by
    obtain ⟨-, x, -, i1, -, i2⟩ := d.val
    injection i1 with i1
    subst i1
    refine i2.trans (by norm_num)
  have := Rel.abs d (l := 20) hc hi
  refine this.mono le_rfl ?_
  have c0 : 0 < crossingCos px py pz nx ny nz := lt_of_lt_of_le (by positivity) hc
  rw [show |(px * nx + py * ny + pz * nz) / √(px ^ 2 + py ^ 2 + pz ^ 2)| = crossingCos px py pz nx ny nz from rfl, mul_one_div]
  exact div_le_div_of_nonneg_right (by norm_num) c0.le

/-- rounding errors of the momentum -/
theorem mom_rel (h : NearestF 53 1074 fl) {px py pz : ℝ} (hP : Size (√(px ^ 2 + py ^ 2 + pz ^ 2))) :
    Rel 100 (rV fl (V3.re px py pz)) (√(px ^ 2 + py ^ 2 + pz ^ 2)) (601 / 100) := by
  obtain ⟨v, hv⟩ : ∃ v : R3, v = ![px, py, pz] := ⟨_, rfl⟩
  have e1 : V3.of v = V3.re px py pz := by rw [hv]; rfl
  have e2 : dot v v = px ^ 2 + py ^ 2 + pz ^ 2 := by
    rw [hv]
    simp [dot]
    ring
  have u := r_ap (v := v) h (by rw [e2]; exact hP.1) (by rw [e2]; exact hP.2)
  rw [e1, e2, momentum_r] at u
  exact u.rel

/-- rounding errors of energy and velocity -/
theorem energy_rel (h : NearestF 53 1074 fl) {P : Dbl} {p m : ℝ} (hp : Rel 100 P p (601 / 100)) (hm : SizeOrZero m) :
    Rel 201 (sqrtD fl (addD fl (mulD fl P P) (mulD fl (fin m) (fin m)))) (√(p ^ 2 + m ^ 2)) (151 / 10) ∧
    Rel 301 (divD fl P (sqrtD fl (addD fl (mulD fl P P) (mulD fl (fin m) (fin m))))) (√(betaSq p m)) (222 / 10) := by
  have p0 := hp.pos
  have pp := (hp.mul h hp (by norm_num) (by norm_num) (by norm_num)).mono le_rfl (show _ ≤ (1303 / 100 : ℝ) by norm_num)
  have mm := ((Rel0.given hm).mul h (Rel0.given hm) (by norm_num) (by norm_num) (by norm_num)).mono le_rfl (show _ ≤ (1303 / 100 : ℝ) by norm_num)
  have s := (Rel.add h pp.zero mm (add_pos_of_pos_of_nonneg (by positivity) (mul_self_nonneg _)) (by norm_num) (by norm_num)).sqrt h (by norm_num)
    (by norm_num)
  have E := s.mono (Nat.le_refl 201) (show _ ≤ (151 / 10 : ℝ) by norm_num)
  have e1 : p * p + m * m = p ^ 2 + m ^ 2 := by ring
  rw [e1] at E
  refine ⟨E, ?_⟩
  have b := (hp.div h E (by norm_num) (by norm_num) (by norm_num)).mono (Nat.le_refl 301) (show _ ≤ (222 / 10 : ℝ) by norm_num)
  have e2 : p / √(p ^ 2 + m ^ 2) = √(betaSq p m) := by
    unfold betaSq
    rw [Real.sqrt_div (by positivity), Real.sqrt_sq p0.le]
  rw [e2] at b
  exact b

/-- rounding errors of the path in units of radiation lengths -/
theorem path_rel_of (h : NearestF 53 1074 fl) {ti tO Xi Xo c f : ℝ} {D : Dbl} (ht1 : SizeOrZero ti) (ht2 : SizeOrZero tO) (ht : 0 < ti + tO) (hx1 : Size Xi)
    (hx2 : Size Xo) (hc : Rel 20 D c f) (hf : f ≤ 2 ^ 29) :
    Rel 423 (mulD fl (divD fl (addD fl (fin ti) (fin tO)) D)
      (divD fl (addD fl (divD fl (fin ti) (fin Xi)) (divD fl (fin tO) (fin Xo))) (addD fl (fin ti) (fin tO)))) ((ti / Xi + tO / Xo) / c)
      (75 / 10 + 1003 / 1000 * f) := by
  have c0 := hc.pos
  have X1 := Rel.given hx1.1 hx1.2
  have X2 := Rel.given hx2.1 hx2.2
  have T1 := Rel0.given ht1
  have T2 := Rel0.given ht2
  have t0 : 0 ≤ ti := T1.nonneg
  have t0' : 0 ≤ tO := T2.nonneg
  have t := Rel.add h T1 T2 ht (by norm_num) (by norm_num)
  have q1 := T1.div h X1 (by norm_num) (by norm_num) (by norm_num)
  have q2 := T2.div h X2 (by norm_num) (by norm_num) (by norm_num)
  have q0 : 0 < ti / Xi + tO / Xo := by
    have i1 := X1.pos
    have i2 := X2.pos
    rcases lt_or_eq_of_le t0 with i | i
    · exact add_pos_of_pos_of_nonneg (div_pos i i1) (div_nonneg t0' i2.le)
    · exact add_pos_of_nonneg_of_pos (div_nonneg t0 i1.le) (div_pos (by linarith) i2)
  have q := (Rel.add h q1 q2 q0 (by norm_num) (by norm_num)).div h t (by norm_num) (by norm_num) (by norm_num)
  have f0 := hc.nonneg
  have w := t.div h hc (by norm_num) (hf.trans (by norm_num)) (by norm_num)
  have := (w.mul h q (by norm_num) (by norm_num) (by norm_num at hf ⊢; linarith)).mono (Nat.le_refl 423)
    (show _ ≤ 75 / 10 + 1003 / 1000 * f by linarith)
  rw [show (ti + tO) / c * ((ti / Xi + tO / Xo) / (ti + tO)) = (ti / Xi + tO / Xo) / c by
    generalize ti / Xi + tO / Xo = q at *
    have := ht.ne'
    field_simp] at this
  exact this

/-- the case of `cos_rel` -/
theorem path_rel (h : NearestF 53 1074 fl) {ti tO Xi Xo c : ℝ} {D : Dbl} (ht1 : SizeOrZero ti) (ht2 : SizeOrZero tO) (ht : 0 < ti + tO) (hx1 : Size Xi)
    (hx2 : Size Xo) (hc : Rel 20 D c (27 / c)) :
    Rel 423 (mulD fl (divD fl (addD fl (fin ti) (fin tO)) D)
      (divD fl (addD fl (divD fl (fin ti) (fin Xi)) (divD fl (fin tO) (fin Xo))) (addD fl (fin ti) (fin tO)))) ((ti / Xi + tO / Xo) / c)
      (75 / 10 + 271 / 10 / c) := by
  have c0 := hc.pos
  have hcc : 27 / c ≤ 2 ^ 29 := by
    rw [div_le_iff₀ c0]
    have := hc.lo
    norm_num at this ⊢
    linarith
  refine (path_rel_of h ht1 ht2 ht hx1 hx2 hc hcc).mono le_rfl ?_
  rw [mul_div_assoc']
  have : (1003 / 1000 * 27 : ℝ) / c ≤ 271 / 10 / c := div_le_div_of_nonneg_right (by norm_num) c0.le
  linarith

/-- C145: multiple scattering in double precision is Highland's formula up to a small error in units of the last place, which grows if the track is
almost parallel to the surface. -/
theorem C145_highland (h : NearestF 53 1074 fl) (hl : IsLogLib lg) {s : Surface} {uv : V2} {px py pz nx ny nz m ti tO Xi Xo : ℝ}
    (hn : s.normal (s.localToGlobal uv) = V3.re nx ny nz) (hti : s.innerThickness = fin ti) (hto : s.outerThickness = fin tO)
    (hXi : s.innerMaterial.radLength = fin Xi) (hXo : s.outerMaterial.radLength = fin Xo)
    (ht1 : SizeOrZero ti) (ht2 : SizeOrZero tO) (ht : 0 < ti + tO) (hx1 : Size Xi) (hx2 : Size Xo) (hm : SizeOrZero m)
    (hP : Size (√(px ^ 2 + py ^ 2 + pz ^ 2))) (hN : nx ^ 2 + ny ^ 2 + nz ^ 2 ≤ (1001 / 1000) ^ 2)
    (hc : 1 / 2 ^ 20 ≤ crossingCos px py pz nx ny nz) :
    let x := (ti / Xi + tO / Xo) / crossingCos px py pz nx ny nz
    let p := √(px ^ 2 + py ^ 2 + pz ^ 2)
    ∃ q, Rnd.computeQMS fl lg s uv (V3.re px py pz) (fin m) = fin q ∧
      |q - highland x p m| ≤ (50 + 30 / crossingCos px py pz nx ny nz) / 2 ^ 53 * (0.0136 / (√(betaSq p m) * p) * √x * (1 + |Real.log x|)) := by
  intro x p
  have C := cos_rel (fl := fl) h hP hN hc
  have M := mom_rel (fl := fl) h hP
  obtain ⟨-, b⟩ := energy_rel h M hm
  have X := path_rel h ht1 ht2 ht hx1 hx2 C
  unfold Rnd.computeQMS
  simp only [hn, hti, hto, hXi, hXo]
  change Rel 423 _ x _ at X
  change Rel 100 _ p _ at M
  change Rel 301 _ (√(betaSq p m)) _ at b
  obtain ⟨c, hcd⟩ : ∃ c, c = crossingCos px py pz nx ny nz := ⟨_, rfl⟩
  rw [← hcd] at X hc ⊢
  clear_value x p
  have c0 : 0 < c := lt_of_lt_of_le (by positivity) hc
  obtain ⟨d, hd⟩ : ∃ d, d = 1 / c := ⟨_, rfl⟩
  have d0 : 0 < d := by rw [hd]; positivity
  have d1 : d ≤ 2 ^ 20 := by
    rw [hd, div_le_iff₀ c0]
    norm_num at hc ⊢
    linarith
  have x0 := X.pos
  rw [show 271 / 10 / c = 271 / 10 * d by rw [hd]; ring] at X
  rw [show 30 / c = 30 * d by rw [hd]; ring]
  generalize mulD fl (divD fl (addD fl (fin ti) (fin tO)) (Dbl.abs (dotV fl (unitV fl (V3.re px py pz)) (V3.re nx ny nz))))
    (divD fl (addD fl (divD fl (fin ti) (fin Xi)) (divD fl (fin tO) (fin Xo))) (addD fl (fin ti) (fin tO))) = xD at *
  generalize divD fl (rV fl (V3.re px py pz)) _ = bD at *
  generalize rV fl (V3.re px py pz) = pD at *
  norm_num at d1
  have pb := M.mul h b (by norm_num) (by norm_num) (by norm_num)
  have f1 := (Rel.lit (x := 0.0136) (k := 7) h (by norm_num) (by norm_num) (by norm_num)).div h pb (by norm_num) (by norm_num) (by norm_num)
  have one : Rel 0 1 1 0 := by
    have := Rel.given (k := 0) (x := 1) (by norm_num) (by norm_num)
    rwa [← one_eq] at this
  have f2 := f1.mul h one (by norm_num) (by norm_num) (by norm_num)
  have f3 := (f2.mul h (X.sqrt h (by norm_num) (by norm_num; linarith)) (by norm_num) (by norm_num; linarith) (by norm_num)).mono (Nat.le_refl 831)
    (show _ ≤ 421 / 10 + 272 / 10 * d by linarith)
  have lx : |Real.log x| ≤ 423 := by exact_mod_cast log_le_of x0 X.lo X.hi
  obtain ⟨S, hS⟩ : ∃ S, S = 1 + |Real.log x| := ⟨_, rfl⟩
  have S1 : 1 ≤ S := by rw [hS]; linarith [abs_nonneg (Real.log x)]
  have S2 : S ≤ 2 ^ 9 := by rw [hS]; norm_num; linarith
  have g1 := Rel.log hl X (by norm_num; linarith) (S := S) (l := 9) (by rw [hS, add_comm]) S2
  have g2 : Ap 0 1 (lit fl 0.038) (fin 0.038) (38 / 1000) (38 / 1000 * (1001 / 1000)) :=
    (Rel.lit (x := 0.038) (k := 5) h (by norm_num) (by norm_num) (by norm_num)).ap.rescale (c := 38 / 1000) (T := 1) (l := 0) (by norm_num) (by norm_num)
      (by norm_num) |>.mono (by norm_num) (by norm_num)
  have g3 := (Ap.mulr h g2 g1 (by norm_num) (by norm_num; linarith) (by norm_num; linarith) (by norm_num)).mono (B' := 38 / 1000) (e' := 1 / 2 + 11 / 10 * d) (by norm_num) (by linarith)
  have g0 : Ap 9 S 1 (fin 1) 1 0 := by
    rw [one_eq]
    exact Ap.given g1.lo g1.hi (by rw [abs_one]; linarith)
  have g4 := (Ap.add h g0 g3 (by norm_num) (by norm_num; linarith) (by norm_num)).mono (B' := 1038 / 1000) (e' := 16 / 10 + 11 / 10 * d) (by norm_num) (by linarith)
  have r := Ap.mul h f3.ap g4 (by norm_num) (by norm_num; linarith) (by norm_num; linarith) (by norm_num)
  obtain ⟨q, t, r1, r2, r3, -⟩ := r.val
  refine ⟨q, r1, ?_⟩
  rw [fin_mul, fin_add, fin_mul] at r2
  injection r2 with r2
  have e1 : t = highland x p m := by
    rw [← r2]
    unfold highland
    rw [mul_comm p, mul_one]
  rw [e1] at r3
  refine r3.trans ?_
  have b0 := b.pos
  have p0 := M.pos
  have xs := Real.sqrt_pos.2 x0
  rw [← hS, mul_comm p, mul_one]
  have w0 : 0 ≤ 0.0136 / (√(betaSq p m) * p) * √x * S := by positivity
  generalize 0.0136 / (√(betaSq p m) * p) * √x * S = W at *
  have : (421 / 10 + 272 / 10 * d) * (1038 / 1000 + 1 / 1000) + 1 * (16 / 10 + 11 / 10 * d) + 1 * (1038 / 1000) + 1 / 1000 ≤ 50 + 30 * d := by linarith
  have := mul_le_mul_of_nonneg_right this (show 0 ≤ W * (1 / 2 ^ 53) by positivity)
  refine this.trans (le_of_eq ?_)
  ring

/-- C145: between 1e-6 and 1e6 radiation lengths the result is positive and differs from Highland's formula by less than one part in a million. -/
theorem C145_positive (h : NearestF 53 1074 fl) (hl : IsLogLib lg) {s : Surface} {uv : V2} {px py pz nx ny nz m ti tO Xi Xo : ℝ}
    (hn : s.normal (s.localToGlobal uv) = V3.re nx ny nz) (hti : s.innerThickness = fin ti) (hto : s.outerThickness = fin tO)
    (hXi : s.innerMaterial.radLength = fin Xi) (hXo : s.outerMaterial.radLength = fin Xo)
    (ht1 : SizeOrZero ti) (ht2 : SizeOrZero tO) (ht : 0 < ti + tO) (hx1 : Size Xi) (hx2 : Size Xo) (hm : SizeOrZero m)
    (hP : Size (√(px ^ 2 + py ^ 2 + pz ^ 2))) (hN : nx ^ 2 + ny ^ 2 + nz ^ 2 ≤ (1001 / 1000) ^ 2)
    (hc : 1 / 2 ^ 20 ≤ crossingCos px py pz nx ny nz) (hx : 1 / 10 ^ 6 ≤ (ti / Xi + tO / Xo) / crossingCos px py pz nx ny nz)
    (hx' : (ti / Xi + tO / Xo) / crossingCos px py pz nx ny nz ≤ 10 ^ 6) :
    let y := highland ((ti / Xi + tO / Xo) / crossingCos px py pz nx ny nz) (√(px ^ 2 + py ^ 2 + pz ^ 2)) m
    ∃ q, Rnd.computeQMS fl lg s uv (V3.re px py pz) (fin m) = fin q ∧ 0 < q ∧ |q - y| ≤ 1 / 10 ^ 6 * y := by
  obtain ⟨q, hq, hd⟩ := C145_highland h hl hn hti hto hXi hXo ht1 ht2 ht hx1 hx2 hm hP hN hc
  have p0 : 0 < √(px ^ 2 + py ^ 2 + pz ^ 2) := lt_of_lt_of_le (by positivity) hP.1
  obtain ⟨c, hcd⟩ : ∃ c, c = crossingCos px py pz nx ny nz := ⟨_, rfl⟩
  rw [← hcd] at hx hx' hd hc ⊢
  obtain ⟨x, hxd⟩ : ∃ x, x = (ti / Xi + tO / Xo) / c := ⟨_, rfl⟩
  rw [← hxd] at hx hx' hd ⊢
  obtain ⟨p, hpd⟩ : ∃ p, p = √(px ^ 2 + py ^ 2 + pz ^ 2) := ⟨_, rfl⟩
  rw [← hpd] at hd p0 ⊢
  have x0 : 0 < x := lt_of_lt_of_le (by positivity) hx
  have c0 : 0 < c := lt_of_lt_of_le (by positivity) hc
  have b0 : 0 < √(betaSq p m) := Real.sqrt_pos.2 (by unfold betaSq; positivity)
  have xs := Real.sqrt_pos.2 x0
  have l6 : Real.log (10 ^ 6) ≤ 139 / 10 := by
    rw [Real.log_pow]
    have := log_ten.2
    push_cast
    linarith
  have l1 : Real.log x ≤ 139 / 10 := (Real.log_le_log x0 hx').trans l6
  have l2 : -(139 / 10) ≤ Real.log x := by
    have := Real.log_le_log (by positivity) hx
    rw [one_div, Real.log_inv] at this
    exact (neg_le_neg l6).trans this
  have l3 : |Real.log x| ≤ 139 / 10 := abs_le.2 ⟨by linarith, l1⟩
  have k1 : (1 + |Real.log x|) ≤ 32 * (1 + 0.038 * Real.log x) := by
    norm_num
    linarith
  have k2 : 50 + 30 / c ≤ 2 ^ 25 := by
    have : 30 / c ≤ 30 * 2 ^ 20 := by
      rw [div_le_iff₀ c0]
      norm_num at hc ⊢
      linarith
    norm_num at this ⊢
    linarith
  obtain ⟨W, hW⟩ : ∃ W, W = 0.0136 / (√(betaSq p m) * p) * √x := ⟨_, rfl⟩
  have W0 : 0 < W := by rw [hW]; positivity
  have f0 : 0 < 1 + 0.038 * Real.log x := by
    norm_num
    linarith
  have hy : highland x p m = W * (1 + 0.038 * Real.log x) := by rw [hW]; rfl
  intro y
  have hd : |q - y| ≤ (50 + 30 / c) / 2 ^ 53 * (W * (1 + |Real.log x|)) := by
    rw [hW]
    exact hd
  have y0 : 0 < y := by
    show 0 < highland x p m
    rw [hy]
    positivity
  have key : |q - y| ≤ 1 / 10 ^ 6 * y := by
    refine hd.trans ?_
    have j1 : (50 + 30 / c) / 2 ^ 53 ≤ 2 ^ 25 / 2 ^ 53 := div_le_div_of_nonneg_right k2 (by positivity)
    have j2 := mul_le_mul_of_nonneg_left k1 W0.le
    refine (mul_le_mul j1 j2 (by positivity) (by positivity)).trans ?_
    show _ ≤ 1 / 10 ^ 6 * highland x p m
    rw [hy]
    have : 0 < W * (1 + 0.038 * Real.log x) := by positivity
    generalize 1 + 0.038 * Real.log x = F at *
    rw [show W * (32 * F) = 32 * (W * F) by ring]
    norm_num
    linarith
  refine ⟨q, hq, ?_, key⟩
  have := (abs_le.1 key).1
  norm_num at this
  linarith

/-- there are such library functions -/
theorem exists_logLib : ∃ lg, IsLogLib lg := by
  refine ⟨⟨Real.log, fun x => Real.log x / Real.log 10, fun x y => x ^ y⟩, ?_, ?_, ?_⟩
  · intro x _
    rw [sub_self, _root_.abs_zero]
    positivity
  · intro x _
    rw [sub_self, _root_.abs_zero]
    positivity
  · intro x y hx
    rw [sub_self, _root_.abs_zero]
    have : 0 ≤ x := by
      rcases hx with hx | hx
      · exact hx.le
      · exact hx.1.symm.le
    have := Real.rpow_nonneg this y
    positivity

/-- hypotheses of C145: a layer of silicon of 0.03 cm, no material behind, a pion with momentum (3, 4, 0) GeV and the normal along y -/
theorem C145_silicon (s : Surface) (h : NearestF 53 1074 fl) (hl : IsLogLib lg) : ∃ s' : Surface, ∀ uv, ∃ q,
    Rnd.computeQMS fl lg s' uv (V3.re 3 4 0) (fin 0.13957018) = fin q ∧ 0 < q := by
  obtain ⟨s', hs'⟩ : ∃ s' : Surface, s' = { s with
      innerThickness := fin 0.03
      outerThickness := fin 0
      innerMaterial := ⟨fin 14, fin 28, fin 2.33, fin 9.37⟩
      outerMaterial := ⟨fin 1, fin 1, fin 1e-25, fin 1e12⟩
      normal := fun _ => V3.re 0 1 0 } := ⟨_, rfl⟩
  refine ⟨s', fun uv => ?_⟩
  have e : √((3 : ℝ) ^ 2 + 4 ^ 2 + 0 ^ 2) = 5 := by
    rw [show (3 : ℝ) ^ 2 + 4 ^ 2 + 0 ^ 2 = 5 ^ 2 by norm_num, Real.sqrt_sq (by norm_num)]
  have c : crossingCos 3 4 0 0 1 0 = 4 / 5 := by
    unfold crossingCos
    rw [e]
    norm_num
  obtain ⟨q, h1, h2, -⟩ := C145_positive h hl (s := s') (uv := uv) (px := 3) (py := 4) (pz := 0) (nx := 0) (ny := 1) (nz := 0) (m := 0.13957018) (ti := 0.03)
    (tO := 0) (Xi := 9.37) (Xo := 1e12) (by rw [hs']) (by rw [hs']) (by rw [hs']) (by rw [hs']) (by rw [hs']) (.inr (by norm_num)) (.inl rfl) (by norm_num)
    (by unfold Size; norm_num) (by unfold Size; norm_num) (.inr (by norm_num)) (by unfold Size; rw [e]; norm_num) (by norm_num) (by rw [c]; norm_num)
    (by rw [c]; norm_num) (by rw [c]; norm_num)
  exact ⟨q, h1, h2⟩

/-! ## C146: energy loss -/

/-- a number of at least `2^-50` and at most `2^50` -/
def MomSize (x : ℝ) : Prop := 1 / 2 ^ 50 ≤ x ∧ x ≤ 2 ^ 50

/-- C146: the specific energy loss in double precision is the value of the formula in the code (with twice the density correction, see C75), up to
800 units in the last place of the largest term. -/
theorem C146_bethe (h : NearestF 53 1074 fl) (hl : IsLogLib lg) {Z A rho p m : ℝ} {rad : Dbl} (hM : MatSize Z A rho) (hp : MomSize p) (hm : MomSize m) :
    ∃ d, Rnd.computeBetheBloch fl lg ⟨fin Z, fin A, fin rho, rad⟩ (fin p) (fin m) = fin d ∧
      |d - bethe Z A (excitation Z) (2 * sternheimer (excitation Z) (plasma rho Z A) (Real.log (p / m) / Real.log 10)) p m| ≤
        800 / 2 ^ 53 * (0.307075e-3 * (Z / A) / betaSq p m * betheScale Z A rho p m) := by
  have hp' : Rel 50 (fin p) p (601 / 100) := (Rel.given hp.1 hp.2).mono le_rfl (by norm_num)
  obtain ⟨d, x, h1, h2, h3, -⟩ := (bethe_ap (rad := rad) h hl hM hp' (Rel.given hm.1 hm.2)).val
  injection h2 with h2
  refine ⟨d, h1, ?_⟩
  rw [h2]
  refine h3.trans (le_of_eq ?_)
  ring

/-- C146: energy and velocity, with errors of at most 16 and 23 units in the last place. -/
theorem C146_energy (h : NearestF 53 1074 fl) {s : Surface} {uv : V2} {px py pz m : ℝ} (hP : Size (√(px ^ 2 + py ^ 2 + pz ^ 2))) (hm : SizeOrZero m) :
    let p := √(px ^ 2 + py ^ 2 + pz ^ 2)
    ∃ E b, (Rnd.computeEnergyLoss fl lg s uv (V3.re px py pz) (fin m)).energy = some (fin E) ∧
      (Rnd.computeEnergyLoss fl lg s uv (V3.re px py pz) (fin m)).beta = some (fin b) ∧
      |E - √(p ^ 2 + m ^ 2)| ≤ 16 / 2 ^ 53 * √(p ^ 2 + m ^ 2) ∧ |b - √(betaSq p m)| ≤ 23 / 2 ^ 53 * √(betaSq p m) := by
  intro p
  obtain ⟨hE, hb⟩ := energy_rel h (mom_rel h hP) hm
  obtain ⟨E, e1, e2⟩ := hE.val
  obtain ⟨b, b1, b2⟩ := hb.val
  refine ⟨E, b, congrArg some e1, congrArg some b1, e2.trans ?_, b2.trans ?_⟩
  · have := hE.pos
    change _ ≤ 16 / 2 ^ 53 * √(√(px ^ 2 + py ^ 2 + pz ^ 2) ^ 2 + m ^ 2)
    generalize √(√(px ^ 2 + py ^ 2 + pz ^ 2) ^ 2 + m ^ 2) = w at *
    norm_num
    linarith
  · have := hb.pos
    change _ ≤ 23 / 2 ^ 53 * √(betaSq (√(px ^ 2 + py ^ 2 + pz ^ 2)) m)
    generalize √(betaSq (√(px ^ 2 + py ^ 2 + pz ^ 2)) m) = w at *
    norm_num
    linarith

/-- one layer -/
theorem layer_near (h : NearestF 53 1074 fl) {D C : Dbl} {W d rho t c : ℝ} (hD : Ap 441 W D (fin d) 10 800) (hr : Rel 100 (fin rho) rho 0) (ht : SizeOrZero t)
    (hc : Rel 20 C c (27 / c)) :
    (mulD fl (mulD fl D (fin rho)) (divD fl (fin t) C) = fin 0 ∧ t = 0) ∨
      Ap 661 (W * rho * (t / c)) (mulD fl (mulD fl D (fin rho)) (divD fl (fin t) C)) (fin (d * rho * (t / c))) 10 (832 + 271 / c) := by
  have c0 := hc.pos
  have hcc : 27 / c ≤ 2 ^ 25 := by
    rw [div_le_iff₀ c0]
    have := hc.lo
    norm_num at this ⊢
    linarith
  have ci : 0 < 27 / c := by positivity
  have q := Ap.mul h hD hr.ap (by norm_num) (by norm_num) (by norm_num) (by norm_num)
  have w := (Rel0.given ht).div h hc (by norm_num) (hcc.trans (by norm_num)) (by norm_num)
  rcases w with ⟨w1, w2⟩ | w
  · left
    obtain ⟨r, -, hr', -⟩ := q.val
    rw [w1, hr', mulD, fin_mul, mul_zero, rnd_zero h]
    refine ⟨rfl, ?_⟩
    rcases div_eq_zero_iff.1 w2 with i | i
    · exact i
    · exact absurd i c0.ne'
  · right
    have q := q.mono (B' := 10) (e' := 811) (by norm_num) (by norm_num)
    have r := Ap.mul h q w.ap (by norm_num) (by norm_num at hcc ⊢; linarith) (by norm_num at hcc ⊢; linarith) (by norm_num)
    rw [fin_mul, fin_mul] at r
    refine r.mono (by norm_num) ?_
    rw [show 271 / c = 271 / 27 * (27 / c) by field_simp]
    norm_num
    linarith

/-- the sum of two layers -/
theorem layers_add (h : NearestF 53 1074 fl) {a b : Dbl} {V V' x y e : ℝ} (he : e ≤ 2 ^ 30) (ha : (a = fin 0 ∧ x = 0 ∧ V = 0) ∨ Ap 661 V a (fin x) 10 e)
    (hb : (b = fin 0 ∧ y = 0 ∧ V' = 0) ∨ Ap 661 V' b (fin y) 10 e) :
    ∃ r, addD fl a b = fin r ∧ |r - (x + y)| ≤ (e + 11) / 2 ^ 53 * (V + V') := by
  have get : ∀ {a : Dbl} {V x : ℝ}, (a = fin 0 ∧ x = 0 ∧ V = 0) ∨ Ap 661 V a (fin x) 10 e →
      ∃ r, a = fin r ∧ |r - x| ≤ e * (V * (1 / 2 ^ 53)) ∧ |x| ≤ 10 * V ∧ V ≤ 2 ^ 661 ∧ (V = 0 ∧ r = 0 ∨ 1 / 2 ^ 661 ≤ V) := by
    rintro a V x (⟨rfl, rfl, rfl⟩ | i)
    · refine ⟨0, rfl, by simp, by simp, by positivity, .inl ⟨rfl, rfl⟩⟩
    · obtain ⟨r, x', i1, i2, i3, i4⟩ := i.val
      injection i2 with i2
      subst i2
      exact ⟨r, i1, i3, i4, i.hi, .inr i.lo⟩
  obtain ⟨r, rfl, r1, r2, r3, r4⟩ := get ha
  obtain ⟨s, rfl, s1, s2, s3, s4⟩ := get hb
  rw [addD, fin_add]
  have V0 : 0 ≤ V := by
    rcases r4 with ⟨i, -⟩ | i
    · exact i.ge
    · exact le_trans (by positivity) i
  have V0' : 0 ≤ V' := by
    rcases s4 with ⟨i, -⟩ | i
    · exact i.ge
    · exact le_trans (by positivity) i
  by_cases z : V = 0 ∧ V' = 0
  · obtain ⟨z1, z2⟩ := z
    rcases r4 with ⟨-, i⟩ | i
    · rcases s4 with ⟨-, j⟩ | j
      · refine ⟨0, by rw [i, j, add_zero, rnd_zero h], ?_⟩
        rw [z1] at r2 ⊢
        rw [z2] at s2 ⊢
        rw [mul_zero] at r2 s2
        rw [abs_nonpos_iff.1 r2, abs_nonpos_iff.1 s2]
        simp
      · rw [z2] at j
        exact absurd j (not_le.2 (by positivity))
    · rw [z1] at i
      exact absurd i (not_le.2 (by positivity))
  · have lo : 1 / 2 ^ 662 ≤ V + V' := by
      have w : (1 : ℝ) / 2 ^ 662 ≤ 1 / 2 ^ 661 := one_div_le_one_div_of_le (by positivity) (pow_le_pow_right₀ (by norm_num) (by norm_num))
      rcases r4 with ⟨i, -⟩ | i
      · rcases s4 with ⟨j, -⟩ | j
        · exact absurd ⟨i, j⟩ z
        · rw [i, zero_add]
          exact w.trans j
      · exact (w.trans i).trans (le_add_of_nonneg_right V0')
    have hi : V + V' ≤ 2 ^ 662 := by
      rw [pow_succ (2 : ℝ) 661, mul_two]
      exact add_le_add r3 s3
    have := Ap.round (B := 10) (e := e) (t := r + s) (x := x + y) h lo hi (by norm_num) (he.trans (by norm_num)) (by norm_num)
      ((add_error r1 s1).trans (le_of_eq (by ring))) ((abs_add_le _ _).trans (by linarith))
    obtain ⟨q, x', i1, i2, i3, -⟩ := this.val
    injection i2 with i2
    subst i2
    refine ⟨q, i1, i3.trans ?_⟩
    have VV : 0 ≤ (V + V') * (1 / 2 ^ 53) := by positivity
    have := mul_le_mul_of_nonneg_right (show e + 10 + 1 / 1000 ≤ e + 11 by linarith) VV
    refine this.trans (le_of_eq ?_)
    ring

/-- C146: the energy loss in two layers is the sum over the layers of specific loss times density times path, up to rounding errors that grow if the
track is almost parallel to the surface. -/
theorem C146_loss (h : NearestF 53 1074 fl) (hl : IsLogLib lg) {s : Surface} {uv : V2} {px py pz nx ny nz m ti tO Zi Ai ri Zo Ao ro : ℝ} {Xi Xo : Dbl}
    (hn : s.normal (s.localToGlobal uv) = V3.re nx ny nz) (hti : s.innerThickness = fin ti) (hto : s.outerThickness = fin tO)
    (hmi : s.innerMaterial = ⟨fin Zi, fin Ai, fin ri, Xi⟩) (hmo : s.outerMaterial = ⟨fin Zo, fin Ao, fin ro, Xo⟩)
    (hMi : MatSize Zi Ai ri) (hMo : MatSize Zo Ao ro) (ht1 : SizeOrZero ti) (ht2 : SizeOrZero tO) (hm : MomSize m)
    (hP : MomSize (√(px ^ 2 + py ^ 2 + pz ^ 2))) (hN : nx ^ 2 + ny ^ 2 + nz ^ 2 ≤ (1001 / 1000) ^ 2)
    (hc : 1 / 2 ^ 20 ≤ crossingCos px py pz nx ny nz) :
    let p := √(px ^ 2 + py ^ 2 + pz ^ 2)
    let c := crossingCos px py pz nx ny nz
    let loss := fun Z A rho => bethe Z A (excitation Z) (2 * sternheimer (excitation Z) (plasma rho Z A) (Real.log (p / m) / Real.log 10)) p m
    let size := fun Z A rho => 0.307075e-3 * (Z / A) / betaSq p m * betheScale Z A rho p m
    ∃ q, (Rnd.computeEnergyLoss fl lg s uv (V3.re px py pz) (fin m)).deltaE = fin q ∧
      |q - (loss Zi Ai ri * ri * (ti / c) + loss Zo Ao ro * ro * (tO / c))| ≤
        (850 + 280 / c) / 2 ^ 53 * (size Zi Ai ri * ri * (ti / c) + size Zo Ao ro * ro * (tO / c)) := by
  intro p c loss size
  have big : ∀ {x : ℝ}, MomSize x → Size x := fun hx =>
    ⟨le_trans (one_div_le_one_div_of_le (by positivity) (pow_le_pow_right₀ (by norm_num) (by norm_num))) hx.1,
      hx.2.trans (pow_le_pow_right₀ (by norm_num) (by norm_num))⟩
  have C := cos_rel (fl := fl) h (big hP) hN hc
  have M := mom_rel (fl := fl) h (big hP)
  have M' : Rel 50 (rV fl (V3.re px py pz)) p (601 / 100) := ⟨hP.1, hP.2, M.val⟩
  have c0 : 0 < c := C.pos
  have m' := Rel.given hm.1 hm.2
  have Bi := bethe_ap (rad := Xi) h hl hMi M' m'
  have Bo := bethe_ap (rad := Xo) h hl hMo M' m'
  have Li := layer_near h Bi (Rel.given hMi.r1 hMi.r2) ht1 C
  have Lo := layer_near h Bo (Rel.given hMo.r1 hMo.r2) ht2 C
  have d0 : 0 < 271 / c := by positivity
  have d1 : 271 / c ≤ 2 ^ 29 := by
    rw [div_le_iff₀ c0]
    change 1 / 2 ^ 20 ≤ c at hc
    norm_num at hc ⊢
    linarith
  have := layers_add h (V := size Zi Ai ri * ri * (ti / c)) (V' := size Zo Ao ro * ro * (tO / c)) (x := loss Zi Ai ri * ri * (ti / c))
    (y := loss Zo Ao ro * ro * (tO / c)) (e := 832 + 271 / c) (by norm_num at d1 ⊢; linarith)
    (Li.imp_left fun i => ⟨i.1, by rw [i.2, zero_div, mul_zero], by rw [i.2, zero_div, mul_zero]⟩)
    (Lo.imp_left fun i => ⟨i.1, by rw [i.2, zero_div, mul_zero], by rw [i.2, zero_div, mul_zero]⟩)
  obtain ⟨q, hq, hd⟩ := this
  refine ⟨q, ?_, hd.trans ?_⟩
  · unfold Rnd.computeEnergyLoss
    simp only [hn, hti, hto, hmi, hmo]
    exact hq
  · refine mul_le_mul_of_nonneg_right (div_le_div_of_nonneg_right ?_ (by positivity)) ?_
    · rw [show 280 / c = 280 / 271 * (271 / c) by field_simp]
      linarith
    · have si : 0 ≤ size Zi Ai ri := Bi.pos.le
      have so : 0 ≤ size Zo Ao ro := Bo.pos.le
      have ri0 : 0 ≤ ri := le_trans (by positivity) hMi.r1
      have ro0 : 0 ≤ ro := le_trans (by positivity) hMo.r1
      have t0 := (Rel0.given ht1).nonneg
      have t0' := (Rel0.given ht2).nonneg
      positivity

/-- hypotheses of C146: 0.03 cm of silicon, no material behind, a pion with momentum (3, 4, 0) GeV and the normal along y -/
theorem C146_silicon (s : Surface) (h : NearestF 53 1074 fl) (hl : IsLogLib lg) : ∃ s' : Surface, ∀ uv, ∃ q E b,
    Rnd.computeEnergyLoss fl lg s' uv (V3.re 3 4 0) (fin 0.13957018) = ⟨fin q, some (fin E), some (fin b)⟩ ∧ b ≤ 1 + 23 / 2 ^ 53 := by
  obtain ⟨s', hs'⟩ : ∃ s' : Surface, s' = { s with
      innerThickness := fin 0.03
      outerThickness := fin 0
      innerMaterial := ⟨fin 14, fin 28, fin 2.33, fin 9.37⟩
      outerMaterial := ⟨fin 1, fin 1, fin 1e-25, fin 1e12⟩
      normal := fun _ => V3.re 0 1 0 } := ⟨_, rfl⟩
  refine ⟨s', fun uv => ?_⟩
  have e : √((3 : ℝ) ^ 2 + 4 ^ 2 + 0 ^ 2) = 5 := by
    rw [show (3 : ℝ) ^ 2 + 4 ^ 2 + 0 ^ 2 = 5 ^ 2 by norm_num, Real.sqrt_sq (by norm_num)]
  have c : crossingCos 3 4 0 0 1 0 = 4 / 5 := by
    unfold crossingCos
    rw [e]
    norm_num
  obtain ⟨q, h1, -⟩ := C146_loss h hl (s := s') (uv := uv) (px := 3) (py := 4) (pz := 0) (nx := 0) (ny := 1) (nz := 0) (m := 0.13957018) (ti := 0.03)
    (tO := 0) (by rw [hs']) (by rw [hs']) (by rw [hs']) (by rw [hs']) (by rw [hs']) ⟨by norm_num, by norm_num, by norm_num, by norm_num, by norm_num, by norm_num⟩
    ⟨by norm_num, by norm_num, by norm_num, by norm_num, by norm_num, by norm_num⟩ (.inr (by norm_num)) (.inl rfl)
    (by unfold MomSize; norm_num) (by unfold MomSize; rw [e]; norm_num) (by norm_num) (by rw [c]; norm_num)
  obtain ⟨E, b, h2, h3, -, h4⟩ := C146_energy (lg := lg) (s := s') (uv := uv) (px := 3) (py := 4) (pz := 0) (m := 0.13957018) h (by unfold Size; rw [e]; norm_num)
    (.inr (by norm_num))
  refine ⟨q, E, b, ?_, ?_⟩
  · rw [← h1, ← h2, ← h3]
  · have b1 : √(betaSq (√((3 : ℝ) ^ 2 + 4 ^ 2 + 0 ^ 2)) 0.13957018) ≤ 1 := by
      rw [e, Real.sqrt_le_one]
      unfold betaSq
      norm_num
    have := (abs_le.1 h4).2
    have := mul_le_mul_of_nonneg_left b1 (show (0 : ℝ) ≤ 23 / 2 ^ 53 by positivity)
    linarith

end Verif
