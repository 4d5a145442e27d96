import Verif.Lemmas.Loop
import Verif.Lemmas.Helix

/-! Helper lemmas: `moveHelixTo` on finite values. -/

noncomputable section

namespace Verif

open Dbl

/-- the sign of a non-zero real -/
def sg (om : ℝ) : ℝ := om / |om|

theorem sg_sq {om : ℝ} (h : om ≠ 0) : sg om * sg om = 1 := by
  have : |om| ≠ 0 := abs_ne_zero.mpr h
  rw [sg]; field_simp; rw [sq_abs]

theorem mul_sg {om : ℝ} (h : om ≠ 0) : om * sg om = |om| := by
  have : |om| ≠ 0 := abs_ne_zero.mpr h
  rw [sg]; field_simp; rw [sq_abs]

theorem sg_pos {om : ℝ} (h : 0 < om) : sg om = 1 := by rw [sg, abs_of_pos h, div_self h.ne']
theorem sg_neg {om : ℝ} (h : om < 0) : sg om = -1 := by
  rw [sg, abs_of_neg h, div_neg, div_self h.ne]

/-- the square-root trick for the sine, valid on [0,2π] -/
theorem snf_re {f : ℝ} (h0 : 0 ≤ f) (h1 : f ≤ 2 * Real.pi) :
    (ifc Dbl.pi < fin f then -Dbl.sqrt (Dbl.max 0 ((1 - Dbl.cos (fin f)) * (1 + Dbl.cos (fin f))))
      else Dbl.sqrt (Dbl.max 0 ((1 - Dbl.cos (fin f)) * (1 + Dbl.cos (fin f))))) = fin (Real.sin f) := by
  have e : (1 - Real.cos f) * (1 + Real.cos f) = Real.sin f ^ 2 := by
    rw [Real.sin_sq]; ring
  have hs : Dbl.sqrt (Dbl.max 0 ((1 - Dbl.cos (fin f)) * (1 + Dbl.cos (fin f)))) =
      fin |Real.sin f| := by
    simp only [cos_fin, one_eq, fin_sub, fin_add, fin_mul, zero_eq, max_fin]
    rw [e, max_eq_right (sq_nonneg _), sqrt_fin (sq_nonneg _), Real.sqrt_sq_eq_abs]
  rw [hs]
  simp only [pi_eq, fin_lt, fin_neg]
  by_cases h : Real.pi < f
  · rw [cif_pos h, fin_inj]
    have : Real.sin f ≤ 0 := by
      have := Real.sin_nonneg_of_nonneg_of_le_pi (x := 2 * Real.pi - f) (by linarith) (by linarith)
      rw [Real.sin_two_pi_sub] at this; linarith
    rw [abs_of_nonpos this]; ring
  · rw [cif_neg h, fin_inj]
    exact abs_of_nonneg (Real.sin_nonneg_of_nonneg_of_le_pi h0 (not_lt.mp h))

theorem kTwoPi_eq : kTwoPi = fin (2 * Real.pi) := by simp [kTwoPi, pi_eq]

section

variable (cov : M5) {om : ℝ} (tl ph d z rx ry rz vx vy vz : ℝ)

theorem moveVals_re (h : om ≠ 0) : ∃ (f0 f1 fd fn : ℝ) (k0 k1 kd kn : ℤ),
    moveVals ⟨cov, hpR om tl ph d z, V3.re rx ry rz⟩ (V3.re vx vy vz) =
      .ok ⟨fin (1 / om), fin (1 / om - d), fin om, fin tl, fin (Real.cos (f1 - f0)),
        fin (Real.sin (f1 - f0)), fin fd,
        fin ((rCx om ph d rx - vx) * Real.cos f1 + (rCy om ph d ry - vy) * Real.sin f1 - 1 / om),
        fin (rz - vz + z - 1 / om * tl * fd), fin fn⟩ ∧
    f0 = ph - Real.pi / 2 + k0 * (2 * Real.pi) ∧
    f1 = ratan2 (sg om * (rCy om ph d ry - vy)) (sg om * (rCx om ph d rx - vx)) + k1 * (2 * Real.pi) ∧
    fd = f1 - f0 + kd * (2 * Real.pi) ∧ -Real.pi < fd ∧ fd ≤ Real.pi ∧
    fn = f1 + Real.pi / 2 + kn * (2 * Real.pi) ∧ -Real.pi < fn ∧ fn ≤ Real.pi := by
  have hpi := Real.pi_pos
  obtain ⟨f0, k0, ⟨y0, l0, l0'⟩, b0, b0', e0⟩ := norm02 (ph - Real.pi / 2)
  have cx : rx + (1 / om - d) * Real.cos f0 = rCx om ph d rx := by
    rw [e0, Real.cos_add_int_mul_two_pi, Real.cos_sub_pi_div_two, rCx]
  have cy : ry + (1 / om - d) * Real.sin f0 = rCy om ph d ry := by
    rw [e0, Real.sin_add_int_mul_two_pi, Real.sin_sub_pi_div_two, rCy]; ring
  set X := rCx om ph d rx with hX
  set Y := rCy om ph d ry with hY
  obtain ⟨f1, k1, ⟨y1, l1, l1'⟩, b1, b1', e1⟩ := norm02 (ratan2 (sg om * (Y - vy)) (sg om * (X - vx)))
  obtain ⟨f2, k2, ⟨y2, l2, l2'⟩, b2, b2', e2⟩ := norm02 (f1 - f0)
  obtain ⟨fn, kn, ⟨y3, l3, l3'⟩, b3, b3', b3'', e3⟩ := normPi (f1 + Real.pi / 2)
  have hat : (ifc fin om < 0 then Dbl.atan2 (fin vy - fin Y) (fin vx - fin X) else
      ifc 0 < fin om then Dbl.atan2 (fin Y - fin vy) (fin X - fin vx) else 0) =
      fin (ratan2 (sg om * (Y - vy)) (sg om * (X - vx))) := by
    rcases lt_or_gt_of_ne h with hn | hp
    · rw [cif_pos (by simpa using hn), sg_neg hn]
      simp only [fin_sub, atan2_fin, fin_inj]
      congr 1 <;> ring
    · rw [cif_neg (by simpa using hp.le), cif_pos (by simpa using hp), sg_pos hp]
      simp only [fin_sub, atan2_fin, one_mul]
  have hcs : Real.cos f1 * Real.cos f1 + Real.sin f1 * Real.sin f1 = 1 := by
    have := Real.sin_sq_add_cos_sq f1; nlinarith
  have hanrm : (1 : Dbl) / Dbl.sqrt (fin 1) = fin 1 := by
    rw [sqrt_fin zero_le_one, Real.sqrt_one, one_eq, fin_div _ one_ne_zero, div_one]
  have hD0 : (hpR om tl ph d z) D0 = fin d := rfl
  have hPHI0 : (hpR om tl ph d z) PHI0 = fin ph := rfl
  have hOM : (hpR om tl ph d z) OMEGA = fin om := rfl
  have hTANL : (hpR om tl ph d z) TANL = fin tl := rfl
  have hZ0 : (hpR om tl ph d z) Z0 = fin z := rfl
  have hr : (1 : Dbl) / fin om = fin (1 / om) := by rw [one_eq, fin_div _ h]
  have hrd : fin (1 / om) + -fin d = fin (1 / om - d) := by rw [fin_neg, fin_add, sub_eq_add_neg]
  have hpd : (fin ph - Dbl.pi / 2) = fin (ph - Real.pi / 2) := by
    rw [pi_eq, ofNat_eq, fin_div _ two_ne_zero, fin_sub]
  refine ⟨f0, f1, ifc Real.pi < f2 then f2 - 2 * Real.pi else f2, fn, k0, k1,
    ifc Real.pi < f2 then k2 - 1 else k2, kn, ?_, e0, e1, ?_, ?_, ?_, e3, b3'' (by linarith), b3'⟩
  · unfold moveVals
    simp only [hD0, hPHI0, hOM, hTANL, hZ0, hr, hrd, hpd, kTwoPi_eq, V3.re]
    simp only [zero_eq] at hat ⊢
    simp only [l0, Out.ok_bind, l0']
    have s0 := snf_re b0 b0'
    simp only [zero_eq, cos_fin] at s0
    simp only [cos_fin, s0, fin_mul, fin_add, cx, cy, hat, l1, Out.ok_bind, l1']
    have s1 := snf_re b1 b1'
    simp only [zero_eq, cos_fin] at s1
    simp only [s1]
    simp only [fin_mul, fin_add, hcs, hanrm]
    simp only [fin_mul, mul_one, fin_add, fin_sub, l2, Out.ok_bind, l2', pi_eq, fin_lt]
    have hh : (fin Real.pi / (2 : Dbl)) = fin (Real.pi / 2) := by
      rw [ofNat_eq, fin_div _ two_ne_zero]
    simp only [hh, fin_add, fin_neg, l3, Out.ok_bind, l3', Out.pure_eq]
    congr 1
    rw [Real.cos_sub, Real.sin_sub, ← apply_cif fin]
    simp only [fin_mul, fin_sub]
  · refine cif_cases (P := fun t => t = f1 - f0 + ((ifc Real.pi < f2 then k2 - 1 else k2 : ℤ) : ℝ) * (2 * Real.pi)) ?_ ?_
    · intro hc; rw [cif_pos hc, e2]; push_cast; ring
    · intro hc; rw [cif_neg hc, e2]
  · refine cif_cases (P := fun t => -Real.pi < t) ?_ ?_ <;> intro hc <;> linarith
  · refine cif_cases (P := fun t => t ≤ Real.pi) ?_ ?_ <;> intro hc <;> linarith

/-- the polar decomposition behind the branch of `atan2` -/
theorem polar_re (a b : ℝ) :
    a = Real.sqrt (a ^ 2 + b ^ 2) * Real.cos (ratan2 b a) ∧
    b = Real.sqrt (a ^ 2 + b ^ 2) * Real.sin (ratan2 b a) := by
  by_cases h0 : a = 0 ∧ b = 0
  · obtain ⟨rfl, rfl⟩ := h0; simp
  · have hpos : 0 < a ^ 2 + b ^ 2 := by
      by_contra hc
      have h1 : a ^ 2 = 0 := by nlinarith [sq_nonneg a, sq_nonneg b]
      have h2 : b ^ 2 = 0 := by nlinarith [sq_nonneg a, sq_nonneg b]
      exact h0 ⟨by simpa using h1, by simpa using h2⟩
    have hs := (Real.sqrt_pos.mpr hpos).ne'
    rw [cos_ratan2 _ _ h0, sin_ratan2]
    generalize Real.sqrt (a ^ 2 + b ^ 2) = A at hs
    constructor <;> field_simp

/-- `moveHelixTo` on finite values: the new parameters have the same centre, on the closest
approach branch. -/
theorem move_re (h : om ≠ 0) : ∃ (fn dn fd : ℝ) (k : ℤ),
    fd = fn - ph + k * (2 * Real.pi) ∧ -Real.pi < fd ∧ fd ≤ Real.pi ∧ -Real.pi < fn ∧ fn ≤ Real.pi ∧
    rCx om fn dn vx = rCx om ph d rx ∧ rCy om fn dn vy = rCy om ph d ry ∧
    1 / om - dn = sg om * Real.sqrt ((rCx om ph d rx - vx) ^ 2 + (rCy om ph d ry - vy) ^ 2) ∧
    moveVals ⟨cov, hpR om tl ph d z, V3.re rx ry rz⟩ (V3.re vx vy vz) =
      .ok ⟨fin (1 / om), fin (1 / om - d), fin om, fin tl, fin (Real.cos (fn - ph)),
        fin (Real.sin (fn - ph)), fin fd, fin (-dn), fin (rz - vz + z - 1 / om * tl * fd), fin fn⟩ := by
  obtain ⟨f0, f1, fd, fn, k0, k1, kd, kn, hv, e0, e1, e2, b2, b2', e3, b3, b3'⟩ :=
    moveVals_re cov tl ph d z rx ry rz vx vy vz h
  obtain ⟨p1, p2⟩ := polar_re (sg om * (rCx om ph d rx - vx)) (sg om * (rCy om ph d ry - vy))
  set X := rCx om ph d rx
  set Y := rCy om ph d ry
  have hss := sg_sq h
  have hsum : (sg om * (X - vx)) ^ 2 + (sg om * (Y - vy)) ^ 2 = (X - vx) ^ 2 + (Y - vy) ^ 2 := by
    linear_combination ((X - vx) ^ 2 + (Y - vy) ^ 2) * hss
  rw [hsum] at p1 p2
  set R := Real.sqrt ((X - vx) ^ 2 + (Y - vy) ^ 2)
  have c1 : Real.cos f1 = Real.cos (ratan2 (sg om * (Y - vy)) (sg om * (X - vx))) := by
    rw [e1, Real.cos_add_int_mul_two_pi]
  have s1 : Real.sin f1 = Real.sin (ratan2 (sg om * (Y - vy)) (sg om * (X - vx))) := by
    rw [e1, Real.sin_add_int_mul_two_pi]
  rw [← c1] at p1
  rw [← s1] at p2
  have sn : Real.sin fn = Real.cos f1 := by
    rw [e3, Real.sin_add_int_mul_two_pi, Real.sin_add_pi_div_two]
  have cn : Real.cos fn = -Real.sin f1 := by
    rw [e3, Real.cos_add_int_mul_two_pi, Real.cos_add_pi_div_two]
  have q1 : X - vx = sg om * R * Real.cos f1 := by
    linear_combination sg om * p1 - (X - vx) * hss
  have q2 : Y - vy = sg om * R * Real.sin f1 := by
    linear_combination sg om * p2 - (Y - vy) * hss
  refine ⟨fn, 1 / om - sg om * R, fd, kd - k0 - kn, ?_, b2, b2', b3, b3', ?_, ?_, by ring, ?_⟩
  · rw [e2, e0, e3]; push_cast; ring
  · rw [rCx, sn]; linear_combination -q1
  · rw [rCy, cn]; linear_combination -q2
  · rw [hv]
    have hd1 : f1 - f0 = (fn - ph) + ((-k0 - kn : ℤ) : ℝ) * (2 * Real.pi) := by
      rw [e3, e0]; push_cast; ring
    have hdr : (X - vx) * Real.cos f1 + (Y - vy) * Real.sin f1 - 1 / om = -(1 / om - sg om * R) := by
      have := Real.sin_sq_add_cos_sq f1
      linear_combination q1 * Real.cos f1 + q2 * Real.sin f1 + sg om * R * this
    rw [hd1, Real.cos_add_int_mul_two_pi, Real.sin_add_int_mul_two_pi, hdr]

end

/-- the call in terms of its local values -/
theorem moveHelixTo_of_vals {tp : TP} {ref : V3} (upd : Bool) {om tl fn dn z' fd : ℝ} {r rdr cs sn : Dbl}
    (hv : moveVals tp ref = .ok ⟨r, rdr, fin om, fin tl, cs, sn, fin fd, fin (-dn), fin z', fin fn⟩) :
    moveHelixTo tp ref upd = .ok (⟨if upd then
        M5.mul (M5.mul (moveF ⟨r, rdr, fin om, fin tl, cs, sn, fin fd, fin (-dn), fin z', fin fn⟩) tp.cov)
          (M5.transpose (moveF ⟨r, rdr, fin om, fin tl, cs, sn, fin fd, fin (-dn), fin z', fin fn⟩))
        else tp.cov, hpR om tl fn dn z', ref⟩, fin fd) := by
  have hmk : V5.mk (fin om) (fin tl) (fin fn) (-fin (-dn)) (fin z') = hpR om tl fn dn z' := by
    rw [fin_neg, neg_neg]; rfl
  unfold moveHelixTo
  rw [hv]
  simp only [Out.ok_bind, hmk]
  cases upd <;> rfl

/-- the parameters on the closest approach branch are determined by the circle -/
theorem branch_unique {om ph d ph' d' rx ry : ℝ} (h : om ≠ 0)
    (hx : rCx om ph d rx = rCx om ph' d' rx) (hy : rCy om ph d ry = rCy om ph' d' ry)
    (hd : om * d < 1) (hd' : om * d' < 1)
    (b1 : -Real.pi < ph) (b2 : ph ≤ Real.pi) (b1' : -Real.pi < ph') (b2' : ph' ≤ Real.pi) :
    ph = ph' ∧ d = d' := by
  have key : ∀ p e : ℝ, om * e < 1 → 0 < sg om * (1 / om - e) := by
    intro p e he
    have h1 : sg om * (1 / om - e) = |om| * (1 - om * e) / om ^ 2 := by
      have : |om| ≠ 0 := abs_ne_zero.mpr h
      rw [sg]; field_simp; rw [sq_abs]
    rw [h1]
    have : 0 < |om| := abs_pos.mpr h
    have : 0 < om ^ 2 := by positivity
    apply div_pos _ this
    apply mul_pos (abs_pos.mpr h); linarith
  have hA := key ph d hd
  have hB := key ph' d' hd'
  set A := sg om * (1 / om - d) with hAd
  set B := sg om * (1 / om - d') with hBd
  have hx' : A * Real.sin ph = B * Real.sin ph' := by
    simp only [rCx] at hx; rw [hAd, hBd]; linear_combination sg om * hx
  have hy' : A * Real.cos ph = B * Real.cos ph' := by
    simp only [rCy] at hy; rw [hAd, hBd]; linear_combination -sg om * hy
  have e1 := ratan2_polar hA b1 b2
  have e2 := ratan2_polar hB b1' b2'
  rw [hx', hy', e2] at e1
  have hAB : A ^ 2 = B ^ 2 := by
    have h1 := Real.sin_sq_add_cos_sq ph
    have h2 := Real.sin_sq_add_cos_sq ph'
    linear_combination (A * Real.sin ph + B * Real.sin ph') * hx' +
      (A * Real.cos ph + B * Real.cos ph') * hy' - A ^ 2 * h1 + B ^ 2 * h2
  have hAB' : A = B := by nlinarith
  refine ⟨e1.symm, ?_⟩
  have h3 : sg om * (sg om * (1 / om - d)) = sg om * (sg om * (1 / om - d')) := by
    rw [← hAd, ← hBd, hAB']
  have := sg_sq h
  linear_combination -h3 + (d' - d) * this

end Verif
