import Verif.Lemmas.RoundedMoveCov
import Verif.Props.RoundedMove
import Verif.Props.RoundedCircles

/-!
# The covariance matrix of a moved track in double precision: C154
-/

open Classical

noncomputable section

namespace Verif

open Dbl Rnd Rounded

variable {fl : ℝ → ℝ} {lm : Libm} {at2 : ℝ → ℝ → ℝ} {mm : M5 → M5 → M5}

namespace Rnd

/-- sizes for which the bounds are shown -/
structure MoveRange (om tl ph d z rx ry rz xv yv zv : ℝ) : Prop where
  om1 : 1 / 2 ^ 50 ≤ |om|
  om2 : |om| ≤ 2 ^ 50
  tl : |tl| ≤ 2 ^ 50
  ph : |ph| ≤ 4
  d : |d| ≤ 2 ^ 50
  rx : |rx| ≤ 2 ^ 50
  ry : |ry| ≤ 2 ^ 50
  xv : |xv| ≤ 2 ^ 50
  yv : |yv| ≤ 2 ^ 50
  z : |z| ≤ 2 ^ 50
  rz : |rz| ≤ 2 ^ 50
  zv : |zv| ≤ 2 ^ 50

theorem out_assoc {α β γ : Type} (x : Out α) (f : α → Out β) (g : β → Out γ) : (x >>= f >>= g) = (x >>= fun a => f a >>= g) := by
  cases x <;> rfl

theorem moveParams_eq (hp : V5) (rp ref : V3) : moveParams fl lm at2 hp rp ref = (do
    let v ← moveVals fl lm at2 hp rp ref
    pure (V5.mk v.cpa v.tnl v.fi0p (-v.drp) v.dzp, v.fid)) := by
  simp only [moveParams, moveVals, out_assoc]
  rfl

theorem turn_near (h : NearestF 53 1074 fl) {c s c0 s0 a b : ℝ} (hc : |c - Real.cos a| ≤ 75 * (1 / 2 ^ 53)) (hs : |s - Real.sin a| ≤ 75 * (1 / 2 ^ 53))
    (hc0 : |c0 - Real.sin b| ≤ 10 * (1 / 2 ^ 53)) (hs0 : |s0 - -Real.cos b| ≤ 10 * (1 / 2 ^ 53)) (k : ℤ) :
    Ap 0 1 (addD fl (mulD fl (fin c) (fin c0)) (mulD fl (fin s) (fin s0))) (fin (Real.cos (a - b + Real.pi / 2 + k * (2 * Real.pi)))) 1 175 ∧
      Ap 0 1 (subD fl (mulD fl (fin s) (fin c0)) (mulD fl (fin c) (fin s0))) (fin (Real.sin (a - b + Real.pi / 2 + k * (2 * Real.pi)))) 1 175 := by
  have mk : ∀ {x y e : ℝ}, |y| ≤ 1 → |x - y| ≤ e * (1 / 2 ^ 53) → Ap 0 1 (fin x) (fin y) 1 e := fun {x y e} h1 h2 =>
    ⟨by norm_num, by norm_num, x, y, rfl, rfl, by rwa [one_mul], by rwa [mul_one]⟩
  have A1 := mk (Real.abs_cos_le_one a) hc
  have A2 := mk (Real.abs_sin_le_one a) hs
  have A3 := mk (Real.abs_sin_le_one b) hc0
  have A4 := mk (by rw [abs_neg]; exact Real.abs_cos_le_one b) hs0
  have P1 := A1.mull h A3 (by norm_num) (by norm_num) (by norm_num) (by norm_num)
  have P2 := A2.mull h A4 (by norm_num) (by norm_num) (by norm_num) (by norm_num)
  have P3 := A2.mull h A3 (by norm_num) (by norm_num) (by norm_num) (by norm_num)
  have P4 := A1.mull h A4 (by norm_num) (by norm_num) (by norm_num) (by norm_num)
  have e1 : Real.cos (a - b + Real.pi / 2 + k * (2 * Real.pi)) = Real.cos a * Real.sin b + Real.sin a * -Real.cos b := by
    rw [Real.cos_add_int_mul_two_pi, Real.cos_add_pi_div_two, Real.sin_sub]
    ring
  have e2 : Real.sin (a - b + Real.pi / 2 + k * (2 * Real.pi)) = Real.sin a * Real.sin b - Real.cos a * -Real.cos b := by
    rw [Real.sin_add_int_mul_two_pi, Real.sin_add_pi_div_two, Real.cos_sub]
    ring
  constructor
  · have := P1.addB h P2 (D := 1) (by
      intro x hx
      simp only [fin_mul, fin_add] at hx
      injection hx with hx
      rw [← hx, ← e1, mul_one]
      exact Real.abs_cos_le_one _) (by norm_num) (by norm_num) (by norm_num)
    simp only [fin_mul, fin_add] at this
    rw [e1]
    exact this.mono le_rfl (by norm_num)
  · have := P3.subB h P4 (D := 1) (by
      intro x hx
      simp only [fin_mul, fin_sub] at hx
      injection hx with hx
      rw [← hx, ← e2, mul_one]
      exact Real.abs_sin_le_one _) (by norm_num) (by norm_num) (by norm_num)
    simp only [fin_mul, fin_sub] at this
    rw [e2]
    exact this.mono le_rfl (by norm_num)

/-- the local variables of `moveHelixTo` -/
theorem moveVals_ok (h : NearestF 53 1074 fl) (hl : IsLibm lm) (ha : IsAtan2 at2) (h00 : |at2 0 0| ≤ 4) {om tl ph d z rx ry rz xv yv zv : ℝ}
    (hr : MoveRange om tl ph d z rx ry rz xv yv zv) :
    ∃ φ d' z' f θ : ℝ, ∃ cs sn : Dbl, moveVals fl lm at2 (hpR om tl ph d z) (V3.re rx ry rz) (V3.re xv yv zv) =
        .ok ⟨divD fl 1 (fin om), addD fl (divD fl 1 (fin om)) (fin (-d)), fin om, fin tl, cs, sn, fin f, fin (-d'), fin z', fin φ⟩ ∧
      Ap 0 1 cs (fin (Real.cos θ)) 1 175 ∧ Ap 0 1 sn (fin (Real.sin θ)) 1 175 ∧ |f| ≤ mPi ∧ |θ - f| ≤ 1 / 2 ^ 20 ∧
      |θ - f| * |Real.cos ph| * |Real.cos φ| ≤ 300 / 2 ^ 53 ∧ |1 / om - d'| ≤ 2 ^ 70 := by
  have up : ∀ {x : ℝ}, |x| ≤ 2 ^ 50 → |x| ≤ 2 ^ 200 := fun hx => size_mono hx (by norm_num)
  have hom : om ≠ 0 := abs_pos.1 (lt_of_lt_of_le (by positivity) hr.om1)
  obtain ⟨-, -, q3, q4⟩ := mPi_bounds
  have v0 : (0 : ℝ) ≤ 1 / 2 ^ 53 := by positivity
  have v1 : (1 : ℝ) / 2 ^ 53 ≤ 1 / 1000000 := by norm_num
  obtain ⟨t, c0, s0, δ, k0, n0, t1, t2, t4, p1, p2, δb, δc, p5, p6⟩ := given_ok (ph := ph) h hl ⟨by linarith [(abs_le.1 hr.ph).1], by linarith [(abs_le.1 hr.ph).2]⟩
  obtain ⟨M, hM⟩ : ∃ M, M = |1 / om| + |d| + |rx| + |ry| + |xv| + |yv| := ⟨_, rfl⟩
  have b1 := abs_nonneg (1 / om)
  have b2 := abs_nonneg d
  have b3 := abs_nonneg rx
  have b4 := abs_nonneg ry
  have b5 := abs_nonneg xv
  have b6 := abs_nonneg yv
  have M0 : 0 ≤ M := by linarith
  obtain ⟨i1, i2⟩ := scale_inv hr.om1 hr.om2
  have oe : |1 / om| = 1 / |om| := by rw [abs_div, abs_one]
  rw [← oe] at i1 i2
  have MB : M ≤ 6 * 2 ^ 50 := by
    have := hr.d
    have := hr.rx
    have := hr.ry
    have := hr.xv
    have := hr.yv
    linarith
  have ηM : 1000 * ((1 : ℝ) / 2 ^ 1075) ≤ 1 / 2 ^ 53 * M := by
    have o2 : 1 / 2 ^ 50 ≤ M := by linarith
    refine le_trans ?_ (mul_le_mul_of_nonneg_left o2 v0)
    rw [one_div_mul_one_div, ← pow_add, mul_one_div, div_le_div_iff₀ (by positivity) (by positivity), one_mul,
      show (2 : ℝ) ^ 1075 = 2 ^ 972 * 2 ^ (53 + 50) by rw [← pow_add]]
    refine mul_le_mul_of_nonneg_right ?_ (by positivity)
    calc (1000 : ℝ) ≤ 2 ^ 10 := by norm_num
      _ ≤ _ := pow_le_pow_right₀ (by norm_num) (by norm_num)
  obtain ⟨r, rdr, m, m', xc, yc, rr, rd, mx, my, ax, ay, z2, er, zx, zy, cx, cx', cy, cy'⟩ := centre_ok h hom (size_mono i2 (by norm_num)) (up hr.d)
    (up hr.rx) (up hr.ry) p5 p6 (Real.abs_sin_le_one _) (by rw [abs_neg]; exact Real.abs_cos_le_one _) ηM (by linarith) (by linarith)
  have uM1 : 1 / 2 ^ 53 * M ≤ 1 / 1000000 * M := mul_le_mul_of_nonneg_right v1 M0
  have X1 : |xc - xv| ≤ 1.01 * M := (abs_sub _ _).trans (by linarith)
  have Y1 : |yc - yv| ≤ 1.01 * M := (abs_sub _ _).trans (by linarith)
  obtain ⟨σ, a, b, ⟨-, σ1⟩, σ2, da, db, dir⟩ := start_ok (at2 := at2) h hom (size_mono (size_sub zx (size_mono hr.xv (by norm_num))) (by norm_num))
    (size_mono (size_sub zy (size_mono hr.yv (by norm_num))) (by norm_num))
  obtain ⟨at1, at4⟩ := at2_ok ha h00 a b
  obtain ⟨ψ, k1, n1, ψ1, ψ2, ψ3⟩ := norm02D_ok h (a := at2 b a) (by linarith [(abs_le.1 at4).1]) (by linarith [(abs_le.1 at4).2])
  obtain ⟨ρ, -, ρ1, ρ2, ρ3⟩ := dir_error v0 v1 ηM M0 X1 Y1 σ1 da db at1 ψ3
  obtain ⟨c1, s1, δ1, w1, w2, w3, w4, w5, w6⟩ := pair_ok h hl ψ1 ψ2
  obtain ⟨n, c', s', g1, g2, g3, g4, g5⟩ := unit_ok h w5 w6
  obtain ⟨f0, f, k2, f1, f2, f3, f4⟩ := fid_ok h t1 t2 ψ1 ψ2
  obtain ⟨fx, φ, k3, l1, l2, l3, l4⟩ := azimuth_ok h ψ1 ψ2
  obtain ⟨A, B, m1, m2, w, drp, dA, dB, pm1, pm2, pw, pdr, rad⟩ := distance_ok h zx zy (up hr.xv) (up hr.yv) z2 er (by linarith) ηM M0 X1 Y1 σ1 σ2 ρ1 ρ2 ρ3
    w3 g4 g5
  obtain ⟨za, zb, zp, zm, z', pz1, pz2, pz3, pz4, pz5, hz⟩ := height_ok h (up hr.rz) (up hr.zv) (up hr.z) (up hr.tl) z2 er (f3.trans q4.le)
  obtain ⟨N1, N2⟩ := turn_near h g4 g5 p5 p6 (k2 - k0)
  have eθ : ψ + δ1 - (ph + δ) + Real.pi / 2 + (k2 - k0 : ℤ) * (2 * Real.pi) - f = (δ1 - δ) + (-(f - (ψ - t + k2 * (2 * Real.pi))) +
      (t - (ph - Real.pi / 2 + k0 * (2 * Real.pi)))) := by
    push_cast
    ring
  obtain ⟨ε, hε⟩ : ∃ ε, ε = -(f - (ψ - t + k2 * (2 * Real.pi))) + (t - (ph - Real.pi / 2 + k0 * (2 * Real.pi))) := ⟨_, rfl⟩
  have ε1 : |ε| ≤ 48 * (1 / 2 ^ 53) := by
    rw [hε]
    refine (abs_add_le _ _).trans ?_
    rw [abs_neg]
    linarith
  rw [← hε] at eθ
  refine ⟨φ, -drp, z', f, _, _, _, ?_, N1, N2, f3, ?_, ?_, ?_⟩
  · rw [moveVals]
    simp only [hpR_get, V3.re, halfPiD_eq h, fin_neg, n0, Out.ok_bind, p1, p2, rr, rd, mx, my, ax, ay]
    rw [dir]
    simp only [n1, Out.ok_bind, w1, w2, g1, g2, g3, f1]
    rw [f2]
    simp only [dA, dB, pm1, pm2, pw, pdr, pz1, pz2, pz3, pz4, pz5]
    rw [fin_neg] at l1
    rw [l1, Out.ok_bind, l2, Out.ok_bind, neg_neg]
    rfl
  · rw [eθ]
    refine (abs_add_le _ _).trans ?_
    have := abs_sub δ1 δ
    have k : (1 : ℝ) / 2 ^ 22 + 1 / 2 ^ 21 + 48 * (1 / 2 ^ 53) ≤ 1 / 2 ^ 20 := by norm_num
    linarith
  · rw [eθ]
    have cφ : |Real.cos φ| ≤ |Real.sin ψ| + 20 * (1 / 2 ^ 53) := by
      have e1 := Real.abs_cos_sub_cos_le φ (ψ + Real.pi / 2 + k3 * (2 * Real.pi))
      rw [Real.cos_add_int_mul_two_pi, Real.cos_add_pi_div_two] at e1
      have := abs_near (e1.trans l4)
      rwa [abs_neg] at this
    have c2 := Real.abs_cos_le_one φ
    have c3 := Real.abs_cos_le_one ph
    have c4 := abs_nonneg (Real.cos φ)
    have c5 := abs_nonneg (Real.cos ph)
    have k1 : |δ1| * |Real.cos φ| ≤ 60 * (1 / 2 ^ 53) := by
      have a1 := mul_le_mul_of_nonneg_left cφ (abs_nonneg δ1)
      have a2 := mul_le_mul_of_nonneg_right (w3.trans (show (1 : ℝ) / 2 ^ 22 ≤ 1 by norm_num)) (show (0 : ℝ) ≤ 20 * (1 / 2 ^ 53) by positivity)
      linarith
    have k2 : |δ1 - δ + ε| ≤ |δ1| + |δ| + |ε| := (abs_add_le _ _).trans (add_le_add_left (abs_sub _ _) _)
    have k3 : |δ1 - δ + ε| * |Real.cos ph| * |Real.cos φ| ≤ (|δ1| + |δ| + |ε|) * |Real.cos ph| * |Real.cos φ| :=
      mul_le_mul_of_nonneg_right (mul_le_mul_of_nonneg_right k2 c5) c4
    have k4 : |δ1| * |Real.cos φ| * |Real.cos ph| ≤ 60 * (1 / 2 ^ 53) * 1 := mul_le_mul k1 c3 c5 (by positivity)
    have k5 : |δ| * |Real.cos ph| * |Real.cos φ| ≤ 100 / 2 ^ 53 * 1 := mul_le_mul δc c2 c4 (by positivity)
    have k6 : |ε| * |Real.cos ph| * |Real.cos φ| ≤ 48 * (1 / 2 ^ 53) * 1 * 1 :=
      mul_le_mul (mul_le_mul ε1 c3 c5 (by positivity)) c2 c4 (by positivity)
    rw [div_eq_mul_one_div] at k5 ⊢
    have e : (|δ1| + |δ| + |ε|) * |Real.cos ph| * |Real.cos φ| = |δ1| * |Real.cos φ| * |Real.cos ph| + |δ| * |Real.cos ph| * |Real.cos φ| +
      |ε| * |Real.cos ph| * |Real.cos φ| := by ring
    rw [e] at k3
    linarith
  · have k1 := abs_near rad
    rw [abs_mul, σ1, one_mul] at k1
    rw [sub_neg_eq_add, add_comm]
    have : (6 : ℝ) * 2 ^ 50 * 3 ≤ 2 ^ 70 := by norm_num
    linarith

end Rnd

/-- C154: with or without the covariance matrix the parameters and the angle are those of C137, and the new reference point is set.  Without
the flag the covariance matrix is not changed. -/
theorem C154_params (tp : TP) (ref : V3) (upd : Bool) (hp' : V5) (a : Dbl) (hm : moveParams fl lm at2 tp.hp tp.rp ref = .ok (hp', a)) :
    ∃ cov', Rnd.moveHelixTo fl lm at2 mm tp ref upd = .ok (⟨cov', hp', ref⟩, a) ∧ (upd = false → cov' = tp.cov) := by
  rw [moveParams_eq] at hm
  rw [Rnd.moveHelixTo]
  cases e : Rnd.moveVals fl lm at2 tp.hp tp.rp ref with
  | ok v =>
    rw [e] at hm
    simp only [Out.ok_bind] at hm ⊢
    injection hm with hm
    injection hm with h1 h2
    subst h1 h2
    cases upd
    · exact ⟨_, rfl, fun _ => rfl⟩
    · exact ⟨_, rfl, fun h => by cases h⟩
  | throw => rw [e] at hm; cases hm
  | ub => rw [e] at hm; cases hm
  | diverge => rw [e] at hm; cases hm

/-- C154 (partial): in double precision the covariance matrix of the moved track is `F C Fᵀ` within about 10^-13 of the magnitudes in the
calculation.  `F` is the matrix of C17 for the returned distance and angle, except that the sines and cosines are those of an angle `θ` that
differs from the returned angle by at most 2^-20, and by the order of 2^-53 for azimuths that are not next to ±π/2.  `K` is the ratio of the
radius of the helix and the distance of the new reference point from its axis.  Missing for C154: a symmetric matrix does not stay symmetric
(`C154_false`). -/
theorem C154_covariance_partial (h : NearestF 53 1074 fl) (hl : IsLibm lm) (ha : IsAtan2 at2) (h00 : |at2 0 0| ≤ 4) (hm : IsProduct fl mm)
    {om tl ph d z rx ry rz xv yv zv : ℝ} (hr : MoveRange om tl ph d z rx ry rz xv yv zv) (C : Matrix (Fin 5) (Fin 5) ℝ) (hC : ∀ i j, |C i j| ≤ 2 ^ 200) :
    ∃ (φ d' z' f θ : ℝ) (cov' : M5),
      Rnd.moveHelixTo fl lm at2 mm ⟨M5.re C, hpR om tl ph d z, V3.re rx ry rz⟩ (V3.re xv yv zv) true =
        .ok (⟨cov', hpR om tl φ d' z', V3.re xv yv zv⟩, fin f) ∧
      |f| ≤ mPi ∧ |θ - f| ≤ 1 / 2 ^ 20 ∧ |θ - f| * |Real.cos ph| * |Real.cos φ| ≤ 300 / 2 ^ 53 ∧
      ∀ K : ℝ, 1 ≤ K → K ≤ 2 ^ 20 → |1 / om| ≤ K * |1 / om - d'| → ∃ R : Matrix (Fin 5) (Fin 5) ℝ, cov' = M5.re R ∧
        ∀ i j, |R i j - (moveFR om tl 0 d θ d' f * C * (moveFR om tl 0 d θ d' f).transpose) i j| ≤
          (21 * K + 3000) / 2 ^ 53 * ∑ l, ∑ k, moveScale om tl d d' i k * |C k l| * moveScale om tl d d' j l + 1 / 2 ^ 800 := by
  obtain ⟨φ, d', z', f, θ, cs, sn, hv, Ac, As, hf, hθ, hθ2, far⟩ := Rnd.moveVals_ok h hl ha h00 hr
  refine ⟨φ, d', z', f, θ, mm (mm (Rnd.moveF fl ⟨divD fl 1 (fin om), addD fl (divD fl 1 (fin om)) (fin (-d)), fin om, fin tl, cs, sn, fin f, fin (-d'), fin z', fin φ⟩)
    (M5.re C)) (M5.transpose (Rnd.moveF fl ⟨divD fl 1 (fin om), addD fl (divD fl 1 (fin om)) (fin (-d)), fin om, fin tl, cs, sn, fin f, fin (-d'), fin z', fin φ⟩)),
    ?_, hf, hθ, hθ2, fun K K1 K2 hK => ?_⟩
  · rw [Rnd.moveHelixTo, hv, Out.ok_bind]
    simp only [fin_neg, neg_neg]
    rfl
  have cr : CovRange om tl d d' K := ⟨hr.om1, hr.om2, hr.tl, hr.d, K1, K2, hK, far⟩
  have f4 : |f| ≤ 4 := by
    obtain ⟨-, -, -, q4⟩ := mPi_bounds
    linarith
  obtain ⟨F', e1, e2⟩ := moveF_near h cr f4 Ac As (fin z') (fin φ)
  have ε0 : 0 ≤ (2 * K + 250) * ((1 : ℝ) / 2 ^ 53) := by positivity
  have ε1 : (2 * K + 250) * ((1 : ℝ) / 2 ^ 53) ≤ 1 / 1000 := by
    refine (mul_le_mul_of_nonneg_right (show 2 * K + 250 ≤ 2 * 2 ^ 20 + 250 by linarith) (by positivity)).trans ?_
    norm_num
  obtain ⟨R, r1, r2⟩ := sandwich_near h hm ε0 ε1 (fun i j => (e2 i j).2.1) (fun i j => (e2 i j).1) (fun i j => (e2 i j).2.2) hC
  refine ⟨R, ?_, fun i j => (r2 i j).trans (add_le_add_left ?_ _)⟩
  · rw [e1, r1]
  · refine mul_le_mul_of_nonneg_right ?_ (Finset.sum_nonneg fun l _ => Finset.sum_nonneg fun k _ => ?_)
    · rw [div_eq_mul_one_div]
      have : (0 : ℝ) ≤ 1 / 2 ^ 53 := by positivity
      have := mul_nonneg (show 0 ≤ K by linarith) this
      linarith
    · have s0 : ∀ i j, 0 ≤ moveScale om tl d d' i j := fun i j => by
        have := (abs_nonneg _).trans (e2 i j).2.1
        linarith
      exact mul_nonneg (mul_nonneg (s0 i k) (abs_nonneg _)) (s0 j l)

namespace Rnd

theorem fl_pi (h : NearestF 53 1074 fl) : fl Real.pi = mPi := by
  obtain ⟨-, p2, p3, p4⟩ := mPi_bounds
  refine h.cell (e := 1022) (by norm_num) repF_mPi ?_ ?_
  · rw [abs_of_pos (by linarith), show (2 : ℝ) ^ (53 + 1022) = 2 * 2 ^ 1074 by rw [← pow_succ']]
    exact mul_lt_mul_of_pos_right (by linarith) (by positivity)
  · rw [abs_of_pos (by linarith), show (2 : ℝ) ^ 1074 = 2 ^ 52 * 2 ^ 1022 by rw [← pow_add], ← mul_assoc]
    refine mul_lt_of_lt_one_left (by positivity) ?_
    have := Real.pi_lt_d20
    unfold mPi
    norm_num at *
    linarith

theorem cos_mPi (h : NearestF 53 1074 fl) : fl (Real.cos mPi) = -1 := by
  obtain ⟨p1, -, -, -⟩ := mPi_bounds
  have c1 := Real.one_sub_sq_div_two_le_cos (x := mPi - Real.pi)
  rw [Real.cos_sub_pi] at c1
  have c2 := Real.neg_one_le_cos mPi
  have c3 : (mPi - Real.pi) ^ 2 ≤ 1 / 2 ^ 100 := by
    have := pow_le_pow_left₀ (abs_nonneg _) p1 2
    rw [sq_abs] at this
    refine this.trans ?_
    norm_num
  generalize Real.cos mPi = c at *
  refine h.cell (e := 1020) (by norm_num) (repF_neg repF_one) ?_ ?_
  · rw [abs_neg, abs_one, one_mul]
    exact pow_lt_pow_right₀ (by norm_num) (by norm_num)
  · have : |c - -1| ≤ 1 / 2 ^ 55 := by
      rw [abs_le]
      norm_num at *
      constructor <;> linarith
    refine lt_of_le_of_lt (mul_le_mul_of_nonneg_right this (by positivity)) ?_
    rw [one_div_mul_eq_div, div_lt_iff₀ (by positivity), ← pow_add]
    exact pow_lt_pow_right₀ (by norm_num) (by norm_num)

/-- the matrix of the half turn below -/
def halfTurnF : Matrix (Fin 5) (Fin 5) ℝ :=
  !![1, 0, 0, 0, 0; 0, 1, 0, 0, 0; 0, 0, -5, 0, 0; 2, 0, 0, -1, 0; 3 / 2 * mPi, -mPi, 9, 0, 1]

theorem half_turn (h : NearestF 53 1074 fl) (hc : CorrectLib fl lm at2) :
    ∃ v, moveVals fl lm at2 (hpR 1 (3 / 2) (mPi / 2) (-4) 0) (V3.re 0 0 0) (V3.re 6 0 0) = .ok v ∧ moveF fl v = M5.re halfTurnF := by
  obtain ⟨-, -, q3, q4⟩ := mPi_bounds
  have big : ∀ {t : ℝ}, |t| ≤ 100 → |t| ≤ 2 ^ 1000 := fun ht => ht.trans (by
    calc (100 : ℝ) ≤ 2 ^ 7 := by norm_num
      _ ≤ _ := pow_le_pow_right₀ (by norm_num) (by norm_num))
  have E : ∀ {t : ℝ} (m : ℤ) (k : ℕ), k ≤ 1074 → |m| ≤ 2 ^ 53 → t * 2 ^ k = m → |t| ≤ 100 → rnd fl 1024 (fin t) = fin t := fun m k hk hm e ht =>
    rnd_exact h (rep_dyadic m k hk hm e) (big ht)
  have e0 : rnd fl 1024 (fin 0) = fin 0 := rnd_zero h
  have e1 : rnd fl 1024 (fin 1) = fin 1 := E 1 0 (by norm_num) (by norm_num) (by norm_num) (by norm_num)
  have e1' : rnd fl 1024 (fin (-1)) = fin (-1) := E (-1) 0 (by norm_num) (by norm_num) (by norm_num) (by norm_num)
  have e2 : rnd fl 1024 (fin 2) = fin 2 := E 2 0 (by norm_num) (by norm_num) (by norm_num) (by norm_num)
  have e5 : rnd fl 1024 (fin 5) = fin 5 := E 5 0 (by norm_num) (by norm_num) (by norm_num) (by norm_num)
  have e5' : rnd fl 1024 (fin (-5)) = fin (-5) := E (-5) 0 (by norm_num) (by norm_num) (by norm_num) (by norm_num)
  have e6 : rnd fl 1024 (fin 6) = fin 6 := E 6 0 (by norm_num) (by norm_num) (by norm_num) (by norm_num)
  have e9 : rnd fl 1024 (fin 9) = fin 9 := E 9 0 (by norm_num) (by norm_num) (by norm_num) (by norm_num)
  have e3 : rnd fl 1024 (fin (3 / 2)) = fin (3 / 2) := E 3 1 (by norm_num) (by norm_num) (by norm_num) (by norm_num)
  have ep : rnd fl 1024 (fin mPi) = fin mPi := rnd_exact h repF_mPi (big (by rw [abs_of_pos (by linarith)]; linarith))
  have ep' : rnd fl 1024 (fin (-mPi)) = fin (-mPi) := rnd_exact h (repF_neg repF_mPi) (big (by rw [abs_neg, abs_of_pos (by linarith)]; linarith))
  have r3 : RepF 53 1074 (3 / 2 * mPi) := rep_dyadic (3 * 884279719003555) 49 (by norm_num) (by norm_num) (by unfold mPi; norm_num)
  have e3p : rnd fl 1024 (fin (3 / 2 * mPi)) = fin (3 / 2 * mPi) := rnd_exact h r3 (big (by rw [abs_of_pos (by linarith)]; linarith))
  have e3p' : rnd fl 1024 (fin (-(3 / 2 * mPi))) = fin (-(3 / 2 * mPi)) :=
    rnd_exact h (repF_neg r3) (big (by rw [abs_neg, abs_of_pos (by linarith)]; linarith))
  have ehm : rnd fl 1024 (fin (-(mPi / 2))) = fin (-(mPi / 2)) :=
    rnd_exact h (repF_neg repF_halfPi) (big (by rw [abs_neg, abs_of_pos (by linarith)]; linarith))
  have nz : norm02D fl (fin 0) = .ok (fin 0) := by
    rw [norm02D, loop_skip (cond := fun x : Dbl => x < 0) (by rw [zero_eq, fin_lt]; norm_num)]
    exact loop_skip (cond := fun x : Dbl => twoPiD fl < x) (by rw [twoPiD_eq h, fin_lt]; linarith)
  have np : norm02D fl (fin mPi) = .ok (fin mPi) := by
    rw [norm02D, loop_skip (cond := fun x : Dbl => x < 0) (by rw [zero_eq, fin_lt]; linarith)]
    exact loop_skip (cond := fun x : Dbl => twoPiD fl < x) (by rw [twoPiD_eq h, fin_lt]; linarith)
  have f0 : subD fl (fin (mPi / 2)) (fin (mPi / 2)) = fin 0 := by rw [subD, fin_sub, sub_self, e0]
  have cz : cosD lm (fin 0) = fin 1 := by rw [cosD, hc.cos, Real.cos_zero, h.fix repF_one]
  have cp : cosD lm (fin mPi) = fin (-1) := by rw [cosD, hc.cos, cos_mPi h]
  have sz : sineD fl (fin 0) (fin 1) = fin 0 := by
    rw [sineD]
    simp only [subD, addD, mulD, one_eq, zero_eq, fin_sub, fin_add]
    rw [sub_self, e0, show (1 : ℝ) + 1 = 2 by norm_num, e2, fin_mul, zero_mul, e0, max_fin, max_self, sqrtD, sqrt_fin le_rfl, Real.sqrt_zero, e0,
      cif_neg (by rw [fin_lt]; linarith)]
  have sp : sineD fl (fin mPi) (fin (-1)) = fin 0 := by
    rw [sineD]
    simp only [subD, addD, mulD, one_eq, zero_eq, fin_sub, fin_add]
    rw [show (1 : ℝ) - -1 = 2 by norm_num, e2, show (1 : ℝ) + -1 = 0 by norm_num, e0, fin_mul, mul_zero, e0, max_fin, max_self, sqrtD, sqrt_fin le_rfl,
      Real.sqrt_zero, e0, cif_neg (by rw [fin_lt]; exact lt_irrefl _)]
  have at0 : atan2D fl at2 (fin 0) (fin (-1)) = fin mPi := by
    have : ratan2 0 (-1) = Real.pi := by
      have := ratan2_polar (r := 1) (θ := Real.pi) (by positivity) (by linarith [Real.pi_pos]) le_rfl
      rwa [Real.sin_pi, Real.cos_pi, mul_zero, one_mul] at this
    rw [atan2D, hc.atan2, this, fl_pi h]
  have one1 : divD fl 1 (fin 1) = fin 1 := by rw [divD, one_eq, fin_div _ one_ne_zero, div_one, e1]
  have sq : divD fl 1 (sqrtD fl (fin 1)) = fin 1 := by
    rw [sqrtD, sqrt_fin zero_le_one, Real.sqrt_one, e1, one1]
  have dir : (ifc fin 1 < 0 then atan2D fl at2 (subD fl (fin 0) (fin 0)) (subD fl (fin 6) (fin 5)) else
      (ifc 0 < fin 1 then atan2D fl at2 (subD fl (fin 0) (fin 0)) (subD fl (fin 5) (fin 6)) else 0)) = fin mPi := by
    rw [cif_neg (by rw [zero_eq, fin_lt]; norm_num), cif_pos (by rw [zero_eq, fin_lt]; norm_num)]
    simp only [subD, fin_sub]
    rw [sub_zero, e0, show (5 : ℝ) - 6 = -1 by norm_num, e1', at0]
  have a1 : addD fl (fin 1) (fin 4) = fin 5 := by rw [addD, fin_add, show (1 : ℝ) + 4 = 5 by norm_num, e5]
  have a2 : mulD fl (fin 5) (fin 1) = fin 5 := by rw [mulD, fin_mul, mul_one, e5]
  have a3 : mulD fl (fin 5) (fin 0) = fin 0 := by rw [mulD, fin_mul, mul_zero, e0]
  have a4 : addD fl (fin 0) (fin 5) = fin 5 := by rw [addD, fin_add, zero_add, e5]
  have a5 : addD fl (fin 0) (fin 0) = fin 0 := by rw [addD, fin_add, zero_add, e0]
  have a6 : mulD fl (fin (-1)) (fin (-1)) = fin 1 := by rw [mulD, fin_mul, show (-1 : ℝ) * -1 = 1 by norm_num, e1]
  have a7 : mulD fl (fin 0) (fin 0) = fin 0 := by rw [mulD, fin_mul, mul_zero, e0]
  have a8 : addD fl (fin 1) (fin 0) = fin 1 := by rw [addD, fin_add, add_zero, e1]
  have a9 : mulD fl (fin (-1)) (fin 1) = fin (-1) := by rw [mulD, fin_mul, mul_one, e1']
  have b1 : mulD fl (fin 0) (fin 1) = fin 0 := by rw [mulD, fin_mul, zero_mul, e0]
  have b2 : addD fl (fin (-1)) (fin 0) = fin (-1) := by rw [addD, fin_add, add_zero, e1']
  have b3 : mulD fl (fin (-1)) (fin 0) = fin 0 := by rw [mulD, fin_mul, mul_zero, e0]
  have b4 : subD fl (fin 0) (fin 0) = fin 0 := by rw [subD, fin_sub, sub_zero, e0]
  have b5 : subD fl (fin mPi) (fin 0) = fin mPi := by rw [subD, fin_sub, sub_zero, ep]
  have b6 : (ifc fin mPi < fin mPi then subD fl (fin mPi) (twoPiD fl) else fin mPi) = fin mPi := by
    rw [cif_neg (by rw [fin_lt]; exact lt_irrefl _)]
  have b7 : subD fl (fin 5) (fin 6) = fin (-1) := by rw [subD, fin_sub, show (5 : ℝ) - 6 = -1 by norm_num, e1']
  have b8 : subD fl (fin 1) (fin 1) = fin 0 := by rw [subD, fin_sub, sub_self, e0]
  have b9 : mulD fl (fin 1) (fin (3 / 2)) = fin (3 / 2) := by rw [mulD, fin_mul, one_mul, e3]
  have c1 : mulD fl (fin (3 / 2)) (fin mPi) = fin (3 / 2 * mPi) := by rw [mulD, fin_mul, e3p]
  have c2 : subD fl (fin 0) (fin (3 / 2 * mPi)) = fin (-(3 / 2 * mPi)) := by rw [subD, fin_sub, zero_sub, e3p']
  have c3 : addD fl (fin mPi) (fin (mPi / 2)) = fin (3 / 2 * mPi) := by rw [addD, fin_add, show mPi + mPi / 2 = 3 / 2 * mPi by ring, e3p]
  have l1 : whileLoop (fun a : Dbl => a < fin (-mPi)) (fun a => addD fl a (twoPiD fl)) (fin (3 / 2 * mPi)) = .ok (fin (3 / 2 * mPi)) :=
    loop_skip (by rw [fin_lt]; linarith)
  have l2 : whileLoop (fun a : Dbl => fin mPi < a) (fun a => subD fl a (twoPiD fl)) (fin (3 / 2 * mPi)) = .ok (fin (-(mPi / 2))) :=
    loop_once (cond := fun a : Dbl => fin mPi < a) (by rw [fin_lt]; linarith)
      (by rw [subD, twoPiD_eq h, fin_sub, show 3 / 2 * mPi - 2 * mPi = -(mPi / 2) by ring, ehm]) (by rw [fin_lt]; linarith)
  refine ⟨⟨fin 1, fin 5, fin 1, fin (3 / 2), fin (-1), fin 0, fin mPi, fin 0, fin (-(3 / 2 * mPi)), fin (-(mPi / 2))⟩, ?_, ?_⟩
  · rw [moveVals]
    simp only [hpR_get, V3.re, halfPiD_eq h, f0, nz, Out.ok_bind, cz, sz, one1, fin_neg, neg_neg, a1, a2, a3, a4, a5]
    rw [dir]
    simp only [np, Out.ok_bind, cp, sp, a6, a7, a8, sq, a9, b1, b2, b3, b4, b5, b7, b8, b9, a5, c3, zero_eq]
    rw [b6, c1, c2, l1, Out.ok_bind, l2, Out.ok_bind]
    rfl
  · have d1 : subD fl (fin 1) (fin (-1)) = fin 2 := by rw [subD, fin_sub, show (1 : ℝ) - -1 = 2 by norm_num, e2]
    have d2 : mulD fl (fin 1) (fin 2) = fin 2 := by rw [mulD, fin_mul, one_mul, e2]
    have d3 : mulD fl (fin 1) (fin 1) = fin 1 := by rw [mulD, fin_mul, one_mul, e1]
    have d4 : mulD fl (fin 1) (fin 0) = fin 0 := by rw [mulD, fin_mul, mul_zero, e0]
    have d5 : mulD fl (fin 5) (fin (-1)) = fin (-5) := by rw [mulD, fin_mul, show (5 : ℝ) * -1 = -5 by norm_num, e5']
    have d6 : subD fl (fin 1) (fin (-5)) = fin 6 := by rw [subD, fin_sub, show (1 : ℝ) - -5 = 6 by norm_num, e6]
    have d7 : mulD fl (fin (3 / 2)) (fin 6) = fin 9 := by rw [mulD, fin_mul, show (3 / 2 : ℝ) * 6 = 9 by norm_num, e9]
    have d8 : mulD fl (fin (-1)) (fin mPi) = fin (-mPi) := by rw [mulD, fin_mul, neg_one_mul, ep']
    have d9 : mulD fl (fin (3 / 2)) (fin 0) = fin 0 := by rw [mulD, fin_mul, mul_zero, e0]
    rw [moveF]
    simp only [a8, one1, fin_neg]
    rw [one_eq] at one1
    simp only [one_eq, one1, d1, d2, d3, d4, a2, d5, a3, b3, b5, b9, d6, d7, c1, d8, d9, zero_eq]
    funext i j
    fin_cases i <;> fin_cases j <;> rfl

/-- a sum with one term that is not zero -/
theorem product_only (h : NearestF 53 1074 fl) (hm : IsProduct fl mm) {a b : M5} {i j : Fin 5} (k : Fin 5)
    (hz : ∀ l, l ≠ k → mulD fl (a i l) (b l j) = fin 0) {x : ℝ} (hx : mulD fl (a i k) (b k j) = fin x) : mm a b i j = fin x := by
  have hs := hm a b i j
  by_cases x0 : x = 0
  · subst x0
    refine sum_zero h hs ?_
    intro y hy
    obtain ⟨l, -, rfl⟩ := List.mem_map.1 hy
    by_cases hl : l = k
    · rw [hl, hx]
    · exact hz l hl
  · have hf := rnd_fin_fix h (show rnd fl 1024 (a i k * b k j) = fin x from hx)
    have := sum_single h hf x0 hs ?_ ?_
    · rw [this, if_pos]
      exact List.mem_map.2 ⟨k, List.mem_finRange k, hx⟩
    · intro y hy
      obtain ⟨l, -, rfl⟩ := List.mem_map.1 hy
      by_cases hl : l = k
      · exact Or.inr (by rw [hl, hx])
      · exact Or.inl (hz l hl)
    · rw [List.count, List.countP_map]
      refine (List.countP_mono_left (q := fun l => l == k) ?_).trans ?_
      · intro l _ hl
        simp only [Function.comp, beq_iff_eq] at hl ⊢
        by_contra hne
        rw [hz l hne] at hl
        injection hl with hl
        exact x0 hl.symm
      · exact List.nodup_iff_count_le_one.1 (List.nodup_finRange 5) k

end Rnd

/-- C154: with correctly rounded library functions, half a turn of the track with curvature 1 whose covariance matrix has the single entry
`2^52 + 11` for the azimuth gives a matrix that is not symmetric -/
theorem C154_asymmetric (h : NearestF 53 1074 fl) (hc : CorrectLib fl lm at2) (hm : IsProduct fl mm) :
    ∃ cov' hp' a, Rnd.moveHelixTo fl lm at2 mm ⟨M5.re (Matrix.diagonal ![0, 0, 2 ^ 52 + 11, 0, 0]), hpR 1 (3 / 2) (mPi / 2) (-4) 0, V3.re 0 0 0⟩ (V3.re 6 0 0)
      true = .ok (⟨cov', hp', V3.re 6 0 0⟩, a) ∧ cov' 2 4 = fin (-(45 * 2 ^ 52 + 512)) ∧ cov' 4 2 = fin (-(45 * 2 ^ 52 + 480)) := by
  obtain ⟨v, h1, h2⟩ := half_turn (at2 := at2) h hc
  refine ⟨_, _, _, by rw [Rnd.moveHelixTo, h1]; rfl, ?_, ?_⟩
  all_goals
    show mm (mm (Rnd.moveF fl v) _) (M5.transpose (Rnd.moveF fl v)) _ _ = _
    rw [h2]
    have D : ∀ k l : Fin 5, M5.re (Matrix.diagonal ![0, 0, 2 ^ 52 + 11, 0, 0]) k l = fin (if k = l then if l = 2 then 2 ^ 52 + 11 else 0 else 0) := by
      intro k l
      fin_cases k <;> fin_cases l <;> simp [M5.re, Matrix.diagonal]
    have Z : ∀ x : ℝ, mulD fl (fin x) (fin 0) = fin 0 := fun x => by rw [mulD, fin_mul, mul_zero, rnd_zero h]
    have Z' : ∀ x : ℝ, mulD fl (fin 0) (fin x) = fin 0 := fun x => by rw [mulD, fin_mul, zero_mul, rnd_zero h]
    have P0 : ∀ i l : Fin 5, l ≠ 2 → mm (M5.re halfTurnF) (M5.re (Matrix.diagonal ![0, 0, 2 ^ 52 + 11, 0, 0])) i l = fin 0 := by
      intro i l hl
      refine product_only h hm 0 (fun k _ => ?_) ?_
      · rw [D, if_neg hl, ite_self]
        exact Z _
      · rw [D, if_neg hl, ite_self]
        exact Z _
  · have P2 : mm (M5.re halfTurnF) (M5.re (Matrix.diagonal ![0, 0, 2 ^ 52 + 11, 0, 0])) 2 2 = fin (-(5 * 2 ^ 52 + 56)) := by
      refine product_only h hm 2 (fun k hk => ?_) ?_
      · rw [D, if_neg hk]
        exact Z _
      · rw [D, if_pos rfl, if_pos rfl, show M5.re halfTurnF 2 2 = fin (-5) from rfl, mulD, fin_mul]
        exact rnd_next h (-(5 * 2 ^ 50 + 14)) 2 54 (by norm_num) (by norm_num) (by norm_num) (by norm_num) (by norm_num)
    refine product_only h hm 2 (fun k hk => ?_) ?_
    · rw [P0 2 k hk]
      exact Z' _
    · rw [P2, show M5.transpose (M5.re halfTurnF) 2 4 = fin 9 from rfl, mulD, fin_mul]
      exact rnd_next h (-(45 * 2 ^ 47 + 16)) 5 57 (by norm_num) (by norm_num) (by norm_num) (by norm_num) (by norm_num)
  · have P2 : mm (M5.re halfTurnF) (M5.re (Matrix.diagonal ![0, 0, 2 ^ 52 + 11, 0, 0])) 4 2 = fin (9 * 2 ^ 52 + 96) := by
      refine product_only h hm 2 (fun k hk => ?_) ?_
      · rw [D, if_neg hk]
        exact Z _
      · rw [D, if_pos rfl, if_pos rfl, show M5.re halfTurnF 4 2 = fin 9 from rfl, mulD, fin_mul]
        exact rnd_next h (9 * 2 ^ 49 + 12) 3 55 (by norm_num) (by norm_num) (by norm_num) (by norm_num) (by norm_num)
    refine product_only h hm 2 (fun k hk => ?_) ?_
    · rw [P0 4 k hk]
      exact Z' _
    · rw [P2, show M5.transpose (M5.re halfTurnF) 2 2 = fin (-5) from rfl, mulD, fin_mul]
      exact rnd_next h (-(45 * 2 ^ 47 + 15)) 5 57 (by norm_num) (by norm_num) (by norm_num) (by norm_num) (by norm_num)

/-- the claim: a symmetric covariance matrix stays symmetric -/
def C154_claim (fl : ℝ → ℝ) (lm : Libm) (at2 : ℝ → ℝ → ℝ) (mm : M5 → M5 → M5) : Prop :=
  ∀ (om tl ph d z rx ry rz xv yv zv : ℝ) (C : Matrix (Fin 5) (Fin 5) ℝ), MoveRange om tl ph d z rx ry rz xv yv zv →
    (∀ x ∈ [om, tl, ph, d, z, rx, ry, rz, xv, yv, zv], RepF 53 1074 x) → (∀ i j, RepF 53 1074 (C i j)) → (∀ i j, |C i j| ≤ 2 ^ 200) →
    C.transpose = C → ∀ cov' hp' rp' a,
      Rnd.moveHelixTo fl lm at2 mm ⟨M5.re C, hpR om tl ph d z, V3.re rx ry rz⟩ (V3.re xv yv zv) true = .ok (⟨cov', hp', rp'⟩, a) →
        ∀ i j, cov' i j = cov' j i

/-- C154 fails: the track of `C154_asymmetric` -/
theorem C154_false (h : NearestF 53 1074 fl) (hc : CorrectLib fl lm at2) (hm : IsProduct fl mm) : ¬ C154_claim fl lm at2 mm := by
  intro hcl
  obtain ⟨-, -, q3, q4⟩ := mPi_bounds
  obtain ⟨cov', hp', a, e, e1, e2⟩ := C154_asymmetric (at2 := at2) h hc hm
  have hr : MoveRange 1 (3 / 2) (mPi / 2) (-4) 0 0 0 0 6 0 0 := by
    refine ⟨?_, ?_, ?_, ?_, ?_, ?_, ?_, ?_, ?_, ?_, ?_, ?_⟩ <;> norm_num
    rw [abs_of_pos (by linarith)]
    linarith
  have big : RepF 53 1074 ((2 : ℝ) ^ 52 + 11) := rep_big (2 ^ 52 + 11) 0 (by norm_num) (by norm_num)
  have rp : ∀ x ∈ [(1 : ℝ), 3 / 2, mPi / 2, -4, 0, 0, 0, 0, 6, 0, 0], RepF 53 1074 x := by
    have i : ∀ (m : ℤ) {x : ℝ}, |m| ≤ 2 ^ 53 → x = m → RepF 53 1074 x := fun m x hm hx => rep_big m 0 hm (by rw [hx, pow_zero, mul_one])
    intro x hx
    simp only [List.mem_cons, List.not_mem_nil, or_false] at hx
    rcases hx with rfl | rfl | rfl | rfl | rfl | rfl | rfl | rfl | rfl | rfl | rfl
    · exact repF_one
    · exact rep_dyadic 3 1 (by norm_num) (by norm_num) (by norm_num)
    · exact repF_halfPi
    · exact i (-4) (by norm_num) (by norm_num)
    · exact repF_zero
    · exact repF_zero
    · exact repF_zero
    · exact repF_zero
    · exact i 6 (by norm_num) (by norm_num)
    · exact repF_zero
    · exact repF_zero
  have en : ∀ i j : Fin 5, Matrix.diagonal ![(0 : ℝ), 0, 2 ^ 52 + 11, 0, 0] i j = 0 ∨ Matrix.diagonal ![(0 : ℝ), 0, 2 ^ 52 + 11, 0, 0] i j = 2 ^ 52 + 11 := by
    intro i j
    fin_cases i <;> fin_cases j <;> simp [Matrix.diagonal]
  have := hcl _ _ _ _ _ _ _ _ _ _ _ (Matrix.diagonal ![0, 0, 2 ^ 52 + 11, 0, 0]) hr rp (fun i j => by
    rcases en i j with h | h <;> rw [h]
    · exact repF_zero
    · exact big) (fun i j => by
    rcases en i j with h | h <;> rw [h] <;> norm_num) (Matrix.diagonal_transpose _) cov' hp' _ a e 2 4
  rw [e1, e2] at this
  injection this with this
  norm_num at this

/-- the hypotheses of `C154_covariance_partial` are met by the track of `C154_asymmetric`, with `K = 1` -/
example : MoveRange 1 (3 / 2) (mPi / 2) (-4) 0 0 0 0 6 0 0 ∧ |(1 : ℝ) / 1| ≤ 1 * |1 / 1 - 0| := by
  obtain ⟨-, -, q3, q4⟩ := mPi_bounds
  refine ⟨⟨?_, ?_, ?_, ?_, ?_, ?_, ?_, ?_, ?_, ?_, ?_, ?_⟩, by norm_num⟩ <;> norm_num
  rw [abs_of_pos (by linarith)]
  linarith

end Verif
