import Verif.Lemmas.MoveDeriv
import Verif.Lemmas.Containers
import Verif.Props.MoveHelix
import Mathlib.Tactic.NoncommRing

/-!
# C17: covariance transport of `moveHelixTo`
-/

noncomputable section

namespace Verif

open Dbl Filter Topology Matrix

/-- C17, first part: without `updateCovMat` the covariance is untouched, whatever the parameters. -/
theorem C17_no_update (tp : TP) (ref : V3) (tp' : TP) (a : Dbl)
    (h : moveHelixTo tp ref false = .ok (tp', a)) : tp'.cov = tp.cov := by
  unfold moveHelixTo at h
  rw [Out.bind_eq_ok] at h
  obtain ⟨v, -, h⟩ := h
  simp only [Bool.false_eq_true, if_false, Out.pure_eq, Out.ok.injEq, Prod.mk.injEq] at h
  rw [← h.1]

/-- the sign change of d0 -/
def flipD0 : Matrix (Fin 5) (Fin 5) ℝ := Matrix.diagonal ![1, 1, 1, -1, 1]

/-- the real matrix `F` of `moveHelixTo` -/
def moveFR (om tl ph d fn dn fd : ℝ) : Matrix (Fin 5) (Fin 5) ℝ :=
  !![1, 0, 0, 0, 0;
     0, 1, 0, 0, 0;
     1 / om / om * (1 / (1 / om - dn)) * Real.sin (fn - ph), 0,
       (1 / om - d) * (1 / (1 / om - dn)) * Real.cos (fn - ph),
       -(1 / (1 / om - dn)) * Real.sin (fn - ph), 0;
     1 / om / om * (1 - Real.cos (fn - ph)), 0, (1 / om - d) * Real.sin (fn - ph), Real.cos (fn - ph), 0;
     1 / om / om * tl * (fd - 1 / om * (1 / (1 / om - dn)) * Real.sin (fn - ph)), -(1 / om) * fd,
       1 / om * tl * (1 - (1 / om - d) * (1 / (1 / om - dn)) * Real.cos (fn - ph)),
       1 / om * (1 / (1 / om - dn)) * tl * Real.sin (fn - ph), 1]

theorem moveF_re {om tl ph d fn dn fd z' : ℝ} (h : om ≠ 0) (hdn : om * dn < 1) :
    moveF ⟨fin (1 / om), fin (1 / om - d), fin om, fin tl, fin (Real.cos (fn - ph)),
        fin (Real.sin (fn - ph)), fin fd, fin (-dn), fin z', fin fn⟩ =
      M5.re (moveFR om tl ph d fn dn fd) := by
  have hne : 1 / om - dn ≠ 0 := by
    intro hc
    have : om * (1 / om - dn) = 1 - om * dn := by field_simp
    rw [hc] at this; linarith
  have e1 : (1 : Dbl) / (fin (1 / om) + fin (-dn)) = fin (1 / (1 / om - dn)) := by
    rw [fin_add, ← sub_eq_add_neg, one_eq, fin_div _ hne]
  have e2 : fin (1 / om) / fin om = fin (1 / om / om) := fin_div _ h
  unfold moveF
  simp only [e1, e2]
  simp only [one_eq, zero_eq, fin_mul, fin_neg, fin_sub]
  funext i j
  fin_cases i <;> fin_cases j <;> rfl

/-- everything the rest of this file needs about one move with covariance update -/
theorem move_cov {om tl ph d z rx ry rz vx vy : ℝ} (vz : ℝ) (h : om ≠ 0)
    (hoff : OffAxis (hpR om tl ph d z) (V3.re rx ry rz) vx vy) :
    ∃ (fn dn fd : ℝ),
      ((∃ k : ℤ, fd = fn - ph + k * (2 * Real.pi)) ∧ -Real.pi < fd ∧ fd ≤ Real.pi ∧ -Real.pi < fn ∧
      fn ≤ Real.pi ∧ om * dn < 1 ∧ rCx om fn dn vx = rCx om ph d rx ∧
      rCy om fn dn vy = rCy om ph d ry) ∧
      ∀ (C : Matrix (Fin 5) (Fin 5) ℝ) (upd : Bool),
        moveHelixTo ⟨M5.re C, hpR om tl ph d z, V3.re rx ry rz⟩ (V3.re vx vy vz) upd =
        .ok (⟨if upd then M5.re (moveFR om tl ph d fn dn fd * C * (moveFR om tl ph d fn dn fd)ᵀ)
          else M5.re C,
          hpR om tl fn dn (rz - vz + z - 1 / om * tl * fd), V3.re vx vy vz⟩, fin fd) := by
  obtain ⟨fn, dn, fd, k, e1, b1, b2, b3, b4, hcx, hcy, hR, hv⟩ :=
    move_re M5.zero tl ph d z rx ry rz vx vy vz h
  obtain ⟨_cov', fn', dn', fd', k', e1', b1', b2', b3', b4', hdn', hcx', hcy', hm'⟩ :=
    move_off (cov := M5.zero) (upd := false) (vz := vz) h hoff
  have hm := moveHelixTo_of_vals false hv
  rw [hm'] at hm
  simp only [Out.ok.injEq, Prod.mk.injEq, TP.mk.injEq, fin_inj] at hm
  have hdd : dn' = dn := by
    have := congrFun hm.1.2.1 D0
    exact (fin_inj _ _).mp this
  rw [hdd] at hdn'
  refine ⟨fn, dn, fd, ⟨⟨k, e1⟩, b1, b2, b3, b4, hdn', hcx, hcy⟩, fun C upd => ?_⟩
  have hv' : moveVals ⟨M5.re C, hpR om tl ph d z, V3.re rx ry rz⟩ (V3.re vx vy vz) = _ := hv
  rw [moveHelixTo_of_vals upd hv', moveF_re h hdn']
  simp only [M5.mul_re, M5.transpose_re]

/-- C17: positive semidefinite, for a real 5x5 matrix -/
def PSD (C : Matrix (Fin 5) (Fin 5) ℝ) : Prop := ∀ x : Fin 5 → ℝ, 0 ≤ x ⬝ᵥ (C *ᵥ x)

/-- C17: a symmetric covariance stays symmetric and a positive semidefinite one stays positive
semidefinite. -/
theorem C17_symm_psd (C : Matrix (Fin 5) (Fin 5) ℝ) (om tl ph d z rx ry rz vx vy vz : ℝ) (h : om ≠ 0)
    (hoff : OffAxis (hpR om tl ph d z) (V3.re rx ry rz) vx vy) :
    ∃ (tp' : TP) (a : Dbl) (C' : Matrix (Fin 5) (Fin 5) ℝ),
      moveHelixTo ⟨M5.re C, hpR om tl ph d z, V3.re rx ry rz⟩ (V3.re vx vy vz) true = .ok (tp', a) ∧
      tp'.cov = M5.re C' ∧ (Cᵀ = C → C'ᵀ = C') ∧ (PSD C → PSD C') := by
  obtain ⟨fn, dn, fd, -, hm⟩ := move_cov vz h hoff
  refine ⟨_, _, _, hm C true, rfl, fun hs => ?_, fun hp x => ?_⟩
  · rw [Matrix.transpose_mul, Matrix.transpose_mul, Matrix.transpose_transpose, hs, Matrix.mul_assoc]
  · have := hp ((moveFR om tl ph d fn dn fd)ᵀ *ᵥ x)
    rw [← Matrix.mulVec_mulVec, ← Matrix.mulVec_mulVec]
    rw [Matrix.dotProduct_mulVec, ← Matrix.mulVec_transpose]
    exact this

/-- `J` is the derivative, at the parameters `p₀`, of the new parameters as a function of the old
ones: along every differentiable curve of parameters through `p₀` the parameters returned by
`moveHelixTo` have the velocity `J * velocity`. -/
def IsMoveJacobian (p₀ : Fin 5 → ℝ) (rp v : V3) (J : Matrix (Fin 5) (Fin 5) ℝ) : Prop :=
  ∀ (p q : ℝ → Fin 5 → ℝ) (p' : Fin 5 → ℝ), p 0 = p₀ → HasDerivAt p p' 0 →
    (∀ᶠ t in 𝓝 (0 : ℝ), ∃ a, moveHelixTo (TP.ofHelix (V5.re (p t)) rp) v false =
      .ok (TP.ofHelix (V5.re (q t)) v, a)) →
    HasDerivAt q (J *ᵥ p') 0

/-- C17 (partial): the covariance is replaced by `F C Fᵀ` where `S F S` is the derivative of the new
parameters with respect to the old ones, `S` being the sign change of d0.  (Away from the cut of the
azimuth at ±π and from half-turn moves, where the derivative does not exist.)  Missing for C17: `F`
itself should be the derivative. -/
theorem C17_jacobian_partial (om tl ph d z rx ry rz vx vy vz : ℝ) (h : om ≠ 0)
    (hoff : OffAxis (hpR om tl ph d z) (V3.re rx ry rz) vx vy) (tp' : TP) (a : ℝ)
    (hm : moveHelixTo (TP.ofHelix (hpR om tl ph d z) (V3.re rx ry rz)) (V3.re vx vy vz) false =
      .ok (tp', fin a))
    (ha : a ≠ Real.pi) (hphi : tp'.hp PHI0 ≠ fin Real.pi) :
    ∃ F : Matrix (Fin 5) (Fin 5) ℝ,
      (∀ C : Matrix (Fin 5) (Fin 5) ℝ, ∃ tp'' b,
        moveHelixTo ⟨M5.re C, hpR om tl ph d z, V3.re rx ry rz⟩ (V3.re vx vy vz) true = .ok (tp'', b) ∧
        tp''.cov = M5.re (F * C * Fᵀ)) ∧
      IsMoveJacobian ![om, tl, ph, d, z] (V3.re rx ry rz) (V3.re vx vy vz) (flipD0 * F * flipD0) := by
  obtain ⟨fn, dn, fd, hfacts, hmv⟩ := move_cov vz h hoff
  have hz0 : (M5.re (0 : Matrix (Fin 5) (Fin 5) ℝ)) = M5.zero := by
    funext i j; simp [M5.re, M5.zero]
  have hm0 := hmv 0 false
  rw [hz0] at hm0
  rw [TP.ofHelix, hm0] at hm
  simp only [Bool.false_eq_true, if_false, Out.ok.injEq, Prod.mk.injEq, fin_inj] at hm
  obtain ⟨hm1, hm2⟩ := hm
  subst hm2
  rw [← hm1] at hphi
  have hfnpi : fn ≠ Real.pi := fun hc => hphi (by rw [hc]; rfl)
  refine ⟨moveFR om tl ph d fn dn fd, fun C => ⟨_, _, hmv C true, rfl⟩, ?_⟩
  intro p q p' hp0 hp hq
  -- near 0 the curvature is not zero and the reference point is off the axis
  have hpi := fun i => (hasDerivAt_pi.mp hp) i
  have hpc : ∀ i, ContinuousAt (fun t => p t i) 0 := fun i => (hpi i).continuousAt
  have e0 : p 0 0 = om := by rw [hp0]; rfl
  have e1 : p 0 1 = tl := by rw [hp0]; rfl
  have e2 : p 0 2 = ph := by rw [hp0]; rfl
  have e3 : p 0 3 = d := by rw [hp0]; rfl
  have e4 : p 0 4 = z := by rw [hp0]; rfl
  have hre : ∀ t, V5.re (p t) = hpR (p t 0) (p t 1) (p t 2) (p t 3) (p t 4) := by
    intro t; funext i; fin_cases i <;> rfl
  have hom : ∀ᶠ t in 𝓝 (0 : ℝ), p t 0 ≠ 0 := (hpc 0).eventually_ne (by rw [e0]; exact h)
  have hoffc : ∀ᶠ t in 𝓝 (0 : ℝ), 0 < (rCx (p t 0) (p t 2) (p t 3) rx - vx) ^ 2 +
      (rCy (p t 0) (p t 2) (p t 3) ry - vy) ^ 2 := by
    have hA : ContinuousAt (fun t => 1 / p t 0 - p t 3) 0 :=
      (continuousAt_const.div (hpc 0) (by rw [e0]; exact h)).sub (hpc 3)
    have hcx : ContinuousAt (fun t => rCx (p t 0) (p t 2) (p t 3) rx) 0 :=
      continuousAt_const.add (hA.mul (Real.continuous_sin.continuousAt.comp (hpc 2)))
    have hcy : ContinuousAt (fun t => rCy (p t 0) (p t 2) (p t 3) ry) 0 :=
      continuousAt_const.sub (hA.mul (Real.continuous_cos.continuousAt.comp (hpc 2)))
    have hc := ((hcx.sub_const vx).pow 2).add ((hcy.sub_const vy).pow 2)
    refine hc.eventually_const_lt ?_
    rw [offAxis_re h] at hoff
    show 0 < (rCx (p 0 0) (p 0 2) (p 0 3) rx - vx) ^ 2 + (rCy (p 0 0) (p 0 2) (p 0 3) ry - vy) ^ 2
    rwa [e0, e2, e3]
  have hrel0 : ∀ᶠ t in 𝓝 (0 : ℝ), ∃ fdt : ℝ, -Real.pi < q t 2 ∧ q t 2 ≤ Real.pi ∧ -Real.pi < fdt ∧ fdt ≤ Real.pi ∧
      p t 0 * q t 3 < 1 ∧
      rCx (p t 0) (q t 2) (q t 3) vx = rCx (p t 0) (p t 2) (p t 3) rx ∧
      rCy (p t 0) (q t 2) (q t 3) vy = rCy (p t 0) (p t 2) (p t 3) ry ∧
      (∃ k : ℤ, fdt = q t 2 - p t 2 + k * (2 * Real.pi)) ∧
      q t 4 = rz - vz + p t 4 - 1 / p t 0 * p t 1 * fdt ∧ q t 0 = p t 0 ∧ q t 1 = p t 1 := by
    filter_upwards [hom, hoffc, hq] with t ht1 ht2 ht3
    obtain ⟨a, ha⟩ := ht3
    obtain ⟨fnt, dnt, fdt, ⟨hk, g1, g2, g3, g4, g5, g6, g7⟩, hmt⟩ := move_cov vz ht1 ((offAxis_re ht1 (tl := p t 1) (z := p t 4) (rz := rz)).mpr ht2)
    have hmt := hmt 0 false
    rw [hz0] at hmt
    rw [hre, TP.ofHelix, hmt] at ha
    simp only [Bool.false_eq_true, if_false, Out.ok.injEq, Prod.mk.injEq, TP.ofHelix, TP.mk.injEq] at ha
    have hqt := ha.1.2.1
    have q0 : p t 0 = q t 0 := (fin_inj _ _).mp (congrFun hqt 0)
    have q1 : p t 1 = q t 1 := (fin_inj _ _).mp (congrFun hqt 1)
    have q2 : fnt = q t 2 := (fin_inj _ _).mp (congrFun hqt 2)
    have q3 : dnt = q t 3 := (fin_inj _ _).mp (congrFun hqt 3)
    have q4 : rz - vz + p t 4 - 1 / p t 0 * p t 1 * fdt = q t 4 := (fin_inj _ _).mp (congrFun hqt 4)
    subst q2 q3
    exact ⟨fdt, g3, g4, g1, g2, g5, g6, g7, hk, q4.symm, q0.symm, q1.symm⟩
  classical
  let fdf : ℝ → ℝ := fun t => if hh : ∃ fdt : ℝ, -Real.pi < q t 2 ∧ q t 2 ≤ Real.pi ∧ -Real.pi < fdt ∧ fdt ≤ Real.pi ∧
      p t 0 * q t 3 < 1 ∧
      rCx (p t 0) (q t 2) (q t 3) vx = rCx (p t 0) (p t 2) (p t 3) rx ∧
      rCy (p t 0) (q t 2) (q t 3) vy = rCy (p t 0) (p t 2) (p t 3) ry ∧
      (∃ k : ℤ, fdt = q t 2 - p t 2 + k * (2 * Real.pi)) ∧
      q t 4 = rz - vz + p t 4 - 1 / p t 0 * p t 1 * fdt ∧ q t 0 = p t 0 ∧ q t 1 = p t 1 then hh.choose else 0
  have hrel : ∀ᶠ t in 𝓝 (0 : ℝ), -Real.pi < q t 2 ∧ q t 2 ≤ Real.pi ∧ -Real.pi < fdf t ∧ fdf t ≤ Real.pi ∧
      p t 0 * q t 3 < 1 ∧
      rCx (p t 0) (q t 2) (q t 3) vx = rCx (p t 0) (p t 2) (p t 3) rx ∧
      rCy (p t 0) (q t 2) (q t 3) vy = rCy (p t 0) (p t 2) (p t 3) ry ∧
      (∃ k : ℤ, fdf t = q t 2 - p t 2 + k * (2 * Real.pi)) ∧
      q t 4 = rz - vz + p t 4 - 1 / p t 0 * p t 1 * fdf t ∧ q t 0 = p t 0 ∧ q t 1 = p t 1 := by
    filter_upwards [hrel0] with t ht
    have : fdf t = ht.choose := by simp only [fdf]; rw [dif_pos ht]
    rw [this]; exact ht.choose_spec
  -- values at 0
  obtain ⟨r1, r2, r3, r4, r5, r6, r7, ⟨k0, r8⟩, r9, r10, r11⟩ := hrel.self_of_nhds
  obtain ⟨⟨k1, f1⟩, f2, f3, f4, f5, f6, f7, f8⟩ := hfacts
  rw [e0, e2, e3] at r6 r7
  rw [e0] at r5
  rw [e2] at r8
  obtain ⟨hfn0, hdn0⟩ := branch_unique h (r6.trans f7.symm) (r7.trans f8.symm) r5 f6 r1 r2 f4 f5
  have hpp := Real.pi_pos
  have hfd0 : fdf 0 = fd := by
    rw [hfn0] at r8
    have hkk : k0 = k1 := by
      have h1 : ((k0 - k1 : ℤ) : ℝ) < 1 := by
        by_contra hc; push Not at hc; push_cast at hc; nlinarith
      have h2 : (-1 : ℝ) < ((k0 - k1 : ℤ) : ℝ) := by
        by_contra hc; push Not at hc; push_cast at hc; nlinarith
      have h3 : k0 - k1 < (1 : ℤ) := by exact_mod_cast h1
      have h4 : (-1 : ℤ) < k0 - k1 := by exact_mod_cast h2
      omega
    rw [r8, f1, hkk]
  obtain ⟨fn', dn', d1, d2, d3, d4, d5⟩ := move_deriv (hpi 0) (hpi 1) (hpi 2) (hpi 3) (hpi 4)
    (by rw [e0]; exact h)
    (hrel.mono fun t ht => ⟨ht.1, ht.2.1, ht.2.2.1, ht.2.2.2.1, ht.2.2.2.2.1, ht.2.2.2.2.2.1,
      ht.2.2.2.2.2.2.1, ht.2.2.2.2.2.2.2.1, ht.2.2.2.2.2.2.2.2.1⟩)
    (by rw [hfn0]; exact hfnpi) (by rw [hfd0]; exact ha)
  simp only [e0, e1, e2, e3, hfn0, hdn0, hfd0] at d3 d4 d5
  have q0 : HasDerivAt (fun t => q t 0) (p' 0) 0 :=
    (hpi 0).congr_of_eventuallyEq (hrel.mono fun t ht => ht.2.2.2.2.2.2.2.2.2.1)
  have q1 : HasDerivAt (fun t => q t 1) (p' 1) 0 :=
    (hpi 1).congr_of_eventuallyEq (hrel.mono fun t ht => ht.2.2.2.2.2.2.2.2.2.2)
  have hne : 1 / om - dn ≠ 0 := by
    intro hc
    have : om * (1 / om - dn) = 1 - om * dn := by field_simp
    rw [hc] at this; linarith
  have hfn' : fn' = 1 / (1 / om - dn) * ((p' 0 / om ^ 2 + p' 3) * Real.sin (fn - ph) +
      (1 / om - d) * Real.cos (fn - ph) * p' 2) := by
    rw [← d4]; generalize 1 / om - dn = A at hne; field_simp
  have hdn' : dn' = -(p' 0 / om ^ 2) + (p' 0 / om ^ 2 + p' 3) * Real.cos (fn - ph) -
      (1 / om - d) * Real.sin (fn - ph) * p' 2 := by linarith
  rw [hasDerivAt_pi]
  intro i
  fin_cases i
  · refine q0.congr_deriv ?_
    simp [flipD0, moveFR, Matrix.mulVec, dotProduct, Fin.sum_univ_five, Matrix.mul_apply, Matrix.diagonal]
  · refine q1.congr_deriv ?_
    simp [flipD0, moveFR, Matrix.mulVec, dotProduct, Fin.sum_univ_five, Matrix.mul_apply, Matrix.diagonal]
  · refine d1.congr_deriv ?_
    rw [hfn']
    simp [flipD0, moveFR, Matrix.mulVec, dotProduct, Fin.sum_univ_five, Matrix.mul_apply, Matrix.diagonal]
    ring
  · refine d2.congr_deriv ?_
    rw [hdn']
    simp [flipD0, moveFR, Matrix.mulVec, dotProduct, Fin.sum_univ_five, Matrix.mul_apply, Matrix.diagonal]
    ring
  · refine d3.congr_deriv ?_
    rw [hfn']
    simp [flipD0, moveFR, Matrix.mulVec, dotProduct, Fin.sum_univ_five, Matrix.mul_apply, Matrix.diagonal]
    ring

/-- a move is possible for all parameters close to the given ones -/
theorem eventually_move {p : ℝ → Fin 5 → ℝ} {p' : Fin 5 → ℝ} {om tl ph d z rx ry rz vx vy : ℝ} (vz : ℝ)
    (h : om ≠ 0) (hoff : OffAxis (hpR om tl ph d z) (V3.re rx ry rz) vx vy)
    (hp0 : p 0 = ![om, tl, ph, d, z]) (hp : HasDerivAt p p' 0) :
    ∀ᶠ t in 𝓝 (0 : ℝ), ∃ (q : Fin 5 → ℝ) (a : Dbl),
      moveHelixTo (TP.ofHelix (V5.re (p t)) (V3.re rx ry rz)) (V3.re vx vy vz) false =
      .ok (TP.ofHelix (V5.re q) (V3.re vx vy vz), a) := by
  have hpc : ∀ i, ContinuousAt (fun t => p t i) 0 := fun i => (hasDerivAt_pi.mp hp i).continuousAt
  have e0 : p 0 0 = om := by rw [hp0]; rfl
  have e2 : p 0 2 = ph := by rw [hp0]; rfl
  have e3 : p 0 3 = d := by rw [hp0]; rfl
  have hom : ∀ᶠ t in 𝓝 (0 : ℝ), p t 0 ≠ 0 := (hpc 0).eventually_ne (by rw [e0]; exact h)
  have hoffc : ∀ᶠ t in 𝓝 (0 : ℝ), 0 < (rCx (p t 0) (p t 2) (p t 3) rx - vx) ^ 2 +
      (rCy (p t 0) (p t 2) (p t 3) ry - vy) ^ 2 := by
    have hA : ContinuousAt (fun t => 1 / p t 0 - p t 3) 0 :=
      (continuousAt_const.div (hpc 0) (by rw [e0]; exact h)).sub (hpc 3)
    have hcx : ContinuousAt (fun t => rCx (p t 0) (p t 2) (p t 3) rx) 0 :=
      continuousAt_const.add (hA.mul (Real.continuous_sin.continuousAt.comp (hpc 2)))
    have hcy : ContinuousAt (fun t => rCy (p t 0) (p t 2) (p t 3) ry) 0 :=
      continuousAt_const.sub (hA.mul (Real.continuous_cos.continuousAt.comp (hpc 2)))
    have hc := ((hcx.sub_const vx).pow 2).add ((hcy.sub_const vy).pow 2)
    refine hc.eventually_const_lt ?_
    rw [offAxis_re h] at hoff
    show 0 < (rCx (p 0 0) (p 0 2) (p 0 3) rx - vx) ^ 2 + (rCy (p 0 0) (p 0 2) (p 0 3) ry - vy) ^ 2
    rwa [e0, e2, e3]
  filter_upwards [hom, hoffc] with t ht1 ht2
  have hre : V5.re (p t) = hpR (p t 0) (p t 1) (p t 2) (p t 3) (p t 4) := by
    funext i; fin_cases i <;> rfl
  obtain ⟨fnt, dnt, fdt, -, hmt⟩ := move_cov vz ht1
    ((offAxis_re ht1 (tl := p t 1) (z := p t 4) (rz := rz)).mpr ht2)
  have hz0 : (M5.re (0 : Matrix (Fin 5) (Fin 5) ℝ)) = M5.zero := by
    funext i j; simp [M5.re, M5.zero]
  have hm0 := hmt 0 false
  rw [hz0] at hm0
  refine ⟨![p t 0, p t 1, fnt, dnt, rz - vz + p t 4 - 1 / p t 0 * p t 1 * fdt], fin fdt, ?_⟩
  rw [hre, TP.ofHelix, hm0]
  simp only [Bool.false_eq_true, if_false]
  congr 2
  unfold TP.ofHelix
  congr 1
  funext i; fin_cases i <;> rfl

/-- there is at most one Jacobian -/
theorem moveJacobian_unique {om tl ph d z rx ry rz vx vy vz : ℝ} (h : om ≠ 0)
    (hoff : OffAxis (hpR om tl ph d z) (V3.re rx ry rz) vx vy) {J J' : Matrix (Fin 5) (Fin 5) ℝ}
    (hJ : IsMoveJacobian ![om, tl, ph, d, z] (V3.re rx ry rz) (V3.re vx vy vz) J)
    (hJ' : IsMoveJacobian ![om, tl, ph, d, z] (V3.re rx ry rz) (V3.re vx vy vz) J') : J = J' := by
  have key : ∀ w : Fin 5 → ℝ, J *ᵥ w = J' *ᵥ w := by
    intro w
    have hp : HasDerivAt (fun t : ℝ => ![om, tl, ph, d, z] + t • w) w 0 := by
      have := ((hasDerivAt_id (0 : ℝ)).smul_const w).const_add ![om, tl, ph, d, z]
      simpa using this
    have hev := eventually_move vz h hoff (by simp) hp
    classical
    let q : ℝ → Fin 5 → ℝ := fun t => if hh : ∃ (q : Fin 5 → ℝ) (a : Dbl),
      moveHelixTo (TP.ofHelix (V5.re (![om, tl, ph, d, z] + t • w)) (V3.re rx ry rz)) (V3.re vx vy vz) false =
      .ok (TP.ofHelix (V5.re q) (V3.re vx vy vz), a) then hh.choose else 0
    have hq : ∀ᶠ t in 𝓝 (0 : ℝ), ∃ a,
        moveHelixTo (TP.ofHelix (V5.re (![om, tl, ph, d, z] + t • w)) (V3.re rx ry rz)) (V3.re vx vy vz) false =
        .ok (TP.ofHelix (V5.re (q t)) (V3.re vx vy vz), a) := by
      filter_upwards [hev] with t ht
      have : q t = ht.choose := by simp only [q]; rw [dif_pos ht]
      rw [this]; exact ht.choose_spec
    exact (hJ _ q w (by simp) hp hq).unique (hJ' _ q w (by simp) hp hq)
  ext i j
  have := congrFun (key (Pi.single j 1)) i
  simpa using this

/-- C17 (partial): if d0 is uncorrelated with the other parameters, all entries of the new covariance
that do not mix d0 with another parameter are those of `J C Jᵀ`, `J` the derivative of the new
parameters with respect to the old ones.  Missing for C17: correlated input, and the mixed entries,
whose sign is wrong (`C17_false`). -/
theorem C17_uncorrelated_partial (C : Matrix (Fin 5) (Fin 5) ℝ) (om tl ph d z rx ry rz vx vy vz : ℝ)
    (h : om ≠ 0) (hoff : OffAxis (hpR om tl ph d z) (V3.re rx ry rz) vx vy) (tp' : TP) (a : ℝ)
    (hC : ∀ i : Fin 5, i ≠ D0 → C i D0 = 0 ∧ C D0 i = 0)
    (hm : moveHelixTo (TP.ofHelix (hpR om tl ph d z) (V3.re rx ry rz)) (V3.re vx vy vz) false =
      .ok (tp', fin a))
    (ha : a ≠ Real.pi) (hphi : tp'.hp PHI0 ≠ fin Real.pi) :
    ∃ J : Matrix (Fin 5) (Fin 5) ℝ,
      IsMoveJacobian ![om, tl, ph, d, z] (V3.re rx ry rz) (V3.re vx vy vz) J ∧
      ∃ tp'' b,
        moveHelixTo ⟨M5.re C, hpR om tl ph d z, V3.re rx ry rz⟩ (V3.re vx vy vz) true = .ok (tp'', b) ∧
        ∀ i j, (i = D0 ↔ j = D0) → tp''.cov i j = fin ((J * C * Jᵀ) i j) := by
  obtain ⟨F, hF, hJ⟩ := C17_jacobian_partial om tl ph d z rx ry rz vx vy vz h hoff tp' a hm ha hphi
  obtain ⟨tp'', b, h1, h2⟩ := hF C
  refine ⟨_, hJ, tp'', b, h1, ?_⟩
  have hSS : flipD0 * flipD0 = 1 := by
    unfold flipD0
    rw [Matrix.diagonal_mul_diagonal, ← Matrix.diagonal_one]
    congr 1; funext i; fin_cases i <;> simp
  have hST : flipD0ᵀ = flipD0 := Matrix.diagonal_transpose _
  have hSC : flipD0 * C * flipD0 = C := by
    ext i j
    unfold flipD0
    rw [Matrix.mul_diagonal, Matrix.diagonal_mul]
    by_cases hi : i = D0 <;> by_cases hj : j = D0
    · subst hi hj; simp [D0]
    · subst hi; rw [(hC j hj).2]; simp
    · subst hj; rw [(hC i hi).1]; simp
    · have : ∀ k : Fin 5, k ≠ D0 → (![1, 1, 1, -1, 1] : Fin 5 → ℝ) k = 1 := by
        intro k hk; fin_cases k <;> simp_all [D0]
      rw [this i hi, this j hj]; ring
  have e : flipD0 * F * flipD0 * C * (flipD0 * F * flipD0)ᵀ = flipD0 * (F * C * Fᵀ) * flipD0 := by
    rw [Matrix.transpose_mul, Matrix.transpose_mul, hST]
    calc flipD0 * F * flipD0 * C * (flipD0 * (Fᵀ * flipD0))
        = flipD0 * F * (flipD0 * C * flipD0) * Fᵀ * flipD0 := by simp only [Matrix.mul_assoc]
      _ = _ := by rw [hSC]; simp only [Matrix.mul_assoc]
  intro i j hij
  rw [h2, e]
  unfold flipD0
  rw [Matrix.mul_diagonal, Matrix.diagonal_mul]
  show fin _ = fin _
  rw [fin_inj]
  generalize (F * C * Fᵀ) i j = x
  fin_cases i <;> fin_cases j <;> simp_all [D0]

/-- C17 as stated is false: moving the helix ω = 1, all else 0, from the origin to (-2,-1,0) with an
(admissible) covariance that has only the variance of ω, the new covariance is not `J C Jᵀ`. -/
theorem C17_false : ∃ (hp : Fin 5 → ℝ) (rp v : V3) (C : Matrix (Fin 5) (Fin 5) ℝ) (tp' : TP) (a : Dbl),
    Cᵀ = C ∧ PSD C ∧
    moveHelixTo ⟨M5.re C, V5.re hp, rp⟩ v true = .ok (tp', a) ∧
    (∃ J, IsMoveJacobian hp rp v J) ∧
    ∀ J, IsMoveJacobian hp rp v J → tp'.cov ≠ M5.re (J * C * Jᵀ) := by
  have hoff : OffAxis (hpR 1 0 0 0 0) (V3.re 0 0 0) (-2) (-1) := by
    rw [offAxis_re one_ne_zero]; simp [rCx, rCy]
  obtain ⟨fn, dn, fd, ⟨⟨k, f1⟩, f2, f3, f4, f5, f6, f7, f8⟩, hm⟩ := move_cov 0 one_ne_zero hoff
  have hpp := Real.pi_pos
  obtain ⟨hfn, hdn⟩ := branch_unique (ph := fn) (d := dn) (ph' := Real.pi / 2) (d' := -1) one_ne_zero
    (by rw [f7]; simp [rCx]; norm_num) (by rw [f8]; simp [rCy]) f6 (by norm_num) f4 f5
    (by linarith) (by linarith)
  have hfd : fd = Real.pi / 2 := by
    have hk : k = 0 := by
      have h1 : (k : ℝ) < 1 := by
        by_contra hc; push Not at hc; rw [hfn] at f1; nlinarith
      have h2 : (-1 : ℝ) < k := by
        by_contra hc; push Not at hc; rw [hfn] at f1; nlinarith
      have h3 : k < (1 : ℤ) := by exact_mod_cast h1
      have h4 : (-1 : ℤ) < k := by exact_mod_cast h2
      omega
    rw [f1, hk, hfn]; simp
  subst hfn hdn hfd
  have hz0 : (M5.re (0 : Matrix (Fin 5) (Fin 5) ℝ)) = M5.zero := by
    funext i j; simp [M5.re, M5.zero]
  have hm0 := hm 0 false
  rw [hz0] at hm0
  obtain ⟨F, hF, hJ⟩ := C17_jacobian_partial 1 0 0 0 0 0 0 0 (-2) (-1) 0 one_ne_zero hoff _ _ hm0
    (by linarith) (by
      simp only [hpR, PHI0, ne_eq]
      intro hc
      have : Real.pi / 2 = Real.pi := (fin_inj _ _).mp hc
      linarith)
  let C : Matrix (Fin 5) (Fin 5) ℝ := Matrix.diagonal ![1, 0, 0, 0, 0]
  have hre : V5.re ![(1 : ℝ), 0, 0, 0, 0] = hpR 1 0 0 0 0 := by funext i; fin_cases i <;> rfl
  have hmC := hm C true
  rw [← hre] at hmC
  refine ⟨![1, 0, 0, 0, 0], V3.re 0 0 0, V3.re (-2) (-1) 0, C, _, _, Matrix.diagonal_transpose _, ?_, hmC,
    ⟨_, hJ⟩, ?_⟩
  · intro x
    simp [C, Matrix.mulVec_diagonal, dotProduct, Fin.sum_univ_five]
    exact mul_self_nonneg _
  · intro J hJ' hc
    rw [moveJacobian_unique one_ne_zero hoff hJ' hJ] at hc
    obtain ⟨tp'', b, h1, h2⟩ := hF C
    rw [hm C true] at h1
    simp only [if_true, Out.ok.injEq, Prod.mk.injEq] at h1
    have hcov := congrArg TP.cov h1.1
    simp only at hcov
    rw [h2] at hcov
    simp only [if_true] at hc
    have hFC := M5.re_injective hcov
    have hJC := M5.re_injective hc
    have a1 := congrFun (congrFun hFC 0) 3
    have a2 := congrFun (congrFun hJC 0) 3
    have a3 := congrFun (congrFun hFC 0) 0
    rw [hFC] at hJC
    simp [flipD0, C, moveFR, Matrix.mul_apply, Matrix.diagonal, Fin.sum_univ_five,
      Matrix.vecHead] at a1 a2 a3
    linarith

/-- the hypotheses of `C17_symm_psd` and `C17_jacobian_partial` are met by this move -/
example : OffAxis (hpR 1 0 0 0 0) (V3.re 0 0 0) (-2) (-1) ∧
    ∃ tp' a, moveHelixTo (TP.ofHelix (hpR 1 0 0 0 0) (V3.re 0 0 0)) (V3.re (-2) (-1) 0) false =
      .ok (tp', fin a) := by
  have hoff : OffAxis (hpR 1 0 0 0 0) (V3.re 0 0 0) (-2) (-1) := by
    rw [offAxis_re one_ne_zero]; simp [rCx, rCy]
  obtain ⟨_, fn, dn, fd, k, -, -, -, -, -, -, -, -, hm⟩ := move_off (cov := M5.zero) (upd := false) (vz := 0)
    one_ne_zero hoff
  exact ⟨hoff, _, _, hm⟩

end Verif
