import Verif.Lemmas.Move

/-!
# C14–C16: `moveHelixTo`
-/

noncomputable section

namespace Verif

open Dbl

section C14

variable (cov : M5) (om tl ph d z : ℝ) (rx ry rz vx vy vz : ℝ) (upd : Bool)

/-- C14: moving the reference point does not change the curve in space (this includes reference
points on the helix axis). -/
theorem C14_same_curve (h : om ≠ 0) :
    ∃ (tp' : TP) (D : ℝ),
      moveHelixTo ⟨cov, hpR om tl ph d z, V3.re rx ry rz⟩ (V3.re vx vy vz) upd =
        .ok (tp', fin (-(om * D))) ∧
      tp'.rp = V3.re vx vy vz ∧ tp'.hp OMEGA = fin om ∧ tp'.hp TANL = fin tl ∧
      |D| ≤ Real.pi / |om| ∧
      ∀ s : ℝ, ∃ x y w : ℝ, pointAt (fin s) tp'.hp tp'.rp = V3.re x y w ∧
        pointAt (fin (s + D)) (hpR om tl ph d z) (V3.re rx ry rz) = V3.re x y w := by
  obtain ⟨fn, dn, fd, k, e1, b1, b2, -, -, hcx, hcy, -, hv⟩ :=
    move_re cov tl ph d z rx ry rz vx vy vz h
  have hd : om * (-(fd / om)) = -fd := by field_simp
  have hD : |-(fd / om)| ≤ Real.pi / |om| := by
    rw [abs_neg, abs_div]
    apply div_le_div_of_nonneg_right _ (abs_nonneg om)
    rw [abs_le]; exact ⟨b1.le, b2⟩
  have hpt : ∀ s : ℝ, pointAt (fin s) (hpR om tl fn dn (rz - vz + z - 1 / om * tl * fd)) (V3.re vx vy vz) =
      pointAt (fin (s + -(fd / om))) (hpR om tl ph d z) (V3.re rx ry rz) := by
    intro s
    rw [pointAt_re h, pointAt_re h]
    have ha : ph - (s + -(fd / om)) * om = fn - s * om + k * (2 * Real.pi) := by
      rw [e1]; field_simp; ring
    have hX : rX om fn dn vx s = rX om ph d rx (s + -(fd / om)) := by
      have h1 := rX_center (om := om) (ph := fn) (d := dn) (rx := vx) (s := s)
      have h2 := rX_center (om := om) (ph := ph) (d := d) (rx := rx) (s := s + -(fd / om))
      rw [ha, Real.sin_add_int_mul_two_pi] at h2
      linarith
    have hY : rY om fn dn vy s = rY om ph d ry (s + -(fd / om)) := by
      have h1 := rY_center (om := om) (ph := fn) (d := dn) (ry := vy) (s := s)
      have h2 := rY_center (om := om) (ph := ph) (d := d) (ry := ry) (s := s + -(fd / om))
      rw [ha, Real.cos_add_int_mul_two_pi] at h2
      linarith
    have hZ : rZ tl (rz - vz + z - 1 / om * tl * fd) vz s = rZ tl z rz (s + -(fd / om)) := by
      rw [rZ, rZ]; ring
    rw [hX, hY, hZ]
  have hm := moveHelixTo_of_vals upd hv
  have hfd : fd = -(om * -(fd / om)) := by rw [hd, neg_neg]
  rw [show (fin fd : Dbl) = fin (-(om * -(fd / om))) by rw [← hfd]] at hm
  exact ⟨_, -(fd / om), hm, rfl, rfl, rfl, hD,
    fun s => ⟨_, _, _, pointAt_re h, by rw [← hpt s, pointAt_re h]⟩⟩

/-- C14 applies e.g. to this track and these reference points -/
example : ∃ tp' D, moveHelixTo ⟨M5.zero, hpR (1/100) 1 2 3 4, V3.re 1 2 3⟩ (V3.re 50 60 70) true =
    .ok (tp', fin (-((1/100) * D))) := by
  obtain ⟨tp', D, h, -⟩ := C14_same_curve M5.zero (1/100) 1 2 3 4 1 2 3 50 60 70 true (by norm_num)
  exact ⟨tp', D, h⟩

end C14

/-! ## C15 -/

/-- the reference point `(vx,vy)` is not on the helix axis, stated with the reported centre -/
def OffAxis (hp : V5) (rp : V3) (vx vy : ℝ) : Prop :=
  ¬ (calculateXCenter hp rp = fin vx ∧ calculateYCenter hp rp = fin vy)

theorem offAxis_re {om tl ph d z rx ry rz vx vy : ℝ} (h : om ≠ 0) :
    OffAxis (hpR om tl ph d z) (V3.re rx ry rz) vx vy ↔
      0 < (rCx om ph d rx - vx) ^ 2 + (rCy om ph d ry - vy) ^ 2 := by
  unfold OffAxis
  rw [calculateXCenter_re h, calculateYCenter_re h, fin_inj, fin_inj]
  constructor
  · intro hn
    by_contra hc
    apply hn
    have h1 := sq_nonneg (rCx om ph d rx - vx)
    have h2 := sq_nonneg (rCy om ph d ry - vy)
    have h3 : (rCx om ph d rx - vx) ^ 2 = 0 := by linarith
    have h4 : (rCy om ph d ry - vy) ^ 2 = 0 := by linarith
    exact ⟨by have := pow_eq_zero_iff (two_ne_zero) |>.mp h3; linarith,
      by have := pow_eq_zero_iff (two_ne_zero) |>.mp h4; linarith⟩
  · rintro hp ⟨h1, h2⟩
    rw [h1, h2] at hp; simp at hp

/-- all facts about a move to a point off the axis, without covariance update -/
theorem move_off {cov : M5} {om tl ph d z rx ry rz vx vy vz : ℝ} {upd : Bool} (h : om ≠ 0)
    (hoff : OffAxis (hpR om tl ph d z) (V3.re rx ry rz) vx vy) :
    ∃ (cov' : M5) (fn dn fd : ℝ) (k : ℤ),
      fd = fn - ph + k * (2 * Real.pi) ∧ -Real.pi < fd ∧ fd ≤ Real.pi ∧ -Real.pi < fn ∧
      fn ≤ Real.pi ∧ om * dn < 1 ∧ rCx om fn dn vx = rCx om ph d rx ∧
      rCy om fn dn vy = rCy om ph d ry ∧
      moveHelixTo ⟨cov, hpR om tl ph d z, V3.re rx ry rz⟩ (V3.re vx vy vz) upd =
        .ok (⟨cov', hpR om tl fn dn (rz - vz + z - 1 / om * tl * fd), V3.re vx vy vz⟩, fin fd) := by
  obtain ⟨fn, dn, fd, k, e1, b1, b2, b3, b4, hcx, hcy, hR, hv⟩ :=
    move_re cov tl ph d z rx ry rz vx vy vz h
  rw [offAxis_re h] at hoff
  have hsq := Real.sqrt_pos.mpr hoff
  have hdn : om * dn < 1 := by
    have h1 : 1 - om * dn = |om| * Real.sqrt ((rCx om ph d rx - vx) ^ 2 + (rCy om ph d ry - vy) ^ 2) := by
      have h2 : om * (1 / om - dn) = 1 - om * dn := by field_simp
      rw [← h2, hR, ← mul_sg h]; ring
    have : 0 < |om| := abs_pos.mpr h
    have := mul_pos this hsq
    linarith
  exact ⟨_, fn, dn, fd, k, e1, b1, b2, b3, b4, hdn, hcx, hcy, moveHelixTo_of_vals upd hv⟩

section C15

variable (cov : M5) (om tl ph d z : ℝ) (rx ry rz vx vy vz : ℝ) (upd : Bool)

/-- C15: the result is normalised. -/
theorem C15_normalised (h : om ≠ 0) (hoff : OffAxis (hpR om tl ph d z) (V3.re rx ry rz) vx vy) :
    ∃ (tp' : TP) (a : Dbl) (p' d' : ℝ),
      moveHelixTo ⟨cov, hpR om tl ph d z, V3.re rx ry rz⟩ (V3.re vx vy vz) upd = .ok (tp', a) ∧
      tp'.hp PHI0 = fin p' ∧ tp'.hp D0 = fin d' ∧ -Real.pi < p' ∧ p' ≤ Real.pi ∧ om * d' < 1 := by
  obtain ⟨cov', fn, dn, fd, k, e1, b1, b2, b3, b4, hdn, hcx, hcy, hm⟩ := move_off (cov := cov) (upd := upd) (vz := vz) h hoff
  exact ⟨_, _, fn, dn, hm, rfl, rfl, b3, b4, hdn⟩

/-- C15: moving to the same reference point again changes nothing (and reports a zero angle). -/
theorem C15_idempotent (h : om ≠ 0) (hoff : OffAxis (hpR om tl ph d z) (V3.re rx ry rz) vx vy) :
    ∃ (tp' : TP) (a : Dbl) (tp'' : TP),
      moveHelixTo ⟨cov, hpR om tl ph d z, V3.re rx ry rz⟩ (V3.re vx vy vz) upd = .ok (tp', a) ∧
      moveHelixTo tp' (V3.re vx vy vz) upd = .ok (tp'', fin 0) ∧ tp''.hp = tp'.hp ∧
      tp''.rp = tp'.rp := by
  obtain ⟨cov', fn, dn, fd, k, e1, b1, b2, b3, b4, hdn, hcx, hcy, hm⟩ := move_off (cov := cov) (upd := upd) (vz := vz) h hoff
  have hoff' : OffAxis (hpR om tl fn dn (rz - vz + z - 1 / om * tl * fd)) (V3.re vx vy vz) vx vy := by
    rw [offAxis_re h] at hoff ⊢; rwa [hcx, hcy]
  obtain ⟨cov'', fn', dn', fd', k', e1', b1', b2', b3', b4', hdn', hcx', hcy', hm'⟩ :=
    move_off (cov := cov') (upd := upd) (vz := vz) h hoff'
  obtain ⟨hp, hd⟩ := branch_unique h hcx' hcy' hdn' hdn b3' b4' b3 b4
  subst hp hd
  have hpi := Real.pi_pos
  have hk : k' = 0 := by
    rw [e1', sub_self, zero_add] at b1' b2'
    have h1 : (-1 : ℝ) < k' := by
      by_contra hc; push Not at hc; nlinarith
    have h2 : (k' : ℝ) < 1 := by
      by_contra hc; push Not at hc; nlinarith
    have h3 : (-1 : ℤ) < k' := by exact_mod_cast h1
    have h4 : k' < (1 : ℤ) := by exact_mod_cast h2
    omega
  have hfd : fd' = 0 := by rw [e1', hk]; simp
  rw [hfd] at hm'
  refine ⟨_, _, _, hm, hm', ?_, rfl⟩
  simp

/-- moving through a list of reference points -/
def moveAll (tp : TP) : List (ℝ × ℝ × ℝ) → Bool → Out TP
  | [], _ => .ok tp
  | v :: vs, upd => do
      let r ← moveHelixTo tp (V3.re v.1 v.2.1 v.2.2) upd
      moveAll r.1 vs upd

/-- C15: moving through any chain of intermediate reference points gives the same omega,
tan(lambda), phi0, d0 as moving directly, and z0 up to whole turns. -/
theorem C15_path_independent (h : om ≠ 0) (chain : List (ℝ × ℝ × ℝ))
    (hch : ∀ w ∈ chain, OffAxis (hpR om tl ph d z) (V3.re rx ry rz) w.1 w.2.1)
    (hoff : OffAxis (hpR om tl ph d z) (V3.re rx ry rz) vx vy) :
    ∃ (t1 t2 : TP) (a : Dbl) (z1 z2 : ℝ) (n : ℤ),
      moveHelixTo ⟨cov, hpR om tl ph d z, V3.re rx ry rz⟩ (V3.re vx vy vz) upd = .ok (t1, a) ∧
      moveAll ⟨cov, hpR om tl ph d z, V3.re rx ry rz⟩ (chain ++ [(vx, vy, vz)]) upd = .ok t2 ∧
      t2.rp = t1.rp ∧ (∀ i, i ≠ Z0 → t2.hp i = t1.hp i) ∧ (∀ i, i ≠ Z0 → IsFin (t1.hp i)) ∧
      t1.hp Z0 = fin z1 ∧ t2.hp Z0 = fin z2 ∧ z2 - z1 = n * (2 * Real.pi * tl / om) := by
  induction chain generalizing cov ph d z rx ry rz with
  | nil =>
    obtain ⟨cov', fn, dn, fd, k, e1, b1, b2, b3, b4, hdn, hcx, hcy, hm⟩ := move_off (cov := cov) (upd := upd) (vz := vz) h hoff
    refine ⟨_, _, _, _, _, 0, hm, ?_, rfl, fun i _ => rfl, fun i _ => ?_, rfl, rfl, by simp⟩
    · simp [moveAll, hm]
    · fin_cases i <;> exact ⟨_, rfl⟩
  | cons w ws ih =>
    obtain ⟨wx, wy, wz⟩ := w
    have hw : OffAxis (hpR om tl ph d z) (V3.re rx ry rz) wx wy := hch _ (List.mem_cons_self ..)
    obtain ⟨cov', fn, dn, fd, k, e1, b1, b2, b3, b4, hdn, hcx, hcy, hm⟩ :=
      move_off (cov := cov) (upd := upd) (vz := wz) h hw
    have tr : ∀ ux uy : ℝ, OffAxis (hpR om tl ph d z) (V3.re rx ry rz) ux uy →
        OffAxis (hpR om tl fn dn (rz - wz + z - 1 / om * tl * fd)) (V3.re wx wy wz) ux uy := by
      intro ux uy hu
      rw [offAxis_re h] at hu ⊢; rwa [hcx, hcy]
    obtain ⟨t1, t2, a, z1, z2, n, h1, h2, h3, h4, h4', h5, h6, h7⟩ :=
      ih cov' fn dn (rz - wz + z - 1 / om * tl * fd) wx wy wz
        (fun u hu => tr _ _ (hch u (List.mem_cons_of_mem _ hu))) (tr _ _ hoff)
    obtain ⟨cov2, fn2, dn2, fd2, k2, e2, c1, c2, c3, c4, hdn2, hcx2, hcy2, hm2⟩ :=
      move_off (cov := cov) (upd := upd) (vz := vz) h hoff
    obtain ⟨cov3, fn3, dn3, fd3, k3, e3, f1, f2, f3, f4, hdn3, hcx3, hcy3, hm3⟩ :=
      move_off (cov := cov') (upd := upd) (vz := vz) h (tr _ _ hoff)
    obtain ⟨hp, hd⟩ := branch_unique h (hcx3.trans (hcx.trans hcx2.symm)) (hcy3.trans (hcy.trans hcy2.symm)) hdn3 hdn2 f3 f4 c3 c4
    rw [h1] at hm3
    have hm3' := hm3
    injection hm3' with hm3'
    have ht1 : t1 = _ := congrArg Prod.fst hm3'
    refine ⟨_, t2, _, _, z2, n + (k2 - k - k3), hm2, ?_, ?_, ?_, ?_, rfl, h6, ?_⟩
    · rw [List.cons_append, moveAll, hm]; exact h2
    · rw [h3, ht1]
    · intro i hi
      rw [h4 i hi, ht1, hp, hd]
      fin_cases i <;> first | rfl | exact absurd rfl hi
    · intro i hi
      fin_cases i <;> exact ⟨_, rfl⟩
    · rw [ht1] at h5
      have hz1 : (wz - vz + (rz - wz + z - 1 / om * tl * fd) - 1 / om * tl * fd3) = z1 := by
        have : (hpR om tl fn3 dn3 (wz - vz + (rz - wz + z - 1 / om * tl * fd) - 1 / om * tl * fd3)) Z0 = fin z1 := h5
        exact (fin_inj _ _).mp this
      have : z2 = z1 + n * (2 * Real.pi * tl / om) := by linarith
      rw [this, ← hz1, e2, e3, e1, hp]
      push_cast
      field_simp
      ring

end C15

/-- C15 is not vacuous: a track and two reference points off its axis -/
example : OffAxis (hpR 1 1 0 0 0) (V3.re 0 0 0) 5 5 ∧ OffAxis (hpR 1 1 0 0 0) (V3.re 0 0 0) 1 2 := by
  rw [offAxis_re one_ne_zero, offAxis_re one_ne_zero]
  simp [rCx, rCy]; norm_num

/-! ## C16 -/

theorem loopUp_nan : whileLoop (· < (0 : Dbl)) (· + kTwoPi) nan = .ok nan :=
  whileLoop_of_not (by simp)
theorem loopDown_nan : whileLoop (kTwoPi < ·) (· - kTwoPi) nan = .ok nan :=
  whileLoop_of_not (by simp)

/-- not infinite -/
def NotInf (x : Dbl) : Prop := x = nan ∨ IsFin x

theorem norm02_ok {x : Dbl} (hx : NotInf x) : ∃ y1 y, whileLoop (· < (0 : Dbl)) (· + kTwoPi) x = .ok y1 ∧
    whileLoop (kTwoPi < ·) (· - kTwoPi) y1 = .ok y ∧ NotInf y ∧ (x = nan → y = nan) ∧
    (IsFin x → IsFin y) := by
  rcases hx with rfl | ⟨r, rfl⟩
  · exact ⟨_, _, loopUp_nan, loopDown_nan, Or.inl rfl, fun _ => rfl, fun h => absurd h (by simp)⟩
  · obtain ⟨y, n, ⟨y1, h1, h2⟩, -⟩ := norm02 r
    rw [kTwoPi_eq, zero_eq]
    exact ⟨_, _, h1, h2, Or.inr ⟨_, rfl⟩, fun h => by simp at h, fun _ => ⟨_, rfl⟩⟩

theorem normPi_ok {x : Dbl} (hx : NotInf x) : ∃ y1 y, whileLoop (· < -Dbl.pi) (· + kTwoPi) x = .ok y1 ∧
    whileLoop (Dbl.pi < ·) (· - kTwoPi) y1 = .ok y ∧ NotInf y ∧ (x = nan → y = nan) ∧
    (IsFin x → IsFin y) := by
  rcases hx with rfl | ⟨r, rfl⟩
  · exact ⟨_, _, whileLoop_of_not (by simp), whileLoop_of_not (by simp), Or.inl rfl, fun _ => rfl, fun h => absurd h (by simp)⟩
  · obtain ⟨y, n, ⟨y1, h1, h2⟩, -⟩ := normPi r
    rw [kTwoPi_eq, pi_eq, fin_neg]
    exact ⟨_, _, h1, h2, Or.inr ⟨_, rfl⟩, fun h => by simp at h, fun _ => ⟨_, rfl⟩⟩

theorem notInf_atan2 (y x : Dbl) : NotInf (Dbl.atan2 y x) := by
  cases y <;> cases x <;> first | exact Or.inr ⟨_, rfl⟩ | exact Or.inl rfl

theorem notInf_sub {x y : Dbl} (hx : NotInf x) (hy : NotInf y) : NotInf (x - y) := by
  rcases hx with rfl | ⟨r, rfl⟩
  · left; simp
  · rcases hy with rfl | ⟨t, rfl⟩
    · left; simp
    · right; exact ⟨_, fin_sub _ _⟩

theorem notInf_add_fin {x : Dbl} (hx : NotInf x) (r : ℝ) : NotInf (x + fin r) := by
  rcases hx with rfl | ⟨t, rfl⟩
  · left; simp
  · right; exact ⟨_, fin_add _ _⟩

/-- the angle `fi0p` before normalisation is never infinite -/
theorem notInf_fi0p (cpa a b c e : Dbl) :
    NotInf (ifc cpa < 0 then Dbl.atan2 a b else ifc 0 < cpa then Dbl.atan2 c e else 0) := by
  refine cif_cases (P := NotInf) (fun _ => notInf_atan2 _ _) (fun _ => ?_)
  exact cif_cases (P := NotInf) (fun _ => notInf_atan2 _ _) (fun _ => Or.inr ⟨0, zero_eq⟩)

theorem moveVals_ok (tp : TP) (ref : V3) (hph : NotInf (tp.hp PHI0)) :
    ∃ v, moveVals tp ref = .ok v ∧ NotInf v.fi0p ∧
      (tp.hp PHI0 = nan → (tp.hp OMEGA < 0 ∨ 0 < tp.hp OMEGA) → v.fi0p = nan) := by
  have hpi2 : Dbl.pi / 2 = fin (Real.pi / 2) := by rw [pi_eq, ofNat_eq, fin_div _ two_ne_zero]
  have h0 : NotInf (tp.hp PHI0 - Dbl.pi / 2) := by
    rw [hpi2]; exact notInf_sub hph (Or.inr ⟨_, rfl⟩)
  obtain ⟨y0, f0, l0, l0', n0, g0, -⟩ := norm02_ok h0
  unfold moveVals
  simp only [l0, Out.ok_bind, l0']
  generalize hsn0 : (ifc Dbl.pi < f0 then -Dbl.sqrt (Dbl.max 0 ((1 - Dbl.cos f0) * (1 + Dbl.cos f0)))
      else Dbl.sqrt (Dbl.max 0 ((1 - Dbl.cos f0) * (1 + Dbl.cos f0)))) = sn0
  obtain ⟨y1, f1, l1, l1', n1, g1, -⟩ := norm02_ok (notInf_fi0p (tp.hp OMEGA)
    (ref.y - (tp.rp.y + (1 / tp.hp OMEGA + -tp.hp D0) * sn0))
    (ref.x - (tp.rp.x + (1 / tp.hp OMEGA + -tp.hp D0) * Dbl.cos f0))
    (tp.rp.y + (1 / tp.hp OMEGA + -tp.hp D0) * sn0 - ref.y)
    (tp.rp.x + (1 / tp.hp OMEGA + -tp.hp D0) * Dbl.cos f0 - ref.x))
  simp only [l1, Out.ok_bind, l1']
  obtain ⟨y2, f2, l2, l2', n2, -, -⟩ := norm02_ok (notInf_sub n1 n0)
  simp only [l2, Out.ok_bind, l2']
  have h3 : NotInf (f1 + Dbl.pi / 2) := by rw [hpi2]; exact notInf_add_fin n1 _
  obtain ⟨y3, f3, l3, l3', n3, g3, -⟩ := normPi_ok h3
  simp only [l3, Out.ok_bind, l3', Out.pure_eq]
  refine ⟨_, rfl, n3, ?_⟩
  intro hn hom
  apply g3
  have hf0 : f0 = nan := g0 (by rw [hn]; simp)
  have hf1 : f1 = nan := by
    apply g1
    rw [hf0]
    simp only [cos_nan, mul_nan, add_nan, sub_nan, nan_sub, atan2_nan_right]
    rcases hom with hom | hom
    · rw [cif_pos hom]
    · refine cif_cases (P := (· = nan)) (fun _ => rfl) (fun _ => ?_)
      rw [cif_pos hom]
  rw [hf1]; simp

/-- C16: with a finite azimuth the call always returns normally, whatever the other parameters,
the reference points and the covariance are (they may be NaN or infinite).  Missing: rounding, see C97. -/
theorem C16_terminates_partial (tp : TP) (ref : V3) (upd : Bool) (hph : IsFin (tp.hp PHI0)) :
    ∃ r, moveHelixTo tp ref upd = .ok r := by
  obtain ⟨v, hv, -⟩ := moveVals_ok tp ref (Or.inr hph)
  unfold moveHelixTo
  rw [hv]
  exact ⟨_, rfl⟩

/-- C16: with an infinite azimuth the call does not return. -/
theorem C16_infinite (tp : TP) (ref : V3) (upd : Bool) (s : Bool) (hph : tp.hp PHI0 = inf s) :
    moveHelixTo tp ref upd = .diverge := by
  have hpi2 : Dbl.pi / 2 = fin (Real.pi / 2) := by rw [pi_eq, ofNat_eq, fin_div _ two_ne_zero]
  have : moveVals tp ref = .diverge := by
    unfold moveVals
    simp only [hph, hpi2, inf_sub_fin]
    cases s
    · rw [whileLoop_of_not (by simp)]
      simp only [Out.ok_bind]
      rw [whileLoop_diverge]
      · rfl
      · intro n
        have : (fun x : Dbl => x - kTwoPi)^[n] (inf false) = inf false :=
          Function.iterate_fixed (by rw [kTwoPi_eq]; rfl) n
        rw [this, kTwoPi_eq]; simp
    · rw [whileLoop_diverge]
      · rfl
      · intro n
        have : (fun x : Dbl => x + kTwoPi)^[n] (inf true) = inf true :=
          Function.iterate_fixed (by rw [kTwoPi_eq]; rfl) n
        rw [this]; simp
  unfold moveHelixTo
  rw [this]; rfl

/-- C16: with a NaN azimuth and non-zero curvature the call returns and the new azimuth is NaN. -/
theorem C16_nan (tp : TP) (ref : V3) (upd : Bool) (hph : tp.hp PHI0 = nan)
    (hom : tp.hp OMEGA < 0 ∨ 0 < tp.hp OMEGA) :
    ∃ tp' a, moveHelixTo tp ref upd = .ok (tp', a) ∧ tp'.hp PHI0 = nan := by
  obtain ⟨v, hv, -, hn⟩ := moveVals_ok tp ref (Or.inl hph)
  unfold moveHelixTo
  rw [hv]
  refine ⟨_, _, rfl, ?_⟩
  cases upd <;> exact hn hph hom

/-- C16: the curvature must be non-zero in `C16_nan`: for omega = 0 a NaN azimuth is replaced by π/2. -/
theorem C16_nan_zero_curvature (tp : TP) (ref : V3) (upd : Bool) (hph : tp.hp PHI0 = nan)
    (hom : tp.hp OMEGA = 0) :
    ∃ tp' a, moveHelixTo tp ref upd = .ok (tp', a) ∧ tp'.hp PHI0 = fin (Real.pi / 2) := by
  have hpi := Real.pi_pos
  have hpi2 : Dbl.pi / 2 = fin (Real.pi / 2) := by rw [pi_eq, ofNat_eq, fin_div _ two_ne_zero]
  have h00 : whileLoop (fun x : Dbl => x < 0) (fun x => x + kTwoPi) 0 = .ok 0 := whileLoop_of_not (by simp)
  have h01 : whileLoop (fun x : Dbl => kTwoPi < x) (fun x => x - kTwoPi) 0 = .ok 0 :=
    whileLoop_of_not (by rw [kTwoPi_eq, zero_eq, fin_lt]; linarith)
  have e1 : (0 : Dbl) + Dbl.pi / 2 = fin (Real.pi / 2) := by rw [hpi2, zero_eq, fin_add, zero_add]
  have h02 : whileLoop (fun x : Dbl => x < -Dbl.pi) (fun x => x + kTwoPi) (0 + Dbl.pi / 2) =
      .ok (fin (Real.pi / 2)) := by
    rw [e1]; exact whileLoop_of_not (by rw [pi_eq, fin_neg, fin_lt]; linarith)
  have h03 : whileLoop (fun x : Dbl => Dbl.pi < x) (fun x => x - kTwoPi) (fin (Real.pi / 2)) =
      .ok (fin (Real.pi / 2)) := whileLoop_of_not (by rw [pi_eq, fin_lt]; linarith)
  have c1 : ¬ ((0 : Dbl) < 0) := by simp
  have : ∃ v, moveVals tp ref = .ok v ∧ v.fi0p = fin (Real.pi / 2) := by
    unfold moveVals
    simp only [hph, hom, nan_sub, loopUp_nan, loopDown_nan, Out.ok_bind, cif_neg c1, h00, h01,
      sub_nan, h02, h03, Out.pure_eq]
    exact ⟨_, rfl, rfl⟩
  obtain ⟨v, hv, hf⟩ := this
  unfold moveHelixTo
  rw [hv]
  refine ⟨_, _, rfl, ?_⟩
  cases upd <;> exact hf

end Verif
