import Verif.Model.RoundedAdd
import Verif.Props.RoundedPath
import Verif.Props.RoundedPrepare
import Verif.Props.Trajectory

/-!
# C167: positions and directions along a trajectory in double precision

`trajectory::pointAt`, `tangentAt` and `addElement` (core/src/trajectory.cc).  The element used is the last one that does not start behind the path
length; the helix of this element is evaluated at the remaining path length, whose rounding moves the result along the track.
-/

open Classical

noncomputable section

namespace Verif

open Dbl Rnd

variable {fl : ℝ → ℝ} {lm : Libm} {at2 : ℝ → ℝ → ℝ} {atn : ℝ → ℝ}

/-- C167: the element is the last one that does not start behind `s`, or the first one if all do. -/
theorem C167_element (h : NearestF 53 1074 fl) (t : Traj) (hne : t.elems ≠ []) {arc : ℕ → ℝ}
    (ha : ∀ (i : ℕ) (hi : i < t.elems.length), t.elems[i].arc = fin (arc i)) (hm : ∀ i j, i ≤ j → j < t.elems.length → arc i ≤ arc j)
    {s : ℝ} (hs : -(2 ^ 200) ≤ s) :
    ∃ (i : ℕ) (hi : i < t.elems.length), Rnd.elementAt fl t (fin s) = .ok t.elems[i] ∧ (∀ j, i < j → j < t.elems.length → s < arc j) ∧
      (i = 0 ∨ arc i ≤ s) := by
  have k2 : -(1e99 : Dbl) ≤ fin s := by
    have big : (2 : ℝ) ^ 200 ≤ 1e98 := by norm_num
    simp only [ofSci_eq, fin_neg, fin_le]
    norm_num at big hs ⊢
    linarith
  obtain ⟨i, hi, h1, h2, h3⟩ := C49_elementAt_partial t hne (fun e he => by
      obtain ⟨i, hi, rfl⟩ := List.getElem_of_mem he
      rw [ha i hi]
      exact .inr ⟨_, rfl⟩) (List.pairwise_iff_getElem.2 fun i j hi hj hij => by
      rw [ha i hi, ha j hj, fin_le]
      exact hm i j hij.le hj) (fin s) (.inr ⟨_, rfl⟩) k2
  refine ⟨i, hi, (elementAt_rounded h t hs).trans h1, fun j hij hj => ?_, ?_⟩
  · have := h2 j hj hij
    rwa [ha j hj, fin_lt] at this
  · rwa [ha i hi, fin_le] at h3

/-- a track in the transverse plane has unit speed -/
theorem track_moves {om tl ph x0 y0 z0 : ℝ} {x y w : ℝ → ℝ} (ht : Spec.IsTrack om tl ph x0 y0 z0 x y w) (a b : ℝ) :
    |x a - x b| ≤ |a - b| ∧ |y a - y b| ≤ |a - b| ∧ |w a - w b| ≤ |tl| * |a - b| := by
  have M : ∀ {f v : ℝ → ℝ} {C : ℝ}, (∀ s, HasDerivAt f (v s) s) → (∀ s, |v s| ≤ C) → |f a - f b| ≤ C * |a - b| := by
    intro f v C hf hv
    have := convex_univ.norm_image_sub_le_of_norm_hasDerivWithin_le (f := f) (f' := v) (s := Set.univ) (C := C) (x := b) (y := a)
      (fun s _ => (hf s).hasDerivWithinAt) (fun s _ => by rw [Real.norm_eq_abs]; exact hv s) trivial trivial
    simpa only [Real.norm_eq_abs] using this
  refine ⟨?_, ?_, M ht.vel_z fun _ => le_rfl⟩
  · simpa using M ht.vel_x fun s => Real.abs_cos_le_one _
  · simpa using M ht.vel_y fun s => Real.abs_sin_le_one _

/-- the remaining path length, rounded -/
theorem remaining (h : NearestF 53 1074 fl) {s a : ℝ} (hs : |s - a| ≤ 2 ^ 199) :
    ∃ r, subD fl (fin s) (fin a) = fin r ∧ |r - (s - a)| ≤ 1 / 2 ^ 53 * |s - a| + 1 / 2 ^ 1075 ∧ |r| ≤ 2 ^ 200 ∧
      |r| ≤ (1 + 1 / 2 ^ 53) * |s - a| + 1 / 2 ^ 1075 := by
  have e := err_double h (s - a)
  have t0 : (1 : ℝ) / 2 ^ 1075 ≤ 1 := by
    rw [div_le_one (by positivity)]
    exact one_le_pow₀ (by norm_num)
  have k : |fl (s - a)| ≤ (1 + 1 / 2 ^ 53) * |s - a| + 1 / 2 ^ 1075 := by
    have := abs_add_le (fl (s - a) - (s - a)) (s - a)
    rw [sub_add_cancel] at this
    linarith
  refine ⟨fl (s - a), ?_, e, ?_, k⟩
  · rw [subD, fin_sub]
    exact rnd_double h (size_mono hs (by norm_num))
  · generalize |s - a| = v at *
    generalize |fl (s - a)| = u at *
    norm_num at *
    linarith

/-- C167 (partial): `pointAt` is the point of the track of the element at the remaining path length, within the tolerance.  Missing: almost straight
tracks (`C132_false`), where the tolerance is larger than the path, and positions at added elements (`C167_added_false`). -/
theorem C167_position_partial (h : NearestF 53 1074 fl) (hl : IsLibm lm) {t : Traj} {e : Element} {om tl ph d z rx ry rz a s : ℝ}
    (he : Rnd.elementAt fl t (fin s) = .ok e) (ha : e.arc = fin a) (hp : e.tp.hp = hpR om tl ph d z) (rp : e.tp.rp = V3.re rx ry rz)
    (hr : HelixRange om tl ph d z rx ry rz (s - a)) (hs : |s - a| ≤ 2 ^ 199) {x y w : ℝ → ℝ}
    (ht : Spec.IsTrack om tl ph (rx - d * Real.sin ph) (ry + d * Real.cos ph) (rz + z) x y w) :
    ∃ X Y Z, Rnd.positionAt fl lm t (fin s) = .ok (V3.re X Y Z) ∧
      |X - x (s - a)| ≤ 1 / 2 ^ 53 * (3 * |rx| + 10 * |d| + (40 + 2 * |ph|) * |1 / om| + 6 * |s - a|) + 1 / 2 ^ 499 ∧
      |Y - y (s - a)| ≤ 1 / 2 ^ 53 * (3 * |ry| + 10 * |d| + (40 + 2 * |ph|) * |1 / om| + 6 * |s - a|) + 1 / 2 ^ 499 ∧
      |Z - w (s - a)| ≤ 1 / 2 ^ 53 * (3 * |rz| + 3 * |z| + 5 * |(s - a) * tl|) + 1 / 2 ^ 499 := by
  obtain ⟨r, r1, r2, r3, r4⟩ := remaining h hs
  have hom : om ≠ 0 := abs_pos.1 (lt_of_lt_of_le (by positivity) hr.om_pos)
  obtain ⟨X, Y, Z, p1, p2, p3, p4⟩ := C132_points_partial h hl
    ⟨hr.om_pos, hr.om, hr.tl, hr.ph, hr.d, hr.z, hr.rx, hr.ry, hr.rz, r3⟩ ht
  obtain ⟨m1, m2, m3⟩ := track_moves ht r (s - a)
  refine ⟨X, Y, Z, ?_, ?_⟩
  · rw [Rnd.positionAt, he]
    simp only [Out.ok_bind]
    rw [ha, hp, rp, r1, p1]
    rfl
  have o : |om * r| * |1 / om| = |r| := by
    rw [← abs_mul]
    congr 1
    field_simp
  have tiny0 : (1 : ℝ) / 2 ^ 1075 ≤ 1 / 2 ^ 510 := one_div_le_one_div_of_le (by positivity) (pow_le_pow_right₀ (by norm_num) (by norm_num))
  have tiny1 : |tl| * (1 / 2 ^ 1075) ≤ 1 / 2 ^ 510 := by
    have := tiny (t := tl) (size_mono hr.tl (by norm_num))
    rw [mul_comm]
    exact this.trans (one_div_le_one_div_of_le (by positivity) (pow_le_pow_right₀ (by norm_num) (by norm_num)))
  have tiny2 : (1 : ℝ) / 2 ^ 500 + 8 * (1 / 2 ^ 510) ≤ 1 / 2 ^ 499 := by
    rw [show (2 : ℝ) ^ 510 = 2 ^ 499 * 2 ^ 11 by rw [← pow_add], show (2 : ℝ) ^ 500 = 2 ^ 499 * 2 by rw [← pow_succ]]
    have : (0 : ℝ) < 1 / 2 ^ 499 := by positivity
    rw [← div_div, ← div_div]
    linarith
  have q : (40 + 2 * |ph| + 4 * |om * r|) * |1 / om| = (40 + 2 * |ph|) * |1 / om| + 4 * |r| := by
    rw [← o]
    ring
  rw [q] at p2 p3
  have tz : |r * tl| ≤ (1 + 1 / 2 ^ 53) * |(s - a) * tl| + 1 / 2 ^ 510 := by
    rw [abs_mul, abs_mul]
    have := mul_le_mul_of_nonneg_right r4 (abs_nonneg tl)
    linarith
  have tm : |tl| * |r - (s - a)| ≤ 1 / 2 ^ 53 * |(s - a) * tl| + 1 / 2 ^ 510 := by
    rw [abs_mul]
    have := mul_le_mul_of_nonneg_left r2 (abs_nonneg tl)
    linarith
  have tx := abs_sub_le X (x r) (x (s - a))
  have ty := abs_sub_le Y (y r) (y (s - a))
  have tw := abs_sub_le Z (w r) (w (s - a))
  have n1 := abs_nonneg (s - a)
  have n2 := abs_nonneg ((s - a) * tl)
  have n3 : (0 : ℝ) < 1 / 2 ^ 510 := by positivity
  clear he p1 o q hr r3 hs ht tiny1
  generalize (1 : ℝ) / 2 ^ 499 = T9 at *
  generalize (1 : ℝ) / 2 ^ 500 = T0 at *
  generalize (1 : ℝ) / 2 ^ 510 = T1 at *
  generalize (1 : ℝ) / 2 ^ 1075 = T2 at *
  generalize (40 + 2 * |ph|) * |1 / om| = K at *
  refine ⟨?_, ?_, ?_⟩
  · clear p3 p4 m2 m3 ty tw tz tm
    generalize |s - a| = v at *
    norm_num at *
    linarith
  · clear p2 p4 m1 m3 tx tw tz tm
    generalize |s - a| = v at *
    norm_num at *
    linarith
  · clear p2 p3 m1 m2 tx ty r2 r4
    norm_num at *
    linarith

/-- C167: `tangentAt` is the direction of the track of the element at the remaining path length, within the tolerance. -/
theorem C167_direction (h : NearestF 53 1074 fl) (hl : IsLibm lm) (hat : IsAtan atn) {t : Traj} {e : Element} {om tl ph d z x0 y0 z0 a s : ℝ}
    (he : Rnd.elementAt fl t (fin s) = .ok e) (ha : e.arc = fin a) (hp : e.tp.hp = hpR om tl ph d z) (ho : |om| ≤ 2 ^ 200) (hph : |ph| ≤ 2 ^ 28)
    (hos : |om * (s - a)| ≤ 2 ^ 25) (hs : |s - a| ≤ 2 ^ 199) {x y w : ℝ → ℝ} (ht : Spec.IsTrack om tl ph x0 y0 z0 x y w) {v : Fin 3 → ℝ}
    (vx : HasDerivAt x (v 0) (s - a)) (vy : HasDerivAt y (v 1) (s - a)) (vz : HasDerivAt w (v 2) (s - a)) :
    ∃ D : Fin 3 → ℝ, Rnd.tangentAt fl lm atn t (fin s) = .ok (V3.re (D 0) (D 1) (D 2)) ∧
      ∀ i, |D i - v i / Real.sqrt (v 0 ^ 2 + v 1 ^ 2 + v 2 ^ 2)| ≤ 1 / 2 ^ 53 * (14 + 2 * |ph| + 5 * |om * (s - a)|) := by
  obtain ⟨r, r1, r2, r3, r4⟩ := remaining h hs
  have c0 : v 0 = Real.cos (ph - om * (s - a)) := vx.unique (ht.vel_x _)
  have c1 : v 1 = Real.sin (ph - om * (s - a)) := vy.unique (ht.vel_y _)
  have c2 : v 2 = tl := vz.unique (ht.vel_z _)
  have cn : v 0 ^ 2 + v 1 ^ 2 + v 2 ^ 2 = 1 + tl ^ 2 := by
    rw [c0, c1, c2, Real.cos_sq_add_sin_sq]
  have n1 : 1 ≤ Real.sqrt (1 + tl ^ 2) := Real.one_le_sqrt.2 (by nlinarith [sq_nonneg tl])
  have dv : ∀ i, v i / Real.sqrt (v 0 ^ 2 + v 1 ^ 2 + v 2 ^ 2) = dirAt om tl ph (s - a) i := by
    intro i
    rw [cn]
    fin_cases i
    · exact congrArg (· / _) c0
    · exact congrArg (· / _) c1
    · exact congrArg (· / _) c2
  have tiny0 : |om| * (1 / 2 ^ 1075) ≤ 1 / 2 ^ 100 := by
    have := tiny (t := om) (size_mono ho (by norm_num))
    rw [mul_comm]
    exact this.trans (one_div_le_one_div_of_le (by positivity) (pow_le_pow_right₀ (by norm_num) (by norm_num)))
  have om1 : |om * (r - (s - a))| ≤ 1 / 2 ^ 53 * |om * (s - a)| + 1 / 2 ^ 100 := by
    rw [abs_mul, abs_mul]
    have := mul_le_mul_of_nonneg_left r2 (abs_nonneg om)
    linarith
  have om2 : |om * r| ≤ (1 + 1 / 2 ^ 53) * |om * (s - a)| + 1 / 2 ^ 100 := by
    have := abs_add_le (om * (r - (s - a))) (om * (s - a))
    rw [← mul_add, sub_add_cancel] at this
    linarith
  have n0 := abs_nonneg (om * (s - a))
  have om3 : |om * r| ≤ 2 ^ 26 := by
    generalize |om * r| = u at *
    generalize |om * (s - a)| = u' at *
    clear * - om2 hos n0
    norm_num at *
    linarith
  obtain ⟨D, p1, p2⟩ := C144_tangent (tl := tl) (d := d) (z := z) h hl hat hph om3
  refine ⟨D, ?_, fun i => ?_⟩
  · rw [Rnd.tangentAt, he]
    simp only [Out.ok_bind]
    rw [ha, hp, r1, p1]
    rfl
  · rw [dv]
    have m : |dirAt om tl ph r i - dirAt om tl ph (s - a) i| ≤ |om * (r - (s - a))| := by
      have dd : ∀ {u u' : ℝ}, |u - u'| ≤ |om * (r - (s - a))| → |u / Real.sqrt (1 + tl ^ 2) - u' / Real.sqrt (1 + tl ^ 2)| ≤ |om * (r - (s - a))| := by
        intro u u' k
        rw [← sub_div, abs_div, abs_of_pos (zero_lt_one.trans_le n1)]
        exact (div_le_self (abs_nonneg _) n1).trans k
      have an : |(ph - om * r) - (ph - om * (s - a))| = |om * (r - (s - a))| := by
        rw [← abs_neg]
        congr 1
        ring
      fin_cases i
      · exact dd ((Real.abs_cos_sub_cos_le _ _).trans an.le)
      · exact dd ((Real.abs_sin_sub_sin_le _ _).trans an.le)
      · exact dd (by rw [sub_self, _root_.abs_zero]; exact abs_nonneg _)
    have k := abs_sub_le (D i) (dirAt om tl ph r i) (dirAt om tl ph (s - a) i)
    have k' := p2 i
    generalize |om * r| = u at *
    generalize |om * (s - a)| = u' at *
    generalize |om * (r - (s - a))| = u'' at *
    clear * - k k' m om1 om2 n0
    norm_num at *
    linarith

/-- C167: without elements neither function is defined, for every rounding. -/
theorem C167_empty (t : Traj) (ht : t.elems = []) (s : Dbl) :
    (∃ m, Rnd.positionAt fl lm t s = .ub m) ∧ ∃ m, Rnd.tangentAt fl lm atn t s = .ub m := by
  have h0 : Rnd.elementAt fl t s = .ub "begin()+1 of an empty vector" := by
    unfold Rnd.elementAt
    rw [ht]
  exact ⟨⟨_, by unfold Rnd.positionAt; rw [h0]; rfl⟩, ⟨_, by unfold Rnd.tangentAt; rw [h0]; rfl⟩⟩

/-- C167 (partial): `addElement` appends one element without surface at the path length of the given point, counted from the start of the reference
track.  Missing: parameters at this point (`C167_added_false`) and almost straight tracks (`C136_false`). -/
theorem C167_added_partial (h : NearestF 53 1074 fl) (hl : IsLibm lm) (ha : IsAtan2 at2) {t : Traj} {om tl ph d z rx ry rz s ε X Y Z : ℝ}
    (hp : t.ref.hp = hpR om tl ph d z) (rp : t.ref.rp = V3.re rx ry rz) (hr : HelixRange om tl ph d z rx ry rz s) {x y w : ℝ → ℝ}
    (ht : Spec.IsTrack om tl ph (rx - d * Real.sin ph) (ry + d * Real.cos ph) (rz + z) x y w) (hph : |ph| ≤ Real.pi)
    (hos1 : 1 / 2 ^ 40 ≤ |om * s|) (hos2 : |om * s| ≤ 3) (hX : |X - x s| ≤ ε) (hY : |Y - y s| ≤ ε) (hε : ε ≤ |s| / 1000)
    (hfar : |rx| + |ry| + |d| ≤ 2 ^ 40 * |s|) (id : ℕ) :
    ∃ S e, Rnd.addElement fl lm at2 t (V3.re X Y Z) id = { t with elems := t.elems ++ [e] } ∧ e.arc = fin S ∧ e.tp = t.ref ∧ e.id = id ∧
      e.surface = none ∧ e.scatterer = false ∧ e.measurement = false ∧
      |S - s| ≤ 600 * ε + 1 / 2 ^ 53 * (3100 * |s| + 2100 * |d| + 900 * |rx| + 900 * |ry|) + 1 / 2 ^ 500 ∧
      (|om * s| ≤ 7 / 5 → |S - s| ≤ 30 * ε + 1 / 2 ^ 53 * (200 * |s| + 90 * |d| + 40 * |rx| + 40 * |ry|) + 1 / 2 ^ 500) := by
  have ε0 : 0 ≤ ε := (abs_nonneg _).trans hX
  rcases le_total |om * s| (7 / 5) with c | c
  · obtain ⟨S, k1, k2⟩ := C136_accurate_partial h hl ha hr ht hph hos1 c hX hY hε hfar
    refine ⟨S, Element.start (fin S) t.ref id, ?_, rfl, rfl, rfl, rfl, rfl, rfl, k2.trans ?_, fun _ => k2⟩
    · rw [Rnd.addElement, hp, rp]
      dsimp only [V3.re] at k1 ⊢
      rw [k1]
    · have a1 := abs_nonneg s
      have a2 := abs_nonneg d
      have a3 := abs_nonneg rx
      have a4 := abs_nonneg ry
      gcongr <;> norm_num
  · obtain ⟨S, k1, k2⟩ := C136_wide_partial h hl ha hr ht hph c hos2 hX hY hε hfar
    refine ⟨S, Element.start (fin S) t.ref id, ?_, rfl, rfl, rfl, rfl, rfl, rfl, k2, fun c' => ?_⟩
    · rw [Rnd.addElement, hp, rp]
      dsimp only [V3.re] at k1 ⊢
      rw [k1]
    · obtain ⟨S', q1, q2⟩ := C136_accurate_partial h hl ha hr ht hph hos1 c' hX hY hε hfar
      rw [k1, fin_inj] at q1
      rwa [q1]

/-- the claim: at the path length of an added element, `pointAt` is the point that has been added, within a tenth of the distance from the start -/
def C167_claim (fl : ℝ → ℝ) (lm : Libm) (at2 : ℝ → ℝ → ℝ) : Prop :=
  ∀ (ref : TP) (om tl ph d z rx ry rz s X Y Z : ℝ) (x y w : ℝ → ℝ) (mass : Dbl), ref.hp = hpR om tl ph d z → ref.rp = V3.re rx ry rz →
    HelixRange om tl ph d z rx ry rz s → Spec.IsTrack om tl ph (rx - d * Real.sin ph) (ry + d * Real.cos ph) (rz + z) x y w →
    |ph| ≤ Real.pi → 1 / 2 ^ 10 ≤ |om * s| → |om * s| ≤ 1 → |rx| + |ry| + |d| ≤ |s| → |X - x s| ≤ |s| / 2 ^ 40 → |Y - y s| ≤ |s| / 2 ^ 40 →
    |Z - w s| ≤ |s| / 2 ^ 40 →
    ∃ e X' Y' Z', (Rnd.addElement fl lm at2 ⟨ref, [], [], mass⟩ (V3.re X Y Z) 0).elems = [e] ∧
      Rnd.positionAt fl lm (Rnd.addElement fl lm at2 ⟨ref, [], [], mass⟩ (V3.re X Y Z) 0) e.arc = .ok (V3.re X' Y' Z') ∧ |X' - X| ≤ |s| / 10

/-- C167 is false: the added element has the parameters of the reference, so that `pointAt` is the start of the reference track there. -/
theorem C167_added_false (h : NearestF 53 1074 fl) (hl : IsLibm lm) (ha : IsAtan2 at2) : ¬ C167_claim fl lm at2 := by
  intro hc
  have hom : (1 : ℝ) ≠ 0 := one_ne_zero
  have big : ∀ {v : ℝ}, |v| ≤ 1 → |v| ≤ 2 ^ 200 := fun k => k.trans (one_le_pow₀ (by norm_num))
  have b0 : |(0 : ℝ)| ≤ 1 := by norm_num
  have b1 : |(1 : ℝ)| ≤ 1 := by norm_num
  have hr : ∀ {v : ℝ}, |v| ≤ 1 → HelixRange 1 0 0 0 0 0 0 0 v := fun k =>
    ⟨by rw [abs_one, div_le_one (by positivity)]; exact one_le_pow₀ (by norm_num), big b1, big b0, big b0, big b0, big b0, big b0, big b0, big b0, big k⟩
  have ht := isTrack_r (om := 1) (tl := 0) (ph := 0) (d := 0) (z := 0) (rx := 0) (ry := 0) (rz := 0) hom
  obtain ⟨x, y, w, ht⟩ : ∃ x y w, Spec.IsTrack 1 0 0 (0 - 0 * Real.sin 0) (0 + 0 * Real.cos 0) (0 + 0) x y w := ⟨_, _, _, ht⟩
  have z0 : |(0 : ℝ)| ≤ Real.pi := by rw [_root_.abs_zero]; exact Real.pi_pos.le
  have xs : ∀ s, x s = Real.sin s := by
    intro s
    obtain ⟨u1, -, -⟩ := ht.unique (isTrack_r (om := 1) (tl := 0) (ph := 0) (d := 0) (z := 0) (rx := 0) (ry := 0) (rz := 0) hom)
    have := congrFun u1 s
    simpa [rX] using this
  obtain ⟨e, X', Y', Z', e1, e2, e3⟩ := hc ⟨fun _ _ => 0, hpR 1 0 0 0 0, V3.re 0 0 0⟩ 1 0 0 0 0 0 0 0 1 (x 1) (y 1) (w 1) x y w 0 rfl rfl (hr b1) ht z0
    (by norm_num) (by norm_num) (by norm_num) (by rw [sub_self, _root_.abs_zero]; positivity) (by rw [sub_self, _root_.abs_zero]; positivity)
    (by rw [sub_self, _root_.abs_zero]; positivity)
  obtain ⟨S, e', f1, f2, f3, -, -, -, -, f4, -⟩ := C167_added_partial (t := ⟨⟨fun _ _ => 0, hpR 1 0 0 0 0, V3.re 0 0 0⟩, [], [], 0⟩) (ε := 0) (Z := w 1) h hl ha
    rfl rfl (hr b1) ht z0 (by norm_num) (by norm_num) (by rw [sub_self, _root_.abs_zero]) (by rw [sub_self, _root_.abs_zero]) (by norm_num) (by norm_num) 0
  rw [f1] at e1 e2
  obtain rfl : e' = e := by simpa using e1
  have tl0 : (1 : ℝ) / 2 ^ 500 ≤ 1 / 2 ^ 40 := one_div_le_one_div_of_le (by positivity) (pow_le_pow_right₀ (by norm_num) (by norm_num))
  have tl1 : (1 : ℝ) / 2 ^ 499 ≤ 1 / 2 ^ 40 := one_div_le_one_div_of_le (by positivity) (pow_le_pow_right₀ (by norm_num) (by norm_num))
  have S0 : -(2 ^ 200) ≤ S := by
    have := (abs_le.1 f4).1
    norm_num at this tl0 ⊢
    linarith
  obtain ⟨X, Y, Z, p1, p2, -, -⟩ := C167_position_partial (t := { (⟨⟨fun _ _ => 0, hpR 1 0 0 0 0, V3.re 0 0 0⟩, [], [], 0⟩ : Traj) with elems := [] ++ [e'] }) (e := e')
    (s := S) (a := S) h hl rfl f2 (by rw [f3]) (by rw [f3]) (hr (by rw [sub_self]; exact b0)) (by rw [sub_self, _root_.abs_zero]; positivity) ht
  rw [f2, p1] at e2
  injection e2 with e2
  have e4 : X = X' := by
    have := congrArg V3.x e2
    simpa [V3.re] using this
  rw [← e4, xs] at e3
  rw [sub_self, xs, Real.sin_zero] at p2
  have s1 : 1 / 2 < Real.sin 1 := by
    have := Real.sin_gt_sub_cube one_pos
    norm_num at this
    linarith
  have := abs_le.1 e3
  have q := abs_le.1 p2
  norm_num at this q tl1
  linarith [this.1, q.2]

/-- the hypotheses hold e.g. for two elements at 0 and 1 and the path length 3/2: the second element is used, half a unit of length from its start -/
example (h : NearestF 53 1074 fl) (hl : IsLibm lm) (hat : IsAtan atn) (tp : TP) :
    ∃ (t : Traj) (x y w : ℝ → ℝ) (X Y Z : ℝ) (D : Fin 3 → ℝ), t.elems.length = 2 ∧ Spec.IsTrack (1 / 2) 1 1 0 0 0 x y w ∧
      Rnd.positionAt fl lm t (fin (3 / 2)) = .ok (V3.re X Y Z) ∧ Rnd.tangentAt fl lm atn t (fin (3 / 2)) = .ok (V3.re (D 0) (D 1) (D 2)) ∧
      |X - x (1 / 2)| ≤ 1 / 2 ^ 45 ∧ |Y - y (1 / 2)| ≤ 1 / 2 ^ 45 ∧ |Z - 1 / 2| ≤ 1 / 2 ^ 45 ∧
      |D 0 - Real.cos (3 / 4) / Real.sqrt 2| ≤ 1 / 2 ^ 45 := by
  have hom : (1 / 2 : ℝ) ≠ 0 := by norm_num
  have big : ∀ {v : ℝ}, |v| ≤ 1 → |v| ≤ 2 ^ 200 := fun k => k.trans (one_le_pow₀ (by norm_num))
  have b0 : |(0 : ℝ)| ≤ 1 := by norm_num
  have b1 : |(1 : ℝ)| ≤ 1 := by norm_num
  have bh : |(1 / 2 : ℝ)| ≤ 1 := by norm_num [abs_of_pos]
  have bs : |(3 / 2 - 1 : ℝ)| ≤ 1 := by norm_num [abs_of_pos]
  obtain ⟨x, y, w, ht⟩ : ∃ x y w, Spec.IsTrack (1 / 2) 1 1 (0 - 0 * Real.sin 1) (0 + 0 * Real.cos 1) (0 + 0) x y w :=
    ⟨_, _, _, isTrack_r hom⟩
  let t : Traj := ⟨tp, [Element.start (fin 0) tp 0, Element.start (fin 1) ⟨tp.cov, hpR (1 / 2) 1 1 0 0, V3.re 0 0 0⟩ 1], [], 0⟩
  obtain ⟨i, hi, q1, q2, q3⟩ := C167_element h t (by simp [t]) (arc := fun i => i) (s := 3 / 2)
    (by
      intro i hi
      rcases i with _ | _ | i
      · simp [t, Element.start]
      · simp [t, Element.start]
      · simp [t] at hi)
    (by
      intro i j hij _
      exact_mod_cast hij) (by norm_num)
  have i1 : i = 1 := by
    rcases i with _ | _ | i
    · have := q2 1 (by norm_num) (by simp [t])
      norm_num at this
    · rfl
    · simp [t] at hi
  subst i1
  have hr : HelixRange (1 / 2) 1 1 0 0 0 0 0 (3 / 2 - 1) :=
    ⟨by
      rw [abs_of_pos (by norm_num)]
      exact one_div_le_one_div_of_le (by norm_num) (le_self_pow₀ (by norm_num) (by norm_num)), big bh, big b1, big b1, big b0, big b0, big b0, big b0, big b0, big bs⟩
  have s199 : |(3 / 2 - 1 : ℝ)| ≤ 2 ^ 199 := bs.trans (one_le_pow₀ (by norm_num))
  obtain ⟨X, Y, Z, p1, p2, p3, p4⟩ := C167_position_partial h hl q1 rfl rfl rfl hr s199 ht
  obtain ⟨D, d1, d2⟩ := C167_direction (tl := 1) (v := ![Real.cos (1 - 1 / 2 * (3 / 2 - 1)), Real.sin (1 - 1 / 2 * (3 / 2 - 1)), 1]) h hl hat q1 rfl rfl
    (big bh) (by norm_num) (by norm_num [abs_of_pos]) s199 ht (ht.vel_x _) (ht.vel_y _) (ht.vel_z _)
  have d0 := d2 0
  have w0 : w (3 / 2 - 1) = 1 / 2 := by
    obtain ⟨-, -, u3⟩ := ht.unique (isTrack_r (om := 1 / 2) (tl := 1) (ph := 1) (d := 0) (z := 0) (rx := 0) (ry := 0) (rz := 0) hom)
    have := congrFun u3 (3 / 2 - 1)
    rw [this, rZ]
    norm_num
  have tl1 : (1 : ℝ) / 2 ^ 499 ≤ 1 / 2 ^ 50 := one_div_le_one_div_of_le (by positivity) (pow_le_pow_right₀ (by norm_num) (by norm_num))
  have sq : (Real.cos (1 - 1 / 2 * (3 / 2 - 1)) ^ 2 + Real.sin (1 - 1 / 2 * (3 / 2 - 1)) ^ 2 + 1 ^ 2 : ℝ) = 2 := by
    rw [Real.cos_sq_add_sin_sq]
    norm_num
  have hf : (3 / 2 - 1 : ℝ) = 1 / 2 := by norm_num
  have hg : (1 - 1 / 2 * (1 / 2) : ℝ) = 3 / 4 := by norm_num
  rw [w0] at p4
  simp only [Matrix.cons_val_zero, Matrix.cons_val_one, Matrix.cons_val, sq] at d0
  rw [hf] at p2 p3 p4 d0
  rw [hg] at d0
  have a1 : |(1 / 2 : ℝ)| = 1 / 2 := by norm_num [abs_of_pos]
  have a2 : |(1 / (1 / 2) : ℝ)| = 2 := by norm_num [abs_of_pos]
  have a3 : |(1 / 2 * 1 : ℝ)| = 1 / 2 := by norm_num [abs_of_pos]
  have a4 : |(1 / 2 * (1 / 2) : ℝ)| = 1 / 4 := by norm_num [abs_of_pos]
  rw [a1, a2, abs_one, _root_.abs_zero] at p2 p3
  rw [a3, _root_.abs_zero] at p4
  rw [a4, abs_one] at d0
  refine ⟨t, x, y, w, X, Y, Z, D, rfl, by simpa using ht, p1, d1, p2.trans ?_, p3.trans ?_, p4.trans ?_, d0.trans ?_⟩
  all_goals (try generalize (1 : ℝ) / 2 ^ 499 = T at *); norm_num at tl1 ⊢; try linarith

end Verif
