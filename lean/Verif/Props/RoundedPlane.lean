import Verif.Lemmas.PlaneCrossing
import Verif.Lemmas.SurfaceHits

/-!
# Crossings with planes parallel to z in double precision: C143
-/

open Classical

noncomputable section

namespace Verif

open Dbl Rnd Spec Rounded

variable {fl : ℝ → ℝ} {lm : Libm} {at2 : ℝ → ℝ → ℝ}

section
variable {M om tl ph d z rx ry rz n0 n1 ox oy oz L : ℝ} {surf : Surface} {x y w : ℝ → ℝ}

theorem center_eq : rCx om ph d rx = rx - d * Real.sin ph + Real.sin ph / om ∧ rCy om ph d ry = ry + d * Real.cos ph - Real.cos ph / om := by
  unfold rCx rCy
  constructor <;> ring

/-- the points of the track are those of the circle -/
theorem track_circle (ho : om ≠ 0) (ht : Spec.IsTrack om tl ph (rx - d * Real.sin ph) (ry + d * Real.cos ph) (rz + z) x y w) (X Y : ℝ) :
    (X - rCx om ph d rx) ^ 2 + (Y - rCy om ph d ry) ^ 2 = |1 / om| ^ 2 ↔ ∃ t, x t = X ∧ y t = Y := by
  obtain ⟨e1, e2⟩ := center_eq (om := om) (ph := ph) (d := d) (rx := rx) (ry := ry)
  rw [e1, e2, sq_abs]
  constructor
  · intro h
    have k := side_center (r := 1 / om) (x0 := rx - d * Real.sin ph) (y0 := ry + d * Real.cos ph) (ph := ph) (X := X) (Y := Y) ho (by rw [h])
    rw [sub_self, mul_zero] at k
    obtain ⟨t, ht⟩ := near_track (ε := 0) ht (by rw [k, abs_zero])
    have k0 := (Real.sqrt_eq_zero (add_nonneg (sq_nonneg _) (sq_nonneg _))).1 (le_antisymm ht (Real.sqrt_nonneg _))
    have k1 := sq_nonneg (X - x t)
    have k2 := sq_nonneg (Y - y t)
    have k3 : (X - x t) ^ 2 = 0 := by linarith
    have k4 : (Y - y t) ^ 2 = 0 := by linarith
    exact ⟨t, by linarith [pow_eq_zero_iff (two_ne_zero) |>.1 k3], by linarith [pow_eq_zero_iff (two_ne_zero) |>.1 k4]⟩
  · rintro ⟨t, rfl, rfl⟩
    have k0 : 0 ≤ (x t - (rx - d * Real.sin ph + Real.sin ph / om)) ^ 2 + (y t - (ry + d * Real.cos ph - Real.cos ph / om)) ^ 2 :=
      add_nonneg (sq_nonneg _) (sq_nonneg _)
    have k := side_center (r := √((x t - (rx - d * Real.sin ph + Real.sin ph / om)) ^ 2 + (y t - (ry + d * Real.cos ph - Real.cos ph / om)) ^ 2))
      (x0 := rx - d * Real.sin ph) (y0 := ry + d * Real.cos ph) (ph := ph) (X := x t) (Y := y t) ho (by rw [Real.sq_sqrt k0])
    rw [side_track ht t, Real.sq_sqrt k0] at k
    rcases mul_eq_zero.1 k.symm with q | q
    · exact absurd q ho
    · linarith

/-- a candidate is next to the plane and next to the track -/
theorem candidate_near (ho : om ≠ 0) (L0 : 0 < L) {A q σ X Y : ℝ} (A5 : A ≤ 201 / 200)
    (ht : Spec.IsTrack om tl ph (rx - d * Real.sin ph) (ry + d * Real.cos ph) (rz + z) x y w)
    (hc : NearCross A (3 * L) (rCx om ph d rx) (rCy om ph d ry) |1 / om| n0 n1 (ox * n0 + oy * n1) q σ X Y) :
    |n0 * (X - ox) + n1 * (Y - oy)| ≤ 1 / 2 ^ 43 * L ∧ ∃ t, √((X - x t) ^ 2 + (Y - y t) ^ 2) ≤ 1 / 2 ^ 40 * (|om| * L ^ 2) := by
  constructor
  · rw [show n0 * (X - ox) + n1 * (Y - oy) = n0 * X + n1 * Y - (ox * n0 + oy * n1) by ring]
    refine hc.line.trans ?_
    have k := mul_le_mul_of_nonneg_right A5 (show 0 ≤ 3 * L by linarith)
    have k1 := mul_le_mul_of_nonneg_left k (show (0 : ℝ) ≤ 202 * (1 / 2 ^ 53) by positivity)
    refine k1.trans ?_
    rw [show (202 : ℝ) * (1 / 2 ^ 53) * (201 / 200 * (3 * L)) = (202 * (1 / 2 ^ 53) * (201 / 200 * 3)) * L by ring]
    exact mul_le_mul_of_nonneg_right (by norm_num) L0.le
  · refine near_track ht ?_
    obtain ⟨e1, e2⟩ := center_eq (om := om) (ph := ph) (d := d) (rx := rx) (ry := ry)
    have k := hc.circ
    rw [e1, e2, sq_abs] at k
    have k0 : 0 ≤ (X - (rx - d * Real.sin ph + Real.sin ph / om)) ^ 2 + (Y - (ry + d * Real.cos ph - Real.cos ph / om)) ^ 2 :=
      add_nonneg (sq_nonneg _) (sq_nonneg _)
    rw [side_center (r := √((X - (rx - d * Real.sin ph + Real.sin ph / om)) ^ 2 + (Y - (ry + d * Real.cos ph - Real.cos ph / om)) ^ 2)) ho
      (by rw [Real.sq_sqrt k0]), Real.sq_sqrt k0, abs_mul]
    refine (mul_le_mul_of_nonneg_left k (abs_nonneg om)).trans ?_
    rw [show |om| * (640 * (1 / 2 ^ 53) * (3 * L) ^ 2) = (640 * (1 / 2 ^ 53) * 9) * (|om| * L ^ 2) by ring]
    exact mul_le_mul_of_nonneg_right (by norm_num) (by positivity)

/-- C143 (partial): in double precision a crossing reported by `intersectWithZPlane` is next to the plane and next to the track, whatever the
mode; its path length and its z coordinate are those computed for this point.  L is the size of the geometry including the radius of the track.
For tracks that touch the plane up to the threshold 1e-9 of the code and the rounding errors the point can be NaN.  Missing: a bound without the radius of the track (C143_false),
normals to the other side (C33_false). -/
theorem C143_points_partial (h : NearestF 53 1074 fl) (hl : IsLibm lm) (hr : PlaneRange M d rx ry n0 n1 ox oy) (o1 : 1 / 2 ^ 90 ≤ |om|)
    (o2 : |om| ≤ 2 ^ 90) (eL : L = M + 1 / |om|) (hn : surf.normal V3.zero = V3.re n0 n1 0) (ho : surf.origin = V3.re ox oy oz)
    {s : Dbl} {xx : V3} {mode : ℤ} {cb : Bool} {hit : Hit}
    (hh : Rnd.intersectWithZPlane fl lm at2 surf (hpR om tl ph d z) (V3.re rx ry rz) s xx mode cb = .ok hit) (hf : hit.found = true)
    (ht : Spec.IsTrack om tl ph (rx - d * Real.sin ph) (ry + d * Real.cos ph) (rz + z) x y w) :
    ((∃ X Y t, hit.xx.x = fin X ∧ hit.xx.y = fin Y ∧ |n0 * (X - ox) + n1 * (Y - oy)| ≤ 1 / 2 ^ 43 * L ∧
        √((X - x t) ^ 2 + (Y - y t) ^ 2) ≤ 1 / 2 ^ 40 * (|om| * L ^ 2)) ∨
      (hit.xx.x = nan ∧ hit.xx.y = nan ∧
        |clDisc (rCx om ph d rx) (rCy om ph d ry) (1 / |om|) n0 n1 (ox * n0 + oy * n1)| ≤ 11 / 10 ^ 10 + 1 / 2 ^ 42 * L ^ 2)) ∧
    hit.s = Rnd.calculateSfromXY fl lm at2 hit.xx.x hit.xx.y (hpR om tl ph d z) (V3.re rx ry rz) ∧
    hit.xx.z = Rnd.calculateZfromS fl hit.s (hpR om tl ph d z) (V3.re rx ry rz) ∧ (cb = true → surf.insideBounds hit.xx = true) := by
  have om0 : om ≠ 0 := abs_pos.1 (lt_of_lt_of_le (by positivity) o1)
  obtain ⟨l, A, disc, q, X1, Y1, X2, Y2, L0, A1, A2, A4, A5, A6, hcall, hΔ, hcase⟩ := plane_step (at2 := at2) h hl hr o1 o2 eL hn ho tl ph z rz
  rw [hcall] at hh
  obtain ⟨mem, g⟩ := tail_found hh hf
  refine ⟨?_, g⟩
  have fine : ∀ {σ X Y : ℝ}, NearCross A (3 * L) (rCx om ph d rx) (rCy om ph d ry) |1 / om| n0 n1 (ox * n0 + oy * n1) q σ X Y →
      (hit.xx.x, hit.xx.y) = (fin X, fin Y) → ∃ X Y t, hit.xx.x = fin X ∧ hit.xx.y = fin Y ∧ |n0 * (X - ox) + n1 * (Y - oy)| ≤ 1 / 2 ^ 43 * L ∧
        √((X - x t) ^ 2 + (Y - y t) ^ 2) ≤ 1 / 2 ^ 40 * (|om| * L ^ 2) := fun hc e => by
    obtain ⟨c1, t, c2⟩ := candidate_near om0 L0 A5 ht hc
    injection e with e1 e2
    exact ⟨_, _, t, e1, e2, c1, c2⟩
  rcases hcase with ⟨neg, ⟨e, -⟩ | ⟨e, k⟩⟩ | ⟨-, -, -, c1, c2, ⟨e, -⟩ | ⟨e, -⟩⟩
  · rw [e] at mem
    cases mem
  · rw [e, List.mem_singleton] at mem
    injection mem with m1 m2
    refine .inr ⟨m1, m2, ?_⟩
    rw [abs_div, abs_one] at hΔ
    have k1 : 175 * (1 / 2 ^ 53) * (A * (3 * L)) ^ 2 ≤ 1 / 2 ^ 42 * L ^ 2 := by
      rw [show 175 * (1 / 2 ^ 53) * (A * (3 * L)) ^ 2 = (175 * (1 / 2 ^ 53) * 9) * A ^ 2 * L ^ 2 by ring]
      refine mul_le_mul_of_nonneg_right ?_ (by positivity)
      exact (mul_le_mul_of_nonneg_left A6 (by positivity)).trans (by norm_num)
    have k2 := abs_le.1 (hΔ.trans k1)
    exact abs_le.2 ⟨by linarith [k2.1, k2.2], by linarith [k2.1, k2.2, show (0 : ℝ) < 11 / 10 ^ 10 by norm_num]⟩
  · rw [e, List.mem_singleton] at mem
    exact .inl (fine c1 mem)
  · rw [e] at mem
    rcases List.mem_cons.1 mem with m | m
    · exact .inl (fine c1 m)
    · exact .inl (fine c2 (List.mem_singleton.1 m))

/-- C143, no crossing: if all points of the track are at a distance of at least ε from the plane, with ε/|omega| above the threshold of the code
and the rounding errors, none is reported, and the variables `s` and `xx` keep their content. -/
theorem C143_none (h : NearestF 53 1074 fl) (hl : IsLibm lm) (hr : PlaneRange M d rx ry n0 n1 ox oy) (o1 : 1 / 2 ^ 90 ≤ |om|)
    (o2 : |om| ≤ 2 ^ 90) (eL : L = M + 1 / |om|) (hn : surf.normal V3.zero = V3.re n0 n1 0) (ho : surf.origin = V3.re ox oy oz)
    (s : Dbl) (xx : V3) (mode : ℤ) (cb : Bool)
    (ht : Spec.IsTrack om tl ph (rx - d * Real.sin ph) (ry + d * Real.cos ph) (rz + z) x y w) {ε : ℝ}
    (hε : 2 / 10 ^ 9 + 1 / 2 ^ 42 * L ^ 2 ≤ ε / |om|) (hfar : ∀ t, ε ≤ |n0 * (x t - ox) + n1 * (y t - oy)|) :
    Rnd.intersectWithZPlane fl lm at2 surf (hpR om tl ph d z) (V3.re rx ry rz) s xx mode cb = .ok ⟨false, s, xx⟩ := by
  have o0 : 0 < |om| := lt_of_lt_of_le (by positivity) o1
  have om0 : om ≠ 0 := abs_pos.1 o0
  obtain ⟨l, A, disc, q, X1, Y1, X2, Y2, L0, A1, A2, A4, A5, A6, hcall, hΔ, hcase⟩ := plane_step (at2 := at2) h hl hr o1 o2 eL hn ho tl ph z rz
  have e0 : 0 < ε / |om| := lt_of_lt_of_le (by positivity) hε
  have ε0 : 0 < ε := (div_pos_iff_of_pos_right o0).1 e0
  have n2 : 0 < n0 ^ 2 + n1 ^ 2 := lt_of_lt_of_le (by norm_num) hr.hn1
  have far := circle_far (cx := rCx om ph d rx) (cy := rCy om ph d ry) (R := |1 / om|) (dd := ox * n0 + oy * n1) (abs_nonneg _) n2 ε0 (fun X Y hXY => by
    obtain ⟨t, rfl, rfl⟩ := (track_circle om0 ht X Y).1 hXY
    have := hfar t
    rwa [show n0 * (x t - ox) + n1 * (y t - oy) = n0 * x t + n1 * y t - (ox * n0 + oy * n1) by ring] at this)
  have w1 : 99 / 100 ≤ √(n0 ^ 2 + n1 ^ 2) := Real.le_sqrt_of_sq_le (le_trans (by norm_num) hr.hn1)
  have far' : clDisc (rCx om ph d rx) (rCy om ph d ry) |1 / om| n0 n1 (ox * n0 + oy * n1) ≤ -(ε / |om|) := by
    refine far.trans ?_
    rw [abs_div, abs_one, show 2 * ε * (1 / |om| * √(n0 ^ 2 + n1 ^ 2)) = 2 * (ε / |om|) * √(n0 ^ 2 + n1 ^ 2) by ring]
    nlinarith
  have k1 : 175 * (1 / 2 ^ 53) * (A * (3 * L)) ^ 2 ≤ 1 / 2 ^ 42 * L ^ 2 := by
    rw [show 175 * (1 / 2 ^ 53) * (A * (3 * L)) ^ 2 = (175 * (1 / 2 ^ 53) * 9) * A ^ 2 * L ^ 2 by ring]
    refine mul_le_mul_of_nonneg_right ?_ (by positivity)
    exact (mul_le_mul_of_nonneg_left A6 (by positivity)).trans (by norm_num)
  have k2 := (abs_le.1 (hΔ.trans k1)).2
  have big : 2 / 10 ^ 9 ≤ -disc := by linarith
  have c1 : (11 : ℝ) / 10 ^ 10 < 2 / 10 ^ 9 := by norm_num
  have c0 : (0 : ℝ) < 2 / 10 ^ 9 := by norm_num
  rw [hcall]
  rcases hcase with ⟨-, ⟨e, -⟩ | ⟨-, k⟩⟩ | ⟨k, -⟩
  · rw [e]
    rfl
  · linarith
  · linarith

/-- C143, crossing: if the track has points on both sides of the plane at a distance of at least ε, with ε/|omega| above the threshold of the
code and the rounding errors, a crossing is reported (without a condition on direction and bounds), and it is next to the plane and next to the
track. -/
theorem C143_found (h : NearestF 53 1074 fl) (hl : IsLibm lm) (hr : PlaneRange M d rx ry n0 n1 ox oy) (o1 : 1 / 2 ^ 90 ≤ |om|)
    (o2 : |om| ≤ 2 ^ 90) (eL : L = M + 1 / |om|) (hn : surf.normal V3.zero = V3.re n0 n1 0) (ho : surf.origin = V3.re ox oy oz)
    (s : Dbl) (xx : V3)
    (ht : Spec.IsTrack om tl ph (rx - d * Real.sin ph) (ry + d * Real.cos ph) (rz + z) x y w) {ε t1 t2 : ℝ}
    (hε : 2 / 10 ^ 9 + 1 / 2 ^ 42 * L ^ 2 ≤ ε / |om|) (h1 : n0 * (x t1 - ox) + n1 * (y t1 - oy) ≤ -ε) (h2 : ε ≤ n0 * (x t2 - ox) + n1 * (y t2 - oy)) :
    ∃ hit X Y t, Rnd.intersectWithZPlane fl lm at2 surf (hpR om tl ph d z) (V3.re rx ry rz) s xx 0 false = .ok hit ∧ hit.found = true ∧
      hit.xx.x = fin X ∧ hit.xx.y = fin Y ∧ |n0 * (X - ox) + n1 * (Y - oy)| ≤ 1 / 2 ^ 43 * L ∧
      √((X - x t) ^ 2 + (Y - y t) ^ 2) ≤ 1 / 2 ^ 40 * (|om| * L ^ 2) := by
  have o0 : 0 < |om| := lt_of_lt_of_le (by positivity) o1
  have om0 : om ≠ 0 := abs_pos.1 o0
  obtain ⟨l, A, disc, q, X1, Y1, X2, Y2, L0, A1, A2, A4, A5, A6, hcall, hΔ, hcase⟩ := plane_step (at2 := at2) h hl hr o1 o2 eL hn ho tl ph z rz
  have e0 : 0 < ε / |om| := lt_of_lt_of_le (by positivity) hε
  have ε0 : 0 < ε := (div_pos_iff_of_pos_right o0).1 e0
  have n2 : 0 < n0 ^ 2 + n1 ^ 2 := lt_of_lt_of_le (by norm_num) hr.hn1
  have acr := circle_across (cx := rCx om ph d rx) (cy := rCy om ph d ry) (R := |1 / om|) (dd := ox * n0 + oy * n1) (abs_nonneg _) n2 ε0.le
    ((track_circle om0 ht (x t1) (y t1)).2 ⟨t1, rfl, rfl⟩) ((track_circle om0 ht (x t2) (y t2)).2 ⟨t2, rfl, rfl⟩) (by linarith) (by linarith)
  have w1 : 99 / 100 ≤ √(n0 ^ 2 + n1 ^ 2) := Real.le_sqrt_of_sq_le (le_trans (by norm_num) hr.hn1)
  have acr' : 99 / 100 * (ε / |om|) ≤ clDisc (rCx om ph d rx) (rCy om ph d ry) |1 / om| n0 n1 (ox * n0 + oy * n1) := by
    refine le_trans ?_ acr
    rw [abs_div, abs_one, show ε * (1 / |om| * √(n0 ^ 2 + n1 ^ 2)) = (ε / |om|) * √(n0 ^ 2 + n1 ^ 2) by ring]
    nlinarith
  have k1 : 175 * (1 / 2 ^ 53) * (A * (3 * L)) ^ 2 ≤ 99 / 100 * (1 / 2 ^ 42 * L ^ 2) := by
    rw [show 175 * (1 / 2 ^ 53) * (A * (3 * L)) ^ 2 = (175 * (1 / 2 ^ 53) * 9) * A ^ 2 * L ^ 2 by ring, ← mul_assoc]
    refine mul_le_mul_of_nonneg_right ?_ (by positivity)
    exact (mul_le_mul_of_nonneg_left A6 (by positivity)).trans (by norm_num)
  have k2 := (abs_le.1 (hΔ.trans k1)).1
  have big : 99 / 100 * (2 / 10 ^ 9) ≤ disc := by linarith
  have c1 : (11 : ℝ) / 10 ^ 10 < 99 / 100 * (2 / 10 ^ 9) := by norm_num
  have c0 : (0 : ℝ) < 99 / 100 * (2 / 10 ^ 9) := by norm_num
  rcases hcase with ⟨neg, -⟩ | ⟨-, -, -, m1, m2, ⟨-, k⟩ | ⟨e, -⟩⟩
  · linarith
  · linarith
  obtain ⟨hit, q1, q2⟩ := tail_zero (fl := fl) (lm := lm) (at2 := at2) (surf := surf) (hp := hpR om tl ph d z) (rp := V3.re rx ry rz) (s := s) (xx := xx) (l := l)
    (by rw [e]; simp)
  obtain ⟨mem, -⟩ := tail_found q1 q2
  rw [e] at mem
  rcases List.mem_cons.1 mem with m | m
  · obtain ⟨d1, t, d2⟩ := candidate_near om0 L0 A5 ht m1
    injection m with m1 m2
    exact ⟨hit, X1, Y1, t, by rw [hcall]; exact q1, q2, m1, m2, d1, d2⟩
  · obtain ⟨d1, t, d2⟩ := candidate_near om0 L0 A5 ht m2
    injection List.mem_singleton.1 m with m1 m2
    exact ⟨hit, X2, Y2, t, by rw [hcall]; exact q1, q2, m1, m2, d1, d2⟩

/-- a crossing of the track and the plane in terms of the distance along the plane -/
theorem track_cross (om0 : om ≠ 0) (n2 : 0 < n0 ^ 2 + n1 ^ 2)
    (ht : Spec.IsTrack om tl ph (rx - d * Real.sin ph) (ry + d * Real.cos ph) (rz + z) x y w) {t v : ℝ}
    (ht0 : n0 * (x t - ox) + n1 * (y t - oy) = 0) (hv0 : HasDerivAt (fun t => n0 * (x t - ox) + n1 * (y t - oy)) v t) : ∃ κ, κ = -(v / om) ∧
      κ ^ 2 = clDisc (rCx om ph d rx) (rCy om ph d ry) |1 / om| n0 n1 (ox * n0 + oy * n1) ∧
      x t = rCx om ph d rx + (n0 * (ox * n0 + oy * n1 - (n0 * rCx om ph d rx + n1 * rCy om ph d ry)) + n1 * κ) * (1 / (n0 ^ 2 + n1 ^ 2)) ∧
      y t = rCy om ph d ry + (n1 * (ox * n0 + oy * n1 - (n0 * rCx om ph d rx + n1 * rCy om ph d ry)) - n0 * κ) * (1 / (n0 ^ 2 + n1 ^ 2)) := by
  obtain ⟨u1, u2, -⟩ := ht.unique (isTrack_r om0)
  have dv : v = n0 * Real.cos (ph - om * t) + n1 * Real.sin (ph - om * t) :=
    hv0.unique ((((ht.vel_x t).sub_const ox).const_mul n0).add (((ht.vel_y t).sub_const oy).const_mul n1))
  have a1 := rX_center (om := om) (ph := ph) (d := d) (rx := rx) (s := t)
  have a2 := rY_center (om := om) (ph := ph) (d := d) (ry := ry) (s := t)
  rw [← u1, mul_comm t om] at a1
  rw [← u2, mul_comm t om] at a2
  obtain ⟨X, hX⟩ : ∃ X, X = x t - rCx om ph d rx := ⟨_, rfl⟩
  obtain ⟨Y, hY⟩ : ∃ Y, Y = y t - rCy om ph d ry := ⟨_, rfl⟩
  have ex : x t = rCx om ph d rx + X := by rw [hX]; ring
  have ey : y t = rCy om ph d ry + Y := by rw [hY]; ring
  rw [← hX] at a1
  rw [← hY] at a2
  rw [ex, ey] at ht0
  have eF : ox * n0 + oy * n1 - (n0 * rCx om ph d rx + n1 * rCy om ph d ry) = n0 * X + n1 * Y := by linear_combination -ht0
  have eκ : -(v / om) = n1 * X - n0 * Y := by rw [dv, a1, a2]; ring
  have eR : X ^ 2 + Y ^ 2 = |1 / om| ^ 2 := by
    rw [sq_abs, a1, a2]
    linear_combination (1 / om) ^ 2 * Real.sin_sq_add_cos_sq (ph - om * t)
  refine ⟨_, rfl, ?_, ?_, ?_⟩
  · rw [clDisc, eF, eκ, ← eR]
    ring
  · rw [eF, eκ, ex]
    field_simp
    ring
  · rw [eF, eκ, ey]
    field_simp
    ring

/-- the error of a coordinate from the error of the root -/
theorem coord_near {σ ν P T cc ν' q S A n2 : ℝ} (L0 : 0 < L) (S0 : 0 < S) (SL : S ≤ 201 / 200 * L) (A6 : A ^ 2 ≤ 101 / 100) (hn : 99 / 100 ≤ n2)
    (hσ : |σ| = 1) (hν : |ν| ≤ 201 / 200) (qS : |q - S| ≤ 181 * (1 / 2 ^ 53) * (A * (3 * L)) ^ 2 / S)
    (hP : |P - (cc + (ν' + σ * (ν * q)) * (1 / n2))| ≤ 101 * (1 / 2 ^ 53) * (3 * L))
    (hT : T = cc + (ν' + σ * (ν * S)) * (1 / n2)) : |P - T| ≤ 1 / 2 ^ 42 * (L ^ 2 / S) := by
  have e1 : (cc + (ν' + σ * (ν * q)) * (1 / n2)) - T = σ * (ν * ((q - S) * (1 / n2))) := by rw [hT]; ring
  have e2 : |(cc + (ν' + σ * (ν * q)) * (1 / n2)) - T| ≤ 201 / 200 * (181 * (1 / 2 ^ 53) * (A * (3 * L)) ^ 2 / S * (100 / 99)) := by
    rw [e1, abs_mul, hσ, one_mul]
    refine abs_mul_le_of hν (abs_mul_le_of qS ?_)
    rw [abs_of_pos (by positivity), div_le_iff₀ (by linarith)]
    linarith
  refine (near_trans hP e2).trans ?_
  have LS : 0 ≤ L ^ 2 / S := by positivity
  have e4 : L ≤ 201 / 200 * (L ^ 2 / S) := by
    rw [show 201 / 200 * (L ^ 2 / S) = (201 / 200 * L) * L / S by ring, le_div_iff₀ S0, mul_comm]
    exact mul_le_mul_of_nonneg_right SL L0.le
  have e5 : 201 / 200 * (181 * (1 / 2 ^ 53) * (A * (3 * L)) ^ 2 / S * (100 / 99)) ≤ (201 / 200 * (181 * (1 / 2 ^ 53) * 9 * (101 / 100) * (100 / 99))) * (L ^ 2 / S) := by
    rw [show 201 / 200 * (181 * (1 / 2 ^ 53) * (A * (3 * L)) ^ 2 / S * (100 / 99)) =
      (201 / 200 * (181 * (1 / 2 ^ 53) * 9 * A ^ 2 * (100 / 99))) * (L ^ 2 / S) by ring]
    refine mul_le_mul_of_nonneg_right ?_ LS
    have := mul_le_mul_of_nonneg_left A6 (show (0 : ℝ) ≤ 201 / 200 * (181 * (1 / 2 ^ 53) * 9 * (100 / 99)) by positivity)
    linarith
  have e6 : 101 * (1 / 2 ^ 53) * (3 * L) ≤ (101 * (1 / 2 ^ 53) * 3 * (201 / 200)) * (L ^ 2 / S) := by
    have := mul_le_mul_of_nonneg_left e4 (show (0 : ℝ) ≤ 101 * (1 / 2 ^ 53) * 3 by positivity)
    linarith
  refine (add_le_add e6 e5).trans ?_
  rw [← add_mul]
  exact mul_le_mul_of_nonneg_right (by norm_num) LS

/-- C143, all crossings: if the track crosses the plane at one point with a velocity `c` along the normal (per unit of length in the transverse
plane) such that (c/omega)^2 is above the threshold of the code and the rounding errors, two points are computed, and each crossing is next to one of them: the ones where the
track leaves to the side of the normal next to one point, the others next to the other point.  The reported crossing is the chosen one. -/
theorem C143_all (h : NearestF 53 1074 fl) (hl : IsLibm lm) (hr : PlaneRange M d rx ry n0 n1 ox oy) (o1 : 1 / 2 ^ 90 ≤ |om|)
    (o2 : |om| ≤ 2 ^ 90) (eL : L = M + 1 / |om|) (hn : surf.normal V3.zero = V3.re n0 n1 0) (ho : surf.origin = V3.re ox oy oz)
    (ht : Spec.IsTrack om tl ph (rx - d * Real.sin ph) (ry + d * Real.cos ph) (rz + z) x y w) {t0 c : ℝ}
    (hon : n0 * (x t0 - ox) + n1 * (y t0 - oy) = 0) (hv : HasDerivAt (fun t => n0 * (x t - ox) + n1 * (y t - oy)) c t0)
    (hc : 2 / 10 ^ 9 + 1 / 2 ^ 42 * L ^ 2 ≤ (c / om) ^ 2) :
    ∃ X1 Y1 X2 Y2 : ℝ,
      (∀ t v, n0 * (x t - ox) + n1 * (y t - oy) = 0 → HasDerivAt (fun t => n0 * (x t - ox) + n1 * (y t - oy)) v t →
        (om * v < 0 → |X1 - x t| ≤ 1 / 2 ^ 42 * (|om| * L ^ 2 / |c|) ∧ |Y1 - y t| ≤ 1 / 2 ^ 42 * (|om| * L ^ 2 / |c|)) ∧
        (0 < om * v → |X2 - x t| ≤ 1 / 2 ^ 42 * (|om| * L ^ 2 / |c|) ∧ |Y2 - y t| ≤ 1 / 2 ^ 42 * (|om| * L ^ 2 / |c|)) ∧ v ≠ 0) ∧
      ∀ s1 s2 Z1 Z2, s1 = Rnd.calculateSfromXY fl lm at2 (fin X1) (fin Y1) (hpR om tl ph d z) (V3.re rx ry rz) →
        s2 = Rnd.calculateSfromXY fl lm at2 (fin X2) (fin Y2) (hpR om tl ph d z) (V3.re rx ry rz) →
        Z1 = Rnd.calculateZfromS fl s1 (hpR om tl ph d z) (V3.re rx ry rz) → Z2 = Rnd.calculateZfromS fl s2 (hpR om tl ph d z) (V3.re rx ry rz) →
        ∀ s xx mode cb,
          (planeSelect mode s1 s2 = none ∧ Rnd.intersectWithZPlane fl lm at2 surf (hpR om tl ph d z) (V3.re rx ry rz) s xx mode cb = .ok ⟨false, s, xx⟩) ∨
          (planeSelect mode s1 s2 = some true ∧ Rnd.intersectWithZPlane fl lm at2 surf (hpR om tl ph d z) (V3.re rx ry rz) s xx mode cb =
            .ok ⟨boundsOk surf cb ⟨fin X1, fin Y1, Z1⟩, s1, ⟨fin X1, fin Y1, Z1⟩⟩) ∨
          (planeSelect mode s1 s2 = some false ∧ Rnd.intersectWithZPlane fl lm at2 surf (hpR om tl ph d z) (V3.re rx ry rz) s xx mode cb =
            .ok ⟨boundsOk surf cb ⟨fin X2, fin Y2, Z2⟩, s2, ⟨fin X2, fin Y2, Z2⟩⟩) := by
  have o0 : 0 < |om| := lt_of_lt_of_le (by positivity) o1
  have om0 : om ≠ 0 := abs_pos.1 o0
  obtain ⟨l, A, disc, q, X1, Y1, X2, Y2, L0, A1, A2, A4, A5, A6, hcall, hΔ, hcase⟩ := plane_step (at2 := at2) h hl hr o1 o2 eL hn ho tl ph z rz
  have n2 : 0 < n0 ^ 2 + n1 ^ 2 := lt_of_lt_of_le (by norm_num) hr.hn1
  have cross := fun t v => track_cross (n0 := n0) (n1 := n1) (ox := ox) (oy := oy) (t := t) (v := v) om0 n2 ht
  obtain ⟨κ0, g1, g2, -, -⟩ := cross t0 c hon hv
  have Δc : clDisc (rCx om ph d rx) (rCy om ph d ry) |1 / om| n0 n1 (ox * n0 + oy * n1) = (c / om) ^ 2 := by rw [← g2, g1, neg_sq]
  rw [Δc] at hΔ cross
  have k1 : 175 * (1 / 2 ^ 53) * (A * (3 * L)) ^ 2 ≤ 1 / 2 ^ 42 * L ^ 2 := by
    rw [show 175 * (1 / 2 ^ 53) * (A * (3 * L)) ^ 2 = (175 * (1 / 2 ^ 53) * 9) * A ^ 2 * L ^ 2 by ring]
    refine mul_le_mul_of_nonneg_right ?_ (by positivity)
    exact (mul_le_mul_of_nonneg_left A6 (by positivity)).trans (by norm_num)
  have k2 := (abs_le.1 (hΔ.trans k1)).1
  have big : 2 / 10 ^ 9 ≤ disc := by linarith
  have c1 : (11 : ℝ) / 10 ^ 10 < 2 / 10 ^ 9 := by norm_num
  have c0 : (0 : ℝ) < 2 / 10 ^ 9 := by norm_num
  rcases hcase with ⟨neg, -⟩ | ⟨-, q0, hq, m1, m2, ⟨-, k⟩ | ⟨e, -⟩⟩
  · linarith
  · linarith
  -- the root
  obtain ⟨S, hS⟩ : ∃ S, S = |c| / |om| := ⟨_, rfl⟩
  have cn : c ≠ 0 := by
    rintro rfl
    rw [zero_div, zero_pow two_ne_zero] at hc
    have : 0 ≤ 1 / 2 ^ 42 * L ^ 2 := by positivity
    linarith
  have cp : 0 < |c| := abs_pos.2 cn
  have S0 : 0 < S := by rw [hS]; positivity
  have S2 : S ^ 2 = (c / om) ^ 2 := by rw [hS, ← abs_div, sq_abs]
  rw [← S2] at hΔ cross
  have qS : |q - S| ≤ 181 * (1 / 2 ^ 53) * (A * (3 * L)) ^ 2 / S := by
    have k3 : |q ^ 2 - S ^ 2| ≤ 181 * (1 / 2 ^ 53) * (A * (3 * L)) ^ 2 := (near_trans hq hΔ).trans (by linarith)
    rw [le_div_iff₀ S0]
    refine le_trans ?_ k3
    rw [show q ^ 2 - S ^ 2 = (q - S) * (q + S) by ring, abs_mul, abs_of_pos (show 0 < q + S by linarith)]
    exact mul_le_mul_of_nonneg_left (by linarith) (abs_nonneg _)
  have SL : S ≤ 201 / 200 * L := by
    refine abs_le_of_sq_le_sq' ?_ (by linarith) |>.2
    rw [S2, ← Δc, clDisc]
    have j1 := sq_nonneg (ox * n0 + oy * n1 - (n0 * rCx om ph d rx + n1 * rCy om ph d ry))
    have j2 : |1 / om| ≤ L := by
      rw [abs_div, abs_one]
      have := lt_of_lt_of_le (by positivity) hr.M1
      linarith
    have j3 : |1 / om| ^ 2 ≤ L ^ 2 := pow_le_pow_left₀ (abs_nonneg _) j2 2
    have j4 := mul_le_mul j3 hr.hn2 n2.le (by positivity)
    nlinarith
  have near : ∀ {σ ν P T cc ν' : ℝ}, |σ| = 1 → |ν| ≤ 201 / 200 →
      |P - (cc + (ν' + σ * (ν * q)) * (1 / (n0 ^ 2 + n1 ^ 2)))| ≤ 101 * (1 / 2 ^ 53) * (3 * L) →
      T = cc + (ν' + σ * (ν * S)) * (1 / (n0 ^ 2 + n1 ^ 2)) → |P - T| ≤ 1 / 2 ^ 42 * (|om| * L ^ 2 / |c|) := by
    have e3 : |om| * L ^ 2 / |c| = L ^ 2 / S := by rw [hS]; field_simp
    rw [e3]
    intro σ ν P T cc ν' hσ hν hP hT
    exact coord_near L0 S0 SL A6 hr.hn1 hσ hν qS hP hT
  obtain ⟨b0, b1⟩ := hr.comp
  refine ⟨X1, Y1, X2, Y2, fun t v hon' hv' => ?_, ?_⟩
  · obtain ⟨κ, w1, w2, w3, w4⟩ := cross t v hon' hv'
    have w2' := sq_eq_sq_iff_eq_or_eq_neg.1 w2
    have sgn : om * v = -(om ^ 2 * κ) := by rw [w1]; field_simp
    have o2' : 0 < om ^ 2 := by positivity
    refine ⟨fun hneg => ?_, fun hpos => ?_, ?_⟩
    · have κp : 0 < κ := by
        have : 0 < om ^ 2 * κ := by linarith
        exact (mul_pos_iff_of_pos_left o2').1 this
      have κS : κ = S := by rcases w2' with q | q <;> linarith
      rw [κS] at w3 w4
      exact ⟨near (σ := 1) (by norm_num) b1 m1.px (by rw [w3, one_mul]), near (σ := -1) (by norm_num) b0 m1.py (by rw [w4]; ring)⟩
    · have κn : κ < 0 := by
        have : om ^ 2 * κ < 0 := by linarith
        by_contra hk
        have := mul_nonneg o2'.le (not_lt.1 hk)
        linarith
      have κS : κ = -S := by rcases w2' with q | q <;> linarith
      rw [κS] at w3 w4
      exact ⟨near (σ := -1) (by norm_num) b1 m2.px (by rw [w3]; ring), near (σ := - -1) (by norm_num) b0 m2.py (by rw [w4]; ring)⟩
    · rintro rfl
      rw [zero_div, neg_zero] at w1
      rcases w2' with q | q <;> linarith
  · rintro s1 s2 Z1 Z2 rfl rfl rfl rfl s xx mode cb
    rw [hcall, e]
    simp only [planeTail]
    rcases planeSelect mode _ _ with _ | b
    · exact .inl ⟨rfl, rfl⟩
    · cases b
      · exact .inr (.inr ⟨rfl, rfl⟩)
      · exact .inr (.inl ⟨rfl, rfl⟩)

end

/-! ## choice, errors, straight tracks -/

/-- C143, choice between the two points: forward or backward the closest one in this direction, else the closest one; none if both are in the
unwanted direction. -/
theorem C143_select (mode : ℤ) (s0 s1 : ℝ) :
    (planeSelect mode (fin s0) (fin s1) = none ∧ ((0 < mode ∧ s0 < 0 ∧ s1 < 0) ∨ (mode < 0 ∧ 0 ≤ s0 ∧ 0 ≤ s1))) ∨
    ∃ b c o, planeSelect mode (fin s0) (fin s1) = some b ∧ ((b = true ∧ c = s0 ∧ o = s1) ∨ (b = false ∧ c = s1 ∧ o = s0)) ∧
      (0 < mode → 0 ≤ c ∧ (0 ≤ o → c ≤ o)) ∧ (mode < 0 → c < 0 ∧ (o < 0 → o ≤ c)) ∧ (mode = 0 → |c| ≤ |o|) := by
  rcases planeSelect_spec mode s0 s1 with ⟨e, k⟩ | ⟨e, k⟩ | ⟨e, k⟩
  · exact .inl ⟨e, k⟩
  · refine .inr ⟨true, s0, s1, e, .inl ⟨rfl, rfl, rfl⟩, k.1, k.2.1, fun hm => ?_⟩
    rcases k.2.2 hm with q | q
    · exact q.1
    · linarith [q.2]
  · refine .inr ⟨false, s1, s0, e, .inr ⟨rfl, rfl, rfl⟩, k.1, k.2.1, fun hm => ?_⟩
    rcases k.2.2 hm with q | q
    · exact q.1
    · linarith [q.2]

theorem abs_not_neg (t : Dbl) : ¬ Dbl.abs t < 0 := by
  rw [zero_eq]
  cases t with
  | fin t => rw [abs_fin, fin_lt]; exact not_lt.2 (abs_nonneg t)
  | inf s => simp [Dbl.abs]
  | nan => simp [Dbl.abs]

/-- C143: planes with a normal along z are rejected with an exception. -/
theorem C143_rejects (h : NearestF 53 1074 fl) {surf : Surface} {n0 n1 : ℝ} {nz : Dbl} (hn : surf.normal V3.zero = ⟨fin n0, fin n1, nz⟩)
    (h0 : |n0| ≤ 9 / 10 ^ 13) (h1 : |n1| ≤ 9 / 10 ^ 13) (hp : V5) (rp : V3) (s : Dbl) (xx : V3) (mode : ℤ) (cb : Bool) :
    ∃ m, Rnd.intersectWithZPlane fl lm at2 surf hp rp s xx mode cb = .throw m := by
  obtain ⟨t1, -⟩ := tinyNormalD_eq h
  have low : 9 / 10 ^ 13 < fl (1 / 10 ^ 12) := by
    have k := (abs_le.1 (err_double h (1 / 10 ^ 12))).1
    have : (1 : ℝ) / 2 ^ 1075 ≤ 1 / 2 ^ 100 := one_div_le_one_div_of_le (by positivity) (pow_le_pow_right₀ (by norm_num) (by norm_num))
    rw [abs_of_pos (by positivity)] at k
    have k2 : (1 : ℝ) / 2 ^ 53 * (1 / 10 ^ 12) + 1 / 2 ^ 100 < 1 / 10 ^ 13 := by norm_num
    have k3 : (9 : ℝ) / 10 ^ 13 = 1 / 10 ^ 12 - 1 / 10 ^ 13 := by norm_num
    rw [k3]
    generalize (1 : ℝ) / 2 ^ 1075 = w at *
    linarith
  refine ⟨"[straightLine::straightLine] Error: normal vector must be != zero.", ?_⟩
  unfold Rnd.intersectWithZPlane makeLine
  rw [hn, t1]
  simp only
  rw [cif_neg (abs_not_neg _), cif_pos]
  · rfl
  · rw [abs_fin, abs_fin, fin_lt, fin_lt]
    exact ⟨lt_of_le_of_lt h0 low, lt_of_le_of_lt h1 low⟩

/-- C143, straight tracks: the code takes a circle of radius 0 at the origin of the coordinates, so no crossing is reported for planes at a
distance from the origin of the coordinates, whether the track crosses them or not. -/
theorem C143_straight (h : NearestF 53 1074 fl) {M d rx ry n0 n1 ox oy oz : ℝ} {surf : Surface} (hr : PlaneRange M d rx ry n0 n1 ox oy)
    (hn : surf.normal V3.zero = V3.re n0 n1 0) (ho : surf.origin = V3.re ox oy oz)
    (hd : 2 / 10 ^ 9 + 1 / 2 ^ 42 * M ^ 2 ≤ (ox * n0 + oy * n1) ^ 2) (tl ph z rz : ℝ) (s : Dbl) (xx : V3) (mode : ℤ) (cb : Bool) :
    Rnd.intersectWithZPlane fl lm at2 surf (hpR 0 tl ph d z) (V3.re rx ry rz) s xx mode cb = .ok ⟨false, s, xx⟩ := by
  have M0 : 0 < M := lt_of_lt_of_le (by positivity) hr.M1
  have l1 := scale_mono (n := 91) hr.M1 (by norm_num)
  have l2 : M ≤ 2 ^ 91 := hr.M2.trans (pow_le_pow_right₀ (by norm_num) (by norm_num))
  obtain ⟨A, A1, A2, A3, A4, A5, A6⟩ := hr.max
  have A0 : 0 < A := by linarith
  obtain ⟨d0, e4, p0, f4⟩ := plane_dist h hr l1 l2 le_rfl oz
  have eo : Dbl.eqv (calculateOmega (hpR 0 tl ph d z)) 0 := by
    rw [zero_eq]
    show Dbl.eqv (fin 0) (fin 0)
    rw [fin_eqv]
  have ec : ¬ ¬ Dbl.eqv (calculateCurvature (hpR 0 tl ph d z)) 0 := not_not.2 eo
  have e1 : Rnd.calculateXCenter fl lm (hpR 0 tl ph d z) (V3.re rx ry rz) = fin 0 := by
    unfold Rnd.calculateXCenter
    simp only [cif_pos eo]
    exact zero_eq
  have e2 : Rnd.calculateYCenter fl lm (hpR 0 tl ph d z) (V3.re rx ry rz) = fin 0 := by
    unfold Rnd.calculateYCenter
    simp only [cif_pos eo]
    exact zero_eq
  have e3 : Rnd.calculateRadius fl (hpR 0 tl ph d z) = fin 0 := by
    unfold Rnd.calculateRadius
    simp only [cif_neg ec]
    exact zero_eq
  have uL : M * ((1 : ℝ) / 2 ^ 53) ≤ 1 / 100 * M := by
    rw [mul_comm]
    exact mul_le_mul_of_nonneg_right (by norm_num) M0.le
  have k2 : (61 : ℝ) / 10 * (M * (1 / 2 ^ 53)) ≤ 3 * (1 / 2 ^ 53) * (A * (3 * M)) := by
    have := mul_le_mul_of_nonneg_right A4 (show 0 ≤ M * ((1 : ℝ) / 2 ^ 53) by positivity)
    linarith
  have ddA : |ox * n0 + oy * n1| ≤ A * (2 * M) := by
    refine (abs_add_le _ _).trans ?_
    have j1 := abs_mul_le_of hr.hox A1
    have j2 := abs_mul_le_of hr.hoy A2
    linarith
  have cr : CrossRange A (3 * M) 0 0 0 n0 n1 d0 := by
    refine ⟨(show (1 : ℝ) / 2 ^ 100 ≤ 7 / 10 by norm_num).trans A4, A5.trans (by norm_num), ?_, ?_, A1, A2, A3, ?_, ?_, ?_, ?_⟩
    · have := scale_mono (n := 100) l1 (by norm_num)
      linarith
    · refine le_trans (show 3 * M ≤ 2 ^ 2 * 2 ^ 91 by linarith) ?_
      rw [← pow_add]
      exact pow_le_pow_right₀ (by norm_num) (by norm_num)
    · rw [abs_zero]; linarith
    · rw [abs_zero]; linarith
    · rw [abs_zero]; linarith
    · have := abs_near f4
      have : A * (2 * M) + 61 / 10 * (1 / 100 * M) ≤ A * (3 * M) := by nlinarith
      linarith
  have z3 : |(0 : ℝ) - 0| ≤ 3 * (1 / 2 ^ 53) * (3 * M) := by rw [sub_zero, abs_zero]; positivity
  obtain ⟨disc, q, X1, Y1, X2, Y2, h1, h2⟩ := line_candidates (cx := 0) (cy := 0) (R := 0) (dd := ox * n0 + oy * n1) h cr
    z3 z3 z3 (by rw [abs_zero]; linarith) (f4.trans k2)
  have k1 : 175 * (1 / 2 ^ 53) * (A * (3 * M)) ^ 2 ≤ 1 / 2 ^ 42 * M ^ 2 := by
    rw [show 175 * (1 / 2 ^ 53) * (A * (3 * M)) ^ 2 = (175 * (1 / 2 ^ 53) * 9) * A ^ 2 * M ^ 2 by ring]
    refine mul_le_mul_of_nonneg_right ?_ (by positivity)
    exact (mul_le_mul_of_nonneg_left (A3.trans hr.hn2) (by positivity)).trans (by norm_num)
  have k3 := (abs_le.1 (h1.trans k1)).2
  rw [clDisc, mul_zero, mul_zero, add_zero, sub_zero, zero_pow two_ne_zero, zero_mul, zero_sub] at k3
  have big : 2 / 10 ^ 9 ≤ -disc := by linarith
  have c1 : (11 : ℝ) / 10 ^ 10 < 2 / 10 ^ 9 := by norm_num
  have c0 : (0 : ℝ) < 2 / 10 ^ 9 := by norm_num
  rw [plane_call h hr hn le_rfl p0 e1 e2 e3 (by rw [ho]; exact e4)]
  rcases h2 with ⟨-, ⟨e, -⟩ | ⟨-, k⟩⟩ | ⟨k, -⟩
  · rw [e]
    rfl
  · linarith
  · linarith

/-! ## tracks of large radius -/

theorem repF_pow (n : ℕ) : RepF 53 1074 ((2 : ℝ) ^ n) := ⟨1, 1074 + n, by norm_num, by push_cast; rw [one_mul, ← pow_add, Nat.add_comm]⟩

/-- points at a distance from a circle -/
theorem circle_apart {R X Y a b x y : ℝ} (hR : 1 ≤ R) (hon : (x - a) ^ 2 + (y - b) ^ 2 = R ^ 2)
    (h : (X - a) ^ 2 + (Y - b) ^ 2 ≤ R ^ 2 - R ∨ R ^ 2 + R + 1 / 4 ≤ (X - a) ^ 2 + (Y - b) ^ 2) : 1 / 2 ≤ √((X - x) ^ 2 + (Y - y) ^ 2) := by
  refine Real.le_sqrt_of_sq_le ?_
  by_contra hlt
  have hlt := not_le.1 hlt
  have cs : |(X - x) * (x - a) + (Y - y) * (y - b)| < R / 2 := by
    refine abs_lt_of_sq_lt_sq ?_ (by linarith)
    have k1 : ((X - x) * (x - a) + (Y - y) * (y - b)) ^ 2 ≤ ((X - x) ^ 2 + (Y - y) ^ 2) * ((x - a) ^ 2 + (y - b) ^ 2) := by
      nlinarith [sq_nonneg ((X - x) * (y - b) - (Y - y) * (x - a))]
    rw [hon] at k1
    have k2 : ((X - x) ^ 2 + (Y - y) ^ 2) * R ^ 2 < (1 / 2) ^ 2 * R ^ 2 := mul_lt_mul_of_pos_right hlt (by positivity)
    linarith
  obtain ⟨c1, c2⟩ := abs_lt.1 cs
  have e : (X - a) ^ 2 + (Y - b) ^ 2 = R ^ 2 + 2 * ((X - x) * (x - a) + (Y - y) * (y - b)) + ((X - x) ^ 2 + (Y - y) ^ 2) := by
    rw [← hon]; ring
  have k := add_nonneg (sq_nonneg (X - x)) (sq_nonneg (Y - y))
  rcases h with h | h <;> rw [e] at h <;> norm_num at hlt <;> linarith

/-- C143 is false with the accuracy of the crossings with cylinders (C141): for a track of the radius 2^60 at the distance 1 from the
origin of the coordinates the centre is rounded by 1, and both computed points on the plane x = 1 are farther than 1/2 from the track.  Without
conditions on direction and bounds one of them is reported. -/
theorem C143_false (h : NearestF 53 1074 fl) (hc : CorrectLib fl lm at2) {surf : Surface} (hn : surf.normal V3.zero = V3.re 1 0 0)
    (ho : surf.origin = V3.re 1 0 0) (s : Dbl) (xx : V3) {x y w : ℝ → ℝ} (ht : Spec.IsTrack (1 / 2 ^ 60) 0 0 0 1 0 x y w) :
    ∃ hit X Y, Rnd.intersectWithZPlane fl lm at2 surf (hpR (1 / 2 ^ 60) 0 0 1 0) (V3.re 0 0 0) s xx 0 false = .ok hit ∧ hit.found = true ∧
      hit.xx.x = fin X ∧ hit.xx.y = fin Y ∧ (∀ t, 1 / 2 ≤ √((X - x t) ^ 2 + (Y - y t) ^ 2)) ∧
      1 / 2 ^ 42 * (1 * (1 + |(1 : ℝ) / 2 ^ 60| * 1)) < 1 / 2 := by
  have hr : PlaneRange 1 1 0 0 1 0 1 0 := ⟨by norm_num, by norm_num, by norm_num, by norm_num, by norm_num, by norm_num, by norm_num, by norm_num,
    by norm_num, by norm_num⟩
  have om0 : (1 : ℝ) / 2 ^ 60 ≠ 0 := by positivity
  have E : ∀ {t : ℝ}, RepF 53 1074 t → |t| ≤ 2 ^ 200 → rnd fl 1024 (fin t) = fin t := fun ht hs =>
    rnd_exact h ht (size_mono hs (by norm_num))
  have r60 : rnd fl 1024 (fin (2 ^ 60)) = fin (2 ^ 60) := E (repF_pow 60) (by norm_num)
  have r61 : rnd fl 1024 (fin (-2 ^ 61)) = fin (-2 ^ 61) := E (repF_neg (repF_pow 61)) (by norm_num)
  have m60 : rnd fl 1024 (fin (-2 ^ 60)) = fin (-2 ^ 60) := E (repF_neg (repF_pow 60)) (by norm_num)
  have r120 : rnd fl 1024 (fin (2 ^ 120)) = fin (2 ^ 120) := E (repF_pow 120) (by norm_num)
  have r0 : rnd fl 1024 (fin 0) = fin 0 := E repF_zero (by norm_num)
  have r1 : rnd fl 1024 (fin 1) = fin 1 := E repF_one (by norm_num)
  have b60 : rnd fl 1024 (fin (2 ^ 60 - 1)) = fin (2 ^ 60) := by
    rw [rnd_double h (size_mono (m := 100) (by norm_num) (by norm_num)), h.back (repF_pow 60) (by norm_num)]
  have b120 : rnd fl 1024 (fin (2 ^ 120 - 1)) = fin (2 ^ 120) := by
    rw [rnd_double h (size_mono (m := 200) (by norm_num) (by norm_num)), h.back (repF_pow 120) (by norm_num)]
  have s0 : lm.sin 0 = 0 := by rw [hc.sin, Real.sin_zero, h.fix repF_zero]
  have c0 : lm.cos 0 = 1 := by rw [hc.cos, Real.cos_zero, h.fix repF_one]
  have eo : ¬ Dbl.eqv (calculateOmega (hpR (1 / 2 ^ 60) 0 0 1 0)) 0 := by
    rw [zero_eq]
    show ¬ Dbl.eqv (fin (1 / 2 ^ 60)) (fin 0)
    rw [fin_eqv]
    exact om0
  have ec : ¬ Dbl.eqv (calculateCurvature (hpR (1 / 2 ^ 60) 0 0 1 0)) 0 := eo
  have inv : divD fl (fin 1) (fin (1 / 2 ^ 60)) = fin (2 ^ 60) := by
    rw [divD, fin_div _ om0, one_div_one_div, r60]
  have e1 : Rnd.calculateXCenter fl lm (hpR (1 / 2 ^ 60) 0 0 1 0) (V3.re 0 0 0) = fin 0 := by
    unfold Rnd.calculateXCenter
    simp only [cif_neg eo, one_eq]
    show addD fl (fin 0) (mulD fl (subD fl (divD fl (fin 1) (fin (1 / 2 ^ 60))) (fin 1)) (fin (lm.sin 0))) = fin 0
    rw [inv, s0, subD, fin_sub, b60, mulD, fin_mul, mul_zero, r0, addD, fin_add, add_zero, r0]
  have e2 : Rnd.calculateYCenter fl lm (hpR (1 / 2 ^ 60) 0 0 1 0) (V3.re 0 0 0) = fin (-2 ^ 60) := by
    unfold Rnd.calculateYCenter
    simp only [cif_neg eo, one_eq]
    show subD fl (fin 0) (mulD fl (subD fl (divD fl (fin 1) (fin (1 / 2 ^ 60))) (fin 1)) (fin (lm.cos 0))) = fin (-2 ^ 60)
    rw [inv, c0, subD, subD, fin_sub, b60, mulD, fin_mul, mul_one, r60, fin_sub, zero_sub, m60]
  have e3 : Rnd.calculateRadius fl (hpR (1 / 2 ^ 60) 0 0 1 0) = fin (2 ^ 60) := by
    unfold Rnd.calculateRadius
    simp only [cif_pos ec, one_eq]
    show Dbl.abs (divD fl (fin 1) (fin (1 / 2 ^ 60))) = _
    rw [inv, abs_fin, abs_of_pos (by positivity)]
  have e4 : Dbl.abs (dotV fl surf.origin (V3.re 1 0 0)) = fin 1 := by
    rw [ho]
    show Dbl.abs (addD fl (addD fl (mulD fl (fin 1) (fin 1)) (mulD fl (fin 0) (fin 0))) (mulD fl (fin 0) (fin 0))) = _
    simp only [mulD, addD, fin_mul, fin_add, mul_one, mul_zero, r0, r1, add_zero, abs_fin, abs_one]
  have list : Rnd.intersectCircleStraightLine fl ⟨fin 0, fin (-2 ^ 60), fin (2 ^ 60)⟩ ⟨fin 1, fin 0, fin 1⟩ = [(fin 1, fin (-2 ^ 61)), (fin 1, fin 0)] := by
    obtain ⟨t1, t2, -⟩ := tinyD_eq h
    have big : fl (1 / 10 ^ 9) < 2 ^ 120 := lt_of_le_of_lt t2 (by norm_num)
    have n1 : ¬ ((2 : ℝ) ^ 120 < 0 ∧ fl (1 / 10 ^ 9) < |(2 : ℝ) ^ 120|) := fun k => absurd k.1 (by norm_num)
    have n2 : ¬ |(2 : ℝ) ^ 120| ≤ fl (1 / 10 ^ 9) := by rw [abs_of_pos (by positivity)]; exact not_le.2 big
    have pw : (2 : ℝ) ^ 60 * 2 ^ 60 = 2 ^ 120 := by rw [← pow_add]
    have rt : √((2 : ℝ) ^ 120) = 2 ^ 60 := by rw [← pw, Real.sqrt_mul_self (by positivity)]
    have dbl : -(2 : ℝ) ^ 60 + -2 ^ 60 = -2 ^ 61 := by norm_num
    simp only [Rnd.intersectCircleStraightLine, moveLine, normalSquare, mulD, addD, subD, divD, sqrtD, fin_mul, fin_add, fin_sub, mul_zero, zero_mul, mul_one, one_mul,
      r0, r1, add_zero, sub_zero, zero_add, pw, r120, b120, t1, zero_eq, one_eq, fin_lt, fin_le, abs_fin, n1, n2, cif_false,
      sqrt_fin (show (0 : ℝ) ≤ 2 ^ 120 by positivity), rt, r60, fin_div _ (one_ne_zero), div_one, zero_sub, m60, dbl, r61, neg_add_cancel]
  obtain ⟨hit, q1, q2⟩ := tail_zero (fl := fl) (lm := lm) (at2 := at2) (surf := surf) (hp := hpR (1 / 2 ^ 60) 0 0 1 0) (rp := V3.re 0 0 0) (s := s) (xx := xx)
    (l := [(fin 1, fin (-2 ^ 61)), (fin 1, fin 0)]) (by simp)
  have call := plane_call (at2 := at2) h hr hn (by positivity) zero_le_one e1 e2 e3 e4 s xx 0 false
  rw [list] at call
  have on : ∀ t, (x t - 0) ^ 2 + (y t - (1 - 2 ^ 60)) ^ 2 = ((2 : ℝ) ^ 60) ^ 2 := fun t => by
    have k := (track_circle (om := 1 / 2 ^ 60) (ph := 0) (d := 1) (rx := 0) (ry := 0) (rz := 0) (z := 0) (tl := 0) (x := x) (y := y) (w := w) om0
      (by simpa using ht) (x t) (y t)).2 ⟨t, rfl, rfl⟩
    unfold rCx rCy at k
    rw [Real.sin_zero, Real.cos_zero, one_div_one_div, abs_of_pos (by positivity)] at k
    rw [← k]
    ring
  obtain ⟨mem, -⟩ := tail_found q1 q2
  rcases List.mem_cons.1 mem with m | m
  · injection m with m1 m2
    refine ⟨hit, 1, -2 ^ 61, by rw [call]; exact q1, q2, m1, m2, fun t => circle_apart (by norm_num) (on t) (.inr (by norm_num)), ?_⟩
    rw [abs_of_pos (by positivity)]
    norm_num
  · injection List.mem_singleton.1 m with m1 m2
    refine ⟨hit, 1, 0, by rw [call]; exact q1, q2, m1, m2, fun t => circle_apart (by norm_num) (on t) (.inl (by norm_num)), ?_⟩
    rw [abs_of_pos (by positivity)]
    norm_num

/-! ## concrete cases -/

/-- C143, concrete case: planes at the distance 30 cm from the origin, with a normal of length 1. -/
theorem plane_example : PlaneRange 30 0 0 0 (3 / 5) (4 / 5) 18 24 :=
  ⟨by norm_num, by norm_num, by norm_num, by norm_num, by norm_num, by norm_num, by norm_num, by norm_num, by norm_num, by norm_num⟩

/-- C143_found, concrete case: a track of radius 100 cm through the origin, with points 30 cm before and 110 cm behind the plane. -/
example : (1 : ℝ) / 2 ^ 90 ≤ |-1 / 100| ∧ |(-1 : ℝ) / 100| ≤ 2 ^ 90 ∧ 2 / 10 ^ 9 + 1 / 2 ^ 42 * (30 + 1 / |(-1 : ℝ) / 100|) ^ 2 ≤ 30 / |(-1 : ℝ) / 100| ∧
    (∃ t1, 3 / 5 * (rX (-1 / 100) 0 0 0 t1 - 18) + 4 / 5 * (rY (-1 / 100) 0 0 0 t1 - 24) ≤ -30) ∧
    ∃ t2, 30 ≤ 3 / 5 * (rX (-1 / 100) 0 0 0 t2 - 18) + 4 / 5 * (rY (-1 / 100) 0 0 0 t2 - 24) := by
  rw [abs_of_neg (by norm_num)]
  refine ⟨by norm_num, by norm_num, by norm_num, ⟨0, ?_⟩, 100 * (Real.pi / 2), ?_⟩
  · norm_num [rX, rY]
  · rw [rX, rY, show (0 : ℝ) - 100 * (Real.pi / 2) * (-1 / 100) = Real.pi / 2 by ring, Real.sin_pi_div_two, Real.cos_pi_div_two, Real.sin_zero, Real.cos_zero]
    norm_num

/-- C143_none, concrete case: a track that turns to the other side stays 10 cm away from the plane. -/
example : 2 / 10 ^ 9 + 1 / 2 ^ 42 * (30 + 1 / |(1 : ℝ) / 100|) ^ 2 ≤ 10 / |(1 : ℝ) / 100| ∧
    ∀ t, 10 ≤ |3 / 5 * (rX (1 / 100) 0 0 0 t - 18) + 4 / 5 * (rY (1 / 100) 0 0 0 t - 24)| := by
  rw [abs_of_pos (by norm_num)]
  refine ⟨by norm_num, fun t => ?_⟩
  rw [rX, rY, Real.sin_zero, Real.cos_zero]
  have k := Real.sin_sq_add_cos_sq (0 - t * (1 / 100))
  generalize Real.sin (0 - t * (1 / 100)) = a at *
  generalize Real.cos (0 - t * (1 / 100)) = b at *
  have k2 : -3 / 5 * a + 4 / 5 * b ≤ 1 := by nlinarith [sq_nonneg (3 / 5 * a + 3 / 5 * (3 / 5)), sq_nonneg (a + 3 / 5), sq_nonneg (b - 4 / 5)]
  rw [abs_of_neg (by norm_num; linarith)]
  norm_num
  linarith

/-- C143_straight, concrete case: a track along the x axis crosses the plane x = 30, and no crossing is reported. -/
example : PlaneRange 30 0 0 0 1 0 30 0 ∧ (2 : ℝ) / 10 ^ 9 + 1 / 2 ^ 42 * 30 ^ 2 ≤ (30 * 1 + 0 * 0) ^ 2 :=
  ⟨⟨by norm_num, by norm_num, by norm_num, by norm_num, by norm_num, by norm_num, by norm_num, by norm_num, by norm_num, by norm_num⟩, by norm_num⟩

end Verif
