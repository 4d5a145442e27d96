import Verif.Lemmas.RoundedNewton
import Verif.Props.RoundedHelix

/-!
# The Newton iteration in double precision: C144
-/

open Classical

noncomputable section

namespace Verif

open Dbl Rnd

variable {fl : ℝ → ℝ} {lm : Libm} {atn : ℝ → ℝ}

/-- the direction of a track at the path length `s`, a vector of length 1 -/
def dirAt (om tl ph s : ℝ) : Fin 3 → ℝ :=
  ![Real.cos (ph - om * s) / Real.sqrt (1 + tl ^ 2), Real.sin (ph - om * s) / Real.sqrt (1 + tl ^ 2), tl / Real.sqrt (1 + tl ^ 2)]

theorem tangent_ap (h : NearestF 53 1074 fl) (hl : IsLibm lm) (ha : IsAtan atn) {om tl ph d z s : ℝ} (hp : |ph| ≤ 2 ^ 28) (ho : |om * s| ≤ 2 ^ 26) :
    ApV 0 1 (Rnd.calculateTangent fl lm atn (fin s) (hpR om tl ph d z))
      ⟨fin (dirAt om tl ph s 0), fin (dirAt om tl ph s 1), fin (dirAt om tl ph s 2)⟩ 1 (13 + 2 * |ph| + 3 * |om * s|) := by
  have A := angle_ap h (ph := ph) (om := om) (s := s) (hp.trans (by norm_num)) (ho.trans (by norm_num))
  have L := atan_ap (fl := fl) ha tl
  have e1 : (Real.sqrt (1 + tl ^ 2))⁻¹ = Real.cos (Real.arctan tl) := by rw [Real.cos_arctan, one_div]
  have p0 := abs_nonneg ph
  have o0 := abs_nonneg (om * s)
  have C := Ap.cos hl A
  have S := Ap.sin hl A
  have Cl := Ap.cos hl L
  have Sl := Ap.sin hl L
  have M1 := Ap.mulr h C Cl (by norm_num) (by norm_num) (by norm_num at *; linarith) (by norm_num)
  have M2 := Ap.mulr h S Cl (by norm_num) (by norm_num) (by norm_num at *; linarith) (by norm_num)
  refine ⟨?_, ?_, ?_, ?_⟩
  · refine (show Ap 0 1 _ (fin (dirAt om tl ph s 0)) 1 _ from ?_)
    have e : fin (dirAt om tl ph s 0) = Dbl.cos (fin ph - fin om * fin s) * Dbl.cos (Dbl.atan (fin tl)) := by
      rw [dirAt, fin_mul, fin_sub]
      show fin (_ / _) = fin (_ * _)
      rw [div_eq_mul_inv, e1]
    rw [e]
    exact M1.mono (by norm_num) (by linarith)
  · have e : fin (dirAt om tl ph s 1) = Dbl.sin (fin ph - fin om * fin s) * Dbl.cos (Dbl.atan (fin tl)) := by
      rw [dirAt, fin_mul, fin_sub]
      show fin (_ / _) = fin (_ * _)
      rw [div_eq_mul_inv, e1]
    show Ap 0 1 _ (fin (dirAt om tl ph s 1)) 1 _
    rw [e]
    exact M2.mono (by norm_num) (by linarith)
  · have e : fin (dirAt om tl ph s 2) = Dbl.sin (Dbl.atan (fin tl)) := by
      show fin (tl / _) = fin (Real.sin (Real.arctan tl))
      rw [Real.sin_arctan]
    show Ap 0 1 _ (fin (dirAt om tl ph s 2)) 1 _
    rw [e]
    exact Sl.mono le_rfl (by linarith)
  · intro x y w he
    injection he with x1 x2 x3
    rw [fin_inj] at x1 x2 x3
    rw [← x1, ← x2, ← x3]
    show (_ / _) ^ 2 + (_ / _) ^ 2 + (_ / _) ^ 2 ≤ _
    have q : Real.sqrt (1 + tl ^ 2) ^ 2 = 1 + tl ^ 2 := Real.sq_sqrt (by positivity)
    rw [div_pow, div_pow, div_pow, q, ← add_div, ← add_div, Real.cos_sq_add_sin_sq, div_self (by positivity)]
    norm_num

/-- C144: `calculateTangent` is the direction of the track, up to rounding errors. -/
theorem C144_tangent (h : NearestF 53 1074 fl) (hl : IsLibm lm) (ha : IsAtan atn) {om tl ph d z s : ℝ} (hp : |ph| ≤ 2 ^ 28) (ho : |om * s| ≤ 2 ^ 26) :
    ∃ t : Fin 3 → ℝ, Rnd.calculateTangent fl lm atn (fin s) (hpR om tl ph d z) = V3.re (t 0) (t 1) (t 2) ∧
      ∀ i, |t i - dirAt om tl ph s i| ≤ 1 / 2 ^ 53 * (13 + 2 * |ph| + 3 * |om * s|) := by
  have T := tangent_ap (d := d) (z := z) (tl := tl) h hl ha hp ho
  obtain ⟨t0, x0, a0, b0, c0, -⟩ := T.x.val
  obtain ⟨t1, x1, a1, b1, c1, -⟩ := T.y.val
  obtain ⟨t2, x2, a2, b2, c2, -⟩ := T.z.val
  rw [fin_inj] at b0 b1 b2
  subst b0 b1 b2
  refine ⟨![t0, t1, t2], ?_, ?_⟩
  · generalize Rnd.calculateTangent fl lm atn (fin s) (hpR om tl ph d z) = v at *
    obtain ⟨vx, vy, vz⟩ := v
    simp only at a0 a1 a2
    subst a0 a1 a2
    rfl
  · intro i
    rw [mul_comm]
    fin_cases i
    · refine c0.trans (le_of_eq (by ring))
    · refine c1.trans (le_of_eq (by ring))
    · refine c2.trans (le_of_eq (by ring))

/-- C144: the loop ends after at most 101 evaluations of the distance, for every surface and every rounding. -/
theorem C144_terminates (fl : ℝ → ℝ) (lm : Libm) (atn : ℝ → ℝ) (surf : Surface) (hp : V5) (rp : V3) (s : Dbl) :
    ∃ st, Rnd.newtonLoop fl lm atn surf hp rp s = .ok st ∧ st.evals ≤ 101 := by
  obtain ⟨st, h, hi, -⟩ := newtonLoopD_ok fl lm atn surf hp rp s
  exact ⟨st, h, by rw [hi.evals]; exact hi.count⟩

theorem abs_lt_epsD (h : NearestF 53 1074 fl) {a : Dbl} (hlt : Dbl.abs a < newtonEps fl) :
    ∃ δ : ℝ, a = fin δ ∧ |δ| < 1 / 10000 + 1 / 2 ^ 60 := by
  obtain ⟨e, e1, e2⟩ := newtonEps_near h
  rw [e1] at hlt
  cases a with
  | fin x =>
    rw [abs_fin, fin_lt] at hlt
    rw [abs_le] at e2
    exact ⟨x, rfl, by linarith [e2.2]⟩
  | inf s => simp at hlt
  | nan => simp at hlt

/-- the rounding errors of the coordinates of a point of a track, added up (C132) -/
def pointSlack (om tl ph d z rx ry rz s : ℝ) : ℝ :=
  1 / 2 ^ 53 * (3 * (|rx| + |ry| + |rz|) + 20 * |d| + 3 * |z| + 3 * |s * tl| + 2 * ((40 + 2 * |ph| + 4 * |om * s|) * |1 / om|)) + 3 / 2 ^ 500

/-- C144: the call returns; if a crossing is reported then the direction is as required, the point is inside the bounds if this was requested, and
at the reported path length the track is closer to the surface than 1e-4 cm, up to rounding errors.  `F` is the distance from the surface; the surface
computes it with errors of at most `δ`. -/
theorem C144_accurate (h : NearestF 53 1074 fl) (hl : IsLibm lm) {surf : Surface} {F : ℝ → ℝ → ℝ → ℝ} {δ : ℝ}
    (hF : ∀ X Y Z t, surf.distance (V3.re X Y Z) = fin t → |t - F X Y Z| ≤ δ)
    (hL : ∀ X Y Z X' Y' Z', |F X Y Z - F X' Y' Z'| ≤ |X - X'| + |Y - Y'| + |Z - Z'|)
    {om tl ph d z rx ry rz : ℝ} {x y w : ℝ → ℝ} (ht : Spec.IsTrack om tl ph (rx - d * Real.sin ph) (ry + d * Real.cos ph) (rz + z) x y w)
    (s0 : Dbl) (xx : V3) (mode : ℤ) (cb : Bool) :
    ∃ hit, Rnd.intersectWithSurfaceNewton fl lm atn surf (hpR om tl ph d z) (V3.re rx ry rz) s0 xx mode cb = .ok hit ∧
      hit.xx = Rnd.pointAt fl lm hit.s (hpR om tl ph d z) (V3.re rx ry rz) ∧
      (hit.found = true → (mode = 0 ∨ 0 < fin (mode : ℝ) * hit.s) ∧ (cb = true → surf.insideBounds hit.xx = true) ∧
        ∀ s, hit.s = fin s → HelixRange om tl ph d z rx ry rz s →
          |F (x s) (y s) (w s)| < 1 / 10000 + 1 / 2 ^ 60 + δ + pointSlack om tl ph d z rx ry rz s) := by
  obtain ⟨st, e, hi, hd⟩ := newtonLoopD_ok fl lm atn surf (hpR om tl ph d z) (V3.re rx ry rz) s0
  unfold Rnd.intersectWithSurfaceNewton
  rw [e]
  simp only [Out.ok_bind]
  by_cases h1 : st.done = some true
  · rw [if_pos h1]
    by_cases h2 : modeOk mode st.s
    · rw [cif_pos h2]
      refine ⟨_, rfl, hi.cur, fun h3 => ⟨h2.symm, (boundsOk_iff _ _ _).1 h3, fun s hs hr => ?_⟩⟩
      obtain ⟨t, t1, t2⟩ := abs_lt_epsD h (hi.small h1)
      obtain ⟨X, Y, Z, p, q1, q2, q3⟩ := C132_points_partial h hl hr ht
      dsimp only at hs
      rw [hi.cur, hs, p] at t1
      have k1 := hF _ _ _ _ t1
      have k2 := hL (x s) (y s) (w s) X Y Z
      rw [abs_sub_comm (x s), abs_sub_comm (y s), abs_sub_comm (w s)] at k2
      have k3 := abs_near (near_trans k2 ((abs_sub_comm _ _).le.trans k1))
      unfold pointSlack
      generalize (1 : ℝ) / 2 ^ 60 = E at *
      rw [div_eq_mul_one_div (3 : ℝ)]
      generalize (1 : ℝ) / 2 ^ 500 = E2 at *
      generalize (1 : ℝ) / 2 ^ 53 = u at *
      linarith
    · rw [cif_neg h2]
      exact ⟨_, rfl, hi.cur, fun h3 => by simp at h3⟩
  · rw [if_neg h1]
    exact ⟨_, rfl, hi.cur, fun h3 => by simp at h3⟩

/-- the call, if the loop ends with success -/
theorem newton_call {surf : Surface} {hp : V5} {rp : V3} {s0 : Dbl} {st : NewtonState} {s : ℝ} (e : Rnd.newtonLoop fl lm atn surf hp rp s0 = .ok st)
    (e1 : st.done = some true) (e2 : st.s = fin s) (xx : V3) (mode : ℤ) (cb : Bool) :
    ∃ hit, Rnd.intersectWithSurfaceNewton fl lm atn surf hp rp s0 xx mode cb = .ok hit ∧ hit.s = fin s ∧ hit.xx = st.xx ∧
      (hit.found = true ↔ (mode = 0 ∨ 0 < (mode : ℝ) * s) ∧ (cb = true → surf.insideBounds hit.xx = true)) := by
  unfold Rnd.intersectWithSurfaceNewton
  rw [e, Out.ok_bind, if_pos e1, e2]
  by_cases hm : mode = 0 ∨ 0 < (mode : ℝ) * s
  · rw [cif_pos ((modeOk_fin _ _).mpr hm)]
    exact ⟨_, rfl, rfl, rfl, by simp only [boundsOk_iff, hm, true_and]⟩
  · rw [cif_neg (fun h => hm ((modeOk_fin _ _).mp h))]
    exact ⟨_, rfl, rfl, rfl, by simp [hm]⟩

/-- the point is near the track at the path length `s` -/
def NearTrack (x y w : ℝ → ℝ) (s X Y Z : ℝ) : Prop := |X - x s| ≤ 1e-7 ∧ |Y - y s| ≤ 1e-7 ∧ |Z - w s| ≤ 1e-7

/-- A track that crosses a surface at the path length `c`.  `F` is the distance from the surface and `D'` its derivative along the track.  Near the
track, at path lengths up to `R` away from `c`, the surface computes the distance with errors of at most 5e-7, and normals that are at most 2 long
and whose components along the track are close to the derivative of the distance: they are equal up to 39 %, anywhere in this range. -/
structure CrossedSurface (surf : Surface) (F : ℝ → ℝ → ℝ → ℝ) (D' : ℝ → ℝ) (om tl ph : ℝ) (x y w : ℝ → ℝ) (c R : ℝ) : Prop where
  lipschitz : ∀ X Y Z X' Y' Z', |F X Y Z - F X' Y' Z'| ≤ |X - X'| + |Y - Y'| + |Z - Z'|
  zero : F (x c) (y c) (w c) = 0
  deriv : ∀ s, |s - c| ≤ R → HasDerivAt (fun s => F (x s) (y s) (w s)) (D' s) s
  distance : ∀ s X Y Z, |s - c| ≤ R → NearTrack x y w s X Y Z → ∃ t, surf.distance (V3.re X Y Z) = fin t ∧ |t - F X Y Z| ≤ 5e-7
  normal : ∀ s X Y Z, |s - c| ≤ R → NearTrack x y w s X Y Z → ∃ n0 n1 n2 : ℝ, surf.normal (V3.re X Y Z) = V3.re n0 n1 n2 ∧
    n0 ^ 2 + n1 ^ 2 + n2 ^ 2 ≤ 2 ^ 2 ∧
    1e-3 ≤ |n0 * dirAt om tl ph s 0 + n1 * dirAt om tl ph s 1 + n2 * dirAt om tl ph s 2| ∧
    ∀ t, |t - c| ≤ R → |D' t - (n0 * dirAt om tl ph s 0 + n1 * dirAt om tl ph s 1 + n2 * dirAt om tl ph s 2)| ≤
      39 / 100 * |n0 * dirAt om tl ph s 0 + n1 * dirAt om tl ph s 1 + n2 * dirAt om tl ph s 2|

/-- sizes for which the search works: `R` and `c` in cm -/
structure SearchSizes (om tl ph d z rx ry rz c R : ℝ) : Prop where
  lo : 1 / 10 ≤ R
  hi : |c| + R ≤ 1e8
  phi : |ph| ≤ 2 ^ 20
  turn : ∀ s, |s - c| ≤ R → |om * s| ≤ 2 ^ 20
  range : ∀ s, |s - c| ≤ R → HelixRange om tl ph d z rx ry rz s
  slack : ∀ s, |s - c| ≤ R → pointSlack om tl ph d z rx ry rz s ≤ 1e-7

theorem slack_parts {a b e u η p q r t k : ℝ} (hu : 0 ≤ u) (hη : 0 ≤ η) (ha : 0 ≤ a) (hb : 0 ≤ b) (he : 0 ≤ e) (hp : 0 ≤ p) (hq : 0 ≤ q) (hr : 0 ≤ r)
    (hk : 0 ≤ k) (h : u * (3 * (a + b + e) + 20 * p + 3 * q + 3 * r + 2 * k) + 3 * η ≤ t) :
    u * (3 * a + 10 * p + k) + η ≤ t ∧ u * (3 * b + 10 * p + k) + η ≤ t ∧ u * (3 * e + 3 * q + 3 * r) + η ≤ t := by
  refine ⟨?_, ?_, ?_⟩ <;>
    nlinarith [mul_nonneg hu ha, mul_nonneg hu hb, mul_nonneg hu he, mul_nonneg hu hp, mul_nonneg hu hq, mul_nonneg hu hr, mul_nonneg hu hk]

theorem search_point (h : NearestF 53 1074 fl) (hl : IsLibm lm) {om tl ph d z rx ry rz c R : ℝ} {x y w : ℝ → ℝ}
    (ht : Spec.IsTrack om tl ph (rx - d * Real.sin ph) (ry + d * Real.cos ph) (rz + z) x y w) (hz : SearchSizes om tl ph d z rx ry rz c R)
    {s : ℝ} (hs : |s - c| ≤ R) :
    ∃ X Y Z, Rnd.pointAt fl lm (fin s) (hpR om tl ph d z) (V3.re rx ry rz) = V3.re X Y Z ∧ NearTrack x y w s X Y Z ∧
      |X - x s| + |Y - y s| + |Z - w s| ≤ 1e-7 := by
  obtain ⟨X, Y, Z, p, q1, q2, q3⟩ := C132_points_partial h hl (hz.range s hs) ht
  have k := hz.slack s hs
  unfold pointSlack at k
  rw [div_eq_mul_one_div (3 : ℝ)] at k
  obtain ⟨k1, k2, k3⟩ := slack_parts (by positivity) (by positivity) (abs_nonneg _) (abs_nonneg _) (abs_nonneg _) (abs_nonneg _) (abs_nonneg _)
    (abs_nonneg _) (by positivity) k
  refine ⟨X, Y, Z, p, ⟨q1.trans k1, q2.trans k2, q3.trans k3⟩, ?_⟩
  refine le_trans ?_ k
  generalize (1 : ℝ) / 2 ^ 500 = E2 at *
  generalize (1 : ℝ) / 2 ^ 53 = u at *
  linarith

theorem search_range (h : NearestF 53 1074 fl) (hl : IsLibm lm) (ha : IsAtan atn) {surf : Surface} {F : ℝ → ℝ → ℝ → ℝ} {D' : ℝ → ℝ}
    {om tl ph d z rx ry rz c R : ℝ} {x y w : ℝ → ℝ}
    (ht : Spec.IsTrack om tl ph (rx - d * Real.sin ph) (ry + d * Real.cos ph) (rz + z) x y w)
    (hz : SearchSizes om tl ph d z rx ry rz c R) (hc : CrossedSurface surf F D' om tl ph x y w c R) :
    SearchRange fl lm atn surf (hpR om tl ph d z) (V3.re rx ry rz) (fun s => F (x s) (y s) (w s)) D' c R := by
  have R0 : 0 < R := lt_of_lt_of_le (by norm_num) hz.lo
  refine ⟨le_trans (by norm_num) hz.lo, ?_, hc.deriv, hc.zero, fun s hs => ?_, fun s hs => ?_⟩
  · have k1 : R ≤ 1e8 := le_trans (by linarith [abs_nonneg c]) hz.hi
    exact k1.trans (by norm_num)
  · obtain ⟨X, Y, Z, p, q1, q2⟩ := search_point h hl ht hz hs
    obtain ⟨t, t1, t2⟩ := hc.distance s X Y Z hs q1
    refine ⟨t, by rw [p]; exact t1, ?_⟩
    refine (near_trans t2 (hc.lipschitz X Y Z (x s) (y s) (w s))).trans ?_
    refine (add_le_add le_rfl q2).trans ?_
    norm_num
  · obtain ⟨X, Y, Z, p, q1, q2⟩ := search_point h hl ht hz hs
    obtain ⟨n0, n1, n2, m1, m2, m3, m4⟩ := hc.normal s X Y Z hs q1
    have T := (tangent_ap (d := d) (z := z) (tl := tl) h hl ha (hz.phi.trans (by norm_num)) ((hz.turn s hs).trans (by norm_num))).mono le_rfl zero_le_one
      (show 13 + 2 * |ph| + 3 * |om * s| ≤ 2 ^ 23 by
        have := hz.phi
        have := hz.turn s hs
        norm_num at *
        linarith)
    have le2 : ∀ {a b e : ℝ}, a ^ 2 + b ^ 2 + e ^ 2 ≤ 2 ^ 2 → |a| ≤ 2 := fun {a b e} hh => by
      refine abs_le_of_sq_le_sq ?_ (by norm_num)
      nlinarith [sq_nonneg b, sq_nonneg e]
    have N : ApV 0 1 (V3.re n0 n1 n2) ⟨fin n0, fin n1, fin n2⟩ 2 0 := by
      refine ⟨Ap.unit (le2 m2), Ap.unit (le2 (a := n1) (b := n0) (e := n2) (by linarith)), Ap.unit (le2 (a := n2) (b := n0) (e := n1) (by linarith)), ?_⟩
      intro a b e he
      injection he with x1 x2 x3
      rw [fin_inj] at x1 x2 x3
      rw [← x1, ← x2, ← x3, mul_one]
      exact m2
    have P := ApV.dot h N T (by norm_num) (by norm_num) (by norm_num) (by norm_num) (by norm_num) (by norm_num)
    obtain ⟨g, G, g1, g2, g3, -⟩ := P.val
    have eG : n0 * dirAt om tl ph s 0 + n1 * dirAt om tl ph s 1 + n2 * dirAt om tl ph s 2 = G := by
      simp only [V3.dot, fin_mul, fin_add] at g2
      rw [fin_inj] at g2
      exact g2
    rw [eG] at m3 m4
    have g4 : |g - G| ≤ 1e-5 * |G| := by
      refine g3.trans ?_
      norm_num at *
      linarith
    have g5 : |G| ≤ |g| + 1e-5 * |G| := abs_near (by rw [abs_sub_comm]; exact g4)
    have g6 : |g| ≤ |G| + 1e-5 * |G| := abs_near g4
    have g7 : |G| ≤ 2 := by
      rw [← eG]
      have := inner_le (P := 2) (Q := 1) (by norm_num) (by norm_num) m2 (by
        have := T.len _ _ _ rfl
        rwa [mul_one] at this)
      linarith
    refine ⟨g, ?_, ?_, ?_, fun t htt => ?_⟩
    · rw [p, m1]
      exact g1
    · have := mul_le_mul (show (9e-4 : ℝ) ≤ |g| by norm_num at *; linarith) hz.lo (by norm_num) (abs_nonneg _)
      norm_num at *
      linarith
    · have := mul_le_mul (show |g| ≤ 3 by norm_num at *; linarith) hz.hi (by positivity) (by norm_num)
      norm_num at *
      linarith
    · have := near_trans (m4 t htt) ((abs_sub_comm _ _).le.trans g4)
      refine this.trans ?_
      norm_num at *
      linarith

/-- C144 (partial): the search finds the crossing from every start in the range, in at most 101 evaluations of the distance; the reported path length is closer to
`c` than 1.02e-4 divided by the slope of the distance.  Missing: straight tracks (`C144_false`), and steep ones (`C112_false`). -/
theorem C144_found_partial (h : NearestF 53 1074 fl) (hl : IsLibm lm) (ha : IsAtan atn) {surf : Surface} {F : ℝ → ℝ → ℝ → ℝ} {D' : ℝ → ℝ}
    {om tl ph d z rx ry rz c R : ℝ} {x y w : ℝ → ℝ}
    (ht : Spec.IsTrack om tl ph (rx - d * Real.sin ph) (ry + d * Real.cos ph) (rz + z) x y w)
    (hz : SearchSizes om tl ph d z rx ry rz c R) (hc : CrossedSurface surf F D' om tl ph x y w c R) {s0 : ℝ} (hs : |s0 - c| ≤ R)
    (xx : V3) (mode : ℤ) (cb : Bool) :
    ∃ hit s, Rnd.intersectWithSurfaceNewton fl lm atn surf (hpR om tl ph d z) (V3.re rx ry rz) (fin s0) xx mode cb = .ok hit ∧ hit.s = fin s ∧
      |s - c| ≤ R ∧ (∀ m, 0 < m → (∀ t, |t - c| ≤ R → m ≤ |D' t|) → |s - c| ≤ 1.02e-4 / m) ∧
      (hit.found = true ↔ (mode = 0 ∨ 0 < (mode : ℝ) * s) ∧ (cb = true → surf.insideBounds hit.xx = true)) := by
  have H := search_range h hl ha ht hz hc
  have R0 : 0 < R := lt_of_lt_of_le (by norm_num) hz.lo
  have cc : |c - c| ≤ R := by rw [sub_self, _root_.abs_zero]; exact R0.le
  obtain ⟨d0, e1, e2⟩ := H.dist s0 hs
  have hd0 : |d0| < 10 ^ 10 := by
    obtain ⟨g, -, -, g3, g4⟩ := H.slope s0 hs
    obtain ⟨ξ, i1, i2⟩ := chord H.deriv cc hs
    rw [hc.zero, sub_zero] at i2
    have k1 : |D' ξ| ≤ 7 / 5 * |g| := (abs_near (g4 ξ i1)).trans (by linarith)
    have k2 : |F (x s0) (y s0) (w s0)| ≤ 7 / 5 * (|g| * R) := by
      rw [i2, abs_mul, ← mul_assoc]
      exact mul_le_mul k1 hs (abs_nonneg _) (by positivity)
    have k3 : |g| * R ≤ 1e9 := le_trans (mul_le_mul_of_nonneg_left (by linarith [abs_nonneg c]) (abs_nonneg _)) g3
    have := abs_near e2
    norm_num at *
    linarith
  obtain ⟨st, s, f1, f2, f3, f4, f5, f6⟩ := approach_loop h H hs e1 hd0
  obtain ⟨hit, q1, q2, q3, q4⟩ := newton_call f1 f2 f3 xx mode cb
  refine ⟨hit, s, q1, q2, f5, fun m hm hm2 => ?_, q4⟩
  obtain ⟨t, t1, t2⟩ := abs_lt_epsD h f6
  obtain ⟨d1, u1, u2⟩ := H.dist s f5
  rw [f4, u1, fin_inj] at t1
  subst t1
  obtain ⟨ξ, i1, i2⟩ := chord H.deriv cc f5
  rw [hc.zero, sub_zero] at i2
  rw [i2] at u2
  have k1 : |D' ξ * (s - c)| ≤ |d1| + 1e-6 := abs_near (by rw [abs_sub_comm]; exact u2)
  have k2 := mul_le_mul_of_nonneg_right (hm2 ξ i1) (abs_nonneg (s - c))
  rw [abs_mul] at k1
  rw [le_div_iff₀ hm]
  norm_num at *
  linarith

/-- C144 for cones: the search starts at the crossing with the cylinder; what is reported as a crossing is as accurate. -/
theorem C144_cone (h : NearestF 53 1074 fl) (hl : IsLibm lm) {at2 : ℝ → ℝ → ℝ} {asn : ℝ → ℝ} {surf : Surface} {F : ℝ → ℝ → ℝ → ℝ} {δ : ℝ}
    (hF : ∀ X Y Z t, surf.distance (V3.re X Y Z) = fin t → |t - F X Y Z| ≤ δ)
    (hL : ∀ X Y Z X' Y' Z', |F X Y Z - F X' Y' Z'| ≤ |X - X'| + |Y - Y'| + |Z - Z'|)
    {om tl ph d z rx ry rz : ℝ} {x y w : ℝ → ℝ} (ht : Spec.IsTrack om tl ph (rx - d * Real.sin ph) (ry + d * Real.cos ph) (rz + z) x y w)
    (s0 : Dbl) (xx : V3) (mode : ℤ) (cb : Bool) (hit : Hit)
    (hc : Rnd.intersectWithZCone fl lm at2 asn atn surf (hpR om tl ph d z) (V3.re rx ry rz) s0 xx mode cb = .ok hit) (hf : hit.found = true) :
    (∃ hit0, Rnd.intersectWithZCylinder fl lm at2 asn surf (hpR om tl ph d z) (V3.re rx ry rz) s0 xx mode false = .ok hit0 ∧ hit0.found = true) ∧
      hit.xx = Rnd.pointAt fl lm hit.s (hpR om tl ph d z) (V3.re rx ry rz) ∧
      (mode = 0 ∨ 0 < fin (mode : ℝ) * hit.s) ∧ (cb = true → surf.insideBounds hit.xx = true) ∧
        ∀ s, hit.s = fin s → HelixRange om tl ph d z rx ry rz s →
          |F (x s) (y s) (w s)| < 1 / 10000 + 1 / 2 ^ 60 + δ + pointSlack om tl ph d z rx ry rz s := by
  unfold Rnd.intersectWithZCone at hc
  obtain ⟨h0, e0, h1⟩ := Out.bind_eq_ok.mp hc
  split at h1
  · rename_i hf0
    obtain ⟨hit', e, h2, h3⟩ := C144_accurate (atn := atn) h hl hF hL ht h0.s h0.xx mode cb
    rw [e] at h1
    injection h1 with h1
    subst h1
    exact ⟨⟨h0, e0, hf0⟩, h2, h3 hf⟩
  · injection h1 with h1
    rw [← h1] at hf
    simp at hf

/-- C144: each type of surface is treated by its function; other surfaces are not crossed. -/
theorem C144_dispatch (fl : ℝ → ℝ) (lm : Libm) (at2 : ℝ → ℝ → ℝ) (asn atn : ℝ → ℝ) (surf : Surface) (hp : V5) (rp : V3) (s : Dbl) (xx : V3)
    (mode : ℤ) (cb : Bool) :
    (surf.type.isZCylinder = true →
      Rnd.intersectWithSurface fl lm at2 asn atn surf hp rp s xx mode cb = Rnd.intersectWithZCylinder fl lm at2 asn surf hp rp s xx mode cb) ∧
    (surf.type.isZCylinder = false → surf.type.isZPlane = true →
      Rnd.intersectWithSurface fl lm at2 asn atn surf hp rp s xx mode cb = Rnd.intersectWithZPlane fl lm at2 surf hp rp s xx mode cb) ∧
    (surf.type.isZCylinder = false → surf.type.isZPlane = false → surf.type.isZDisk = true →
      Rnd.intersectWithSurface fl lm at2 asn atn surf hp rp s xx mode cb = .ok (Rnd.intersectWithZDisk fl lm surf hp rp mode cb)) ∧
    (surf.type.isZCylinder = false → surf.type.isZPlane = false → surf.type.isZDisk = false → surf.isCone = true →
      Rnd.intersectWithSurface fl lm at2 asn atn surf hp rp s xx mode cb = Rnd.intersectWithZCone fl lm at2 asn atn surf hp rp s xx mode cb) ∧
    (surf.type.isZCylinder = false → surf.type.isZPlane = false → surf.type.isZDisk = false → surf.isCone = false →
      ∃ hit, Rnd.intersectWithSurface fl lm at2 asn atn surf hp rp s xx mode cb = .ok hit ∧ hit.found = false) := by
  unfold Rnd.intersectWithSurface
  refine ⟨fun a => ?_, fun a b => ?_, fun a b c => ?_, fun a b c d => ?_, fun a b c d => ⟨⟨false, s, xx⟩, ?_, rfl⟩⟩ <;> simp [*]

/-- `pointAt` gives no point of a straight track: x is NaN -/
theorem point_straight (h : NearestF 53 1074 fl) (lm : Libm) {tl ph d z : ℝ} (hp : RepF 53 1074 ph) (hp1 : |ph| ≤ 2 ^ 1000) (rp : V3) (s : Dbl) :
    (Rnd.pointAt fl lm s (hpR 0 tl ph d z) rp).x = .nan := by
  have i1 : divD fl 1 (fin 0) = .inf false := by
    rw [divD, one_eq]
    show rnd fl 1024 (Dbl.div (fin 1) (fin 0)) = _
    simp [Dbl.div, rnd, Dbl.sgn]
  have e : mulD fl (divD fl 1 (fin 0)) (subD fl (sinD lm (fin ph)) (sinD lm (subD fl (fin ph) (mulD fl s (fin 0))))) = .nan := by
    cases s with
    | fin s =>
      have m : mulD fl (fin s) (fin 0) = fin 0 := by
        rw [mulD, fin_mul, mul_zero, rnd_double h (by rw [_root_.abs_zero]; positivity), h.fix repF_zero]
      have a : subD fl (fin ph) (fin 0) = fin ph := by rw [subD, fin_sub, sub_zero, rnd_double h hp1, h.fix hp]
      have b : subD fl (sinD lm (fin ph)) (sinD lm (fin ph)) = fin 0 := by
        show subD fl (fin _) (fin _) = _
        rw [subD, fin_sub, sub_self, rnd_double h (by rw [_root_.abs_zero]; positivity), h.fix repF_zero]
      rw [m, a, b, i1, mulD]
      show rnd fl 1024 (Dbl.mul (.inf false) (fin 0)) = _
      simp [Dbl.mul, rnd]
    | inf t =>
      have m : mulD fl (.inf t) (fin 0) = .nan := by
        show rnd fl 1024 (Dbl.mul (.inf t) (fin 0)) = _
        simp [Dbl.mul, rnd]
      rw [m, i1]
      rfl
    | nan =>
      rw [i1]
      rfl
  show addD fl _ (mulD fl (divD fl 1 (fin 0)) (subD fl (sinD lm (fin ph)) (sinD lm (subD fl (fin ph) (mulD fl s (fin 0)))))) = _
  rw [e, addD]
  generalize subD fl rp.x _ = a
  cases a <;> rfl

/-- C144: on a straight track no crossing is reported by the search, if the distance of a point with an undefined coordinate is undefined. -/
theorem C144_straight (h : NearestF 53 1074 fl) (lm : Libm) (atn : ℝ → ℝ) {surf : Surface} (hN : ∀ p : V3, p.x = .nan → surf.distance p = .nan) {tl ph d z : ℝ}
    (hp : RepF 53 1074 ph) (hp1 : |ph| ≤ 2 ^ 1000) (rp : V3) (s0 : Dbl) (xx : V3) (mode : ℤ) (cb : Bool) :
    ∃ hit, Rnd.intersectWithSurfaceNewton fl lm atn surf (hpR 0 tl ph d z) rp s0 xx mode cb = .ok hit ∧ hit.found = false := by
  obtain ⟨st, e, hi, hd⟩ := newtonLoopD_ok fl lm atn surf (hpR 0 tl ph d z) rp s0
  have h1 : st.done ≠ some true := fun h1 => by
    have k := hi.small h1
    rw [hi.cur, hN _ (point_straight h lm hp hp1 rp st.s)] at k
    simp at k
  unfold Rnd.intersectWithSurfaceNewton
  rw [e, Out.ok_bind, if_neg h1]
  exact ⟨_, rfl, rfl⟩

/-- C144 is false for straight tracks: the track along the x axis crosses the plane x = 30 and it is not found, from any start. -/
theorem C144_false (h : NearestF 53 1074 fl) (lm : Libm) (atn : ℝ → ℝ) {surf : Surface} (hD : ∀ p : V3, surf.distance p = subD fl p.x (fin 30))
    {x y w : ℝ → ℝ} (ht : Spec.IsTrack 0 0 0 0 0 0 x y w) (s0 : Dbl) (xx : V3) (mode : ℤ) (cb : Bool) :
    x 30 - 30 = 0 ∧ ∃ hit, Rnd.intersectWithSurfaceNewton fl lm atn surf (hpR 0 0 0 0 0) (V3.re 0 0 0) s0 xx mode cb = .ok hit ∧ hit.found = false := by
  refine ⟨?_, C144_straight h lm atn (fun p hp => ?_) repF_zero (by rw [_root_.abs_zero]; positivity) _ s0 xx mode cb⟩
  · have u : Spec.IsTrack 0 0 0 0 0 0 (fun s => s) (fun _ => 0) (fun _ => 0) := by
      refine ⟨rfl, rfl, rfl, fun s => ?_, fun s => ?_, fun s => hasDerivAt_const _ _⟩
      · rw [zero_mul, sub_zero, Real.cos_zero]
        exact hasDerivAt_id s
      · rw [zero_mul, sub_zero, Real.sin_zero]
        exact hasDerivAt_const _ _
    rw [(ht.unique u).1]
    norm_num
  · rw [hD, hp]
    rfl

/-! ## concrete case -/

/-- C144_found_partial, C144_cone, concrete case: a cone with the slope 3/4 and a radius of nearly 100 at z = 0, and a track of
radius 1000 from the origin.  The surface computes
distance and normal without errors. -/
structure IsCone34 (surf : Surface) : Prop where
  distance : ∀ X Y Z, surf.distance (V3.re X Y Z) = fin (4 / 5 * (Real.sqrt (X ^ 2 + Y ^ 2) - 2000 * Real.sin (1 / 20)) - 3 / 5 * Z)
  normal : ∀ X Y Z, surf.normal (V3.re X Y Z) = V3.re (4 / 5 * (X / Real.sqrt (X ^ 2 + Y ^ 2))) (4 / 5 * (Y / Real.sqrt (X ^ 2 + Y ^ 2))) (-3 / 5)

theorem cone_sizes : SearchSizes (1 / 1000) 0 0 0 0 0 0 0 100 10 := by
  have big : (1000 : ℝ) ≤ 2 ^ 200 := by
    calc (1000 : ℝ) ≤ 2 ^ 10 := by norm_num
      _ ≤ _ := pow_le_pow_right₀ (by norm_num) (by norm_num)
  have ss : ∀ s : ℝ, |s - 100| ≤ 10 → |s| ≤ 110 := fun s hs => (abs_near hs).trans (by norm_num)
  refine ⟨by norm_num, by norm_num, by norm_num, fun s hs => ?_, fun s hs => ?_, fun s hs => ?_⟩
  · rw [abs_mul]
    norm_num
    linarith [ss s hs]
  · refine ⟨?_, ?_, ?_, ?_, ?_, ?_, ?_, ?_, ?_, (ss s hs).trans (le_trans (by norm_num) big)⟩
    · rw [abs_of_pos (by norm_num)]
      refine one_div_le_one_div_of_le (by norm_num) ?_
      exact big.trans (pow_le_pow_right₀ (by norm_num) (by norm_num))
    · rw [abs_of_pos (by norm_num)]
      exact le_trans (by norm_num) big
    all_goals
      rw [_root_.abs_zero]
      positivity
  · unfold pointSlack
    have k1 : |1 / 1000 * s| ≤ 1 := by
      rw [abs_mul]
      norm_num
      linarith [ss s hs]
    have k2 : (3 : ℝ) / 2 ^ 500 ≤ 1e-8 := by
      rw [div_le_iff₀ (by positivity)]
      calc (3 : ℝ) ≤ 1e-8 * 2 ^ 30 := by norm_num
        _ ≤ _ := mul_le_mul_of_nonneg_left (pow_le_pow_right₀ (by norm_num) (by norm_num)) (by norm_num)
    simp only [_root_.abs_zero, mul_zero, add_zero, zero_add]
    rw [show |(1 : ℝ) / (1 / 1000)| = 1000 by norm_num]
    have k3 : (1 : ℝ) / 2 ^ 53 * (2 * ((40 + 4 * |1 / 1000 * s|) * 1000)) ≤ 1 / 2 ^ 53 * 88000 := by
      refine mul_le_mul_of_nonneg_left ?_ (by positivity)
      linarith
    refine (add_le_add k3 k2).trans ?_
    norm_num

theorem sqrt_close {X Y X' Y' : ℝ} : |Real.sqrt (X ^ 2 + Y ^ 2) - Real.sqrt (X' ^ 2 + Y' ^ 2)| ≤ |X - X'| + |Y - Y'| := by
  have key : ∀ X Y X' Y' : ℝ, Real.sqrt (X ^ 2 + Y ^ 2) ≤ Real.sqrt (X' ^ 2 + Y' ^ 2) + (|X - X'| + |Y - Y'|) := by
    intro X Y X' Y'
    refine Real.sqrt_le_iff.2 ⟨by positivity, ?_⟩
    have q := Real.sq_sqrt (show (0 : ℝ) ≤ X' ^ 2 + Y' ^ 2 by positivity)
    have r0 := Real.sqrt_nonneg (X' ^ 2 + Y' ^ 2)
    have rx : |X'| ≤ Real.sqrt (X' ^ 2 + Y' ^ 2) := Real.abs_le_sqrt (by nlinarith [sq_nonneg Y'])
    have ry : |Y'| ≤ Real.sqrt (X' ^ 2 + Y' ^ 2) := Real.abs_le_sqrt (by nlinarith [sq_nonneg X'])
    generalize Real.sqrt (X' ^ 2 + Y' ^ 2) = r at *
    have a1 : |X| ≤ |X'| + |X - X'| := abs_near le_rfl
    have a2 : |Y| ≤ |Y'| + |Y - Y'| := abs_near le_rfl
    have p0 := abs_nonneg X'
    have p1 := abs_nonneg Y'
    have p2 := abs_nonneg (X - X')
    have p3 := abs_nonneg (Y - Y')
    have b1 : X ^ 2 ≤ (|X'| + |X - X'|) ^ 2 := by rw [← sq_abs X]; exact pow_le_pow_left₀ (abs_nonneg _) a1 2
    have b2 : Y ^ 2 ≤ (|Y'| + |Y - Y'|) ^ 2 := by rw [← sq_abs Y]; exact pow_le_pow_left₀ (abs_nonneg _) a2 2
    rw [← sq_abs X', ← sq_abs Y'] at q
    nlinarith [mul_le_mul_of_nonneg_right rx p2, mul_le_mul_of_nonneg_right ry p3, mul_nonneg p2 p3]
  have k1 := key X Y X' Y'
  have k2 := key X' Y' X Y
  rw [abs_sub_comm X' X, abs_sub_comm Y' Y] at k2
  rw [abs_le]
  constructor <;> linarith

theorem cone_rho {s : ℝ} (h1 : 0 ≤ s) (h2 : s ≤ 2000) :
    Real.sqrt (rX (1 / 1000) 0 0 0 s ^ 2 + rY (1 / 1000) 0 0 0 s ^ 2) = 2000 * Real.sin (s / 2000) := by
  have h0 : 0 ≤ Real.sin (s / 2000) := Real.sin_nonneg_of_nonneg_of_le_pi (by positivity) (by
    have := Real.pi_gt_three
    linarith)
  rw [← Real.sqrt_sq (show (0 : ℝ) ≤ 2000 * Real.sin (s / 2000) by positivity)]
  congr 1
  unfold rX rY
  rw [show (0 : ℝ) - s * (1 / 1000) = -(2 * (s / 2000)) by ring, Real.sin_neg, Real.cos_neg, Real.sin_two_mul, Real.cos_two_mul, Real.sin_zero, Real.cos_zero]
  have k := Real.sin_sq_add_cos_sq (s / 2000)
  generalize Real.sin (s / 2000) = a at *
  generalize Real.cos (s / 2000) = b at *
  have e : b ^ 2 = 1 - a ^ 2 := by linarith
  have e2 : (a * b) ^ 2 = a ^ 2 * (1 - a ^ 2) := by rw [mul_pow, e]
  ring_nf at e2 ⊢
  rw [show b ^ 4 = (1 - a ^ 2) ^ 2 by rw [← e]; ring, e]
  ring

theorem cone_normal {X Y sn cn : ℝ} (cn1 : 99 / 100 ≤ cn) (cn2 : cn ≤ 1) (sn1 : 0 ≤ sn) (sn2 : sn ≤ 11 / 100) (hX : 88 ≤ X) (hY : Y ≤ 1) (hY2 : -11 ≤ Y) :
    (4 / 5 * (X / Real.sqrt (X ^ 2 + Y ^ 2))) ^ 2 + (4 / 5 * (Y / Real.sqrt (X ^ 2 + Y ^ 2))) ^ 2 + (-3 / 5) ^ 2 ≤ (2 : ℝ) ^ 2 ∧
    18 / 25 ≤ 4 / 5 * (X / Real.sqrt (X ^ 2 + Y ^ 2)) * cn + 4 / 5 * (Y / Real.sqrt (X ^ 2 + Y ^ 2)) * -sn + -3 / 5 * 0 ∧
    4 / 5 * (X / Real.sqrt (X ^ 2 + Y ^ 2)) * cn + 4 / 5 * (Y / Real.sqrt (X ^ 2 + Y ^ 2)) * -sn + -3 / 5 * 0 ≤ 24 / 25 := by
  have r0 : 0 < Real.sqrt (X ^ 2 + Y ^ 2) := Real.sqrt_pos.2 (by nlinarith)
  have rq := Real.sq_sqrt (show (0 : ℝ) ≤ X ^ 2 + Y ^ 2 by positivity)
  generalize Real.sqrt (X ^ 2 + Y ^ 2) = r at *
  have r1 : X ≤ r := by nlinarith
  have r2 : r ≤ X + 1 := by nlinarith
  have G : 4 / 5 * (X / r) * cn + 4 / 5 * (Y / r) * -sn + -3 / 5 * 0 = 4 / 5 * ((X * cn - Y * sn) / r) := by
    field_simp
    ring
  have a1 : X * (99 / 100) ≤ X * cn := mul_le_mul_of_nonneg_left cn1 (by linarith)
  have a2 : X * cn ≤ X := mul_le_of_le_one_right (by linarith) cn2
  have a3 : Y * sn ≤ 1 := by nlinarith
  have a4 : -2 ≤ Y * sn := by nlinarith
  have g1 : 9 / 10 ≤ (X * cn - Y * sn) / r := by
    rw [le_div_iff₀ r0]
    linarith
  have g2 : (X * cn - Y * sn) / r ≤ 12 / 10 := by
    rw [div_le_iff₀ r0]
    linarith
  rw [G]
  refine ⟨?_, by linarith, by linarith⟩
  have : (X / r) ^ 2 + (Y / r) ^ 2 = 1 := by
    rw [div_pow, div_pow, ← add_div, ← rq, div_self (by positivity)]
  nlinarith

theorem cone_crossed {surf : Surface} (hs : IsCone34 surf) :
    CrossedSurface surf (fun X Y Z => 4 / 5 * (Real.sqrt (X ^ 2 + Y ^ 2) - 2000 * Real.sin (1 / 20)) - 3 / 5 * Z)
      (fun s => 4 / 5 * Real.cos (s / 2000)) (1 / 1000) 0 0 (rX (1 / 1000) 0 0 0) (rY (1 / 1000) 0 0 0) (rZ 0 0 0) 100 10 := by
  have inr : ∀ s : ℝ, |s - 100| ≤ 10 → 90 ≤ s ∧ s ≤ 110 := fun s h => by
    rw [abs_le] at h
    constructor <;> linarith [h.1, h.2]
  refine ⟨fun X Y Z X' Y' Z' => ?_, ?_, fun s h => ?_, fun s X Y Z _ _ => ⟨_, hs.distance X Y Z, by norm_num⟩, fun s X Y Z h hn => ⟨_, _, _, hs.normal X Y Z, ?_⟩⟩
  · have k := sqrt_close (X := X) (Y := Y) (X' := X') (Y' := Y')
    rw [show 4 / 5 * (Real.sqrt (X ^ 2 + Y ^ 2) - 2000 * Real.sin (1 / 20)) - 3 / 5 * Z - (4 / 5 * (Real.sqrt (X' ^ 2 + Y' ^ 2) - 2000 * Real.sin (1 / 20)) - 3 / 5 * Z') =
      4 / 5 * (Real.sqrt (X ^ 2 + Y ^ 2) - Real.sqrt (X' ^ 2 + Y' ^ 2)) - 3 / 5 * (Z - Z') by ring]
    refine (abs_sub _ _).trans ?_
    rw [abs_mul, abs_mul, abs_of_pos (by norm_num : (0 : ℝ) < 4 / 5), abs_of_pos (by norm_num : (0 : ℝ) < 3 / 5)]
    linarith [abs_nonneg (X - X'), abs_nonneg (Y - Y'), abs_nonneg (Z - Z')]
  · rw [cone_rho (by norm_num) (by norm_num)]
    norm_num [rZ]
  · obtain ⟨a, b⟩ := inr s h
    have e : (fun s => 4 / 5 * (Real.sqrt (rX (1 / 1000) 0 0 0 s ^ 2 + rY (1 / 1000) 0 0 0 s ^ 2) - 2000 * Real.sin (1 / 20)) - 3 / 5 * rZ 0 0 0 s) =ᶠ[nhds s]
        fun s => 4 / 5 * (2000 * Real.sin (s / 2000) - 2000 * Real.sin (1 / 20)) := by
      filter_upwards [Ioo_mem_nhds (show (0 : ℝ) < s by linarith) (show s < 2000 by linarith)] with t ht
      rw [cone_rho ht.1.le ht.2.le]
      norm_num [rZ]
    refine HasDerivAt.congr_of_eventuallyEq ?_ e
    have k := ((((hasDerivAt_id s).div_const 2000).sin.const_mul 2000).sub_const (2000 * Real.sin (1 / 20))).const_mul (4 / 5)
    refine k.congr_deriv ?_
    simp only [id]
    ring
  · obtain ⟨a, b⟩ := inr s h
    obtain ⟨n1, n2, -⟩ := hn
    have t0 : 0 ≤ s / 1000 := by positivity
    have t1 : s / 1000 ≤ 11 / 100 := by linarith
    have e1 : rX (1 / 1000) 0 0 0 s = 1000 * Real.sin (s / 1000) := by
      unfold rX
      rw [show (0 : ℝ) - s * (1 / 1000) = -(s / 1000) by ring, Real.sin_neg, Real.sin_zero]
      norm_num
    have e2 : rY (1 / 1000) 0 0 0 s = -1000 * (1 - Real.cos (s / 1000)) := by
      unfold rY
      rw [show (0 : ℝ) - s * (1 / 1000) = -(s / 1000) by ring, Real.cos_neg, Real.cos_zero]
      norm_num
    have d0 : dirAt (1 / 1000) 0 0 s 0 = Real.cos (s / 1000) := by
      show Real.cos _ / Real.sqrt _ = _
      rw [show (0 : ℝ) - 1 / 1000 * s = -(s / 1000) by ring, Real.cos_neg]
      norm_num
    have d1 : dirAt (1 / 1000) 0 0 s 1 = -Real.sin (s / 1000) := by
      show Real.sin _ / Real.sqrt _ = _
      rw [show (0 : ℝ) - 1 / 1000 * s = -(s / 1000) by ring, Real.sin_neg]
      norm_num
    have d2 : dirAt (1 / 1000) 0 0 s 2 = 0 := by
      show 0 / Real.sqrt _ = _
      rw [zero_div]
    rw [d0, d1, d2]
    rw [e1] at n1
    rw [e2] at n2
    have sn1 : Real.sin (s / 1000) ≤ s / 1000 := Real.sin_le t0
    have sn2 : s / 1000 - (s / 1000) ^ 3 / 6 < Real.sin (s / 1000) := Real.sin_gt_sub_cube (by linarith)
    have cs1 : 1 - (s / 1000) ^ 2 / 2 ≤ Real.cos (s / 1000) := Real.one_sub_sq_div_two_le_cos
    have cs2 := Real.cos_le_one (s / 1000)
    generalize Real.sin (s / 1000) = sn at *
    generalize Real.cos (s / 1000) = cn at *
    have cn1 : 99 / 100 ≤ cn := by nlinarith
    have sn3 : 89 / 1000 ≤ sn := by nlinarith [pow_le_pow_left₀ t0 t1 3]
    rw [abs_le] at n1 n2
    norm_num at n1 n2
    obtain ⟨m1, m2, m3⟩ := cone_normal (X := X) (Y := Y) cn1 cs2 (show 0 ≤ sn by linarith) (show sn ≤ 11 / 100 by linarith) (by linarith [n1.1])
      (by linarith [n2.2]) (by linarith [n2.1])
    refine ⟨m1, by linarith [le_abs_self (4 / 5 * (X / Real.sqrt (X ^ 2 + Y ^ 2)) * cn + 4 / 5 * (Y / Real.sqrt (X ^ 2 + Y ^ 2)) * -sn + -3 / 5 * 0)], fun t ht => ?_⟩
    obtain ⟨a', b'⟩ := inr t ht
    have c1 : 1 - (t / 2000) ^ 2 / 2 ≤ Real.cos (t / 2000) := Real.one_sub_sq_div_two_le_cos
    have c2 := Real.cos_le_one (t / 2000)
    have c3 : 99 / 100 ≤ Real.cos (t / 2000) := by
      have : (t / 2000) ^ 2 ≤ (11 / 200) ^ 2 := pow_le_pow_left₀ (by linarith) (by linarith) 2
      norm_num at this
      linarith
    generalize 4 / 5 * (X / Real.sqrt (X ^ 2 + Y ^ 2)) * cn + 4 / 5 * (Y / Real.sqrt (X ^ 2 + Y ^ 2)) * -sn + -3 / 5 * 0 = q at *
    rw [abs_of_pos (show 0 < q by linarith), abs_le]
    constructor <;> linarith

/-- C144_found_partial, concrete case: from each start between 90 and 110 the crossing at 100 is found, with an error of at most 2e-4. -/
example (h : NearestF 53 1074 fl) (hl : IsLibm lm) (ha : IsAtan atn) {surf : Surface} (hs : IsCone34 surf) {s0 : ℝ} (h0 : |s0 - 100| ≤ 10) (xx : V3) :
    ∃ hit s, Rnd.intersectWithSurfaceNewton fl lm atn surf (hpR (1 / 1000) 0 0 0 0) (V3.re 0 0 0) (fin s0) xx 1 false = .ok hit ∧ hit.s = fin s ∧
      |s - 100| ≤ 2e-4 ∧ hit.found = true := by
  obtain ⟨hit, s, q1, q2, q3, q4, q5⟩ := C144_found_partial h hl ha (isTrack_r (by norm_num)) cone_sizes (cone_crossed hs) h0 xx 1 false
  refine ⟨hit, s, q1, q2, ?_, q5.2 ⟨.inr ?_, by simp⟩⟩
  · refine (q4 (3 / 5) (by norm_num) fun t ht => ?_).trans (by norm_num)
    rw [abs_le] at ht
    have c1 : 1 - (t / 2000) ^ 2 / 2 ≤ Real.cos (t / 2000) := Real.one_sub_sq_div_two_le_cos
    have c3 : 99 / 100 ≤ Real.cos (t / 2000) := by nlinarith [ht.1, ht.2]
    rw [abs_of_pos (by linarith)]
    linarith
  · rw [abs_le] at q3
    norm_num
    linarith [q3.1]

/-- there is such a function `atan` -/
theorem exists_atan : ∃ atn, IsAtan atn := ⟨Real.arctan, fun x => by rw [sub_self, _root_.abs_zero]; positivity⟩

/-- there is such a cone -/
theorem exists_cone34 (surf : Surface) : ∃ surf', IsCone34 surf' ∧ surf'.isCone = true :=
  ⟨{ surf with
      isCone := true
      distance := fun p => match p with
        | ⟨.fin X, .fin Y, .fin Z⟩ => fin (4 / 5 * (Real.sqrt (X ^ 2 + Y ^ 2) - 2000 * Real.sin (1 / 20)) - 3 / 5 * Z)
        | _ => .nan
      normal := fun p => match p with
        | ⟨.fin X, .fin Y, .fin _⟩ =>
          V3.re (4 / 5 * (X / Real.sqrt (X ^ 2 + Y ^ 2))) (4 / 5 * (Y / Real.sqrt (X ^ 2 + Y ^ 2))) (-3 / 5)
        | _ => V3.zero }, ⟨fun _ _ _ => rfl, fun _ _ _ => rfl⟩, rfl⟩

end Verif
