import Verif.Lemmas.StartTrack
import Verif.Props.LeastSquaresRefitExample

/-!
# C138: the start helix made from hits of a track is that track
-/

open Classical

noncomputable section

namespace Verif

open Dbl Refit

theorem v3_re_inj {a b c a' b' c' : ℝ} (h : V3.re a b c = V3.re a' b' c') : a = a' ∧ b = b' ∧ c = c' := by
  simpa [V3.re] using h

/-- points in order within one turn are not on a line -/
theorem arc_not_collinear {om t2 t3 ψ : ℝ} (h : om ≠ 0) (a1 : 0 < t2) (a2 : t2 < t3) (a3 : |om| * t3 < 2 * Real.pi) :
    2 / om * Real.sin (om * t2 / 2) * Real.cos (ψ - om * t2 / 2) * (2 / om * Real.sin (om * t3 / 2) * Real.sin (ψ - om * t3 / 2)) -
      2 / om * Real.sin (om * t2 / 2) * Real.sin (ψ - om * t2 / 2) * (2 / om * Real.sin (om * t3 / 2) * Real.cos (ψ - om * t3 / 2)) ≠ 0 := by
  have ho := abs_pos.mpr h
  have h2 := chord_sign h a1 (by nlinarith)
  have h3 := chord_sign h (a1.trans a2) a3
  have hβ := chord_sign h (sub_pos.mpr a2) (by nlinarith)
  have e : Real.sin (om * (t3 - t2) / 2) = Real.sin (ψ - om * t2 / 2) * Real.cos (ψ - om * t3 / 2) -
      Real.cos (ψ - om * t2 / 2) * Real.sin (ψ - om * t3 / 2) := by
    rw [← Real.sin_sub]; congr 1; ring
  have hs : Real.sin (om * (t3 - t2) / 2) ≠ 0 := by
    intro h0; rw [h0, mul_zero] at hβ; exact lt_irrefl _ hβ
  intro hc
  have := mul_ne_zero (mul_ne_zero h2.ne' h3.ne') hs
  apply this
  rw [e]
  linear_combination -hc

/-- `arc_unique` for paths in either direction -/
theorem arc_unique_signed {σ om om' ψ ψ' t2 t3 t2' t3' : ℝ} (hσ : σ = 1 ∨ σ = -1) (h : om ≠ 0) (h' : om' ≠ 0) (a1 : 0 < σ * t2) (a2 : σ * t2 < σ * t3)
    (a3 : |om| * (σ * t3) < 2 * Real.pi) (b1 : 0 < σ * t2') (b2 : σ * t2' < σ * t3') (b3 : |om'| * (σ * t3') < 2 * Real.pi)
    (x2 : 2 / om * Real.sin (om * t2 / 2) * Real.cos (ψ - om * t2 / 2) =
      2 / om' * Real.sin (om' * t2' / 2) * Real.cos (ψ' - om' * t2' / 2))
    (y2 : 2 / om * Real.sin (om * t2 / 2) * Real.sin (ψ - om * t2 / 2) =
      2 / om' * Real.sin (om' * t2' / 2) * Real.sin (ψ' - om' * t2' / 2))
    (x3 : 2 / om * Real.sin (om * t3 / 2) * Real.cos (ψ - om * t3 / 2) =
      2 / om' * Real.sin (om' * t3' / 2) * Real.cos (ψ' - om' * t3' / 2))
    (y3 : 2 / om * Real.sin (om * t3 / 2) * Real.sin (ψ - om * t3 / 2) =
      2 / om' * Real.sin (om' * t3' / 2) * Real.sin (ψ' - om' * t3' / 2)) :
    om = om' ∧ t2 = t2' ∧ t3 = t3' ∧ Real.cos ψ = Real.cos ψ' ∧ Real.sin ψ = Real.sin ψ' := by
  rcases hσ with rfl | rfl
  · simp only [one_mul] at a1 a2 a3 b1 b2 b3
    exact arc_unique h h' a1 a2 a3 b1 b2 b3 x2 y2 x3 y3
  · have key : ∀ o t f : ℝ, 2 / o * Real.sin (o * t / 2) * f = -(2 / -o * Real.sin (-o * (-1 * t) / 2) * f) := by
      intro o t f
      rw [show -o * (-1 * t) / 2 = o * t / 2 by ring, div_neg]; ring
    have arg : ∀ o t ψ : ℝ, ψ - o * t / 2 = ψ - -o * (-1 * t) / 2 := by intro o t ψ; ring
    rw [key om, key om', arg om, arg om', neg_inj] at x2 y2 x3 y3
    obtain ⟨r1, r2, r3, r4, r5⟩ := arc_unique (neg_ne_zero.mpr h) (neg_ne_zero.mpr h') a1 a2 (by rwa [abs_neg]) b1 b2 (by rwa [abs_neg])
      x2 y2 x3 y3
    exact ⟨neg_inj.mp r1, by linarith, by linarith, r4, r5⟩

/-- C138: three points of a helix, in the direction of motion within one turn (or against it, with `backward`), give a helix
with the same curvature and slope, with the first point as reference point, and with the same points. -/
theorem C138_start {om tl ph d z rx ry rz s1 s2 s3 : ℝ} (h : om ≠ 0) (tp : TP) (backward : Bool)
    (ho : if backward then s3 < s2 ∧ s2 < s1 else s1 < s2 ∧ s2 < s3) (ht : |om| * |s3 - s1| < 2 * Real.pi) :
    ∃ ph' : ℝ, calculateStartHelix (pointAt (fin s1) (hpR om tl ph d z) (V3.re rx ry rz)) (pointAt (fin s2) (hpR om tl ph d z) (V3.re rx ry rz))
        (pointAt (fin s3) (hpR om tl ph d z) (V3.re rx ry rz)) tp backward =
      ⟨tp.cov, hpR om tl ph' 0 0, pointAt (fin s1) (hpR om tl ph d z) (V3.re rx ry rz)⟩ ∧
      Real.cos ph' = Real.cos (ph - om * s1) ∧ Real.sin ph' = Real.sin (ph - om * s1) ∧
      ∀ s : ℝ, pointAt (fin s) (hpR om tl ph' 0 0) (pointAt (fin s1) (hpR om tl ph d z) (V3.re rx ry rz)) =
        pointAt (fin (s1 + s)) (hpR om tl ph d z) (V3.re rx ry rz) := by
  obtain ⟨σ, hσ, hb, c1, c2, c3⟩ : ∃ σ : ℝ, (σ = 1 ∨ σ = -1) ∧ (backward = true ↔ σ = -1) ∧ 0 < σ * (s2 - s1) ∧ σ * (s2 - s1) < σ * (s3 - s1) ∧
      |om| * (σ * (s3 - s1)) < 2 * Real.pi := by
    cases backward with
    | false =>
      simp only [Bool.false_eq_true, if_false] at ho
      rw [abs_of_pos (by linarith : 0 < s3 - s1)] at ht
      exact ⟨1, Or.inl rfl, by norm_num, by linarith, by linarith, by rwa [one_mul]⟩
    | true =>
      simp only [if_true] at ho
      rw [abs_of_neg (by linarith : s3 - s1 < 0)] at ht
      exact ⟨-1, Or.inr rfl, by norm_num, by linarith, by linarith, by rwa [neg_one_mul]⟩
  have hx := fun t => chordX (om := om) ph d rx s1 t
  have hy := fun t => chordY (om := om) ph d ry s1 t
  have x2 := hx (s2 - s1)
  have x3 := hx (s3 - s1)
  have y2 := hy (s2 - s1)
  have y3 := hy (s3 - s1)
  rw [add_sub_cancel] at x2 x3 y2 y3
  have hnc : (rX om ph d rx s2 - rX om ph d rx s1) * (rY om ph d ry s3 - rY om ph d ry s1) -
      (rY om ph d ry s2 - rY om ph d ry s1) * (rX om ph d rx s3 - rX om ph d rx s1) ≠ 0 := by
    rw [x2, x3, y2, y3]
    rcases hσ with rfl | rfl
    · simp only [one_mul] at c1 c2 c3
      exact arc_not_collinear h c1 c2 c3
    · have key : ∀ o t f : ℝ, 2 / o * Real.sin (o * t / 2) * f = -(2 / -o * Real.sin (-o * (-1 * t) / 2) * f) := by
        intro o t f
        rw [show -o * (-1 * t) / 2 = o * t / 2 by ring, div_neg]; ring
      have arg : ∀ o t ψ : ℝ, ψ - o * t / 2 = ψ - -o * (-1 * t) / 2 := by intro o t ψ; ring
      have := arc_not_collinear (ψ := ph - om * s1) (neg_ne_zero.mpr h) c1 c2 (by rwa [abs_neg])
      intro h0
      apply this
      rw [key om, key om, key om, key om, arg om, arg om] at h0
      linear_combination h0
  obtain ⟨om', tl', ph', h', e1, -, t2, t3, z2', z3', hb3, p2, p3, e2⟩ := C18_start_helix (rX om ph d rx s1) (rY om ph d ry s1) (rZ tl z rz s1)
    (rX om ph d rx s2) (rY om ph d ry s2) (rZ tl z rz s2) (rX om ph d rx s3) (rY om ph d ry s3) (rZ tl z rz s3) tp backward hnc
  rw [pointAt_re h'] at p2 p3
  obtain ⟨p2x, p2y, -⟩ := v3_re_inj p2
  obtain ⟨p3x, p3y, -⟩ := v3_re_inj p3
  obtain ⟨d1, d2, d3⟩ : 0 < σ * t2 ∧ σ * t2 < σ * t3 ∧ |om'| * (σ * t3) < 2 * Real.pi := by
    have hp : 0 < |om'| := abs_pos.mpr h'
    have e : |om'| * |1 / om'| = 1 := by rw [← abs_mul, mul_one_div_cancel h', abs_one]
    rcases hσ with rfl | rfl
    · have : backward = false := by
        cases backward with
        | false => rfl
        | true => exact absurd (hb.mp rfl) (by norm_num)
      rw [this] at hb3
      simp only [Bool.false_eq_true, if_false] at hb3
      refine ⟨by linarith, by linarith, ?_⟩
      have := mul_lt_mul_of_pos_left hb3.2.2 hp
      rw [one_mul]
      linear_combination this + 2 * Real.pi * e
    · rw [hb.mpr rfl] at hb3
      simp only [if_true] at hb3
      refine ⟨by linarith, by linarith, ?_⟩
      have := mul_lt_mul_of_pos_left hb3.1 hp
      linear_combination this + 2 * Real.pi * e
  have c0x := fun t => chordX (om := om') ph' 0 (rX om ph d rx s1) 0 t
  have c0y := fun t => chordY (om := om') ph' 0 (rY om ph d ry s1) 0 t
  have z0x : rX om' ph' 0 (rX om ph d rx s1) 0 = rX om ph d rx s1 := by simp [rX]
  have z0y : rY om' ph' 0 (rY om ph d ry s1) 0 = rY om ph d ry s1 := by simp [rY]
  simp only [zero_add, mul_zero, sub_zero, z0x, z0y] at c0x c0y
  obtain ⟨r1, r2, r3, r4, r5⟩ := arc_unique_signed (ψ := ph - om * s1) (ψ' := ph') hσ h h' c1 c2 c3 d1 d2 d3
    (by rw [← x2, ← c0x, p2x]) (by rw [← y2, ← c0y, p2y]) (by rw [← x3, ← c0x, p3x]) (by rw [← y3, ← c0y, p3y])
  subst r1
  have htl : tl' = tl := by
    have hne : s3 - s2 ≠ 0 := by
      intro h0
      have : σ * (s3 - s1) = σ * (s2 - s1) := by linear_combination σ * h0
      linarith
    rw [e2, ← r2, ← r3, show s3 - s1 - (s2 - s1) = s3 - s2 by ring]
    unfold rZ
    field_simp
    ring
  subst htl
  refine ⟨ph', ?_, r4.symm, r5.symm, ?_⟩
  · rw [pointAt_re h, pointAt_re h, pointAt_re h, e1]
  · intro s
    rw [pointAt_re h, pointAt_re h, pointAt_re h]
    have hX : rX om ph' 0 (rX om ph d rx s1) s = rX om ph d rx (s1 + s) := by
      have q1 := c0x s
      have q2 := hx s
      rw [Real.cos_sub, ← r4, ← r5, ← Real.cos_sub] at q1
      linarith
    have hY : rY om ph' 0 (rY om ph d ry s1) s = rY om ph d ry (s1 + s) := by
      have q1 := c0y s
      have q2 := hy s
      rw [Real.sin_sub, ← r4, ← r5, ← Real.sin_sub] at q1
      linarith
    have hZ : rZ tl' 0 (rZ tl' z rz s1) s = rZ tl' z rz (s1 + s) := by unfold rZ; ring
    rw [hX, hY, hZ]

/-- moving such a helix back to the reference point gives the parameters of the track -/
theorem move_back {om tl ph d z rx ry rz s1 ph' : ℝ} (h : om ≠ 0) (cov : M5) (hs : |om * s1| < Real.pi) (hd : om * d < 1)
    (b1 : -Real.pi < ph) (b2 : ph ≤ Real.pi) (hc : Real.cos ph' = Real.cos (ph - om * s1)) (hsn : Real.sin ph' = Real.sin (ph - om * s1)) :
    moveHelixTo ⟨cov, hpR om tl ph' 0 0, pointAt (fin s1) (hpR om tl ph d z) (V3.re rx ry rz)⟩ (V3.re rx ry rz) false =
      .ok (⟨cov, hpR om tl ph d z, V3.re rx ry rz⟩, fin (om * s1)) := by
  rw [pointAt_re h]
  obtain ⟨fn, dn, fd, k, q1, q2, q3, q4, q5, hcx, hcy, hR, hv⟩ :=
    move_re cov tl ph' 0 0 (rX om ph d rx s1) (rY om ph d ry s1) (rZ tl z rz s1) rx ry rz h
  have kx : rCx om ph' 0 (rX om ph d rx s1) = rCx om ph d rx := by
    have := rX_center (om := om) (ph := ph) (d := d) (rx := rx) (s := s1)
    rw [mul_comm s1] at this
    unfold rCx at this ⊢
    rw [hsn]; linear_combination this
  have ky : rCy om ph' 0 (rY om ph d ry s1) = rCy om ph d ry := by
    have := rY_center (om := om) (ph := ph) (d := d) (ry := ry) (s := s1)
    rw [mul_comm s1] at this
    unfold rCy at this ⊢
    rw [hc]; linear_combination this
  have hoff : OffAxis (hpR om tl ph d z) (V3.re rx ry rz) rx ry := by
    rw [offAxis_re h]
    have h1 := Real.sin_sq_add_cos_sq ph
    have h2 : 1 / om - d ≠ 0 := by
      intro h0
      have : om * (1 / om - d) = 1 - om * d := by field_simp
      rw [h0, mul_zero] at this
      linarith
    have : (rCx om ph d rx - rx) ^ 2 + (rCy om ph d ry - ry) ^ 2 = (1 / om - d) ^ 2 := by
      unfold rCx rCy
      linear_combination (1 / om - d) ^ 2 * h1
    rw [this]
    positivity
  rw [kx] at hcx
  rw [ky] at hcy
  rw [kx, ky] at hR
  rw [offAxis_re h] at hoff
  have hsq := Real.sqrt_pos.mpr hoff
  have hdn : om * dn < 1 := by
    have h1 : 1 - om * dn = |om| * Real.sqrt ((rCx om ph d rx - rx) ^ 2 + (rCy om ph d ry - ry) ^ 2) := by
      have h2 : om * (1 / om - dn) = 1 - om * dn := by field_simp
      rw [← h2, hR, ← mul_sg h]; ring
    have := mul_pos (abs_pos.mpr h) hsq
    linarith
  obtain ⟨e1, e2⟩ := branch_unique h hcx hcy hdn hd q4 q5 b1 b2
  subst e1 e2
  have hfd : fd = om * s1 := by
    rcases lt_or_eq_of_le q3 with q3 | q3
    · apply angle_unique (abs_lt.mpr ⟨q2, q3⟩) hs
      · rw [q1, Real.cos_add_int_mul_two_pi, Real.cos_sub, hc, hsn, ← Real.cos_sub]; congr 1; ring
      · rw [q1, Real.sin_add_int_mul_two_pi, Real.sin_sub, hc, hsn, ← Real.sin_sub]; congr 1; ring
    · exfalso
      have hc' : Real.cos fd = Real.cos (om * s1) := by
        rw [q1, Real.cos_add_int_mul_two_pi, Real.cos_sub, hc, hsn, ← Real.cos_sub]; congr 1; ring
      rw [q3, ← Real.cos_abs (om * s1)] at hc'
      exact absurd hc' (ne_of_lt (Real.cos_lt_cos_of_nonneg_of_le_pi (abs_nonneg _) le_rfl hs))
  have := moveHelixTo_of_vals false hv
  rw [this, hfd]
  have hz : rZ tl z rz s1 - rz + 0 - 1 / om * tl * (om * s1) = z := by
    unfold rZ; field_simp; ring
  rw [hz]
  rfl

/-- C138 for lcio_tracks: if the first, the middle and the last hit are on a track, in the direction of motion and within one
turn, the first one less than half a turn from the origin, then the start parameters are those of the track. -/
theorem C138_seed {hits : List TrackHit} {h1 h2 h3 : TrackHit} (e1 : hits[0]? = some h1) (e2 : hits[(hits.length + 1) / 2]? = some h2)
    (e3 : hits[hits.length - 1]? = some h3) {om tl ph d z s1 s2 s3 : ℝ} (h : om ≠ 0) (hd : om * d < 1) (b1 : -Real.pi < ph)
    (b2 : ph ≤ Real.pi) (hs : |om * s1| < Real.pi) (o1 : s1 < s2) (o2 : s2 < s3) (ht : |om| * (s3 - s1) < 2 * Real.pi)
    (p1 : scaled h1.hit.pos = pointAt (fin s1) (hpR om tl ph d z) V3.zero)
    (p2 : scaled h2.hit.pos = pointAt (fin s2) (hpR om tl ph d z) V3.zero)
    (p3 : scaled h3.hit.pos = pointAt (fin s3) (hpR om tl ph d z) V3.zero) :
    seed hits = .ok ⟨seedCov M5.zero, hpR om tl ph d z, V3.zero⟩ := by
  have hz0 : V3.zero = V3.re 0 0 0 := by simp only [V3.zero, V3.re, zero_eq]
  obtain ⟨ph', r1, r2, r3, -⟩ := C138_start (tl := tl) (ph := ph) (d := d) (z := z) (rx := 0) (ry := 0) (rz := 0) h TP.default false
    (show if false = true then _ else s1 < s2 ∧ s2 < s3 by simp [o1, o2]) (by rwa [abs_of_pos (by linarith : 0 < s3 - s1)])
  have r4 := move_back (tl := tl) (z := z) (rx := 0) (ry := 0) (rz := 0) h TP.default.cov hs hd b1 b2 r2 r3
  rw [seed_eq e1 e2 e3, rawSeed, p1, p2, p3, hz0, r1, r4]
  rfl

/-- C138 for lcio_tracks: if these hits are on a track and no hit has a residual, the program writes this track (its covariance matrix is
that of the fit). -/
theorem C138_refit {S : Setup} (hg : IsLeastSquares S.gbl) (hI : IsStdSort Traj.sortWithS S.sortI) (hE : IsStdSort Traj.compareElements S.sortE)
    {trk : InTrack} {o : OutTrack} (hr : Refitted S trk o) (hn : 3 ≤ trk.hits.length) {h1 h2 h3 : TrackHit} (e1 : trk.hits[0]? = some h1)
    (e2 : trk.hits[(trk.hits.length + 1) / 2]? = some h2) (e3 : trk.hits[trk.hits.length - 1]? = some h3)
    {om tl ph d z s1 s2 s3 : ℝ} (h : om ≠ 0) (hd : om * d < 1) (b1 : -Real.pi < ph)
    (b2 : ph ≤ Real.pi) (hs : |om * s1| < Real.pi) (o1 : s1 < s2) (o2 : s2 < s3) (ht : |om| * (s3 - s1) < 2 * Real.pi)
    (p1 : scaled h1.hit.pos = pointAt (fin s1) (hpR om tl ph d z) V3.zero)
    (p2 : scaled h2.hit.pos = pointAt (fin s2) (hpR om tl ph d z) V3.zero)
    (p3 : scaled h3.hit.pos = pointAt (fin s3) (hpR om tl ph d z) V3.zero) {t : Traj}
    (hT : trajectory S ⟨seedCov M5.zero, hpR om tl ph d z, V3.zero⟩ trk.hits = .ok t)
    (hpos : ∀ e ∈ t.elems, e.surface ≠ none → 0 < e.arc)
    (hz : ∀ e ∈ t.elems, e.measurement = true → e.residuals = [fin 0, fin 0]) {rs : List RealPoint}
    (hps : gblPoints t.elems = .ok (rs.map RealPoint.gbl)) {bx by' bz : ℝ} (hfield : S.env.field V3.zero = V3.re bx by' bz)
    (hB : bx ≠ 0 ∨ by' ≠ 0 ∨ bz ≠ 0) :
    ∃ C, o.states = [{ createLCIO S.fl ⟨C, hpR om tl ph d z, V3.zero⟩ with ref := V3.zero, location := 1 }] :=
  C127_refit hg hI hE hr hn hd b1 b2 (C138_seed e1 e2 e3 h hd b1 b2 hs o1 o2 ht p1 p2 p3) hT hpos hz hps hfield hB

/-- the points of a helix do not determine it if they are more than one turn apart: the slope found is 5 instead of 1 -/
theorem C138_turns (tp : TP) : ∃ ph' : ℝ, calculateStartHelix (pointAt (fin 0) (hpR 1 1 0 0 0) (V3.re 0 0 0))
    (pointAt (fin (5 * Real.pi / 2)) (hpR 1 1 0 0 0) (V3.re 0 0 0)) (pointAt (fin (5 * Real.pi)) (hpR 1 1 0 0 0) (V3.re 0 0 0)) tp false =
      ⟨tp.cov, hpR 1 5 ph' 0 0, V3.re 0 0 0⟩ := by
  have hpi := Real.pi_pos
  obtain ⟨ph', h, -⟩ := C138_start (om := 1) (tl := 5) (ph := 0) (d := 0) (z := 0) (rx := 0) (ry := 0) (rz := 0) (s1 := 0)
    (s2 := Real.pi / 2) (s3 := Real.pi) one_ne_zero tp false (by simp only [Bool.false_eq_true, if_false]; exact ⟨by linarith, by linarith⟩)
    (by rw [abs_one, sub_zero, abs_of_pos hpi]; linarith)
  refine ⟨ph', ?_⟩
  have e0 : pointAt (fin 0) (hpR 1 1 0 0 0) (V3.re 0 0 0) = pointAt (fin 0) (hpR 1 5 0 0 0) (V3.re 0 0 0) := by
    rw [pointAt_re one_ne_zero, pointAt_re one_ne_zero]; simp [rZ]
  have e2 : pointAt (fin (5 * Real.pi / 2)) (hpR 1 1 0 0 0) (V3.re 0 0 0) = pointAt (fin (Real.pi / 2)) (hpR 1 5 0 0 0) (V3.re 0 0 0) := by
    rw [pointAt_re one_ne_zero, pointAt_re one_ne_zero]
    have a : (0 : ℝ) - 5 * Real.pi / 2 * 1 = 0 - Real.pi / 2 * 1 - 2 * Real.pi := by ring
    simp only [rX, rY, rZ, a, Real.sin_sub_two_pi, Real.cos_sub_two_pi]
    congr 1; ring
  have e3 : pointAt (fin (5 * Real.pi)) (hpR 1 1 0 0 0) (V3.re 0 0 0) = pointAt (fin Real.pi) (hpR 1 5 0 0 0) (V3.re 0 0 0) := by
    rw [pointAt_re one_ne_zero, pointAt_re one_ne_zero]
    have a : (0 : ℝ) - 5 * Real.pi * 1 = 0 - Real.pi * 1 - 2 * Real.pi - 2 * Real.pi := by ring
    simp only [rX, rY, rZ, a, Real.sin_sub_two_pi, Real.cos_sub_two_pi]
    congr 1; ring
  rw [e0, e2, e3, h, pointAt_re one_ne_zero]
  simp [rX, rY, rZ]

/-- a case for `C138_start`: against the direction of motion -/
example : ∃ ph' : ℝ, calculateStartHelix (pointAt (fin 3) (hpR 2 1 1 4 5) (V3.re 1 2 3)) (pointAt (fin 2) (hpR 2 1 1 4 5) (V3.re 1 2 3))
    (pointAt (fin 1) (hpR 2 1 1 4 5) (V3.re 1 2 3)) TP.default true =
      ⟨TP.default.cov, hpR 2 1 ph' 0 0, pointAt (fin 3) (hpR 2 1 1 4 5) (V3.re 1 2 3)⟩ := by
  obtain ⟨ph', h, -⟩ := C138_start (om := 2) (tl := 1) (ph := 1) (d := 4) (z := 5) (rx := 1) (ry := 2) (rz := 3) (s1 := 3) (s2 := 2) (s3 := 1)
    two_ne_zero TP.default true (by norm_num) (by
      have := Real.pi_gt_three
      rw [abs_of_pos (two_pos (α := ℝ)), show (1 : ℝ) - 3 = -2 by norm_num, abs_neg, abs_of_pos (two_pos (α := ℝ))]
      linarith)
  exact ⟨ph', h⟩

/-- a case for `C138_seed`: four hits -/
example (a b : ℕ) (q : ℝ → V3) (hq : ∀ s, scaled (q s) = pointAt (fin s) (hpR 1 2 (1 / 2) (-1) 3) V3.zero) :
    seed [⟨⟨a, 1, q 1, none, []⟩, false, []⟩, ⟨⟨b, 2, V3.zero, none, []⟩, false, []⟩, ⟨⟨a, 3, q 2, none, []⟩, false, []⟩,
      ⟨⟨b, 4, q 4, none, []⟩, false, []⟩] = .ok ⟨seedCov M5.zero, hpR 1 2 (1 / 2) (-1) 3, V3.zero⟩ := by
  have := Real.pi_gt_three
  exact C138_seed (h1 := ⟨⟨a, 1, q 1, none, []⟩, false, []⟩) (h2 := ⟨⟨a, 3, q 2, none, []⟩, false, []⟩)
    (h3 := ⟨⟨b, 4, q 4, none, []⟩, false, []⟩) (s1 := 1) (s2 := 2) (s3 := 4) (by simp) (by simp) (by simp) one_ne_zero (by norm_num) (by linarith) (by linarith)
    (by rw [abs_of_pos] <;> linarith) (by norm_num) (by norm_num) (by rw [abs_one]; linarith) (hq 1) (hq 2) (hq 4)

/-- there are such positions -/
example : ∃ q : ℝ → V3, ∀ s, scaled (q s) = pointAt (fin s) (hpR 1 2 (1 / 2) (-1) 3) V3.zero := by
  refine ⟨fun s => V3.re (10 * rX 1 (1 / 2) (-1) 0 s) (10 * rY 1 (1 / 2) (-1) 0 s) (10 * rZ 2 3 0 s), fun s => ?_⟩
  rw [show V3.zero = V3.re 0 0 0 by simp only [V3.zero, V3.re, zero_eq], pointAt_re one_ne_zero, scaled_re]
  congr 1 <;> ring

/-- a case for `C138_refit` -/
example {gbl : Fitter} (hg : IsLeastSquares gbl) {sortI : List (Dbl × Surface) → List (Dbl × Surface)} {sortE : List Element → List Element}
    {fl : ℝ → ℝ} (hI : IsStdSort Traj.sortWithS sortI) (hE : IsStdSort Traj.compareElements sortE) (state : TrackState)
    {tp0 : TP} (h0 : readLCIO state = .ok tp0) :
    ∃ th o C, Refitted (Example.thickSetup th gbl sortI sortE fl) ⟨state, Example.exactHits⟩ o ∧
      o.states = [{ createLCIO fl ⟨C, hpR 1 1 0 0 0, V3.zero⟩ with ref := V3.zero, location := 1 }] := by
  have hpi := Real.pi_pos
  obtain ⟨th, t, rs, ht, h1, h2, h3, -⟩ := Example.trajectory_exact (gbl := gbl) (fl := fl) hI hE
  obtain ⟨ps, r, w', o, -, -, h4, -⟩ := C98_refitted_partial (S := Example.thickSetup th gbl sortI sortE fl) hI hE 0 (World.init fun _ => none)
    (trk := ⟨state, Example.exactHits⟩) (by simp [Example.exactHits]) h0 Example.seed_exact ht
  have hr : Refitted (Example.thickSetup th gbl sortI sortE fl) ⟨state, Example.exactHits⟩ o := ⟨_, _, _, h4⟩
  have hz0 : V3.zero = V3.re 0 0 0 := by simp only [V3.zero, V3.re, zero_eq]
  obtain ⟨C, hC⟩ := C138_refit (trk := ⟨state, Example.exactHits⟩) hg hI hE hr (by simp [Example.exactHits])
    (h1 := ⟨⟨4, 1, V3.re 0 0 0, some (fin 1, fin 1), []⟩, false, []⟩)
    (h2 := ⟨⟨6, 2, V3.re 10 (-10) (5 * Real.pi), some (fin 1, fin 1), []⟩, false, []⟩)
    (h3 := ⟨⟨7, 3, V3.re 0 (-20) (10 * Real.pi), some (fin 1, fin 1), []⟩, false, []⟩)
    (by simp [Example.exactHits]) (by simp [Example.exactHits]) (by simp [Example.exactHits]) (om := 1) (tl := 1) (ph := 0)
    (d := 0) (z := 0) (s1 := 0) (s2 := Real.pi / 2) (s3 := Real.pi) one_ne_zero (by norm_num) (by linarith) hpi.le (by simpa using hpi)
    (by linarith) (by linarith) (by rw [abs_one]; linarith)
    (by rw [hz0, pointAt_re one_ne_zero]; change scaled (V3.re 0 0 0) = _; rw [scaled_re]; simp [rX, rY, rZ])
    (by rw [hz0, pointAt_re one_ne_zero]; change scaled (V3.re 10 (-10) (5 * Real.pi)) = _; rw [scaled_re]; simp [rX, rY, rZ]; ring_nf)
    (by rw [hz0, pointAt_re one_ne_zero]; change scaled (V3.re 0 (-20) (10 * Real.pi)) = _; rw [scaled_re]; simp [rX, rY, rZ]; norm_num; ring_nf)
    ht h1 h2 h3 (bx := 0) (by' := 0) (bz := 3) rfl (Or.inr (Or.inr (by norm_num)))
  exact ⟨th, o, C, hr, hC⟩

end Verif
