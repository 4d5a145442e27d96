import Verif.Lemmas.RoundedAdd
import Verif.Props.RoundedMomentum
import Verif.Props.RoundedMoveCov
import Verif.Props.RoundedTrackMomentum
import Verif.Props.RoundedTrajectory
import Verif.Props.RoundedUtilities

/-!
# C159: new scatterers and measurements of a trajectory in double precision
-/

open Classical

noncomputable section

namespace Verif

open Dbl Rnd Spec Rounded

variable {fl : ℝ → ℝ} {lm : Libm} {at2 : ℝ → ℝ → ℝ} {asn atn : ℝ → ℝ} {lg : LogLib} {mm : M5 → M5 → M5}

/-- A crossing point (X, Y, Z) within `ε` of the point of the track at the path length `t`, which is less than half a turn away.  Curvature, slope
and coordinates are in a range without overflow, and the tolerances are small compared with the radius. -/
structure Arrival (om tl ph d z rx ry rz X Y Z t ε : ℝ) (x y w : ℝ → ℝ) : Prop where
  range : HelixRange om tl ph d z rx ry rz 0
  o0 : 1 / 2 ^ 100 ≤ |om|
  o1 : |om| ≤ 2 ^ 100
  slope : |tl| ≤ 2 ^ 30
  azimuth : |ph| ≤ 4
  track : Spec.IsTrack om tl ph (rx - d * Real.sin ph) (ry + d * Real.cos ph) (rz + z) x y w
  sizeX : |X| ≤ 2 ^ 200
  sizeY : |Y| ≤ 2 ^ 200
  sizeZ : |Z| ≤ 2 ^ 200
  nearX : |X - x t| ≤ ε
  nearY : |Y - y t| ≤ ε
  nearZ : |Z - w t| ≤ ε
  turn : |om * t| ≤ 3
  small : |om| * arrivalError om d rx ry X Y ε (1 / 2 ^ 21) ≤ 1 / 1000

/-- azimuth `φ` and distances `d'`, `z'` of parameters that describe the track at the path length `t`: the distances are small and the direction is
that of the track -/
structure StateNear (om tl ph z rz Z t ε τ φ d' z' : ℝ) : Prop where
  dist : |d'| ≤ 3 * τ
  sin : |Real.sin φ - Real.sin (ph - om * t)| ≤ 4 * (|om| * τ)
  cos : |Real.cos φ - Real.cos (ph - om * t)| ≤ 4 * (|om| * τ)
  height : |z'| ≤ ε + |tl| * (10 * τ + 100 / 2 ^ 53 * |1 / om|) + (100 / 2 ^ 53 * (|rz| + |Z| + |z| + |tl / om|) + 1 / 2 ^ 800)

theorem arrivalError_mono {om d rx ry X Y ε δ δ' : ℝ} (h : |δ| ≤ |δ'|) : arrivalError om d rx ry X Y ε δ ≤ arrivalError om d rx ry X Y ε δ' := by
  unfold arrivalError
  exact add_le_add_right (mul_le_mul_of_nonneg_left h (abs_nonneg _)) _

theorem arrivalError_nonneg {om d rx ry X Y ε δ : ℝ} (h : 0 ≤ ε) : 0 ≤ arrivalError om d rx ry X Y ε δ := by
  unfold arrivalError
  positivity

theorem momentum_sum {P T p a u1 u2 u3 : ℝ} (n1 : P ≤ p) (n2 : P * T ≤ p) (a0 : 0 ≤ a) (p0 : 0 ≤ p) (h1 : u1 ≤ P * 12 / 2 ^ 53 + P * (4 * a))
    (h2 : u2 ≤ P * 12 / 2 ^ 53 + P * (4 * a)) (h3 : u3 ≤ P * (9 * T + 1) / 2 ^ 53) : u1 + u2 + u3 ≤ 4 * (4 * a + 42 / 2 ^ 53) * p := by
  have r1 := mul_le_mul_of_nonneg_right n1 a0
  have r2 := mul_nonneg a0 p0
  rw [div_eq_mul_one_div] at h1 h2 h3
  rw [show (42 : ℝ) / 2 ^ 53 = 42 * (1 / 2 ^ 53) by ring]
  have v0 : (0 : ℝ) ≤ 1 / 2 ^ 53 := by positivity
  have r3 := mul_le_mul_of_nonneg_right n1 v0
  have r4 := mul_le_mul_of_nonneg_right n2 v0
  have r5 := mul_nonneg p0 v0
  generalize (1 : ℝ) / 2 ^ 53 = v at *
  linarith

theorem momentum_sum' {P T p u1 u2 u3 : ℝ} (n1 : P ≤ p) (n2 : P * T ≤ p) (p0 : 0 ≤ p) (h1 : u1 ≤ P * 12 / 2 ^ 53)
    (h2 : u2 ≤ P * 12 / 2 ^ 53) (h3 : u3 ≤ P * (9 * T + 1) / 2 ^ 53) : u1 + u2 + u3 ≤ 76 / 2 ^ 53 * p := by
  rw [div_eq_mul_one_div] at h1 h2 h3
  rw [show (76 : ℝ) / 2 ^ 53 = 76 * (1 / 2 ^ 53) by ring]
  have v0 : (0 : ℝ) ≤ 1 / 2 ^ 53 := by positivity
  have r3 := mul_le_mul_of_nonneg_right n1 v0
  have r4 := mul_le_mul_of_nonneg_right n2 v0
  have r5 := mul_nonneg p0 v0
  generalize (1 : ℝ) / 2 ^ 53 = v at *
  linarith

/-- the parameters after the move to the crossing point, and the momentum calculated from them -/
theorem arrival_state (h : NearestF 53 1074 fl) (hl : IsLibm lm) (ha : IsAtan2 at2) (h00 : |at2 0 0| ≤ 4) {om tl ph d z rx ry rz X Y Z t ε b : ℝ}
    {x y w : ℝ → ℝ} (A : Arrival om tl ph d z rx ry rz X Y Z t ε x y w) {bField : V3 → V3} (hB : (bField (V3.re X Y Z)).z = fin b) (hb : Size |b|)
    {vx vy vz : ℝ} (hvx : HasDerivAt x vx t) (hvy : HasDerivAt y vy t) (hvz : HasDerivAt w vz t) (C : M5) :
    let pt := |1 / om| * b * kBr
    let p := √((pt * vx) ^ 2 + (pt * vy) ^ 2 + (pt * vz) ^ 2)
    ∃ φ d' z' δ f px py pz, |δ| ≤ 1 / 2 ^ 21 ∧ |δ| * |Real.cos ph| ≤ 100 / 2 ^ 53 ∧ |φ| ≤ mPi ∧
      Rnd.moveHelixTo fl lm at2 mm ⟨C, hpR om tl ph d z, V3.re rx ry rz⟩ (V3.re X Y Z) false =
        .ok (⟨C, hpR om tl φ d' z', V3.re X Y Z⟩, fin f) ∧
      StateNear om tl ph z rz Z t ε (arrivalError om d rx ry X Y ε δ) φ d' z' ∧
      Rnd.momentumAtPCA fl lm bField (hpR om tl φ d' z') (V3.re X Y Z) = V3.re px py pz ∧
      |px - pt * vx| + |py - pt * vy| + |pz - pt * vz| ≤ 4 * (4 * (|om| * arrivalError om d rx ry X Y ε δ) + 42 / 2 ^ 53) * p ∧
      |√(px ^ 2 + py ^ 2 + pz ^ 2) - p| ≤ 76 / 2 ^ 53 * p := by
  obtain rfl := hvx.unique (A.track.vel_x t)
  obtain rfl := hvy.unique (A.track.vel_y t)
  obtain rfl := (hvz.unique (A.track.vel_z t)).symm
  intro pt p
  obtain ⟨φ, d', z', f, δ, k, e, δ1, δ2, φ1, f1, f2, g1, g2, g3, g4⟩ := C137_move_partial h hl ha h00 A.range ⟨A.sizeX, A.sizeY, A.sizeZ⟩
    ⟨by linarith [(abs_le.1 A.azimuth).1], by linarith [(abs_le.1 A.azimuth).2]⟩
  have ho : om ≠ 0 := abs_pos.1 (lt_of_lt_of_le (by positivity) A.o0)
  have ε0 : 0 ≤ ε := (abs_nonneg _).trans A.nearX
  obtain ⟨τ, hτ⟩ : ∃ τ, τ = arrivalError om d rx ry X Y ε δ := ⟨_, rfl⟩
  have τ0 : 0 ≤ τ := hτ ▸ arrivalError_nonneg ε0
  have small : |om| * arrivalError om d rx ry X Y ε δ ≤ 1 / 1000 := by
    refine le_trans (mul_le_mul_of_nonneg_left (arrivalError_mono ?_) (abs_nonneg _)) A.small
    rwa [abs_of_pos (show (0 : ℝ) < 1 / 2 ^ 21 by positivity)]
  obtain ⟨s1, s2, s3, s4⟩ := moved_state ho A.track A.nearX A.nearY A.nearZ f1 f2 g1 g2 g3 g4 A.turn small
  obtain ⟨cov', c1, c2⟩ := C154_params (mm := mm) ⟨C, hpR om tl ph d z, V3.re rx ry rz⟩ (V3.re X Y Z) false _ _ e
  rw [c2 rfl] at c1
  have φ8 : |φ| ≤ 8 := φ1.trans (by rw [mPi]; norm_num)
  have tr := isTrack_r (om := om) (tl := tl) (ph := φ) (rx := 0) (ry := 0) (rz := 0) (d := 0) (z := 0) ho
  obtain ⟨px, py, pz, m1, m2, m3, m4⟩ := C152_pca (om := om) (tl := tl) (ph := φ) (d := d') (z := z') (rx := X) (ry := Y) (rz := Z) (bField := bField) h hl
    ⟨A.o0, A.o1, A.slope, φ8.trans (by norm_num), by rw [mul_zero, _root_.abs_zero]; positivity⟩ tr hB hb (tr.vel_x 0) (tr.vel_y 0) (tr.vel_z 0)
  rw [mul_zero, sub_zero] at m2 m3
  change |px - pt * _| ≤ |pt| * 12 / 2 ^ 53 at m2
  change |py - pt * _| ≤ |pt| * 12 / 2 ^ 53 at m3
  change |pz - pt * _| ≤ |pt| * (9 * |tl| + 1) / 2 ^ 53 at m4
  refine ⟨φ, d', z', δ, f, px, py, pz, δ1, δ2, φ1, c1, ⟨s1, s2, s3, s4⟩, m1, ?_, ?_⟩
  · obtain ⟨n1, n2⟩ := momentum_scale (pt := pt) (vx := Real.cos (ph - om * t)) (vy := Real.sin (ph - om * t)) (tl := tl) (Real.cos_sq_add_sin_sq _)
    change |pt| ≤ p at n1
    change |pt| * |tl| ≤ p at n2
    rw [← hτ] at s2 s3 ⊢
    have q1 : |px - pt * Real.cos (ph - om * t)| ≤ |pt| * 12 / 2 ^ 53 + |pt| * (4 * (|om| * τ)) := by
      refine near_trans m2 ?_
      rw [← mul_sub, abs_mul]
      exact mul_le_mul_of_nonneg_left s3 (abs_nonneg _)
    have q2 : |py - pt * Real.sin (ph - om * t)| ≤ |pt| * 12 / 2 ^ 53 + |pt| * (4 * (|om| * τ)) := by
      refine near_trans m3 ?_
      rw [← mul_sub, abs_mul]
      exact mul_le_mul_of_nonneg_left s2 (abs_nonneg _)
    exact momentum_sum n1 n2 (by positivity) ((abs_nonneg _).trans n1) q1 q2 m4
  · have e1 : p = √((pt * Real.cos φ) ^ 2 + (pt * Real.sin φ) ^ 2 + (pt * tl) ^ 2) := by
      show √((pt * Real.cos (ph - om * t)) ^ 2 + (pt * Real.sin (ph - om * t)) ^ 2 + (pt * tl) ^ 2) = _
      congr 1
      linear_combination pt ^ 2 * (Real.cos_sq_add_sin_sq (ph - om * t)) - pt ^ 2 * (Real.cos_sq_add_sin_sq φ)
    obtain ⟨n1, n2⟩ := momentum_scale (pt := pt) (vx := Real.cos φ) (vy := Real.sin φ) (tl := tl) (Real.cos_sq_add_sin_sq _)
    rw [e1]
    exact norm_near.trans (momentum_sum' n1 n2 (Real.sqrt_nonneg _) m2 m3 m4)

/-- inverse of a matrix with two rows for nearby entries -/
theorem inverse_near {a b c d a' b' c' d' η : ℝ} (ha : |a| ≤ 501 / 500) (hb : |b| ≤ 501 / 500) (hc : |c| ≤ 501 / 500) (hd : |d| ≤ 501 / 500)
    (ha' : |a'| ≤ 501 / 500) (hb' : |b'| ≤ 501 / 500) (h1 : |a' - a| ≤ η) (h2 : |b' - b| ≤ η) (h3 : |c' - c| ≤ η) (h4 : |d' - d| ≤ η)
    (hη : 9 * η ≤ |a * d - b * c|) (h0 : 0 < |a * d - b * c|) :
    |a * d - b * c| ≤ 2 * |a' * d' - b' * c'| ∧ ∀ e e' : ℝ, |e| ≤ 501 / 500 → |e' - e| ≤ η →
      |e' / (a' * d' - b' * c') - e / (a * d - b * c)| ≤ 13 * η / (a * d - b * c) ^ 2 := by
  have η0 : 0 ≤ η := (abs_nonneg _).trans h1
  obtain ⟨D, hD⟩ : ∃ D, D = a * d - b * c := ⟨_, rfl⟩
  obtain ⟨D', hD'⟩ : ∃ D', D' = a' * d' - b' * c' := ⟨_, rfl⟩
  have bnd : ∀ {u v U V : ℝ}, |u| ≤ U → |v| ≤ V → |u * v| ≤ U * V := fun {u v U V} hu hv => by
    rw [abs_mul]
    exact mul_le_mul hu hv (abs_nonneg _) ((abs_nonneg _).trans hu)
  have dD : |D' - D| ≤ 401 / 100 * η := by
    rw [hD, hD', show a' * d' - b' * c' - (a * d - b * c) = (a' * (d' - d) + (a' - a) * d) - (b' * (c' - c) + (b' - b) * c) by ring]
    refine (abs_sub _ _).trans ?_
    have k1 := (abs_add_le _ _).trans (add_le_add (bnd ha' h4) (bnd h1 hd))
    have k2 := (abs_add_le _ _).trans (add_le_add (bnd hb' h3) (bnd h2 hc))
    linarith
  have D2 : |D| ≤ 201 / 100 := by
    rw [hD]
    refine (abs_sub _ _).trans ?_
    have k1 := bnd ha hd
    have k2 := bnd hb hc
    linarith
  rw [← hD] at h0 hη ⊢
  rw [← hD']
  have k : |D| - |D'| ≤ |D' - D| := by
    rw [abs_sub_comm]
    exact abs_sub_abs_le_abs_sub D D'
  have D'2 : |D| ≤ 2 * |D'| := by linarith
  refine ⟨D'2, fun e e' he hee => ?_⟩
  have D0 : D ≠ 0 := abs_pos.1 h0
  have D'0 : D' ≠ 0 := abs_pos.1 (by linarith)
  rw [div_sub_div _ _ D'0 D0, abs_div, abs_mul D' D, div_le_div_iff₀ (by positivity) (by positivity), ← sq_abs D]
  have n : |e' * D - D' * e| ≤ 65 / 10 * η := by
    rw [show e' * D - D' * e = (e' - e) * D - e * (D' - D) by ring]
    refine (abs_sub _ _).trans ?_
    have k1 := bnd hee D2
    have k2 := bnd he dD
    linarith
  have m1 := mul_le_mul_of_nonneg_right n (sq_nonneg |D|)
  have m2 := mul_le_mul_of_nonneg_left D'2 (show 0 ≤ 65 / 10 * η * |D| by positivity)
  refine m1.trans (le_of_le_of_eq (le_of_eq_of_le ?_ m2) ?_) <;> ring

/-- the projection onto the axes of the curvilinear frame for nearby azimuths -/
theorem offsets_near {m o : R3} {φ ψ tl a : ℝ} (hm : dot m m ≤ (1001 / 1000) ^ 2) (ho : dot o o ≤ (1001 / 1000) ^ 2)
    (h1 : |Real.sin φ - Real.sin ψ| ≤ a) (h2 : |Real.cos φ - Real.cos ψ| ≤ a) (hd : 15 * a ≤ |(offsets m o (trackDir ψ tl)).det|)
    (h0 : 0 < |(offsets m o (trackDir ψ tl)).det|) :
    |(offsets m o (trackDir ψ tl)).det| ≤ 2 * |(offsets m o (trackDir φ tl)).det| ∧
    ∀ i j, |(offsets m o (trackDir φ tl))⁻¹ i j - (offsets m o (trackDir ψ tl))⁻¹ i j| ≤ 20 * a / (offsets m o (trackDir ψ tl)).det ^ 2 := by
  have a0 : 0 ≤ a := (abs_nonneg _).trans h1
  have sl : |Real.sin (Real.arctan tl)| ≤ 1 := Real.abs_sin_le_one _
  obtain ⟨S, hS⟩ : ∃ S, S = Real.sin (Real.arctan tl) := ⟨_, rfl⟩
  obtain ⟨K, hK⟩ : ∃ K, K = Real.cos (Real.arctan tl) := ⟨_, rfl⟩
  have SK : S ^ 2 + K ^ 2 = 1 := by rw [hS, hK]; exact Real.sin_sq_add_cos_sq _
  have entry : ∀ {v : R3}, dot v v ≤ (1001 / 1000) ^ 2 → ∀ χ, |v 0 * -Real.sin χ + v 1 * Real.cos χ| ≤ 501 / 500 ∧
      |v 0 * (-Real.cos χ * S) + v 1 * (-Real.sin χ * S) + v 2 * K| ≤ 501 / 500 := by
    intro v hv χ
    have sc := Real.sin_sq_add_cos_sq χ
    have e : dot v v = v 0 ^ 2 + v 1 ^ 2 + v 2 ^ 2 := by simp [dot]; ring
    rw [e] at hv
    have k1 := inner_le (x1 := v 0) (x2 := v 1) (x3 := v 2) (y1 := -Real.sin χ) (y2 := Real.cos χ) (y3 := 0) (P := 1001 / 1000) (Q := 1) (by norm_num) (by norm_num) hv
      (by linarith)
    have k2 := inner_le (x1 := v 0) (x2 := v 1) (x3 := v 2) (y1 := -Real.cos χ * S) (y2 := -Real.sin χ * S) (y3 := K) (P := 1001 / 1000) (Q := 1) (by norm_num)
      (by norm_num) hv (by nlinarith)
    rw [mul_zero, add_zero] at k1
    exact ⟨k1.trans (by norm_num), k2.trans (by norm_num)⟩
  have sum : ∀ {v : R3}, dot v v ≤ (1001 / 1000) ^ 2 → |v 0| + |v 1| ≤ 142 / 100 := by
    intro v hv
    have e : dot v v = v 0 ^ 2 + v 1 ^ 2 + v 2 ^ 2 := by simp [dot]; ring
    rw [e] at hv
    have := sq_abs (v 0)
    have := sq_abs (v 1)
    refine abs_le_of_sq_le_sq' (b := 142 / 100) ?_ (by norm_num) |>.2
    nlinarith [sq_nonneg (|v 0| - |v 1|), sq_nonneg (v 2)]
  have diff : ∀ {v : R3}, dot v v ≤ (1001 / 1000) ^ 2 →
      |v 0 * -Real.sin φ + v 1 * Real.cos φ - (v 0 * -Real.sin ψ + v 1 * Real.cos ψ)| ≤ 15 / 10 * a ∧
      |v 0 * (-Real.cos φ * S) + v 1 * (-Real.sin φ * S) + v 2 * K - (v 0 * (-Real.cos ψ * S) + v 1 * (-Real.sin ψ * S) + v 2 * K)| ≤ 15 / 10 * a := by
    intro v hv
    have s := sum hv
    have f1 := mul_le_mul_of_nonneg_left h1 (abs_nonneg (v 0))
    have f2 := mul_le_mul_of_nonneg_left h2 (abs_nonneg (v 1))
    have f3 := mul_le_mul_of_nonneg_left h1 (abs_nonneg (v 1))
    have f4 := mul_le_mul_of_nonneg_left h2 (abs_nonneg (v 0))
    have f5 := mul_le_mul_of_nonneg_right s a0
    rw [← abs_mul] at f1 f2 f3 f4
    constructor
    · rw [show v 0 * -Real.sin φ + v 1 * Real.cos φ - (v 0 * -Real.sin ψ + v 1 * Real.cos ψ) =
        v 1 * (Real.cos φ - Real.cos ψ) - v 0 * (Real.sin φ - Real.sin ψ) by ring]
      refine (abs_sub _ _).trans ?_
      linarith
    · rw [show v 0 * (-Real.cos φ * S) + v 1 * (-Real.sin φ * S) + v 2 * K - (v 0 * (-Real.cos ψ * S) + v 1 * (-Real.sin ψ * S) + v 2 * K) =
        -S * (v 0 * (Real.cos φ - Real.cos ψ) + v 1 * (Real.sin φ - Real.sin ψ)) by ring, abs_mul, abs_neg]
      rw [← hS] at sl
      refine (mul_le_of_le_one_left (abs_nonneg _) sl).trans ((abs_add_le _ _).trans ?_)
      linarith
  have e : ∀ χ, offsets m o (trackDir χ tl) = !![m 0 * -Real.sin χ + m 1 * Real.cos χ, m 0 * (-Real.cos χ * S) + m 1 * (-Real.sin χ * S) + m 2 * K;
      o 0 * -Real.sin χ + o 1 * Real.cos χ, o 0 * (-Real.cos χ * S) + o 1 * (-Real.sin χ * S) + o 2 * K] := by
    intro χ
    rw [offsets, frameU_trackDir, frameV_trackDir, ← hS, ← hK]
    ext i j
    fin_cases i <;> fin_cases j <;> simp [dot]
  rw [e ψ, Matrix.det_fin_two_of] at hd h0 ⊢
  rw [e φ, Matrix.det_fin_two_of]
  obtain ⟨k1, k2⟩ := inverse_near (entry hm ψ).1 (entry hm ψ).2 (entry ho ψ).1 (entry ho ψ).2 (entry hm φ).1 (entry hm φ).2
    (diff hm).1 (diff hm).2 (diff ho).1 (diff ho).2 (by linarith) h0
  refine ⟨k1, fun i j => ?_⟩
  rw [Matrix.inv_def, Matrix.inv_def, Ring.inverse_eq_inv', Matrix.adjugate_fin_two_of, Matrix.adjugate_fin_two_of, Matrix.det_fin_two_of,
    Matrix.det_fin_two_of]
  have neg : ∀ u v : ℝ, |v - u| ≤ 15 / 10 * a → |-v - -u| ≤ 15 / 10 * a := fun u v huv => by
    rwa [neg_sub_neg, abs_sub_comm]
  have wide : ∀ {t : ℝ}, t ≤ 13 * (15 / 10 * a) / ((m 0 * -Real.sin ψ + m 1 * Real.cos ψ) * (o 0 * (-Real.cos ψ * S) + o 1 * (-Real.sin ψ * S) + o 2 * K) -
      (m 0 * (-Real.cos ψ * S) + m 1 * (-Real.sin ψ * S) + m 2 * K) * (o 0 * -Real.sin ψ + o 1 * Real.cos ψ)) ^ 2 →
      t ≤ 20 * a / ((m 0 * -Real.sin ψ + m 1 * Real.cos ψ) * (o 0 * (-Real.cos ψ * S) + o 1 * (-Real.sin ψ * S) + o 2 * K) -
      (m 0 * (-Real.cos ψ * S) + m 1 * (-Real.sin ψ * S) + m 2 * K) * (o 0 * -Real.sin ψ + o 1 * Real.cos ψ)) ^ 2 := by
    intro t ht
    refine ht.trans (div_le_div_of_nonneg_right (by linarith) (sq_nonneg _))
  have f1 := wide (k2 _ _ (entry ho ψ).2 (diff ho).2)
  have f2 := wide (k2 _ _ (by rw [abs_neg]; exact (entry hm ψ).2) (neg _ _ (diff hm).2))
  have f3 := wide (k2 _ _ (by rw [abs_neg]; exact (entry ho ψ).1) (neg _ _ (diff ho).1))
  have f4 := wide (k2 _ _ (entry hm ψ).1 (diff hm).1)
  simp only [div_eq_inv_mul] at f1 f2 f3 f4
  simp only [div_eq_inv_mul]
  fin_cases i <;> fin_cases j
  exacts [f1, f2, f3, f4]

/-- thickness, material and normal of a surface, and the momentum (gx, gy, gz) of a particle that crosses it: ranges of Highland's formula.  `B` bounds
the relative error of the momentum. -/
structure Scatters (surf : Surface) (uv : V2) (gx gy gz nx ny nz ti tO Xi Xo B : ℝ) : Prop where
  normal : surf.normal (surf.localToGlobal uv) = V3.re nx ny nz
  inner : surf.innerThickness = fin ti
  outer : surf.outerThickness = fin tO
  innerX : surf.innerMaterial.radLength = fin Xi
  outerX : surf.outerMaterial.radLength = fin Xo
  sizeTi : SizeOrZero ti
  sizeTo : SizeOrZero tO
  thick : 0 < ti + tO
  sizeXi : Size Xi
  sizeXo : Size Xo
  len : nx ^ 2 + ny ^ 2 + nz ^ 2 ≤ (1001 / 1000) ^ 2
  steep : 1 / 2 ^ 19 ≤ crossingCos gx gy gz nx ny nz
  near : 1000 * B ≤ crossingCos gx gy gz nx ny nz
  thin : 2 / 10 ^ 6 ≤ (ti / Xi + tO / Xo) / crossingCos gx gy gz nx ny nz
  finite : (ti / Xi + tO / Xo) / crossingCos gx gy gz nx ny nz ≤ 10 ^ 5

/-- The computed energy loss is finite and less than half of the energy, for all momenta within the relative error `B` of (gx, gy, gz); C146 is about the
value. -/
def LossBounded (fl : ℝ → ℝ) (lg : LogLib) (surf : Surface) (uv : V2) (gx gy gz m B : ℝ) : Prop :=
  ∀ px py pz, |px - gx| + |py - gy| + |pz - gz| ≤ 4 * B * √(gx ^ 2 + gy ^ 2 + gz ^ 2) →
    |√(px ^ 2 + py ^ 2 + pz ^ 2) - √(gx ^ 2 + gy ^ 2 + gz ^ 2)| ≤ 76 / 2 ^ 53 * √(gx ^ 2 + gy ^ 2 + gz ^ 2) →
    ∃ D, (Rnd.computeEnergyLoss fl lg surf uv (V3.re px py pz) (fin m)).deltaE = fin D ∧ |D| ≤ √(√(gx ^ 2 + gy ^ 2 + gz ^ 2) ^ 2 + m ^ 2) / 2

theorem set_hpR (om om' tl ph d z : ℝ) : (hpR om tl ph d z).set OMEGA (fin om') = hpR om' tl ph d z := by
  funext i
  fin_cases i <;> rfl

/-- sum of two path lengths -/
theorem arc_sum (h : NearestF 53 1074 fl) {S a t ε : ℝ} (hS : |S - t| ≤ ε) (h1 : |S| ≤ 2 ^ 200) (h2 : |a| ≤ 2 ^ 200) :
    ∃ A, addD fl (fin S) (fin a) = fin A ∧ |A - (a + t)| ≤ ε + (1 / 2 ^ 53 * |a + S| + 1 / 2 ^ 1075) := by
  refine ⟨fl (S + a), ?_, ?_⟩
  · rw [addD, fin_add, rnd_double h (size_mono (size_add h1 h2) (by norm_num))]
  · have := near_trans (err_double h (S + a)) (c := a + t) (β := ε) (by rw [show S + a - (a + t) = S - t by ring]; exact hS)
    rw [add_comm S a] at this ⊢
    linarith

/-- difference of two coordinates -/
theorem residual_near (h : NearestF 53 1074 fl) {u v : ℝ} (h1 : |u| ≤ 2 ^ 200) (h2 : |v| ≤ 2 ^ 200) :
    ∃ r, subD fl (fin u) (fin v) = fin r ∧ |r - (u - v)| ≤ 1 / 2 ^ 53 * |u - v| + 1 / 2 ^ 1075 := by
  refine ⟨fl (u - v), ?_, err_double h (u - v)⟩
  rw [subD, fin_sub, rnd_double h (size_mono (size_sub h1 h2) (by norm_num))]

/-- The state at the crossing point as the code calculates it.  The momentum `P` is that of the track at the path length `t` within the tolerance;
`D` is the energy loss computed for it, `om'` the new curvature. -/
structure StateAfter (fl : ℝ → ℝ) (lg : LogLib) (surf : Surface) (uv : V2) (om tl ph d z rx ry rz X Y Z t ε m gx gy gz : ℝ)
    (δ φ d' z' om' px py pz D : ℝ) : Prop where
  delta : |δ| ≤ 1 / 2 ^ 21
  deltaCos : |δ| * |Real.cos ph| ≤ 100 / 2 ^ 53
  state : StateNear om tl ph z rz Z t ε (arrivalError om d rx ry X Y ε δ) φ d' z'
  momentum : |px - gx| + |py - gy| + |pz - gz| ≤ 4 * (4 * (|om| * arrivalError om d rx ry X Y ε δ) + 42 / 2 ^ 53) * √(gx ^ 2 + gy ^ 2 + gz ^ 2)
  size : |√(px ^ 2 + py ^ 2 + pz ^ 2) - √(gx ^ 2 + gy ^ 2 + gz ^ 2)| ≤ 76 / 2 ^ 53 * √(gx ^ 2 + gy ^ 2 + gz ^ 2)
  loss : (Rnd.computeEnergyLoss fl lg surf uv (V3.re px py pz) (fin m)).deltaE = fin D
  curvature : |om' - om / (1 - D / √(√(gx ^ 2 + gy ^ 2 + gz ^ 2) ^ 2 + m ^ 2))| ≤
    1 / 2 ^ 44 * |om / (1 - D / √(√(gx ^ 2 + gy ^ 2 + gz ^ 2) ^ 2 + m ^ 2))|

/-- everything that both functions calculate at the crossing point -/
theorem crossing_core (h : NearestF 53 1074 fl) (hl : IsLibm lm) (ha : IsAtan2 at2) (h00 : |at2 0 0| ≤ 4) (hat : IsAtan atn)
    {om tl ph d z rx ry rz X Y Z t ε b m : ℝ} {x y w : ℝ → ℝ} (A : Arrival om tl ph d z rx ry rz X Y Z t ε x y w)
    {bField : V3 → V3} (hB : (bField (V3.re X Y Z)).z = fin b) (hb : Size |b|)
    {vx vy vz : ℝ} (hvx : HasDerivAt x vx t) (hvy : HasDerivAt y vy t) (hvz : HasDerivAt w vz t) (C : M5) {surf : Surface} {uv : V2} (hm : SizeOrZero m)
    {M O : R3} (hM : dot M M ≤ (1001 / 1000) ^ 2) (hO : dot O O ≤ (1001 / 1000) ^ 2)
    (hd : 1 / 2 ^ 24 ≤ |(offsets M O (trackDir (ph - om * t) tl)).det|)
    (hd' : 60 * (|om| * arrivalError om d rx ry X Y ε (1 / 2 ^ 21)) ≤ |(offsets M O (trackDir (ph - om * t) tl)).det|) :
    let pt := |1 / om| * b * kBr
    let p := √((pt * vx) ^ 2 + (pt * vy) ^ 2 + (pt * vz) ^ 2)
    1 / 2 ^ 90 ≤ p → p ≤ 2 ^ 90 →
    LossBounded fl lg surf uv (pt * vx) (pt * vy) (pt * vz) m (4 * (|om| * arrivalError om d rx ry X Y ε (1 / 2 ^ 21)) + 42 / 2 ^ 53) →
    ∃ δ φ d' z' om' px py pz D f E, ∃ P : Matrix (Fin 2) (Fin 2) ℝ,
      StateAfter fl lg surf uv om tl ph d z rx ry rz X Y Z t ε m (pt * vx) (pt * vy) (pt * vz) δ φ d' z' om' px py pz D ∧
      Rnd.moveHelixTo fl lm at2 mm ⟨C, hpR om tl ph d z, V3.re rx ry rz⟩ (V3.re X Y Z) false =
        .ok (⟨C, hpR om tl φ d' z', V3.re X Y Z⟩, fin f) ∧
      Rnd.momentumAtPCA fl lm bField (hpR om tl φ d' z') (V3.re X Y Z) = V3.re px py pz ∧
      (Rnd.computeEnergyLoss fl lg surf uv (V3.re px py pz) (fin m)).energy = some (fin E) ∧
      lossCurvature fl (fin om) (fin D) (fin E) = fin om' ∧
      Rnd.calculateLocalToMeasurementProjectionMatrix fl (Rnd.calculateLocalCurvilinearSystem fl lm atn 0 (hpR om' tl φ d' z')).1
        (Rnd.calculateLocalCurvilinearSystem fl lm atn 0 (hpR om' tl φ d' z')).2 [V3.of M, V3.of O] =
        .ok ![fin (P 0 0), fin (P 0 1), fin (P 1 0), fin (P 1 1)] ∧
      ∀ i j, |P i j - (offsets M O (trackDir (ph - om * t) tl))⁻¹ i j| ≤
        (1 / 2 ^ 39 + 80 * (|om| * arrivalError om d rx ry X Y ε δ)) / (offsets M O (trackDir (ph - om * t) tl)).det ^ 2 := by
  intro pt p hp1 hp2 hloss
  obtain ⟨φ, d', z', δ, f, px, py, pz, e1, e2, e3, e4, e5, e6, e7, e8⟩ := arrival_state (mm := mm) h hl ha h00 A hB hb hvx hvy hvz C
  change |px - pt * vx| + |py - pt * vy| + |pz - pt * vz| ≤ _ * p at e7
  change |√(px ^ 2 + py ^ 2 + pz ^ 2) - p| ≤ _ at e8
  have p0 : 0 < p := lt_of_lt_of_le (by positivity) hp1
  obtain ⟨τ, hτ⟩ : ∃ τ, τ = |om| * arrivalError om d rx ry X Y ε δ := ⟨_, rfl⟩
  have hτ' : τ ≤ |om| * arrivalError om d rx ry X Y ε (1 / 2 ^ 21) := by
    rw [hτ]
    refine mul_le_mul_of_nonneg_left (arrivalError_mono ?_) (abs_nonneg _)
    rwa [abs_of_pos (show (0 : ℝ) < 1 / 2 ^ 21 by positivity)]
  obtain ⟨D, D1, D2⟩ := hloss px py pz (e7.trans (mul_le_mul_of_nonneg_right (by rw [← hτ]; linarith) p0.le)) e8
  change |D| ≤ √(p ^ 2 + m ^ 2) / 2 at D2
  obtain ⟨E, -, g1, -, g3, -⟩ := energy_near (lg := lg) (surf := surf) (uv := uv) h hm hp1 hp2 e8
  have E0 : 0 < √(p ^ 2 + m ^ 2) := Real.sqrt_pos.2 (by positivity)
  have Elo : 1 / 2 ^ 110 ≤ √(p ^ 2 + m ^ 2) := by
    refine le_trans ((one_div_le_one_div_of_le (by positivity) (pow_le_pow_right₀ (by norm_num) (by norm_num))).trans hp1) (Real.le_sqrt_of_sq_le ?_)
    exact le_add_of_nonneg_right (sq_nonneg m)
  have Ehi : √(p ^ 2 + m ^ 2) ≤ 2 ^ 110 := by
    have m2 : |m| ≤ 2 ^ 100 := by
      rcases hm with q | ⟨q1, q2⟩
      · rw [q, _root_.abs_zero]
        positivity
      · rwa [abs_of_pos (lt_of_lt_of_le (by positivity) q1)]
    rw [Real.sqrt_le_left (by positivity), ← sq_abs m]
    have k1 := pow_le_pow_left₀ p0.le hp2 2
    have k2 := pow_le_pow_left₀ (abs_nonneg m) m2 2
    rw [← pow_mul] at k1 k2 ⊢
    have k3 : (2 : ℝ) ^ (90 * 2) ≤ 2 ^ 200 := pow_le_pow_right₀ (by norm_num) (by norm_num)
    calc p ^ 2 + |m| ^ 2 ≤ 2 ^ 200 + 2 ^ 200 := add_le_add (k1.trans k3) k2
      _ = 2 ^ 201 := by rw [pow_succ _ 200, mul_two]
      _ ≤ _ := pow_le_pow_right₀ (by norm_num) (by norm_num)
  obtain ⟨om', o1, o2⟩ := curvature_ap (fl := fl) h A.o0 A.o1 Elo Ehi g3 D2
  have ss := e5.sin
  have cc := e5.cos
  rw [← hτ] at ss cc
  obtain ⟨det0, hdet⟩ : ∃ det0, det0 = (offsets M O (trackDir (ph - om * t) tl)).det := ⟨_, rfl⟩
  obtain ⟨k1, k2⟩ := offsets_near (tl := tl) hM hO ss cc (by linarith) (lt_of_lt_of_le (by positivity) hd)
  have hd2 : 1 / 2 ^ 25 ≤ |(offsets M O (trackDir φ tl)).det| := by
    generalize |(offsets M O (trackDir φ tl)).det| = u at *
    generalize |(offsets M O (trackDir (ph - om * t) tl)).det| = v at *
    norm_num at hd ⊢
    linarith
  obtain ⟨P, P1, P2⟩ := C149_two_partial (om := om') (tl := tl) (ph := φ) (d := d') (z := z') (s := 0) h hl hat (e3.trans (by rw [mPi]; norm_num))
    (by rw [mul_zero, _root_.abs_zero]; norm_num) hM hO (by rw [mul_zero, sub_zero]; exact hd2)
  rw [mul_zero, sub_zero] at P2
  refine ⟨δ, φ, d', z', om', px, py, pz, D, f, E, P, ⟨e1, e2, e5, e7, e8, D1, o2⟩, e4, e6, g1, o1, ?_, fun i j => ?_⟩
  · rw [← zero_eq] at P1
    exact P1
  · refine (near_trans (P2 i j) (k2 i j)).trans ?_
    rw [← hτ]
    rw [← hdet] at k1 hd ⊢
    obtain ⟨det1, hdet1⟩ : ∃ det1, det1 = (offsets M O (trackDir φ tl)).det := ⟨_, rfl⟩
    rw [← hdet1] at k1 ⊢
    have d0 : 0 < |det0| := lt_of_lt_of_le (by positivity) hd
    have d1 : 0 < |det1| := by linarith
    rw [← sq_abs det0, ← sq_abs det1, add_div]
    refine add_le_add ?_ (le_of_eq (by ring))
    rw [div_le_div_iff₀ (by positivity) (by positivity)]
    have q := pow_le_pow_left₀ d0.le k1 2
    rw [mul_pow] at q
    generalize |det0| ^ 2 = u at *
    generalize |det1| ^ 2 = v at *
    norm_num at q ⊢
    linarith

/-- the errors of the momentum in the form in which the scattering angle needs them -/
theorem StateAfter.scattering (h : NearestF 53 1074 fl) (hlg : IsLogLib lg) {surf : Surface} {uv uv' : V2} {om tl ph d z rx ry rz X Y Z t ε m gx gy gz δ φ d' z' om' px py pz D : ℝ}
    (s : StateAfter fl lg surf uv om tl ph d z rx ry rz X Y Z t ε m gx gy gz δ φ d' z' om' px py pz D) (ε0 : 0 ≤ ε) (hm : SizeOrZero m)
    (hp1 : 1 / 2 ^ 90 ≤ √(gx ^ 2 + gy ^ 2 + gz ^ 2)) (hp2 : √(gx ^ 2 + gy ^ 2 + gz ^ 2) ≤ 2 ^ 90) {nx ny nz ti tO Xi Xo B : ℝ}
    (hB : B = 4 * (|om| * arrivalError om d rx ry X Y ε (1 / 2 ^ 21)) + 42 / 2 ^ 53)
    (hs : Scatters surf uv' gx gy gz nx ny nz ti tO Xi Xo B) :
    ∃ q, Rnd.computeQMS fl lg surf uv' (V3.re px py pz) (fin m) = fin q ∧
      |q - highland ((ti / Xi + tO / Xo) / crossingCos gx gy gz nx ny nz) (√(gx ^ 2 + gy ^ 2 + gz ^ 2)) m| ≤
        (2 / 10 ^ 6 + 60 * (B / crossingCos gx gy gz nx ny nz)) *
          highland ((ti / Xi + tO / Xo) / crossingCos gx gy gz nx ny nz) (√(gx ^ 2 + gy ^ 2 + gz ^ 2)) m := by
  have p0 : 0 < √(gx ^ 2 + gy ^ 2 + gz ^ 2) := lt_of_lt_of_le (by positivity) hp1
  have B0 : 42 / 2 ^ 53 ≤ B := hB ▸ le_add_of_nonneg_left (mul_nonneg (by norm_num) (mul_nonneg (abs_nonneg _) (arrivalError_nonneg ε0)))
  have f1 : |px - gx| + |py - gy| + |pz - gz| ≤ 4 * B * √(gx ^ 2 + gy ^ 2 + gz ^ 2) := by
    refine s.momentum.trans (mul_le_mul_of_nonneg_right ?_ p0.le)
    have : |om| * arrivalError om d rx ry X Y ε δ ≤ |om| * arrivalError om d rx ry X Y ε (1 / 2 ^ 21) := by
      refine mul_le_mul_of_nonneg_left (arrivalError_mono ?_) (abs_nonneg _)
      rw [abs_of_pos (show (0 : ℝ) < 1 / 2 ^ 21 by positivity)]
      exact s.delta
    rw [hB]
    linarith
  have f2 : |√(px ^ 2 + py ^ 2 + pz ^ 2) - √(gx ^ 2 + gy ^ 2 + gz ^ 2)| ≤ 2 * B * √(gx ^ 2 + gy ^ 2 + gz ^ 2) := by
    refine s.size.trans (mul_le_mul_of_nonneg_right ?_ p0.le)
    norm_num at B0 ⊢
    linarith
  exact scattering_near h hlg hs.normal hs.inner hs.outer hs.innerX hs.outerX hs.sizeTi hs.sizeTo hs.thick hs.sizeXi hs.sizeXo hm hs.len hp1 hp2
    hs.steep B0 hs.near hs.thin hs.finite f1 f2

theorem withStart_of {T : Traj} {es : List Element} {back : Element} (hT : T.elems = es ++ [back]) :
    Rnd.withStart fl lm at2 T = T ∧ T.elems.getLast? = some back := by
  refine ⟨?_, by rw [hT]; simp⟩
  rw [Rnd.withStart, if_neg]
  rw [hT]
  simp

/-- C159: a new scatterer.  If the code finds the crossing point (X, Y, Z) within `ε` of the track at path length `t`, one element is appended.  Its path length
is that of the previous element plus `t`, its parameters describe the track at `t` with the reference point on the surface, the curvature is that after the energy
loss, the weight is the square of Highland's angle for the momentum of the track at `t`, and the projection is that for the directions of the surface. -/
theorem C159_scatterer (h : NearestF 53 1074 fl) (hl : IsLibm lm) (ha : IsAtan2 at2) (h00 : |at2 0 0| ≤ 4) (hat : IsAtan atn) (hlg : IsLogLib lg)
    {om tl ph d z rx ry rz X Y Z t ε b m S a : ℝ} {x y w : ℝ → ℝ} (A : Arrival om tl ph d z rx ry rz X Y Z t ε x y w)
    {env : Env} (hB : (env.globalField (V3.re X Y Z)).z = fin b) (hb : Size |b|)
    {vx vy vz : ℝ} (hvx : HasDerivAt x vx t) (hvy : HasDerivAt y vy t) (hvz : HasDerivAt w vz t) {C : M5} {surf : Surface} (hm : SizeOrZero m)
    {T : Traj} {es : List Element} {back : Element} (hT : T.elems = es ++ [back]) (hmass : T.mass = fin m)
    (htp : back.tp = ⟨C, hpR om tl ph d z, V3.re rx ry rz⟩) (harc : back.arc = fin a) (ha2 : |a| ≤ 2 ^ 200)
    (hi : Rnd.intersectWithSurface fl lm at2 asn atn surf (hpR om tl ph d z) (V3.re rx ry rz) 0 V3.zero 1 true = .ok ⟨true, fin S, V3.re X Y Z⟩)
    (hS : |S| ≤ 2 ^ 200) (hSt : |S - t| ≤ ε)
    {M O : R3} (hu : surf.u (V3.re X Y Z) = V3.of M) (hv : surf.v (V3.re X Y Z) = V3.of O) (hM : dot M M ≤ (1001 / 1000) ^ 2) (hO : dot O O ≤ (1001 / 1000) ^ 2)
    (hd : 1 / 2 ^ 24 ≤ |(offsets M O (trackDir (ph - om * t) tl)).det|)
    (hd' : 60 * (|om| * arrivalError om d rx ry X Y ε (1 / 2 ^ 21)) ≤ |(offsets M O (trackDir (ph - om * t) tl)).det|) {nx ny nz ti tO Xi Xo : ℝ} :
    let pt := |1 / om| * b * kBr
    let p := √((pt * vx) ^ 2 + (pt * vy) ^ 2 + (pt * vz) ^ 2)
    let c := crossingCos (pt * vx) (pt * vy) (pt * vz) nx ny nz
    let B := 4 * (|om| * arrivalError om d rx ry X Y ε (1 / 2 ^ 21)) + 42 / 2 ^ 53
    let θ := highland ((ti / Xi + tO / Xo) / c) p m
    1 / 2 ^ 90 ≤ p → p ≤ 2 ^ 90 →
    Scatters surf (surf.globalToLocal (V3.re X Y Z)) (pt * vx) (pt * vy) (pt * vz) nx ny nz ti tO Xi Xo B →
    LossBounded fl lg surf (surf.globalToLocal (V3.re X Y Z)) (pt * vx) (pt * vy) (pt * vz) m B →
    ∃ δ φ d' z' om' px py pz D L q, ∃ P : Matrix (Fin 2) (Fin 2) ℝ, ∃ fr,
      Rnd.addScatterer fl lm at2 asn atn lg mm env T surf =
        ({ T with elems := T.elems ++ [⟨fin L, ⟨C, hpR om' tl φ d' z', V3.re X Y Z⟩, none, some surf, false, some [V3.of M, V3.of O],
          [mulD fl (fin q) (fin q), 0, 0], [0, 0], fr, some ![fin (P 0 0), fin (P 0 1), fin (P 1 0), fin (P 1 1)], true, 0⟩] }, .ok true) ∧
      |L - (a + t)| ≤ ε + (1 / 2 ^ 53 * |a + S| + 1 / 2 ^ 1075) ∧
      StateAfter fl lg surf (surf.globalToLocal (V3.re X Y Z)) om tl ph d z rx ry rz X Y Z t ε m (pt * vx) (pt * vy) (pt * vz) δ φ d' z' om' px py pz D ∧
      |q - θ| ≤ (2 / 10 ^ 6 + 60 * (B / c)) * θ ∧
      ∀ i j, |P i j - (offsets M O (trackDir (ph - om * t) tl))⁻¹ i j| ≤
        (1 / 2 ^ 39 + 80 * (|om| * arrivalError om d rx ry X Y ε δ)) / (offsets M O (trackDir (ph - om * t) tl)).det ^ 2 := by
  intro pt p c B θ hp1 hp2 hs hloss
  obtain ⟨δ, φ, d', z', om', px, py, pz, D, f, E, P, s, m1, m2, m3, m4, m5, m6⟩ := crossing_core (mm := mm) h hl ha h00 hat A hB hb hvx hvy hvz C hm hM hO hd hd'
    hp1 hp2 hloss
  obtain ⟨L, L1, L2⟩ := arc_sum h hSt hS ha2
  obtain ⟨q, q1, q2⟩ := s.scattering h hlg ((abs_nonneg _).trans A.nearX) hm hp1 hp2 rfl hs
  refine ⟨δ, φ, d', z', om', px, py, pz, D, L, q, P, some (Rnd.calculateLocalCurvilinearSystem fl lm atn 0 (hpR om' tl φ d' z')), ?_, L2, s, q2, m6⟩
  obtain ⟨ws, gl⟩ := withStart_of (fl := fl) (lm := lm) (at2 := at2) hT
  rw [Rnd.addScatterer]
  simp only [ws, gl]
  have key : scattererElement fl lm at2 asn atn lg mm env T.mass back surf = .ok (some ⟨fin L, ⟨C, hpR om' tl φ d' z', V3.re X Y Z⟩, none, some surf, false,
      some [V3.of M, V3.of O], [mulD fl (fin q) (fin q), 0, 0], [0, 0], some (Rnd.calculateLocalCurvilinearSystem fl lm atn 0 (hpR om' tl φ d' z')),
      some ![fin (P 0 0), fin (P 0 1), fin (P 1 0), fin (P 1 1)], true, 0⟩) := by
    rw [scattererElement]
    simp only [htp, harc, hi, Out.ok_bind, if_true, m1, m2, hmass, m3, s.loss, q1, hu, hv, L1]
    have e0 : (hpR om tl φ d' z') OMEGA = fin om := rfl
    simp only [e0, m4, set_hpR]
    rw [makeElement]
    simp only [m5, Out.ok_bind]
    rfl
  rw [key]
  rfl

/-- C159: a new measurement.  The element is appended as in `C159_scatterer`, with these differences: the bounds of the surface are not checked, the energy loss
is that at the measured position, the residuals are the measured minus the calculated local coordinates, the directions are those at the measured position, and the
weights are the given ones, followed by that of the scattering if the surface is also a scatterer.  A single weight is completed by 0. -/
theorem C159_measurement (h : NearestF 53 1074 fl) (hl : IsLibm lm) (ha : IsAtan2 at2) (h00 : |at2 0 0| ≤ 4) (hat : IsAtan atn)
    {om tl ph d z rx ry rz X Y Z t ε b m S a : ℝ} {x y w : ℝ → ℝ} (A : Arrival om tl ph d z rx ry rz X Y Z t ε x y w)
    {env : Env} (hB : (env.globalField (V3.re X Y Z)).z = fin b) (hb : Size |b|)
    {vx vy vz : ℝ} (hvx : HasDerivAt x vx t) (hvy : HasDerivAt y vy t) (hvz : HasDerivAt w vz t) {C : M5} {surf : Surface} (hm : SizeOrZero m)
    {T : Traj} {es : List Element} {back : Element} (hT : T.elems = es ++ [back]) (hmass : T.mass = fin m)
    (htp : back.tp = ⟨C, hpR om tl ph d z, V3.re rx ry rz⟩) (harc : back.arc = fin a) (ha2 : |a| ≤ 2 ^ 200)
    (hi : Rnd.intersectWithSurface fl lm at2 asn atn surf (hpR om tl ph d z) (V3.re rx ry rz) 0 V3.zero 1 false = .ok ⟨true, fin S, V3.re X Y Z⟩)
    (hS : |S| ≤ 2 ^ 200) (hSt : |S - t| ≤ ε) {Q : V3}
    {M O : R3} (hu : surf.u Q = V3.of M) (hv : surf.v Q = V3.of O) (hM : dot M M ≤ (1001 / 1000) ^ 2) (hO : dot O O ≤ (1001 / 1000) ^ 2)
    (hd : 1 / 2 ^ 24 ≤ |(offsets M O (trackDir (ph - om * t) tl)).det|)
    (hd' : 60 * (|om| * arrivalError om d rx ry X Y ε (1 / 2 ^ 21)) ≤ |(offsets M O (trackDir (ph - om * t) tl)).det|)
    {mu mv ru rv : ℝ} (hmuv : surf.globalToLocal Q = ⟨fin mu, fin mv⟩) (hruv : surf.globalToLocal (V3.re X Y Z) = ⟨fin ru, fin rv⟩)
    (hs1 : |mu| ≤ 2 ^ 200) (hs2 : |mv| ≤ 2 ^ 200) (hs3 : |ru| ≤ 2 ^ 200) (hs4 : |rv| ≤ 2 ^ 200) (prec : List Dbl) (id : ℕ) (sc : Bool) :
    let pt := |1 / om| * b * kBr
    let p := √((pt * vx) ^ 2 + (pt * vy) ^ 2 + (pt * vz) ^ 2)
    let B := 4 * (|om| * arrivalError om d rx ry X Y ε (1 / 2 ^ 21)) + 42 / 2 ^ 53
    1 / 2 ^ 90 ≤ p → p ≤ 2 ^ 90 →
    LossBounded fl lg surf (surf.globalToLocal Q) (pt * vx) (pt * vy) (pt * vz) m B →
    ∃ δ φ d' z' om' px py pz D L r1 r2, ∃ P : Matrix (Fin 2) (Fin 2) ℝ, ∃ fr weights,
      Rnd.addMeasurement fl lm at2 asn atn lg mm env T Q prec surf id sc =
        ({ T with elems := T.elems ++ [⟨fin L, ⟨C, hpR om' tl φ d' z', V3.re X Y Z⟩, none, some surf, true, some [V3.of M, V3.of O],
          weights, [fin r1, fin r2], fr, some ![fin (P 0 0), fin (P 0 1), fin (P 1 0), fin (P 1 1)], sc, id⟩] }, .ok true) ∧
      |L - (a + t)| ≤ ε + (1 / 2 ^ 53 * |a + S| + 1 / 2 ^ 1075) ∧
      |r1 - (mu - ru)| ≤ 1 / 2 ^ 53 * |mu - ru| + 1 / 2 ^ 1075 ∧ |r2 - (mv - rv)| ≤ 1 / 2 ^ 53 * |mv - rv| + 1 / 2 ^ 1075 ∧
      StateAfter fl lg surf (surf.globalToLocal Q) om tl ph d z rx ry rz X Y Z t ε m (pt * vx) (pt * vy) (pt * vz) δ φ d' z' om' px py pz D ∧
      (sc = false → (∀ u, prec = [u] → weights = [u, 0]) ∧ (prec.length ≠ 1 → weights = prec)) ∧
      (sc = true → IsLogLib lg → ∀ nx ny nz ti tO Xi Xo,
        Scatters surf (surf.globalToLocal (V3.re X Y Z)) (pt * vx) (pt * vy) (pt * vz) nx ny nz ti tO Xi Xo B →
        ∃ q, weights = prec ++ [mulD fl (fin q) (fin q), 0, 0] ∧
          let c := crossingCos (pt * vx) (pt * vy) (pt * vz) nx ny nz
          let θ := highland ((ti / Xi + tO / Xo) / c) p m
          |q - θ| ≤ (2 / 10 ^ 6 + 60 * (B / c)) * θ) ∧
      ∀ i j, |P i j - (offsets M O (trackDir (ph - om * t) tl))⁻¹ i j| ≤
        (1 / 2 ^ 39 + 80 * (|om| * arrivalError om d rx ry X Y ε δ)) / (offsets M O (trackDir (ph - om * t) tl)).det ^ 2 := by
  intro pt p B hp1 hp2 hloss
  obtain ⟨δ, φ, d', z', om', px, py, pz, D, f, E, P, s, m1, m2, m3, m4, m5, m6⟩ := crossing_core (mm := mm) h hl ha h00 hat A hB hb hvx hvy hvz C hm hM hO hd hd'
    hp1 hp2 hloss
  obtain ⟨L, L1, L2⟩ := arc_sum h hSt hS ha2
  obtain ⟨r1, r1e, r1b⟩ := residual_near h hs1 hs3
  obtain ⟨r2, r2e, r2b⟩ := residual_near h hs2 hs4
  obtain ⟨ws, gl⟩ := withStart_of (fl := fl) (lm := lm) (at2 := at2) hT
  obtain ⟨np, hnp⟩ : ∃ np, np = Rnd.measurementPrecision fl prec sc (Rnd.computeQMS fl lg surf ⟨fin ru, fin rv⟩ (V3.re px py pz) (fin m)) := ⟨_, rfl⟩
  refine ⟨δ, φ, d', z', om', px, py, pz, D, L, r1, r2, P, some (Rnd.calculateLocalCurvilinearSystem fl lm atn 0 (hpR om' tl φ d' z')),
    if np.length = 1 then np ++ [0] else np, ?_, L2, r1b, r2b, s, ?_, ?_, m6⟩
  · rw [Rnd.addMeasurement]
    simp only [ws, gl]
    have key : measurementElement fl lm at2 asn atn lg mm env T.mass back Q prec surf id sc = .ok (some ⟨fin L, ⟨C, hpR om' tl φ d' z', V3.re X Y Z⟩, none,
        some surf, true, some [V3.of M, V3.of O], if np.length = 1 then np ++ [0] else np, [fin r1, fin r2],
        some (Rnd.calculateLocalCurvilinearSystem fl lm atn 0 (hpR om' tl φ d' z')),
        some ![fin (P 0 0), fin (P 0 1), fin (P 1 0), fin (P 1 1)], sc, id⟩) := by
      rw [measurementElement]
      have sl := s.loss
      rw [hmuv] at m3 sl
      simp only [htp, harc, hi, Out.ok_bind, if_true, m1, m2, hmass, hmuv, hruv, m3, sl, hu, hv, L1, r1e, r2e, ← hnp]
      have e0 : (hpR om tl φ d' z') OMEGA = fin om := rfl
      simp only [e0, m4, set_hpR]
      rw [makeElement]
      simp only [m5, Out.ok_bind]
      rfl
    rw [key]
    rfl
  · intro hsc
    rw [hnp, Rnd.measurementPrecision, hsc]
    simp only [Bool.false_eq_true, if_false]
    refine ⟨fun u hu => ?_, fun hl => if_neg hl⟩
    rw [hu]
    rfl
  · intro hsc hlg nx ny nz ti tO Xi Xo hs
    obtain ⟨q, q1, q2⟩ := s.scattering h hlg ((abs_nonneg _).trans A.nearX) hm hp1 hp2 rfl hs
    refine ⟨q, ?_, q2⟩
    rw [hruv] at q1
    rw [hnp, Rnd.measurementPrecision, hsc, q1]
    simp

/-- C159: if no crossing is found, no element is added; the start element of an empty trajectory is kept. -/
theorem C159_missed {env : Env} {T : Traj} {surf : Surface} {es : List Element} {back : Element} (hT : (Rnd.withStart fl lm at2 T).elems = es ++ [back]) {hit : Hit}
    (hf : hit.found = false) :
    (Rnd.intersectWithSurface fl lm at2 asn atn surf back.tp.hp back.tp.rp 0 V3.zero 1 true = .ok hit →
      Rnd.addScatterer fl lm at2 asn atn lg mm env T surf = (Rnd.withStart fl lm at2 T, .ok false)) ∧
    ∀ Q prec id sc, Rnd.intersectWithSurface fl lm at2 asn atn surf back.tp.hp back.tp.rp 0 V3.zero 1 false = .ok hit →
      Rnd.addMeasurement fl lm at2 asn atn lg mm env T Q prec surf id sc = (Rnd.withStart fl lm at2 T, .ok false) := by
  have gl : (Rnd.withStart fl lm at2 T).elems.getLast? = some back := by rw [hT]; simp
  constructor
  · intro hi
    rw [Rnd.addScatterer]
    simp only [gl]
    rw [scattererElement]
    simp only [hi, Out.ok_bind, hf, Bool.false_eq_true, if_false]
    rfl
  · intro Q prec id sc hi
    rw [Rnd.addMeasurement]
    simp only [gl]
    rw [measurementElement]
    simp only [hi, Out.ok_bind, hf, Bool.false_eq_true, if_false]
    rfl

/-- C159: a trajectory without elements gets a start element first, with the parameters of the trajectory and the path length of the point that is closest to the
axis. -/
theorem C159_start {T : Traj} (hT : T.elems = []) :
    (Rnd.withStart fl lm at2 T).elems = [Element.start (Rnd.calculateSfromXY fl lm at2 0 0 T.ref.hp T.ref.rp) T.ref 0] ∧
    (Rnd.withStart fl lm at2 T).ref = T.ref ∧ (Rnd.withStart fl lm at2 T).mass = T.mass ∧
    (∀ env surf, Rnd.addScatterer fl lm at2 asn atn lg mm env T surf = Rnd.addScatterer fl lm at2 asn atn lg mm env (Rnd.withStart fl lm at2 T) surf) ∧
    ∀ env Q prec surf id sc, Rnd.addMeasurement fl lm at2 asn atn lg mm env T Q prec surf id sc =
      Rnd.addMeasurement fl lm at2 asn atn lg mm env (Rnd.withStart fl lm at2 T) Q prec surf id sc := by
  have e : (Rnd.withStart fl lm at2 T).elems = [Element.start (Rnd.calculateSfromXY fl lm at2 0 0 T.ref.hp T.ref.rp) T.ref 0] := by
    rw [Rnd.withStart, if_pos hT, Rnd.addElement, hT]
    rfl
  have i : Rnd.withStart fl lm at2 (Rnd.withStart fl lm at2 T) = Rnd.withStart fl lm at2 T := by
    rw [Rnd.withStart, if_neg (by rw [e]; simp)]
  refine ⟨e, ?_, ?_, fun env surf => ?_, fun env Q prec surf id sc => ?_⟩
  · rw [Rnd.withStart, if_pos hT]
    rfl
  · rw [Rnd.withStart, if_pos hT]
    rfl
  · rw [Rnd.addScatterer, Rnd.addScatterer, i]
  · rw [Rnd.addMeasurement, Rnd.addMeasurement, i]

/-- bound for the calculated loss in two layers -/
theorem loss_le (h : NearestF 53 1074 fl) (hlg : IsLogLib lg) {surf : Surface} {uv : V2} {px py pz nx ny nz m ti tO Zi Ai ri Zo Ao ro : ℝ} {Xi Xo : Dbl}
    (hn : surf.normal (surf.localToGlobal uv) = V3.re nx ny nz) (hti : surf.innerThickness = fin ti) (hto : surf.outerThickness = fin tO)
    (hmi : surf.innerMaterial = ⟨fin Zi, fin Ai, fin ri, Xi⟩) (hmo : surf.outerMaterial = ⟨fin Zo, fin Ao, fin ro, Xo⟩)
    (hMi : MatSize Zi Ai ri) (hMo : MatSize Zo Ao ro) (ht1 : SizeOrZero ti) (ht2 : SizeOrZero tO) (hm : MomSize m)
    (hP : MomSize (√(px ^ 2 + py ^ 2 + pz ^ 2))) (hN : nx ^ 2 + ny ^ 2 + nz ^ 2 ≤ (1001 / 1000) ^ 2)
    (hc : 1 / 2 ^ 20 ≤ crossingCos px py pz nx ny nz) :
    ∃ D, (Rnd.computeEnergyLoss fl lg surf uv (V3.re px py pz) (fin m)).deltaE = fin D ∧
      |D| ≤ 7 / betaSq (√(px ^ 2 + py ^ 2 + pz ^ 2)) m * (Zi / Ai * ri * ti + Zo / Ao * ro * tO) / crossingCos px py pz nx ny nz := by
  obtain ⟨D, e, b⟩ := C146_loss h hlg hn hti hto hmi hmo hMi hMo ht1 ht2 hm hP hN hc
  refine ⟨D, e, ?_⟩
  have big : Size (√(px ^ 2 + py ^ 2 + pz ^ 2)) :=
    ⟨le_trans (one_div_le_one_div_of_le (by positivity) (pow_le_pow_right₀ (by norm_num) (by norm_num))) hP.1,
      hP.2.trans (pow_le_pow_right₀ (by norm_num) (by norm_num))⟩
  have M' : Rel 50 (rV fl (V3.re px py pz)) (√(px ^ 2 + py ^ 2 + pz ^ 2)) (601 / 100) := ⟨hP.1, hP.2, (mom_rel (fl := fl) h big).val⟩
  have m' := Rel.given hm.1 hm.2
  have p0 : 0 < √(px ^ 2 + py ^ 2 + pz ^ 2) := M'.pos
  obtain ⟨-, li, -, x1, -, bi⟩ := (bethe_ap (rad := Xi) h hlg hMi M' m').val
  obtain ⟨-, lo, -, x2, -, bo⟩ := (bethe_ap (rad := Xo) h hlg hMo M' m').val
  have si := scale_le h hlg hMi M' m'
  have so := scale_le h hlg hMo M' m'
  obtain rfl := fin.inj x1
  obtain rfl := fin.inj x2
  simp only at b
  generalize √(px ^ 2 + py ^ 2 + pz ^ 2) = p at *
  generalize crossingCos px py pz nx ny nz = c at *
  have c0 : 0 < c := lt_of_lt_of_le (by positivity) hc
  have be : 0 < betaSq p m := by rw [betaSq]; positivity
  generalize bethe Zi Ai _ _ p m = li at *
  generalize bethe Zo Ao _ _ p m = lo at *
  have tp : ∀ {t : ℝ}, SizeOrZero t → 0 ≤ t / c := by
    rintro t (rfl | ht)
    · simp
    · exact div_nonneg (le_trans (by positivity) ht.1) c0.le
  have k : (850 + 280 / c) / 2 ^ 53 ≤ 1 := by
    rw [div_le_one (by positivity)]
    have : 280 / c ≤ 280 * 2 ^ 20 := by
      rw [div_le_iff₀ c0]
      norm_num at hc ⊢
      linarith
    norm_num at this ⊢
    linarith
  have layer : ∀ {Z A r t l s : ℝ}, MatSize Z A r → SizeOrZero t → |l| ≤ 10 * (0.307075e-3 * (Z / A) / betaSq p m * s) → s ≤ 2 ^ 11 →
      |l * r * (t / c)| + 0.307075e-3 * (Z / A) / betaSq p m * s * r * (t / c) ≤ 7 / betaSq p m * (Z / A * r * t) / c := by
    intro Z A r t l s hM ht hl hs
    have r0 : 0 < r := lt_of_lt_of_le (by positivity) hM.r1
    have Z0 : 0 < Z := lt_of_lt_of_le (by positivity) hM.Z1
    have A0 : 0 < A := lt_of_lt_of_le (by positivity) hM.A1
    have t0 := tp ht
    have k0 : 0 ≤ r * (t / c) := by positivity
    have k1 : 0 ≤ Z / A / betaSq p m := by positivity
    rw [mul_assoc l, abs_mul, abs_of_nonneg k0]
    have q1 := mul_le_mul_of_nonneg_right hl k0
    have q2 := mul_le_mul_of_nonneg_right (mul_le_mul_of_nonneg_left hs k1) k0
    have e1 : 7 / betaSq p m * (Z / A * r * t) / c = 7 * (Z / A / betaSq p m * (r * (t / c))) := by ring
    have e2 : 10 * (0.307075e-3 * (Z / A) / betaSq p m * s) * (r * (t / c)) = 0.307075e-3 * 10 * (Z / A / betaSq p m * s * (r * (t / c))) := by ring
    have e3 : 0.307075e-3 * (Z / A) / betaSq p m * s * r * (t / c) = 0.307075e-3 * (Z / A / betaSq p m * s * (r * (t / c))) := by ring
    have e4 : Z / A / betaSq p m * 2 ^ 11 * (r * (t / c)) = 2 ^ 11 * (Z / A / betaSq p m * (r * (t / c))) := by ring
    have k2 := mul_nonneg k1 k0
    rw [e1, e3]
    rw [e2] at q1
    rw [e4] at q2
    generalize Z / A / betaSq p m * (r * (t / c)) = U at *
    generalize Z / A / betaSq p m * s * (r * (t / c)) = V at *
    norm_num at *
    linarith
  have l1 := layer hMi ht1 bi si
  have l2 := layer hMo ht2 bo so
  have sz : ∀ {Z A r t s : ℝ}, MatSize Z A r → SizeOrZero t → 0 ≤ s → 0 ≤ 0.307075e-3 * (Z / A) / betaSq p m * s * r * (t / c) := by
    intro Z A r t s hM ht hs
    have r0 : 0 < r := lt_of_lt_of_le (by positivity) hM.r1
    have Z0 : 0 < Z := lt_of_lt_of_le (by positivity) hM.Z1
    have A0 : 0 < A := lt_of_lt_of_le (by positivity) hM.A1
    have t0 := tp ht
    positivity
  have nn : ∀ {Z A r s l : ℝ}, MatSize Z A r → |l| ≤ 10 * (0.307075e-3 * (Z / A) / betaSq p m * s) → 0 ≤ s := by
    intro Z A r s l hM hl
    have Z0 : 0 < Z := lt_of_lt_of_le (by positivity) hM.Z1
    have A0 : 0 < A := lt_of_lt_of_le (by positivity) hM.A1
    have k1 : 0 < 10 * (0.307075e-3 * (Z / A) / betaSq p m) := by positivity
    by_contra hs
    have := mul_neg_of_pos_of_neg k1 (not_le.1 hs)
    linarith [abs_nonneg l]
  have z1 := sz hMi ht1 (nn hMi bi)
  have z2 := sz hMo ht2 (nn hMo bo)
  have b' := b.trans (mul_le_of_le_one_left (add_nonneg z1 z2) k)
  have e1 : 7 / betaSq p m * (Zi / Ai * ri * ti + Zo / Ao * ro * tO) / c =
    7 / betaSq p m * (Zi / Ai * ri * ti) / c + 7 / betaSq p m * (Zo / Ao * ro * tO) / c := by ring
  rw [e1]
  have tri := abs_add_le (li * ri * (ti / c)) (lo * ro * (tO / c))
  have tri' := abs_sub_abs_le_abs_sub D (li * ri * (ti / c) + lo * ro * (tO / c))
  linarith

/-- C159: sufficient condition for the bound of the energy loss -/
theorem C159_thin (h : NearestF 53 1074 fl) (hlg : IsLogLib lg) {surf : Surface} {uv : V2} {gx gy gz nx ny nz m ti tO Zi Ai ri Zo Ao ro B : ℝ} {Xi Xo : Dbl}
    (hn : surf.normal (surf.localToGlobal uv) = V3.re nx ny nz) (hti : surf.innerThickness = fin ti) (hto : surf.outerThickness = fin tO)
    (hmi : surf.innerMaterial = ⟨fin Zi, fin Ai, fin ri, Xi⟩) (hmo : surf.outerMaterial = ⟨fin Zo, fin Ao, fin ro, Xo⟩)
    (hMi : MatSize Zi Ai ri) (hMo : MatSize Zo Ao ro) (ht1 : SizeOrZero ti) (ht2 : SizeOrZero tO) (hm : MomSize m)
    (hN : nx ^ 2 + ny ^ 2 + nz ^ 2 ≤ (1001 / 1000) ^ 2) (hB : 0 ≤ B) :
    let p := √(gx ^ 2 + gy ^ 2 + gz ^ 2)
    let c := crossingCos gx gy gz nx ny nz
    1 / 2 ^ 49 ≤ p → p ≤ 2 ^ 49 → 1 / 2 ^ 19 ≤ c → 1000 * B ≤ c →
    8 / betaSq p m * (Zi / Ai * ri * ti + Zo / Ao * ro * tO) / c ≤ √(p ^ 2 + m ^ 2) / 2 → LossBounded fl lg surf uv gx gy gz m B := by
  intro p c hp1 hp2 hc hBc hthin px py pz f1 f2
  have p0 : 0 < p := lt_of_lt_of_le (by positivity) hp1
  have m0 : 0 < m := lt_of_lt_of_le (by positivity) hm.1
  have c0 : 0 < c := lt_of_lt_of_le (by positivity) hc
  have c1 : c ≤ 1001 / 1000 := cos_le p0 hN
  have cn := cos_near (qx := px) (qy := py) (qz := pz) p0 hN f1 (by linarith)
  change |crossingCos px py pz nx ny nz - c| ≤ 22 / 10 * (4 * B) at cn
  change |√(px ^ 2 + py ^ 2 + pz ^ 2) - p| ≤ 76 / 2 ^ 53 * p at f2
  have hp100 : 76 / 2 ^ 53 * p ≤ 1 / 1000 * p := mul_le_mul_of_nonneg_right (by norm_num) p0.le
  have pb := abs_le.1 f2
  have cb := abs_le.1 cn
  have q1 : 999 / 1000 * p ≤ √(px ^ 2 + py ^ 2 + pz ^ 2) := by linarith
  have q2 : √(px ^ 2 + py ^ 2 + pz ^ 2) ≤ 2 * p := by linarith
  have c2 : 99 / 100 * c ≤ crossingCos px py pz nx ny nz := by linarith
  obtain ⟨D, e, b⟩ := loss_le h hlg hn hti hto hmi hmo hMi hMo ht1 ht2 hm (px := px) (py := py) (pz := pz) (by
    constructor
    · norm_num at hp1 ⊢
      linarith
    · norm_num at hp2 ⊢
      linarith) hN (by norm_num at hc ⊢; linarith)
  refine ⟨D, e, b.trans (le_trans ?_ hthin)⟩
  have pos : ∀ {Z A r t : ℝ}, MatSize Z A r → SizeOrZero t → 0 ≤ Z / A * r * t := by
    intro Z A r t hM ht
    have r0 : 0 < r := lt_of_lt_of_le (by positivity) hM.r1
    have Z0 : 0 < Z := lt_of_lt_of_le (by positivity) hM.Z1
    have A0 : 0 < A := lt_of_lt_of_le (by positivity) hM.A1
    have t0 : 0 ≤ t := by
      rcases ht with rfl | ht
      · exact le_rfl
      · exact le_trans (by positivity) ht.1
    positivity
  have W0 := add_nonneg (pos hMi ht1) (pos hMo ht2)
  clear b f1 f2 pb cn cb hthin e
  generalize Zi / Ai * ri * ti + Zo / Ao * ro * tO = W at *
  generalize √(px ^ 2 + py ^ 2 + pz ^ 2) = q at *
  generalize crossingCos px py pz nx ny nz = c' at *
  clear_value p c
  have q0 : 0 < q := lt_of_lt_of_le (by positivity) q1
  have c'0 : 0 < c' := lt_of_lt_of_le (by positivity) c2
  have be0 : 0 < betaSq p m := by rw [betaSq]; positivity
  have be : 99 / 100 * betaSq p m ≤ betaSq q m := by
    rw [betaSq, betaSq, ← mul_div_assoc, div_le_div_iff₀ (by positivity) (by positivity)]
    have s1 : (999 / 1000 * p) ^ 2 ≤ q ^ 2 := pow_le_pow_left₀ (by positivity) q1 2
    have s2 := mul_le_mul_of_nonneg_right s1 (sq_nonneg m)
    have s3 := mul_nonneg (sq_nonneg p) (sq_nonneg q)
    have s4 := mul_nonneg (sq_nonneg p) (sq_nonneg m)
    nlinarith
  rw [div_mul_eq_mul_div, div_mul_eq_mul_div, div_div, div_div]
  have den : 98 / 100 * (betaSq p m * c) ≤ betaSq q m * c' := by
    have := mul_le_mul be c2 (by positivity) (le_trans (by positivity) be)
    have := mul_pos be0 c0
    linarith
  calc 7 * W / (betaSq q m * c') ≤ 7 * W / (98 / 100 * (betaSq p m * c)) := div_le_div_of_nonneg_left (by positivity) (by positivity) den
    _ = 700 / 98 * (W / (betaSq p m * c)) := by field_simp; ring
    _ ≤ 8 * (W / (betaSq p m * c)) := mul_le_mul_of_nonneg_right (by norm_num) (by positivity)
    _ = 8 * W / (betaSq p m * c) := by ring

end Verif
