import Verif.Props.RoundedAdd

/-!
# C159: an example
-/

open Classical

noncomputable section

namespace Verif

open Dbl Rnd Spec Rounded

variable {fl : ℝ → ℝ} {lm : Libm} {at2 : ℝ → ℝ → ℝ} {asn atn : ℝ → ℝ} {lg : LogLib} {mm : M5 → M5 → M5}

theorem disk_tol : diskTolerance (1 / 128) 1 0 0 0 0 (0 + 0) 30 30 ≤ 1 / 10 ^ 10 := by
  rw [diskTolerance, diskArcError]
  have : (1 : ℝ) / 2 ^ 500 ≤ 1 / 2 ^ 100 := one_div_le_one_div_of_le (by positivity) (pow_le_pow_right₀ (by norm_num) (by norm_num))
  generalize (1 : ℝ) / 2 ^ 500 = v at *
  norm_num [abs_of_pos] at *
  linarith

/-- a disk of silicon at z = 30 cm without boundary -/
def siliconDisk : Surface where
  type := fun i => decide (i = 1 ∨ i = 5)
  isCone := false
  id := 0
  insideBounds := fun _ => true
  u := fun _ => V3.of ![1, 0, 0]
  v := fun _ => V3.of ![0, 1, 0]
  normal := fun _ => V3.re 0 0 1
  globalToLocal := fun p => ⟨p.x, p.y⟩
  localToGlobal := fun q => ⟨q.u, q.v, fin 30⟩
  origin := V3.re 0 0 30
  innerMaterial := ⟨fin 14, fin 28, fin 2.33, fin 9.37⟩
  outerMaterial := ⟨fin 14, fin 28, fin 2.33, fin 9.37⟩
  innerThickness := fin 0.03
  outerThickness := fin 0
  distance := fun p => p.z - fin 30
  cyl := none

theorem silicon_arrival (h : NearestF 53 1074 fl) (hl : IsLibm lm) :
    ∃ S X Y Z, ∃ x y w : ℝ → ℝ, Rnd.intersectWithSurface fl lm at2 asn atn siliconDisk (hpR (1 / 128) 1 0 0 0) (V3.re 0 0 0) 0 V3.zero 1 true =
        .ok ⟨true, fin S, V3.re X Y Z⟩ ∧ |S - 30| ≤ 1 / 10 ^ 10 ∧ |X - 128 * Real.sin (15 / 64)| ≤ 1 / 10 ^ 10 ∧
      |Y - -(128 * (1 - Real.cos (15 / 64)))| ≤ 1 / 10 ^ 10 ∧ |X| ≤ 129 ∧ |Y| ≤ 257 ∧ |S| ≤ 31 ∧
      Arrival (1 / 128) 1 0 0 0 0 0 0 X Y Z 30 (1 / 10 ^ 10) x y w ∧
      |(1 / 128 : ℝ)| * arrivalError (1 / 128) 0 0 0 X Y (1 / 10 ^ 10) (1 / 2 ^ 21) ≤ 1 / 10 ^ 6 ∧
      HasDerivAt x (Real.cos (15 / 64)) 30 ∧ HasDerivAt y (-Real.sin (15 / 64)) 30 ∧ HasDerivAt w 1 30 := by
  have tr := isTrack_r (om := 1 / 128) (tl := 1) (ph := 0) (d := 0) (z := 0) (rx := 0) (ry := 0) (rz := 0) (by norm_num)
  have big : ∀ {t : ℝ}, |t| ≤ 1000 → |t| ≤ 2 ^ 200 := fun ht => ht.trans (le_trans (show (1000 : ℝ) ≤ 2 ^ 10 by norm_num) (pow_le_pow_right₀ (by norm_num) (by norm_num)))
  have o1 : (1 : ℝ) / 2 ^ 100 ≤ |1 / 128| := by norm_num
  have hr : ∀ {s : ℝ}, |s| ≤ 1000 → HelixRange (1 / 128) 1 0 0 0 0 0 0 s := by
    intro s hs
    refine ⟨?_, ?_, ?_, ?_, ?_, ?_, ?_, ?_, ?_, big hs⟩
    · exact le_trans (one_div_le_one_div_of_le (by positivity) (pow_le_pow_right₀ (by norm_num) (by norm_num))) o1
    all_goals exact big (by norm_num)
  obtain ⟨ex, ey, ez⟩ := track_at (by norm_num) tr 30
  obtain ⟨S, X, Y, Z, hi, e1, e2, e3, e4⟩ := C148_disk (at2 := at2) (asn := asn) (atn := atn) (surf := siliconDisk) (ox := 0) (oy := 0) (oz := 30) (t := 30) h hl
    (hr (by norm_num)) (by norm_num) rfl (by simp [siliconDisk, SurfaceType.isZCylinder]) (by simp [siliconDisk, SurfaceType.isZPlane])
    (by simp [siliconDisk, SurfaceType.isZDisk]) tr (by rw [ez]; norm_num) (by
      have := disk_tol
      rw [diskTolerance] at this
      have v0 : (0 : ℝ) < 1 / 2 ^ 500 := by positivity
      generalize (1 : ℝ) / 2 ^ 500 = v at *
      norm_num at *
      linarith)
  have tol := disk_tol
  replace e1 := e1.trans tol
  replace e2 := e2.trans tol
  replace e3 := e3.trans tol
  replace e4 := e4.trans tol
  have hvx := tr.vel_x 30
  have hvy := tr.vel_y 30
  have hvz := tr.vel_z 30
  generalize rX (1 / 128) 0 0 0 = x at *
  generalize rY (1 / 128) 0 0 0 = y at *
  generalize rZ 1 0 0 = w at *
  have φe : (0 : ℝ) - 1 / 128 * 30 = -(15 / 64) := by norm_num
  rw [φe] at ex ey hvx hvy
  rw [Real.sin_neg, Real.sin_zero] at ex
  rw [Real.cos_neg, Real.cos_zero] at ey
  rw [Real.cos_neg] at hvx
  rw [Real.sin_neg] at hvy
  have ex : x 30 = 128 * Real.sin (15 / 64) := by rw [ex]; ring
  have ey : y 30 = -(128 * (1 - Real.cos (15 / 64))) := by rw [ey]; ring
  have ez : w 30 = 30 := by rw [ez]; ring
  have cs := Real.sin_sq_add_cos_sq (15 / 64)
  have sn := abs_le.1 (Real.abs_sin_le_one (15 / 64))
  have cn := abs_le.1 (Real.abs_cos_le_one (15 / 64))
  generalize Real.sin (15 / 64) = sφ at *
  generalize Real.cos (15 / 64) = cφ at *
  rw [ex] at e2
  rw [ey] at e3
  rw [ez] at e4
  have b1 := abs_le.1 e1
  have b2 := abs_le.1 e2
  have b3 := abs_le.1 e3
  have b4 := abs_le.1 e4
  have X1 : |X| ≤ 129 := abs_le.2 ⟨by linarith, by linarith⟩
  have Y1 : |Y| ≤ 257 := abs_le.2 ⟨by linarith, by linarith⟩
  have Z1 : |Z| ≤ 31 := abs_le.2 ⟨by linarith, by linarith⟩
  have S1 : |S| ≤ 31 := abs_le.2 ⟨by linarith, by linarith⟩
  have err : |(1 / 128 : ℝ)| * arrivalError (1 / 128) 0 0 0 X Y (1 / 10 ^ 10) (1 / 2 ^ 21) ≤ 1 / 10 ^ 6 := by
    rw [arrivalError]
    generalize |X| = X' at *
    generalize |Y| = Y' at *
    norm_num [abs_of_pos] at *
    linarith
  have A : Arrival (1 / 128) 1 0 0 0 0 0 0 X Y Z 30 (1 / 10 ^ 10) x y w :=
    { range := hr (by norm_num)
      o0 := o1
      o1 := by norm_num
      slope := by norm_num
      azimuth := by norm_num
      track := tr
      sizeX := big (X1.trans (by norm_num))
      sizeY := big (Y1.trans (by norm_num))
      sizeZ := big (Z1.trans (by norm_num))
      nearX := by rw [ex]; exact e2
      nearY := by rw [ey]; exact e3
      nearZ := by rw [ez]; exact e4
      turn := by rw [abs_of_pos (by norm_num)]; norm_num
      small := err.trans (by norm_num) }
  exact ⟨S, X, Y, Z, x, y, w, hi, e1, e2, e3, X1, Y1, S1, A, err, hvx, hvy, hvz⟩

theorem silicon_det : (6 : ℝ) / 10 ≤ |(offsets ![1, 0, 0] ![0, 1, 0] (trackDir (0 - 1 / 128 * 30) 1)).det| := by
  rw [C149_det]
  have : dot (trackDir (0 - 1 / 128 * 30) 1) (cross ![1, 0, 0] ![0, 1, 0]) = √2 / 2 := by
    simp [dot, trackDir, cross, Real.sin_pi_div_four]
  have r1 : (14 : ℝ) / 10 ≤ √2 := Real.le_sqrt' (by norm_num) |>.2 (by norm_num)
  rw [this, abs_of_pos (by positivity)]
  linarith

theorem silicon_momentum {pt cφ sφ : ℝ} (cs : sφ ^ 2 + cφ ^ 2 = 1) (hpt : pt = |1 / (1 / 128 : ℝ)| * 3.5 * kBr) :
    ∃ c, √((pt * cφ) ^ 2 + (pt * -sφ) ^ 2 + (pt * 1) ^ 2) = pt * √2 ∧ crossingCos (pt * cφ) (pt * -sφ) (pt * 1) 0 0 1 = c ∧ 6 / 10 ≤ c ∧ c ≤ 1 ∧
      14 / 10 ≤ pt * √2 ∧ pt * √2 ≤ 4 := by
  have k1 : kBr = 0.299792458 / 100 := by rw [kBr]; norm_num
  have pt1 : 1 ≤ pt ∧ pt ≤ 2 := by
    rw [hpt, k1, abs_of_pos (by norm_num)]
    norm_num
  have pt0 : 0 < pt := by linarith [pt1.1]
  have ep : √((pt * cφ) ^ 2 + (pt * -sφ) ^ 2 + (pt * 1) ^ 2) = pt * √2 := by
    rw [show (pt * cφ) ^ 2 + (pt * -sφ) ^ 2 + (pt * 1) ^ 2 = pt ^ 2 * 2 by linear_combination pt ^ 2 * cs, Real.sqrt_mul (sq_nonneg _), Real.sqrt_sq pt0.le]
  have r1 : (14 : ℝ) / 10 ≤ √2 := Real.le_sqrt' (by norm_num) |>.2 (by norm_num)
  have r2 : √2 ≤ (15 : ℝ) / 10 := Real.sqrt_le_left (by norm_num) |>.2 (by norm_num)
  have ec : crossingCos (pt * cφ) (pt * -sφ) (pt * 1) 0 0 1 = 1 / √2 := by
    rw [crossingCos, ep, mul_zero, mul_zero, zero_add, zero_add, mul_one, mul_one, ← div_div, div_self pt0.ne', abs_of_pos (by positivity)]
  refine ⟨1 / √2, ep, ec, ?_, ?_, ?_, ?_⟩
  · rw [le_div_iff₀ (by positivity)]
    linarith
  · rw [div_le_one (by positivity)]
    linarith
  · nlinarith [pt1.1]
  · nlinarith [pt1.2]

theorem silicon_loss (h : NearestF 53 1074 fl) (hlg : IsLogLib lg) {gx gy gz p c B : ℝ} (B0 : 0 ≤ B) (hB : B ≤ 1 / 10 ^ 5)
    (ep : √(gx ^ 2 + gy ^ 2 + gz ^ 2) = p) (ec : crossingCos gx gy gz 0 0 1 = c)
    (c1 : 6 / 10 ≤ c) (p1 : 14 / 10 ≤ p) (p2 : p ≤ 4) (uv : V2) : LossBounded fl lg siliconDisk uv gx gy gz 0.13957018 B := by
  have MS : MatSize 14 28 2.33 := by constructor <;> norm_num
  have key := C159_thin (uv := uv) (gx := gx) (gy := gy) (gz := gz) (m := 0.13957018) (nx := 0) (ny := 0) (nz := 1) (surf := siliconDisk)
    (ti := 0.03) (tO := 0) h hlg rfl rfl rfl rfl rfl MS MS (.inr (by norm_num)) (.inl rfl) (by unfold MomSize; norm_num) (by norm_num) B0
  simp only at key
  rw [ep, ec] at key
  refine key (le_trans (by norm_num) p1) (p2.trans (by norm_num)) (le_trans (by norm_num) c1) (by linarith) ?_
  have be : 9 / 10 ≤ betaSq p 0.13957018 := by
    rw [betaSq, le_div_iff₀ (by positivity)]
    nlinarith
  have E : 14 / 10 ≤ √(p ^ 2 + 0.13957018 ^ 2) := by
    refine Real.le_sqrt' (by norm_num) |>.2 ?_
    nlinarith
  refine le_trans ?_ (div_le_div_of_nonneg_right E (by norm_num))
  rw [div_mul_eq_mul_div, div_div, div_le_iff₀ (by positivity)]
  have : 54 / 100 ≤ betaSq p 0.13957018 * c := by nlinarith
  norm_num at this ⊢
  linarith

theorem silicon_angle {c p q x b : ℝ} (c0 : 0 < c) (x1 : 2 / 10 ^ 6 ≤ x / c) (p1 : 14 / 10 ≤ p)
    (hq : |q - highland (x / c) p 0.13957018| ≤ (2 / 10 ^ 6 + 60 * b) * highland (x / c) p 0.13957018) (hb : b ≤ 1 / 10 ^ 4) : 0 < q := by
  obtain ⟨y0, -⟩ := highland_near (m := 0.13957018) (ρ := 0) (x := x / c) (x' := x / c) (p := p) (p' := p) (by linarith) (by linarith) (by norm_num)
    (by simp) (by simp)
  have h3 := (abs_le.1 hq).1
  have h4 : (2 / 10 ^ 6 + 60 * b) * highland (x / c) p 0.13957018 ≤ 1 / 2 * highland (x / c) p 0.13957018 :=
    mul_le_mul_of_nonneg_right (by norm_num at hb ⊢; linarith) y0.le
  linarith

/-- hypotheses of C159: a helix of radius 128 cm in a field of 3.5 T that starts at the origin under 45 degrees and the disk of silicon at z = 30 cm -/
theorem C159_silicon (h : NearestF 53 1074 fl) (hl : IsLibm lm) (ha : IsAtan2 at2) (h00 : |at2 0 0| ≤ 4) (hat : IsAtan atn) (hlg : IsLogLib lg)
    (env : Env) (hE : env.globalField = fun _ => V3.re 0 0 3.5) (C : M5) (T : Traj) (hm : T.mass = fin 0.13957018)
    (hT : T.elems = [Element.start (fin 0) ⟨C, hpR (1 / 128) 1 0 0 0, V3.re 0 0 0⟩ 0]) :
    (∃ e L, Rnd.addScatterer fl lm at2 asn atn lg mm env T siliconDisk = ({ T with elems := T.elems ++ [e] }, .ok true) ∧ e.arc = fin L ∧ |L - 30| ≤ 1 / 10 ^ 9 ∧
      ∃ q, e.precisions = [mulD fl (fin q) (fin q), 0, 0] ∧ 0 < q) ∧
    ∃ e L r1 r2, Rnd.addMeasurement fl lm at2 asn atn lg mm env T (V3.re 30 (-4) 30) [fin 100, fin 400] siliconDisk 7 false =
        ({ T with elems := T.elems ++ [e] }, .ok true) ∧ e.arc = fin L ∧ |L - 30| ≤ 1 / 10 ^ 9 ∧ e.precisions = [fin 100, fin 400] ∧
      e.residuals = [fin r1, fin r2] ∧ |r1 - (30 - 128 * Real.sin (15 / 64))| ≤ 1 / 10 ^ 9 ∧
      |r2 - (-4 + 128 * (1 - Real.cos (15 / 64)))| ≤ 1 / 10 ^ 9 := by
  obtain ⟨S, X, Y, Z, x, y, w, hi, e1, e2, e3, X1, Y1, S1, A, err, hvx, hvy, hvz⟩ := silicon_arrival (at2 := at2) (asn := asn) (atn := atn) h hl
  have cs := Real.sin_sq_add_cos_sq (15 / 64)
  obtain ⟨pt, hpt⟩ : ∃ pt, pt = |1 / (1 / 128 : ℝ)| * 3.5 * kBr := ⟨_, rfl⟩
  obtain ⟨c, ep, ec, c1, c2, p1, p2⟩ := silicon_momentum cs hpt
  have det := silicon_det
  generalize Real.sin (15 / 64) = sφ at *
  generalize Real.cos (15 / 64) = cφ at *
  have hB : (env.globalField (V3.re X Y Z)).z = fin 3.5 := by rw [hE]; rfl
  have err0 : 0 ≤ |(1 / 128 : ℝ)| * arrivalError (1 / 128) 0 0 0 X Y (1 / 10 ^ 10) (1 / 2 ^ 21) :=
    mul_nonneg (abs_nonneg _) (arrivalError_nonneg (by norm_num))
  obtain ⟨B, hBd⟩ : ∃ B, B = 4 * (|(1 / 128 : ℝ)| * arrivalError (1 / 128) 0 0 0 X Y (1 / 10 ^ 10) (1 / 2 ^ 21)) + 42 / 2 ^ 53 := ⟨_, rfl⟩
  have B0 : 0 ≤ B := by rw [hBd]; positivity
  have B1 : B ≤ 1 / 10 ^ 5 := by
    rw [hBd]
    clear * - err
    norm_num at err ⊢
    linarith
  have loss := fun uv => silicon_loss h hlg B0 B1 ep ec c1 p1 p2 uv
  have big : ∀ {t : ℝ}, |t| ≤ 1000 → |t| ≤ 2 ^ 200 := fun ht => ht.trans (le_trans (show (1000 : ℝ) ≤ 2 ^ 10 by norm_num) (pow_le_pow_right₀ (by norm_num) (by norm_num)))
  have hd : (1 : ℝ) / 2 ^ 24 ≤ |(offsets ![1, 0, 0] ![0, 1, 0] (trackDir (0 - 1 / 128 * 30) 1)).det| := le_trans (by norm_num) det
  have hd' : 60 * (|(1 / 128 : ℝ)| * arrivalError (1 / 128) 0 0 0 X Y (1 / 10 ^ 10) (1 / 2 ^ 21)) ≤
      |(offsets ![1, 0, 0] ![0, 1, 0] (trackDir (0 - 1 / 128 * 30) 1)).det| := le_trans (by linarith) det
  have arc : ∀ {L : ℝ}, |L - (0 + 30)| ≤ 1 / 10 ^ 10 + (1 / 2 ^ 53 * |0 + S| + 1 / 2 ^ 1075) → |L - 30| ≤ 1 / 10 ^ 9 := by
    intro L hL
    rw [zero_add, zero_add] at hL
    refine hL.trans ?_
    clear * - S1
    have : (1 : ℝ) / 2 ^ 1075 ≤ 1 / 2 ^ 100 := one_div_le_one_div_of_le (by positivity) (pow_le_pow_right₀ (by norm_num) (by norm_num))
    generalize (1 : ℝ) / 2 ^ 1075 = v at *
    norm_num at this ⊢
    linarith
  have dots : dot (![1, 0, 0] : R3) ![1, 0, 0] ≤ (1001 / 1000) ^ 2 ∧ dot (![0, 1, 0] : R3) ![0, 1, 0] ≤ (1001 / 1000) ^ 2 := by
    constructor <;> simp [dot] <;> norm_num
  have hS3 : Size |(3.5 : ℝ)| := by unfold Size; norm_num
  have hm0 : SizeOrZero 0.13957018 := .inr (by norm_num)
  have P1 : (1 : ℝ) / 2 ^ 90 ≤ pt * √2 := le_trans (by norm_num) p1
  have P2 : pt * √2 ≤ 2 ^ 90 := p2.trans (by norm_num)
  have c0 : 0 < c := by linarith
  have x1 : (2 : ℝ) / 10 ^ 6 ≤ (0.03 / 9.37 + 0 / 9.37) / c := by
    rw [le_div_iff₀ c0]
    clear * - c2
    norm_num
    linarith
  have x2 : (0.03 / 9.37 + 0 / 9.37) / c ≤ 1 := by
    rw [div_le_iff₀ c0]
    clear * - c1
    norm_num
    linarith
  constructor
  · have key := C159_scatterer (lg := lg) (mm := mm) (asn := asn) (env := env) (surf := siliconDisk) (S := S) (a := 0) (m := 0.13957018) (M := ![1, 0, 0]) (O := ![0, 1, 0]) (T := T)
      (es := []) (back := Element.start (fin 0) ⟨C, hpR (1 / 128) 1 0 0 0, V3.re 0 0 0⟩ 0) (nx := 0) (ny := 0) (nz := 1) (ti := 0.03) (tO := 0) (Xi := 9.37) (Xo := 9.37)
      h hl ha h00 hat hlg A hB hS3 hvx hvy hvz hm0 hT hm rfl rfl (big (by norm_num)) hi (big (S1.trans (by norm_num))) e1 rfl rfl
      dots.1 dots.2 hd hd'
    simp only [← hpt, ← hBd] at key
    rw [ep, ec] at key
    obtain ⟨δ, φ, d', z', om', px, py, pz, D, L, q, P, fr, k1, k2, -, k4, -⟩ := key P1 P2
      ⟨rfl, rfl, rfl, rfl, rfl, .inr (by norm_num), .inl rfl, by norm_num, by unfold Size; norm_num, by unfold Size; norm_num, by norm_num,
        by rw [ec]; exact le_trans (by norm_num) c1, by rw [ec]; linarith, by rw [ec]; exact x1, by rw [ec]; exact x2.trans (by norm_num)⟩ (loss _)
    refine ⟨_, L, k1, rfl, arc k2, q, rfl, ?_⟩
    have b1 : B / c ≤ 1 / 10 ^ 4 := by
      rw [div_le_iff₀ c0]
      linarith
    exact silicon_angle c0 x1 p1 k4 b1
  · have hi' : Rnd.intersectWithSurface fl lm at2 asn atn siliconDisk (hpR (1 / 128) 1 0 0 0) (V3.re 0 0 0) 0 V3.zero 1 false = .ok ⟨true, fin S, V3.re X Y Z⟩ := by
      rw [← hi]
      rw [(C144_dispatch fl lm at2 asn atn siliconDisk _ _ _ _ _ true).2.2.1 (by simp [siliconDisk, SurfaceType.isZCylinder])
        (by simp [siliconDisk, SurfaceType.isZPlane]) (by simp [siliconDisk, SurfaceType.isZDisk]),
        (C144_dispatch fl lm at2 asn atn siliconDisk _ _ _ _ _ false).2.2.1 (by simp [siliconDisk, SurfaceType.isZCylinder])
        (by simp [siliconDisk, SurfaceType.isZPlane]) (by simp [siliconDisk, SurfaceType.isZDisk])]
      rfl
    have key := C159_measurement (lg := lg) (mm := mm) (asn := asn) (env := env) (surf := siliconDisk) (S := S) (a := 0) (m := 0.13957018) (M := ![1, 0, 0]) (O := ![0, 1, 0]) (T := T)
      (es := []) (back := Element.start (fin 0) ⟨C, hpR (1 / 128) 1 0 0 0, V3.re 0 0 0⟩ 0) (Q := V3.re 30 (-4) 30) (mu := 30) (mv := -4) (ru := X) (rv := Y)
      h hl ha h00 hat A hB hS3 hvx hvy hvz hm0 hT hm rfl rfl (big (by norm_num)) hi' (big (S1.trans (by norm_num))) e1 rfl rfl
      dots.1 dots.2 hd hd' rfl rfl (big (by norm_num)) (big (by norm_num)) (big (X1.trans (by norm_num))) (big (Y1.trans (by norm_num))) [fin 100, fin 400] 7 false
    simp only [← hpt, ← hBd] at key
    rw [ep] at key
    obtain ⟨δ, φ, d', z', om', px, py, pz, D, L, q1, q2, P, fr, ws, k1, k2, k3, k4, -, k6, -⟩ := key P1 P2 (loss _)
    have w2 := (k6 trivial).2 (by simp)
    have res : ∀ {a b r v : ℝ}, |r - (a - b)| ≤ 1 / 2 ^ 53 * |a - b| + 1 / 2 ^ 1075 → |a - b| ≤ 300 → |b - v| ≤ 1 / 10 ^ 10 → |r - (a - v)| ≤ 1 / 10 ^ 9 := by
      intro a b r v h1 h2 h3
      have h4 : |(a - b) - (a - v)| ≤ 1 / 10 ^ 10 := by
        rw [show (a - b) - (a - v) = -(b - v) by ring, abs_neg]
        exact h3
      refine (near_trans h1 h4).trans ?_
      clear * - h2
      have : (1 : ℝ) / 2 ^ 1075 ≤ 1 / 2 ^ 100 := one_div_le_one_div_of_le (by positivity) (pow_le_pow_right₀ (by norm_num) (by norm_num))
      generalize (1 : ℝ) / 2 ^ 1075 = v at *
      norm_num at this ⊢
      linarith
    refine ⟨_, L, q1, q2, k1, rfl, arc k2, w2, rfl, res k3 ?_ e2, ?_⟩
    · have := abs_le.1 X1
      exact abs_le.2 ⟨by linarith, by linarith⟩
    · have := res k4 ?_ e3
      · rwa [sub_neg_eq_add] at this
      · have := abs_le.1 Y1
        exact abs_le.2 ⟨by linarith, by linarith⟩

end Verif
