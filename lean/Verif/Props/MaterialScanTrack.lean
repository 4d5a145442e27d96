import Verif.Props.MaterialScan
import Verif.Props.Vector3D
import Mathlib.Analysis.Calculus.Deriv.MeanValue
import Mathlib.Analysis.SpecialFunctions.Trigonometric.Bounds

/-!
# C115, C116: the track of `check_materials` and `material_ntuples`, and the detailed list of materials
-/

open Classical

noncomputable section

namespace Verif

open Dbl Traj Spec MatScan

variable {om θ φ s : ℝ}

/-! ## C115 -/

theorem arctan_cot (h0 : 0 < θ) (h1 : θ < Real.pi) : Real.arctan (Real.tan (Real.pi / 2 - θ)) = Real.pi / 2 - θ :=
  Real.arctan_tan (by linarith) (by linarith)

theorem direction_re : direction (fin θ) (fin φ) = V3.re (Real.sin θ * Real.cos φ) (Real.sin θ * Real.sin φ) (Real.cos θ) := by
  simp [direction, V3.spherical, V3.re, one_eq]

/-- C115: for a polar angle between 0 and π the track starts at the origin in the given direction. -/
theorem C115_start_partial (hom : om ≠ 0) (h0 : 0 < θ) (h1 : θ < Real.pi) :
    pointAt (fin 0) (track (fin om) (fin θ) (fin φ)).hp (track (fin om) (fin θ) (fin φ)).rp = V3.re 0 0 0 ∧
    calculateTangent (fin 0) (track (fin om) (fin θ) (fin φ)).hp = direction (fin θ) (fin φ) := by
  have hs : Real.sin θ ≠ 0 := (Real.sin_pos_of_pos_of_lt_pi h0 h1).ne'
  rw [track_re hs, direction_re]
  constructor
  · rw [pointAt_re hom]
    simp [rX, rY, rZ]
  · rw [calculateTangent_re, arctan_cot h0 h1, Real.cos_pi_div_two_sub, Real.sin_pi_div_two_sub, mul_zero, sub_zero,
      mul_comm (Real.cos φ), mul_comm (Real.sin φ)]

/-- C115: the direction of the track at path length `s` differs from the given one by at most `|om s|`. -/
theorem C115_angle_partial (h0 : 0 < θ) (h1 : θ < Real.pi) :
    ∃ t1 t2 t3 : ℝ, calculateTangent (fin s) (track (fin om) (fin θ) (fin φ)).hp = V3.re t1 t2 t3 ∧
      (t1 - Real.sin θ * Real.cos φ) ^ 2 + (t2 - Real.sin θ * Real.sin φ) ^ 2 + (t3 - Real.cos θ) ^ 2 ≤ (om * s) ^ 2 := by
  have hs : Real.sin θ ≠ 0 := (Real.sin_pos_of_pos_of_lt_pi h0 h1).ne'
  rw [track_re hs]
  simp only
  rw [calculateTangent_re, arctan_cot h0 h1, Real.cos_pi_div_two_sub, Real.sin_pi_div_two_sub]
  refine ⟨_, _, _, rfl, ?_⟩
  have e : (Real.cos (φ - om * s) * Real.sin θ - Real.sin θ * Real.cos φ) ^ 2 +
      (Real.sin (φ - om * s) * Real.sin θ - Real.sin θ * Real.sin φ) ^ 2 + (Real.cos θ - Real.cos θ) ^ 2 =
      Real.sin θ ^ 2 * (2 * (1 - Real.cos (om * s))) := by
    rw [Real.cos_sub, Real.sin_sub]
    have a := Real.sin_sq_add_cos_sq φ
    have b := Real.sin_sq_add_cos_sq (om * s)
    linear_combination Real.sin θ ^ 2 * ((Real.sin (om * s) ^ 2 + (1 - Real.cos (om * s)) ^ 2) * a + b)
  rw [e]
  have c := Real.one_sub_sq_div_two_le_cos (x := om * s)
  have d := Real.cos_le_one (om * s)
  have f := Real.sin_sq_le_one θ
  have g := sq_nonneg (Real.sin θ)
  nlinarith

/-- the sagitta: distance of a point on a unit circle from its tangent, for arc length `a` -/
theorem sagitta (a : ℝ) : (a - Real.sin a) ^ 2 + (1 - Real.cos a) ^ 2 ≤ (a ^ 2 / 2) ^ 2 := by
  have key : ∀ x : ℝ, 0 ≤ x → x ^ 2 - 2 * x * Real.sin x + 2 - 2 * Real.cos x ≤ x ^ 4 / 4 := by
    set f : ℝ → ℝ := fun x => x ^ 4 / 4 - (x ^ 2 - 2 * x * Real.sin x + 2 - 2 * Real.cos x) with hf
    have hd : ∀ x, HasDerivAt f (x * (x ^ 2 - 2 * (1 - Real.cos x))) x := by
      intro x
      have h1 := (hasDerivAt_pow 4 x).div_const 4
      have h2 := hasDerivAt_pow 2 x
      have h3 := ((hasDerivAt_id x).const_mul 2).mul (Real.hasDerivAt_sin x)
      have h4 := (Real.hasDerivAt_cos x).const_mul 2
      have h := h1.sub (((h2.sub h3).add_const 2).sub h4)
      refine h.congr_deriv ?_
      simp
      ring
    have hm : MonotoneOn f (Set.Ici 0) := by
      refine monotoneOn_of_deriv_nonneg (convex_Ici 0) (fun x _ => (hd x).continuousAt.continuousWithinAt)
        (fun x _ => (hd x).differentiableAt.differentiableWithinAt) ?_
      intro x hx
      rw [interior_Ici] at hx
      rw [(hd x).deriv]
      have := Real.one_sub_sq_div_two_le_cos (x := x)
      exact mul_nonneg (le_of_lt hx) (by linarith)
    intro x hx
    have := hm (Set.mem_Ici.mpr le_rfl) (Set.mem_Ici.mpr hx) hx
    simp only [hf, Real.sin_zero, Real.cos_zero] at this
    linarith
  have h2 := Real.sin_sq_add_cos_sq a
  rcases le_total 0 a with h | h
  · have := key a h
    nlinarith
  · have := key (-a) (by linarith)
    rw [Real.sin_neg, Real.cos_neg] at this
    nlinarith

/-- C115: the position at path length `s` is within `om s²/2` of the straight line from the origin in the given direction. -/
theorem C115_straight_partial (hom : om ≠ 0) (h0 : 0 < θ) (h1 : θ < Real.pi) :
    ∃ x y z : ℝ, pointAt (fin s) (track (fin om) (fin θ) (fin φ)).hp (track (fin om) (fin θ) (fin φ)).rp = V3.re x y z ∧
      (x - s / Real.sin θ * (Real.sin θ * Real.cos φ)) ^ 2 + (y - s / Real.sin θ * (Real.sin θ * Real.sin φ)) ^ 2 +
        (z - s / Real.sin θ * Real.cos θ) ^ 2 ≤ (om * s ^ 2 / 2) ^ 2 := by
  have hs : Real.sin θ ≠ 0 := (Real.sin_pos_of_pos_of_lt_pi h0 h1).ne'
  rw [track_re hs, pointAt_re hom]
  refine ⟨_, _, _, rfl, ?_⟩
  have hz : rZ (Real.tan (Real.pi / 2 - θ)) 0 0 s - s / Real.sin θ * Real.cos θ = 0 := by
    rw [rZ, Real.tan_eq_sin_div_cos, Real.sin_pi_div_two_sub, Real.cos_pi_div_two_sub]
    ring
  have hx : s / Real.sin θ * (Real.sin θ * Real.cos φ) = s * Real.cos φ := by field_simp
  have hy : s / Real.sin θ * (Real.sin θ * Real.sin φ) = s * Real.sin φ := by field_simp
  rw [hz, hx, hy]
  have key := sagitta (s * om)
  have a := Real.sin_sq_add_cos_sq φ
  have e : (rX om φ 0 0 s - s * Real.cos φ) ^ 2 + (rY om φ 0 0 s - s * Real.sin φ) ^ 2 + 0 ^ 2 =
      ((s * om - Real.sin (s * om)) ^ 2 + (1 - Real.cos (s * om)) ^ 2) / om ^ 2 := by
    simp only [rX, rY, zero_mul, sub_zero, zero_add, add_zero, zero_sub]
    rw [Real.sin_sub, Real.cos_sub]
    field_simp
    rw [mul_comm om s]
    linear_combination ((s * om - Real.sin (s * om)) ^ 2 + (1 - Real.cos (s * om)) ^ 2) * a
  rw [e, div_le_iff₀ (by positivity)]
  calc _ ≤ _ := key
    _ = _ := by ring

/-- C115 is false as stated for other angles, e.g. -90 degrees: the track starts in the opposite direction. -/
theorem C115_false : ∃ θ φ : ℝ, direction (fin θ) (fin φ) = V3.re (-1) 0 0 ∧
    calculateTangent (fin 0) (track (1e-6 : Dbl) (fin θ) (fin φ)).hp = V3.re 1 0 0 := by
  refine ⟨-(Real.pi / 2), 0, ?_, ?_⟩
  · rw [direction_re]; simp [Real.sin_neg, Real.cos_neg]
  · rw [ofSci_eq, track_re (by simp)]
    simp only
    rw [calculateTangent_re, show Real.pi / 2 - -(Real.pi / 2) = Real.pi by ring]
    simp

/-- C115: degrees are converted to radians. -/
theorem C115_radians (deg : ℝ) : radians (fin deg) = fin (deg * (Real.pi / 180)) := by
  simp only [radians, ofNat_eq, pi_eq]
  rw [fin_div _ (by norm_num), fin_mul, fin_inj]
  ring

/-- C115, concrete case: the angle of 60 degrees. -/
example : radians (fin 60) = fin (Real.pi / 3) ∧ 0 < Real.pi / 3 ∧ Real.pi / 3 < Real.pi := by
  have := Real.pi_pos
  refine ⟨?_, by positivity, by linarith⟩
  rw [C115_radians, fin_inj]
  ring

/-! ## C116 -/

/-- a list of layers in real numbers: length, radiation length, interaction length -/
def layersOf (ls : List (ℝ × ℝ × ℝ)) : List Layer := ls.map fun l => ⟨fin l.1, fin l.2.1, fin l.2.2⟩

theorem matRows_re (d1 d2 d3 : ℝ) : ∀ (ls : List (ℝ × ℝ × ℝ)) (x lam p : ℝ), (∀ l ∈ ls, l.2.1 ≠ 0 ∧ l.2.2 ≠ 0) →
    (matRows (V3.re d1 d2 d3) (fin x) (fin lam) (fin p) (layersOf ls)).length = ls.length ∧
    ∀ k row, (matRows (V3.re d1 d2 d3) (fin x) (fin lam) (fin p) (layersOf ls))[k]? = some row →
      row.x0 = fin (x + ((ls.take (k + 1)).map fun l => l.1 / l.2.1).sum) ∧
      row.lambda = fin (lam + ((ls.take (k + 1)).map fun l => l.1 / l.2.2).sum) ∧
      row.pos = V3.re ((p + ((ls.take (k + 1)).map fun l => l.1).sum) * d1) ((p + ((ls.take (k + 1)).map fun l => l.1).sum) * d2)
        ((p + ((ls.take (k + 1)).map fun l => l.1).sum) * d3) := by
  intro ls
  induction ls with
  | nil => intro x lam p _; simp [layersOf, matRows]
  | cons l ls ih =>
    intro x lam p h
    obtain ⟨hX, hI⟩ := h l (by simp)
    have ih' := ih (x + l.1 / l.2.1) (lam + l.1 / l.2.2) (p + l.1) (fun l' hl' => h l' (by simp [hl']))
    have e : matRows (V3.re d1 d2 d3) (fin x) (fin lam) (fin p) (layersOf (l :: ls)) =
        ⟨V3.re ((p + l.1) * d1) ((p + l.1) * d2) ((p + l.1) * d3), fin (x + l.1 / l.2.1), fin (lam + l.1 / l.2.2)⟩ ::
          matRows (V3.re d1 d2 d3) (fin (x + l.1 / l.2.1)) (fin (lam + l.1 / l.2.2)) (fin (p + l.1)) (layersOf ls) := by
      simp only [layersOf, List.map_cons, matRows, fin_div _ hX, fin_div _ hI, fin_add, V3.smul, V3.re, fin_mul]
    rw [e]
    refine ⟨by rw [List.length_cons, ih'.1, List.length_cons], ?_⟩
    intro k row hk
    cases k with
    | zero =>
      simp only [List.getElem?_cons_zero, Option.some.injEq] at hk
      subst hk
      simp
    | succ k =>
      rw [List.getElem?_cons_succ] at hk
      obtain ⟨q1, q2, q3⟩ := ih'.2 k row hk
      rw [q1, q2, q3, List.take_succ_cons]
      simp only [List.map_cons, List.sum_cons, add_assoc, and_self]

/-- C116: the k-th entry contains the sums over the first k materials, at the corresponding distance along the line from the
origin to the last crossing. -/
theorem C116_rows {between : V3 → V3 → List Layer} {rows : List Row} {last : Row} (hlast : rows.getLast? = some last) {x y z : ℝ}
    (hp : last.xx = V3.re x y z)
    (hne : ¬ (x = 0 ∧ y = 0 ∧ z = 0)) (ls : List (ℝ × ℝ × ℝ)) (hb : between V3.zero (V3.re x y z) = layersOf ls)
    (hX : ∀ l ∈ ls, l.2.1 ≠ 0 ∧ l.2.2 ≠ 0) :
    ∃ u1 u2 u3 : ℝ, u1 ^ 2 + u2 ^ 2 + u3 ^ 2 = 1 ∧
      x = Real.sqrt (x ^ 2 + y ^ 2 + z ^ 2) * u1 ∧ y = Real.sqrt (x ^ 2 + y ^ 2 + z ^ 2) * u2 ∧
      z = Real.sqrt (x ^ 2 + y ^ 2 + z ^ 2) * u3 ∧
      (materials between rows).length = ls.length ∧
      ∀ k row, (materials between rows)[k]? = some row →
        row.x0 = fin ((ls.take (k + 1)).map fun l => l.1 / l.2.1).sum ∧
        row.lambda = fin ((ls.take (k + 1)).map fun l => l.1 / l.2.2).sum ∧
        row.pos = V3.re (((ls.take (k + 1)).map fun l => l.1).sum * u1) (((ls.take (k + 1)).map fun l => l.1).sum * u2)
          (((ls.take (k + 1)).map fun l => l.1).sum * u3) := by
  replace hp : endPoint rows = V3.re x y z := by rw [← hp, endPoint, hlast]; rfl
  obtain ⟨u1, u2, u3, k, e, h1, hk, rfl, rfl, rfl⟩ := C05_unit x y z hne
  have hsq : Real.sqrt ((k * u1) ^ 2 + (k * u2) ^ 2 + (k * u3) ^ 2) = k := by
    rw [show (k * u1) ^ 2 + (k * u2) ^ 2 + (k * u3) ^ 2 = k ^ 2 by linear_combination k ^ 2 * h1, Real.sqrt_sq hk.le]
  have hd : ((endPoint rows).sub V3.zero).unit = V3.re u1 u2 u3 := by
    rw [← e, hp]
    simp [V3.sub, V3.zero, V3.re]
  refine ⟨u1, u2, u3, h1, by rw [hsq], by rw [hsq], by rw [hsq], ?_⟩
  unfold materials
  simp only [hd]
  rw [hp, hb, zero_eq]
  have := matRows_re u1 u2 u3 ls 0 0 0 hX
  simpa only [zero_add] using this

/-- C116: if the lengths add up to the distance of the last crossing, the last entry is at this crossing. -/
theorem C116_end {between : V3 → V3 → List Layer} {rows : List Row} {last : Row} (hlast : rows.getLast? = some last) {x y z : ℝ}
    (hp : last.xx = V3.re x y z)
    (hne : ¬ (x = 0 ∧ y = 0 ∧ z = 0)) (ls : List (ℝ × ℝ × ℝ)) (hb : between V3.zero (V3.re x y z) = layersOf ls)
    (hX : ∀ l ∈ ls, l.2.1 ≠ 0 ∧ l.2.2 ≠ 0) (hl : (ls.map fun l => l.1).sum = Real.sqrt (x ^ 2 + y ^ 2 + z ^ 2))
    (row : MatRow) (hr : (materials between rows).getLast? = some row) : row.pos = last.xx := by
  obtain ⟨u1, u2, u3, -, e1, e2, e3, hlen, hrow⟩ := C116_rows hlast hp hne ls hb hX
  rw [List.getLast?_eq_getElem?] at hr
  obtain ⟨-, -, h3⟩ := hrow _ row hr
  have hpos : 0 < ls.length := by
    rw [← hlen]
    by_contra h0
    have : materials between rows = [] := List.eq_nil_of_length_eq_zero (by omega)
    rw [this] at hr
    simp at hr
  rw [hlen, show ls.length - 1 + 1 = ls.length by omega, List.take_length, hl, ← e1, ← e2, ← e3] at h3
  rw [h3, hp]

/-- C116, concrete case: a disk crossed at (0,0,2), and two materials on the way. -/
example : ∃ row, (materials (fun _ _ => layersOf [(1, 9, 30), (1, 5, 20)])
    [⟨fin 1, Example.disk, V3.re 0 0 2, fin 0, fin 0⟩]).getLast? = some row ∧ row.pos = V3.re 0 0 2 := by
  have hl : (([(1, 9, 30), (1, 5, 20)] : List (ℝ × ℝ × ℝ)).map fun l => l.1).sum = Real.sqrt (0 ^ 2 + 0 ^ 2 + 2 ^ 2) := by
    rw [show (0 : ℝ) ^ 2 + 0 ^ 2 + 2 ^ 2 = 2 ^ 2 by norm_num, Real.sqrt_sq (by norm_num)]
    norm_num
  have hX : ∀ l ∈ ([(1, 9, 30), (1, 5, 20)] : List (ℝ × ℝ × ℝ)), l.2.1 ≠ 0 ∧ l.2.2 ≠ 0 := by
    intro l hl
    simp only [List.mem_cons, List.not_mem_nil, or_false] at hl
    rcases hl with rfl | rfl <;> norm_num
  refine ⟨_, rfl, ?_⟩
  exact C116_end (between := fun _ _ => layersOf [(1, 9, 30), (1, 5, 20)])
    (rows := [⟨fin 1, Example.disk, V3.re 0 0 2, fin 0, fin 0⟩]) (x := 0) (y := 0) (z := 2) rfl rfl (by norm_num) _ rfl hX hl _ rfl

/-- C116 is false as stated if no surface is crossed: the positions are undefined. -/
theorem C116_empty_false {between : V3 → V3 → List Layer} (row : MatRow) (hr : row ∈ materials between []) :
    row.pos = ⟨nan, nan, nan⟩ := by
  have hd : ((endPoint []).sub V3.zero).unit = ⟨nan, nan, nan⟩ := by
    rw [← C05_unit_zero]
    simp [endPoint, V3.sub, V3.zero]
  unfold materials at hr
  simp only [hd] at hr
  have key : ∀ (ls : List Layer) (a b c : Dbl), ∀ row ∈ matRows ⟨nan, nan, nan⟩ a b c ls, row.pos = ⟨nan, nan, nan⟩ := by
    intro ls
    induction ls with
    | nil => intro a b c row h; simp [matRows] at h
    | cons l ls ih =>
      intro a b c row h
      rcases List.mem_cons.mp h with rfl | h
      · have : ∀ p : Dbl, p * nan = nan := fun p => by cases p <;> rfl
        simp only [V3.smul, this]
      · exact ih _ _ _ row h
  exact key _ _ _ _ row hr

end Verif
